import Verif.Spec.Encodings
/-
Specification of texts that are read as base64, as documented for `binascii.a2b_base64`: characters outside the alphabet are skipped, and what follows the padding of
the last group is ignored.
-/
namespace Verif

/-- The value of a character of RFC 4648 table 1. -/
def sextetOf (c : Char) : Option Nat := (List.range 64).find? fun n => decide (sextetChar n = c)

/-- The values of the characters of a text that are in the alphabet. -/
def sextetsIn (s : PyStr) : List Nat := s.filterMap sextetOf

def sixBits (n : Nat) : List Bool := [5, 4, 3, 2, 1, 0].map n.testBit

/-- A padding character after this text ends it: one after three characters of a group, or a second one after two. -/
def PaddingEnds (s : PyStr) : Prop :=
  (sextetsIn s).length % 4 = 3 ∨ ((sextetsIn s).length % 4 = 2 ∧ ∃ a c, s = a ++ '=' :: c ∧ sextetsIn c = [])

/-- The part of a text before the padding that ends it. -/
def ReadsUpTo (s used rest : PyStr) : Prop :=
  s = used ++ rest ∧ (∀ a c, used = a ++ '=' :: c → ¬ PaddingEnds a) ∧ (rest = [] ∨ ∃ r, rest = '=' :: r ∧ PaddingEnds used)

/-- The bytes whose bits are those of the characters; bits that are less than a byte are left over. -/
def BitsMake (values : List Nat) (b : Bytes) : Prop :=
  b.length = values.length * 6 / 8 ∧ b.flatMap bitsOf = (values.flatMap sixBits).take (8 * b.length)

/-- The text is base64 for these bytes: without padding at the end, its groups are complete. -/
def Base64Text (s : PyStr) (b : Bytes) : Prop :=
  ∃ used rest, ReadsUpTo s used rest ∧ (rest = [] → (sextetsIn used).length % 4 = 0) ∧ BitsMake (sextetsIn used) b

/-- The same for texts in ASCII. -/
def Base64Ascii (s : PyStr) (b : Bytes) : Prop := (∀ c ∈ s, c.toNat < 128) ∧ Base64Text s b

end Verif
