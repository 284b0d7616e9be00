import Verif.Model.Strings
/-
Specification of CLIXML escaping: texts as sequences of literal code units and `_xHHHH_` escapes.
-/
namespace Verif

/-- The character is a hexadecimal digit (either case) of this value. -/
abbrev IsHexDigit (c : Char) (n : Nat) : Prop :=
  (n < 10 ∧ c.toNat = 48 + n) ∨ (10 ≤ n ∧ n < 16 ∧ (c.toNat = 55 + n ∨ c.toNat = 87 + n))

/-- The four characters are hexadecimal digits (either case) of the unit `u`. -/
def IsHexOf (u : UInt16) (a b c d : Char) : Prop :=
  ∃ w x y z, IsHexDigit a w ∧ IsHexDigit b x ∧ IsHexDigit c y ∧ IsHexDigit d z ∧
    u.toNat = 4096 * w + 256 * x + 16 * y + z

/-- A piece of text a server may write for one code unit: the unit itself or an escape with the given digits. -/
inductive Piece where
  | lit (u : UInt16)
  | esc (u : UInt16) (a b c d : Char)

/-- The code unit that is meant. -/
def Piece.meant : Piece → UInt16
  | .lit u => u
  | .esc u _ _ _ _ => u

/-- The digits of an escape denote its unit. -/
def Piece.Valid : Piece → Prop
  | .lit _ => True
  | .esc u a b c d => IsHexOf u a b c d

/-- The code units written. -/
def Piece.written : Piece → List UInt16
  | .lit u => [u]
  | .esc _ a b c d => 0x5F :: 0x78 :: (utf16 [a, b, c, d] ++ [0x5F])

/-- High and low byte of a code unit. -/
def hiByte (u : UInt16) : UInt8 := UInt8.ofNat (u.toNat / 256)
def loByte (u : UInt16) : UInt8 := UInt8.ofNat (u.toNat % 256)

/-- NUL, a letter, a digit or an underscore. -/
def isWordByte (b : UInt8) : Bool := b == 0 || (Char.ofNat b.toNat).isAlphanum || b == 0x5F

/-- Both bytes of the unit are NUL or ASCII word characters. -/
def isWordUnit (u : UInt16) : Bool := isWordByte (hiByte u) && isWordByte (loByte u)

/-- The text starts with something the reader takes for an escape: `_x`, four units of word characters, `_`. -/
def LooksEscaped (us : List UInt16) : Prop :=
  ∃ a b c d rest, us = 0x5F :: 0x78 :: a :: b :: c :: d :: 0x5F :: rest ∧
    isWordUnit a ∧ isWordUnit b ∧ isWordUnit c ∧ isWordUnit d

/-- The same pattern shifted by one byte: it starts in the low byte of the first unit and ends in the high byte of the
eighth. -/
def LooksEscapedShifted (us : List UInt16) : Prop :=
  ∃ u0 u2 u3 u4 u5 u6 u7 rest, us = u0 :: 0x5F00 :: u2 :: u3 :: u4 :: u5 :: u6 :: u7 :: rest ∧
    loByte u0 = 0 ∧ hiByte u2 = 0x78 ∧ isWordByte (loByte u2) ∧ isWordUnit u3 ∧ isWordUnit u4 ∧ isWordUnit u5 ∧
    isWordByte (hiByte u6) ∧ loByte u6 = 0 ∧ hiByte u7 = 0x5F

/-- No literal piece starts something that looks like an escape. -/
def Unambiguous : List Piece → Prop
  | [] => True
  | .lit u :: ps => ¬ LooksEscaped (u :: ps.flatMap Piece.written) ∧
      ¬ LooksEscapedShifted (u :: ps.flatMap Piece.written) ∧ Unambiguous ps
  | .esc _ _ _ _ _ :: ps => Unambiguous ps

/-- The shifted pattern at the start of a string: eight consecutive characters U+xx00 U+5F00 U+78.. ... U+..00 U+5F..
of the basic plane, none of which is escaped (none is U+0000 and no underscore is followed by x or X). -/
def ShiftedPattern (s : PyStr) : Prop :=
  (∀ c ∈ s.take 8, 0 < c.toNat ∧ c.toNat < 0x10000) ∧
  (∀ a b rest, s.take 8 = a ++ '_' :: b :: rest → b ≠ 'x' ∧ b ≠ 'X') ∧
  LooksEscapedShifted (utf16 (s.take 8))

/-- The string contains the shifted pattern somewhere. -/
def HasShiftedPattern (s : PyStr) : Prop := ∃ n, ShiftedPattern (s.drop n)

/-- RFC 2781 2.1: the code units of a character. -/
def unitsOf (c : Char) : List Nat :=
  if c.toNat < 0x10000 then [c.toNat] else [0xD800 + (c.toNat - 0x10000) / 0x400, 0xDC00 + (c.toNat - 0x10000) % 0x400]

/-- The escape of a code unit with its digits in upper case. -/
def hexEscape (u : Nat) : PyStr :=
  "_x".toList ++ [4096, 256, 16, 1].map (fun p => "0123456789ABCDEF".toList.getD (u / p % 16) '?') ++ "_".toList

/-- What the escaped form has for the character `c` followed by `next`. -/
def escapedChar (c : Char) (next : Option Char) : PyStr :=
  if c = '_' ∧ (next = some 'x' ∨ next = some 'X') then "_x005F_".toList
  else if c.toNat ≤ 0x1f ∨ (0x7f ≤ c.toNat ∧ c.toNat ≤ 0x9f) ∨ 0x10000 ≤ c.toNat then
    (unitsOf c).flatMap hexEscape
  else [c]

/-- The characters of XML 1.0 (production [2] Char). -/
def IsXmlChar (c : Char) : Prop :=
  c.toNat = 0x9 ∨ c.toNat = 0xA ∨ c.toNat = 0xD ∨ (0x20 ≤ c.toNat ∧ c.toNat ≤ 0xD7FF) ∨
    (0xE000 ≤ c.toNat ∧ c.toNat ≤ 0xFFFD) ∨ 0x10000 ≤ c.toNat

end Verif
