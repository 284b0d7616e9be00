import Verif.Spec.Utils
/-
C106: the texts of whole numbers, as the documentation of `int` describes them.
-/
namespace Verif

/-- White space around a number. The separators 28-31 do not count, although `str.isspace` holds for them. -/
def NumberSpace (c : Char) : Prop := c.toNat ∈ whiteSpace ∧ c.toNat ∉ [28, 29, 30, 31]

/-- A text of digits with single underscores between them, and its digits. -/
inductive Digits : PyStr → PyStr → Prop
  | one {c : Char} : c.isDigit = true → Digits [c] [c]
  | next {c : Char} {s d : PyStr} : c.isDigit = true → Digits s d → Digits (c :: s) (c :: d)
  | under {c : Char} {s d : PyStr} : c.isDigit = true → Digits s d → Digits (c :: '_' :: s) (c :: d)

/-- The text of a whole number: white space, a sign or none, digits, white space. -/
def WholeNumber (s : PyStr) (n : Int) : Prop :=
  ∃ lead sign body trail digits : PyStr, s = lead ++ (sign ++ body) ++ trail ∧ (∀ c ∈ lead ++ trail, NumberSpace c) ∧ Digits body digits ∧
    ((sign = [] ∨ sign = ['+']) ∧ n = decimalValue digits ∨ sign = ['-'] ∧ n = -(decimalValue digits : Int))

end Verif
