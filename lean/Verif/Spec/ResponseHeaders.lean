import Verif.Model.Utils
/-
Specification of what is found in the headers of responses.
-/
namespace Verif

/-- The schemes whose tokens are looked for. -/
def tokenSchemes : List PyStr := ["KERBEROS".toList, "NEGOTIATE".toList, "NTLM".toList]

/-- At this place a header has the name of a scheme, in upper or lower case. -/
def SchemeAt (header : PyStr) (i : Nat) (name : PyStr) : Prop :=
  name ∈ tokenSchemes ∧ ((header.drop i).take name.length).map Char.toUpper = name

/-- The text after the first name of a scheme in a header, without white space before it, up to the next comma or the end. -/
def TokenIn (header text : PyStr) : Prop :=
  ∃ i name gap rest, SchemeAt header i name ∧ (∀ j < i, ∀ m, ¬ SchemeAt header j m) ∧ header.drop (i + name.length) = gap ++ text ++ rest ∧
    (∀ c ∈ gap, isPySpace c = true) ∧ (∀ c, text.head? = some c → isPySpace c = false) ∧ ',' ∉ text ∧ (rest = [] ∨ rest.head? = some ',')

def isQuote (c : Char) : Prop := c = '"' ∨ c = '|'

/-- At this place a content type has a boundary in quotes: up to the last quote of the line. -/
def BoundaryAt (contentType : PyStr) (i : Nat) (boundary : PyStr) : Prop :=
  ∃ first last rest, contentType.drop i = "boundary=".toList ++ first :: (boundary ++ last :: rest) ∧ isQuote first ∧ isQuote last ∧ '\n' ∉ boundary ∧
    ∀ c ∈ rest.takeWhile (· ≠ '\n'), ¬ isQuote c

/-- The first boundary. -/
def BoundaryIn (contentType boundary : PyStr) : Prop :=
  ∃ i, BoundaryAt contentType i boundary ∧ ∀ j < i, ∀ b, ¬ BoundaryAt contentType j b

/-- RFC 9110 5.6.6: a parameter with a value in quotes. -/
def parameter (name value : String) : PyStr := (name ++ "=\"" ++ value ++ "\"").toList

end Verif
