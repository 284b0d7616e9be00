import Verif.Model.Base64
import Verif.Model.Serializer
import Verif.Spec.Strings
/-
Specifications for the texts of numbers, ids and bytes: RFC 4648 (base64), RFC 4122 (ids), RFC 2781 (UTF-16).
-/
namespace Verif

/-- The bits of a byte, the highest first. -/
def bitsOf (b : UInt8) : List Bool := [7, 6, 5, 4, 3, 2, 1, 0].map b.toNat.testBit

/-- The number that bits denote, the highest first. -/
def bitsValue (l : List Bool) : Nat := l.foldl (fun n b => 2 * n + b.toNat) 0

/-- RFC 4648 4: groups of six bits, the last filled with zeros. -/
def sextets : List Bool → List (List Bool)
  | a :: b :: c :: d :: e :: f :: rest => [a, b, c, d, e, f] :: sextets rest
  | [] => []
  | short => [short ++ List.replicate (6 - short.length) false]

/-- RFC 4648 table 1. -/
def sextetChar (n : Nat) : Char :=
  if n < 26 then Char.ofNat ('A'.toNat + n) else if n < 52 then Char.ofNat ('a'.toNat + (n - 26))
  else if n < 62 then Char.ofNat ('0'.toNat + (n - 52)) else if n = 62 then '+' else '/'

/-- RFC 4648 4: a character for each group, filled to groups of four. -/
def base64Of (b : Bytes) : PyStr :=
  (sextets (b.flatMap bitsOf)).map (fun g => sextetChar (bitsValue g)) ++ List.replicate ((3 - b.length % 3) % 3) '='

/-- The number that bytes denote, the highest first. -/
def bytesValue (b : Bytes) : Nat := b.foldl (fun n x => 256 * n + x.toNat) 0

/-- The hexadecimal digits `i` to `j - 1` of a number of 32 digits. -/
def hexDigits (n i j : Nat) : PyStr := (List.range' i (j - i)).map fun k => "0123456789abcdef".toList.getD (n / 16 ^ (31 - k) % 16) '?'

/-- RFC 4122 3: the text of an id. -/
def uuidText (n : Nat) : PyStr :=
  hexDigits n 0 8 ++ "-".toList ++ hexDigits n 8 12 ++ "-".toList ++ hexDigits n 12 16 ++ "-".toList ++ hexDigits n 16 20 ++ "-".toList ++ hexDigits n 20 32

end Verif
