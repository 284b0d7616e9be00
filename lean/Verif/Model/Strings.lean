import Verif.Model.Utils
/-
CLIXML string escaping (src/pypsrp/serializer.py 61-70, 564-588, 762-787).
-/
namespace Verif

/-- The UTF-16 code units of a character. -/
def charUnits (c : Char) : List UInt16 :=
  if c.toNat < 0x10000 then [UInt16.ofNat c.toNat]
  else [UInt16.ofNat (0xD800 + (c.toNat - 0x10000) / 0x400), UInt16.ofNat (0xDC00 + (c.toNat - 0x10000) % 0x400)]

/-- The UTF-16 code units of a string. -/
def utf16 (s : PyStr) : List UInt16 := s.flatMap charUnits

/-- A code unit as two big endian bytes. -/
def unitBytes (u : UInt16) : Bytes := [UInt8.ofNat (u.toNat / 256), UInt8.ofNat (u.toNat % 256)]

/-- `s.encode("utf-16-be")`. -/
def encodeUtf16BE (s : PyStr) : Bytes := (utf16 s).flatMap unitBytes

/-- Bytes as big endian code units; an odd number of bytes cannot be decoded. -/
def bytesUnits : Bytes → Except PyErr (List UInt16)
  | [] => .ok []
  | [_] => .error .unicodeError
  | h :: l :: bs => do
    let us ← bytesUnits bs
    return UInt16.ofNat (256 * h.toNat + l.toNat) :: us

def isHighSurrogate (u : UInt16) : Bool := 0xD800 ≤ u.toNat && u.toNat < 0xDC00
def isLowSurrogate (u : UInt16) : Bool := 0xDC00 ≤ u.toNat && u.toNat < 0xE000

/-- Code units as characters; lone surrogates cannot be decoded. -/
def unitsChars : List UInt16 → Except PyErr PyStr
  | [] => .ok []
  | [u] => if isHighSurrogate u || isLowSurrogate u then .error .unicodeError else .ok [Char.ofNat u.toNat]
  | u :: v :: us =>
    if isHighSurrogate u then
      if isLowSurrogate v then do
        let cs ← unitsChars us
        return Char.ofNat (0x10000 + (u.toNat - 0xD800) * 0x400 + (v.toNat - 0xDC00)) :: cs
      else .error .unicodeError
    else if isLowSurrogate u then .error .unicodeError
    else do
      let cs ← unitsChars (v :: us)
      return Char.ofNat u.toNat :: cs

/-- `b.decode("utf-16-be")`. -/
def decodeUtf16BE (b : Bytes) : Except PyErr PyStr := do unitsChars (← bytesUnits b)

/-- An upper case hexadecimal digit. -/
def hexDigit (n : Nat) : Char := if n < 10 then Char.ofNat (48 + n) else Char.ofNat (55 + n)

/-- `binascii.hexlify` of the two bytes of a unit in upper case, serializer.py 574. -/
def hex4 (u : UInt16) : PyStr :=
  [hexDigit (u.toNat / 4096), hexDigit (u.toNat / 256 % 16), hexDigit (u.toNat / 16 % 16), hexDigit (u.toNat % 16)]

/-- `"_x%s_" % i`, serializer.py 577. -/
def escapeUnit (u : UInt16) : PyStr := '_' :: 'x' :: (hex4 u ++ ['_'])

/-- serializer.py 64 `_serial_str`: C0, DEL and C1, and everything outside the basic plane. -/
def inSerialClass (c : Char) : Bool :=
  c.toNat ≤ 0x1f || (0x7f ≤ c.toNat && c.toNat ≤ 0x9f) || 0x10000 ≤ c.toNat

/-- serializer.py 571-577 `rplcr`: the hex text of the UTF-16 bytes cut into groups of four digits, one group per
code unit. -/
def serialReplace (c : Char) : PyStr := (charUnits c).flatMap escapeUnit

/-- serializer.py 585 `re.sub("(?i)_(x)", "_x005F_\\1", ..)`. -/
def subUnderscoreX : PyStr → PyStr
  | '_' :: c :: cs =>
    if c = 'x' ∨ c = 'X' then "_x005F_".toList ++ c :: subUnderscoreX cs
    else '_' :: subUnderscoreX (c :: cs)
  | c :: cs => c :: subUnderscoreX cs
  | [] => []

/-- serializer.py 564-588 `_serialize_string` of a string without lone surrogates. -/
def serializeString (s : PyStr) : PyStr :=
  (subUnderscoreX s).flatMap (fun c => if inSerialClass c then serialReplace c else [c])

/-- A byte that `[\0\w]` matches in a bytes pattern: NUL or an ASCII word character. -/
def isWordNul (b : UInt8) : Bool :=
  b.toNat = 0 || (48 ≤ b.toNat && b.toNat ≤ 57) || (65 ≤ b.toNat && b.toNat ≤ 90) || b.toNat = 95 ||
    (97 ≤ b.toNat && b.toNat ≤ 122)

/-- serializer.py 70 `_deserial_str` tried at the start of `bs`: the group and the bytes after the match. -/
def matchEscape (bs : Bytes) : Option (Bytes × Bytes) :=
  if bs.take 4 = [0x00, 0x5f, 0x00, 0x78] ∧ ((bs.drop 4).take 8).length = 8 ∧ ((bs.drop 4).take 8).all isWordNul ∧
      (bs.drop 12).take 2 = [0x00, 0x5f] then some ((bs.drop 4).take 8, bs.drop 14)
  else none

/-- The value of a hexadecimal digit. -/
def hexValue (c : Char) : Option Nat :=
  if c.isDigit then some (c.toNat - 48)
  else if 'a' ≤ c ∧ c ≤ 'f' then some (c.toNat - 87)
  else if 'A' ≤ c ∧ c ≤ 'F' then some (c.toNat - 55)
  else none

/-- `binascii.unhexlify` of a string: ValueError for non-ASCII characters, binascii.Error for an odd length or a
character that is not a hexadecimal digit. -/
def unhexlify (s : PyStr) : Except PyErr Bytes :=
  if s.any (fun c => 128 ≤ c.toNat) then .error .valueError
  else go s
where
  go : PyStr → Except PyErr Bytes
    | [] => .ok []
    | [_] => .error .binasciiError
    | a :: b :: cs =>
      match hexValue a, hexValue b with
      | some x, some y => do
        let r ← go cs
        return UInt8.ofNat (16 * x + y) :: r
      | _, _ => .error .binasciiError

/-- serializer.py 769-780 `rplcr`. -/
def deserialReplace (group : Bytes) : Except PyErr Bytes := do unhexlify (← decodeUtf16BE group)

/-- serializer.py 786 `re.sub(self._deserial_str, rplcr, unicode_bytes)`: the pattern is tried at every byte position
from the left, without regard to the alignment of code units. -/
def unescapeBytes (bs : Bytes) : Except PyErr Bytes :=
  match _h : matchEscape bs with
  | some (group, rest) => do
    let v ← deserialReplace group
    let r ← unescapeBytes rest
    return v ++ r
  | none =>
    match bs with
    | [] => .ok []
    | b :: bs => do
      let r ← unescapeBytes bs
      return b :: r
termination_by bs.length
decreasing_by
  · unfold matchEscape at _h
    split at _h
    · rename_i hc
      simp only [Option.some.injEq, Prod.mk.injEq] at _h
      rw [← _h.2, List.length_drop]
      have := hc.2.1
      simp only [List.length_take, List.length_drop] at this
      omega
    · simp at _h
  · simp

/-- serializer.py 762-787 `_deserialize_string`; None gives the empty string. -/
def deserializeString : Option PyStr → Except PyErr PyStr
  | none => .ok []
  | some s => do decodeUtf16BE (← unescapeBytes (encodeUtf16BE s))

end Verif
