import Verif.Model.Bytes
import Verif.Model.Utils
/-
WinRM message encryption (src/pypsrp/encryption.py).
-/
namespace Verif

/-- `to_bytes` of ASCII text. -/
def ascii (s : PyStr) : Bytes := s.map (fun c => UInt8.ofNat c.toNat)

/-- encryption.py 15-17, 19-22: the protocol, i.e. the content type of the sealed data. -/
inductive SealProtocol where
  | credSSP | kerberos | spnego
  deriving DecidableEq, Repr

def SealProtocol.text : SealProtocol → PyStr
  | .credSSP => "application/HTTP-CredSSP-session-encrypted".toList
  | .kerberos => "application/HTTP-Kerberos-session-encrypted".toList
  | .spnego => "application/HTTP-SPNEGO-session-encrypted".toList

/-- The security context (pypsrp.negotiate, requests_credssp): `wrap_winrm` and `unwrap_winrm`. A context has state
(sequence numbers), so both functions get the number of the call. -/
structure SealContext where
  wrap : Nat → Bytes → Bytes × Bytes × Nat
  unwrap : Nat → Bytes → Bytes → Except PyErr Bytes

/-- encryption.py 13. -/
def sixteenKB : Nat := 16384

/-- encryption.py 14 `MIME_BOUNDARY`. -/
def mimeBoundary : Bytes := ascii "--Encrypted Boundary".toList

def crlf : Bytes := [13, 10]

/-- encryption.py 86-95: the header of one part. -/
def partHeader (p : SealProtocol) (length : Nat) : Bytes :=
  mimeBoundary ++ crlf ++ ascii "\tContent-Type: ".toList ++ ascii p.text ++ crlf ++
    ascii "\tOriginalContent: type=application/soap+xml;charset=UTF-8;Length=".toList ++ ascii (pyStrNat length) ++ crlf ++
    mimeBoundary ++ crlf ++ ascii "\tContent-Type: application/octet-stream".toList ++ crlf

/-- encryption.py 80-96 `_wrap_message`, the `k`th call on the context. `struct.pack("<i")` raises from 2^31 on. -/
def wrapOne (ctx : SealContext) (p : SealProtocol) (k : Nat) (message : Bytes) : Except PyErr Bytes :=
  let (header, data, padding) := ctx.wrap k message
  if header.length < 2 ^ 31 then
    .ok (partHeader p (message.length + padding) ++ (leEnc 4 header.length ++ header ++ data))
  else .error .structError

/-- encryption.py 29 `[message[i : i + n] for i in range(0, len(message), n)]`. -/
def chunksOf (n : Nat) (hn : 0 < n) (m : Bytes) : List Bytes :=
  if h : m = [] then [] else m.take n :: chunksOf n hn (m.drop n)
termination_by m.length
decreasing_by
  have : 0 < m.length := List.length_pos_iff.mpr h
  simp only [List.length_drop]
  omega

/-- encryption.py 30-32. -/
def wrapChunks (ctx : SealContext) (p : SealProtocol) (k : Nat) : List Bytes → Except PyErr Bytes
  | [] => .ok []
  | c :: cs => do
    let x ← wrapOne ctx p k c
    let xs ← wrapChunks ctx p (k + 1) cs
    return x ++ xs

/-- encryption.py 26-29, 33: the pieces that are sealed. -/
def wrapPieces (p : SealProtocol) (message : Bytes) : List Bytes :=
  if p = .credSSP ∧ message.length > sixteenKB then chunksOf sixteenKB (by decide) message else [message]

/-- encryption.py 27, 34: the content type. -/
def wrapContentType (p : SealProtocol) (message : Bytes) : PyStr :=
  if p = .credSSP ∧ message.length > sixteenKB then "multipart/x-multi-encrypted".toList else "multipart/encrypted".toList

/-- encryption.py 24-40 `wrap_message`. -/
def wrapMessage (ctx : SealContext) (p : SealProtocol) (message : Bytes) : Except PyErr (PyStr × Bytes) := do
  let body ← wrapChunks ctx p 0 (wrapPieces p message)
  return (wrapContentType p message, body ++ (mimeBoundary ++ ascii "--".toList ++ crlf))

/-- `\s` in a bytes pattern. -/
def isByteSpace (b : UInt8) : Bool := (9 ≤ b.toNat && b.toNat ≤ 13) || b.toNat == 32

/-- The pattern `--\s*BOUNDARY TAIL` tried at the start of `m`: what follows the match. Exact for a boundary that does
not start with white space. -/
def matchBoundary (boundary tail m : Bytes) : Option Bytes :=
  match m with
  | 45 :: 45 :: r =>
    let r := r.dropWhile isByteSpace
    if (boundary ++ tail).isPrefixOf r then some (r.drop (boundary ++ tail).length) else none
  | _ => none

theorem matchBoundary_length {boundary tail m r : Bytes} (h : matchBoundary boundary tail m = some r) :
    r.length < m.length := by
  unfold matchBoundary at h
  split at h
  · rename_i r'
    dsimp only at h
    split at h
    · simp only [Option.some.injEq] at h
      subst h
      have := (List.dropWhile_sublist isByteSpace (l := r')).length_le
      simp only [List.length_drop, List.length_cons]
      omega
    · simp at h
  · simp at h

/-- encryption.py 47 `re.compile(r"--\s*BOUNDARY\r\n").split(message)`. -/
def splitBoundary (boundary : Bytes) (cur m : Bytes) : List Bytes :=
  match _h : matchBoundary boundary crlf m with
  | some rest => cur :: splitBoundary boundary [] rest
  | none =>
    match m with
    | [] => [cur]
    | b :: bs => splitBoundary boundary (cur ++ [b]) bs
termination_by m.length
decreasing_by
  · exact matchBoundary_length _h
  · simp

/-- encryption.py 58 `re.sub(r"--\s*BOUNDARY--\r\n$", b"", payload)`; `$` matches at the end and before a final line
feed. The boundary is not escaped there; exact for boundaries without special characters of regular expressions. -/
def removeEnd (boundary : Bytes) : Bytes → Bytes
  | [] => []
  | b :: bs =>
    match matchBoundary boundary [45, 45, 13, 10] (b :: bs) with
    | some [] => []
    | some [10] => [10]
    | _ => b :: removeEnd boundary bs

/-- `bytes.replace(pattern, b"")`. -/
def removeAll (pattern : Bytes) (hp : pattern ≠ []) (m : Bytes) : Bytes :=
  if _h : pattern.isPrefixOf m = true then removeAll pattern hp (m.drop pattern.length)
  else match m with
    | [] => []
    | b :: bs => b :: removeAll pattern hp bs
termination_by m.length
decreasing_by
  · have h1 := (List.isPrefixOf_iff_prefix.mp _h).length_le
    have h2 := List.length_pos_iff.mpr hp
    simp only [List.length_drop]
    omega
  · simp

/-- `bytes.strip()`. -/
def stripBytes (b : Bytes) : Bytes := ((b.dropWhile isByteSpace).reverse.dropWhile isByteSpace).reverse

/-- The bytes before the next occurrence of a pattern. -/
def upTo (pattern : Bytes) : Bytes → Bytes
  | [] => []
  | b :: bs => if pattern.isPrefixOf (b :: bs) then [] else b :: upTo pattern bs

/-- The bytes after the first occurrence of a pattern. -/
def afterFirst (pattern : Bytes) : Bytes → Option Bytes
  | [] => none
  | b :: bs => if pattern.isPrefixOf (b :: bs) then some ((b :: bs).drop pattern.length) else afterFirst pattern bs

/-- `int(b)` of bytes: as `int` of the text, for ASCII bytes. (Python does not skip the four separators 0x1c to 0x1f here;
they are stripped in this model.) -/
def intBytes (b : Bytes) : Except PyErr Int :=
  if b.any (fun x => 128 ≤ x.toNat) then .error .valueError else pyInt (b.map (fun x => Char.ofNat x.toNat))

/-- encryption.py 53-56: the length declared in the header of a part. -/
def declaredLength (part : Bytes) : Except PyErr Int :=
  match afterFirst (ascii "Length=".toList) (stripBytes part) with
  | none => .error .indexError
  | some r => intBytes (upTo (ascii "Length=".toList) r)

/-- A position in Python slicing: negative numbers count from the end. -/
def sliceIndex (n : Nat) (i : Int) : Nat := if i < 0 then (n + i).toNat else min i.toNat n

/-- `struct.unpack("<i", b)`. -/
def unpackI32 (b : Bytes) : Except PyErr Int := do
  let n ← unpackLE 4 b
  return if n < 2 ^ 31 then (n : Int) else (n : Int) - 2 ^ 32

/-- encryption.py 60. -/
def octetMarker : Bytes := ascii "\tContent-Type: application/octet-stream\r\n".toList

/-- encryption.py 58-65: the header and the sealed data of a payload. -/
def payloadParts (boundary payload : Bytes) : Except PyErr (Bytes × Bytes) := do
  let w := removeAll octetMarker (by decide) (removeEnd boundary payload)
  let n ← unpackI32 (w.take 4)
  let stop := sliceIndex w.length (4 + n)
  return ((w.take stop).drop 4, w.drop stop)

/-- encryption.py 50-76: the loop over pairs of parts. -/
def unwrapParts (ctx : SealContext) (boundary : Bytes) (k : Nat) : List Bytes → Except PyErr Bytes
  | [] => .ok []
  | [_] => .error .indexError
  | h :: payload :: parts => do
    let expected ← declaredLength h
    let (header, data) ← payloadParts boundary payload
    let plain ← ctx.unwrap k header data
    if (plain.length : Int) ≠ expected then .error .winRMError
    else do
      let rest ← unwrapParts ctx boundary (k + 1) parts
      return plain ++ rest

/-- encryption.py 47-48: the parts of a body, without empty ones. -/
def bodyParts (boundary message : Bytes) : List Bytes := (splitBoundary boundary [] message).filter (· ≠ [])

/-- encryption.py 42-78 `unwrap_message`. -/
def unwrapMessage (ctx : SealContext) (message boundary : Bytes) : Except PyErr Bytes :=
  unwrapParts ctx boundary 0 (bodyParts boundary message)

end Verif
