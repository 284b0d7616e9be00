import Verif.Model.Utils
/-
Standard base64 as computed by Python's `base64.b64encode`/`b64decode` (used in src/pypsrp/client.py 104-114, 275,
powershell.py 561, 1276, serializer.py 128, 262, shell.py 267, 300 and wsman payloads), and by .NET's
`Convert.FromBase64String` (src/pypsrp/pwsh_scripts/copy.ps1 99).
-/
namespace Verif

/-- The base64 alphabet. -/
def b64Alphabet : PyStr := "ABCDEFGHIJKLMNOPQRSTUVWXYZabcdefghijklmnopqrstuvwxyz0123456789+/".toList

def b64Char (n : Nat) : Char := b64Alphabet.getD n '='

/-- `base64.b64encode`. -/
def b64Encode : Bytes → PyStr
  | [] => []
  | [a] =>
    let n := a.toNat * 65536
    [b64Char (n / 262144), b64Char (n / 4096 % 64), '=', '=']
  | [a, b] =>
    let n := a.toNat * 65536 + b.toNat * 256
    [b64Char (n / 262144), b64Char (n / 4096 % 64), b64Char (n / 64 % 64), '=']
  | a :: b :: c :: rest =>
    let n := a.toNat * 65536 + b.toNat * 256 + c.toNat
    b64Char (n / 262144) :: b64Char (n / 4096 % 64) :: b64Char (n / 64 % 64) :: b64Char (n % 64) :: b64Encode rest

/-- Index of a character in the alphabet. -/
def b64Index (c : Char) : Option Nat :=
  let i := b64Alphabet.findIdx (· == c)
  if i < 64 then some i else none

/-- What a group of four characters has given so far: the number of characters and the bits that are left over. -/
inductive Quad where
  | q0
  | q1 (left : Nat)
  | q2 (left : Nat)
  | q3 (left : Nat)

/-- The loop of `binascii.a2b_base64` without strict mode (CPython Modules/binascii.c), with `pads` padding characters seen since
the last character of the alphabet: characters outside the alphabet are skipped, padding that completes a group ends the input. -/
def b64Loop (q : Quad) (pads : Nat) : PyStr → Except PyErr Bytes
  | [] =>
    match q with
    | .q0 => .ok []
    | _ => .error .binasciiError
  | c :: cs =>
    if c = '=' then
      match q with
      | .q0 => b64Loop q pads cs
      | .q1 _ => b64Loop q pads cs
      | .q2 _ => if 2 ≤ pads + 1 then .ok [] else b64Loop q (pads + 1) cs
      | .q3 _ => .ok []
    else
      match b64Index c with
      | none => b64Loop q pads cs
      | some i =>
        match q with
        | .q0 => b64Loop (.q1 i) 0 cs
        | .q1 l => (b64Loop (.q2 (i % 16)) 0 cs).map (UInt8.ofNat (l * 4 + i / 16) :: ·)
        | .q2 l => (b64Loop (.q3 (i % 4)) 0 cs).map (UInt8.ofNat (l * 16 + i / 4) :: ·)
        | .q3 l => (b64Loop .q0 0 cs).map (UInt8.ofNat (l * 64 + i) :: ·)

/-- `base64.b64decode` of a text encoded to UTF-8 (shell.py 267): malformed input raises `binascii.Error`. Other characters, also those
outside ASCII, are skipped. -/
def b64Decode (s : PyStr) : Except PyErr Bytes := b64Loop .q0 0 s

/-- `base64.b64decode` of a string (client.py 275, powershell.py 348 and 911, serializer.py 215 and 795, negotiate.py 198): characters outside
ASCII raise `ValueError`. -/
def b64DecodeStr (s : PyStr) : Except PyErr Bytes :=
  if s.all (fun c => c.toNat < 128) then b64Decode s else .error .valueError

/-- .NET `Convert.FromBase64String` without the white space that it skips: groups of four characters, padding only in the last
group. Leftover bits are ignored. Malformed input raises `FormatException`, an error of the remote script. -/
def netGroups : PyStr → Option Bytes
  | [] => some []
  | [w, x, '=', '='] =>
    match b64Index w, b64Index x with
    | some i, some j => some [UInt8.ofNat ((i * 64 + j) / 16)]
    | _, _ => none
  | [w, x, y, '='] =>
    match b64Index w, b64Index x, b64Index y with
    | some i, some j, some k =>
      let n := (i * 4096 + j * 64 + k) / 4
      some [UInt8.ofNat (n / 256), UInt8.ofNat (n % 256)]
    | _, _, _ => none
  | w :: x :: y :: z :: rest =>
    match b64Index w, b64Index x, b64Index y, b64Index z with
    | some i, some j, some k, some l =>
      match netGroups rest with
      | some bs =>
        let n := i * 262144 + j * 4096 + k * 64 + l
        some (UInt8.ofNat (n / 65536) :: UInt8.ofNat (n / 256 % 256) :: UInt8.ofNat (n % 256) :: bs)
      | none => none
    | _, _, _, _ => none
  | _ => none

/-- .NET `Convert.FromBase64String`: tab, newline, carriage return and space are skipped. -/
def netFromBase64 (s : PyStr) : Option Bytes := netGroups (s.filter fun c => !(c = ' ' || c = '\t' || c = '\n' || c = '\r'))

end Verif
