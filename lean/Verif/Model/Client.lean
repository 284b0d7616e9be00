import Verif.Model.Base64
import Verif.Model.Serializer
import Verif.Model.Commands
/-
`Client.copy`, `Client.fetch` and `Client.execute_ps` (src/pypsrp/client.py) and the remote scripts
src/pypsrp/pwsh_scripts/copy.ps1 and fetch.ps1.

SHA1 is a parameter: any function from bytes to bytes. Files and other things outside of the code are given by what they answer:
what a read gives, and which calls fail. Both PowerShell scripts are modelled statement by statement under `$ErrorActionPreference
= "Stop"`: an exception ends the script.
-/
namespace Verif

/-! ### The local side of copy -/

/-- client.py 125: `int((max_payload_size - 82) / 4 * 3)`; the floats are exact for sizes below 2^50. -/
def copyBufferSize (maxPayload : Int) : Int := Int.tdiv ((maxPayload - 82) * 3) 4

/-- `hexdigest()`. -/
def hexDigest (digest : Bytes) : PyStr := digest.flatMap hexByte

/-- `to_unicode(base64.b64encode(to_bytes(sha1.hexdigest())))`, where `seen` has been given to `sha1.update`. -/
def hashItem (sha1 : Bytes → Bytes) (seen : Bytes) : PyStr := b64Encode ((hexDigest (sha1 seen)).map fun c => UInt8.ofNat c.toNat)

/-- client.py 95-114 `read_buffer`: what it yields if the reads of the file give this, `seen` are the bytes so far. The loop ends at
the first empty read; a file that goes on without end is not modelled. -/
def readBuffer (sha1 : Bytes → Bytes) (totalSize : Nat) (seen : Bytes) : List Bytes → List (List PyStr)
  | [] => if seen.length = 0 then [[[], hashItem sha1 seen]] else []
  | data :: rest =>
    if data = [] then if seen.length = 0 then [[[], hashItem sha1 seen]] else []
    else
      let seen := seen ++ data
      let result := if seen.length = totalSize then [b64Encode data, hashItem sha1 seen] else [b64Encode data]
      result :: readBuffer sha1 totalSize seen rest

/-- `src_file.read(size)` on a file of which `rest` has not been read: all of it for a negative size. -/
def fileRead (size : Int) (rest : Bytes) : Bytes × Bytes := if size < 0 then (rest, []) else (rest.take size.toNat, rest.drop size.toNat)

/-- The reads of a file that does not change, up to and with the empty one. -/
def fileReads (size : Int) : Nat → Bytes → List Bytes
  | 0, _ => []
  | n + 1, rest =>
    let r := fileRead size rest
    if r.1 = [] then [[]] else r.1 :: fileReads size n r.2

/-- client.py 116-134: the input of the pipeline in `copy`, for a file that does not change. Every list is sent as one batch, every
string is an item of the input of the script (`sendInput` in Model/Pool). -/
def copyInput (sha1 : Bytes → Bytes) (maxPayload : Int) (file : Bytes) : List (List PyStr) :=
  readBuffer sha1 file.length [] (fileReads (copyBufferSize maxPayload) (file.length + 1) file)

/-! ### The remote side of copy -/

/-- The temporary file and the destination, if they exist. -/
structure Files where
  temp : Option Bytes
  dest : Option Bytes
  deriving DecidableEq, Repr

/-- The calls of copy.ps1 outside of its own logic: whether they fail. -/
structure CopyFaults where
  /-- copy.ps1 7: creating the temporary file -/
  create : Bool := false
  /-- copy.ps1 8-9: opening it, or creating the SHA1 object -/
  setup : Bool := false
  /-- copy.ps1 96: writing, after some bytes have been written -/
  write : Nat → Bool := fun _ => false
  /-- copy.ps1 100 -/
  close : Bool := false
  /-- copy.ps1 105-111: the path of the destination -/
  resolve : Bool := false
  /-- copy.ps1 125 -/
  delete : Bool := false
  /-- copy.ps1 126 -/
  move : Bool := false
  /-- copy.ps1 130 -/
  cleanup : Bool := false

/-- `[System.BitConverter]::ToString(hash)`, copy.ps1 115: upper case, with hyphens. -/
def bitConverter : Bytes → PyStr
  | [] => []
  | [b] => [hexDigit (b.toNat / 16), hexDigit (b.toNat % 16)]
  | b :: bs => hexDigit (b.toNat / 16) :: hexDigit (b.toNat % 16) :: '-' :: bitConverter bs

/-- ASCII lower case. -/
def netLower (c : Char) : Char := if 'A' ≤ c ∧ c ≤ 'Z' then Char.ofNat (c.toNat + 32) else c

/-- copy.ps1 115-116, fetch.ps1 45-46. -/
def netHash (digest : Bytes) : PyStr := ((bitConverter digest).filter (· ≠ '-')).map netLower

/-- copy.ps1 118: `-ne` ignores case. The received hash is compared by its bytes, as if every byte were a character: bytes outside
ASCII are never equal to a hash. The characters that the comparison of .NET ignores are not modelled. -/
def sameHash (actual : PyStr) (expected : Bytes) : Bool :=
  (expected.map fun b => netLower (Char.ofNat b.toNat)) == actual.map netLower

/-- What a script ends with. -/
inductive Script (α : Type) where
  | ok (a : α)
  | failed
  deriving DecidableEq, Repr

/-- copy.ps1 91-98: the process block for every item; `bytes` is `$bytes`, `fd` what has been written. The flag is false if the
block failed: then `fd` is what had been written. -/
def copyProcess (faults : CopyFaults) (bytes : Option Bytes) (fd : Bytes) : List PyStr → (Bool × Option Bytes × Bytes)
  | [] => (true, bytes, fd)
  | item :: items =>
    match bytes with
    | some b =>
      if faults.write fd.length then (false, bytes, fd)
      else
        match netFromBase64 item with
        | none => (false, bytes, fd ++ b)
        | some b' => copyProcess faults (some b') (fd ++ b) items
    | none =>
      match netFromBase64 item with
      | none => (false, bytes, fd)
      | some b' => copyProcess faults (some b') fd items

/-- copy.ps1 102-127: the `try` of the end block; `data` is in the temporary file and has been hashed. A file whose move fails stays
where it is. -/
def copyEnd (sha1 : Bytes → Bytes) (faults : CopyFaults) (bytes : Option Bytes) (data : Bytes) (fs : Files) : Script Unit × Files :=
  if faults.resolve then (.failed, fs)
  else
    match bytes with
    | none => (.failed, fs)
    | some expected =>
      if !sameHash (netHash (sha1 data)) expected then (.failed, fs)
      else if faults.delete then (.failed, fs)
      else
        let fs := { fs with dest := none }
        if faults.move then (.failed, fs)
        else (.ok (), { temp := none, dest := fs.temp })

/-- copy.ps1: the whole script on the items of its input. -/
def copyScript (sha1 : Bytes → Bytes) (faults : CopyFaults) (items : List PyStr) (fs : Files) : Script Unit × Files :=
  if faults.create then (.failed, fs)
  else
    let fs := { fs with temp := some [] }
    if faults.setup then (.failed, fs)
    else
      let r := copyProcess faults none [] items
      let fs := { fs with temp := some r.2.2 }
      if !r.1 then (.failed, fs)
      else if faults.close then (.failed, fs)
      else
        let e := copyEnd sha1 faults r.2.1 r.2.2 fs
        if faults.cleanup then (.failed, e.2)
        else (e.1, { e.2 with temp := none })

/-! ### The remote side of fetch -/

/-- What fetch.ps1 does: ends with its output, fails after some output, or goes on reading. -/
inductive Fetched where
  | done (output : List PyStr)
  | failed (output : List PyStr)
  | reading (output : List PyStr)
  deriving DecidableEq, Repr

/-- `[System.Convert]::ToBase64String`. -/
def netToBase64 (b : Bytes) : PyStr := b64Encode b

/-- The bytes of a new array after a read of `n` bytes from the rest of the file into its start. -/
def readInto (size n : Nat) (rest : Bytes) : Bytes := rest.take n ++ List.replicate (size - n) 0

/-- fetch.ps1 29: the end of the loop and of the script: none if the loop goes on with a read. A new array has `toRead` bytes, so
that a read for as many bytes at an offset above 0 does not fit and fails (line 31). Without any read `$bytes` is null and
TransformFinalBlock fails (line 44). -/
def fetchStop (sha1 : Bytes → Bytes) (toRead offset : Nat) (hashed : Bytes) (used : Bool) (output : List PyStr) : Option Fetched :=
  if toRead = 0 then if used then some (.done (output ++ [netHash (sha1 hashed)])) else some (.failed output)
  else if offset > 0 then some (.failed output)
  else none

/-- fetch.ps1 29-38: `toRead` is `$bytes_to_read`, `rest` is what has not been read of the file, `hashed` what the hash has been given,
the last argument how many bytes the reads give (never more than asked for). -/
def fetchLoop (sha1 : Bytes → Bytes) (toRead offset : Nat) (rest hashed : Bytes) (used : Bool) (output : List PyStr) : List Nat → Fetched
  | [] => (fetchStop sha1 toRead offset hashed used output).getD (.reading output)
  | r :: reads =>
    match fetchStop sha1 toRead offset hashed used output with
    | some f => f
    | none =>
      let n := min r (min toRead rest.length)
      let bytes := readInto toRead n rest
      fetchLoop sha1 (toRead - n) (offset + n) (rest.drop n) (hashed ++ bytes) true (output ++ [netToBase64 bytes]) reads

/-- fetch.ps1 24-46 on an existing file; `limit` is the size of the biggest array. -/
def fetchScript (sha1 : Bytes → Bytes) (limit : Nat) (file : Bytes) (reads : List Nat) : Fetched :=
  if limit < file.length then .failed [] else fetchLoop sha1 file.length 0 file [] false [] reads

/-! ### The local side of fetch -/

/-- An object in the output of the pipeline. -/
inductive OutObj where
  | str (s : PyStr)
  | other
  deriving DecidableEq, Repr

/-- The system calls of `fetch`: whether they fail and what they do then. -/
structure FetchFaults where
  /-- client.py 273: `mkstemp` -/
  mkstemp : Bool := false
  /-- client.py 276: `os.write` raises -/
  writeFails : Bool := false
  /-- client.py 276: the number of bytes that `os.write` writes, if less than it is given; the code does not look at it -/
  written : Nat → Nat := id
  /-- client.py 288: `shutil.copy` fails, and what it leaves at the destination -/
  copy : Option (Option Bytes) := none
  /-- client.py 290 -/
  close : Bool := false
  /-- client.py 291 -/
  remove : Bool := false

/-- `base64.b64decode` of an object of the output: characters outside ASCII raise `ValueError`, other objects `TypeError`. -/
def b64DecodeObj : OutObj → Except PyErr Bytes
  | .str s => b64DecodeStr s
  | .other => .error .typeError

/-- client.py 274-288: the `try`, with the temporary file empty at first. -/
def fetchTry (sha1 : Bytes → Bytes) (faults : FetchFaults) (first last : OutObj) (fs : Files) : Except PyErr Unit × Files :=
  match b64DecodeObj first with
  | .error e => (.error e, fs)
  | .ok fileBytes =>
    if faults.writeFails then (.error .osError, fs)
    else
      let fs := { fs with temp := some (fileBytes.take (faults.written fileBytes.length)) }
      if OutObj.str (hexDigest (sha1 fileBytes)) ≠ last then (.error .winRMError, fs)
      else
        match faults.copy with
        | some left => (.error .osError, { fs with dest := left })
        | none => (.ok (), { fs with dest := fs.temp })

/-- client.py 268-291: `fetch` after the pipeline has ended, with its errors and its output. -/
def fetchLocal (sha1 : Bytes → Bytes) (faults : FetchFaults) (hadErrors : Bool) (output : List OutObj) (fs : Files) : Except PyErr Unit × Files :=
  if hadErrors then (.error .winRMError, fs)
  else
    match output.head?, output.getLast? with
    | some first, some last =>
      if faults.mkstemp then (.error .osError, fs)
      else
        let r := fetchTry sha1 faults first last { fs with temp := some [] }
        if faults.close then (.error .osError, r.2)
        else if faults.remove then (.error .osError, r.2)
        else (r.1, { r.2 with temp := none })
    | _, _ => (.error .indexError, fs)

/-- The whole of `fetch`: a script that fails gives errors. `none`: the script does not end. -/
def fetch (sha1 : Bytes → Bytes) (limit : Nat) (reads : List Nat) (faults : FetchFaults) (file : Bytes) (fs : Files) : Option (Except PyErr Unit × Files) :=
  match fetchScript sha1 limit file reads with
  | .done out => some (fetchLocal sha1 faults false (out.map OutObj.str) fs)
  | .failed out => some (fetchLocal sha1 faults true (out.map OutObj.str) fs)
  | .reading _ => none

/-! ### execute_ps -/

/-- client.py 218-222: the calls for one entry of the environment. -/
def addEnv (protocol : PyStr) (e : PyStr × PyStr) (cs : List Command) : Edited :=
  (addCmdlet protocol "New-Item".toList false none cs).andThen fun cs =>
  (addParameter (some "Path".toList) (.str "env:".toList) cs).andThen fun cs =>
  (addParameter (some "Name".toList) (.str e.1) cs).andThen fun cs =>
  (addParameter (some "Value".toList) (.str e.2) cs).andThen fun cs =>
  (addParameter (some "Force".toList) (.bool true) cs).andThen fun cs =>
  (addCmdlet protocol "Out-Null".toList false none cs).andThen fun cs =>
  addStatement cs

/-- client.py 214-222: the loop over the environment. -/
def addEnvs (protocol : PyStr) : List (PyStr × PyStr) → List Command → Edited
  | [], cs => (.ok (), cs)
  | e :: es, cs => (addEnv protocol e cs).andThen (addEnvs protocol es)

/-- client.py 212-230: the commands of the pipeline of `execute_ps`. -/
def executePs (protocol script : PyStr) (environment : List (PyStr × PyStr)) : Edited :=
  (addEnvs protocol environment []).andThen fun cs =>
  (addCmdlet protocol "Invoke-Expression".toList false none cs).andThen fun cs =>
  (addParameter (some "Command".toList) (.str script) cs).andThen fun cs =>
  (addCmdlet protocol "Out-String".toList false none cs).andThen fun cs =>
  addParameter (some "Stream".toList) .none cs

end Verif
