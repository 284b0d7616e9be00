/-
Byte strings, Python exceptions as values, and the `struct` module operations that the
library uses.
-/
namespace Verif

deriving instance DecidableEq for Except

/-- Python `bytes`. -/
abbrev Bytes := List UInt8

/-- The Python exceptions that the modelled code can raise, as values.  Only the class matters;
messages are dropped. -/
inductive PyErr where
  | structError
  | valueError
  | indexError
  | keyError
  | typeError
  | attributeError
  | stopIteration
  | notImplemented
  | unicodeError
  | binasciiError
  | recursionError
  | osError
  | fragmentError
  | serializationError
  | invalidPSRPOperation
  | invalidPoolState
  | invalidPipelineState
  | winRMError
  | winRMTransportError (code : Int)
  | authenticationError
  | wsManFault (code : Option Int)
  /-- the builtin `TimeoutError` -/
  | timeoutError
  /-- `requests.ConnectionError` -/
  | connectionError
  /-- `requests.ReadTimeout`, neither a `TimeoutError` nor a `requests.ConnectionError` -/
  | readTimeout
  /-- `requests.ConnectTimeout`, a `requests.ConnectionError` -/
  | connectTimeout
  | newConnectionDisabled
  | runtimeError
  /-- `requests.RetryError`: too many responses with a status that is retried -/
  | retryError
  /-- `xml.etree.ElementTree.ParseError` -/
  | parseError
  /-- not a Python exception: the model says nothing about this case -/
  | notModelled
  deriving DecidableEq, Repr

/-- Little-endian digits of `n`, `w` bytes (`struct.pack("<..")` without its range check). -/
def leEnc : Nat → Nat → Bytes
  | 0, _ => []
  | w + 1, n => UInt8.ofNat (n % 256) :: leEnc w (n / 256)

/-- Value of little-endian bytes. -/
def leDec : Bytes → Nat
  | [] => 0
  | b :: bs => b.toNat + 256 * leDec bs

/-- `struct.pack` of an unsigned little-endian field of `w` bytes (`<I` is `w = 4`): raises
`struct.error` when the value does not fit. -/
def packLE (w n : Nat) : Except PyErr Bytes :=
  if n < 256 ^ w then .ok (leEnc w n) else .error .structError

/-- `struct.unpack` of an unsigned little-endian field: raises `struct.error` unless exactly `w`
bytes are given. -/
def unpackLE (w : Nat) (bs : Bytes) : Except PyErr Nat :=
  if bs.length = w then .ok (leDec bs) else .error .structError

/-- `struct.pack` of an unsigned big-endian field (`>Q` is `w = 8`, `>I` is `w = 4`, `B` is `w = 1`). -/
def packBE (w n : Nat) : Except PyErr Bytes :=
  if n < 256 ^ w then .ok (leEnc w n).reverse else .error .structError

/-- `struct.unpack` of an unsigned big-endian field. -/
def unpackBE (w : Nat) (bs : Bytes) : Except PyErr Nat :=
  if bs.length = w then .ok (leDec bs.reverse) else .error .structError

/-- Python slice `data[:n]` for any integer `n` (negative counts from the end). -/
def sliceTo (data : List α) (n : Int) : List α :=
  if 0 ≤ n then data.take n.toNat else data.take (data.length - (-n).toNat)

end Verif
