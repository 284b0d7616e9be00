import Verif.Model.Fragment
import Verif.Model.Utils
/-
Envelope sizes (src/pypsrp/wsman.py 233-253, 423-442, 522-557), the session capability handler
(src/pypsrp/powershell.py 827-846) and the bytes sent by `RunspacePool.open` (530-570).
-/
namespace Verif

/-- wsman.py 233, 253: the two sizes kept by `WSMan`. -/
structure ConnSizes where
  maxEnvelope : Int
  maxPayload : Int
  deriving DecidableEq, Repr

/-- wsman.py 522-557 `_calc_envelope_size`; `skeleton` is the length of the envelope built from an empty payload
(lines 525-545). Python computes `int(m / 4 * 3)` with floats, exact below 2^51; `int` truncates toward zero. -/
def calcEnvelopeSize (skeleton : Nat) (maxEnvelope : Int) : Int :=
  ((maxEnvelope - ((skeleton : Int) + 256)) * 3).tdiv 4

/-- wsman.py 233-253: the sizes set by the constructor. -/
def ConnSizes.init (skeleton : Nat) (maxEnvelope : Int) : ConnSizes :=
  { maxEnvelope, maxPayload := calcEnvelopeSize skeleton maxEnvelope }

/-- wsman.py 423-442 `update_max_payload_size` with an explicit size. -/
def updateMaxPayloadSize (skeleton : Nat) (size : Int) : ConnSizes :=
  { maxEnvelope := size, maxPayload := calcEnvelopeSize skeleton size }

/-- powershell.py 827-846 `_process_session_capability`: sizes and fragmenter after the server's capability message
with protocol version `version`. Line 846 assigns the payload size to `max_size` without taking off the header. -/
def processSessionCapability (skeleton : Nat) (c : ConnSizes) (o : OutState) (version : PyStr) :
    Except PyErr (ConnSizes × OutState) := do
  let newer ← versionEqualOrNewer version "2.2".toList
  if newer ∧ c.maxEnvelope = 153600 then
    let c' := updateMaxPayloadSize skeleton 512000
    return (c', { o with maxSize := c'.maxPayload })
  else return (c, o)

/-- powershell.py 557-562 in `open`: the blocks of the two opening messages; only the first block goes into
`creationXml`, the rest of the list is not used afterwards. Returns (sent, not sent, fragmenter). -/
def openBlocks (o : OutState) (capability init : Bytes) : Except PyErr (Bytes × List Bytes × OutState) := do
  let (frags, o') ← fragmentMultiple o [capability, init]
  match frags with
  | [] => .error .indexError
  | f :: rest => return (f, rest, o')

end Verif
