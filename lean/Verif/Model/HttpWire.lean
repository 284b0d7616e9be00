import Verif.Model.Namespaces
import Verif.Model.PoolWire
/-
Receive requests of a pool over HTTP (src/pypsrp/powershell.py 739, shell.py 210-247, wsman.py 360-380, 444-520): what Model/PoolWire takes
as the answers to a pool comes here from the responses to its requests.
-/
namespace Verif

/-- The class of an exception, as the pool sees it: powershell.py 742 only looks at the code of a `WSManFaultError`. -/
def TErr.seen : TErr → PyErr
  | .py e => e
  | .http code _ => .winRMTransportError code
  | .fault (some (.inr code)) _ _ _ _ _ => .wsManFault (some code)
  | .fault _ _ _ _ _ _ => .wsManFault none

/-- wsman.py 360-380 `receive`: the body of the response. `response.find` of a missing body is an AttributeError (shell.py 249).
`none` while the request waits. -/
def httpReceive (env : TransportEnv) (cfg : TransportCfg) (id : PyStr) (message : Bytes) (w : TWorld) : Option WireReply × TWorld :=
  match wsmanInvoke env cfg .receive id message w with
  | (.waiting, w) => (none, w)
  | (.raised e, w) => (some { error := some e.seen }, w)
  | (.ok x, w) =>
    match x.find ["s:Body".toList] with
    | none => (some { error := some .attributeError }, w)
    | some body => (some { body := some body }, w)

/-- Receive requests, one after the other; each has an id and its bytes. -/
def httpReceives (env : TransportEnv) (cfg : TransportCfg) : List (PyStr × Bytes) → TWorld → List WireReply
  | [], _ => []
  | q :: qs, w =>
    match httpReceive env cfg q.1 q.2 w with
    | (none, _) => []
    | (some r, w) => r :: httpReceives env cfg qs w

end Verif
