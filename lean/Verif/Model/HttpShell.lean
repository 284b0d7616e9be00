import Verif.Model.Envelope
import Verif.Model.HttpWire
/-
The requests of a shell over HTTP (src/pypsrp/shell.py 109-318, wsman.py 250-442, 444-520): what Model/Shell takes as the answers to a shell comes here from
the responses to the documents of its requests.
-/
namespace Verif

/-- The action of a request: shell.py 116, 153, 207, 247, 300, 318. -/
def ShellReq.action : ShellReq → WSManAction
  | .create _ _ => .create
  | .delete _ _ => .delete
  | .command _ _ _ _ _ _ => .command
  | .receive _ _ _ _ => .receive
  | .send _ _ _ _ _ _ => .send
  | .signal _ _ _ _ => .signal

/-- wsman.py 483-493 and 595: the id of a request and its bytes. -/
def ShellReq.posted (c : Conn) (u : UUID) (q : ShellReq) : WSManAction × PyStr × Bytes :=
  (q.action, asciiUpper u.toStr, utf8 (printDocument (q.envelope c u.toStr)))

/-- wsman.py 250-442: the body of the response. Without one the callers that look into it have an AttributeError at once (shell.py 249, 357, 419); the others
ignore it. `none` while the request waits. -/
def httpAnswer (env : TransportEnv) (cfg : TransportCfg) (q : WSManAction × PyStr × Bytes) (w : TWorld) : Option (Except PyErr Elem) × TWorld :=
  match wsmanInvoke env cfg q.1 q.2.1 q.2.2 w with
  | (.waiting, w) => (none, w)
  | (.raised e, w) => (some (.error e.seen), w)
  | (.ok x, w) =>
    match x.find ["s:Body".toList] with
    | some body => (some (.ok body), w)
    | none =>
      match q.1 with
      | .create => (some (.error .attributeError), w)
      | .command => (some (.error .attributeError), w)
      | .receive => (some (.error .attributeError), w)
      | _ => (some (.ok (.node [] [] none [])), w)

/-- The answers to requests, one after the other. -/
def httpAnswers (env : TransportEnv) (cfg : TransportCfg) : List (WSManAction × PyStr × Bytes) → TWorld → List (Except PyErr Elem)
  | [], _ => []
  | q :: qs, w =>
    match httpAnswer env cfg q w with
    | (none, _) => []
    | (some r, w) => r :: httpAnswers env cfg qs w

end Verif
