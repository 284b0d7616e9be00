import Verif.Model.Fragment
import Verif.Model.Pool
import Verif.Model.Shell
import Verif.Model.Wire
/-
From the answers of the server to the messages that the pool handles (src/pypsrp/powershell.py 712-795): the streams of a receive
response, the fragments in them, the messages made of the fragments, and what the handlers read of a message.

Model/Pool starts from the messages. Here are the answers as they arrive, and `onWire` is the list of replies that Model/Pool sees then.
-/
namespace Verif

/-- The answer to a request. `body` is the body of a receive response; the other answers have no data for the pool. (The connect
response of a disconnected pool is in Model/Enumerate.) -/
structure WireReply where
  error : Option PyErr := none
  body : Option Elem := none
  command : Option Nat := none
  shellState : Option PyStr := none

/-- What is left open by Model/Pool: the number that stands for an object, and what the client's RSA key makes of a session key. -/
structure Reader where
  name : PyVal → Obj
  key : PyVal → Option Obj

/-- An attribute of the object of a message: all that the handlers ask for are extended properties. -/
def dataAttr (kind : MsgKind) (v : PyVal) (attr : String) : Option PyVal :=
  match findClass kind.className, v with
  | some c, .typed _ _ _ _ ext _ => ((c.extended.zip ext).map fun p => (p.1.attr, p.2.2)).lookup attr.toList
  | _, _ => none

/-- A number. None, for which the handler raises a TypeError, is not modelled. -/
def numberAttr (kind : MsgKind) (v : PyVal) (attr : String) : Except PyErr Int :=
  match dataAttr kind v attr with
  | some (.sc (.int i)) => .ok i
  | _ => .error .notModelled

/-- powershell.py 803-818: the attributes of a host call. -/
def readHostCall (rd : Reader) (kind : MsgKind) (v : PyVal) : Except PyErr HostCall := do
  let ci ← numberAttr kind v "ci"
  match dataAttr kind v "mi", dataAttr kind v "mp" with
  | some (.typed _ _ _ ((_, .sc (.int mi)) :: _) _ _), some (.list mp) => .ok { ci, mi, mp := mp.map rd.name }
  | _, _ => .error .notModelled

/-- What the handlers of powershell.py 749-778 read of the object of a message: 838 (session capability), 858-859 (limits), 867-868
(availability), 887 (state of the pool), 911 (key), 927-932 (event), 902 (private data), 1581-1585 (state of a pipeline), and the object itself
for the records and the output (1501, 1562-1617). -/
def readMessage (rd : Reader) (kind : MsgKind) (v : PyVal) : Except PyErr SrvMsg :=
  match kind with
  | .sessionCapability =>
    match dataAttr kind v "protocol_version" with
    | some (.sc (.str s)) => .ok (.sessionCapability (some s))
    | some (.sc .none) => .ok (.sessionCapability none)
    | _ => .error .notModelled
  | .encryptedSessionKey =>
    match dataAttr kind v "session_key" with
    | some k => .ok (.encryptedSessionKey (rd.key k))
    | none => .error .notModelled
  | .runspacePoolInitData => do
    let min ← numberAttr kind v "min_runspaces"
    let max ← numberAttr kind v "max_runspaces"
    return .initData min max
  | .runspaceAvailability => do
    let ci ← numberAttr kind v "ci"
    match dataAttr kind v "response" with
    | some (.sc (.bool b)) => return .availability ci (.bool b)
    | some (.sc (.int n)) => return .availability ci (.int n)
    | some (.sc .none) => return .availability ci .none
    | _ => .error .notModelled
  | .runspacePoolStateMessage => do
    let state ← numberAttr kind v "state"
    return .poolState state
  | .userEvent => .ok (.userEvent (rd.name v))
  | .applicationPrivateData => .ok (.privateData (rd.name v))
  | .runspacePoolHostCall => do
    let call ← readHostCall rd kind v
    return .poolHostCall call
  | .pipelineOutput => .ok (.output (rd.name v))
  | .errorRecordMessage => .ok (.errorRecord (rd.name v))
  | .pipelineState => do
    let state ← numberAttr kind v "state"
    match dataAttr kind v "error_record" with
    | some (.sc .none) => return .pipelineState state none
    | some e => return .pipelineState state (some (rd.name e))
    | none => .error .notModelled
  | .debugRecord => .ok (.debugRecord (rd.name v))
  | .verboseRecord => .ok (.verboseRecord (rd.name v))
  | .warningRecord => .ok (.warningRecord (rd.name v))
  | .progressRecord => .ok (.progressRecord (rd.name v))
  | .informationRecord => .ok (.informationRecord (rd.name v))
  | .pipelineHostCall => do
    let call ← readHostCall rd kind v
    return .pipelineHostCall call
  | kind => .ok (.other kind.messageType.value)

/-- messages.py 149-229 and the handler's view of the message. -/
def srvMsg (rd : Reader) (data : Bytes) : Except PyErr SrvMsg := do
  let u ← unpackMessage data
  match u.data with
  | none => .ok .publicKeyRequest
  | some v => readMessage rd u.kind v

/-- powershell.py 1735: all messages of the response are unpacked before the first is handled. -/
def srvMsgs (rd : Reader) : List Bytes → Except PyErr (List SrvMsg)
  | [] => .ok []
  | d :: ds => do
    let m ← srvMsg rd d
    let ms ← srvMsgs rd ds
    return m :: ms

/-- powershell.py 739 `self.shell.receive("stdout", …)[2]["stdout"]`. -/
def stdoutOf (body : Elem) : Except PyErr Bytes := do
  let (_, _, buffers) ← parseReceive "stdout".toList body
  match buffers.lookup "stdout".toList with
  | some b => return b
  | none => .error .keyError

/-- powershell.py 739-747: the buffers afterwards, and the reply as Model/Pool sees it. What is raised while the response is read leaves
`_receive` like what is raised by the request. -/
def readReply (rd : Reader) (b : InBufs) (r : WireReply) : InBufs × Reply :=
  match r.error with
  | some e => (b, { error := some e })
  | none =>
    match r.body with
    | none => (b, { command := r.command, shellState := r.shellState })
    | some body =>
      match stdoutOf body with
      | .error e => (b, { error := some e })
      | .ok data =>
        match defragment b data with
        | (b, .error e) => (b, { error := some e })
        | (b, .ok datas) =>
          match srvMsgs rd datas with
          | .error e => (b, { error := some e })
          | .ok msgs => (b, { msgs })

/-- The replies that the pool sees. The fragmenter of the pool is shared by all its pipelines. -/
def onWire (rd : Reader) (b : InBufs) : List WireReply → List Reply
  | [] => []
  | r :: rs => (readReply rd b r).2 :: onWire rd (readReply rd b r).1 rs

end Verif
