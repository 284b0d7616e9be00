import Verif.Model.Session
import Verif.Model.Envelope
/-
The requests with which a pipeline is started and fed (src/pypsrp/powershell.py 1257-1279, 1518-1536), from the packed messages to the requests of the
shell (Model/Shell), whose documents are in Model/Envelope and Model/XmlText.
-/
namespace Verif

/-- powershell.py 1535-1536 and 1278-1279: one send request for every block. -/
def sendBlocks (commandId : Option PyStr) : List Bytes → SM Unit
  | [] => pure ()
  | b :: bs => do
    let _ ← winrsSend "stdin".toList b commandId none
    sendBlocks commandId bs

/-- powershell.py 1264-1279: the loop over the input. The messages of a round are packed (Model/Wire); the last round ends with END_OF_PIPELINE_INPUT. -/
def sendInputs (o : OutState) (commandId : Option PyStr) : List (List Bytes) → SM OutState
  | [] => pure o
  | messages :: rest => do
    let r ← slift (fragmentMultiple o messages)
    sendBlocks commandId r.1
    sendInputs r.2 commandId rest

/-- powershell.py 1529-1531: the id in the answer; without one `_command_id` stays as it is. -/
def answeredId (old : Option PyStr) (body : Elem) : Option PyStr :=
  match body.find ["rsp:CommandResponse".toList, "rsp:CommandId".toList] with
  | some e => some (e.text.getD [])
  | none => old

/-- powershell.py 1518-1536 `_invoke` and 1257-1279 in `begin_invoke`. `message` is the packed CREATE_PIPELINE (or GET_COMMAND_METADATA) message, `id` the id of
the pipeline, `old` its `_command_id`. Returns the fragmenter and the new `_command_id`. The states of pool and pipeline are in Model/Pool. -/
def invokePipeline (o : OutState) (id : PyStr) (old : Option PyStr) (message : Bytes) (inputs : List (List Bytes)) : SM (OutState × Option PyStr) := do
  let r ← slift (fragment o message none)
  match r.1 with
  | [] => sraise .indexError
  | first :: rest =>
    let body ← winrsCommand [] (some [b64Encode first]) false (some id)
    sendBlocks (answeredId old body) rest
    let o ← sendInputs r.2 (answeredId old body) inputs
    pure (o, answeredId old body)

end Verif
