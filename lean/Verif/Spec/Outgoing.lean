import Verif.Model.Outgoing
import Verif.Spec.Encodings
import Verif.Spec.Envelope
import Verif.Spec.Fragment
import Verif.Spec.Namespaces
/-
Specification of the requests of a pipeline, as a server reads them.
-/
namespace Verif

/-- The text is a document, with any prefixes, of a request to this shell. Elements without text are the same as those with an empty one. -/
def RequestTo (text : PyStr) (c : Conn) (u : UUID) (action : WSManAction) (shell : WinRS) (e : Elem) : Prop :=
  DocumentOf text e.normal ∧ Headers e c u.toStr action shell.resourceUri ∧
  selectorsOf e = (shell.selectors.getD []).map fun v => ⟨some v.1, some v.2, []⟩

/-- [MS-PSRP] 3.1.5.3.3: the request that starts a pipeline: no command line, and the first bytes as the only argument, in base64. -/
def StartsWith (text : PyStr) (c : Conn) (u : UUID) (shell : WinRS) (id : PyStr) (block : Bytes) : Prop :=
  ∃ e, RequestTo text c u .command shell e ∧
    textsAt ["s:Body", "rsp:CommandLine", "rsp:Command"] e = [some []] ∧
    textsAt ["s:Body", "rsp:CommandLine", "rsp:Arguments"] e = [some (base64Of block)] ∧
    attrsAt ["s:Body", "rsp:CommandLine"] "CommandId" e = [some id] ∧
    optionsOf e = [⟨some "WINRS_SKIP_CMD_SHELL".toList, some "False".toList, []⟩]

/-- [MS-PSRP] 3.1.5.3.5: a request with more bytes for a pipeline. -/
def Continues (text : PyStr) (c : Conn) (u : UUID) (shell : WinRS) (commandId : Option PyStr) (block : Bytes) : Prop :=
  ∃ e, RequestTo text c u .send shell e ∧
    textsAt ["s:Body", "rsp:Send", "rsp:Stream"] e = [some (base64Of block)] ∧
    attrsAt ["s:Body", "rsp:Send", "rsp:Stream"] "Name" e = [some "stdin".toList] ∧
    attrsAt ["s:Body", "rsp:Send", "rsp:Stream"] "CommandId" e = [commandId] ∧
    attrsAt ["s:Body", "rsp:Send", "rsp:Stream"] "End" e = [none]

/-- A server knows the pipeline under the id of its answer. -/
def KnownAs (old : Option PyStr) (answers : List (Except PyErr Elem)) (commandId : Option PyStr) : Prop :=
  match answers with
  | .ok body :: _ =>
    match (elemsAt ["rsp:CommandResponse".toList, "rsp:CommandId".toList] body).head? with
    | some e => commandId = some (e.text.getD [])
    | none => commandId = old
  | _ => True

end Verif
