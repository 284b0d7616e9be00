import Verif.Model.HttpShell
import Verif.Spec.HttpWire
import Verif.Spec.Shell
/-
Specification of the requests of a shell over HTTP.
-/
namespace Verif

/-- Requests that are all answered: with a document, sealed or not, with any prefixes, that relates to its request and has a body; or with a fault with a
code. -/
inductive ShellAnswers (env : TransportEnv) (cfg : TransportCfg) (enc : Option (Nat × SealProtocol)) :
    Nat → List NetOutcome → List (WSManAction × PyStr × Bytes) → List (Except PyErr Elem) → Prop
  | nil {k os} : ShellAnswers env cfg enc k os [] []
  | body {k os action id message r text x body n qs rs} : ReadyFor env cfg message (between enc k (.response r :: os)) →
      Receives env cfg (between enc k (.response r :: os)) r (utf8 text) → ¬ (400 ≤ r.status ∧ r.status < 600) → DocumentOf text x → RelatesTo x id →
      (elemsAt ["s:Body".toList] x).head? = some body → Uses cfg r n → ShellAnswers env cfg enc (k + n) os qs rs →
      ShellAnswers env cfg enc k (.response r :: os) ((action, id, message) :: qs) (.ok body :: rs)
  | fault {k os action id message r text header p code n qs rs} : ReadyFor env cfg message (between enc k (.response r :: os)) →
      Receives env cfg (between enc k (.response r :: os)) r (utf8 text) → 400 ≤ r.status → r.status < 600 → r.status ≠ 401 →
      DocumentOf text (soapFault header p [wsmanDetail p (toString code).toList]) → Uses cfg r n → ShellAnswers env cfg enc (k + n) os qs rs →
      ShellAnswers env cfg enc k (.response r :: os) ((action, id, message) :: qs) (.error (.wsManFault (some code)) :: rs)

/-- The address of a new shell: what the server answers, or else what it was before. -/
structure Addressed (s : WinRS) (created : Elem) (uri : Option PyStr) (sel : Selectors) : Prop where
  uri : uri = match (elemsAt ["rsp:Shell".toList, "rsp:ResourceUri".toList] created).head? with
    | some e => e.text
    | none => s.resourceUri
  selectors : sel = match selectorElems created with
    | some es => some (es.map fun e => ((e.attr "Name".toList).getD [], e.text.getD []))
    | none => s.selectors

/-- The requests of a command: a shell is made, the command started, its output polled `n` times, the command ended and the shell deleted. -/
def commandRequests (s : WinRS) (uri : Option PyStr) (sel : Selectors) (command id : PyStr) (n : Nat) : List ShellReq :=
  [.create s.resourceUri s, .command uri sel command [] false none] ++ List.replicate n (.receive uri sel "stdout stderr".toList (some id)) ++
    [.signal uri sel "http://schemas.microsoft.com/wbem/wsman/1/windows/shell/signal/ctrl_c".toList id, .delete uri sel]

end Verif
