import Verif.Model.Shell
import Verif.Spec.Transport
/-
Specifications for WinRS shells and processes.
-/
namespace Verif

/-- The requests for a shell, with whether they were answered, are well behaved from a moment on at which a shell is or is not
open: create is only sent if none is open, delete only if one is open, and an answer changes that. -/
def ShellLog : Bool → List (ShellReq × Bool) → Prop
  | _, [] => True
  | isOpen, (.create _ _, answered) :: rest => isOpen = false ∧ ShellLog answered rest
  | isOpen, (.delete _ _, answered) :: rest => isOpen = true ∧ ShellLog (!answered) rest
  | _, _ => False

/-- The requests that were answered. -/
def answered (log : List (ShellReq × Bool)) : List ShellReq := log.filterMap fun e => if e.2 then some e.1 else none

def ShellReq.isCreate : ShellReq → Bool
  | .create .. => true
  | _ => false

def ShellReq.isDelete : ShellReq → Bool
  | .delete .. => true
  | _ => false

/-- Create and delete in turns, create first. -/
def InTurns : List ShellReq → Prop
  | [] => True
  | [a] => a.isCreate = true
  | a :: b :: rest => a.isCreate = true ∧ b.isDelete = true ∧ InTurns rest

/-- The selectors that a create response gives for its shell. -/
def selectorElems (body : Elem) : Option (List Elem) :=
  ((elemsAt ["wst:ResourceCreated".toList, "wsa:ReferenceParameters".toList, "wsman:SelectorSet".toList] body).head?).map Elem.kids

/-- All selectors of the response have names. -/
def Named (body : Elem) : Prop := ∀ es, selectorElems body = some es → ∀ e ∈ es, (e.attr "Name".toList).isSome = true

/-- The environment in a create request: names and values in their order, none without an environment. -/
def variablesOf (body : Elem) : Option (List (Option PyStr × Option PyStr)) :=
  (elemsAt ["rsp:Environment".toList] body).head?.map fun e =>
    (elemsAt ["rsp:Variable".toList] e).map fun v => (v.attr "Name".toList, v.text)

/-- The command line in a command request: the executable and its arguments. -/
def commandLineOf (body : Elem) : List (Option PyStr) × List (Option PyStr) :=
  ((elemsAt ["rsp:Command".toList] body).map Elem.text, (elemsAt ["rsp:Arguments".toList] body).map Elem.text)

/-- A piece of input as the server reads it. -/
structure Input where
  stream : Option PyStr
  command : Option PyStr
  data : Option PyStr
  last : Option PyStr
  deriving DecidableEq

/-- The input in a send request. -/
def processInputs (r : ShellReq) : Option (List Input) :=
  match r with
  | .send .. => r.body.map fun b => (elemsAt ["rsp:Stream".toList] b).map fun e =>
      ⟨e.attr "Name".toList, e.attr "CommandId".toList, e.text, e.attr "End".toList⟩
  | _ => none

/-- A create response does not say anything about what was asked for, apart from repeating it. -/
structure Echoes (s : WinRS) (body : Elem) : Prop where
  idle : elemsAt ["rsp:Shell".toList, "rsp:IdleTimeOut".toList] body = []
  streams : ∀ e ∈ elemsAt ["rsp:Shell".toList, "rsp:OutputStreams".toList] body, e.text = s.outputStreams
  uri : ∀ e ∈ elemsAt ["rsp:Shell".toList, "rsp:ResourceUri".toList] body, e.text = s.resourceUri

/-- The output streams of a process. -/
inductive ProcStream where
  | stdout | stderr
  deriving DecidableEq, Repr

def ProcStream.name : ProcStream → PyStr
  | .stdout => "stdout".toList
  | .stderr => "stderr".toList

/-- The elements carry the chunks: every one is one chunk in base64, or has no text and carries nothing. -/
inductive Carries : List Elem → List (ProcStream × Bytes) → Prop
  | nil : Carries [] []
  | chunk {e es s b cs} : e.attr "Name".toList = some (ProcStream.name s) → e.text = some (b64Encode b) → Carries es cs →
      Carries (e :: es) ((s, b) :: cs)
  | empty {e es cs} : e.text = none → Carries es cs → Carries (e :: es) cs

/-- [MS-WSMV] 2.2.4.6: the state of a command that has not started. -/
def pendingUri : PyStr := "http://schemas.microsoft.com/wbem/wsman/1/windows/shell/CommandState/Pending".toList

/-- A response to a receive request with these chunks, this state (pending if none is given) and exit code. -/
structure Reports (body : Elem) (chunks : List (ProcStream × Bytes)) (state : PyStr) (code : Option Int) : Prop where
  chunks : Carries (elemsAt ["rsp:ReceiveResponse".toList, "rsp:Stream".toList] body) chunks
  state : (∃ e, (elemsAt ["rsp:ReceiveResponse".toList, "rsp:CommandState".toList] body).head? = some e ∧ e.attr "State".toList = some state) ∨
    (elemsAt ["rsp:ReceiveResponse".toList, "rsp:CommandState".toList] body = [] ∧ state = pendingUri)
  code : (elemsAt ["rsp:ReceiveResponse".toList, "rsp:CommandState".toList, "rsp:ExitCode".toList] body).head?.map Elem.text =
    code.map fun c => some (pyStrInt c)

/-- The fault of a poll without output. -/
def pollTimeout : Except PyErr Elem := .error (.wsManFault (some 2150858793))

/-- [MS-WSMV] 2.2.4.6: the state of a command that has ended. -/
def doneUri : PyStr := "http://schemas.microsoft.com/wbem/wsman/1/windows/shell/CommandState/Done".toList

/-- [MS-WSMV] 2.2.4.38: the signal that ends a command. -/
def interruptUri : PyStr := "http://schemas.microsoft.com/wbem/wsman/1/windows/shell/signal/ctrl_c".toList

/-- The answers up to the end of a process: the chunks in all of them, and the exit code in the last. -/
inductive ProcRun : List (Except PyErr Elem) → List (ProcStream × Bytes) → Option Int → Prop
  | timeout {rs cs code} : ProcRun rs cs code → ProcRun (pollTimeout :: rs) cs code
  | more {body c state code' rs cs code} : Reports body c state code' → state ≠ doneUri → ProcRun rs cs code →
      ProcRun (.ok body :: rs) (c ++ cs) code
  | done {body cs code} : Reports body cs doneUri code → ProcRun [.ok body] cs code

/-- The answers to any number of polls, which may fail. -/
inductive PollRun : List (Except PyErr Elem) → List (ProcStream × Bytes) → Prop
  | nil : PollRun [] []
  | failed {e rs cs} : PollRun rs cs → PollRun (.error e :: rs) cs
  | more {body c state code rs cs} : Reports body c state code → PollRun rs cs → PollRun (.ok body :: rs) (c ++ cs)

/-- The bytes of one stream. -/
def bytesOf (s : ProcStream) (chunks : List (ProcStream × Bytes)) : Bytes := (chunks.filter (·.1 = s)).flatMap (·.2)

end Verif
