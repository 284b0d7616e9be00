import Verif.Model.Transport
import Verif.Model.Pool
/-
What the errors say: `message` of the exceptions (src/pypsrp/exceptions.py 19-134), the names of the states
(src/pypsrp/complex_objects.py 246-313) and `_handle_powershell_error` (src/pypsrp/client.py 324-328).
-/
namespace Verif

/-- `str(n)` of a code that is a text or a number. -/
def codeText : PyStr ⊕ Int → PyStr
  | .inl s => s
  | .inr n => pyStrInt n

/-- exceptions.py 77: `if self.code`, false for None, an empty text and 0. -/
def codeTrue : Option (PyStr ⊕ Int) → Option (PyStr ⊕ Int)
  | some (.inl []) => none
  | some (.inr 0) => none
  | c => c

/-- exceptions.py 80-93: `if self.machine` and so on, false for None and an empty text. -/
def textTrue : Option PyStr → Option PyStr
  | some [] => none
  | t => t

/-- exceptions.py 75-93: `if value: error_details.append(label % value)`. -/
def addDetail (label : String) (value : Option PyStr) (details : List PyStr) : List PyStr :=
  match value with
  | none => details
  | some v => details ++ [label.toList ++ v]

/-- exceptions.py 46-102 `WSManFaultError.message`. -/
def faultMessage (code : Option (PyStr ⊕ Int)) (machine reason provider providerPath providerFault : Option PyStr) : PyStr :=
  let details := addDetail "Code: " ((codeTrue code).map codeText) []
  let details := addDetail "Machine: " (textTrue machine) details
  let details := addDetail "Reason: " (textTrue reason) details
  let details := addDetail "Provider: " (textTrue provider) details
  let details := addDetail "Provider Path: " (textTrue providerPath) details
  let details := addDetail "Provider Fault: " (textTrue providerFault) details
  let details := if details.length = 0 then ["No details returned by the server".toList] else details
  "Received a WSManFault message. (".toList ++ joinWith ", ".toList details ++ ")".toList

/-- exceptions.py 19-43 `WinRMTransportError.message`. The protocol is always "http" (wsman.py 931), the text has been decoded. -/
def transportMessage (code : Nat) (text : PyStr) : PyStr :=
  "Bad HTTP response returned from the server. Code: ".toList ++ pyStrNat code ++ ", Content: '".toList ++ text ++ "'".toList

/-- complex_objects.py 269-281. -/
def poolStateNames : List (Int × String) :=
  [(0, "BeforeOpen"), (1, "Opening"), (2, "Opened"), (3, "Closed"), (4, "Closing"), (5, "Broken"), (6, "NegotiationSent"),
    (7, "NegotiationSucceeded"), (8, "Connecting"), (9, "Disconnected")]

/-- complex_objects.py 304-313. -/
def pipeStateNames : List (Int × String) :=
  [(0, "NotStarted"), (1, "Running"), (2, "Stopping"), (3, "Stopped"), (4, "Completed"), (5, "Failed"), (6, "Disconnected")]

/-- `{...}[self.state]`. -/
def stateText (names : List (Int × String)) (state : Int) : Except PyErr PyStr :=
  match names.find? (·.1 = state) with
  | none => .error .keyError
  | some n => .ok n.2.toList

/-- exceptions.py 105-131 `_InvalidStateError.message` with the names of the state class (137-146). A single expected state is a list of
one (exceptions.py 124-125). -/
def stateMessage (names : List (Int × String)) (current : Int) (expected : List Int) (action : PyStr) : Except PyErr PyStr := do
  let cur ← stateText names current
  let exp ← expected.mapM (stateText names)
  return "Cannot '".toList ++ action ++ "' on the current state '".toList ++ cur ++ "', expecting state(s): '".toList ++ joinWith ", ".toList exp ++ "'".toList

/-- client.py 324-328 `_handle_powershell_error`: the text of the error that is raised, if one is. `errors` are the texts of the error
records. -/
def handlePsError (message : PyStr) (hadErrors : Bool) (errors : List PyStr) : Option PyStr :=
  if message ≠ [] ∧ hadErrors then some (message ++ ": ".toList ++ joinWith "\n".toList errors) else none

end Verif
