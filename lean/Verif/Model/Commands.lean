import Verif.Model.Utils
/-
The commands of a pipeline: redirections (src/pypsrp/powershell.py 1320-1466, 1538-1560; src/pypsrp/complex_objects.py 526-632),
statements (complex_objects.py 402-523) and multi-dimensional arrays (complex_objects.py 1431-1523).
-/
namespace Verif

/-- complex_objects.py 1544-1600 `PipelineResultTypes`: the number, and whether the map of protocol version 2 is used. -/
structure ResultTypes where
  value : Nat
  protocol2 : Bool := false
  deriving DecidableEq, Repr

namespace ResultTypes
def noMerge : ResultTypes := ⟨0, false⟩
def output : ResultTypes := ⟨1, false⟩
def error : ResultTypes := ⟨2, false⟩
def null : ResultTypes := ⟨8, false⟩
end ResultTypes

/-- The value of an argument: what `client.py` passes, and anything else, which is opaque. -/
inductive ArgVal where
  | none
  | str (s : PyStr)
  | bool (b : Bool)
  | other (tag : Nat)
  deriving DecidableEq, Repr

/-- complex_objects.py 526-632 `Command`. -/
structure Command where
  cmd : PyStr
  version : PyStr
  isScript : Option Bool := none
  useLocalScope : Option Bool := none
  mergeMyResult : ResultTypes := .noMerge
  mergeToResult : ResultTypes := .noMerge
  mergePrevious : ResultTypes := .noMerge
  mergeError : ResultTypes := .noMerge
  mergeWarning : ResultTypes := .noMerge
  mergeVerbose : ResultTypes := .noMerge
  mergeDebug : ResultTypes := .noMerge
  mergeInformation : ResultTypes := .noMerge
  args : List (Option PyStr × ArgVal) := []
  endOfStatement : Bool := false
  deriving DecidableEq, Repr

/-- complex_objects.py 558-606: the redirections that are sent, with their names; the ones of later protocol versions are
only sent to servers that have negotiated that version. Raises if the version is not a version. -/
def Command.sentMerges (c : Command) : Except PyErr (List (String × ResultTypes)) := do
  let v22 ← versionEqualOrNewer c.version "2.2".toList
  let v23 ← versionEqualOrNewer c.version "2.3".toList
  return [("MergeMyResult", c.mergeMyResult), ("MergeToResult", c.mergeToResult), ("MergePreviousResults", c.mergePrevious)] ++
    (if v22 then [("MergeError", c.mergeError), ("MergeWarning", c.mergeWarning), ("MergeVerbose", c.mergeVerbose),
      ("MergeDebug", c.mergeDebug)] else []) ++
    (if v23 then [("MergeInformation", c.mergeInformation)] else [])

/-- The attributes that `_set_merge_to` sets. -/
inductive MergeStream where
  | error | warning | verbose | debug | information
  deriving DecidableEq, Repr

/-- `setattr(command, merge, to_result)`. -/
def Command.setMerge (c : Command) (s : MergeStream) (r : ResultTypes) : Command :=
  match s with
  | .error => { c with mergeError := r }
  | .warning => { c with mergeWarning := r }
  | .verbose => { c with mergeVerbose := r }
  | .debug => { c with mergeDebug := r }
  | .information => { c with mergeInformation := r }

/-- What a call leaves behind: its outcome and `self.commands`, which may have been changed before it raised. -/
abbrev Edited := Except PyErr Unit × List Command

/-- One call after the other; the second is not made if the first raises. -/
def Edited.andThen (a : Edited) (f : List Command → Edited) : Edited :=
  match a with
  | (.ok (), cs) => f cs
  | (.error e, cs) => (.error e, cs)

/-- `self.commands[-1].<attr> = ...`: IndexError if there are no commands. -/
def onLast (f : Command → Command) (cs : List Command) : Edited :=
  match cs.getLast? with
  | none => (.error .indexError, cs)
  | some c => (.ok (), cs.dropLast ++ [f c])

/-- `getattr(PipelineResultTypes, to.upper())` for the three targets that can be valid. -/
def mergeTarget (to : PyStr) : Option ResultTypes :=
  if to = "none".toList then some .noMerge
  else if to = "null".toList then some .null
  else if to = "output".toList then some .output
  else none

/-- powershell.py 1538-1560 `_set_merge_to`. `protocol` is `runspace_pool.protocol_version or ""`. `null` says whether "null" is
among the valid targets. -/
def setMergeTo (protocol : PyStr) (s : MergeStream) (to : PyStr) (null : Bool) (minProtocol : Option PyStr)
    (cs : List Command) : Edited :=
  match mergeTarget to with
  | none => (.error .invalidPSRPOperation, cs)
  | some r =>
    if r = .null ∧ null = false then (.error .invalidPSRPOperation, cs)
    else match minProtocol with
      | none => onLast (·.setMerge s r) cs
      | some m => match versionEqualOrNewer protocol m with
        | .error e => (.error e, cs)
        | .ok false => (.error .invalidPSRPOperation, cs)
        | .ok true => onLast (·.setMerge s r) cs

/-- powershell.py 1366-1391 `merge_error`. -/
def mergeError (protocol : PyStr) (to : PyStr) (cs : List Command) : Edited :=
  (setMergeTo protocol .error to false none cs).andThen fun cs =>
    onLast (fun c => { c with mergeMyResult := if to = "none".toList then c.mergeError else .error, mergeToResult := c.mergeError }) cs

/-- powershell.py 1393-1454 `merge_warning`, `merge_verbose`, `merge_debug`, `merge_information`. -/
def mergeWarning (protocol to : PyStr) (cs : List Command) : Edited := setMergeTo protocol .warning to true (some "2.2".toList) cs
def mergeVerbose (protocol to : PyStr) (cs : List Command) : Edited := setMergeTo protocol .verbose to true (some "2.2".toList) cs
def mergeDebug (protocol to : PyStr) (cs : List Command) : Edited := setMergeTo protocol .debug to true (some "2.2".toList) cs
def mergeInformation (protocol to : PyStr) (cs : List Command) : Edited :=
  setMergeTo protocol .information to true (some "2.3".toList) cs

/-- `if version_equal_or_newer(protocol, m): ...`. -/
def ifVersion (protocol m : PyStr) (f : List Command → Edited) (cs : List Command) : Edited :=
  match versionEqualOrNewer protocol m with
  | .error e => (.error e, cs)
  | .ok true => f cs
  | .ok false => (.ok (), cs)

/-- powershell.py 1341-1364 `merge_all`. -/
def mergeAll (protocol to : PyStr) (cs : List Command) : Edited :=
  (mergeError protocol to cs).andThen fun cs =>
    (ifVersion protocol "2.2".toList (fun cs =>
      ((mergeDebug protocol to cs).andThen (mergeVerbose protocol to)).andThen (mergeWarning protocol to)) cs).andThen fun cs =>
        ifVersion protocol "2.3".toList (mergeInformation protocol to) cs

/-- powershell.py 1320-1339 `merge_previous`. -/
def mergePrevious (enabled : Bool) (cs : List Command) : Edited :=
  onLast (fun c => { c with mergePrevious := ⟨if enabled then 3 else 0, true⟩ }) cs

/-- powershell.py 1456-1466 `merge_reset`. -/
def mergeReset (protocol : PyStr) (cs : List Command) : Edited :=
  (mergePrevious false cs).andThen (mergeAll protocol "none".toList)

/-- powershell.py 1001-1035, 1075-1090 `add_cmdlet`, `add_script`: the constructor of `Command` compares versions and so raises
when there is no protocol version. -/
def addCmdlet (protocol cmd : PyStr) (isScript : Bool) (useLocalScope : Option Bool) (cs : List Command) : Edited :=
  match versionEqualOrNewer protocol "2.2".toList, versionEqualOrNewer protocol "2.3".toList with
  | .error e, _ => (.error e, cs)
  | _, .error e => (.error e, cs)
  | .ok _, .ok _ =>
    let c : Command := { cmd, version := protocol, isScript := some isScript, useLocalScope }
    (.ok (), cs ++ [c])

/-- powershell.py 978-991, 1037-1054 `add_argument`, `add_parameter`. -/
def addParameter (name : Option PyStr) (value : ArgVal) (cs : List Command) : Edited :=
  onLast (fun c => { c with args := c.args ++ [(name, value)] }) cs

/-- powershell.py 1092-1101 `add_statement`. -/
def addStatement (cs : List Command) : Edited := onLast (fun c => { c with endOfStatement := true }) cs

/-! Statements. A command is anything with a flag `end_of_statement`; only the rest of it is sent. -/

/-- A command as `Pipeline` sees it. -/
structure Cmd (α : Type) where
  body : α
  ends : Bool := false
  deriving DecidableEq, Repr

/-- complex_objects.py 506-523, the loop: `cur` is `current_statement`. What is left in it after the loop is dropped. -/
def statementLoop (cur : List α) : List (Cmd α) → List (List α)
  | [] => []
  | c :: cs => if c.ends then (cur ++ [c.body]) :: statementLoop [] cs else statementLoop (cur ++ [c.body]) cs

/-- `self.commands[-1].end_of_statement = True`. -/
def markLast : List (Cmd α) → Option (List (Cmd α))
  | [] => none
  | [c] => some [{ c with ends := true }]
  | c :: cs => (markLast cs).map (c :: ·)

/-- complex_objects.py 506-523 `_get_statements`. -/
def getStatements (cs : List (Cmd α)) : Except PyErr (List (List α)) :=
  match markLast cs with
  | none => .error .indexError
  | some cs => .ok (statementLoop [] cs)

/-- The commands in a CREATE_PIPELINE message: `Cmds` and `ExtraCmds`. The encoding of a single command is not modelled here. -/
structure PipelineWire (α : Type) where
  extra : Option (List (List α))
  cmds : List α
  deriving DecidableEq, Repr

/-- complex_objects.py 470-473, 485-495: the getters of `_cmds` and `_extra_cmds`. -/
def Pipeline.write (cs : List (Cmd α)) : Except PyErr (PipelineWire α) := do
  let ss ← getStatements cs
  match ss with
  | [] => .error .indexError
  | s :: _ => return ⟨if ss.length < 2 then none else some ss, s⟩

/-- complex_objects.py 497-505, the loop of the setter of `_extra_cmds`, with the commands so far. A command that was read has not
the flag set. -/
def joinStatements (acc : List (Cmd α)) : List (List α) → Except PyErr (List (Cmd α))
  | [] => .ok acc
  | s :: ss =>
    match markLast (acc ++ s.map fun b => { body := b }) with
    | none => .error .indexError
    | some acc => joinStatements acc ss

/-- complex_objects.py 475-483, 497-505: the setters, in the order of the property list: `_extra_cmds` first. `none` is `None`, the
initial value of `commands`. -/
def Pipeline.read (w : PipelineWire α) : Except PyErr (List (Cmd α)) := do
  let cs ← match w.extra with
    | none => pure none
    | some ss => some <$> joinStatements [] ss
  match cs with
  | some (c :: cs) => return c :: cs
  | _ => return w.cmds.map fun b => { body := b }

/-! Arrays. -/

/-- A Python value as `Array` sees it: a list or something else. -/
inductive Arr (α : Type) where
  | elem (a : α)
  | list (l : List (Arr α))

/-- complex_objects.py 1502-1510 `_get_list_entries`. -/
def Arr.entries : Arr α → List α
  | .elem a => [a]
  | .list l => entriesList l
where
  entriesList : List (Arr α) → List α
    | [] => []
    | a :: l => a.entries ++ entriesList l

/-- complex_objects.py 1512-1523 `_get_list_count`: follows the first elements, IndexError on an empty list. -/
def Arr.counts : Arr α → Except PyErr (List Nat)
  | .elem _ => .ok []
  | .list [] => .error .indexError
  | .list (a :: l) => do return (l.length + 1) :: (← a.counts)

/-- complex_objects.py 1484-1490: the loop that takes groups of `length` elements from `mae` until it is empty. The loop does not
end if `length` is 0 and there are elements; the model says `notModelled` then. Negative lengths, which act like 0, are
not modelled. -/
def groups (length : Nat) (mae : List (Arr α)) : Except PyErr (List (Arr α)) :=
  if h0 : length = 0 then (if mae = [] then .ok [.list []] else .error .notModelled)
  else if h : mae.length < length then .error .indexError
  else if mae.length = length then .ok [.list mae]
  else do return .list (mae.take length) :: (← groups length (mae.drop length))
termination_by mae.length
decreasing_by simp; omega

/-- complex_objects.py 1479-1500 `_build_array`. `mal` is given reversed, so that `mal.pop(-1)` takes its head. -/
def buildArray (mae : List (Arr α)) : List Nat → Except PyErr (List (Arr α))
  | [] => .error .indexError
  | [length] => do
    match ← groups length mae with
    | .list l :: _ => return l
    | _ => .error .notModelled
  | [length, _] => groups length mae
  | length :: n :: m :: mal => do buildArray (← groups length mae) (n :: m :: mal)

/-- complex_objects.py 1431-1477 `Array`: `_array`, `_mae` and `_mal`. -/
structure ArrayObj (α : Type) where
  array : Option (List (Arr α))
  mae : Option (List (Arr α)) := none
  mal : Option (List Nat) := none

/-- complex_objects.py 1449-1454: the getter `array`, with its effect. `None.pop` is an AttributeError. -/
def ArrayObj.getArray (o : ArrayObj α) : Except PyErr (List (Arr α) × ArrayObj α) :=
  match o.array with
  | some a => .ok (a, o)
  | none => match o.mae, o.mal with
    | some mae, some mal => do
      let a ← buildArray mae mal.reverse
      return (a, { o with array := some a })
    | _, _ => .error .attributeError

/-- complex_objects.py 1460-1465: the getter `mae`. It reads `_array`, not `array`. -/
def ArrayObj.getMae (o : ArrayObj α) : Except PyErr (List α) :=
  match o.array with
  | some a => .ok (Arr.entries (.list a))
  | none => .error .typeError

/-- complex_objects.py 1471-1474: the getter `mal`. -/
def ArrayObj.getMal (o : ArrayObj α) : Except PyErr (List Nat) := do
  let (a, _) ← o.getArray
  Arr.counts (.list a)

/-- What the server gets: the properties `mae` and `mal`, in this order. -/
def ArrayObj.write (o : ArrayObj α) : Except PyErr (List α × List Nat) := do
  let mae ← o.getMae
  let mal ← o.getMal
  return (mae, mal)

/-- The object after reading: the setters `mae` and `mal`. -/
def ArrayObj.read (w : List α × List Nat) : ArrayObj α :=
  { array := none, mae := some (w.1.map .elem), mal := some w.2 }

end Verif
