import Verif.Model.Serializer
import Verif.Model.Commands
import Verif.Model.Host
import Verif.Spec.Commands
import Verif.Spec.Serializer
/-
What the other side finds in the messages that open a pool and start a pipeline: trees of names and values as in [MS-PSRP]
2.2.2.2, 2.2.2.10, 2.2.3.11 to 2.2.3.14.
-/
namespace Verif.Seen

/-- An object without type names with the given members. -/
def record (ms : List (String × PyVal)) : PyVal := .generic 0 [] none [] (ms.map fun e => (e.1.toList, e.2)) []

/-- A value of an enumeration with its name. -/
def enumerated (type : String) (name : PyStr) (value : Int) : PyVal :=
  .typed 0 [type.toList, "System.Enum".toList, "System.ValueType".toList, "System.Object".toList] (some name)
    [(.plain .I32 none false, .sc (.int value))] [] []

def text (s : PyStr) : PyVal := .sc (.str s)
def number (i : Int) : PyVal := .sc (.int i)
def boolean (b : Bool) : PyVal := .sc (.bool b)
def null : PyVal := .sc .none
def orNull {α : Type} (f : α → PyVal) : Option α → PyVal
  | some a => f a
  | none => null

/-! ### Host information, 2.2.3.14 -/

/-- The screen of a host. Sizes are width and height. -/
structure Screen where
  foreground : Int
  background : Int
  cursorPosition : Int × Int
  windowPosition : Int × Int
  cursorSize : Int
  bufferSize : Int × Int
  windowSize : Int × Int
  maxWindowSize : Int × Int
  maxPhysicalWindowSize : Int × Int
  windowTitle : PyStr

/-- What is known of a host: `none` is no host; `ui` and `screen` may be missing. -/
structure HostFacts where
  ui : Bool
  screen : Option Screen

def setting (type : String) (value : PyVal) : PyVal := record [("T", text type.toList), ("V", value)]
def position (p : Int × Int) : PyVal :=
  setting "System.Management.Automation.Host.Coordinates" (record [("x", number p.1), ("y", number p.2)])
def extent (p : Int × Int) : PyVal :=
  setting "System.Management.Automation.Host.Size" (record [("height", number p.2), ("width", number p.1)])

def Screen.seen (s : Screen) : PyVal := record [("data", .dict [
  (number 0, setting "System.ConsoleColor" (number s.foreground)),
  (number 1, setting "System.ConsoleColor" (number s.background)),
  (number 2, position s.cursorPosition),
  (number 3, position s.windowPosition),
  (number 4, setting "System.Int32" (number s.cursorSize)),
  (number 5, extent s.bufferSize),
  (number 6, extent s.windowSize),
  (number 7, extent s.maxWindowSize),
  (number 8, extent s.maxPhysicalWindowSize),
  (number 9, setting "System.String" (text s.windowTitle))])]

/-- The host information. A screen counts only if there is a user interface. -/
def hostSeen : Option HostFacts → PyVal
  | none => record [("_isHostNull", boolean true), ("_isHostUINull", boolean true), ("_isHostRawUINull", boolean true),
      ("_useRunspaceHost", boolean true)]
  | some h =>
    match h.ui, h.screen with
    | true, some s => record [("_hostDefaultData", s.seen), ("_isHostNull", boolean false), ("_isHostUINull", boolean false),
        ("_isHostRawUINull", boolean false), ("_useRunspaceHost", boolean false)]
    | ui, _ => record [("_isHostNull", boolean false), ("_isHostUINull", boolean !ui), ("_isHostRawUINull", boolean true),
        ("_useRunspaceHost", boolean false)]

/-! ### Commands, 2.2.3.12, 2.2.3.13, 2.2.3.31 -/

/-- The names of PipelineResultTypes. -/
def resultNames : List String := ["None", "Output", "Error", "Warning", "Verbose", "Debug", "Information", "All", "Null"]

def resultSeen (r : ResultTypes) : PyVal :=
  enumerated "System.Management.Automation.Runspaces.PipelineResultTypes" (resultNames.getD r.value "").toList r.value

def argSeen (env : Nat → PyVal) : ArgVal → PyVal
  | .none => null
  | .str s => text s
  | .bool b => boolean b
  | .other n => env n

def parameterSeen (env : Nat → PyVal) (a : Option PyStr × ArgVal) : PyVal :=
  record [("N", orNull text a.1), ("V", argSeen env a.2)]

/-- A command for a server that has negotiated a version of at least 2.2 (`new22`) and 2.3 (`new23`). -/
def commandSeen (env : Nat → PyVal) (new22 new23 : Bool) (c : Command) : PyVal :=
  record ([("Cmd", text c.cmd), ("IsScript", orNull boolean c.isScript), ("UseLocalScope", orNull boolean c.useLocalScope),
    ("MergeMyResult", resultSeen c.mergeMyResult), ("MergeToResult", resultSeen c.mergeToResult),
    ("MergePreviousResults", resultSeen c.mergePrevious), ("Args", .list (c.args.map (parameterSeen env)))] ++
    (if new22 then [("MergeError", resultSeen c.mergeError), ("MergeWarning", resultSeen c.mergeWarning),
      ("MergeVerbose", resultSeen c.mergeVerbose), ("MergeDebug", resultSeen c.mergeDebug)] else []) ++
    (if new23 then [("MergeInformation", resultSeen c.mergeInformation)] else []))

/-- Commands cut into statements: after each command that ends one. -/
def statements : List Command → List (List Command)
  | [] => []
  | [c] => [[c]]
  | c :: d :: cs =>
    if c.endOfStatement then [c] :: statements (d :: cs)
    else match statements (d :: cs) with
      | [] => [[c]]
      | s :: ss => (c :: s) :: ss

/-- A pipeline, 2.2.3.11: the first statement is in `Cmds`, all of them are in `ExtraCmds` if there is more than one. -/
def pipelineSeen (env : Nat → PyVal) (new22 new23 nested : Bool) (commands : List Command) (history : Option PyStr)
    (redirect : Bool) : PyVal :=
  let cmds (s : List Command) : PyVal := .list (s.map (commandSeen env new22 new23))
  record [("IsNested", boolean nested),
    ("ExtraCmds", match statements commands with
      | s :: t :: ss => .list ((s :: t :: ss).map fun s => record [("Cmds", cmds s)])
      | _ => null),
    ("Cmds", cmds ((statements commands).headD [])), ("History", orNull text history),
    ("RedirectShellErrorOutputPipe", boolean redirect)]

end Verif.Seen

namespace Verif
open Seen

/-- Strings that survive the wire (C12, C13). -/
def WireText (s : PyStr) : Prop := PlainScalar (.str s)

/-- A redirection that has a name; with the names of protocol version 2 there are four. -/
def ResultTypes.Named (r : ResultTypes) : Prop := r.value ≤ (if r.protocol2 then 3 else 8)

/-- A host with these facts. -/
def Seen.Shows (h : DefaultHost) (f : HostFacts) : Prop :=
  h.ui = f.ui ∧
    match h.raw, f.screen with
    | none, none => True
    | some r, some s => r.foreground = .color (some s.foreground) ∧ r.background = .color (some s.background) ∧
        r.cursorPosition = .coordinates s.cursorPosition.1 s.cursorPosition.2 ∧
        r.windowPosition = .coordinates s.windowPosition.1 s.windowPosition.2 ∧ r.cursorSize = .int s.cursorSize ∧
        r.bufferSize = .size s.bufferSize.2 s.bufferSize.1 ∧ r.windowSize = .size s.windowSize.2 s.windowSize.1 ∧
        r.maxWindowSize = .size s.maxWindowSize.2 s.maxWindowSize.1 ∧
        r.maxPhysicalWindowSize = .size s.maxPhysicalWindowSize.2 s.maxPhysicalWindowSize.1 ∧
        r.windowTitle = .str s.windowTitle ∧ WireText s.windowTitle
    | _, _ => False
def Seen.ShowsHost : Option DefaultHost → Option HostFacts → Prop
  | none, none => True
  | some h, some f => Shows h f
  | _, _ => False

/-- Commands whose parts survive the wire. -/
structure Command.Clean (env : Nat → PyVal) (c : Command) : Prop where
  cmd : WireText c.cmd
  names : ∀ a ∈ c.args, ∀ n, a.1 = some n → WireText n
  values : ∀ a ∈ c.args, PlainValue (argSeen env a.2)
  merges : ∀ r ∈ [c.mergeMyResult, c.mergeToResult, c.mergePrevious, c.mergeError, c.mergeWarning, c.mergeVerbose, c.mergeDebug,
    c.mergeInformation], r.Named

/-- Calls that build commands, with texts and values that survive the wire. -/
def BuildOp.Clean (env : Nat → PyVal) : BuildOp → Prop
  | .add cmd _ _ => WireText cmd
  | .parameter name value => (∀ n, name = some n → WireText n) ∧ PlainValue (argSeen env value)
  | _ => True

/-- The names of the thread options and of the apartment states. -/
def Seen.threadNames : List String := ["Default", "UseNewThread", "ReuseThread", "UseCurrentThread"]
def Seen.apartmentNames : List String := ["STA", "MTA", "UNKNOWN"]
def Seen.threadSeen (n : Nat) : PyVal :=
  enumerated "System.Management.Automation.Runspaces.PSThreadOptions" (threadNames.getD n "").toList n
def Seen.apartmentSeen (n : Nat) : PyVal :=
  enumerated "System.Management.Automation.Runspaces.ApartmentState" (apartmentNames.getD n "").toList n

end Verif
