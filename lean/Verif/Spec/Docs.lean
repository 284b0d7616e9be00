import Verif.Spec.Seen
import Verif.Spec.Strings
/-
The documents of the messages that open a pool and start a pipeline, element by element: [MS-PSRP] 2.2.2.2, 2.2.2.10 and the objects in them.
References to type names are resolved, so that every element shows its own.
-/
namespace Verif

/-- An element with its type names. -/
inductive Doc where
  | node (tag : Tag) (name : Option PyStr) (types : List PyStr) (text : Option PyStr) (kids : List Doc)

/-- Type names by their ids. -/
abbrev TypeTable := List (PyStr × List PyStr)

mutual
/-- Reads a document from its start: TN elements define type names, TNRef elements refer to them. The id of a Ref is its text. -/
def resolve : Xml → TypeTable → Doc × TypeTable
  | .node t r n x ks, tbl =>
    let res := resolveKids ks tbl
    (.node t n res.1 (if t = .Ref then r else x) res.2.1, res.2.2)
def resolveKids : List Xml → TypeTable → List PyStr × List Doc × TypeTable
  | [], tbl => ([], [], tbl)
  | k :: ks, tbl =>
    match k with
    | .node t r n x kids =>
      if t = .TN then
        let names := kids.map fun e => e.text.getD []
        let res := resolveKids ks ((r.getD [], names) :: tbl)
        (names, res.2.1, res.2.2)
      else if t = .TNRef then
        let res := resolveKids ks tbl
        ((tbl.lookup (r.getD [])).getD ["?".toList], res.2.1, res.2.2)
      else
        let d := resolve (.node t r n x kids) tbl
        let res := resolveKids ks d.2
        (res.1, d.1 :: res.2.1, res.2.2)
end

namespace Docs

/-- [MS-PSRP] 2.2.5.3.2: a string as it is written. -/
def escaped (s : PyStr) : PyStr := (List.range s.length).flatMap fun i => escapedChar (s.getD i default) s[i + 1]?

def leaf (t : Tag) (n : Option String) (text : PyStr) : Doc := .node t (n.map String.toList) [] (some text) []
def null (n : Option String) : Doc := .node .Nil (n.map String.toList) [] none []
def text (n : Option String) (s : PyStr) : Doc := leaf .S n (escaped s)
def truth (n : Option String) (b : Bool) : Doc := leaf .B n (if b then "true".toList else "false".toList)
def number (n : Option String) (i : Int) : Doc := leaf .I32 n (pyStrInt i)
def orNull {α : Type} (f : Option String → α → Doc) (n : Option String) : Option α → Doc
  | some a => f n a
  | none => null n

/-- An object without type names with the given members. -/
def members (n : Option String) (ms : List Doc) : Doc := .node .Obj (n.map String.toList) [] none [.node .MS none [] none ms]

/-- A value of an enumeration: its type names, its name and its number. -/
def enumerated (n : Option String) (type : String) (name : String) (value : Int) : Doc :=
  .node .Obj (n.map String.toList) ([type, "System.Enum", "System.ValueType", "System.Object"].map String.toList) none
    [leaf .ToString none name.toList, number none value]

def listDoc (n : Option String) (types : List String) (items : List Doc) : Doc :=
  .node .Obj (n.map String.toList) (types.map String.toList) none [.node .LST none [] none items]

def dictDoc (n : Option String) (types : List String) (entries : List (Doc × Doc)) : Doc :=
  .node .Obj (n.map String.toList) (types.map String.toList) none [.node .DCT none [] none (entries.map fun e => .node .En none [] none [e.1, e.2])]

mutual
/-- The document of a value without objects. -/
def value (n : Option String) : PyVal → Doc
  | .sc .none => null n
  | .sc (.bool b) => truth n b
  | .sc (.int i) => number n i
  | .sc (.str s) => text n s
  | .sc (.bytes b) => leaf .BA n (b64Encode b)
  | .sc (.guid u) => leaf .G n u.toStr
  | .list xs => listDoc n ["System.Object[]", "System.Array", "System.Object"] (values xs)
  | .dict es => dictDoc n ["System.Collections.Hashtable", "System.Object"] (entries es)
  | _ => null n
def values : List PyVal → List Doc
  | [] => []
  | x :: xs => value none x :: values xs
def entries : List (PyVal × PyVal) → List (Doc × Doc)
  | [] => []
  | (k, v) :: es => (value (some "Key") k, value (some "Value") v) :: entries es
end

/-! ### Host information, 2.2.3.14 -/

def setting (type : String) (v : Option String → Doc) : Doc := members (some "Value") [text (some "T") type.toList, v (some "V")]
def position (p : Int × Int) : Doc :=
  setting "System.Management.Automation.Host.Coordinates" fun n => members n [number (some "x") p.1, number (some "y") p.2]
def extent (p : Int × Int) : Doc :=
  setting "System.Management.Automation.Host.Size" fun n => members n [number (some "height") p.2, number (some "width") p.1]

def screenDoc (s : Seen.Screen) : Doc := members (some "_hostDefaultData") [
  dictDoc (some "data") ["System.Collections.Hashtable", "System.Object"] (List.zip ((List.range 10).map fun i : Nat => number (some "Key") i) [
    setting "System.ConsoleColor" fun n => number n s.foreground,
    setting "System.ConsoleColor" fun n => number n s.background,
    position s.cursorPosition,
    position s.windowPosition,
    setting "System.Int32" fun n => number n s.cursorSize,
    extent s.bufferSize,
    extent s.windowSize,
    extent s.maxWindowSize,
    extent s.maxPhysicalWindowSize,
    setting "System.String" fun n => text n s.windowTitle])]

def hostDoc (facts : Option Seen.HostFacts) : Doc :=
  let flags (a b c d : Bool) : List Doc :=
    [truth (some "_isHostNull") a, truth (some "_isHostUINull") b, truth (some "_isHostRawUINull") c, truth (some "_useRunspaceHost") d]
  members (some "HostInfo") <| match facts with
    | none => flags true true true true
    | some h => match h.ui, h.screen with
      | true, some s => screenDoc s :: flags false false false false
      | ui, _ => flags false (!ui) true false

/-! ### Commands, 2.2.3.11 to 2.2.3.13 -/

def objectList : List String := ["System.Collections.Generic.List`1[[System.Management.Automation.PSObject, System.Management.Automation, Version=1.0.0.0, Culture=neutral, PublicKeyToken=31bf3856ad364e35]]",
  "System.Object"]

def resultDoc (n : String) (r : ResultTypes) : Doc :=
  enumerated (some n) "System.Management.Automation.Runspaces.PipelineResultTypes"
    ((if r.protocol2 then ["None", "Output", "Error", "Output, Error"]
      else ["None", "Output", "Error", "Warning", "Verbose", "Debug", "Information", "All", "Null"]).getD r.value "") r.value

def parameterDoc (env : Nat → PyVal) (a : Option PyStr × ArgVal) : Doc :=
  members none [orNull text (some "N") a.1, value (some "V") (Seen.argSeen env a.2)]

def commandDoc (env : Nat → PyVal) (new22 new23 : Bool) (c : Command) : Doc :=
  members none ([text (some "Cmd") c.cmd, orNull truth (some "IsScript") c.isScript, orNull truth (some "UseLocalScope") c.useLocalScope,
    resultDoc "MergeMyResult" c.mergeMyResult, resultDoc "MergeToResult" c.mergeToResult,
    resultDoc "MergePreviousResults" c.mergePrevious, listDoc (some "Args") objectList (c.args.map (parameterDoc env))] ++
    (if new22 then [resultDoc "MergeError" c.mergeError, resultDoc "MergeWarning" c.mergeWarning,
      resultDoc "MergeVerbose" c.mergeVerbose, resultDoc "MergeDebug" c.mergeDebug] else []) ++
    (if new23 then [resultDoc "MergeInformation" c.mergeInformation] else []))

def pipelineDoc (env : Nat → PyVal) (new22 new23 nested : Bool) (commands : List Command) (history : Option PyStr) (redirect : Bool) : Doc :=
  let cmds (s : List Command) : Doc := listDoc (some "Cmds") objectList (s.map (commandDoc env new22 new23))
  members (some "PowerShell") [truth (some "IsNested") nested,
    match Seen.statements commands with
      | s :: t :: ss => listDoc (some "ExtraCmds") objectList ((s :: t :: ss).map fun s => members none [cmds s])
      | _ => null (some "ExtraCmds"),
    cmds ((Seen.statements commands).headD []), orNull text (some "History") history,
    truth (some "RedirectShellErrorOutputPipe") redirect]

/-! ### Messages -/

def apartmentDoc (n : Nat) : Doc :=
  enumerated (some "ApartmentState") "System.Management.Automation.Runspaces.ApartmentState" (["STA", "MTA", "UNKNOWN"].getD n "") n
def threadDoc (n : Nat) : Doc :=
  enumerated (some "PSThreadOptions") "System.Management.Automation.Runspaces.PSThreadOptions"
    (["Default", "UseNewThread", "ReuseThread", "UseCurrentThread"].getD n "") n

/-- 2.2.3.8: the names of the options that are set, or the name of all four. -/
def streamNames (n : Nat) : String :=
  if n = 15 then "AddInvocationInfo"
  else ", ".intercalate ((["AddInvocationInfoToErrorRecord", "AddInvocationInfoToWarningRecord", "AddInvocationInfoToDebugRecord",
    "AddInvocationInfoToVerboseRecord"].zip [1, 2, 4, 8]).filterMap fun e => if n / e.2 % 2 = 1 then some e.1 else none)

end Docs

/-- Values that contain no objects, queues or stacks. -/
inductive Simple : PyVal → Prop
  | sc (s : Scalar) : Simple (.sc s)
  | list {xs : List PyVal} (h : ∀ x ∈ xs, Simple x) : Simple (.list xs)
  | dict {es : List (PyVal × PyVal)} (hk : ∀ e ∈ es, Simple e.1) (hv : ∀ e ∈ es, Simple e.2) : Simple (.dict es)

/-- What is assumed of a command: its redirections have names, its arguments contain no objects. -/
structure Command.Printed (env : Nat → PyVal) (c : Command) : Prop where
  values : ∀ a ∈ c.args, Simple (Seen.argSeen env a.2)
  merges : ∀ r ∈ [c.mergeMyResult, c.mergeToResult, c.mergePrevious, c.mergeError, c.mergeWarning, c.mergeVerbose, c.mergeDebug,
    c.mergeInformation], r.Named

end Verif
