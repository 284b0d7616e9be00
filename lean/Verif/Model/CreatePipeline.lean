import Verif.Model.Commands
import Verif.Model.Deserializer
/-
The messages that open a runspace pool and start a pipeline, as the values that are given to the serializer
(src/pypsrp/complex_objects.py 402-779, src/pypsrp/messages.py 264-312, 450-494, src/pypsrp/powershell.py 551-560, 1229-1251).

All objects here but those of the screen settings have the identity 0; the serializer only remembers generic objects, so that
this makes no difference.
-/
namespace Verif

/-- An object without type names and text that has extended properties only. -/
def extendedObj (props : List (Meta × PyVal)) : PyVal := .typed 0 [] none [] props []

/-- `ObjectMeta(tag, name=name)`. -/
def metaOf (tag : Tag) (name : String) : Meta := .plain tag (some name.toList) false

/-- A boolean attribute that may be None. -/
def optBool : Option Bool → PyVal
  | none => .sc .none
  | some b => .sc (.bool b)
/-- A string attribute that may be None. -/
def optStr : Option PyStr → PyVal
  | none => .sc .none
  | some s => .sc (.str s)

/-- complex_objects.py 410-421, 450-457, 552-559: `cmd_types` and `arg_types`. -/
def cmdTypes : List PyStr := [("System.Collections.Generic.List`1[[System.Management.Automation.PSObject, " ++
  "System.Management.Automation, Version=1.0.0.0, Culture=neutral, PublicKeyToken=31bf3856ad364e35]]").toList,
  "System.Object".toList]

/-- `ListMeta(name=name, list_value_meta=ObjectMeta(tag, ...), list_types=cmd_types)`. -/
def cmdList (name : String) (tag : Tag) : Meta := .list .lst .LST (some name.toList) false (.plain tag none false) cmdTypes

/-! ### Commands -/

/-- complex_objects.py 1576-1582: the names of the values when `protocol_version_2` is set. -/
def resultNames2 : List (Int × PyStr) :=
  [(0, "None".toList), (1, "Output".toList), (2, "Error".toList), (3, "Output, Error".toList)]

/-- `cls(value=value)` for an Enum of the table. -/
def enumInstance (cls : String) (value : Int) : Except PyErr PyVal :=
  match findClass cls.toList with
  | some c => instanceOf c 0 [("value".toList, .sc (.int value))]
  | none => .error .notModelled

/-- complex_objects.py 1561-1598 `PipelineResultTypes`. A value that has no name raises KeyError (148). -/
def ResultTypes.val (r : ResultTypes) : Except PyErr PyVal :=
  if r.protocol2 then
    match resultNames2.lookup (r.value : Int) with
    | some s => .ok (.typed 0 ["System.Management.Automation.Runspaces.PipelineResultTypes".toList, "System.Enum".toList,
        "System.ValueType".toList, "System.Object".toList] (some s) [(.plain .I32 none false, .sc (.int r.value))] [] [])
    | none => .error .keyError
  else enumInstance "PipelineResultTypes" r.value

/-- The value of an argument; `env` gives the opaque ones. -/
def ArgVal.val (env : Nat → PyVal) : ArgVal → PyVal
  | .none => .sc .none
  | .str s => .sc (.str s)
  | .bool b => .sc (.bool b)
  | .other n => env n

/-- complex_objects.py 635-655 `CommandParameter`. -/
def parameterVal (env : Nat → PyVal) (a : Option PyStr × ArgVal) : PyVal :=
  extendedObj [(metaOf .S "N", optStr a.1), (metaOf .star "V", a.2.val env)]

/-- complex_objects.py 566-568, 572-604: the properties of the redirections. Those of later protocol versions are optional, but never None here. -/
def mergeProps (optional : Bool) : List (String × ResultTypes) → Except PyErr (List (Meta × PyVal))
  | [] => .ok []
  | (name, r) :: ms => do
    let v ← r.val
    let vs ← mergeProps optional ms
    return (.plain .Obj (some name.toList) optional, v) :: vs

/-- complex_objects.py 526-632 `Command`, in the order of `_extended_properties`. -/
def Command.val (env : Nat → PyVal) (c : Command) : Except PyErr PyVal := do
  let v22 ← versionEqualOrNewer c.version "2.2".toList
  let v23 ← versionEqualOrNewer c.version "2.3".toList
  let old ← mergeProps false [("MergeMyResult", c.mergeMyResult), ("MergeToResult", c.mergeToResult),
    ("MergePreviousResults", c.mergePrevious)]
  let new22 ← mergeProps true (if v22 then [("MergeError", c.mergeError), ("MergeWarning", c.mergeWarning),
    ("MergeVerbose", c.mergeVerbose), ("MergeDebug", c.mergeDebug)] else [])
  let new23 ← mergeProps true (if v23 then [("MergeInformation", c.mergeInformation)] else [])
  return extendedObj ([(metaOf .S "Cmd", .sc (.str c.cmd)), (metaOf .B "IsScript", optBool c.isScript),
    (metaOf .B "UseLocalScope", optBool c.useLocalScope)] ++ old ++
    [(cmdList "Args" .star, .list (c.args.map (parameterVal env)))] ++ new22 ++ new23)

/-- The commands of one statement. -/
def commandVals (env : Nat → PyVal) : List Command → Except PyErr (List PyVal)
  | [] => .ok []
  | c :: cs => do
    let v ← c.val env
    let vs ← commandVals env cs
    return v :: vs

/-- complex_objects.py 403-422 `_ExtraCmds`, one for each statement. -/
def extraVals (env : Nat → PyVal) : List (List Command) → Except PyErr (List PyVal)
  | [] => .ok []
  | s :: ss => do
    let v ← commandVals env s
    let vs ← extraVals env ss
    return extendedObj [(cmdList "Cmds" .Obj, .list v)] :: vs

/-- complex_objects.py 424-523 `Pipeline`. The flag `end_of_statement` of a command is not sent. -/
def pipelineVal (env : Nat → PyVal) (isNested : Bool) (commands : List Command) (history : Option PyStr) (redirect : Bool) :
    Except PyErr PyVal := do
  let w ← Pipeline.write (commands.map fun c => { body := c, ends := c.endOfStatement })
  let extra ← match w.extra with
    | none => pure (.sc .none)
    | some ss => do
      let vs ← extraVals env ss
      pure (.list vs)
  let cmds ← commandVals env w.cmds
  return extendedObj [(metaOf .B "IsNested", .sc (.bool isNested)), (cmdList "ExtraCmds" .Obj, extra),
    (cmdList "Cmds" .Obj, .list cmds), (metaOf .S "History", optStr history),
    (metaOf .B "RedirectShellErrorOutputPipe", .sc (.bool redirect))]

/-! ### Host information -/

/-- complex_objects.py 661-669 `_DictValue`. Values other than None, strings, integers and booleans are not modelled. -/
def dictValueVal (type : String) (v : HVal) : Except PyErr PyVal := do
  let v : PyVal ← match v with
    | .none => pure (.sc .none)
    | .str s => pure (.sc (.str s))
    | .int i => pure (.sc (.int i))
    | .bool b => pure (.sc (.bool b))
    | _ => .error .notModelled
  return extendedObj [(metaOf .S "T", .sc (.str type.toList)), (metaOf .star "V", v)]

/-- complex_objects.py 671-679 `_Color`. -/
def colorVal : HVal → Except PyErr PyVal
  | .color v => .ok (extendedObj [(metaOf .S "T", .sc (.str "System.ConsoleColor".toList)),
      (metaOf .I32 "V", match v with | some i => .sc (.int i) | none => .sc .none)])
  | _ => .error .attributeError

/-- complex_objects.py 681-691 `_Coordinates`. Generic objects are written in the order of their keys. -/
def coordinatesVal (oid : Nat) : HVal → Except PyErr PyVal
  | .coordinates x y => .ok (extendedObj [
      (metaOf .S "T", .sc (.str "System.Management.Automation.Host.Coordinates".toList)),
      (metaOf .ObjDynamic "V", .generic oid [] none [] [("x".toList, .sc (.int x)), ("y".toList, .sc (.int y))] [])])
  | _ => .error .attributeError

/-- complex_objects.py 693-703 `_Size`. -/
def sizeVal (oid : Nat) : HVal → Except PyErr PyVal
  | .size height width => .ok (extendedObj [
      (metaOf .S "T", .sc (.str "System.Management.Automation.Host.Size".toList)),
      (metaOf .ObjDynamic "V", .generic oid [] none [] [("height".toList, .sc (.int height)), ("width".toList, .sc (.int width))] [])])
  | _ => .error .attributeError

/-- complex_objects.py 705-726 `_HostDefaultData`. The generic objects have the identities 1 to 6. -/
def hostDataVal (raw : RawUi) : Except PyErr PyVal := do
  let v0 ← colorVal raw.foreground
  let v1 ← colorVal raw.background
  let v2 ← coordinatesVal 1 raw.cursorPosition
  let v3 ← coordinatesVal 2 raw.windowPosition
  let v4 ← dictValueVal "System.Int32" raw.cursorSize
  let v5 ← sizeVal 3 raw.bufferSize
  let v6 ← sizeVal 4 raw.windowSize
  let v7 ← sizeVal 5 raw.maxWindowSize
  let v8 ← sizeVal 6 raw.maxPhysicalWindowSize
  let v9 ← dictValueVal "System.String" raw.windowTitle
  return extendedObj [(.dict .DCT (some "data".toList) false (.plain .I32 (some "Key".toList) false)
      (.plain .star (some "Value".toList) false) dictTypes,
    .dict [(.sc (.int 0), v0), (.sc (.int 1), v1), (.sc (.int 2), v2), (.sc (.int 3), v3), (.sc (.int 4), v4),
      (.sc (.int 5), v5), (.sc (.int 6), v6), (.sc (.int 7), v7), (.sc (.int 8), v8), (.sc (.int 9), v9)])]

/-- complex_objects.py 747-767: the flags. -/
def isHostNull (host : Option DefaultHost) : Bool := host.isNone
def isHostUiNull (host : Option DefaultHost) : Bool :=
  match host with
  | some h => !h.ui
  | none => true
def isHostRawUiNull (host : Option DefaultHost) : Bool :=
  match host with
  | some h => if h.ui then h.raw.isNone else true
  | none => true

/-- complex_objects.py 729-779 `HostInfo`. -/
def hostInfoVal (host : Option DefaultHost) : Except PyErr PyVal := do
  let data ← if isHostRawUiNull host then pure (.sc .none)
    else match host.bind (·.raw) with
      | some raw => hostDataVal raw
      | none => .error .attributeError
  return extendedObj [(.plain .Obj (some "_hostDefaultData".toList) true, data),
    (metaOf .B "_isHostNull", .sc (.bool (isHostNull host))), (metaOf .B "_isHostUINull", .sc (.bool (isHostUiNull host))),
    (metaOf .B "_isHostRawUINull", .sc (.bool (isHostRawUiNull host))),
    (metaOf .B "_useRunspaceHost", .sc (.bool (isHostNull host)))]

/-! ### Messages -/

/-- The attributes of a `RunspacePool` that are sent when it is opened (powershell.py 551-560). -/
structure PoolSettings where
  minRunspaces : Int
  maxRunspaces : Int
  threadOptions : Int
  apartmentState : Int
  host : Option DefaultHost

/-- messages.py 296-301. -/
def applicationTypes : List PyStr := ["System.Management.Automation.PSPrimitiveDictionary".toList,
  "System.Collections.Hashtable".toList, "System.Object".toList]

/-- messages.py 264-312 `InitRunspacePool` as `open` builds it (powershell.py 552-559); `none` is
`application_arguments=None`. -/
def initRunspacePoolVal (p : PoolSettings) (arguments : Option (List (PyVal × PyVal))) : Except PyErr PyVal := do
  let thread ← enumInstance "PSThreadOptions" p.threadOptions
  let apartment ← enumInstance "ApartmentState" p.apartmentState
  let host ← hostInfoVal p.host
  return extendedObj [(metaOf .I32 "MinRunspaces", .sc (.int p.minRunspaces)),
    (metaOf .I32 "MaxRunspaces", .sc (.int p.maxRunspaces)), (metaOf .Obj "PSThreadOptions", thread),
    (metaOf .Obj "ApartmentState", apartment), (metaOf .Obj "HostInfo", host),
    (.dict .DCT (some "ApplicationArguments".toList) false (.plain .star (some "Key".toList) false)
      (.plain .star (some "Value".toList) false) applicationTypes,
      match arguments with | some es => .dict es | none => .sc .none)]

/-- The arguments of `begin_invoke` (powershell.py 1196-1203). `noInput` is `input is None or not input`. -/
structure Invocation where
  noInput : Bool := true
  addToHistory : Bool := false
  apartmentState : Option Int := none
  redirectShellError : Bool := false
  remoteStreamOptions : Int := 15

/-- The attributes of a `PowerShell` that are sent. -/
structure PipelineSettings where
  isNested : Bool := false
  commands : List Command
  history : Option PyStr := none

/-- powershell.py 1230: `apartment_state or self.runspace_pool.apartment_state`. -/
def chosenApartment (p : PoolSettings) (inv : Invocation) : Int :=
  match inv.apartmentState with
  | some i => if i = 0 then p.apartmentState else i
  | none => p.apartmentState

/-- powershell.py 1226-1251, messages.py 450-494: the CREATE_PIPELINE message of `begin_invoke`, after the check of the state.
Errors of enumerations without a name for the value come when the message is serialized. -/
def createPipelineVal (env : Nat → PyVal) (p : PoolSettings) (ps : PipelineSettings) (inv : Invocation) : Except PyErr PyVal := do
  if ps.commands = [] then .error .invalidPSRPOperation
  else do
    let apartment ← enumInstance "ApartmentState" (chosenApartment p inv)
    let remote ← enumInstance "RemoteStreamOptions" inv.remoteStreamOptions
    let host ← hostInfoVal p.host
    let pipeline ← pipelineVal env ps.isNested ps.commands ps.history inv.redirectShellError
    return extendedObj [(metaOf .B "NoInput", .sc (.bool inv.noInput)), (metaOf .Obj "ApartmentState", apartment),
      (metaOf .Obj "RemoteStreamOptions", remote), (metaOf .B "AddToHistory", .sc (.bool inv.addToHistory)),
      (metaOf .Obj "HostInfo", host), (metaOf .Obj "PowerShell", pipeline), (metaOf .B "IsNested", .sc (.bool ps.isNested))]

end Verif
