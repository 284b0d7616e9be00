import Verif.Model.Utils
/-
Hosts: `PSHost.run_method` (src/pypsrp/host.py 71-108), the names of the methods (src/pypsrp/complex_objects.py 1057-1127)
and the default host, user interface and raw user interface (host.py 27-1181).
-/
namespace Verif

/-- Values that host methods get and return. `obj` is an object of the server with its extended properties (integers only, a
simplification) and its text; `version` is the XML element of a version. -/
inductive HVal where
  | none
  | str (s : PyStr)
  | int (i : Int)
  | bool (b : Bool)
  | color (value : Option Int)
  | coordinates (x y : Int)
  | size (height width : Int)
  | uuid (n : Nat)
  | version (s : PyStr)
  | obj (text : PyStr) (extended : List (PyStr × Int))
  deriving DecidableEq, Repr

/-- complex_objects.py 1067-1124: the `string_map` of `HostMethodIdentifier`, entry `n - 1` is the name of the id `n`. -/
def methodNames : List PyStr := [
  "GetName".toList, "GetVersion".toList, "GetInstanceId".toList, "GetCurrentCulture".toList, "GetCurrentUICulture".toList,
  "SetShouldExit".toList, "EnterNestedPrompt".toList, "ExitNestedPrompt".toList, "NotifyBeginApplication".toList,
  "NotifyEndApplication".toList, "ReadLine".toList, "ReadLineAsSecureString".toList, "Write1".toList, "Write2".toList,
  "WriteLine1".toList, "WriteLine2".toList, "WriteLine3".toList, "WriteErrorLine".toList, "WriteDebugLine".toList,
  "WriteProgress".toList, "WriteVerboseLine".toList, "WriteWarningLine".toList, "Prompt".toList,
  "PromptForCredential1".toList, "PromptForCredential2".toList, "PromptForChoice".toList, "GetForegroundColor".toList,
  "SetForegroundColor".toList, "GetBackgroundColor".toList, "SetBackgroundColor".toList, "GetCursorPosition".toList,
  "SetCursorPosition".toList, "GetWindowPosition".toList, "SetWindowPosition".toList, "GetCursorSize".toList,
  "SetCursorSize".toList, "GetBufferSize".toList, "SetBufferSize".toList, "GetWindowSize".toList, "SetWindowSize".toList,
  "GetWindowTitle".toList, "SetWindowTitle".toList, "GetMaxWindowSize".toList, "GetMaxPhysicalWindowSize".toList,
  "GetKeyAvailable".toList, "ReadKey".toList, "FlushInputBuffer".toList, "SetBufferContents1".toList,
  "SetBufferContents2".toList, "GetBufferContents".toList, "ScrollBufferContents".toList, "PushRunspace".toList,
  "PopRunspace".toList, "GetIsRunspacePushed".toList, "GetRunspce".toList, "PromptForChoiceMultipleSelection".toList]

/-- complex_objects.py 141-148 `Enum._to_string` (and `__str__`, 107-108) of a `HostMethodIdentifier`. -/
def methodName (value : Option Int) : Except PyErr PyStr :=
  let v := value.getD 0
  if v ≤ 0 then .error .keyError
  else match methodNames[(v - 1).toNat]? with
    | some s => .ok s
    | none => .error .keyError

/-- A method of a host object: the arguments after `runspace` and `pipeline`, on the state of the host. -/
abbrev HostMethod (σ : Type) := List HVal → σ → Except PyErr HVal × σ

/-- A host application, of the library or of the user: the methods that its three objects have, and whether it has a user
interface and a raw user interface. -/
structure HostImpl (σ : Type) where
  host : PyStr → Option (HostMethod σ)
  ui : PyStr → Option (HostMethod σ)
  rawUi : PyStr → Option (HostMethod σ)
  hasUi : σ → Bool
  hasRawUi : σ → Bool

/-- `getattr(o, name)` and the call. -/
def callMethod (m : Option (HostMethod σ)) (args : List HVal) (s : σ) : Except PyErr HVal × σ :=
  match m with
  | none => (.error .attributeError, s)
  | some f => f args s

/-- host.py 71-108 `PSHost.run_method`. -/
def runMethod (h : HostImpl σ) (value : Option Int) (args : List HVal) (s : σ) : Except PyErr HVal × σ :=
  let mi := value.getD 0
  if mi < 11 then
    match methodName value with
    | .error e => (.error e, s)
    | .ok name => callMethod (h.host name) args s
  else if mi < 27 then
    match methodName value with
    | .error e => (.error e, s)
    | .ok name => callMethod (if h.hasUi s then h.ui name else none) args s
  else if mi < 52 then
    match methodName value with
    | .error e => (.error e, s)
    | .ok name => callMethod (if h.hasUi s && h.hasRawUi s then h.rawUi name else none) args s
  else (.ok .none, s)

/-- host.py 718-729: the attributes of `PSHostRawUserInterface`. -/
structure RawUi where
  keyAvailable : HVal := .bool false
  windowTitle : HVal
  cursorSize : HVal
  foreground : HVal
  background : HVal
  cursorPosition : HVal
  windowPosition : HVal
  bufferSize : HVal
  maxPhysicalWindowSize : HVal
  maxWindowSize : HVal
  windowSize : HVal
  deriving DecidableEq, Repr

/-- host.py 59-69, 296-301: the attributes of `PSHost` and `PSHostUserInterface`. Without a user interface `ui` is false, without
a raw user interface `raw` is `none`. -/
structure DefaultHost where
  name : HVal
  version : PyStr
  instanceId : Nat
  culture : HVal
  uiCulture : HVal
  rc : HVal := .none
  ui : Bool
  stdout : List HVal := []
  stderr : List HVal := []
  raw : Option RawUi
  deriving DecidableEq, Repr

/-- A method without arguments: more of them raise `TypeError`. -/
def noArgs (f : DefaultHost → Except PyErr HVal × DefaultHost) : HostMethod DefaultHost := fun args s =>
  match args with
  | [] => f s
  | _ => (.error .typeError, s)

/-- A method with one argument. -/
def oneArg (f : HVal → DefaultHost → Except PyErr HVal × DefaultHost) : HostMethod DefaultHost := fun args s =>
  match args with
  | [a] => f a s
  | _ => (.error .typeError, s)

/-- A method with three arguments. -/
def threeArgs (f : HVal → HVal → HVal → DefaultHost → Except PyErr HVal × DefaultHost) : HostMethod DefaultHost := fun args s =>
  match args with
  | [a, b, c] => f a b c s
  | _ => (.error .typeError, s)

/-- A method with `n` arguments that does nothing. -/
def idle (n : Nat) : HostMethod DefaultHost := fun args s => if args.length = n then (.ok .none, s) else (.error .typeError, s)

/-- A method with `n` arguments that raises `NotImplementedError`. -/
def missing (n : Nat) : HostMethod DefaultHost := fun args s =>
  if args.length = n then (.error .notImplemented, s) else (.error .typeError, s)

def getter (f : DefaultHost → HVal) : HostMethod DefaultHost := noArgs fun s => (.ok (f s), s)

/-- `self.stdout.append(value)`. -/
def DefaultHost.out (s : DefaultHost) (v : HVal) : DefaultHost := { s with stdout := s.stdout ++ [v] }

/-- `self.stderr.append(value)`. -/
def DefaultHost.err (s : DefaultHost) (v : HVal) : DefaultHost := { s with stderr := s.stderr ++ [v] }

def newline : PyStr := ['\r', '\n']

/-- `value + "\r\n"`: a string is needed. -/
def addLine : HVal → Except PyErr HVal
  | .str s => .ok (.str (s ++ newline))
  | _ => .error .typeError

/-- `str` of a value. The texts of numbers, colors and the like are not looked at anywhere. -/
def HVal.shown : HVal → PyStr
  | .none => "None".toList
  | .str s => s
  | .obj text _ => text
  | .bool true => "True".toList
  | .bool false => "False".toList
  | .int i => (toString i).toList
  | v => (reprStr v).toList

/-- `"DEBUG: %s\r\n" % message`. -/
def labelled (label : PyStr) (v : HVal) : HVal := .str (label ++ v.shown ++ newline)

/-- host.py 400-443 `WriteLine2`, `WriteLine3`. -/
def writeLine (v : HVal) (s : DefaultHost) : Except PyErr HVal × DefaultHost :=
  match addLine v with
  | .ok t => (.ok .none, s.out t)
  | .error e => (.error e, s)

/-- host.py 445-460 `WriteErrorLine`. -/
def writeErrorLine (v : HVal) (s : DefaultHost) : Except PyErr HVal × DefaultHost :=
  match addLine v with
  | .ok t => (.ok .none, s.err t)
  | .error e => (.error e, s)

/-- host.py 113-276: the methods of `PSHost`. -/
def hostMethods : List (PyStr × HostMethod DefaultHost) := [
  ("GetName".toList, getter (·.name)),
  ("GetVersion".toList, getter fun s => .version s.version),
  ("GetInstanceId".toList, getter fun s => .uuid s.instanceId),
  ("GetCurrentCulture".toList, getter (·.culture)),
  ("GetCurrentUICulture".toList, getter (·.uiCulture)),
  ("SetShouldExit".toList, oneArg fun v s => (.ok .none, { s with rc := v })),
  ("EnterNestedPrompt".toList, missing 0),
  ("ExitNestedPrompt".toList, missing 0),
  ("NotifyBeginApplication".toList, idle 0),
  ("NotifyEndApplication".toList, idle 0)]

/-- host.py 303-671: the methods of `PSHostUserInterface`. -/
def uiMethods : List (PyStr × HostMethod DefaultHost) := [
  ("ReadLine".toList, missing 0),
  ("ReadLineAsSecureString".toList, missing 0),
  ("Write1".toList, oneArg fun v s => (.ok .none, s.out v)),
  ("Write2".toList, threeArgs fun _ _ v s => (.ok .none, s.out v)),
  ("WriteLine1".toList, noArgs fun s => (.ok .none, s.out (.str newline))),
  ("WriteLine2".toList, oneArg writeLine),
  ("WriteLine3".toList, threeArgs fun _ _ v s => writeLine v s),
  ("WriteErrorLine".toList, oneArg writeErrorLine),
  ("WriteDebugLine".toList, oneArg fun v s => (.ok .none, s.out (labelled "DEBUG: ".toList v))),
  ("WriteProgress".toList, idle 2),
  ("WriteVerboseLine".toList, oneArg fun v s => (.ok .none, s.out (labelled "VERBOSE: ".toList v))),
  ("WriteWarningLine".toList, oneArg fun v s => (.ok .none, s.out (labelled "WARNING: ".toList v))),
  ("Prompt".toList, missing 3),
  ("PromptForCredential1".toList, missing 4),
  ("PromptForCredential2".toList, missing 6),
  ("PromptForChoice".toList, missing 4)]

/-- A method of the raw user interface that reads an attribute. -/
def rawGet (f : RawUi → HVal) : HostMethod DefaultHost := noArgs fun s =>
  match s.raw with
  | some r => (.ok (f r), s)
  | none => (.error .attributeError, s)

/-- A method of the raw user interface with one argument that sets an attribute. -/
def rawSet (f : HVal → RawUi → Except PyErr RawUi) : HostMethod DefaultHost := oneArg fun v s =>
  match s.raw with
  | none => (.error .attributeError, s)
  | some r =>
    match f v r with
    | .ok r' => (.ok .none, { s with raw := some r' })
    | .error e => (.error e, s)

/-- `Color(value=color)`: any value is taken; only integers and None are told apart here. -/
def toColor : HVal → HVal
  | .int i => .color (some i)
  | _ => .color none

/-- `o.extended_properties[key]`. -/
def HVal.extended (v : HVal) (key : PyStr) : Except PyErr Int :=
  match v with
  | .obj _ ext =>
    match ext.lookup key with
    | some i => .ok i
    | Option.none => .error .keyError
  | _ => .error .attributeError

/-- host.py 820-823, 855-858. -/
def toCoordinates (v : HVal) : Except PyErr HVal := do
  let x ← v.extended "x".toList
  let y ← v.extended "y".toList
  return .coordinates x y

/-- host.py 922-925, 955-958. -/
def toSize (v : HVal) : Except PyErr HVal := do
  let height ← v.extended "height".toList
  let width ← v.extended "width".toList
  return .size height width

/-- host.py 731-1181: the methods of `PSHostRawUserInterface`. -/
def rawMethods : List (PyStr × HostMethod DefaultHost) := [
  ("GetForegroundColor".toList, rawGet (·.foreground)),
  ("SetForegroundColor".toList, rawSet fun v r => .ok { r with foreground := toColor v }),
  ("GetBackgroundColor".toList, rawGet (·.background)),
  ("SetBackgroundColor".toList, rawSet fun v r => .ok { r with background := toColor v }),
  ("GetCursorPosition".toList, rawGet (·.cursorPosition)),
  ("SetCursorPosition".toList, rawSet fun v r => do return { r with cursorPosition := ← toCoordinates v }),
  ("GetWindowPosition".toList, rawGet (·.windowPosition)),
  ("SetWindowPosition".toList, rawSet fun v r => do return { r with windowPosition := ← toCoordinates v }),
  ("GetCursorSize".toList, rawGet (·.cursorSize)),
  ("SetCursorSize".toList, rawSet fun v r => .ok { r with cursorSize := v }),
  ("GetBufferSize".toList, rawGet (·.bufferSize)),
  ("SetBufferSize".toList, rawSet fun v r => do return { r with bufferSize := ← toSize v }),
  ("GetWindowSize".toList, rawGet (·.windowSize)),
  ("SetWindowSize".toList, rawSet fun v r => do return { r with windowSize := ← toSize v }),
  ("GetWindowTitle".toList, rawGet (·.windowTitle)),
  ("SetWindowTitle".toList, rawSet fun v r => .ok { r with windowTitle := v }),
  ("GetMaxWindowSize".toList, rawGet (·.maxWindowSize)),
  ("GetMaxPhysicalWindowSize".toList, rawGet (·.maxPhysicalWindowSize)),
  ("GetKeyAvailable".toList, rawGet (·.keyAvailable)),
  ("ReadKey".toList, missing 1),
  ("FlushInputBuffer".toList, idle 0),
  ("SetBufferContents1".toList, idle 2),
  ("SetBufferContents2".toList, idle 2),
  ("GetBufferContents".toList, missing 1),
  ("ScrollBufferContents".toList, idle 4)]

/-- The host made of the default classes. Attributes that are not methods are left out: no method id has their name. -/
def defaultHost : HostImpl DefaultHost :=
  ⟨fun n => hostMethods.lookup n, fun n => uiMethods.lookup n, fun n => rawMethods.lookup n, (·.ui), (·.raw.isSome)⟩

/-- A sequence of host calls; an exception leaves what was written. -/
def runMethods (h : HostImpl σ) (s : σ) : List (Option Int × List HVal) → σ
  | [] => s
  | (mi, args) :: calls => runMethods h (runMethod h mi args s).2 calls

end Verif
