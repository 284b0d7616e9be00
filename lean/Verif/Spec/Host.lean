import Verif.Model.Host
/-
Specifications for host calls ([MS-PSRP] 2.2.3.17).
-/
namespace Verif

/-- The three objects of a host. -/
inductive HostPart where
  | host | ui | rawUi
  deriving DecidableEq, Repr

/-- [MS-PSRP] 2.2.3.17: the methods of each object in the order of their ids. -/
def HostPart.documented : HostPart → List String
  | .host => ["GetName", "GetVersion", "GetInstanceId", "GetCurrentCulture", "GetCurrentUICulture", "SetShouldExit",
      "EnterNestedPrompt", "ExitNestedPrompt", "NotifyBeginApplication", "NotifyEndApplication"]
  | .ui => ["ReadLine", "ReadLineAsSecureString", "Write1", "Write2", "WriteLine1", "WriteLine2", "WriteLine3",
      "WriteErrorLine", "WriteDebugLine", "WriteProgress", "WriteVerboseLine", "WriteWarningLine", "Prompt",
      "PromptForCredential1", "PromptForCredential2", "PromptForChoice"]
  | .rawUi => ["GetForegroundColor", "SetForegroundColor", "GetBackgroundColor", "SetBackgroundColor", "GetCursorPosition",
      "SetCursorPosition", "GetWindowPosition", "SetWindowPosition", "GetCursorSize", "SetCursorSize", "GetBufferSize",
      "SetBufferSize", "GetWindowSize", "SetWindowSize", "GetWindowTitle", "SetWindowTitle", "GetMaxWindowSize",
      "GetMaxPhysicalWindowSize", "GetKeyAvailable", "ReadKey", "FlushInputBuffer", "SetBufferContents1",
      "SetBufferContents2", "GetBufferContents", "ScrollBufferContents"]

/-- The id of the first method of an object. -/
def HostPart.firstId : HostPart → Nat
  | .host => 1
  | .ui => 11
  | .rawUi => 27

/-- The id `n` is the method `name` of the object `part`. -/
def IsMethod (n : Nat) (part : HostPart) (name : String) : Prop :=
  part.firstId ≤ n ∧ part.documented[n - part.firstId]? = some name

instance (n : Nat) (part : HostPart) (name : String) : Decidable (IsMethod n part name) := by
  unfold IsMethod; infer_instance

/-- The ids of the methods of an object. -/
def HostPart.Ids : HostPart → Nat → Prop
  | .host, n => 1 ≤ n ∧ n ≤ 10
  | .ui, n => 11 ≤ n ∧ n ≤ 26
  | .rawUi, n => 27 ≤ n ∧ n ≤ 51

/-- The object exists and has a method of this name. -/
def HostImpl.Has (h : HostImpl σ) (s : σ) (part : HostPart) (name : String) (f : HostMethod σ) : Prop :=
  match part with
  | .host => h.host name.toList = some f
  | .ui => h.hasUi s = true ∧ h.ui name.toList = some f
  | .rawUi => h.hasUi s = true ∧ h.hasRawUi s = true ∧ h.rawUi name.toList = some f

/-- What a call of one of the writing methods of the user interface writes to the output. -/
def outText : Int → List HVal → Option PyStr
  | 13, [.str t] => some t
  | 14, [_, _, .str t] => some t
  | 15, [] => some "\r\n".toList
  | 16, [.str t] => some (t ++ "\r\n".toList)
  | 17, [_, _, .str t] => some (t ++ "\r\n".toList)
  | 19, [.str t] => some ("DEBUG: ".toList ++ t ++ "\r\n".toList)
  | 21, [.str t] => some ("VERBOSE: ".toList ++ t ++ "\r\n".toList)
  | 22, [.str t] => some ("WARNING: ".toList ++ t ++ "\r\n".toList)
  | _, _ => none

/-- What a call writes to the error output. -/
def errText : Int → List HVal → Option PyStr
  | 18, [.str t] => some (t ++ "\r\n".toList)
  | _, _ => none

/-- The arguments that are to be text are strings. -/
def TextArgs : Int → List HVal → Prop
  | 13, args | 16, args | 18, args | 19, args | 21, args | 22, args => ∀ a ∈ args.head?, ∃ t, a = .str t
  | 14, args | 17, args => ∀ a ∈ args[2]?, ∃ t, a = .str t
  | _, _ => True

/-- The methods of the raw user interface that return an attribute. -/
def rawGetters : List Int := [27, 29, 31, 33, 35, 37, 39, 41, 43, 44, 45]

/-- The method `set` with the argument `v` sets to `r` what the method `get` returns. Positions and sizes come as objects of the
server with extended properties. -/
inductive SetsTo : Int → Int → HVal → HVal → Prop
  | foreground (i : Int) : SetsTo 28 27 (.int i) (.color (some i))
  | background (i : Int) : SetsTo 30 29 (.int i) (.color (some i))
  | cursorPosition (x y : Int) (text : PyStr) : SetsTo 32 31 (.obj text [("x".toList, x), ("y".toList, y)]) (.coordinates x y)
  | windowPosition (x y : Int) (text : PyStr) : SetsTo 34 33 (.obj text [("x".toList, x), ("y".toList, y)]) (.coordinates x y)
  | cursorSize (v : HVal) : SetsTo 36 35 v v
  | bufferSize (w h : Int) (text : PyStr) : SetsTo 38 37 (.obj text [("width".toList, w), ("height".toList, h)]) (.size h w)
  | windowSize (w h : Int) (text : PyStr) : SetsTo 40 39 (.obj text [("width".toList, w), ("height".toList, h)]) (.size h w)
  | windowTitle (v : HVal) : SetsTo 42 41 v v

end Verif
