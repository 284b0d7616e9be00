import Verif.Props.Host
import Verif.Spec.HostCalls
/-
C94, C64: the calls of the default host classes.
-/
namespace Verif

/-- A method does what the table says. -/
def Behaves (f : HostMethod DefaultHost) (b : Nat × CallKind) : Prop :=
  (∀ args s, args.length ≠ b.1 → f args s = (.error .typeError, s)) ∧
  (b.2 = .nothing → ∀ args s, args.length = b.1 → f args s = (.ok .none, s)) ∧
  (b.2 = .unsupported → ∀ args s, args.length = b.1 → f args s = (.error .notImplemented, s))

theorem behaves_noArgs (f : DefaultHost → Except PyErr HVal × DefaultHost) : Behaves (noArgs f) (0, .acts) := by
  refine ⟨fun args s h => ?_, nofun, nofun⟩
  cases args with
  | nil => exact absurd rfl h
  | cons a l => rfl

theorem behaves_oneArg (f : HVal → DefaultHost → Except PyErr HVal × DefaultHost) : Behaves (oneArg f) (1, .acts) := by
  refine ⟨fun args s h => ?_, nofun, nofun⟩
  match args, h with
  | [], _ => rfl
  | [_], h => exact absurd rfl h
  | _ :: _ :: _, _ => rfl

theorem behaves_threeArgs (f : HVal → HVal → HVal → DefaultHost → Except PyErr HVal × DefaultHost) : Behaves (threeArgs f) (3, .acts) := by
  refine ⟨fun args s h => ?_, nofun, nofun⟩
  match args, h with
  | [], _ => rfl
  | [_], _ => rfl
  | [_, _], _ => rfl
  | [_, _, _], h => exact absurd rfl h
  | _ :: _ :: _ :: _ :: _, _ => rfl

theorem behaves_idle (n : Nat) : Behaves (idle n) (n, .nothing) :=
  ⟨fun _ _ h => if_neg h, fun _ _ _ h => if_pos h, nofun⟩

theorem behaves_missing (n : Nat) : Behaves (missing n) (n, .unsupported) :=
  ⟨fun _ _ h => if_neg h, nofun, fun _ _ _ h => if_pos h⟩

def AllBehave : List (PyStr × HostMethod DefaultHost) → List (Nat × CallKind) → Prop
  | [], [] => True
  | (_, f) :: l, b :: bs => Behaves f b ∧ AllBehave l bs
  | _, _ => False

theorem host_behave : AllBehave hostMethods (callTable.take 10) := by
  repeat' first
    | exact trivial
    | exact behaves_noArgs _
    | exact behaves_oneArg _
    | exact behaves_threeArgs _
    | exact behaves_idle _
    | exact behaves_missing _
    | apply And.intro

theorem ui_behave : AllBehave uiMethods ((callTable.drop 10).take 16) := by
  repeat' first
    | exact trivial
    | exact behaves_noArgs _
    | exact behaves_oneArg _
    | exact behaves_threeArgs _
    | exact behaves_idle _
    | exact behaves_missing _
    | apply And.intro

theorem raw_behave : AllBehave rawMethods (callTable.drop 26) := by
  repeat' first
    | exact trivial
    | exact behaves_noArgs _
    | exact behaves_oneArg _
    | exact behaves_threeArgs _
    | exact behaves_idle _
    | exact behaves_missing _
    | apply And.intro

theorem lookup_behave : ∀ {l : List (PyStr × HostMethod DefaultHost)} {bs : List (Nat × CallKind)}, AllBehave l bs → ∀ {name f},
    l.lookup name = some f → ∃ (i : Nat) (b : Nat × CallKind), (l.map (·.1))[i]? = some name ∧ bs[i]? = some b ∧ Behaves f b
  | [], _, _, _, _, h => by simp at h
  | (n, g) :: l, b :: bs, ⟨hb, hl⟩, name, f, h => by
    rw [List.lookup_cons] at h
    by_cases hn : name = n
    · rw [show (name == n) = true from by simpa using hn] at h
      exact ⟨0, b, by simp [hn], rfl, Option.some.inj h ▸ hb⟩
    · rw [show (name == n) = false from by simpa using hn] at h
      obtain ⟨i, b', h1, h2, h3⟩ := lookup_behave hl h
      exact ⟨i + 1, b', by simpa using h1, by simpa using h2, h3⟩
  | _ :: _, [], h, _, _, _ => h.elim

theorem documented_names (part : HostPart) : (part.documented.map String.toList).Nodup ∧ part.documented.map String.toList =
    match part with
    | .host => hostMethods.map (·.1)
    | .ui => uiMethods.map (·.1)
    | .rawUi => rawMethods.map (·.1) := by
  cases part <;> exact ⟨by decide +kernel, by decide +kernel⟩

theorem call_behaves (s : DefaultHost) (hu : s.ui = true) (hr : s.raw.isSome = true) {n : Nat} {part : HostPart} {name : String}
    (hn : IsMethod n part name) {b : Nat × CallKind} (hb : callTable[n - 1]? = some b) :
    ∃ f, (∀ args, runMethod defaultHost (some (n : Int)) args s = f args s) ∧ Behaves f b := by
  obtain ⟨f, hf⟩ := C62_default s hu hr hn
  refine ⟨f, fun args => C62_method defaultHost s args hn hf, ?_⟩
  have hi : ∀ {l : List PyStr} {i : Nat}, (part.documented.map String.toList) = l → l[i]? = some name.toList → i = n - part.firstId := by
    intro l i hl h
    subst hl
    have h2 : (part.documented.map String.toList)[n - part.firstId]? = some name.toList := by simp [hn.2]
    exact (List.getElem?_inj (List.getElem?_eq_some_iff.mp h).1 (documented_names part).1).mp (h.trans h2.symm)
  have hd := (documented_names part).2
  have hfirst := hn.1
  have hlt := IsMethod.range hn
  cases part with
  | host =>
    obtain ⟨i, b', h1, h2, h3⟩ := lookup_behave host_behave hf
    have := hi hd h1
    subst this
    simp only [HostPart.Ids] at hlt
    rw [List.getElem?_take, if_pos (by simp only [HostPart.firstId]; omega), show n - HostPart.host.firstId = n - 1 from rfl, hb] at h2
    exact Option.some.inj h2 ▸ h3
  | ui =>
    obtain ⟨i, b', h1, h2, h3⟩ := lookup_behave ui_behave hf.2
    have := hi hd h1
    subst this
    simp only [HostPart.Ids] at hlt
    rw [List.getElem?_take, if_pos (by simp only [HostPart.firstId]; omega), List.getElem?_drop,
      show 10 + (n - HostPart.ui.firstId) = n - 1 from by simp only [HostPart.firstId]; omega, hb] at h2
    exact Option.some.inj h2 ▸ h3
  | rawUi =>
    obtain ⟨i, b', h1, h2, h3⟩ := lookup_behave raw_behave hf.2.2
    have := hi hd h1
    subst this
    rw [List.getElem?_drop] at h2
    simp only [HostPart.firstId] at h2 hfirst
    rw [show 26 + (n - 27) = n - 1 from by omega] at h2
    rw [hb] at h2
    exact Option.some.inj h2 ▸ h3

/-- C94: a call of any method of a complete default host with another number of arguments than the method has raises a TypeError and changes
nothing. -/
theorem C94_arguments (s : DefaultHost) (hu : s.ui = true) (hr : s.raw.isSome = true) {n k : Nat} {part : HostPart} {name : String} {kind : CallKind}
    (hn : IsMethod n part name) (hb : callTable[n - 1]? = some (k, kind)) (args : List HVal) (ha : args.length ≠ k) :
    runMethod defaultHost (some (n : Int)) args s = (.error .typeError, s) := by
  obtain ⟨f, h1, h2, -⟩ := call_behaves s hu hr hn hb
  rw [h1]; exact h2 args s ha

/-- C94: the methods that need a user or a screen raise NotImplementedError, and the methods that are only told do nothing and return null. -/
theorem C94_unsupported (s : DefaultHost) (hu : s.ui = true) (hr : s.raw.isSome = true) {n k : Nat} {part : HostPart} {name : String}
    (hn : IsMethod n part name) (args : List HVal) (ha : args.length = k) :
    (callTable[n - 1]? = some (k, .unsupported) → runMethod defaultHost (some (n : Int)) args s = (.error .notImplemented, s)) ∧
    (callTable[n - 1]? = some (k, .nothing) → runMethod defaultHost (some (n : Int)) args s = (.ok .none, s)) := by
  constructor <;> intro hb <;> obtain ⟨f, h1, -, h2, h3⟩ := call_behaves s hu hr hn hb <;> rw [h1]
  · exact h3 rfl args s ha
  · exact h2 rfl args s ha

example : IsMethod 23 .ui "Prompt" ∧ callTable[23 - 1]? = some (3, .unsupported) ∧ callTable[51 - 1]? = some (4, .nothing) ∧ callTable.length = 51 := by
  decide +kernel
example : demoHost.ui = true ∧ demoHost.raw.isSome = true := ⟨rfl, rfl⟩

/-- C94: what the server asks about the host is answered with its attributes, and an exit code is kept; neither changes anything else. This does
not need a user interface. -/
theorem C94_identity (s : DefaultHost) {mi : Int} {v : HVal} (h : Identity mi s v) : runMethod defaultHost (some mi) [] s = (.ok v, s) := by
  cases h
  · exact C62_method (n := 1) (part := .host) (name := "GetName") defaultHost s [] (by decide +kernel) (f := getter (·.name)) rfl
  · exact C62_method (n := 2) (part := .host) (name := "GetVersion") defaultHost s [] (by decide +kernel) (f := getter fun s => .version s.version) rfl
  · exact C62_method (n := 3) (part := .host) (name := "GetInstanceId") defaultHost s [] (by decide +kernel) (f := getter fun s => .uuid s.instanceId) rfl
  · exact C62_method (n := 4) (part := .host) (name := "GetCurrentCulture") defaultHost s [] (by decide +kernel) (f := getter (·.culture)) rfl
  · exact C62_method (n := 5) (part := .host) (name := "GetCurrentUICulture") defaultHost s [] (by decide +kernel) (f := getter (·.uiCulture)) rfl

theorem C94_exit (s : DefaultHost) (code : HVal) : runMethod defaultHost (some 6) [code] s = (.ok .none, { s with rc := code }) :=
  C62_method (n := 6) (part := .host) (name := "SetShouldExit") defaultHost s [code] (by decide +kernel)
    (f := oneArg fun v s => (.ok .none, { s with rc := v })) rfl

example : Identity 2 demoHost (.version ['1']) := .version demoHost

theorem shown_says {v : HVal} {t : PyStr} (h : SaysValue v t) : v.shown = t := by
  cases h
  case number n => rfl
  case negative n =>
    show (("-" : String) ++ (n + 1).repr).toList = _
    rw [String.toList_append]
    rfl
  all_goals rfl

/-- C64: a debug, verbose or warning message of any kind, also null, truth values, numbers and objects with a text, is one line with its label. -/
theorem C64_labels (s : DefaultHost) (hu : s.ui = true) {mi : Int} {label t : PyStr} {v : HVal} (hl : Labels mi label) (hv : SaysValue v t) :
    runMethod defaultHost (some mi) [v] s = (.ok .none, { s with stdout := s.stdout ++ [.str (label ++ t ++ "\r\n".toList)] }) := by
  rw [← shown_says hv]
  cases hl
  · exact ui_call (n := 19) s [v] hu "WriteDebugLine" (by decide +kernel) rfl
  · exact ui_call (n := 21) s [v] hu "WriteVerboseLine" (by decide +kernel) rfl
  · exact ui_call (n := 22) s [v] hu "WriteWarningLine" (by decide +kernel) rfl

example : SaysValue (.int (-12)) "-12".toList := SaysValue.negative 11
example : (runMethod defaultHost (some 22) [.bool true] demoHost).2.stdout = [.str "WARNING: True\r\n".toList] := by decide +kernel

end Verif
