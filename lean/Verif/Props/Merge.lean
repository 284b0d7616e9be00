import Verif.Spec.Commands
import Verif.Props.Utils
/-
C43: redirections.
-/
namespace Verif

theorem dotted22 : Dotted "2.2".toList [2, 2] := ⟨[['2'], ['2']], by decide, by decide, by simp [IsDecimal], by decide⟩
theorem dotted23 : Dotted "2.3".toList [2, 3] := ⟨[['2'], ['3']], by decide, by decide, by simp [IsDecimal], by decide⟩

theorem onLast_append (f : Command → Command) (cs : List Command) (c : Command) :
    onLast f (cs ++ [c]) = (.ok (), cs ++ [f c]) := by
  simp [onLast]

/-- The version a stream needs, as text. -/
def MergeStream.minText : MergeStream → Option PyStr
  | .error => none
  | .warning => some "2.2".toList
  | .verbose => some "2.2".toList
  | .debug => some "2.2".toList
  | .information => some "2.3".toList

theorem mergeStream_eq {s : MergeStream} (hs : s ≠ .error) (protocol to : PyStr) (cs : List Command) :
    mergeStream s protocol to cs = setMergeTo protocol s to true s.minText cs := by
  cases s <;> first | exact absurd rfl hs | rfl

theorem minText_version {s : MergeStream} (hs : s ≠ .error) {protocol : PyStr} {version : List Nat} (hv : Dotted protocol version) :
    ∃ m b, s.minText = some m ∧ versionEqualOrNewer protocol m = .ok b ∧ (b = true ↔ Supports version s) := by
  have h22 := C24_numeric_order protocol _ version _ hv dotted22
  have h23 := C24_numeric_order protocol _ version _ hv dotted23
  cases s with
  | error => exact absurd rfl hs
  | warning => obtain ⟨b, h1, h2⟩ := h22; exact ⟨_, b, rfl, h1, by simpa [Supports, MergeStream.since] using h2⟩
  | verbose => obtain ⟨b, h1, h2⟩ := h22; exact ⟨_, b, rfl, h1, by simpa [Supports, MergeStream.since] using h2⟩
  | debug => obtain ⟨b, h1, h2⟩ := h22; exact ⟨_, b, rfl, h1, by simpa [Supports, MergeStream.since] using h2⟩
  | information => obtain ⟨b, h1, h2⟩ := h23; exact ⟨_, b, rfl, h1, by simpa [Supports, MergeStream.since] using h2⟩

theorem setMerge_self (c : Command) (s : MergeStream) (r : ResultTypes) : (c.setMerge s r).redirection s = r := by cases s <;> rfl
theorem setMerge_other (c : Command) {s t : MergeStream} (r : ResultTypes) (h : t ≠ s) :
    (c.setMerge s r).redirection t = c.redirection t := by
  cases s <;> cases t <;> first | exact absurd rfl h | rfl
theorem setMerge_same (c : Command) (s : MergeStream) (r : ResultTypes) : (c.setMerge s r).SameButMerges c := by
  cases s <;> simp [Command.setMerge, Command.SameButMerges]

theorem target_cases (to : PyStr) : (to = "none".toList ∧ mergeTarget to = some .noMerge) ∨
    (to = "null".toList ∧ mergeTarget to = some .null) ∨ (to = "output".toList ∧ mergeTarget to = some .output) ∨
    (to ≠ "none".toList ∧ to ≠ "null".toList ∧ to ≠ "output".toList ∧ mergeTarget to = none) := by
  unfold mergeTarget
  by_cases h1 : to = "none".toList
  · subst h1; exact .inl ⟨rfl, rfl⟩
  · by_cases h2 : to = "null".toList
    · subst h2; exact .inr (.inl ⟨rfl, rfl⟩)
    · by_cases h3 : to = "output".toList
      · subst h3; exact .inr (.inr (.inl ⟨rfl, rfl⟩))
      · exact .inr (.inr (.inr ⟨h1, h2, h3, by rw [if_neg h1, if_neg h2, if_neg h3]⟩))

/-- C43: a server that supports the redirection of a stream: the last command gets exactly that redirection. -/
theorem C43_supported {s : MergeStream} (hs : s ≠ .error) {protocol to : PyStr} {version : List Nat} (hv : Dotted protocol version)
    (hsup : Supports version s) (cs : List Command) (c : Command) {value : Nat}
    (hto : (to, value) ∈ [("none".toList, 0), ("null".toList, 8), ("output".toList, 1)]) :
    ∃ c', mergeStream s protocol to (cs ++ [c]) = (.ok (), cs ++ [c']) ∧ c'.redirection s = ⟨value, false⟩ ∧
      (∀ t, t ≠ s → c'.redirection t = c.redirection t) ∧ c'.mergeMyResult = c.mergeMyResult ∧
      c'.mergeToResult = c.mergeToResult ∧ c'.SameButMerges c := by
  obtain ⟨m, b, hm, hb, hiff⟩ := minText_version hs hv
  have hb' : b = true := hiff.mpr hsup
  subst hb'
  have ht : ∃ r, mergeTarget to = some r ∧ r = ⟨value, false⟩ := by
    simp only [List.mem_cons, Prod.mk.injEq, List.not_mem_nil, or_false] at hto
    rcases hto with ⟨rfl, rfl⟩ | ⟨rfl, rfl⟩ | ⟨rfl, rfl⟩ <;> exact ⟨_, rfl, rfl⟩
  obtain ⟨r, hr, rfl⟩ := ht
  refine ⟨c.setMerge s ⟨value, false⟩, ?_, setMerge_self _ _ _, fun t ht => setMerge_other _ _ ht, ?_, ?_, setMerge_same _ _ _⟩
  · rw [mergeStream_eq hs, setMergeTo, hr, hm]
    simp only [Bool.true_eq_false, and_false, if_false, hb]
    exact onLast_append _ _ _
  · cases s <;> rfl
  · cases s <;> rfl

/-- C43: otherwise, or with a target that does not exist, the call raises and nothing is changed. -/
theorem C43_unsupported {s : MergeStream} (hs : s ≠ .error) {protocol to : PyStr} {version : List Nat} (hv : Dotted protocol version)
    (h : ¬ Supports version s ∨ to ∉ ["none".toList, "null".toList, "output".toList]) (cs : List Command) :
    mergeStream s protocol to cs = (.error .invalidPSRPOperation, cs) := by
  obtain ⟨m, b, hm, hb, hiff⟩ := minText_version hs hv
  rw [mergeStream_eq hs, setMergeTo, hm]
  have hbf : ¬ Supports version s → b = false := fun hn => by
    cases b with
    | false => rfl
    | true => exact absurd (hiff.mp rfl) hn
  rcases target_cases to with ⟨rfl, ht⟩ | ⟨rfl, ht⟩ | ⟨rfl, ht⟩ | ⟨_, _, _, ht⟩
  · have := hbf (h.resolve_right (fun h => h (by simp))); subst this; rw [ht]; simp [hb]
  · have := hbf (h.resolve_right (fun h => h (by simp))); subst this; rw [ht]; simp [hb]
  · have := hbf (h.resolve_right (fun h => h (by simp))); subst this; rw [ht]; simp [hb]
  · simp [ht]

/-- C43: whatever the version is, also none at all: if the call of a stream raises, nothing is changed. -/
theorem C43_raises (s : MergeStream) (protocol to : PyStr) (cs : List Command) {e : PyErr}
    (h : (mergeStream s protocol to cs).1 = .error e) : (mergeStream s protocol to cs).2 = cs := by
  have key : ∀ s to null m, (setMergeTo protocol s to null m cs).1 = .error e → (setMergeTo protocol s to null m cs).2 = cs := by
    intro s to null m
    unfold setMergeTo
    split
    · intro _; rfl
    · split
      · intro _; rfl
      · split
        · unfold onLast; split <;> simp
        · split
          · intro _; rfl
          · intro _; rfl
          · unfold onLast; split <;> simp
  cases s
  case error =>
    simp only [mergeStream, mergeError] at h ⊢
    unfold setMergeTo Edited.andThen at *
    rcases List.eq_nil_or_concat cs with rfl | ⟨cs, c, rfl⟩ <;>
      rcases target_cases to with ⟨-, ht⟩ | ⟨-, ht⟩ | ⟨-, ht⟩ | ⟨_, _, _, ht⟩ <;>
        simp [ht, onLast, ResultTypes.noMerge, ResultTypes.null, ResultTypes.output] at h ⊢
  all_goals exact key _ _ _ _ h

/-- C43: errors can be redirected on every server, also before a version was negotiated. Old servers get the same by the two
older fields. -/
theorem C43_error (protocol : PyStr) (cs : List Command) (c : Command) {to : PyStr} {value mine : Nat}
    (hto : (to, value, mine) ∈ [("none".toList, 0, 0), ("output".toList, 1, 2)]) :
    ∃ c', mergeError protocol to (cs ++ [c]) = (.ok (), cs ++ [c']) ∧ c'.mergeError = ⟨value, false⟩ ∧
      c'.mergeMyResult = ⟨mine, false⟩ ∧ c'.mergeToResult = ⟨value, false⟩ ∧
      (∀ t, t ≠ .error → c'.redirection t = c.redirection t) ∧ c'.SameButMerges c := by
  simp only [List.mem_cons, Prod.mk.injEq, List.not_mem_nil, or_false] at hto
  rcases hto with ⟨rfl, rfl, rfl⟩ | ⟨rfl, rfl, rfl⟩
  · refine ⟨{ c with mergeError := ⟨0, false⟩, mergeMyResult := ⟨0, false⟩, mergeToResult := ⟨0, false⟩ }, ?_, rfl, rfl, rfl, ?_, by simp [Command.SameButMerges]⟩
    · simp [mergeError, setMergeTo, mergeTarget, onLast, Edited.andThen, Command.setMerge, ResultTypes.noMerge, ResultTypes.null]
    · intro t ht; cases t <;> first | exact absurd rfl ht | rfl
  · refine ⟨{ c with mergeError := ⟨1, false⟩, mergeMyResult := ⟨2, false⟩, mergeToResult := ⟨1, false⟩ }, ?_, rfl, rfl, rfl, ?_, by simp [Command.SameButMerges]⟩
    · simp [mergeError, setMergeTo, mergeTarget, onLast, Edited.andThen, Command.setMerge, ResultTypes.output, ResultTypes.null, ResultTypes.error]
    · intro t ht; cases t <;> first | exact absurd rfl ht | rfl

/-- C43: errors have no null target. -/
theorem C43_error_target (protocol : PyStr) (cs : List Command) {to : PyStr} (hto : to ∉ ["none".toList, "output".toList]) :
    mergeError protocol to cs = (.error .invalidPSRPOperation, cs) := by
  rcases target_cases to with ⟨rfl, ht⟩ | ⟨rfl, ht⟩ | ⟨rfl, ht⟩ | ⟨_, _, _, ht⟩
  · exact absurd (by simp) hto
  · rw [mergeError, setMergeTo, ht]; simp [Edited.andThen]
  · exact absurd (by simp) hto
  · simp [mergeError, setMergeTo, ht, Edited.andThen]

/-- C43: `merge_all` sets the redirections that the server supports and leaves the others as they were. -/
theorem C43_all {protocol to : PyStr} {version : List Nat} (hv : Dotted protocol version) (cs : List Command) (c : Command)
    {value : Nat} (hto : (to, value) ∈ [("none".toList, 0), ("output".toList, 1)]) :
    ∃ c', mergeAll protocol to (cs ++ [c]) = (.ok (), cs ++ [c']) ∧
      (∀ s, Supports version s → c'.redirection s = ⟨value, false⟩) ∧
      (∀ s, ¬ Supports version s → c'.redirection s = c.redirection s) ∧ c'.SameButMerges c := by
  obtain ⟨b2, h2, i2⟩ := C24_numeric_order protocol _ version _ hv dotted22
  obtain ⟨b3, h3, i3⟩ := C24_numeric_order protocol _ version _ hv dotted23
  obtain ⟨c1, e1, e2, e3, e4, e5, e6⟩ := C43_error protocol cs c (to := to) (value := value) (mine := if value = 0 then 0 else 2) (by
    simp only [List.mem_cons, Prod.mk.injEq, List.not_mem_nil, or_false] at hto ⊢
    rcases hto with ⟨rfl, rfl⟩ | ⟨rfl, rfl⟩ <;> simp)
  have hr : ∃ r : ResultTypes, mergeTarget to = some r ∧ r = ⟨value, false⟩ := by
    simp only [List.mem_cons, Prod.mk.injEq, List.not_mem_nil, or_false] at hto
    rcases hto with ⟨rfl, rfl⟩ | ⟨rfl, rfl⟩ <;> exact ⟨_, rfl, rfl⟩
  obtain ⟨r, hr, rfl⟩ := hr
  have hset : ∀ (s : MergeStream) m (c : Command), versionEqualOrNewer protocol m = .ok true →
      setMergeTo protocol s to true (some m) (cs ++ [c]) = (.ok (), cs ++ [c.setMerge s ⟨value, false⟩]) := by
    intro s m c hm
    simp only [setMergeTo, hr, Bool.true_eq_false, and_false, if_false, hm]
    exact onLast_append _ _ _
  have hmono : b3 = true → b2 = true := by
    intro h
    rw [i2]
    exact versionGe_trans (i3.mp h) (.inr ⟨1, by simp [component], by simp [component]⟩)
  have hsup : ∀ s, Supports version s ↔ s = .error ∨ (s = .information ∧ b3 = true) ∨ (s ≠ .error ∧ s ≠ .information ∧ b2 = true) := by
    intro s
    cases s <;> simp [Supports, MergeStream.since, i2, i3]
  have sb : ∀ (c d e : Command), c.SameButMerges d → d.SameButMerges e → c.SameButMerges e := by
    intro c d e h1 h2
    simp only [Command.SameButMerges] at *
    simp [h1, h2]
  unfold mergeAll
  rw [e1]
  simp only [Edited.andThen, ifVersion, h2, h3]
  cases b2 with
  | false =>
    have hb3 : b3 = false := by cases b3 with
      | false => rfl
      | true => exact absurd (hmono rfl) (by simp)
    subst hb3
    refine ⟨c1, rfl, fun s hs => ?_, fun s hs => ?_, e6⟩
    · rw [hsup] at hs
      have : s = .error := by simpa using hs
      subst this; exact e2
    · exact e5 s (fun h => hs ((hsup s).mpr (.inl h)))
  | true =>
    simp only [mergeDebug, mergeVerbose, mergeWarning, mergeInformation]
    rw [hset .debug _ c1 h2]
    dsimp only
    rw [hset .verbose _ _ h2]
    dsimp only
    rw [hset .warning _ _ h2]
    dsimp only
    cases b3 with
    | false =>
      refine ⟨_, rfl, fun s hs => ?_, fun s hs => ?_, ?_⟩
      · rw [hsup] at hs
        cases s <;> simp [Command.setMerge, Command.redirection, e2] at hs ⊢
      · rw [hsup] at hs
        cases s <;> simp [Command.setMerge] at hs ⊢
        have := e5 .information (by simp)
        simpa [Command.redirection] using this
      · simpa [Command.setMerge, Command.SameButMerges] using e6
    | true =>
      rw [hset .information _ _ h3]
      refine ⟨_, rfl, fun s hs => ?_, fun s hs => ?_, ?_⟩
      · cases s <;> simp [Command.setMerge, Command.redirection, e2]
      · rw [hsup] at hs
        cases s <;> simp at hs
      · simpa [Command.setMerge, Command.SameButMerges] using e6

example : Dotted "2.2".toList [2, 2] ∧ ¬ Supports [2, 2] .information ∧ Supports [2, 2] .debug ∧
    mergeInformation "2.2".toList "output".toList [{ cmd := [], version := "2.2".toList }] =
      (.error .invalidPSRPOperation, [{ cmd := [], version := "2.2".toList }]) ∧
    mergeAll "2.2".toList "output".toList [{ cmd := [], version := "2.2".toList }] =
      (.ok (), [{ cmd := [], version := "2.2".toList, mergeMyResult := .error, mergeToResult := .output, mergeError := .output, mergeWarning := .output, mergeVerbose := .output, mergeDebug := .output }]) := by
  refine ⟨dotted22, ?_, .inr (versionGe_refl _), by decide +kernel, by decide +kernel⟩
  rintro (h | h | ⟨i, h1, h2⟩)
  · simp at h
  · have := h 1; simp [component, MergeStream.since] at this
  · match i with
    | 0 => simp [component, MergeStream.since] at h2
    | 1 => simp [component, MergeStream.since] at h2
    | i + 2 => simp [component, MergeStream.since] at h2

/-- C43, a limit: without a negotiated version `merge_all` raises after it has set the redirection of errors. -/
theorem C43_unnegotiated (cs : List Command) (c : Command) :
    (mergeAll [] "output".toList (cs ++ [c])).1 = .error .valueError ∧
      ∃ c', (mergeAll [] "output".toList (cs ++ [c])).2 = cs ++ [c'] ∧ c'.mergeError = .output := by
  obtain ⟨c', h1, h2, -⟩ := C43_error [] cs c (to := "output".toList) (value := 1) (mine := 2) (by simp)
  have hv : versionEqualOrNewer [] "2.2".toList = .error .valueError := by decide +kernel
  unfold mergeAll
  rw [h1]
  simp only [Edited.andThen, ifVersion, hv]
  exact ⟨trivial, c', rfl, h2⟩

/-- What all commands of a pipeline have in common: they were made for the negotiated version and have no redirection that it
does not support. -/
def Built (protocol : PyStr) (version : List Nat) (cs : List Command) : Prop :=
  ∀ c ∈ cs, c.version = protocol ∧ ∀ s, ¬ Supports version s → c.redirection s = .noMerge

theorem built_onLast {protocol : PyStr} {version : List Nat} {f : Command → Command} {cs : List Command} (h : Built protocol version cs)
    (hf : ∀ c, (f c).version = c.version ∧ ∀ s, ¬ Supports version s → (f c).redirection s = c.redirection s) :
    Built protocol version (onLast f cs).2 := by
  rcases List.eq_nil_or_concat cs with rfl | ⟨cs, c, rfl⟩
  · exact h
  · rw [List.concat_eq_append] at h ⊢
    rw [onLast_append]
    intro d hd
    rcases List.mem_append.mp hd with hd | hd
    · exact h d (by simp [hd])
    · rw [List.mem_singleton.mp hd]
      have hc := h c (by simp)
      exact ⟨(hf c).1.trans hc.1, fun s hs => ((hf c).2 s hs).trans (hc.2 s hs)⟩

theorem built_setMergeTo {protocol : PyStr} {version : List Nat} (hv : Dotted protocol version) {cs : List Command}
    (h : Built protocol version cs) (s : MergeStream) (to : PyStr) (null : Bool) :
    Built protocol version (setMergeTo protocol s to null s.minText cs).2 := by
  have hset : ∀ r, Supports version s → Built protocol version (onLast (·.setMerge s r) cs).2 := fun r hs =>
    built_onLast h fun c => ⟨(setMerge_same c s r).2.1, fun t ht => setMerge_other c r (fun he => ht (he ▸ hs))⟩
  unfold setMergeTo
  split
  · exact h
  · split
    · exact h
    · by_cases hs : s = .error
      · subst hs; exact hset _ (.inl rfl)
      · obtain ⟨m, b, hm, hb, hiff⟩ := minText_version hs hv
        rw [hm]
        simp only [hb]
        cases b with
        | false => exact h
        | true => exact hset _ (hiff.mp rfl)

theorem built_andThen {protocol : PyStr} {version : List Nat} {a : Edited} {f : List Command → Edited} (h : Built protocol version a.2)
    (hf : ∀ cs, Built protocol version cs → Built protocol version (f cs).2) : Built protocol version (a.andThen f).2 := by
  obtain ⟨r, cs⟩ := a
  cases r with
  | ok u => exact hf _ h
  | error e => exact h

theorem built_ifVersion {protocol m : PyStr} {version : List Nat} {f : List Command → Edited} {cs : List Command}
    (h : Built protocol version cs) (hf : ∀ cs, Built protocol version cs → Built protocol version (f cs).2) :
    Built protocol version (ifVersion protocol m f cs).2 := by
  unfold ifVersion
  split
  · exact h
  · exact hf _ h
  · exact h

theorem built_mergeStream {protocol : PyStr} {version : List Nat} (hv : Dotted protocol version) (s : MergeStream) (to : PyStr)
    (cs : List Command) (h : Built protocol version cs) : Built protocol version (mergeStream s protocol to cs).2 := by
  cases s
  case error =>
    refine built_andThen (built_setMergeTo hv h .error to false) fun cs h => built_onLast h fun c => ⟨rfl, fun s _ => ?_⟩
    cases s <;> rfl
  all_goals exact built_setMergeTo hv h _ to true

theorem built_mergeAll {protocol : PyStr} {version : List Nat} (hv : Dotted protocol version) (to : PyStr)
    (cs : List Command) (h : Built protocol version cs) : Built protocol version (mergeAll protocol to cs).2 :=
  built_andThen (built_mergeStream hv .error to cs h) fun _ h => built_andThen (built_ifVersion h fun cs h =>
    built_andThen (built_andThen (built_mergeStream hv .debug to cs h) (built_mergeStream hv .verbose to))
      (built_mergeStream hv .warning to)) fun _ h => built_ifVersion h (built_mergeStream hv .information to)

theorem built_build {protocol : PyStr} {version : List Nat} (hv : Dotted protocol version) (ops : List BuildOp) :
    Built protocol version (build protocol ops) := by
  unfold build
  suffices hb : ∀ cs, Built protocol version cs → Built protocol version (ops.foldl (fun cs op => (op.run protocol cs).2) cs) from
    hb [] (by simp [Built])
  induction ops with
  | nil => exact fun _ h => h
  | cons op ops ih =>
    intro cs h
    refine ih _ ?_
    cases op with
    | add cmd isScript useLocalScope =>
      simp only [BuildOp.run, addCmdlet]
      split
      · exact h
      · exact h
      · intro d hd
        rcases List.mem_append.mp hd with hd | hd
        · exact h d hd
        · rw [List.mem_singleton.mp hd]
          exact ⟨rfl, fun s _ => by cases s <;> rfl⟩
    | parameter name value => exact built_onLast h fun c => ⟨rfl, fun s _ => by cases s <;> rfl⟩
    | statement => exact built_onLast h fun c => ⟨rfl, fun s _ => by cases s <;> rfl⟩
    | merge s to => exact built_mergeStream hv s to cs h
    | mergeAll to => exact built_mergeAll hv to cs h
    | mergePrevious enabled => exact built_onLast h fun c => ⟨rfl, fun s _ => by cases s <;> rfl⟩
    | mergeReset =>
      exact built_andThen (built_onLast h fun c => ⟨rfl, fun s _ => by cases s <;> rfl⟩) fun cs h => built_mergeAll hv _ cs h

/-- C43: after any calls, failed ones included, no command of the pipeline has a redirection that the negotiated version does not
support, and of the redirections by stream exactly those that it supports are sent. -/
theorem C43_history {protocol : PyStr} {version : List Nat} (hv : Dotted protocol version) (ops : List BuildOp) {c : Command}
    (hc : c ∈ build protocol ops) :
    (∀ s, ¬ Supports version s → c.redirection s = .noMerge) ∧
      ∃ l, c.sentMerges = .ok l ∧ ∀ s r, (s.property, r) ∈ l ↔ r = c.redirection s ∧
        VersionGe version (if s = .error then [2, 2] else s.since) := by
  have hc' := built_build hv ops c hc
  refine ⟨hc'.2, ?_⟩
  obtain ⟨b2, h2, i2⟩ := C24_numeric_order protocol _ version _ hv dotted22
  obtain ⟨b3, h3, i3⟩ := C24_numeric_order protocol _ version _ hv dotted23
  unfold Command.sentMerges
  rw [hc'.1, h2, h3]
  refine ⟨_, rfl, fun s r => ?_⟩
  cases s <;> cases b2 <;> cases b3 <;>
    simp [MergeStream.property, MergeStream.since, Command.redirection, ← i2, ← i3]

/-- Two statements, a redirection that is refused and one that is not. -/
example : build "2.2".toList [.add ['a'] false none, .merge .information "output".toList, .mergeAll "output".toList, .statement,
      .add ['b'] true none, .merge .warning "null".toList] =
    [{ cmd := ['a'], version := "2.2".toList, isScript := some false, mergeMyResult := .error, mergeToResult := .output, mergeError := .output, mergeWarning := .output, mergeVerbose := .output, mergeDebug := .output, endOfStatement := true },
     { cmd := ['b'], version := "2.2".toList, isScript := some true, mergeWarning := .null }] := by
  decide +kernel

end Verif
