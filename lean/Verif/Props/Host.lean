import Verif.Spec.Host
/-
C62: host calls reach the documented host object. C64: default host output.
-/
namespace Verif

theorem methodName_documented : ∀ part : HostPart, ∀ i : Fin part.documented.length,
    methodName (some ((part.firstId + i.val : Nat) : Int)) = .ok (part.documented[i.val]).toList := by
  intro part
  cases part <;> decide +kernel

theorem methodName_of {n : Nat} {part : HostPart} {name : String} (h : IsMethod n part name) :
    methodName (some (n : Int)) = .ok name.toList := by
  obtain ⟨h1, h2⟩ := h
  obtain ⟨hi, he⟩ := List.getElem?_eq_some_iff.mp h2
  have := methodName_documented part ⟨_, hi⟩
  dsimp only at this
  rwa [he, Nat.add_sub_of_le h1] at this

theorem IsMethod.range {n : Nat} {part : HostPart} {name : String} (h : IsMethod n part name) : part.Ids n := by
  obtain ⟨h1, h2⟩ := h
  obtain ⟨hi, _⟩ := List.getElem?_eq_some_iff.mp h2
  cases part
  all_goals simp only [HostPart.firstId, HostPart.documented, HostPart.Ids, List.length_cons, List.length_nil] at h1 hi ⊢
  all_goals omega

/-- C62: a call with the id of a documented method runs the method of that name of the documented object, whatever the host
is, once and with the arguments of the call. -/
theorem C62_method (h : HostImpl σ) (s : σ) (args : List HVal) {n : Nat} {part : HostPart} {name : String} {f : HostMethod σ}
    (hn : IsMethod n part name) (hf : h.Has s part name f) : runMethod h (some (n : Int)) args s = f args s := by
  have hm := methodName_of hn
  have hr := hn.range
  unfold runMethod
  rw [hm]
  dsimp only [Option.getD_some]
  cases part <;> simp only [HostImpl.Has, HostPart.Ids] at hf hr
  · rw [if_pos (by omega), hf]; rfl
  · rw [if_neg (by omega), if_pos (by omega), hf.1, if_pos rfl, hf.2]; rfl
  · rw [if_neg (by omega), if_neg (by omega), if_pos (by omega), hf.1, hf.2.1, hf.2.2]; rfl

/-- C62: the documented methods: 1 to 10 are the host's, 11 to 26 the user interface's, 27 to 51 the raw user interface's. -/
theorem C62_ids (n : Nat) (part : HostPart) : (∃ name, IsMethod n part name) ↔ part.Ids n := by
  refine ⟨fun ⟨name, h⟩ => h.range, fun h => ?_⟩
  suffices hs : part.firstId ≤ n ∧ n - part.firstId < part.documented.length from
    ⟨part.documented[n - part.firstId]'hs.2, hs.1, List.getElem?_eq_getElem hs.2⟩
  cases part
  all_goals simp only [HostPart.firstId, HostPart.documented, HostPart.Ids, List.length_cons, List.length_nil] at h ⊢
  all_goals omega

/-- C62: if the host does not have the object or the method, the call fails and nothing has run. -/
theorem C62_absent (h : HostImpl σ) (s : σ) (args : List HVal) {n : Nat} {part : HostPart} {name : String}
    (hn : IsMethod n part name) (hf : ∀ f, ¬ h.Has s part name f) :
    runMethod h (some (n : Int)) args s = (.error .attributeError, s) := by
  have hm := methodName_of hn
  have hr := hn.range
  unfold runMethod
  rw [hm]
  dsimp only [Option.getD_some]
  cases part <;> simp only [HostImpl.Has, HostPart.Ids] at hf hr
  · rw [if_pos (by omega)]
    cases hg : h.host name.toList with
    | none => rfl
    | some f => exact absurd hg (hf f)
  · rw [if_neg (by omega), if_pos (by omega)]
    cases hu : h.hasUi s with
    | false => rfl
    | true =>
      cases hg : h.ui name.toList with
      | none => rfl
      | some f => exact absurd ⟨hu, hg⟩ (hf f)
  · rw [if_neg (by omega), if_neg (by omega), if_pos (by omega)]
    cases hu : h.hasUi s with
    | false => rfl
    | true =>
      cases hw : h.hasRawUi s with
      | false => rfl
      | true =>
        cases hg : h.rawUi name.toList with
        | none => rfl
        | some f => exact absurd ⟨hu, hw, hg⟩ (hf f)

/-- C62: an id above 51 runs nothing and returns no value. -/
theorem C62_above (h : HostImpl σ) (s : σ) (args : List HVal) (mi : Int) (hm : 51 < mi) :
    runMethod h (some mi) args s = (.ok .none, s) := by
  unfold runMethod
  dsimp only [Option.getD_some]
  rw [if_neg (by omega), if_neg (by omega), if_neg (by omega)]

/-- C62: an id below 1, or none at all, is rejected. -/
theorem C62_below (h : HostImpl σ) (s : σ) (args : List HVal) (value : Option Int) (hm : value.getD 0 ≤ 0) :
    runMethod h value args s = (.error .keyError, s) := by
  unfold runMethod methodName
  rw [if_pos (by omega)]
  simp [hm]

/-- A host for the examples. -/
def demoRaw : RawUi :=
  ⟨.bool false, .str ['t'], .int 5, .color (some 1), .color (some 2), .coordinates 1 2, .coordinates 3 4, .size 5 6, .size 7 8,
    .size 9 10, .size 11 12⟩

def demoHost : DefaultHost := { name := .str ['h'], version := ['1'], instanceId := 7, culture := .none, uiCulture := .none,
                                ui := true, raw := some demoRaw }

example : IsMethod 16 .ui "WriteLine2" := by decide +kernel
example : IsMethod 51 .rawUi "ScrollBufferContents" := by decide +kernel
example : runMethod defaultHost (some 39) [] demoHost = (.ok (.size 11 12), demoHost) := by decide +kernel
example : (runMethod defaultHost (some 6) [.int 3] demoHost).2.rc = .int 3 := by decide +kernel
example : runMethod defaultHost (some 16) [.str []] { demoHost with ui := false } =
    (.error .attributeError, { demoHost with ui := false }) := by decide +kernel

/-- C62: the default host has all documented methods. -/
theorem C62_default (s : DefaultHost) (hu : s.ui = true) (hr : s.raw.isSome = true) {n : Nat} {part : HostPart} {name : String}
    (hn : IsMethod n part name) : ∃ f, defaultHost.Has s part name f := by
  have hall : ∀ part : HostPart, ∀ name ∈ part.documented, (match part with
      | .host => defaultHost.host name.toList
      | .ui => defaultHost.ui name.toList
      | .rawUi => defaultHost.rawUi name.toList).isSome = true := by
    intro part
    cases part <;> decide +kernel
  have hmem : name ∈ part.documented := List.mem_of_getElem? hn.2
  have := hall part name hmem
  cases part <;> obtain ⟨f, hf⟩ := Option.isSome_iff_exists.mp this
  · exact ⟨f, hf⟩
  · exact ⟨f, hu, hf⟩
  · exact ⟨f, hu, hr, hf⟩

/-- The method does not write. -/
def Silent (f : HostMethod DefaultHost) : Prop :=
  ∀ args s, (f args s).2.stdout = s.stdout ∧ (f args s).2.stderr = s.stderr ∧ (f args s).2.ui = s.ui

theorem silent_missing (n : Nat) : Silent (missing n) := by
  intro args s; unfold missing; split <;> exact ⟨rfl, rfl, rfl⟩
theorem silent_idle (n : Nat) : Silent (idle n) := by
  intro args s; unfold idle; split <;> exact ⟨rfl, rfl, rfl⟩
theorem silent_getter (f : DefaultHost → HVal) : Silent (getter f) := by
  intro args s; unfold getter noArgs; split <;> exact ⟨rfl, rfl, rfl⟩
theorem silent_rawGet (f : RawUi → HVal) : Silent (rawGet f) := by
  intro args s; unfold rawGet noArgs
  split
  · dsimp only; split <;> exact ⟨rfl, rfl, rfl⟩
  · exact ⟨rfl, rfl, rfl⟩
theorem silent_rawSet (f : HVal → RawUi → Except PyErr RawUi) : Silent (rawSet f) := by
  intro args s; unfold rawSet oneArg
  split
  · dsimp only
    split
    · exact ⟨rfl, rfl, rfl⟩
    · split <;> exact ⟨rfl, rfl, rfl⟩
  · exact ⟨rfl, rfl, rfl⟩
theorem silent_exit : Silent (oneArg fun v s => (.ok .none, { s with rc := v })) := by
  intro args s; unfold oneArg; split <;> exact ⟨rfl, rfl, rfl⟩

theorem silent_host : ∀ e ∈ hostMethods, Silent e.2 := by
  unfold hostMethods
  repeat' (first
    | exact fun _ h => absurd h List.not_mem_nil
    | refine List.forall_mem_cons.mpr ⟨?_, ?_⟩
    | exact silent_missing _ | exact silent_idle _ | exact silent_getter _ | exact silent_exit)

theorem silent_raw : ∀ e ∈ rawMethods, Silent e.2 := by
  unfold rawMethods
  repeat' (first
    | exact fun _ h => absurd h List.not_mem_nil
    | refine List.forall_mem_cons.mpr ⟨?_, ?_⟩
    | exact silent_missing _ | exact silent_idle _ | exact silent_rawGet _ | exact silent_rawSet _)

theorem mem_of_lookup_some [BEq α] [LawfulBEq α] {l : List (α × β)} {a : α} {b : β} (h : l.lookup a = some b) : (a, b) ∈ l := by
  induction l with
  | nil => exact absurd h (by simp)
  | cons x l ih =>
    obtain ⟨x, y⟩ := x
    rw [List.lookup_cons] at h
    split at h
    · rename_i he
      rw [eq_of_beq he, ← Option.some.inj h]
      exact List.mem_cons_self
    · exact List.mem_cons_of_mem _ (ih h)

/-- The entries written by one call. -/
def Entered (s s' : DefaultHost) (out err : Option PyStr) : Prop :=
  s'.stdout = s.stdout ++ out.toList.map .str ∧ s'.stderr = s.stderr ++ err.toList.map .str ∧ s'.ui = s.ui

theorem wrote_none (s : DefaultHost) : Entered s s none none := ⟨by simp, by simp, rfl⟩

theorem ui_call (s : DefaultHost) (args : List HVal) (hu : s.ui = true) {n : Nat} (name : String) {f : HostMethod DefaultHost}
    (hn : IsMethod n .ui name) (hf : uiMethods.lookup name.toList = some f) :
    runMethod defaultHost (some (n : Int)) args s = f args s := C62_method defaultHost s args hn ⟨hu, hf⟩

theorem wrote_silent {f : HostMethod DefaultHost} (h : Silent f) (args : List HVal) (s : DefaultHost) :
    Entered s (f args s).2 none none := by
  obtain ⟨h1, h2, h3⟩ := h args s
  exact ⟨by rw [h1]; simp, by rw [h2]; simp, h3⟩

theorem wrote_one (s : DefaultHost) (args : List HVal) (g : HVal → DefaultHost → Except PyErr HVal × DefaultHost)
    (out err : List HVal → Option PyStr) (hs : ∀ a ∈ args.head?, ∃ t, a = HVal.str t)
    (h1 : ∀ t, Entered s (g (.str t) s).2 (out [.str t]) (err [.str t]))
    (h0 : ∀ l, l.length ≠ 1 → out l = none ∧ err l = none) :
    Entered s (oneArg g args s).2 (out args) (err args) := by
  match args with
  | [a] =>
    obtain ⟨t, rfl⟩ := hs a rfl
    exact h1 t
  | [] => rw [(h0 [] (by simp)).1, (h0 [] (by simp)).2]; exact wrote_none s
  | a :: b :: l => rw [(h0 (a :: b :: l) (by simp)).1, (h0 (a :: b :: l) (by simp)).2]; exact wrote_none s

theorem wrote_three (s : DefaultHost) (args : List HVal) (g : HVal → HVal → HVal → DefaultHost → Except PyErr HVal × DefaultHost)
    (out err : List HVal → Option PyStr) (hs : ∀ a ∈ args[2]?, ∃ t, a = HVal.str t)
    (h1 : ∀ a b t, Entered s (g a b (.str t) s).2 (out [a, b, .str t]) (err [a, b, .str t]))
    (h0 : ∀ l, l.length ≠ 3 → out l = none ∧ err l = none) :
    Entered s (threeArgs g args s).2 (out args) (err args) := by
  match args with
  | [a, b, c] =>
    obtain ⟨t, rfl⟩ := hs c rfl
    exact h1 a b t
  | [] => rw [(h0 [] (by simp)).1, (h0 [] (by simp)).2]; exact wrote_none s
  | [a] => rw [(h0 [a] (by simp)).1, (h0 [a] (by simp)).2]; exact wrote_none s
  | [a, b] => rw [(h0 [a, b] (by simp)).1, (h0 [a, b] (by simp)).2]; exact wrote_none s
  | a :: b :: c :: d :: l =>
    rw [(h0 (a :: b :: c :: d :: l) (by simp)).1, (h0 (a :: b :: c :: d :: l) (by simp)).2]; exact wrote_none s

theorem texts_quiet {mi : Int} (h : ¬ (13 ≤ mi ∧ mi ≤ 22)) (args : List HVal) : outText mi args = none ∧ errText mi args = none := by
  constructor
  · unfold outText; split <;> first | rfl | (exfalso; omega)
  · unfold errText; split <;> first | rfl | (exfalso; omega)

theorem wrote_call (s : DefaultHost) (hu : s.ui = true) (mi : Int) (args : List HVal) (ht : TextArgs mi args) :
    Entered s (runMethod defaultHost (some mi) args s).2 (outText mi args) (errText mi args) := by
  have hlen1 : ∀ (k : Int), (k = 13 ∨ k = 16 ∨ k = 18 ∨ k = 19 ∨ k = 21 ∨ k = 22) → ∀ l : List HVal, l.length ≠ 1 →
      outText k l = none ∧ errText k l = none := by
    intro k hk l hl
    constructor
    · unfold outText; split <;> first | rfl | (exfalso; omega) | (exfalso; simp at hl)
    · unfold errText; split <;> first | rfl | (exfalso; simp at hl)
  have hlen3 : ∀ (k : Int), (k = 14 ∨ k = 17) → ∀ l : List HVal, l.length ≠ 3 → outText k l = none ∧ errText k l = none := by
    intro k hk l hl
    constructor
    · unfold outText; split <;> first | rfl | (exfalso; omega) | (exfalso; simp at hl)
    · unfold errText; split <;> first | rfl | (exfalso; omega)
  by_cases hlow : mi ≤ 0
  · rw [C62_below _ _ _ _ (by simpa using hlow), (texts_quiet (by omega) args).1, (texts_quiet (by omega) args).2]
    exact wrote_none s
  by_cases hhigh : 51 < mi
  · rw [C62_above _ _ _ _ hhigh, (texts_quiet (by omega) args).1, (texts_quiet (by omega) args).2]
    exact wrote_none s
  obtain ⟨n, rfl⟩ : ∃ n : Nat, mi = (n : Int) := ⟨mi.toNat, by omega⟩
  by_cases hh : n ≤ 10
  · rw [(texts_quiet (by omega) args).1, (texts_quiet (by omega) args).2]
    obtain ⟨name, hn⟩ := (C62_ids n .host).mpr (by simp only [HostPart.Ids]; omega)
    cases hf : defaultHost.host name.toList with
    | none => rw [C62_absent defaultHost s args hn (by intro f h; simp [HostImpl.Has, hf] at h)]; exact wrote_none s
    | some f => rw [C62_method defaultHost s args hn hf]; exact wrote_silent (silent_host _ (mem_of_lookup_some hf)) args s
  by_cases hr : 27 ≤ n
  · rw [(texts_quiet (by omega) args).1, (texts_quiet (by omega) args).2]
    obtain ⟨name, hn⟩ := (C62_ids n .rawUi).mpr (by simp only [HostPart.Ids]; omega)
    cases hf : defaultHost.rawUi name.toList with
    | none => rw [C62_absent defaultHost s args hn (by intro f h; simp [HostImpl.Has, hf] at h)]; exact wrote_none s
    | some f =>
      by_cases hw : defaultHost.hasRawUi s = true
      · rw [C62_method defaultHost s args hn ⟨hu, hw, hf⟩]; exact wrote_silent (silent_raw _ (mem_of_lookup_some hf)) args s
      · rw [C62_absent defaultHost s args hn (fun f h => hw h.2.1)]; exact wrote_none s
  obtain rfl | rfl | rfl | rfl | rfl | rfl | rfl | rfl | rfl | rfl | rfl | rfl | rfl | rfl | rfl | rfl : n = 11 ∨ n = 12 ∨ n = 13 ∨
    n = 14 ∨ n = 15 ∨ n = 16 ∨ n = 17 ∨ n = 18 ∨ n = 19 ∨ n = 20 ∨ n = 21 ∨ n = 22 ∨ n = 23 ∨ n = 24 ∨ n = 25 ∨ n = 26 := by omega
  · rw [ui_call s args hu "ReadLine" (by decide +kernel) rfl]
    exact wrote_silent (silent_missing 0) args s
  · rw [ui_call s args hu "ReadLineAsSecureString" (by decide +kernel) rfl]
    exact wrote_silent (silent_missing 0) args s
  · rw [ui_call s args hu "Write1" (by decide +kernel) rfl]
    exact wrote_one s args _ (outText 13) (errText 13) ht (fun t => ⟨rfl, (List.append_nil _).symm, rfl⟩) (hlen1 13 (by simp))
  · rw [ui_call s args hu "Write2" (by decide +kernel) rfl]
    exact wrote_three s args _ (outText 14) (errText 14) ht (fun _ _ t => ⟨rfl, (List.append_nil _).symm, rfl⟩) (hlen3 14 (by simp))
  · rw [ui_call s args hu "WriteLine1" (by decide +kernel) rfl]
    cases args with
    | nil => exact ⟨rfl, (List.append_nil _).symm, rfl⟩
    | cons a l => exact wrote_none s
  · rw [ui_call s args hu "WriteLine2" (by decide +kernel) rfl]
    exact wrote_one s args _ (outText 16) (errText 16) ht (fun t => ⟨rfl, (List.append_nil _).symm, rfl⟩) (hlen1 16 (by simp))
  · rw [ui_call s args hu "WriteLine3" (by decide +kernel) rfl]
    exact wrote_three s args _ (outText 17) (errText 17) ht (fun _ _ t => ⟨rfl, (List.append_nil _).symm, rfl⟩) (hlen3 17 (by simp))
  · rw [ui_call s args hu "WriteErrorLine" (by decide +kernel) rfl]
    exact wrote_one s args _ (outText 18) (errText 18) ht (fun t => ⟨(List.append_nil _).symm, rfl, rfl⟩) (hlen1 18 (by simp))
  · rw [ui_call s args hu "WriteDebugLine" (by decide +kernel) rfl]
    exact wrote_one s args _ (outText 19) (errText 19) ht (fun t => ⟨rfl, (List.append_nil _).symm, rfl⟩) (hlen1 19 (by simp))
  · rw [ui_call s args hu "WriteProgress" (by decide +kernel) rfl]
    exact wrote_silent (silent_idle 2) args s
  · rw [ui_call s args hu "WriteVerboseLine" (by decide +kernel) rfl]
    exact wrote_one s args _ (outText 21) (errText 21) ht (fun t => ⟨rfl, (List.append_nil _).symm, rfl⟩) (hlen1 21 (by simp))
  · rw [ui_call s args hu "WriteWarningLine" (by decide +kernel) rfl]
    exact wrote_one s args _ (outText 22) (errText 22) ht (fun t => ⟨rfl, (List.append_nil _).symm, rfl⟩) (hlen1 22 (by simp))
  · rw [ui_call s args hu "Prompt" (by decide +kernel) rfl]
    exact wrote_silent (silent_missing 3) args s
  · rw [ui_call s args hu "PromptForCredential1" (by decide +kernel) rfl]
    exact wrote_silent (silent_missing 4) args s
  · rw [ui_call s args hu "PromptForCredential2" (by decide +kernel) rfl]
    exact wrote_silent (silent_missing 6) args s
  · rw [ui_call s args hu "PromptForChoice" (by decide +kernel) rfl]
    exact wrote_silent (silent_missing 4) args s

/-- C64: after any sequence of host calls, of all methods and also failing ones, the output lists of the default host have one
entry with the text of every writing call, in order. -/
theorem C64_output (s : DefaultHost) (hu : s.ui = true) (calls : List (Int × List HVal)) (ht : ∀ c ∈ calls, TextArgs c.1 c.2) :
    (runMethods defaultHost s (calls.map fun c => (some c.1, c.2))).stdout =
      s.stdout ++ (calls.filterMap fun c => outText c.1 c.2).map .str ∧
    (runMethods defaultHost s (calls.map fun c => (some c.1, c.2))).stderr =
      s.stderr ++ (calls.filterMap fun c => errText c.1 c.2).map .str := by
  induction calls generalizing s with
  | nil => simp [runMethods]
  | cons c calls ih =>
    obtain ⟨mi, args⟩ := c
    obtain ⟨h1, h2, h3⟩ := wrote_call s hu mi args (ht _ List.mem_cons_self)
    obtain ⟨i1, i2⟩ := ih (runMethod defaultHost (some mi) args s).2 (h3.trans hu) (fun c h => ht c (List.mem_cons_of_mem _ h))
    rw [List.map_cons]
    unfold runMethods
    rw [i1, i2, h1, h2, List.filterMap_cons, List.filterMap_cons]
    constructor
    · cases outText mi args <;> simp
    · cases errText mi args <;> simp

example : (runMethods defaultHost demoHost [(some 16, [.str ['a']]), (some 20, []), (some 18, [.str ['e']]), (some 7, []),
    (some 14, [.int 1, .int 2, .str ['b']])]).stdout = [.str ['a', '\r', '\n'], .str ['b']] := by decide +kernel
example : ∀ c ∈ [((16 : Int), [HVal.str ['a']]), (14, [.int 1, .int 2, .str ['b']])], TextArgs c.1 c.2 := by
  simp [TextArgs]

/-- C64: a line that is not a string (a null of the server) is not written: the call fails. -/
theorem C64_null (s : DefaultHost) (hu : s.ui = true) : runMethod defaultHost (some 16) [.none] s = (.error .typeError, s) := by
  exact ui_call (n := 16) s [.none] hu "WriteLine2" (by decide +kernel) rfl

theorem raw_call (s : DefaultHost) (raw : RawUi) (args : List HVal) (hu : s.ui = true) (hr : s.raw = some raw) {n : Nat}
    (name : String) {f : HostMethod DefaultHost} (hn : IsMethod n .rawUi name) (hf : rawMethods.lookup name.toList = some f) :
    runMethod defaultHost (some (n : Int)) args s = f args s :=
  C62_method defaultHost s args hn ⟨hu, by simp [defaultHost, hr], hf⟩

theorem raw_get (s : DefaultHost) (raw : RawUi) (hu : s.ui = true) (hr : s.raw = some raw) {n : Nat}
    (name : String) {f : RawUi → HVal} (hn : IsMethod n .rawUi name) (hf : rawMethods.lookup name.toList = some (rawGet f)) :
    (runMethod defaultHost (some (n : Int)) [] s).1 = .ok (f raw) := by
  rw [raw_call s raw [] hu hr name hn hf]
  simp [rawGet, noArgs, hr]

theorem raw_set (s : DefaultHost) (raw raw' : RawUi) (v : HVal) (hu : s.ui = true) (hr : s.raw = some raw) {n : Nat}
    (name : String) {f : HVal → RawUi → Except PyErr RawUi} (hn : IsMethod n .rawUi name)
    (hf : rawMethods.lookup name.toList = some (rawSet f)) (hv : f v raw = .ok raw') :
    runMethod defaultHost (some (n : Int)) [v] s = (.ok .none, { s with raw := some raw' }) := by
  rw [raw_call s raw [v] hu hr name hn hf]
  simp [rawSet, oneArg, hr, hv]

/-- What the methods of the raw user interface return. -/
def RawUi.at (r : RawUi) (id : Int) : Option HVal :=
  [(27, r.foreground), (29, r.background), (31, r.cursorPosition), (33, r.windowPosition), (35, r.cursorSize), (37, r.bufferSize), (39, r.windowSize), (41, r.windowTitle), (43, r.maxWindowSize), (44, r.maxPhysicalWindowSize), (45, r.keyAvailable)].lookup id

theorem raw_getters (s : DefaultHost) (raw : RawUi) (hu : s.ui = true) (hr : s.raw = some raw) (id : Int) (h : id ∈ rawGetters) :
    ∃ v, raw.at id = some v ∧ (runMethod defaultHost (some id) [] s).1 = .ok v := by
  simp only [rawGetters, List.mem_cons, List.not_mem_nil, or_false] at h
  obtain rfl | rfl | rfl | rfl | rfl | rfl | rfl | rfl | rfl | rfl | rfl := h
  · exact ⟨raw.foreground, rfl, raw_get (n := 27) s raw hu hr "GetForegroundColor" (by decide +kernel) rfl⟩
  · exact ⟨raw.background, rfl, raw_get (n := 29) s raw hu hr "GetBackgroundColor" (by decide +kernel) rfl⟩
  · exact ⟨raw.cursorPosition, rfl, raw_get (n := 31) s raw hu hr "GetCursorPosition" (by decide +kernel) rfl⟩
  · exact ⟨raw.windowPosition, rfl, raw_get (n := 33) s raw hu hr "GetWindowPosition" (by decide +kernel) rfl⟩
  · exact ⟨raw.cursorSize, rfl, raw_get (n := 35) s raw hu hr "GetCursorSize" (by decide +kernel) rfl⟩
  · exact ⟨raw.bufferSize, rfl, raw_get (n := 37) s raw hu hr "GetBufferSize" (by decide +kernel) rfl⟩
  · exact ⟨raw.windowSize, rfl, raw_get (n := 39) s raw hu hr "GetWindowSize" (by decide +kernel) rfl⟩
  · exact ⟨raw.windowTitle, rfl, raw_get (n := 41) s raw hu hr "GetWindowTitle" (by decide +kernel) rfl⟩
  · exact ⟨raw.maxWindowSize, rfl, raw_get (n := 43) s raw hu hr "GetMaxWindowSize" (by decide +kernel) rfl⟩
  · exact ⟨raw.maxPhysicalWindowSize, rfl, raw_get (n := 44) s raw hu hr "GetMaxPhysicalWindowSize" (by decide +kernel) rfl⟩
  · exact ⟨raw.keyAvailable, rfl, raw_get (n := 45) s raw hu hr "GetKeyAvailable" (by decide +kernel) rfl⟩

/-- C69: what was set by a method of the raw user interface is what the next call of the matching method returns, and what the
other methods return stays. `v` is the argument and `r` what it stands for. -/
theorem C69_raw (s : DefaultHost) (raw : RawUi) (hu : s.ui = true) (hr : s.raw = some raw) {set get : Int} {v r : HVal}
    (hv : SetsTo set get v r) : ∃ s', runMethod defaultHost (some set) [v] s = (.ok .none, s') ∧
    (runMethod defaultHost (some get) [] s').1 = .ok r ∧ ∀ other ∈ rawGetters, other ≠ get →
      (runMethod defaultHost (some other) [] s').1 = (runMethod defaultHost (some other) [] s).1 := by
  suffices h : ∃ raw', runMethod defaultHost (some set) [v] s = (.ok .none, { s with raw := some raw' }) ∧ get ∈ rawGetters ∧
      raw'.at get = some r ∧ ∀ other ∈ rawGetters, other ≠ get → raw'.at other = raw.at other by
    obtain ⟨raw', h1, h2, h3, h4⟩ := h
    refine ⟨_, h1, ?_, ?_⟩
    · obtain ⟨x, e1, e2⟩ := raw_getters { s with raw := some raw' } raw' hu rfl get h2
      rw [e2, ← Option.some.inj (h3.symm.trans e1)]
    · intro other ho hne
      obtain ⟨x, e1, e2⟩ := raw_getters { s with raw := some raw' } raw' hu rfl other ho
      obtain ⟨y, e3, e4⟩ := raw_getters s raw hu hr other ho
      rw [e2, e4, Option.some.inj ((e1.symm.trans (h4 other ho hne)).trans e3)]
  cases hv
  · rename_i i
    refine ⟨{ raw with foreground := .color (some i) }, raw_set (n := 28) s raw _ _ hu hr "SetForegroundColor" (by decide +kernel) rfl rfl, by decide, rfl, ?_⟩
    intro other ho hne
    simp only [rawGetters, List.mem_cons, List.not_mem_nil, or_false] at ho
    obtain rfl | rfl | rfl | rfl | rfl | rfl | rfl | rfl | rfl | rfl | rfl := ho <;> first | rfl | exact absurd rfl hne
  · rename_i i
    refine ⟨{ raw with background := .color (some i) }, raw_set (n := 30) s raw _ _ hu hr "SetBackgroundColor" (by decide +kernel) rfl rfl, by decide, rfl, ?_⟩
    intro other ho hne
    simp only [rawGetters, List.mem_cons, List.not_mem_nil, or_false] at ho
    obtain rfl | rfl | rfl | rfl | rfl | rfl | rfl | rfl | rfl | rfl | rfl := ho <;> first | rfl | exact absurd rfl hne
  · rename_i x y text
    refine ⟨{ raw with cursorPosition := .coordinates x y }, raw_set (n := 32) s raw _ _ hu hr "SetCursorPosition" (by decide +kernel) rfl rfl, by decide, rfl, ?_⟩
    intro other ho hne
    simp only [rawGetters, List.mem_cons, List.not_mem_nil, or_false] at ho
    obtain rfl | rfl | rfl | rfl | rfl | rfl | rfl | rfl | rfl | rfl | rfl := ho <;> first | rfl | exact absurd rfl hne
  · rename_i x y text
    refine ⟨{ raw with windowPosition := .coordinates x y }, raw_set (n := 34) s raw _ _ hu hr "SetWindowPosition" (by decide +kernel) rfl rfl, by decide, rfl, ?_⟩
    intro other ho hne
    simp only [rawGetters, List.mem_cons, List.not_mem_nil, or_false] at ho
    obtain rfl | rfl | rfl | rfl | rfl | rfl | rfl | rfl | rfl | rfl | rfl := ho <;> first | rfl | exact absurd rfl hne
  · skip
    refine ⟨{ raw with cursorSize := v }, raw_set (n := 36) s raw _ _ hu hr "SetCursorSize" (by decide +kernel) rfl rfl, by decide, rfl, ?_⟩
    intro other ho hne
    simp only [rawGetters, List.mem_cons, List.not_mem_nil, or_false] at ho
    obtain rfl | rfl | rfl | rfl | rfl | rfl | rfl | rfl | rfl | rfl | rfl := ho <;> first | rfl | exact absurd rfl hne
  · rename_i w h text
    refine ⟨{ raw with bufferSize := .size h w }, raw_set (n := 38) s raw _ _ hu hr "SetBufferSize" (by decide +kernel) rfl rfl, by decide, rfl, ?_⟩
    intro other ho hne
    simp only [rawGetters, List.mem_cons, List.not_mem_nil, or_false] at ho
    obtain rfl | rfl | rfl | rfl | rfl | rfl | rfl | rfl | rfl | rfl | rfl := ho <;> first | rfl | exact absurd rfl hne
  · rename_i w h text
    refine ⟨{ raw with windowSize := .size h w }, raw_set (n := 40) s raw _ _ hu hr "SetWindowSize" (by decide +kernel) rfl rfl, by decide, rfl, ?_⟩
    intro other ho hne
    simp only [rawGetters, List.mem_cons, List.not_mem_nil, or_false] at ho
    obtain rfl | rfl | rfl | rfl | rfl | rfl | rfl | rfl | rfl | rfl | rfl := ho <;> first | rfl | exact absurd rfl hne
  · skip
    refine ⟨{ raw with windowTitle := v }, raw_set (n := 42) s raw _ _ hu hr "SetWindowTitle" (by decide +kernel) rfl rfl, by decide, rfl, ?_⟩
    intro other ho hne
    simp only [rawGetters, List.mem_cons, List.not_mem_nil, or_false] at ho
    obtain rfl | rfl | rfl | rfl | rfl | rfl | rfl | rfl | rfl | rfl | rfl := ho <;> first | rfl | exact absurd rfl hne

example : SetsTo 34 33 (.obj [] [("x".toList, 3), ("y".toList, -1)]) (.coordinates 3 (-1)) := .windowPosition 3 (-1) []
example : (runMethod defaultHost (some 33) [] (runMethod defaultHost (some 34)
    [.obj [] [("x".toList, 3), ("y".toList, -1)]] demoHost).2).1 = .ok (.coordinates 3 (-1)) := by decide +kernel

end Verif
