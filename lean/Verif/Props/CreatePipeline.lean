import Verif.Lemmas.CreatePipeline
import Verif.Props.Merge
/-
C82, C83: the messages that open a pool and start a pipeline.
-/
namespace Verif
open Seen

theorem tnAgree_clear : TnAgree OnWire .clear .clear := by constructor <;> simp [SerState.clear, DeState.clear]

/-- A whole message. -/
theorem seen_message {v w : PyVal} {us : List Nat} (h : SeenAs (.plain .star) .star v w us) :
    ∃ x, serialize .star v = .ok (some x) ∧ x.Sendable ∧ deserialize x.reparse = .ok w := by
  obtain ⟨x, st', h1, -, h2, -, d', h3, -⟩ := h.2 .clear .clear tnAgree_clear (by intro o _; simp [SerState.clear])
  refine ⟨x, ?_, h2, ?_⟩
  · simp only [serialize, h1, bind, Except.bind, pure, Except.pure]
  · simp only [deserialize, h3, bind, Except.bind, pure, Except.pure]

theorem thread_seen {n : Nat} (h : n ≤ 3) : ∃ v, enumInstance "PSThreadOptions" n = .ok v ∧
    SeenAs (.plain .star) (metaOf .Obj "PSThreadOptions") v (threadSeen n) [] := by
  refine seen_instance find_thread meta_thread wire_thread (by decide +kernel) ?_ (safe_lit (by decide +kernel))
  have hv : n = 0 ∨ n = 1 ∨ n = 2 ∨ n = 3 := by omega
  rcases hv with rfl | rfl | rfl | rfl <;> rfl

theorem apartment_seen {n : Nat} (h : n ≤ 2) : ∃ v, enumInstance "ApartmentState" n = .ok v ∧
    SeenAs (.plain .star) (metaOf .Obj "ApartmentState") v (apartmentSeen n) [] := by
  refine seen_instance find_apartment meta_apartment wire_apartment (by decide +kernel) ?_ (safe_lit (by decide +kernel))
  have hv : n = 0 ∨ n = 1 ∨ n = 2 := by omega
  rcases hv with rfl | rfl | rfl <;> rfl

/-! ### C82 -/

/-- C82: the message that opens a pool arrives, for every host that has no user interface, no screen, or a screen with any
settings, and any plain dictionary of application arguments. -/
theorem C82_arrives {p : PoolSettings} {facts : Option HostFacts} (hh : ShowsHost p.host facts) {thread apartment : Nat}
    (ht : p.threadOptions = thread) (ht' : thread ≤ 3) (ha : p.apartmentState = apartment) (ha' : apartment ≤ 2)
    {arguments : Option (List (PyVal × PyVal))} (hargs : ∀ es, arguments = some es → PlainValue (.dict es)) :
    ∃ v x, initRunspacePoolVal p arguments = .ok v ∧ serialize .star v = .ok (some x) ∧ x.Sendable ∧
      deserialize x.reparse = .ok (record [("MinRunspaces", number p.minRunspaces), ("MaxRunspaces", number p.maxRunspaces),
        ("PSThreadOptions", threadSeen thread), ("ApartmentState", apartmentSeen apartment), ("HostInfo", hostSeen facts),
        ("ApplicationArguments", orNull PyVal.dict arguments)]) := by
  obtain ⟨v1, a1, b1⟩ := thread_seen ht'
  obtain ⟨v2, a2, b2⟩ := apartment_seen ha'
  obtain ⟨v3, us, a3, b3, hd⟩ := host_seen hh (n := some "HostInfo".toList) (safe_lit (by decide +kernel))
  have b4 : SeenAs (.plain .star) (.dict .DCT (some "ApplicationArguments".toList) false (.plain .star (some "Key".toList) false)
      (.plain .star (some "Value".toList) false) applicationTypes)
      (match arguments with | some es => .dict es | none => .sc .none) (orNull PyVal.dict arguments) [] := by
    cases arguments with
    | none => exact seen_null (m := .dict .DCT (some "ApplicationArguments".toList) false (.plain .star (some "Key".toList) false)
        (.plain .star (some "Value".toList) false) applicationTypes) rfl rfl (safe_lit (s := "ApplicationArguments".toList) (by decide +kernel)) _
    | some es => exact seen_arguments (hargs es rfl) (safe_lit (by decide +kernel))
  have hp := seen_obj (t := .star) (n := none) (o := false) (r := .plain .star)
    (.cons (m := metaOf .I32 "MinRunspaces") (n := "MinRunspaces".toList) (u := []) rfl
        (seen_int p.minRunspaces (safe_lit (by decide +kernel)) _)
      (.cons (m := metaOf .I32 "MaxRunspaces") (n := "MaxRunspaces".toList) (u := []) rfl
        (seen_int p.maxRunspaces (safe_lit (by decide +kernel)) _)
      (.cons (n := "PSThreadOptions".toList) (u := []) rfl b1
      (.cons (n := "ApartmentState".toList) (u := []) rfl b2
      (.cons (m := metaOf .Obj "HostInfo") (n := "HostInfo".toList) (u := us) rfl b3
      (.cons (n := "ApplicationArguments".toList) (u := []) (us := []) rfl b4 .nil))))))
    (by simpa using hd) (by simp only [List.map]; decide +kernel) (by simp) (.inr rfl) (by simp) (.inr rfl)
  obtain ⟨x, h1, h2, h3⟩ := seen_message hp
  refine ⟨_, x, ?_, h1, h2, h3⟩
  simp only [initRunspacePoolVal, ht, ha, a1, a2, a3, bind, Except.bind, pure, Except.pure]
  cases arguments <;> rfl

/-- C82: a thread option or an apartment state without a name raises. -/
theorem C82_unnamed {p : PoolSettings} (h : p.threadOptions < 0 ∨ 3 < p.threadOptions ∨ p.apartmentState < 0 ∨ 2 < p.apartmentState)
    (arguments : Option (List (PyVal × PyVal))) : initRunspacePoolVal p arguments = .error .keyError := by
  have named : ∀ (c : ClassDef) (m : List (Int × PyStr)) (i : Int), c.text = .enum m → m.lookup i = none →
      instanceOf c 0 [("value".toList, .sc (.int i))] = .error .keyError := by
    intro c m i hc hm
    have hl : ([("value".toList, PyVal.sc (.int i))] : List (PyStr × PyVal)).lookup "value".toList = some (.sc (.int i)) := by
      rw [List.lookup_cons]; simp
    have he : enumValue [("value".toList, .sc (.int i))] = some i := by unfold enumValue; rw [hl]
    simp only [instanceOf, classText, hc, he, Option.getD_some, hm, bind, Except.bind]
  have missing : ∀ (m : List (Int × PyStr)) (i : Int), (∀ e ∈ m, e.1 ≠ i) → m.lookup i = none := by
    intro m i hm
    induction m with
    | nil => rfl
    | cons e m ih =>
      obtain ⟨k, s⟩ := e
      have : (i == k) = false := by simpa using fun h : i = k => hm (k, s) (by simp) h.symm
      rw [List.lookup_cons, this]
      exact ih fun e he => hm e (List.mem_cons_of_mem _ he)
  have thread : ∀ i, i < 0 ∨ 3 < i → enumInstance "PSThreadOptions" i = .error .keyError := by
    intro i hi
    unfold enumInstance
    rw [find_thread]
    refine named _ _ _ rfl (missing _ _ ?_)
    simp only [List.map, List.mem_cons, List.not_mem_nil, or_false, forall_eq_or_imp, forall_eq]
    omega
  have apartment : ∀ i, i < 0 ∨ 2 < i → enumInstance "ApartmentState" i = .error .keyError := by
    intro i hi
    unfold enumInstance
    rw [find_apartment]
    refine named _ _ _ rfl (missing _ _ ?_)
    simp only [List.map, List.mem_cons, List.not_mem_nil, or_false, forall_eq_or_imp, forall_eq]
    omega
  unfold initRunspacePoolVal
  by_cases ht : p.threadOptions < 0 ∨ 3 < p.threadOptions
  · rw [thread _ ht]
    rfl
  · obtain ⟨v, hv, -⟩ := thread_seen (n := p.threadOptions.toNat) (by omega)
    rw [show ((p.threadOptions.toNat : Nat) : Int) = p.threadOptions by omega] at hv
    rw [hv, apartment _ (by omega)]
    rfl

/-- The settings of a screen. -/
def someRaw : RawUi :=
  { windowTitle := .str ['t'], cursorSize := .int 25, foreground := .color (some 6), background := .color (some 5),
    cursorPosition := .coordinates 0 3, windowPosition := .coordinates 0 0, bufferSize := .size 3000 120,
    maxPhysicalWindowSize := .size 86 320, maxWindowSize := .size 86 120, windowSize := .size 60 119 }
def someScreen : Screen :=
  { foreground := 6, background := 5, cursorPosition := (0, 3), windowPosition := (0, 0), cursorSize := 25,
    bufferSize := (120, 3000), windowSize := (119, 60), maxWindowSize := (120, 86), maxPhysicalWindowSize := (320, 86),
    windowTitle := ['t'] }

/-- A host with a screen. -/
example : ShowsHost (some ⟨.none, [], 0, .none, .none, .none, true, [], [], some someRaw⟩) (some ⟨true, some someScreen⟩) :=
  ⟨rfl, rfl, rfl, rfl, rfl, rfl, rfl, rfl, rfl, rfl, rfl, clean_ascii (by decide +kernel)⟩

/-- The elements of a document with their names and texts, depth first. -/
def Xml.elements : Xml → List Xml
  | .node t r n x ks => .node t r n x ks :: elementsAll ks
where elementsAll : List Xml → List Xml
  | [] => []
  | k :: ks => Xml.elements k ++ elementsAll ks

/-- The arguments are declared as a primitive dictionary ([MS-PSRP] 2.2.3.18). -/
example : ((do
    let v ← initRunspacePoolVal ⟨1, 2, 0, 2, none⟩ (some [(.sc (.str "k".toList), .sc (.int 5))])
    let x ← serialize .star v
    return (x.map fun x => (x.elements.filter fun e => e.name = some "ApplicationArguments".toList).map fun e =>
      (e.kids.head?.map fun tn => tn.kids.map Xml.text))) : Except PyErr _).toOption =
    some (some [some (["System.Management.Automation.PSPrimitiveDictionary", "System.Collections.Hashtable", "System.Object"].map
      fun t => some t.toList)]) := by
  decide +kernel

/-! ### C83 -/

/-- C83: the message that starts a pipeline arrives, with every statement, command, parameter and redirection in it. Missing:
parameters that are objects (`C83_shared_false`) and the state STA for a pool with another one (`C83_apartment_false`). -/
theorem C83_arrives_partial {env : Nat → PyVal} {p : PoolSettings} {ps : PipelineSettings} {inv : Invocation} {version : List Nat}
    (hne : ps.commands ≠ []) (hv : ∀ c ∈ ps.commands, Dotted c.version version) (hc : ∀ c ∈ ps.commands, c.Clean env)
    (hhist : ∀ s, ps.history = some s → WireText s) {facts : Option HostFacts} (hh : ShowsHost p.host facts)
    {apartment : Nat} (ha : inv.apartmentState.getD p.apartmentState = apartment) (ha' : apartment ≤ 2)
    (hsta : inv.apartmentState = some 0 → p.apartmentState = 0) :
    ∃ v x new22 new23 flags, createPipelineVal env p ps inv = .ok v ∧ serialize .star v = .ok (some x) ∧ x.Sendable ∧
      (new22 = true ↔ VersionGe version [2, 2]) ∧ (new23 = true ↔ VersionGe version [2, 3]) ∧
      deserialize x.reparse = .ok (record [("NoInput", boolean inv.noInput), ("ApartmentState", apartmentSeen apartment),
        ("RemoteStreamOptions", enumerated "System.Management.Automation.Runspaces.RemoteStreamOptions" flags inv.remoteStreamOptions),
        ("AddToHistory", boolean inv.addToHistory), ("HostInfo", hostSeen facts),
        ("PowerShell", pipelineSeen env new22 new23 ps.isNested ps.commands ps.history inv.redirectShellError),
        ("IsNested", boolean ps.isNested)]) := by
  have hch : chosenApartment p inv = apartment := by
    unfold chosenApartment
    cases hi : inv.apartmentState with
    | none => rw [hi] at ha; exact ha
    | some i =>
      rw [hi] at ha
      simp only [Option.getD_some] at ha
      show (if i = 0 then p.apartmentState else i) = apartment
      by_cases h0 : i = 0
      · rw [if_pos h0, hsta (by rw [hi, h0]), ← ha, h0]
      · rw [if_neg h0]; exact ha
  obtain ⟨b22, b23, h22, h23, i22, i23⟩ : ∃ b22 b23, (∀ c ∈ ps.commands, versionEqualOrNewer c.version "2.2".toList = .ok b22) ∧
      (∀ c ∈ ps.commands, versionEqualOrNewer c.version "2.3".toList = .ok b23) ∧ (b22 = true ↔ VersionGe version [2, 2]) ∧
      (b23 = true ↔ VersionGe version [2, 3]) := by
    obtain ⟨c0, cs0, hcs⟩ := List.exists_cons_of_ne_nil hne
    obtain ⟨b22, h2, i2⟩ := C24_numeric_order _ _ version _ (hv c0 (by simp [hcs])) dotted22
    obtain ⟨b23, h3, i3⟩ := C24_numeric_order _ _ version _ (hv c0 (by simp [hcs])) dotted23
    refine ⟨b22, b23, fun c hc => ?_, fun c hc => ?_, i2, i3⟩
    · obtain ⟨b, h, i⟩ := C24_numeric_order _ _ version _ (hv c hc) dotted22
      rw [h, Bool.eq_iff_iff.mpr (i.trans i2.symm)]
    · obtain ⟨b, h, i⟩ := C24_numeric_order _ _ version _ (hv c hc) dotted23
      rw [h, Bool.eq_iff_iff.mpr (i.trans i3.symm)]
  obtain ⟨v1, a1, b1⟩ := apartment_seen ha'
  obtain ⟨v2, a2, b2⟩ := seen_remote (i := inv.remoteStreamOptions) (some "RemoteStreamOptions".toList) (safe_lit (by decide +kernel)) false
  obtain ⟨v3, us, a3, b3, hd⟩ := host_seen hh (n := some "HostInfo".toList) (safe_lit (by decide +kernel))
  obtain ⟨v4, a4, b4⟩ := pipeline_seen hne hc h22 h23 ps.isNested inv.redirectShellError hhist (n := some "PowerShell".toList)
    (safe_lit (by decide +kernel))
  have hp := seen_obj (t := .star) (n := none) (o := false) (r := .plain .star)
    (.cons (m := metaOf .B "NoInput") (n := "NoInput".toList) (u := []) rfl (seen_bool inv.noInput (safe_lit (by decide +kernel)) _)
      (.cons (n := "ApartmentState".toList) (u := []) rfl b1
      (.cons (m := metaOf .Obj "RemoteStreamOptions") (n := "RemoteStreamOptions".toList) (u := []) rfl b2
      (.cons (m := metaOf .B "AddToHistory") (n := "AddToHistory".toList) (u := []) rfl
        (seen_bool inv.addToHistory (safe_lit (by decide +kernel)) _)
      (.cons (m := metaOf .Obj "HostInfo") (n := "HostInfo".toList) (u := us) rfl b3
      (.cons (m := metaOf .Obj "PowerShell") (n := "PowerShell".toList) (u := []) rfl b4
      (.cons (m := metaOf .B "IsNested") (n := "IsNested".toList) (u := []) (us := []) rfl
        (seen_bool ps.isNested (safe_lit (by decide +kernel)) _) .nil)))))))
    (by simpa using hd) (by simp only [List.map]; decide +kernel) (by simp) (.inr rfl) (by simp) (.inr rfl)
  obtain ⟨x, h1, h2, h3⟩ := seen_message hp
  refine ⟨_, x, b22, b23, _, ?_, h1, h2, i22, i23, h3⟩
  simp only [createPipelineVal, hne, if_false, hch, a1, a2, a3, a4, bind, Except.bind, pure, Except.pure]

theorem clean_onLast {env : Nat → PyVal} {f : Command → Command} {cs : List Command} (h : ∀ c ∈ cs, c.Clean env)
    (hf : ∀ c, c.Clean env → (f c).Clean env) : ∀ c ∈ (onLast f cs).2, c.Clean env := by
  rcases List.eq_nil_or_concat cs with rfl | ⟨cs, c, rfl⟩
  · exact h
  · rw [List.concat_eq_append] at h ⊢
    rw [onLast_append]
    intro d hd
    rcases List.mem_append.mp hd with hd | hd
    · exact h d (by simp [hd])
    · rw [List.mem_singleton.mp hd]
      exact hf c (h c (by simp))

theorem clean_merges {env : Nat → PyVal} {c d : Command} (h : c.Clean env) (h1 : d.cmd = c.cmd) (h2 : d.args = c.args)
    (h3 : ∀ r ∈ [d.mergeMyResult, d.mergeToResult, d.mergePrevious, d.mergeError, d.mergeWarning, d.mergeVerbose, d.mergeDebug,
      d.mergeInformation], r ∈ [c.mergeMyResult, c.mergeToResult, c.mergePrevious, c.mergeError, c.mergeWarning, c.mergeVerbose,
        c.mergeDebug, c.mergeInformation] ∨ r.Named) : d.Clean env := by
  refine ⟨h1 ▸ h.cmd, h2 ▸ h.names, h2 ▸ h.values, fun r hr => ?_⟩
  rcases h3 r hr with h' | h'
  · exact h.merges r h'
  · exact h'

theorem clean_setMerge {env : Nat → PyVal} {c : Command} (h : c.Clean env) (s : MergeStream) {r : ResultTypes} (hr : r.Named) :
    (c.setMerge s r).Clean env := by
  cases s <;> refine clean_merges h rfl rfl ?_ <;> intro t ht <;>
    simp only [Command.setMerge, List.mem_cons, List.not_mem_nil, or_false] at ht ⊢ <;>
    rcases ht with rfl | rfl | rfl | rfl | rfl | rfl | rfl | rfl <;> simp [hr]

instance (r : ResultTypes) : Decidable r.Named := inferInstanceAs (Decidable (_ ≤ _))

theorem target_named {to : PyStr} {r : ResultTypes} (h : mergeTarget to = some r) : r.Named := by
  unfold mergeTarget at h
  split at h
  · cases h; decide
  · split at h
    · cases h; decide
    · split at h
      · cases h; decide
      · cases h

theorem clean_setMergeTo {env : Nat → PyVal} {cs : List Command} (h : ∀ c ∈ cs, c.Clean env) (protocol : PyStr) (s : MergeStream)
    (to : PyStr) (null : Bool) (m : Option PyStr) : ∀ c ∈ (setMergeTo protocol s to null m cs).2, c.Clean env := by
  unfold setMergeTo
  split
  · exact h
  · rename_i r hr
    have hset := clean_onLast (f := (·.setMerge s r)) h fun c hc => clean_setMerge hc s (target_named hr)
    split
    · exact h
    · split
      · exact hset
      · split
        · exact h
        · exact h
        · exact hset

theorem clean_andThen {env : Nat → PyVal} {a : Edited} {f : List Command → Edited} (h : ∀ c ∈ a.2, c.Clean env)
    (hf : ∀ cs, (∀ c ∈ cs, c.Clean env) → ∀ c ∈ (f cs).2, c.Clean env) : ∀ c ∈ (a.andThen f).2, c.Clean env := by
  obtain ⟨r, cs⟩ := a
  cases r with
  | ok u => exact hf _ h
  | error e => exact h

theorem clean_ifVersion {env : Nat → PyVal} {protocol m : PyStr} {f : List Command → Edited} {cs : List Command}
    (h : ∀ c ∈ cs, c.Clean env) (hf : ∀ cs, (∀ c ∈ cs, c.Clean env) → ∀ c ∈ (f cs).2, c.Clean env) :
    ∀ c ∈ (ifVersion protocol m f cs).2, c.Clean env := by
  unfold ifVersion
  split
  · exact h
  · exact hf _ h
  · exact h

theorem clean_mergeStream {env : Nat → PyVal} (s : MergeStream) (protocol to : PyStr) (cs : List Command)
    (h : ∀ c ∈ cs, c.Clean env) : ∀ c ∈ (mergeStream s protocol to cs).2, c.Clean env := by
  cases s
  case error =>
    refine clean_andThen (clean_setMergeTo h protocol .error to false none) fun cs h => clean_onLast h fun c hc =>
      clean_merges hc rfl rfl ?_
    intro r hr
    simp only [List.mem_cons, List.not_mem_nil, or_false] at hr ⊢
    rcases hr with rfl | rfl | rfl | rfl | rfl | rfl | rfl | rfl
    · by_cases ht : to = "none".toList
      · simp [ht]
      · right
        rw [if_neg ht]
        decide
    all_goals simp
  all_goals exact clean_setMergeTo h _ _ to true _

theorem clean_mergeAll {env : Nat → PyVal} (protocol to : PyStr) (cs : List Command) (h : ∀ c ∈ cs, c.Clean env) :
    ∀ c ∈ (mergeAll protocol to cs).2, c.Clean env :=
  clean_andThen (clean_mergeStream .error protocol to cs h) fun _ h => clean_andThen (clean_ifVersion h fun cs h =>
    clean_andThen (clean_andThen (clean_mergeStream .debug protocol to cs h) (clean_mergeStream .verbose protocol to))
      (clean_mergeStream .warning protocol to)) fun _ h => clean_ifVersion h (clean_mergeStream .information protocol to)

theorem clean_previous {env : Nat → PyVal} (enabled : Bool) (cs : List Command) (h : ∀ c ∈ cs, c.Clean env) :
    ∀ c ∈ (mergePrevious enabled cs).2, c.Clean env := by
  refine clean_onLast h fun c hc => clean_merges hc rfl rfl ?_
  intro r hr
  simp only [List.mem_cons, List.not_mem_nil, or_false] at hr ⊢
  rcases hr with rfl | rfl | rfl | rfl | rfl | rfl | rfl | rfl
  case inr.inr.inl => right; cases enabled <;> decide
  all_goals simp

theorem clean_build {env : Nat → PyVal} (protocol : PyStr) {ops : List BuildOp} (h : ∀ op ∈ ops, op.Clean env) :
    ∀ c ∈ build protocol ops, c.Clean env := by
  unfold build
  suffices hb : ∀ cs : List Command, (∀ c ∈ cs, c.Clean env) →
      ∀ c ∈ ops.foldl (fun cs op => (op.run protocol cs).2) cs, c.Clean env from hb [] (by simp)
  induction ops with
  | nil => exact fun _ h => h
  | cons op ops ih =>
    intro cs hcs
    refine ih (fun op hop => h op (List.mem_cons_of_mem _ hop)) _ ?_
    have hop := h op (by simp)
    cases op with
    | add cmd isScript useLocalScope =>
      simp only [BuildOp.run, addCmdlet]
      split
      · exact hcs
      · exact hcs
      · intro d hd
        rcases List.mem_append.mp hd with hd | hd
        · exact hcs d hd
        · rw [List.mem_singleton.mp hd]
          refine ⟨hop, by simp, by simp, ?_⟩
          simp only [List.mem_cons, List.not_mem_nil, or_false, forall_eq_or_imp, forall_eq]
          decide
    | parameter name value =>
      refine clean_onLast hcs fun c hc => ⟨hc.cmd, ?_, ?_, hc.merges⟩
      · intro a ha
        rcases List.mem_append.mp ha with ha | ha
        · exact hc.names a ha
        · rw [List.mem_singleton.mp ha]; exact hop.1
      · intro a ha
        rcases List.mem_append.mp ha with ha | ha
        · exact hc.values a ha
        · rw [List.mem_singleton.mp ha]; exact hop.2
    | statement => exact clean_onLast hcs fun c hc => ⟨hc.cmd, hc.names, hc.values, hc.merges⟩
    | merge s to => exact clean_mergeStream s protocol to cs hcs
    | mergeAll to => exact clean_mergeAll protocol to cs hcs
    | mergePrevious enabled => exact clean_previous enabled cs hcs
    | mergeReset => exact clean_andThen (clean_previous false cs hcs) fun cs h => clean_mergeAll protocol _ cs h

/-- C83 for commands built by any calls of `add_script`, `add_parameter`, `add_statement`, `merge_error` and so on, failed ones
included. -/
theorem C83_built_partial {env : Nat → PyVal} {p : PoolSettings} {protocol : PyStr} {version : List Nat} (hv : Dotted protocol version)
    {ops : List BuildOp} (hops : ∀ op ∈ ops, op.Clean env) (hne : build protocol ops ≠ []) {inv : Invocation}
    {facts : Option HostFacts} (hh : ShowsHost p.host facts) {apartment : Nat}
    (ha : inv.apartmentState.getD p.apartmentState = apartment) (ha' : apartment ≤ 2)
    (hsta : inv.apartmentState = some 0 → p.apartmentState = 0) :
    ∃ v x new22 new23 flags, createPipelineVal env p { commands := build protocol ops } inv = .ok v ∧
      serialize .star v = .ok (some x) ∧ x.Sendable ∧
      (new22 = true ↔ VersionGe version [2, 2]) ∧ (new23 = true ↔ VersionGe version [2, 3]) ∧
      deserialize x.reparse = .ok (record [("NoInput", boolean inv.noInput), ("ApartmentState", apartmentSeen apartment),
        ("RemoteStreamOptions", enumerated "System.Management.Automation.Runspaces.RemoteStreamOptions" flags inv.remoteStreamOptions),
        ("AddToHistory", boolean inv.addToHistory), ("HostInfo", hostSeen facts),
        ("PowerShell", pipelineSeen env new22 new23 false (build protocol ops) none inv.redirectShellError),
        ("IsNested", boolean false)]) :=
  C83_arrives_partial (ps := { commands := build protocol ops }) hne
    (fun c hc => by rw [(built_build hv ops c hc).1]; exact hv) (clean_build protocol hops) (by simp) hh ha ha' hsta

/-- Two statements with a parameter, a redirection and a host without a user interface. -/
example : (∀ op ∈ [BuildOp.add "Get-Item".toList false none, .parameter (some "Path".toList) (.str "C:\\".toList),
      .merge .warning "output".toList, .statement, .add "1".toList true none], op.Clean (fun _ => null)) ∧
    build "2.3".toList [BuildOp.add "Get-Item".toList false none, .parameter (some "Path".toList) (.str "C:\\".toList),
      .merge .warning "output".toList, .statement, .add "1".toList true none] ≠ [] ∧ Dotted "2.3".toList [2, 3] ∧
    ShowsHost (some { name := .none, version := [], instanceId := 0, culture := .none, uiCulture := .none, ui := false, raw := none })
      (some { ui := false, screen := none }) := by
  refine ⟨?_, by decide +kernel, dotted23, rfl, trivial⟩
  simp only [List.mem_cons, List.not_mem_nil, or_false, forall_eq_or_imp, forall_eq, BuildOp.Clean, true_and]
  refine ⟨clean_ascii (by decide +kernel), ⟨fun n hn => ?_, .sc (clean_ascii (by decide +kernel))⟩, clean_ascii (by decide +kernel)⟩
  cases hn
  exact clean_ascii (by decide +kernel)

/-- C83: without commands nothing is sent. -/
theorem C83_empty (env : Nat → PyVal) (p : PoolSettings) (nested : Bool) (history : Option PyStr) (inv : Invocation) :
    createPipelineVal env p { isNested := nested, commands := [], history } inv = .error .invalidPSRPOperation := rfl

/-- C83 is false of the state STA: asking for it is the same as asking for nothing. -/
theorem C83_apartment_false (env : Nat → PyVal) (p : PoolSettings) (ps : PipelineSettings) (inv : Invocation) :
    createPipelineVal env p ps { inv with apartmentState := some 0 } =
      createPipelineVal env p ps { inv with apartmentState := none } := rfl

/-- A member of a record. -/
def memberOf (name : String) : PyVal → Option PyVal
  | .generic _ _ _ _ ext _ => ext.lookup name.toList
  | _ => none
/-- An element of a list. -/
def elementOf (i : Nat) : PyVal → Option PyVal
  | .list l => l[i]?
  | _ => none
/-- The names of the members of parameter `i` of the first command of a message. -/
def parameterMembers (i : Nat) (v : PyVal) : Option (List PyStr) := do
  let ps ← memberOf "PowerShell" v
  let cmds ← memberOf "Cmds" ps
  let c ← elementOf 0 cmds
  let args ← memberOf "Args" c
  match ← elementOf i args with
  | .generic _ _ _ _ ext _ => some (ext.map Prod.fst)
  | _ => none
/-- A message in a pool of one runspace, as it is written and as it is read. -/
def sentMessage (env : Nat → PyVal) (ops : List BuildOp) : Except PyErr (Option Xml) := do
  let v ← createPipelineVal env { minRunspaces := 1, maxRunspaces := 1, threadOptions := 0, apartmentState := 2, host := none }
    { commands := build "2.3".toList ops } {}
  serialize .star v
def readMembers (i : Nat) : Option Xml → Except PyErr (Option (List PyStr))
  | some x => do
    let w ← deserialize x.reparse
    return parameterMembers i w
  | none => return none

/-- C83 is false of an object that is the value of two parameters: the second one is written as a reference without the name V,
which cannot be read. The same object arrives as the value of one parameter. -/
theorem C83_shared_false : (let env := fun _ => PyVal.generic 7 [] none [] [("a".toList, .sc (.int 1))] []
    (sentMessage env [.add ['c'] false none, .parameter (some ['p']) (.other 0)]).map (readMembers 0) =
      .ok (.ok (some ["N".toList, "V".toList])) ∧
    (sentMessage env [.add ['c'] false none, .parameter (some ['p']) (.other 0), .parameter (some ['q']) (.other 0)]).map
      (readMembers 0) = .ok (.error .keyError)) := by
  decide +kernel

end Verif
