import Verif.Lemmas.Docs
import Verif.Props.CreatePipeline
/-
C97: the documents of the messages that open a pool and start a pipeline.
-/
namespace Verif
open Docs

/-- A whole message. -/
theorem doc_message {v : PyVal} {d : Doc} {us : List Nat} (h : DocAs .star v d us) :
    ∃ x, serialize .star v = .ok (some x) ∧ (resolve x []).1 = d := by
  obtain ⟨x, st', h1, -, -, -, tbl', h2, -⟩ := h.2 .clear [] (by constructor <;> simp [SerState.clear]) (by intro o _; simp [SerState.clear])
  refine ⟨x, ?_, by rw [h2]⟩
  simp only [serialize, h1, bind, Except.bind, pure, Except.pure]

/-- C97: the document that opens a pool. Its dictionary of arguments has the type of a primitive dictionary, 2.2.3.18. -/
theorem C97_open {p : PoolSettings} {facts : Option Seen.HostFacts} (hh : Seen.ShowsHost p.host facts) {thread apartment : Nat}
    (ht : p.threadOptions = thread) (ht' : thread ≤ 3) (ha : p.apartmentState = apartment) (ha' : apartment ≤ 2)
    {arguments : Option (List (PyVal × PyVal))} (hargs : ∀ es, arguments = some es → Simple (.dict es)) :
    ∃ v x, initRunspacePoolVal p arguments = .ok v ∧ serialize .star v = .ok (some x) ∧
      (resolve x []).1 = members none [number (some "MinRunspaces") p.minRunspaces, number (some "MaxRunspaces") p.maxRunspaces,
        threadDoc thread, apartmentDoc apartment, hostDoc facts,
        match arguments with
        | some es => dictDoc (some "ApplicationArguments")
            ["System.Management.Automation.PSPrimitiveDictionary", "System.Collections.Hashtable", "System.Object"] (entries es)
        | none => null (some "ApplicationArguments")] := by
  obtain ⟨v1, a1, b1⟩ := doc_thread ht'
  obtain ⟨v2, a2, b2⟩ := doc_apartment ha'
  obtain ⟨v3, us, a3, b3, hd⟩ := host_doc hh
  have hw : OnWire (["System.Management.Automation.PSPrimitiveDictionary", "System.Collections.Hashtable", "System.Object"].map
      String.toList) := by
    show _ ∈ wireTypes
    unfold wireTypes
    iterate 5 apply List.mem_cons_of_mem
    exact List.mem_cons_self
  have b4 : DocAs (.dict .DCT (some "ApplicationArguments".toList) false (.plain .star (some "Key".toList) false)
      (.plain .star (some "Value".toList) false) applicationTypes)
      (match arguments with | some es => .dict es | none => .sc .none)
      (match arguments with
        | some es => dictDoc (some "ApplicationArguments")
            ["System.Management.Automation.PSPrimitiveDictionary", "System.Collections.Hashtable", "System.Object"] (entries es)
        | none => null (some "ApplicationArguments")) [] := by
    cases arguments with
    | none => exact doc_null (m := .dict .DCT (some "ApplicationArguments".toList) false (.plain .star (some "Key".toList) false)
        (.plain .star (some "Value".toList) false) applicationTypes) (.inr rfl) rfl
    | some es =>
      refine doc_dict (n := some "ApplicationArguments") (m := .dict .DCT (some "ApplicationArguments".toList) false
        (.plain .star (some "Key".toList) false) (.plain .star (some "Value".toList) false) applicationTypes)
        rfl rfl rfl rfl rfl hw (doc_entries ?_) (by simp)
      cases hargs es rfl with
      | dict hk hv => exact fun e he => ⟨hk e he, hv e he⟩
  have hp := doc_obj (t := .star)
    (.cons (m := metaOf .I32 "MinRunspaces") (u := []) (doc_number (.inl rfl) (some "MinRunspaces") p.minRunspaces)
      (.cons (m := metaOf .I32 "MaxRunspaces") (u := []) (doc_number (.inl rfl) (some "MaxRunspaces") p.maxRunspaces)
      (.cons (u := []) b1 (.cons (u := []) b2 (.cons (u := us) b3 (.cons (u := []) (us := []) b4 .nil))))))
    (by simpa using hd) (by simp) (.inr rfl) none false
  obtain ⟨x, h1, h2⟩ := doc_message hp
  refine ⟨_, x, ?_, h1, h2⟩
  simp only [initRunspacePoolVal, ht, ha, a1, a2, a3, bind, Except.bind, pure, Except.pure]
  cases arguments <;> rfl

/-- C97: the document that starts a pipeline. Missing: parameters that are objects, and the state STA for a pool with another
one (`C83_apartment_false`). -/
theorem C97_start_partial {env : Nat → PyVal} {p : PoolSettings} {ps : PipelineSettings} {inv : Invocation} {version : List Nat}
    (hne : ps.commands ≠ []) (hv : ∀ c ∈ ps.commands, Dotted c.version version) (hc : ∀ c ∈ ps.commands, c.Printed env)
    {facts : Option Seen.HostFacts} (hh : Seen.ShowsHost p.host facts)
    {apartment : Nat} (ha : inv.apartmentState.getD p.apartmentState = apartment) (ha' : apartment ≤ 2)
    (hsta : inv.apartmentState = some 0 → p.apartmentState = 0) {streams : Nat} (hr : inv.remoteStreamOptions = streams) :
    ∃ v x new22 new23, createPipelineVal env p ps inv = .ok v ∧ serialize .star v = .ok (some x) ∧
      (new22 = true ↔ VersionGe version [2, 2]) ∧ (new23 = true ↔ VersionGe version [2, 3]) ∧
      (resolve x []).1 = members none [truth (some "NoInput") inv.noInput, apartmentDoc apartment,
        enumerated (some "RemoteStreamOptions") "System.Management.Automation.Runspaces.RemoteStreamOptions" (streamNames streams) streams,
        truth (some "AddToHistory") inv.addToHistory, hostDoc facts,
        pipelineDoc env new22 new23 ps.isNested ps.commands ps.history inv.redirectShellError,
        truth (some "IsNested") ps.isNested] := by
  have hch : chosenApartment p inv = apartment := by
    unfold chosenApartment
    cases hi : inv.apartmentState with
    | none => rw [hi] at ha; exact ha
    | some i =>
      rw [hi] at ha
      simp only [Option.getD_some] at ha
      show (if i = 0 then p.apartmentState else i) = apartment
      by_cases h0 : i = 0
      · rw [if_pos h0, hsta (by rw [hi, h0]), ← ha, h0]
      · rw [if_neg h0]; exact ha
  obtain ⟨b22, b23, h22, h23, i22, i23⟩ : ∃ b22 b23, (∀ c ∈ ps.commands, versionEqualOrNewer c.version "2.2".toList = .ok b22) ∧
      (∀ c ∈ ps.commands, versionEqualOrNewer c.version "2.3".toList = .ok b23) ∧ (b22 = true ↔ VersionGe version [2, 2]) ∧
      (b23 = true ↔ VersionGe version [2, 3]) := by
    obtain ⟨c0, cs0, hcs⟩ := List.exists_cons_of_ne_nil hne
    obtain ⟨b22, h2, i2⟩ := C24_numeric_order _ _ version _ (hv c0 (by simp [hcs])) dotted22
    obtain ⟨b23, h3, i3⟩ := C24_numeric_order _ _ version _ (hv c0 (by simp [hcs])) dotted23
    refine ⟨b22, b23, fun c hc => ?_, fun c hc => ?_, i2, i3⟩
    · obtain ⟨b, h, i⟩ := C24_numeric_order _ _ version _ (hv c hc) dotted22
      rw [h, Bool.eq_iff_iff.mpr (i.trans i2.symm)]
    · obtain ⟨b, h, i⟩ := C24_numeric_order _ _ version _ (hv c hc) dotted23
      rw [h, Bool.eq_iff_iff.mpr (i.trans i3.symm)]
  obtain ⟨v1, a1, b1⟩ := doc_apartment ha'
  obtain ⟨v2, a2, b2⟩ := doc_remote streams
  obtain ⟨v3, us, a3, b3, hd⟩ := host_doc hh
  obtain ⟨v4, a4, b4⟩ := pipeline_doc hne hc h22 h23 ps.isNested inv.redirectShellError ps.history
  have hp := doc_obj (t := .star)
    (.cons (m := metaOf .B "NoInput") (u := []) (doc_truth (.inl rfl) (some "NoInput") inv.noInput)
      (.cons (u := []) b1 (.cons (u := []) b2
      (.cons (m := metaOf .B "AddToHistory") (u := []) (doc_truth (.inl rfl) (some "AddToHistory") inv.addToHistory)
      (.cons (u := us) b3 (.cons (u := []) b4
      (.cons (m := metaOf .B "IsNested") (u := []) (us := []) (doc_truth (.inl rfl) (some "IsNested") ps.isNested) .nil)))))))
    (by simpa using hd) (by simp) (.inr rfl) none false
  obtain ⟨x, h1, h2⟩ := doc_message hp
  refine ⟨_, x, b22, b23, ?_, h1, i22, i23, h2⟩
  simp only [createPipelineVal, hne, if_false, hch, hr, a1, a2, a3, a4, bind, Except.bind, pure, Except.pure]

/-! ### Witnesses -/

/-- Two statements with a parameter each, a redirection of protocol version 2 and a list as a value. -/
def printedCommands : List Command :=
  [{ version := "2.3".toList, cmd := "Get-Item".toList, args := [(some "Path".toList, .str "a_x000A_".toList), (none, .other 0)], endOfStatement := true },
   { version := "2.3".toList, cmd := "Out-Null".toList, mergeMyResult := ⟨2, true⟩, mergeToResult := ⟨1, true⟩ }]

example : ∀ c ∈ printedCommands, Dotted c.version [2, 3] := by
  simp only [printedCommands, List.mem_cons, List.not_mem_nil, or_false, forall_eq_or_imp, forall_eq]
  exact ⟨dotted23, dotted23⟩

example : ∀ c ∈ printedCommands, c.Printed fun _ => .list [.sc (.int 5), .dict [(.sc (.str ['k']), .sc .none)]] := by
  simp only [printedCommands, List.mem_cons, List.not_mem_nil, or_false, forall_eq_or_imp, forall_eq]
  refine ⟨⟨?_, ?_⟩, ⟨by simp, ?_⟩⟩
  · simp only [List.mem_cons, List.not_mem_nil, or_false, forall_eq_or_imp, forall_eq]
    refine ⟨.sc _, .list ?_⟩
    simp only [List.mem_cons, List.not_mem_nil, or_false, forall_eq_or_imp, forall_eq]
    refine ⟨.sc _, .dict ?_ ?_⟩ <;>
    · simp only [List.mem_cons, List.not_mem_nil, or_false, forall_eq]
      exact .sc _
  all_goals
    simp only [List.mem_cons, List.not_mem_nil, or_false, forall_eq_or_imp, forall_eq]
    decide

/-- Names of the options for the streams. -/
example : streamNames 15 = "AddInvocationInfo" ∧ streamNames 5 = "AddInvocationInfoToErrorRecord, AddInvocationInfoToDebugRecord" ∧
    streamNames 0 = "" := by decide +kernel

end Verif
