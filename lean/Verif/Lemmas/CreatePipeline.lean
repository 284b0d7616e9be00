import Verif.Lemmas.Seen
import Verif.Props.Statements
/-
The parts of the messages that open a pool and start a pipeline, written and read.
-/
namespace Verif
open Seen

theorem propsSeen_append {a b : List (Meta × PyVal)} {wa wb : List (PyStr × PyVal)} {ua ub : List Nat} (ha : PropsSeen a wa ua)
    (hb : PropsSeen b wb ub) : PropsSeen (a ++ b) (wa ++ wb) (ua ++ ub) := by
  induction ha with
  | nil => exact hb
  | skip hp ho _ ih => exact .skip hp ho ih
  | cons hn h _ ih =>
    rw [List.cons_append, List.cons_append, List.append_assoc]
    exact .cons hn h ih

theorem seen_text {s : PyStr} (h : WireText s) {n : Option PyStr} (hn : ∀ x, n = some x → ∀ c ∈ x, XmlSafe c) (r : DMeta) :
    SeenAs r (.plain .S n false) (.sc (.str s)) (text s) [] := by
  have hf : TagFits .S (.str s) := .inl ⟨by simp, h⟩
  exact seen_tag hf hn r
theorem seen_bool (b : Bool) {n : Option PyStr} (hn : ∀ x, n = some x → ∀ c ∈ x, XmlSafe c) (r : DMeta) :
    SeenAs r (.plain .B n false) (.sc (.bool b)) (boolean b) [] := by
  have hf : TagFits .B (.bool b) := rfl
  exact seen_tag hf hn r
theorem seen_int (i : Int) {n : Option PyStr} (hn : ∀ x, n = some x → ∀ c ∈ x, XmlSafe c) (r : DMeta) :
    SeenAs r (.plain .I32 n false) (.sc (.int i)) (number i) [] := seen_tag (by simp [TagFits]) hn r
theorem seen_optText {s : Option PyStr} (h : ∀ t, s = some t → WireText t) {n : Option PyStr}
    (hn : ∀ x, n = some x → ∀ c ∈ x, XmlSafe c) (r : DMeta) :
    SeenAs r (.plain .S n false) (optStr s) (orNull text s) [] := by
  cases s with
  | none => exact seen_null (m := .plain .S n false) rfl rfl hn r
  | some t => exact seen_text (h t rfl) hn r
theorem seen_optBool (b : Option Bool) {n : Option PyStr} (hn : ∀ x, n = some x → ∀ c ∈ x, XmlSafe c) (r : DMeta) :
    SeenAs r (.plain .B n false) (optBool b) (orNull boolean b) [] := by
  cases b with
  | none => exact seen_null (m := .plain .B n false) rfl rfl hn r
  | some t => exact seen_bool t hn r

theorem utf16_low {s : PyStr} (h : ∀ c ∈ s, (Nat.ble 32 c.toNat && Nat.ble c.toNat 126) = true) : ∀ u ∈ utf16 s, u.toNat ≤ 126 := by
  intro u hu
  obtain ⟨c, hc, hu⟩ := List.mem_flatMap.mp hu
  have := h c hc
  simp only [Bool.and_eq_true, Nat.ble_eq] at this
  unfold charUnits at hu
  rw [if_pos (by omega)] at hu
  simp only [List.mem_cons, List.not_mem_nil, or_false] at hu
  subst hu
  rw [UInt16.toNat_ofNat']
  omega

theorem clean_ascii {s : PyStr} (h : asciiStr s = true) : WireText s := by
  have hc := asciiStr_mem.mp h
  constructor
  · intro hs
    obtain ⟨n, -, -, u0, u2, u3, u4, u5, u6, u7, rest, hu, -⟩ := hs
    have hm : (0x5F00 : UInt16) ∈ utf16 ((s.drop n).take 8) := by rw [hu]; simp
    have := utf16_low (fun c h => hc c (List.mem_of_mem_drop (List.mem_of_mem_take h))) _ hm
    revert this
    decide
  · intro c hm
    have := hc c hm
    simp only [Bool.and_eq_true, Nat.ble_eq] at this
    omega

/-! ### Enumerations -/

theorem lookup_names {m : List (Int × PyStr)} (hm : m.all (fun e => asciiStr e.2) = true) {i : Int} {s : PyStr}
    (h : m.lookup i = some s) : asciiStr s = true := by
  obtain ⟨k, hk⟩ := lookup_mem h
  exact List.all_eq_true.mp hm _ hk

def resultClass : ClassDef := enumClass "System.Management.Automation.Runspaces.PipelineResultTypes"
    (stringMap [(0, "None"), (1, "Output"), (2, "Error"), (3, "Warning"), (4, "Verbose"), (5, "Debug"), (6, "Information"),
      (7, "All"), (8, "Null")])
def threadClass : ClassDef := enumClass "System.Management.Automation.Runspaces.PSThreadOptions"
    (stringMap [(0, "Default"), (1, "UseNewThread"), (2, "ReuseThread"), (3, "UseCurrentThread")])
def apartmentClass : ClassDef := enumClass "System.Management.Automation.Runspaces.ApartmentState"
    (stringMap [(0, "STA"), (1, "MTA"), (2, "UNKNOWN")])
def remoteClass : ClassDef := enumClass "System.Management.Automation.Runspaces.RemoteStreamOptions" (.flags remoteStreamText)

theorem find_result : findClass "PipelineResultTypes".toList = some resultClass := rfl
theorem find_thread : findClass "PSThreadOptions".toList = some threadClass := rfl
theorem find_apartment : findClass "ApartmentState".toList = some apartmentClass := rfl
theorem find_remote : findClass "RemoteStreamOptions".toList = some remoteClass := rfl

theorem meta_result : metaForTypes resultClass.types = some (.cls "PipelineResultTypes".toList) := by decide +kernel
theorem meta_thread : metaForTypes threadClass.types = some (.cls "PSThreadOptions".toList) := by decide +kernel
theorem meta_apartment : metaForTypes apartmentClass.types = some (.cls "ApartmentState".toList) := by decide +kernel
theorem meta_remote : metaForTypes remoteClass.types = some (.cls "RemoteStreamOptions".toList) := by decide +kernel

theorem wire_result : OnWire resultClass.types := by
  show _ ∈ wireTypes
  unfold wireTypes
  iterate 6 apply List.mem_cons_of_mem
  exact List.mem_cons_self
theorem wire_thread : OnWire threadClass.types := by
  show _ ∈ wireTypes
  unfold wireTypes
  iterate 7 apply List.mem_cons_of_mem
  exact List.mem_cons_self
theorem wire_apartment : OnWire apartmentClass.types := by
  show _ ∈ wireTypes
  unfold wireTypes
  iterate 8 apply List.mem_cons_of_mem
  exact List.mem_cons_self
theorem wire_remote : OnWire remoteClass.types := by
  show _ ∈ wireTypes
  unfold wireTypes
  iterate 9 apply List.mem_cons_of_mem
  exact List.mem_cons_self

/-- An enumeration of the table, by its names. -/
theorem seen_instance {cls : String} {type : String} {m : List (Int × String)}
    (hc : findClass cls.toList = some (enumClass type (stringMap m)))
    (hm : metaForTypes (enumClass type (stringMap m)).types = some (.cls cls.toList))
    (hw : OnWire (enumClass type (stringMap m)).types)
    (ha : (m.map (fun e => (e.1, e.2.toList))).all (fun e => asciiStr e.2) = true) {i : Int} {s : PyStr}
    (hs : (m.map (fun e => (e.1, e.2.toList))).lookup i = some s) {n : Option PyStr}
    (hn : ∀ x, n = some x → ∀ c ∈ x, XmlSafe c) {o : Bool} :
    ∃ v, enumInstance cls i = .ok v ∧ SeenAs (.plain .star) (.plain .Obj n o) v (enumerated type s i) [] := by
  have hl : ([("value".toList, PyVal.sc (.int i))] : List (PyStr × PyVal)).lookup "value".toList = some (.sc (.int i)) := by
    rw [List.lookup_cons]; simp
  have he : enumValue [("value".toList, .sc (.int i))] = some i := by
    unfold enumValue; rw [hl]
  refine ⟨.typed 0 (enumClass type (stringMap m)).types (some s) [(.plain .I32 none false, .sc (.int i))] [] [], ?_, ?_⟩
  · have ht : classText (enumClass type (stringMap m)) [("value".toList, .sc (.int i))] = .ok (some s) := by
      simp only [classText, enumClass, stringMap, he, Option.getD_some, hs]
    have hf : getFields [("value".toList, .sc (.int i))] (enumClass type (stringMap m)).sets =
        .ok [(.plain .I32 none false, .sc (.int i))] := by
      simp only [enumClass, getFields, hl, bind, Except.bind, pure, Except.pure]
    unfold enumInstance
    rw [hc]
    simp only [instanceOf, ht, hf, bind, Except.bind, pure, Except.pure]
    rfl
  · have := seen_enum hc rfl rfl rfl rfl hm hw (lookup_names ha hs) i hn (o := o)
    rwa [show objText (enumClass type (stringMap m)) (some s) [(.plain .I32 none false, .sc (.int i))] = some s from hs] at this

theorem seen_remote {i : Int} (n : Option PyStr) (hn : ∀ x, n = some x → ∀ c ∈ x, XmlSafe c) (o : Bool) :
    ∃ v, enumInstance "RemoteStreamOptions" i = .ok v ∧ SeenAs (.plain .star) (.plain .Obj n o) v
      (enumerated "System.Management.Automation.Runspaces.RemoteStreamOptions" (remoteStreamText (some i.toNat)) i) [] := by
  have hl : ([("value".toList, PyVal.sc (.int i))] : List (PyStr × PyVal)).lookup "value".toList = some (.sc (.int i)) := by
    rw [List.lookup_cons]; simp
  have he : enumValue [("value".toList, .sc (.int i))] = some i := by
    unfold enumValue; rw [hl]
  refine ⟨.typed 0 remoteClass.types (some (remoteStreamText (some i.toNat))) [(.plain .I32 none false, .sc (.int i))] [] [], ?_, ?_⟩
  · have hf : getFields [("value".toList, .sc (.int i))] remoteClass.sets = .ok [(.plain .I32 none false, .sc (.int i))] := by
      simp only [remoteClass, enumClass, getFields, hl, bind, Except.bind, pure, Except.pure]
    have ht : classText remoteClass [("value".toList, .sc (.int i))] = .ok (some (remoteStreamText (some i.toNat))) := by
      simp only [classText, remoteClass, enumClass, he, Option.map_some]
    unfold enumInstance
    rw [find_remote]
    simp only [instanceOf, ht, hf, bind, Except.bind, pure, Except.pure]
    rfl
  · exact seen_enum find_remote rfl rfl rfl rfl meta_remote wire_remote (flags_ascii (.inl rfl) _) i hn (o := o)

theorem seen_result {r : ResultTypes} (h : r.Named) (n : Option PyStr) (hn : ∀ x, n = some x → ∀ c ∈ x, XmlSafe c) (o : Bool) :
    ∃ v, r.val = .ok v ∧ SeenAs (.plain .star) (.plain .Obj n o) v (resultSeen r) [] := by
  obtain ⟨value, p2⟩ := r
  cases p2 with
  | false =>
    have h : value ≤ 8 := h
    unfold ResultTypes.val
    simp only [Bool.false_eq_true, if_false]
    refine seen_instance find_result meta_result wire_result (by decide +kernel) ?_ hn
    have hv : value = 0 ∨ value = 1 ∨ value = 2 ∨ value = 3 ∨ value = 4 ∨ value = 5 ∨ value = 6 ∨ value = 7 ∨ value = 8 := by omega
    rcases hv with rfl | rfl | rfl | rfl | rfl | rfl | rfl | rfl | rfl <;> rfl
  | true =>
    have h : value ≤ 3 := h
    have hl : ∃ s, resultNames2.lookup (value : Int) = some s ∧ asciiStr s = true := by
      have hv : value = 0 ∨ value = 1 ∨ value = 2 ∨ value = 3 := by omega
      rcases hv with rfl | rfl | rfl | rfl <;> exact ⟨_, rfl, by decide +kernel⟩
    obtain ⟨s, hl, ha⟩ := hl
    refine ⟨.typed 0 resultClass.types (some s) [(.plain .I32 none false, .sc (.int value))] [] [], ?_, ?_⟩
    · unfold ResultTypes.val
      simp only [if_true, hl]
      rfl
    · have := seen_enum find_result rfl rfl rfl rfl meta_result wire_result ha value hn (o := o)
      have ht : objText resultClass (some s) [(.plain .I32 none false, .sc (.int value))] =
          some (resultNames.getD value "").toList := by
        have hv : value = 0 ∨ value = 1 ∨ value = 2 ∨ value = 3 := by omega
        rcases hv with rfl | rfl | rfl | rfl <;> rfl
      rw [ht] at this
      exact this

/-! ### Commands -/

theorem merges_seen {ms : List (String × ResultTypes)} (h : ∀ m ∈ ms, m.2.Named ∧ asciiStr m.1.toList = true) (o : Bool) :
    ∃ ps, mergeProps o ms = .ok ps ∧ PropsSeen ps (ms.map fun m => (m.1.toList, resultSeen m.2)) [] := by
  induction ms with
  | nil => exact ⟨[], rfl, .nil⟩
  | cons m ms ih =>
    obtain ⟨name, r⟩ := m
    obtain ⟨hr, ha⟩ := h (name, r) (by simp)
    obtain ⟨v, h1, h2⟩ := seen_result hr (some name.toList) (by intro x hx; cases hx; exact asciiStr_safe ha) o
    obtain ⟨ps, h3, h4⟩ := ih fun m hm => h m (List.mem_cons_of_mem _ hm)
    refine ⟨(.plain .Obj (some name.toList) o, v) :: ps, ?_, .cons (u := []) rfl h2 h4⟩
    simp only [mergeProps, h1, h3, bind, Except.bind, pure, Except.pure]

theorem safe_lit {s : PyStr} (h : asciiStr s = true) : ∀ x, some s = some x → ∀ c ∈ x, XmlSafe c := by
  intro x hx
  cases hx
  exact asciiStr_safe h

theorem argVal_seen (env : Nat → PyVal) (a : ArgVal) : a.val env = argSeen env a := by cases a <;> rfl

theorem parameter_seen {env : Nat → PyVal} {a : Option PyStr × ArgVal} (hn : ∀ n, a.1 = some n → WireText n)
    (hv : PlainValue (argSeen env a.2)) :
    SeenAs .dynamic (.plain .star none false) (parameterVal env a) (parameterSeen env a) [] := by
  refine seen_obj (ws := [("N".toList, orNull text a.1), ("V".toList, argSeen env a.2)]) ?_ (by simp)
    (by show (["N", "V"].map String.toList).Nodup; decide +kernel) (by simp)
    (.inr rfl) (by simp) (.inl rfl)
  refine .cons (u := []) (us := []) rfl (seen_optText hn (safe_lit (by decide +kernel)) _) (.cons (u := []) (us := []) rfl ?_ .nil)
  rw [argVal_seen]
  exact seen_plain hv (safe_lit (by decide +kernel)) _

theorem map_seen {α : Type} {e : Meta} {f g : α → PyVal} {l : List α} (h : ∀ a ∈ l, SeenAs .dynamic e (f a) (g a) []) :
    ListSeen e (l.map f) (l.map g) [] := by
  induction l with
  | nil => exact .nil
  | cons a l ih => exact .cons (u := []) (us := []) (h a (by simp)) (ih fun a ha => h a (List.mem_cons_of_mem _ ha))

theorem command_seen {env : Nat → PyVal} {c : Command} (h : c.Clean env) {b22 b23 : Bool}
    (h22 : versionEqualOrNewer c.version "2.2".toList = .ok b22) (h23 : versionEqualOrNewer c.version "2.3".toList = .ok b23) :
    ∃ v, c.val env = .ok v ∧ SeenAs .dynamic (.plain .Obj none false) v (commandSeen env b22 b23 c) [] := by
  obtain ⟨hcmd, hnames, hvalues, hmerges⟩ := h
  simp only [List.mem_cons, List.not_mem_nil, or_false, forall_eq_or_imp, forall_eq] at hmerges
  obtain ⟨m1, m2, m3, m4, m5, m6, m7, m8⟩ := hmerges
  obtain ⟨p1, q1, r1⟩ := merges_seen (ms := [("MergeMyResult", c.mergeMyResult), ("MergeToResult", c.mergeToResult),
    ("MergePreviousResults", c.mergePrevious)]) (by
      simp only [List.mem_cons, List.not_mem_nil, or_false, forall_eq_or_imp, forall_eq, m1, m2, m3, true_and]
      decide +kernel) false
  obtain ⟨p2, q2, r2⟩ := merges_seen (ms := if b22 then [("MergeError", c.mergeError), ("MergeWarning", c.mergeWarning),
    ("MergeVerbose", c.mergeVerbose), ("MergeDebug", c.mergeDebug)] else []) (by
      cases b22
      · simp
      · simp only [if_true, List.mem_cons, List.not_mem_nil, or_false, forall_eq_or_imp, forall_eq, m4, m5, m6, m7, true_and]
        decide +kernel) true
  obtain ⟨p3, q3, r3⟩ := merges_seen (ms := if b23 then [("MergeInformation", c.mergeInformation)] else []) (by
      cases b23
      · simp
      · simp only [if_true, List.mem_cons, List.not_mem_nil, or_false, forall_eq, m8, true_and]
        decide +kernel) true
  refine ⟨extendedObj ([(metaOf .S "Cmd", .sc (.str c.cmd)), (metaOf .B "IsScript", optBool c.isScript),
      (metaOf .B "UseLocalScope", optBool c.useLocalScope)] ++ p1 ++
      [(cmdList "Args" .star, .list (c.args.map (parameterVal env)))] ++ p2 ++ p3), ?_, ?_⟩
  · simp only [Command.val, h22, h23, q1, q2, q3, bind, Except.bind, pure, Except.pure]
  · have a1 : PropsSeen [(metaOf .S "Cmd", .sc (.str c.cmd)), (metaOf .B "IsScript", optBool c.isScript),
        (metaOf .B "UseLocalScope", optBool c.useLocalScope)]
        [("Cmd".toList, text c.cmd), ("IsScript".toList, orNull boolean c.isScript),
          ("UseLocalScope".toList, orNull boolean c.useLocalScope)] [] :=
      .cons (u := []) (us := []) rfl (seen_text hcmd (safe_lit (by decide +kernel)) _)
        (.cons (u := []) (us := []) rfl (seen_optBool _ (safe_lit (by decide +kernel)) _)
          (.cons (u := []) (us := []) rfl (seen_optBool _ (safe_lit (by decide +kernel)) _) .nil))
    have a2 : PropsSeen [(cmdList "Args" .star, .list (c.args.map (parameterVal env)))]
        [("Args".toList, .list (c.args.map (parameterSeen env)))] [] :=
      .cons (u := []) (us := []) rfl (seen_list (map_seen fun a ha => parameter_seen (hnames a ha) (hvalues a ha)) (by simp)
        (safe_lit (by decide +kernel))) .nil
    have a := propsSeen_append (propsSeen_append (propsSeen_append (propsSeen_append a1 r1) a2) r2) r3
    have hw : ([("Cmd".toList, text c.cmd), ("IsScript".toList, orNull boolean c.isScript),
          ("UseLocalScope".toList, orNull boolean c.useLocalScope)] ++
        ([("MergeMyResult", c.mergeMyResult), ("MergeToResult", c.mergeToResult),
          ("MergePreviousResults", c.mergePrevious)].map fun m => (m.1.toList, resultSeen m.2)) ++
        [("Args".toList, PyVal.list (c.args.map (parameterSeen env)))] ++
        ((if b22 then [("MergeError", c.mergeError), ("MergeWarning", c.mergeWarning),
          ("MergeVerbose", c.mergeVerbose), ("MergeDebug", c.mergeDebug)] else []).map fun m => (m.1.toList, resultSeen m.2)) ++
        ((if b23 then [("MergeInformation", c.mergeInformation)] else []).map fun m => (m.1.toList, resultSeen m.2))) =
      (([("Cmd", text c.cmd), ("IsScript", orNull boolean c.isScript), ("UseLocalScope", orNull boolean c.useLocalScope),
        ("MergeMyResult", resultSeen c.mergeMyResult), ("MergeToResult", resultSeen c.mergeToResult),
        ("MergePreviousResults", resultSeen c.mergePrevious), ("Args", PyVal.list (c.args.map (parameterSeen env)))] ++
        (if b22 then [("MergeError", resultSeen c.mergeError), ("MergeWarning", resultSeen c.mergeWarning),
          ("MergeVerbose", resultSeen c.mergeVerbose), ("MergeDebug", resultSeen c.mergeDebug)] else []) ++
        (if b23 then [("MergeInformation", resultSeen c.mergeInformation)] else [])).map fun e => (e.1.toList, e.2)) := by
      cases b22 <;> cases b23 <;> rfl
    rw [hw] at a
    refine seen_obj a (by simp) ?_ (by simp) (.inl rfl) (by simp) (.inl rfl)
    cases b22 <;> cases b23 <;>
      simp only [if_true, Bool.false_eq_true, if_false, List.append_nil, List.cons_append, List.nil_append, List.map] <;>
      decide +kernel

theorem commands_seen {env : Nat → PyVal} {cs : List Command} (h : ∀ c ∈ cs, c.Clean env) {b22 b23 : Bool}
    (h22 : ∀ c ∈ cs, versionEqualOrNewer c.version "2.2".toList = .ok b22)
    (h23 : ∀ c ∈ cs, versionEqualOrNewer c.version "2.3".toList = .ok b23) :
    ∃ vs, commandVals env cs = .ok vs ∧ ListSeen (.plain .Obj none false) vs (cs.map (commandSeen env b22 b23)) [] := by
  induction cs with
  | nil => exact ⟨[], rfl, .nil⟩
  | cons c cs ih =>
    obtain ⟨v, h1, h2⟩ := command_seen (h c (by simp)) (h22 c (by simp)) (h23 c (by simp))
    obtain ⟨vs, h3, h4⟩ := ih (fun c hc => h c (List.mem_cons_of_mem _ hc)) (fun c hc => h22 c (List.mem_cons_of_mem _ hc))
      (fun c hc => h23 c (List.mem_cons_of_mem _ hc))
    refine ⟨v :: vs, ?_, .cons (u := []) (us := []) h2 h4⟩
    simp only [commandVals, h1, h3, bind, Except.bind, pure, Except.pure]

theorem extra_seen {env : Nat → PyVal} {ss : List (List Command)} (h : ∀ s ∈ ss, ∀ c ∈ s, c.Clean env) {b22 b23 : Bool}
    (h22 : ∀ s ∈ ss, ∀ c ∈ s, versionEqualOrNewer c.version "2.2".toList = .ok b22)
    (h23 : ∀ s ∈ ss, ∀ c ∈ s, versionEqualOrNewer c.version "2.3".toList = .ok b23) :
    ∃ vs, extraVals env ss = .ok vs ∧ ListSeen (.plain .Obj none false) vs
      (ss.map fun s => record [("Cmds", .list (s.map (commandSeen env b22 b23)))]) [] := by
  induction ss with
  | nil => exact ⟨[], rfl, .nil⟩
  | cons s ss ih =>
    obtain ⟨v, h1, h2⟩ := commands_seen (h s (by simp)) (h22 s (by simp)) (h23 s (by simp))
    obtain ⟨vs, h3, h4⟩ := ih (fun s hs => h s (List.mem_cons_of_mem _ hs)) (fun s hs => h22 s (List.mem_cons_of_mem _ hs))
      (fun s hs => h23 s (List.mem_cons_of_mem _ hs))
    refine ⟨extendedObj [(cmdList "Cmds" .Obj, .list v)] :: vs, ?_, .cons (u := []) (us := []) ?_ h4⟩
    · simp only [extraVals, h1, h3, bind, Except.bind, pure, Except.pure]
    · refine seen_obj (ws := [("Cmds".toList, .list (s.map (commandSeen env b22 b23)))]) ?_ (by simp) (by simp) (by simp) (.inl rfl)
        (by simp) (.inl rfl)
      exact .cons (u := []) (us := []) rfl (seen_list h2 (by simp) (safe_lit (by decide +kernel))) .nil

/-! ### Statements -/

theorem loop_statements (cs : List Command) (c : Command) (cur : List Command) :
    statementLoop cur ((cs.map fun c => ({ body := c, ends := c.endOfStatement } : Cmd Command)) ++ [{ body := c, ends := true }]) =
      (match statements (cs ++ [c]) with
      | [] => []
      | s :: ss => (cur ++ s) :: ss) := by
  induction cs generalizing cur with
  | nil => simp [statementLoop, statements]
  | cons d cs ih =>
    obtain ⟨e, es, he⟩ : ∃ e es, cs ++ [c] = e :: es := by
      cases cs with
      | nil => exact ⟨c, [], rfl⟩
      | cons e es => exact ⟨e, es ++ [c], rfl⟩
    have hs : statements (d :: cs ++ [c]) = if d.endOfStatement then [d] :: statements (cs ++ [c])
        else match statements (cs ++ [c]) with
          | [] => [[d]]
          | s :: ss => (d :: s) :: ss := by
      rw [List.cons_append, he, statements]
      rfl
    rw [hs, List.map_cons, List.cons_append, statementLoop]
    cases hd : d.endOfStatement with
    | true =>
      simp only [if_true, ih]
      cases statements (cs ++ [c]) <;> rfl
    | false =>
      simp only [Bool.false_eq_true, if_false, ih]
      cases h : statements (cs ++ [c]) with
      | nil =>
        exfalso
        revert h
        rw [he]
        cases es with
        | nil => simp [statements]
        | cons f fs =>
          rw [statements]
          split
          · simp
          · split <;> simp
      | cons s ss => simp

theorem statements_ne {cs : List Command} (h : cs ≠ []) : statements cs ≠ [] := by
  match cs with
  | [c] => simp [statements]
  | c :: d :: cs =>
    rw [statements]
    split
    · simp
    · split <;> simp

theorem statements_mem {cs s : List Command} {c : Command} (hs : s ∈ statements cs) (hc : c ∈ s) : c ∈ cs := by
  induction cs using statements.induct generalizing s with
  | case1 => simp [statements] at hs
  | case2 d => simp only [statements, List.mem_cons, List.not_mem_nil, or_false] at hs; subst hs; simpa using hc
  | case3 d e cs hd ih =>
    rw [statements, if_pos hd] at hs
    rcases List.mem_cons.mp hs with rfl | hs
    · simp only [List.mem_cons, List.not_mem_nil, or_false] at hc
      simp [hc]
    · exact List.mem_cons_of_mem _ (ih hs hc)
  | case4 d e cs hd hn ih =>
    exact absurd hn (statements_ne (by simp))
  | case5 d e cs hd t ts ht ih =>
    rw [statements, if_neg hd, ht] at hs
    rcases List.mem_cons.mp hs with rfl | hs
    · rcases List.mem_cons.mp hc with rfl | hc
      · simp
      · exact List.mem_cons_of_mem _ (ih (s := t) (by rw [ht]; simp) hc)
    · exact List.mem_cons_of_mem _ (ih (s := s) (by rw [ht]; simp [hs]) hc)

theorem write_statements {cs : List Command} (h : cs ≠ []) :
    ∃ s ss, statements cs = s :: ss ∧
      Pipeline.write (cs.map fun c => ({ body := c, ends := c.endOfStatement } : Cmd Command)) =
        .ok ⟨if ss = [] then none else some (s :: ss), s⟩ := by
  rcases List.eq_nil_or_concat cs with rfl | ⟨cs, c, rfl⟩
  · exact absurd rfl h
  · rw [List.concat_eq_append] at h ⊢
    have hl := loop_statements cs c []
    cases hs : statements (cs ++ [c]) with
    | nil => exact absurd hs (statements_ne h)
    | cons s ss =>
      rw [hs] at hl
      refine ⟨s, ss, rfl, ?_⟩
      unfold Pipeline.write getStatements
      rw [List.map_append, List.map_cons, List.map_nil, markLast_append]
      simp only [hl, bind, Except.bind, pure, Except.pure, List.nil_append]
      cases ss with
      | nil => simp
      | cons t ss => simp

theorem pipeline_seen {env : Nat → PyVal} {cs : List Command} (hne : cs ≠ []) (h : ∀ c ∈ cs, c.Clean env) {b22 b23 : Bool}
    (h22 : ∀ c ∈ cs, versionEqualOrNewer c.version "2.2".toList = .ok b22)
    (h23 : ∀ c ∈ cs, versionEqualOrNewer c.version "2.3".toList = .ok b23) (nested redirect : Bool) {history : Option PyStr}
    (hh : ∀ s, history = some s → WireText s) {n : Option PyStr} (hn : ∀ x, n = some x → ∀ c ∈ x, XmlSafe c) :
    ∃ v, pipelineVal env nested cs history redirect = .ok v ∧ SeenAs (.plain .star) (.plain .Obj n false) v
      (pipelineSeen env b22 b23 nested cs history redirect) [] := by
  obtain ⟨s, ss, hs, hw⟩ := write_statements hne
  have hmem : ∀ t ∈ s :: ss, ∀ c ∈ t, c ∈ cs := fun t ht c hc => statements_mem (by rw [hs]; exact ht) hc
  obtain ⟨vs, v1, v2⟩ := commands_seen (cs := s) (fun c hc => h c (hmem s (by simp) c hc))
    (fun c hc => h22 c (hmem s (by simp) c hc)) (fun c hc => h23 c (hmem s (by simp) c hc))
  have hextra : ∃ x w, (match (if ss = [] then none else some (s :: ss) : Option (List (List Command))) with
      | none => (.ok (.sc .none) : Except PyErr PyVal)
      | some ss => match extraVals env ss with
        | .error e => .error e
        | .ok vs => .ok (.list vs)) = .ok x ∧ SeenAs (.plain .star) (cmdList "ExtraCmds" .Obj) x w [] ∧
      w = (match statements cs with
        | s :: t :: ss => .list ((s :: t :: ss).map fun s => record [("Cmds", .list (s.map (commandSeen env b22 b23)))])
        | _ => null) := by
    rw [hs]
    cases ss with
    | nil => exact ⟨.sc .none, _, rfl, seen_null (m := cmdList "ExtraCmds" .Obj) rfl rfl (safe_lit (s := "ExtraCmds".toList) (by decide +kernel)) _, rfl⟩
    | cons t ss =>
      obtain ⟨es, e1, e2⟩ := extra_seen (ss := s :: t :: ss) (fun t ht c hc => h c (hmem t ht c hc))
        (fun t ht c hc => h22 c (hmem t ht c hc)) (fun t ht c hc => h23 c (hmem t ht c hc))
      refine ⟨.list es, _, ?_, seen_list e2 (by simp) (safe_lit (by decide +kernel)), rfl⟩
      simp [e1]
  obtain ⟨x, w, x1, x2, x3⟩ := hextra
  refine ⟨extendedObj [(metaOf .B "IsNested", .sc (.bool nested)), (cmdList "ExtraCmds" .Obj, x),
    (cmdList "Cmds" .Obj, .list vs), (metaOf .S "History", optStr history),
    (metaOf .B "RedirectShellErrorOutputPipe", .sc (.bool redirect))], ?_, ?_⟩
  · unfold pipelineVal
    simp only [hw, bind, Except.bind, pure, Except.pure]
    by_cases h0 : ss = []
    · simp only [h0, if_true] at x1 ⊢
      cases x1
      simp only [v1]
    · simp only [h0, if_false] at x1 ⊢
      cases he : extraVals env (s :: ss) with
      | error e => rw [he] at x1; cases x1
      | ok es =>
        rw [he] at x1
        cases x1
        simp only [v1]
  · have hp : pipelineSeen env b22 b23 nested cs history redirect = .generic 0 [] none [] [("IsNested".toList, boolean nested),
        ("ExtraCmds".toList, w), ("Cmds".toList, .list (s.map (commandSeen env b22 b23))), ("History".toList, orNull text history),
        ("RedirectShellErrorOutputPipe".toList, boolean redirect)] [] := by
      rw [x3, pipelineSeen, hs]
      rfl
    rw [hp]
    refine seen_obj (us := []) ?_ (by simp) ?_ (by simp) (.inl rfl) hn (.inr rfl)
    · exact .cons (u := []) (us := []) rfl (seen_bool _ (safe_lit (by decide +kernel)) _)
        (.cons (u := []) (us := []) rfl x2
          (.cons (u := []) (us := []) rfl (seen_list v2 (by simp) (safe_lit (by decide +kernel)))
            (.cons (u := []) (us := []) rfl (seen_optText hh (safe_lit (by decide +kernel)) _)
              (.cons (u := []) (us := []) rfl (seen_bool _ (safe_lit (by decide +kernel)) _) .nil))))
    · show (["IsNested", "ExtraCmds", "Cmds", "History", "RedirectShellErrorOutputPipe"].map String.toList).Nodup
      decide +kernel

/-! ### Host information -/

theorem setting_seen {type : String} (ht : asciiStr type.toList = true) {m : Meta} (hm : m.name = some "V".toList) {v w : PyVal}
    {us : List Nat} (h : SeenAs (.plain .star) m v w us) (hd : (0 :: us).Nodup) :
    SeenAs (.plain .star) (.plain .star (some "Value".toList) false)
      (extendedObj [(metaOf .S "T", .sc (.str type.toList)), (m, v)]) (setting type w) us := by
  have := seen_obj (ps := [(metaOf .S "T", .sc (.str type.toList)), (m, v)])
    (ws := [("T".toList, text type.toList), ("V".toList, w)]) (us := [] ++ (us ++ []))
    (.cons rfl (seen_text (clean_ascii ht) (safe_lit (by decide +kernel)) _) (.cons hm h .nil)) (by simpa using hd)
    (by show (["T", "V"].map String.toList).Nodup; decide +kernel) (by simp) (t := .star) (.inr rfl) (n := some "Value".toList)
    (safe_lit (by decide +kernel)) (o := false) (r := .plain .star) (.inr rfl)
  rw [List.nil_append, List.append_nil] at this
  exact this

theorem plainValue_int (i : Int) : PlainValue (.sc (.int i)) := .sc trivial

theorem pair_seen (a b : String) (ha : asciiStr a.toList = true) (hb : asciiStr b.toList = true) (hab : a.toList ≠ b.toList) (oid : Nat)
    (i j : Int) : SeenAs (.plain .star) (metaOf .ObjDynamic "V")
      (.generic oid [] none [] [(a.toList, .sc (.int i)), (b.toList, .sc (.int j))] []) (record [(a, number i), (b, number j)]) [oid] := by
  refine seen_generic ?_ (by simpa using hab) (by simp) oid (safe_lit (by decide +kernel)) (.inl rfl)
  simp only [List.mem_cons, List.not_mem_nil, or_false, forall_eq_or_imp, forall_eq]
  exact ⟨⟨⟨_, rfl, trivial⟩, asciiStr_safe ha⟩, ⟨_, rfl, trivial⟩, asciiStr_safe hb⟩

/-- The metadata of the values of the host's settings. -/
def valueMeta : Meta := .plain .star (some "Value".toList) false

theorem v_safe : ∀ x, some "V".toList = some x → ∀ c ∈ x, XmlSafe c := safe_lit (by decide +kernel)

theorem color_seen (i : Int) : ∃ v, colorVal (.color (some i)) = .ok v ∧
    SeenAs (.plain .star) valueMeta v (setting "System.ConsoleColor" (number i)) [] :=
  ⟨_, rfl, setting_seen (m := metaOf .I32 "V") (by decide +kernel) rfl (seen_int i v_safe _) (by simp)⟩
theorem coordinates_seen (oid : Nat) (h0 : oid ≠ 0) (p : Int × Int) : ∃ v, coordinatesVal oid (.coordinates p.1 p.2) = .ok v ∧
    SeenAs (.plain .star) valueMeta v (position p) [oid] :=
  ⟨_, rfl, setting_seen (m := metaOf .ObjDynamic "V") (by decide +kernel) rfl
    (pair_seen "x" "y" (by decide +kernel) (by decide +kernel) (by decide +kernel) oid p.1 p.2)
    (by simpa using fun h : 0 = oid => h0 h.symm)⟩
theorem size_seen (oid : Nat) (h0 : oid ≠ 0) (p : Int × Int) : ∃ v, sizeVal oid (.size p.2 p.1) = .ok v ∧
    SeenAs (.plain .star) valueMeta v (extent p) [oid] :=
  ⟨_, rfl, setting_seen (m := metaOf .ObjDynamic "V") (by decide +kernel) rfl
    (pair_seen "height" "width" (by decide +kernel) (by decide +kernel) (by decide +kernel) oid p.2 p.1)
    (by simpa using fun h : 0 = oid => h0 h.symm)⟩
theorem intValue_seen (i : Int) : ∃ v, dictValueVal "System.Int32" (.int i) = .ok v ∧
    SeenAs (.plain .star) valueMeta v (setting "System.Int32" (number i)) [] :=
  ⟨_, rfl, setting_seen (m := metaOf .star "V") (by decide +kernel) rfl (seen_plain (plainValue_int i) v_safe .star) (by simp)⟩
theorem strValue_seen {s : PyStr} (h : WireText s) : ∃ v, dictValueVal "System.String" (.str s) = .ok v ∧
    SeenAs (.plain .star) valueMeta v (setting "System.String" (text s)) [] :=
  ⟨_, rfl, setting_seen (m := metaOf .star "V") (by decide +kernel) rfl (seen_plain (v := .sc (.str s)) (.sc h) v_safe .star) (by simp)⟩

theorem hostData_seen {h : DefaultHost} {f : HostFacts} (hs : Shows h f) {r : RawUi} (hr : h.raw = some r) {s : Screen}
    (hf : f.screen = some s) : ∃ v, hostDataVal r = .ok v ∧
      SeenAs (.plain .star) (.plain .Obj (some "_hostDefaultData".toList) true) v s.seen [1, 2, 3, 4, 5, 6] := by
  obtain ⟨-, hs⟩ := hs
  rw [hr, hf] at hs
  obtain ⟨e0, e1, e2, e3, e4, e5, e6, e7, e8, e9, ht⟩ := hs
  obtain ⟨v0, a0, b0⟩ := color_seen s.foreground
  obtain ⟨v1, a1, b1⟩ := color_seen s.background
  obtain ⟨v2, a2, b2⟩ := coordinates_seen 1 (by decide) s.cursorPosition
  obtain ⟨v3, a3, b3⟩ := coordinates_seen 2 (by decide) s.windowPosition
  obtain ⟨v4, a4, b4⟩ := intValue_seen s.cursorSize
  obtain ⟨v5, a5, b5⟩ := size_seen 3 (by decide) s.bufferSize
  obtain ⟨v6, a6, b6⟩ := size_seen 4 (by decide) s.windowSize
  obtain ⟨v7, a7, b7⟩ := size_seen 5 (by decide) s.maxWindowSize
  obtain ⟨v8, a8, b8⟩ := size_seen 6 (by decide) s.maxPhysicalWindowSize
  obtain ⟨v9, a9, b9⟩ := strValue_seen ht
  have hent : EntriesSeen valueMeta _ _ _ :=
    .cons (i := 0) b0 (.cons (i := 1) b1 (.cons (i := 2) b2 (.cons (i := 3) b3 (.cons (i := 4) b4 (.cons (i := 5) b5
      (.cons (i := 6) b6 (.cons (i := 7) b7 (.cons (i := 8) b8 (.cons (i := 9) b9 .nil)))))))))
  have hdict := seen_dict (vm := valueMeta) rfl hent (by decide) (by
    simp only [List.pairwise_cons, List.mem_cons, List.not_mem_nil, or_false, forall_eq_or_imp, forall_eq, false_imp_iff,
      implies_true, List.Pairwise.nil, and_true]
    decide +kernel) (n := some "data".toList) (safe_lit (by decide +kernel)) (o := false)
  have hdata := seen_obj (.cons (n := "data".toList) rfl hdict .nil) (by decide) (by simp) (by simp) (t := .Obj) (.inl rfl)
    (n := some "_hostDefaultData".toList) (safe_lit (by decide +kernel)) (o := true) (r := .plain .star) (.inr rfl)
  refine ⟨_, ?_, hdata⟩
  simp only [hostDataVal, e0, e1, e2, e3, e4, e5, e6, e7, e8, e9, a0, a1, a2, a3, a4, a5, a6, a7, a8, a9, bind, Except.bind, pure,
    Except.pure]
  rfl

theorem flags_seen (a b c d : Bool) : PropsSeen [(metaOf .B "_isHostNull", .sc (.bool a)), (metaOf .B "_isHostUINull", .sc (.bool b)),
    (metaOf .B "_isHostRawUINull", .sc (.bool c)), (metaOf .B "_useRunspaceHost", .sc (.bool d))]
    [("_isHostNull".toList, boolean a), ("_isHostUINull".toList, boolean b), ("_isHostRawUINull".toList, boolean c),
      ("_useRunspaceHost".toList, boolean d)] [] :=
  .cons (u := []) (us := []) rfl (seen_bool _ (safe_lit (by decide +kernel)) _)
    (.cons (u := []) (us := []) rfl (seen_bool _ (safe_lit (by decide +kernel)) _)
      (.cons (u := []) (us := []) rfl (seen_bool _ (safe_lit (by decide +kernel)) _)
        (.cons (u := []) (us := []) rfl (seen_bool _ (safe_lit (by decide +kernel)) _) .nil)))

theorem withoutData_seen (a b c d : Bool) {n : Option PyStr} (hn : ∀ x, n = some x → ∀ c ∈ x, XmlSafe c) :
    SeenAs (.plain .star) (.plain .Obj n false)
      (extendedObj [(.plain .Obj (some "_hostDefaultData".toList) true, .sc .none), (metaOf .B "_isHostNull", .sc (.bool a)),
        (metaOf .B "_isHostUINull", .sc (.bool b)), (metaOf .B "_isHostRawUINull", .sc (.bool c)),
        (metaOf .B "_useRunspaceHost", .sc (.bool d))])
      (record [("_isHostNull", boolean a), ("_isHostUINull", boolean b), ("_isHostRawUINull", boolean c),
        ("_useRunspaceHost", boolean d)]) [] := by
  refine seen_obj (.skip rfl rfl (flags_seen a b c d)) (by simp) ?_ (by simp) (.inl rfl) hn (.inr rfl)
  show (["_isHostNull", "_isHostUINull", "_isHostRawUINull", "_useRunspaceHost"].map String.toList).Nodup
  decide +kernel

theorem withData_seen {v w : PyVal} (h : SeenAs (.plain .star) (.plain .Obj (some "_hostDefaultData".toList) true) v w [1, 2, 3, 4, 5, 6])
    (a b c d : Bool) {n : Option PyStr} (hn : ∀ x, n = some x → ∀ c ∈ x, XmlSafe c) :
    SeenAs (.plain .star) (.plain .Obj n false)
      (extendedObj [(.plain .Obj (some "_hostDefaultData".toList) true, v), (metaOf .B "_isHostNull", .sc (.bool a)),
        (metaOf .B "_isHostUINull", .sc (.bool b)), (metaOf .B "_isHostRawUINull", .sc (.bool c)),
        (metaOf .B "_useRunspaceHost", .sc (.bool d))])
      (record [("_hostDefaultData", w), ("_isHostNull", boolean a), ("_isHostUINull", boolean b), ("_isHostRawUINull", boolean c),
        ("_useRunspaceHost", boolean d)]) [1, 2, 3, 4, 5, 6] := by
  refine seen_obj (.cons rfl h (flags_seen a b c d)) (by decide) ?_ (by simp) (.inl rfl) hn (.inr rfl)
  simp only [List.map]
  decide +kernel

theorem hostSeen_none : hostSeen none = record [("_isHostNull", boolean true), ("_isHostUINull", boolean true),
    ("_isHostRawUINull", boolean true), ("_useRunspaceHost", boolean true)] := rfl
theorem hostSeen_noUi {f : HostFacts} (h : f.ui = false) : hostSeen (some f) = record [("_isHostNull", boolean false),
    ("_isHostUINull", boolean true), ("_isHostRawUINull", boolean true), ("_useRunspaceHost", boolean false)] := by
  rw [hostSeen, h]
  rfl
theorem hostSeen_noScreen {f : HostFacts} (h : f.ui = true) (hs : f.screen = none) : hostSeen (some f) =
    record [("_isHostNull", boolean false), ("_isHostUINull", boolean false), ("_isHostRawUINull", boolean true),
      ("_useRunspaceHost", boolean false)] := by
  rw [hostSeen, h, hs]
  rfl
theorem hostSeen_screen {f : HostFacts} (h : f.ui = true) {s : Screen} (hs : f.screen = some s) : hostSeen (some f) =
    record [("_hostDefaultData", s.seen), ("_isHostNull", boolean false), ("_isHostUINull", boolean false),
      ("_isHostRawUINull", boolean false), ("_useRunspaceHost", boolean false)] := by
  rw [hostSeen, h, hs]

theorem someHost_seen {h : DefaultHost} {f : HostFacts} (hs : Shows h f) {n : Option PyStr}
    (hn : ∀ x, n = some x → ∀ c ∈ x, XmlSafe c) :
    ∃ v us, hostInfoVal (some h) = .ok v ∧ SeenAs (.plain .star) (.plain .Obj n false) v (hostSeen (some f)) us ∧ (0 :: us).Nodup := by
  have hu : h.ui = f.ui := hs.1
  cases hfu : f.ui with
  | false =>
    have hw := withoutData_seen false true true false hn
    rw [← hostSeen_noUi hfu] at hw
    refine ⟨_, [], ?_, hw, by simp⟩
    simp only [hostInfoVal, isHostRawUiNull, isHostNull, isHostUiNull, hu, hfu, pure, Except.pure, bind, Except.bind,
      Bool.false_eq_true, if_false, if_true, Option.isNone_some, Bool.not_false]
  | true =>
    cases hr : h.raw with
    | none =>
      cases hf : f.screen with
      | some s => have := hs.2; rw [hr, hf] at this; exact this.elim
      | none =>
        have hw := withoutData_seen false false true false hn
        rw [← hostSeen_noScreen hfu hf] at hw
        refine ⟨_, [], ?_, hw, by simp⟩
        simp only [hostInfoVal, isHostRawUiNull, isHostNull, isHostUiNull, hu, hfu, hr, pure, Except.pure, bind, Except.bind,
          if_true, Option.isNone_some, Option.isNone_none, Bool.not_true]
    | some r =>
      cases hf : f.screen with
      | none => have := hs.2; rw [hr, hf] at this; exact this.elim
      | some s =>
        obtain ⟨v, h1, h2⟩ := hostData_seen hs hr hf
        have hw := withData_seen h2 false false false false hn
        rw [← hostSeen_screen hfu hf] at hw
        refine ⟨_, [1, 2, 3, 4, 5, 6], ?_, hw, by decide⟩
        simp only [hostInfoVal, isHostRawUiNull, isHostNull, isHostUiNull, hu, hfu, hr, h1, pure, Except.pure, bind, Except.bind,
          if_true, Bool.false_eq_true, if_false, Option.isNone_some, Bool.not_true, Option.bind]

theorem host_seen {host : Option DefaultHost} {facts : Option HostFacts} (h : ShowsHost host facts) {n : Option PyStr}
    (hn : ∀ x, n = some x → ∀ c ∈ x, XmlSafe c) :
    ∃ v us, hostInfoVal host = .ok v ∧ SeenAs (.plain .star) (.plain .Obj n false) v (hostSeen facts) us ∧ (0 :: us).Nodup := by
  cases host with
  | none =>
    cases facts with
    | some f => exact absurd h id
    | none =>
      have hw := withoutData_seen true true true true hn
      rw [← hostSeen_none] at hw
      exact ⟨_, [], rfl, hw, by simp⟩
  | some d =>
    cases facts with
    | none => exact absurd h id
    | some f => exact someHost_seen h hn

end Verif
