import Verif.Model.CreatePipeline
import Verif.Spec.Seen
import Verif.Lemmas.ClassRound
/-
Writing objects without type names, enumerations, lists and dictionaries of them, and reading them without knowing their class.
-/
namespace Verif

def enumTypes (t : String) : List PyStr :=
  [t.toList, "System.Enum".toList, "System.ValueType".toList, "System.Object".toList]

/-- The type names in the messages. -/
def wireTypes : List (List PyStr) := [listTypes, dictTypes, queueTypes, stackTypes, cmdTypes, applicationTypes,
  enumTypes "System.Management.Automation.Runspaces.PipelineResultTypes",
  enumTypes "System.Management.Automation.Runspaces.PSThreadOptions",
  enumTypes "System.Management.Automation.Runspaces.ApartmentState",
  enumTypes "System.Management.Automation.Runspaces.RemoteStreamOptions",
  enumTypes "System.Management.Automation.Remoting.RemoteHostMethodId", enumTypes "System.ConsoleColor",
  ["System.Management.Automation.Host.Coordinates".toList, "System.ValueType".toList, "System.Object".toList],
  ["System.Management.Automation.Host.Size".toList, "System.ValueType".toList, "System.Object".toList]]
def OnWire (ts : List PyStr) : Prop := ts ∈ wireTypes

theorem wire_keys : (wireTypes.map headKey).Nodup := by decide +kernel
theorem wire_ascii : wireTypes.all (fun ts => !ts.isEmpty && ts.all asciiStr) = true := by decide +kernel

theorem onWire_ok : OkTypes OnWire := by
  constructor
  · intro a b ha hb h
    refine eq_of_key (l := wireTypes) (key := headKey) wire_keys ha hb ?_
    unfold headKey
    rw [List.headD_eq_head?_getD, List.headD_eq_head?_getD, h]
  · intro a ha
    have := List.all_eq_true.mp wire_ascii a ha
    simp only [Bool.and_eq_true, Bool.not_eq_true', List.isEmpty_eq_false_iff] at this
    exact ⟨this.1, fun t ht => asciiStr_safe (List.all_eq_true.mp this.2 t ht)⟩

theorem onWire_container (t : List PyStr) (h : okContainer t) : OnWire t := by
  rcases h with rfl | rfl | rfl | rfl <;> simp [OnWire, wireTypes]

/-- None of the objects has been written. -/
def Unwritten (st : SerState) (us : List Nat) : Prop := ∀ o ∈ us, o ∉ st.objs.map Prod.snd

/-- What is to be shown for a value: it is written, and read as another one. `us` are the generic objects in it. -/
def SeenAs (r : DMeta) (m : Meta) (v w : PyVal) (us : List Nat) : Prop :=
  (∀ o, v.oid? = some o → o ∈ 0 :: us) ∧
  ∀ st d, TnAgree OnWire st d → Unwritten st (0 :: us) →
    ∃ x st', ser m v st = .ok (some x, st') ∧ x.name = m.name ∧ x.Sendable ∧
      (∀ o ∈ st'.objs.map Prod.snd, o ∈ st.objs.map Prod.snd ∨ o ∈ us) ∧
      ∃ d', deser r x.reparse d = .ok (w, d') ∧ TnAgree OnWire st' d'

theorem fresh_ref {st : SerState} {v : PyVal} {us : List Nat} (hf : Unwritten st us) (ho : ∀ o, v.oid? = some o → o ∈ us) :
    refFor st v = none := by
  unfold refFor
  cases h : v.oid? with
  | none => rfl
  | some o =>
    have := hf o (ho o h)
    simp only [findRef, Option.map_eq_none_iff, List.find?_eq_none, beq_iff_eq]
    intro e he h'
    exact this (List.mem_map.mpr ⟨e, he, h'⟩)

theorem fresh_after {st st' : SerState} {u us : List Nat} (hf : Unwritten st (0 :: (u ++ us)))
    (h : ∀ o ∈ st'.objs.map Prod.snd, o ∈ st.objs.map Prod.snd ∨ o ∈ u) (hd : (0 :: (u ++ us)).Nodup) : Unwritten st' (0 :: us) := by
  intro o ho hm
  have ho' : o ∈ 0 :: (u ++ us) := by
    rcases List.mem_cons.mp ho with h | h
    · simp [h]
    · simp [h]
  rcases h o hm with h | h
  · exact hf o ho' h
  · rw [List.nodup_cons, List.nodup_append] at hd
    rcases List.mem_cons.mp ho with rfl | ho
    · exact hd.1 (List.mem_append_left _ h)
    · exact hd.2.2.2 o h o ho rfl

theorem fresh_left {st : SerState} {u us : List Nat} (hf : Unwritten st (0 :: (u ++ us))) : Unwritten st (0 :: u) := by
  intro o ho
  refine hf o ?_
  rcases List.mem_cons.mp ho with h | h
  · simp [h]
  · simp [h]

/-! ### Values -/

theorem seen_plain {v : PyVal} (h : PlainValue v) {n : Option PyStr} (hn : ∀ x, n = some x → ∀ c ∈ x, XmlSafe c) (t : Tag) :
    SeenAs (.plain t) (.plain .star n false) v v [] := by
  refine ⟨fun o ho => ?_, fun st d hi _ => ?_⟩
  · cases h <;> cases ho
  · obtain ⟨x, st', h1, h2, h3, h4, d', h5, h6⟩ := roundTrips_of_plain onWire_ok onWire_container h n hn st d hi
    exact ⟨x, st', h1 false (.inr rfl), h2, h3, fun o ho => .inl (h4 ▸ ho), d', h5 t, h6⟩

theorem seen_tag {t : Tag} {s : Scalar} (h : TagFits t s) {n : Option PyStr} (hn : ∀ x, n = some x → ∀ c ∈ x, XmlSafe c)
    (r : DMeta) : SeenAs r (.plain t n false) (.sc s) (.sc s) [] := by
  refine ⟨fun o ho => (by cases ho), fun st d hi _ => ?_⟩
  obtain ⟨-, tx, h1, h2, h3⟩ := tag_round h n hn false st
  exact ⟨_, st, h1, rfl, h2, fun o ho => .inl ho, d, h3 r d, hi⟩

theorem seen_null {m : Meta} (hp : packable m.tag = true) (ho : m.optional = false)
    (hn : ∀ x, m.name = some x → ∀ c ∈ x, XmlSafe c) (r : DMeta) : SeenAs r m (.sc .none) (.sc .none) [] := by
  refine ⟨fun o ho => (by cases ho), fun st d hi _ => ?_⟩
  refine ⟨.node .Nil none m.name none [], st, ?_, rfl, sendable_nil hn, fun o ho => .inl ho, d, nil_round _ _ _, hi⟩
  have hs : m.settle (.sc .none) = m := by
    unfold Meta.settle
    rw [if_neg]
    intro h
    rw [h] at hp
    simp [packable] at hp
  simp [ser, serScalar, hs, hp, ho, bind, Except.bind, pure, Except.pure]

theorem deser_dyn {r : DMeta} (hr : r = .dynamic ∨ r = .plain .star) {rid : PyStr} {n : Option PyStr} {es : List Xml} {d d' : DeState}
    {ws : List (PyStr × PyVal)} (h : deProps [] es d = .ok (ws, d')) :
    deser r (.node .Obj (some rid) n none [.node .MS none none none es]) d =
      .ok (.generic 0 [] none [] ws [], { d' with objs := assign d'.objs rid (.generic 0 [] none [] ws []) }) := by
  have hc : chooseMeta (r.settle .Obj) [] = some .dynamic := by rcases hr with rfl | rfl <;> decide +kernel
  rw [deser, getTypes_rest _ _ (by simp [tag_node])]
  simp only [bind, Except.bind, unpackPrim, hc, deDyn, reduceCtorEq, if_false, if_true, h, pure, Except.pure, DynObj.val]

/-! ### Members -/

/-- The members that are seen for the properties. -/
inductive PropsSeen : List (Meta × PyVal) → List (PyStr × PyVal) → List Nat → Prop
  | nil : PropsSeen [] [] []
  | skip {m : Meta} {ps : List (Meta × PyVal)} {ws : List (PyStr × PyVal)} {us : List Nat} (hp : packable m.tag = true)
      (ho : m.optional = true) (h : PropsSeen ps ws us) : PropsSeen ((m, .sc .none) :: ps) ws us
  | cons {m : Meta} {n : PyStr} {v w : PyVal} {ps : List (Meta × PyVal)} {ws : List (PyStr × PyVal)} {u us : List Nat}
      (hn : m.name = some n) (h : SeenAs (.plain .star) m v w u) (t : PropsSeen ps ws us) :
      PropsSeen ((m, v) :: ps) ((n, w) :: ws) (u ++ us)

theorem setNamed_new {l : List (PyStr × PyVal)} {k : PyStr} {v : PyVal} (h : k ∉ l.map Prod.fst) : setNamed l k v = l ++ [(k, v)] := by
  unfold setNamed
  rw [if_neg]
  simp only [List.any_eq_true, beq_iff_eq, not_exists, not_and]
  intro e he h'
  exact h (List.mem_map.mpr ⟨e, he, h'⟩)

theorem deProps_cons {l : List (PyStr × PyVal)} {x : Xml} {xs : List Xml} {n : PyStr} {d d1 : DeState} {w : PyVal}
    (hn : x.name = some n) (h : deser (.plain .star) x d = .ok (w, d1)) : deProps l (x :: xs) d = deProps (setNamed l n w) xs d1 := by
  cases x with | node t r nm tx ks =>
  have : nm = some n := hn
  subst this
  simp only [deProps, h, bind, Except.bind]

theorem props_seen {ps : List (Meta × PyVal)} {ws : List (PyStr × PyVal)} {us : List Nat} (h : PropsSeen ps ws us)
    (hd : (0 :: us).Nodup) {st : SerState} {d : DeState} (hi : TnAgree OnWire st d) (hf : Unwritten st (0 :: us)) :
    ∃ ks st', serProps ps st = .ok (ks, st') ∧ (∀ k ∈ ks, k.Sendable) ∧
      (∀ o ∈ st'.objs.map Prod.snd, o ∈ st.objs.map Prod.snd ∨ o ∈ us) ∧
      ∃ d', (∀ acc : List (PyStr × PyVal), ((acc ++ ws).map Prod.fst).Nodup → deProps acc (reparseAll ks) d = .ok (acc ++ ws, d')) ∧
        TnAgree OnWire st' d' := by
  induction h generalizing st d with
  | nil => exact ⟨[], st, rfl, by simp, fun o ho => .inl ho, d, fun acc _ => by simp [reparseAll, deProps], hi⟩
  | skip hp ho t ih =>
    rename_i m ps ws us
    obtain ⟨ks, st', h1, h2, h3, d', h4, h5⟩ := ih hd hi hf
    refine ⟨ks, st', ?_, h2, h3, d', h4, h5⟩
    have hs : m.settle (.sc .none) = m := by
      unfold Meta.settle
      rw [if_neg]
      intro h
      rw [h] at hp
      simp [packable] at hp
    simp [serProps, refFor, PyVal.oid?, ser, serScalar, hs, hp, ho, bind, Except.bind, pure, Except.pure, h1, kidsOf]
  | cons hn h t ih =>
    rename_i m n v w ps ws u us
    obtain ⟨x, st1, h1, h2, h3, h4, d1, h5, h6⟩ := h.2 st d hi (fresh_left hf)
    have hd' : (0 :: us).Nodup := by
      rw [List.nodup_cons, List.nodup_append] at hd
      rw [List.nodup_cons]
      exact ⟨fun h => hd.1 (List.mem_append_right _ h), hd.2.2.1⟩
    obtain ⟨ks, st2, k1, k2, k3, d2, k4, k5⟩ := ih hd' h6 (fresh_after hf h4 hd)
    refine ⟨x :: ks, st2, ?_, ?_, ?_, d2, fun acc hacc => ?_, k5⟩
    · simp only [serProps, fresh_ref (fresh_left hf) h.1, h1, k1, bind, Except.bind, pure, Except.pure, kidsOf,
        List.cons_append, List.nil_append]
    · intro k hk
      rcases List.mem_cons.mp hk with rfl | hk
      · exact h3
      · exact k2 k hk
    · intro o ho
      rcases k3 o ho with h | h
      · rcases h4 o h with h | h
        · exact .inl h
        · exact .inr (List.mem_append_left _ h)
      · exact .inr (List.mem_append_right _ h)
    · have hnew : n ∉ acc.map Prod.fst := by
        intro hm
        rw [List.map_append, List.nodup_append] at hacc
        exact hacc.2.2 n hm n (by simp) rfl
      rw [reparseAll, deProps_cons (by rw [name_reparse, h2, hn]) h5, setNamed_new hnew, k4 _ (by simpa using hacc)]
      simp

theorem sendable_dyn {rid : PyStr} {n : Option PyStr} {es : List Xml} (h0 : ∀ c ∈ rid, XmlSafe c)
    (hn : ∀ x, n = some x → ∀ c ∈ x, XmlSafe c) (h : ∀ k ∈ es, k.Sendable) :
    (Xml.node .Obj (some rid) n none [.node .MS none none none es]).Sendable := by
  rw [Xml.Sendable]
  refine ⟨fun s hs => ?_, hn, by simp, fun k hk => ?_⟩
  · simp only [Option.some.injEq] at hs
    exact hs ▸ h0
  · simp only [List.mem_cons, List.not_mem_nil, or_false] at hk
    subst hk
    rw [Xml.Sendable]
    exact ⟨by simp, by simp, by simp, h⟩

/-- An object with members. -/
theorem seen_obj {ps : List (Meta × PyVal)} {ws : List (PyStr × PyVal)} {us : List Nat} (h : PropsSeen ps ws us)
    (hd : (0 :: us).Nodup) (hw : (ws.map Prod.fst).Nodup) (hp : ps ≠ []) {t : Tag} (ht : t = .Obj ∨ t = .star) {n : Option PyStr}
    (hn : ∀ x, n = some x → ∀ c ∈ x, XmlSafe c) {o : Bool} {r : DMeta} (hr : r = .dynamic ∨ r = .plain .star) :
    SeenAs r (.plain t n o) (extendedObj ps) (.generic 0 [] none [] ws []) us := by
  refine ⟨fun o ho => by cases ho; simp, fun st d hi hf => ?_⟩
  have hi' : TnAgree OnWire (newObjId st).2 d := hi
  obtain ⟨ks, st', h1, h2, h3, d', h4, h5⟩ := props_seen h hd hi' (st := (newObjId st).2) hf
  refine ⟨.node .Obj (some (pyStrNat st.objId)) n none [.node .MS none none none ks], st', ?_, rfl,
    sendable_dyn (safe_pyStrNat _) hn h2, h3, _, deser_dyn hr (h4 [] (by simpa using hw)), h5⟩
  have hset : ((Meta.plain t n o).settle (extendedObj ps)) = .plain .Obj n o := by
    rcases ht with rfl | rfl <;> rfl
  simp only [extendedObj, newObjId] at hset h1 ⊢
  simp only [ser, hset, Meta.tag, Meta.name, newObjId, if_true, createTnOpt, serProps, h1, bind, Except.bind, pure, Except.pure,
    setName_obj, toStringKids, if_neg hp, List.nil_append, List.append_nil]

/-! ### Generic objects with scalars -/

theorem named_seen {ext : List (PyStr × PyVal)} (he : ∀ e ∈ ext, (∃ s, e.2 = .sc s ∧ PlainScalar s) ∧ ∀ c ∈ e.1, XmlSafe c) (st : SerState) :
    ∃ ks, serNamed ext st = .ok (ks, st) ∧ (∀ k ∈ ks, k.Sendable) ∧
      ∀ (d : DeState) (acc : List (PyStr × PyVal)), ((acc ++ ext).map Prod.fst).Nodup →
        deProps acc (reparseAll ks) d = .ok (acc ++ ext, d) := by
  induction ext with
  | nil => exact ⟨[], rfl, by simp, fun d acc _ => by simp [reparseAll, deProps]⟩
  | cons e ext ih =>
    obtain ⟨k, v⟩ := e
    obtain ⟨⟨s, hv, hs⟩, hk⟩ := he (k, v) (by simp)
    simp only at hv
    subst hv
    obtain ⟨y, hy, hyn, hsy, -, hd⟩ := scalar_round hs (some k) (by intro n hn; cases hn; exact hk) st
    obtain ⟨ks, h1, h2, h3⟩ := ih fun e h => he e (List.mem_cons_of_mem _ h)
    refine ⟨y :: ks, ?_, ?_, fun d acc hacc => ?_⟩
    · have : ser (.plain .star (some k) false) (.sc s) st = .ok (some y, st) := hy
      simp only [serNamed, refFor, PyVal.oid?, this, h1, bind, Except.bind, pure, Except.pure, kidsOf, List.cons_append, List.nil_append]
    · intro x hx
      rcases List.mem_cons.mp hx with rfl | hx
      · exact hsy
      · exact h2 x hx
    · have hnew : k ∉ acc.map Prod.fst := by
        intro hm
        rw [List.map_append, List.nodup_append] at hacc
        exact hacc.2.2 k hm k (by simp) rfl
      rw [reparseAll, deProps_cons (by rw [name_reparse]; exact hyn) (hd _ _), setNamed_new hnew, h3 _ _ (by simpa using hacc)]
      simp

theorem seen_generic {ext : List (PyStr × PyVal)} (he : ∀ e ∈ ext, (∃ s, e.2 = .sc s ∧ PlainScalar s) ∧ ∀ c ∈ e.1, XmlSafe c)
    (hw : (ext.map Prod.fst).Nodup) (hne : ext ≠ []) (oid : Nat) {n : Option PyStr} (hn : ∀ x, n = some x → ∀ c ∈ x, XmlSafe c)
    {t : Tag} (ht : t = .ObjDynamic ∨ t = .star) {o : Bool} :
    SeenAs (.plain .star) (.plain t n o) (.generic oid [] none [] ext []) (.generic 0 [] none [] ext []) [oid] := by
  refine ⟨fun o ho => by cases ho; simp, fun st d hi hf => ?_⟩
  let st1 : SerState := { (newObjId st).2 with objs := st.objs ++ [(pyStrNat st.objId, oid)] }
  obtain ⟨ks, h1, h2, h3⟩ := named_seen he st1
  have hi' : TnAgree OnWire st1 d := hi
  refine ⟨.node .Obj (some (pyStrNat st.objId)) n none [.node .MS none none none ks], st1, ?_, rfl,
    sendable_dyn (safe_pyStrNat _) hn h2, ?_, _, deser_dyn (.inr rfl) (h3 d [] (by simpa using hw)), hi'⟩
  · have hset : ((Meta.plain t n o).settle (.generic oid [] none [] ext [])) = .plain .ObjDynamic n o := by
      rcases ht with rfl | rfl <;> rfl
    simp only [st1, newObjId] at h1 ⊢
    simp only [ser, hset, Meta.tag, Meta.name, newObjId, if_true, createTnOpt, serSets, serNamed, h1, bind, Except.bind, pure,
      Except.pure, setName_obj, toStringKids, if_neg hne, List.nil_append, List.append_nil]
  · intro o ho
    simpa [st1, newObjId] using ho

/-! ### Enumerations -/

theorem seen_enum {cls : PyStr} {c : ClassDef} (hc : findClass cls = some c)
    (hs : c.sets = [⟨"value".toList, .plain .I32 none false, .plain .I32⟩]) (ha : c.adapted = []) (he : c.extended = [])
    (hro : c.readOnly = []) (hm : metaForTypes c.types = some (.cls cls)) (hw : OnWire c.types) {tx : PyStr}
    (ht : asciiStr tx = true) (i : Int) {n : Option PyStr} (hn : ∀ x, n = some x → ∀ c ∈ x, XmlSafe c) {o : Bool} :
    SeenAs (.plain .star) (.plain .Obj n o) (.typed 0 c.types (some tx) [(.plain .I32 none false, .sc (.int i))] [] [])
      (.typed 0 c.types (objText c (some tx) [(.plain .I32 none false, .sc (.int i))])
        [(.plain .I32 none false, .sc (.int i))] [] []) [] := by
  refine ⟨fun o ho => by cases ho; simp, fun st d hi hf => ?_⟩
  have hi' : TnAgree OnWire (newObjId st).2 d := hi
  obtain ⟨tn, st1, t1, t2, t3, t4, d1, t5, hi1, -⟩ := tn_round' onWire_ok hw hi'
  obtain ⟨-, itx, i1, i2, i3⟩ := tag_round (t := .I32) (s := .int i) (by simp [TagFits]) none (by simp) false st1
  have hne : c.types ≠ [] := (onWire_ok.2 _ hw).1
  let K : List Xml := tn :: toStringKids (some tx) ++ [.node .I32 none none (some itx) []]
  refine ⟨.node .Obj (some (pyStrNat st.objId)) n none K, st1, ?_, rfl, ?_, ?_, ?_⟩
  · have t1' : createTnOpt c.types { st with objId := st.objId + 1 } = .ok ([tn], st1) := by
      cases h : c.types with
      | nil => exact absurd h hne
      | cons a b =>
        rw [h] at t1
        simp only [newObjId] at t1
        simp only [createTnOpt, t1, bind, Except.bind, pure, Except.pure]
    have hr : refFor st1 (.sc (.int i)) = none := rfl
    have hsp : serProps [(.plain .I32 none false, .sc (.int i))] st1 = .ok ([.node .I32 none none (some itx) []], st1) := by
      rw [serProps]
      simp only [hr]
      rw [i1]
      rfl
    have hnil : ∀ s, serProps [] s = .ok ([], s) := fun _ => rfl
    have hset : ∀ v, (Meta.plain .Obj n o).settle v = .plain .Obj n o := fun _ => rfl
    rw [ser]
    simp only [hset, Meta.tag, Meta.name, newObjId, if_true, t1', hsp, hnil, bind, Except.bind, pure, Except.pure, setName_obj, K,
      List.append_nil, List.cons_append, List.nil_append]
  · rw [Xml.Sendable]
    refine ⟨?_, hn, by simp, ?_⟩
    · intro s hs
      simp only [Option.some.injEq] at hs
      exact hs ▸ safe_pyStrNat _
    · intro k hk
      simp only [K, List.cons_append, List.mem_cons, List.mem_append, List.not_mem_nil, or_false] at hk
      rcases hk with rfl | hk | rfl
      · exact t2
      · exact toString_sendable (fun s hs => by cases hs; exact ht) k hk
      · exact i2
  · intro o ho
    exact .inl (by rw [t4] at ho; exact ho)
  · have hk : reparseAll K = tn.reparse :: ((toStringKids (some tx)).map Xml.reparse ++
        [(Xml.node .I32 none none (some itx) []).reparse]) := by
      simp [K, reparseAll_eq_map]
    have hts : ∀ y ∈ (toStringKids (some tx)).map Xml.reparse ++ [(Xml.node .I32 none none (some itx) []).reparse],
        y.tag = .ToString ∨ y.tag = .I32 := by
      intro y hy
      rcases List.mem_append.mp hy with h | h
      · exact .inl (map_tags (p := fun t => t = .ToString) (toString_tags (some tx)) y h)
      · simp only [List.mem_cons, List.not_mem_nil, or_false] at h
        subst h
        exact .inr (by rw [tag_reparse]; rfl)
    have hget : getTypes (reparseAll K) d = .ok (c.types, d1) := by
      rw [hk]
      apply t5
      intro y hy
      rcases hts y hy with h | h <;> rw [h] <;> decide
    have htn : tn.reparse.tag ≠ .ToString ∧ tn.reparse.tag ≠ .I32 := by
      rw [tag_reparse]; rcases t3 with h | h <;> rw [h] <;> decide
    have htext : readText (reparseAll K) = .ok (some tx) := by
      have := read_text (text := some tx) (fun s hs => by cases hs; exact ht) (P := [tn.reparse])
        (R := [(Xml.node .I32 none none (some itx) []).reparse]) (by simpa using htn.1) (by simp [tag_reparse, tag_node])
      rw [hk]
      simpa using this
    have hfind : findField none .I32 none (reparseAll K) = some (Xml.node .I32 none none (some itx) []).reparse := by
      rw [hk]
      unfold findField
      have h1 : fieldMatch .I32 none tn.reparse = false := by
        unfold fieldMatch
        simp [htn.2]
      have h2 : ((toStringKids (some tx)).map Xml.reparse).find? (fieldMatch .I32 none) = none := by
        rw [List.find?_eq_none]
        intro y hy
        have := map_tags (p := fun t => t = .ToString) (toString_tags (some tx)) y hy
        unfold fieldMatch
        simp [this]
      have h3 : fieldMatch .I32 none (Xml.node .I32 none none (some itx) []).reparse = true := rfl
      simp [List.find?_append, h1, h2, h3]
    have hrd : readProps c (fun f t st => deLook none t f.write.name f.read (reparseAll K) st)
        (fun f t => findField none t f.write.name (reparseAll K)) c.sets d1 =
        .ok ([(.plain .I32 none false, .sc (.int i))], d1) := by
      rw [hs]
      have hl : ∀ st, deLook none .I32 none (.plain .I32) (reparseAll K) st = some (.ok (.sc (.int i), st)) := by
        intro st
        rw [deLook_eq, hfind]
        simp [i3]
      simp only [readProps, readProp, Meta.tag, Meta.name, fieldTags, List.mem_cons, List.not_mem_nil, or_false, reduceCtorEq,
        if_false, List.find?_cons, hl, hfind, Option.isSome_some, hro, bind, Except.bind, Meta.readWith]
    have hcm : chooseMeta ((DMeta.plain .star).settle .Obj) c.types = some (.cls cls) := by
      simp only [DMeta.settle, if_true, chooseMeta, hne, and_false, if_false, hm]
    refine ⟨{ d1 with objs := assign d1.objs (pyStrNat st.objId) (.typed 0 c.types (objText c (some tx)
        [(.plain .I32 none false, .sc (.int i))]) [(.plain .I32 none false, .sc (.int i))] [] []) }, ?_, hi1⟩
    · rw [show (Xml.node .Obj (some (pyStrNat st.objId)) n none K).reparse =
        .node .Obj (some (pyStrNat st.objId)) n none (reparseAll K) from rfl, deser]
      simp only [hget, bind, Except.bind, unpackPrim, hcm, hc, htext, hrd, ha, he, readProps, if_true, pure, Except.pure]

/-! ### Lists and dictionaries -/

inductive ListSeen (e : Meta) : List PyVal → List PyVal → List Nat → Prop
  | nil : ListSeen e [] [] []
  | cons {v w : PyVal} {vs ws : List PyVal} {u us : List Nat} (h : SeenAs .dynamic e v w u) (t : ListSeen e vs ws us) :
      ListSeen e (v :: vs) (w :: ws) (u ++ us)

theorem nodup_right {u us : List Nat} (hd : (0 :: (u ++ us)).Nodup) : (0 :: us).Nodup := by
  rw [List.nodup_cons, List.nodup_append] at hd
  rw [List.nodup_cons]
  exact ⟨fun h => hd.1 (List.mem_append_right _ h), hd.2.2.1⟩

theorem objs_trans {a b c u us : List Nat} (h1 : ∀ o ∈ b, o ∈ a ∨ o ∈ u) (h2 : ∀ o ∈ c, o ∈ b ∨ o ∈ us) :
    ∀ o ∈ c, o ∈ a ∨ o ∈ u ++ us := by
  intro o ho
  rcases h2 o ho with h | h
  · rcases h1 o h with h | h
    · exact .inl h
    · exact .inr (List.mem_append_left _ h)
  · exact .inr (List.mem_append_right _ h)

theorem list_seen {e : Meta} {vs ws : List PyVal} {us : List Nat} (h : ListSeen e vs ws us) (hd : (0 :: us).Nodup)
    {st : SerState} {d : DeState} (hi : TnAgree OnWire st d) (hf : Unwritten st (0 :: us)) :
    ∃ ks st', serList e vs st = .ok (ks, st') ∧ (∀ k ∈ ks, k.Sendable) ∧
      (∀ o ∈ st'.objs.map Prod.snd, o ∈ st.objs.map Prod.snd ∨ o ∈ us) ∧
      ∃ d', deAll true .dynamic (reparseAll ks) d = .ok (ws, d') ∧ TnAgree OnWire st' d' := by
  induction h generalizing st d with
  | nil => exact ⟨[], st, rfl, by simp, fun o ho => .inl ho, d, rfl, hi⟩
  | cons h t ih =>
    obtain ⟨x, st1, h1, h2, h3, h4, d1, h5, h6⟩ := h.2 st d hi (fresh_left hf)
    obtain ⟨ks, st2, k1, k2, k3, d2, k4, k5⟩ := ih (nodup_right hd) h6 (fresh_after hf h4 hd)
    refine ⟨x :: ks, st2, ?_, ?_, objs_trans h4 k3, d2, ?_, k5⟩
    · simp only [serList, h1, k1, bind, Except.bind, pure, Except.pure, kidsOf, List.cons_append, List.nil_append]
    · intro k hk
      rcases List.mem_cons.mp hk with rfl | hk
      · exact h3
      · exact k2 k hk
    · have : DMeta.dynamic.settle x.reparse.tag = .dynamic := by simp [DMeta.settle]
      simp only [reparseAll, deAll, h5, this, k4, bind, Except.bind, pure, Except.pure, if_true]

theorem choose_cmds : chooseMeta ((DMeta.plain .star).settle .Obj) cmdTypes = some (.list .dynamic) := by decide +kernel

/-- A list of objects. -/
theorem seen_list {e : Meta} {vs ws : List PyVal} {us : List Nat} (h : ListSeen e vs ws us) (hd : (0 :: us).Nodup)
    {n : Option PyStr} (hn : ∀ x, n = some x → ∀ c ∈ x, XmlSafe c) {o : Bool} :
    SeenAs (.plain .star) (.list .lst .LST n o e cmdTypes) (.list vs) (.list ws) us := by
  refine ⟨fun o ho => (by cases ho), fun st d hi hf => ?_⟩
  have hi' : TnAgree OnWire (newObjId st).2 d := hi
  obtain ⟨tn, st1, htn, hts, htag, ho1, d1, hg, hi1, -⟩ :=
    tn_round' onWire_ok (types := cmdTypes) (by simp [OnWire, wireTypes]) hi'
  have hf1 : Unwritten st1 (0 :: us) := by
    intro o ho
    rw [ho1]
    exact hf o ho
  obtain ⟨ks, st2, hks, hsend, ho2, d2, hde, hi2⟩ := list_seen h hd hi1 hf1
  refine ⟨.node .Obj (some (pyStrNat st.objId)) n none [tn, .node .LST none none none ks], st2, ?_, rfl,
    sendable_obj (safe_pyStrNat _) hn hts hsend, ?_, { d2 with objs := assign d2.objs (pyStrNat st.objId) (.list ws) }, ?_, hi2⟩
  · simp only [ser, Meta.settle, Meta.tag, Meta.name, listTypesOf, listElem, newObjId,
      true_or, if_true, reduceCtorEq, if_false] at htn ⊢
    simp only [htn, hks, bind, Except.bind, pure, Except.pure, setName_obj]
  · intro o ho
    rw [ho1] at ho2
    exact ho2 o ho
  · have hne : tn.reparse.tag ≠ .LST := by
      rw [tag_reparse]; rcases htag with h | h <;> rw [h] <;> decide
    simp only [Xml.reparse, reparseAll, deser]
    rw [hg _ (by simp [tag_node])]
    simp only [bind, Except.bind, unpackPrim, choose_cmds, deFind_second hne, hde, if_true, pure, Except.pure]

/-- Entries of a dictionary with integer keys. -/
inductive EntriesSeen (vm : Meta) : List (PyVal × PyVal) → List (PyVal × PyVal) → List Nat → Prop
  | nil : EntriesSeen vm [] [] []
  | cons {i : Int} {v w : PyVal} {vs ws : List (PyVal × PyVal)} {u us : List Nat} (h : SeenAs (.plain .star) vm v w u)
      (t : EntriesSeen vm vs ws us) : EntriesSeen vm ((.sc (.int i), v) :: vs) ((.sc (.int i), w) :: ws) (u ++ us)

theorem entries_seen {vm : Meta} (hvm : vm.name = some "Value".toList) {vs ws : List (PyVal × PyVal)} {us : List Nat}
    (h : EntriesSeen vm vs ws us) (hd : (0 :: us).Nodup) {st : SerState} {d : DeState} (hi : TnAgree OnWire st d)
    (hf : Unwritten st (0 :: us)) :
    ∃ ks st', serEntries (.plain .I32 (some "Key".toList) false) vm vs st = .ok (ks, st') ∧ (∀ k ∈ ks, k.Sendable) ∧
      (∀ o ∈ st'.objs.map Prod.snd, o ∈ st.objs.map Prod.snd ∨ o ∈ us) ∧
      ∃ d', (∀ acc, (acc ++ ws).Pairwise (fun a b => keyEq a.1 b.1 = false) →
        deEntries acc (reparseAll ks) d = .ok (acc ++ ws, d')) ∧ TnAgree OnWire st' d' := by
  induction h generalizing st d with
  | nil => exact ⟨[], st, rfl, by simp, fun o ho => .inl ho, d, fun acc _ => by simp [reparseAll, deEntries], hi⟩
  | cons h t ih =>
    rename_i i v w vs ws u us
    obtain ⟨-, itx, i1, i2, i3⟩ := tag_round (t := .I32) (s := .int i) (by simp [TagFits]) (some "Key".toList)
      (safe_ascii_str (by decide)) false st
    obtain ⟨x, st1, h1, h2, h3, h4, d1, h5, h6⟩ := h.2 st d hi (fresh_left hf)
    obtain ⟨ks, st2, k1, k2, k3, d2, k4, k5⟩ := ih (nodup_right hd) h6 (fresh_after hf h4 hd)
    refine ⟨.node .En none none none [.node .I32 none (some "Key".toList) (some itx) [], x] :: ks, st2, ?_, ?_,
      objs_trans h4 k3, d2, fun acc hacc => ?_, k5⟩
    · simp only [serEntries, i1, h1, k1, bind, Except.bind, pure, Except.pure, kidsOf, List.cons_append, List.nil_append]
    · intro k hk
      rcases List.mem_cons.mp hk with rfl | hk
      · rw [Xml.Sendable]
        refine ⟨by simp, by simp, by simp, fun k hk => ?_⟩
        simp only [List.mem_cons, List.not_mem_nil, or_false] at hk
        rcases hk with rfl | rfl
        · exact i2
        · exact h3
      · exact k2 k hk
    · have hkn : (Xml.node .I32 none (some "Key".toList) (some itx) []).reparse.name = some "Key".toList := rfl
      have hv : x.reparse.name = some "Value".toList := by rw [name_reparse, h2, hvm]
      have hne : (Xml.node .I32 none (some "Key".toList) (some itx) []).reparse.name ≠ some "Value".toList := by
        rw [hkn]; decide
      have hnew : dictSet acc (.sc (.int i)) w = acc ++ [(.sc (.int i), w)] := by
        apply dictSet_new
        intro e he
        rw [List.pairwise_append] at hacc
        exact hacc.2.2 e he (.sc (.int i), w) (by simp)
      have hre : reparseAll (Xml.node .En none none none [.node .I32 none (some "Key".toList) (some itx) [], x] :: ks) =
          .node .En none none none [(Xml.node .I32 none (some "Key".toList) (some itx) []).reparse, x.reparse] :: reparseAll ks := rfl
      rw [hre, deEntries]
      simp only [if_true, deNamed_first hkn, i3, deNamed_skip hne, deNamed_first hv, h5, bind, Except.bind, hashable, hnew]
      rw [k4 _ (by simpa using hacc)]
      simp

theorem seen_dict {vm : Meta} (hvm : vm.name = some "Value".toList) {vs ws : List (PyVal × PyVal)} {us : List Nat}
    (h : EntriesSeen vm vs ws us) (hd : (0 :: us).Nodup) (hk : ws.Pairwise (fun a b => keyEq a.1 b.1 = false))
    {n : Option PyStr} (hn : ∀ x, n = some x → ∀ c ∈ x, XmlSafe c) {o : Bool} :
    SeenAs (.plain .star) (.dict .DCT n o (.plain .I32 (some "Key".toList) false) vm dictTypes) (.dict vs) (.dict ws) us := by
  refine ⟨fun o ho => (by cases ho), fun st d hi hf => ?_⟩
  have hi' : TnAgree OnWire (newObjId st).2 d := hi
  obtain ⟨tn, st1, htn, hts, htag, ho1, d1, hg, hi1, -⟩ :=
    tn_round' onWire_ok (types := dictTypes) (by simp [OnWire, wireTypes]) hi'
  have hf1 : Unwritten st1 (0 :: us) := by
    intro o ho
    rw [ho1]
    exact hf o ho
  obtain ⟨ks, st2, hks, hsend, ho2, d2, hde, hi2⟩ := entries_seen hvm h hd hi1 hf1
  refine ⟨.node .Obj (some (pyStrNat st.objId)) n none [tn, .node .DCT none none none ks], st2, ?_, rfl,
    sendable_obj (safe_pyStrNat _) hn hts hsend, ?_, { d2 with objs := assign d2.objs (pyStrNat st.objId) (.dict ws) }, ?_, hi2⟩
  · simp only [ser, Meta.settle, Meta.tag, Meta.name, dictTypesOf, dictKey, dictValue, newObjId,
      if_true, reduceCtorEq, if_false] at htn ⊢
    simp only [htn, hks, bind, Except.bind, pure, Except.pure, setName_obj]
  · intro o ho
    rw [ho1] at ho2
    exact ho2 o ho
  · have hne : tn.reparse.tag ≠ .DCT := by
      rw [tag_reparse]; rcases htag with h | h <;> rw [h] <;> decide
    have := hde [] (by simpa using hk)
    simp only [Xml.reparse, reparseAll, deser]
    rw [hg _ (by simp [tag_node])]
    simp only [bind, Except.bind, unpackPrim, choose_dict, deDct_second hne, this, if_true, pure, Except.pure, List.nil_append]

/-- A dictionary of plain values under type names of a dictionary. -/
theorem seen_arguments {es : List (PyVal × PyVal)} (h : PlainValue (.dict es)) {n : Option PyStr}
    (hn : ∀ x, n = some x → ∀ c ∈ x, XmlSafe c) {o : Bool} :
    SeenAs (.plain .star) (.dict .DCT n o (.plain .star (some "Key".toList) false) (.plain .star (some "Value".toList) false)
      applicationTypes) (.dict es) (.dict es) [] := by
  refine ⟨fun o ho => (by cases ho), fun st d hi hf => ?_⟩
  have hi' : TnAgree OnWire (newObjId st).2 d := hi
  obtain ⟨tn, st1, htn, hts, htag, ho1, d1, hg, hi1, -⟩ :=
    tn_round' onWire_ok (types := applicationTypes) (by simp [OnWire, wireTypes]) hi'
  cases h with | dict hk hd hv =>
  obtain ⟨ks, st2, hks, hsend, ho2, d2, hde, hi2⟩ := entries_round (acc := []) hk (by simpa using hd.imp keyEq_different)
    (fun e he => roundTrips_of_plain onWire_ok onWire_container (hv e he)) hi1
  refine ⟨.node .Obj (some (pyStrNat st.objId)) n none [tn, .node .DCT none none none ks], st2, ?_, rfl,
    sendable_obj (safe_pyStrNat _) hn hts hsend, ?_, { d2 with objs := assign d2.objs (pyStrNat st.objId) (.dict es) }, ?_, hi2⟩
  · simp only [ser, Meta.settle, Meta.tag, Meta.name, dictTypesOf, dictKey, dictValue, newObjId,
      if_true, reduceCtorEq, if_false] at htn ⊢
    simp only [htn, hks, bind, Except.bind, pure, Except.pure, setName_obj]
  · intro o ho
    rw [ho2, ho1] at ho
    exact .inl ho
  · have hne : tn.reparse.tag ≠ .DCT := by
      rw [tag_reparse]; rcases htag with h | h <;> rw [h] <;> decide
    have hc : chooseMeta ((DMeta.plain .star).settle .Obj) applicationTypes = some .dict := by decide +kernel
    simp only [Xml.reparse, reparseAll, deser]
    rw [hg _ (by simp [tag_node])]
    simp only [bind, Except.bind, unpackPrim, hc, deDct_second hne, hde, if_true, pure, Except.pure, List.nil_append]

end Verif
