import Verif.Spec.Docs
import Verif.Lemmas.CreatePipeline
import Verif.Props.Strings
import Verif.Props.Flags
/-
Writing the parts of the messages that open a pool and start a pipeline, and resolving the references in them.
-/
namespace Verif
open Docs

/-- The tables of both sides. -/
def DocAgree (st : SerState) (tbl : TypeTable) : Prop :=
  (∀ m i, st.tn.lookup m = some i → i < st.tnId) ∧
  ∀ ts m i, OnWire ts → ts.head? = some m → st.tn.lookup m = some i → tbl.lookup (pyStrNat i) = some ts

/-- What is to be shown for a value. `us` are the generic objects in it. -/
def DocAs (m : Meta) (v : PyVal) (d : Doc) (us : List Nat) : Prop :=
  (∀ o, v.oid? = some o → o ∈ 0 :: us) ∧
  ∀ st tbl, DocAgree st tbl → Unwritten st (0 :: us) →
    ∃ x st', ser m v st = .ok (some x, st') ∧ x.tag ≠ .TN ∧ x.tag ≠ .TNRef ∧
      (∀ o ∈ st'.objs.map Prod.snd, o ∈ st.objs.map Prod.snd ∨ o ∈ us) ∧
      ∃ tbl', resolve x tbl = (d, tbl') ∧ DocAgree st' tbl'

theorem resolveKids_cons {x : Xml} (h1 : x.tag ≠ .TN) (h2 : x.tag ≠ .TNRef) {ks : List Xml} {tbl t1 t2 : TypeTable} {d : Doc}
    {types : List PyStr} {ds : List Doc} (hx : resolve x tbl = (d, t1)) (hk : resolveKids ks t1 = (types, ds, t2)) :
    resolveKids (x :: ks) tbl = (types, d :: ds, t2) := by
  cases x with | node t r n tx kids =>
  rw [resolveKids]
  simp only [Xml.tag] at h1 h2
  simp only [h1, h2, if_false, hx, hk]

theorem resolve_node {t : Tag} (ht : t ≠ .Ref) {r n tx : Option PyStr} {ks : List Xml} {tbl t1 : TypeTable} {types : List PyStr}
    {ds : List Doc} (hk : resolveKids ks tbl = (types, ds, t1)) : resolve (.node t r n tx ks) tbl = (.node t n types tx ds, t1) := by
  rw [resolve]
  simp only [ht, if_false, hk]

theorem resolveKids_nil (tbl : TypeTable) : resolveKids [] tbl = ([], [], tbl) := by rw [resolveKids]

theorem doc_tn {types : List PyStr} (ht : OnWire types) {st : SerState} {tbl : TypeTable} (hi : DocAgree st tbl) :
    ∃ x st', createTn types st = .ok (x, st') ∧ st'.objs = st.objs ∧ ∃ tbl', DocAgree st' tbl' ∧
      ∀ ks u ds t2, resolveKids ks tbl' = (u, ds, t2) → resolveKids (x :: ks) tbl = (types, ds, t2) := by
  obtain ⟨hne, -⟩ := onWire_ok.2 types ht
  cases types with
  | nil => exact absurd rfl hne
  | cons main tail =>
    simp only [createTn]
    cases hl : st.tn.lookup main with
    | none =>
      refine ⟨_, _, rfl, rfl, (pyStrNat st.tnId, main :: tail) :: tbl, ⟨?_, ?_⟩, ?_⟩
      · intro m i hm
        by_cases hmm : m = main
        · subst hmm
          rw [lookup_append_eq _ _ _ hl] at hm
          simp only [Option.some.injEq] at hm
          subst hm
          exact Nat.lt_succ_self _
        · rw [lookup_append_ne _ _ _ _ hmm] at hm
          exact Nat.lt_succ_of_lt (hi.1 m i hm)
      · intro ts m i hts hh hm
        by_cases hmm : m = main
        · subst hmm
          rw [lookup_append_eq _ _ _ hl] at hm
          simp only [Option.some.injEq] at hm
          subst hm
          have := onWire_ok.1 ts (m :: tail) hts ht (by simp [hh])
          subst this
          simp
        · rw [lookup_append_ne _ _ _ _ hmm] at hm
          have hlt := hi.1 m i hm
          have hne : pyStrNat i ≠ pyStrNat st.tnId := fun h => by
            have := pyStrNat_inj h; omega
          simp only [List.lookup]
          rw [beq_eq_false_iff_ne.mpr hne]
          exact hi.2 ts m i hts hh hm
      · intro ks u ds t2 hk
        rw [resolveKids]
        simp only [if_true, Option.getD_some, List.map_map]
        have : ((main :: tail).map ((fun e : Xml => e.text.getD []) ∘ fun t => Xml.node .T none none (some t) [])) = main :: tail := by
          conv => rhs; rw [← List.map_id (main :: tail)]
          rfl
        rw [this, hk]
    | some i =>
      refine ⟨_, _, rfl, rfl, tbl, hi, ?_⟩
      intro ks u ds t2 hk
      have := hi.2 (main :: tail) main i ht rfl hl
      rw [resolveKids]
      simp only [reduceCtorEq, if_false, if_true, Option.getD_some, this, hk]

/-! ### Values -/

/-- An element with text only. -/
theorem doc_leaf {m : Meta} {s : Scalar} {t : Tag} {tx : PyStr} (ht : t ≠ .TN ∧ t ≠ .TNRef ∧ t ≠ .Ref)
    (h : serScalar (m.settle (.sc s)) s = .ok (some (.node t none m.name (some tx) []))) :
    DocAs m (.sc s) (.node t m.name [] (some tx) []) [] := by
  refine ⟨fun o ho => (by cases ho), fun st tbl hi _ => ?_⟩
  refine ⟨.node t none m.name (some tx) [], st, ?_, ht.1, ht.2.1, fun o ho => .inl ho, tbl, resolve_node ht.2.2 (resolveKids_nil _), hi⟩
  simp only [ser, h, bind, Except.bind, pure, Except.pure]

theorem doc_null {m : Meta} (hp : m.tag = .star ∨ packable m.tag = true) (ho : m.optional = false) :
    DocAs m (.sc .none) (.node .Nil m.name [] none []) [] := by
  refine ⟨fun o ho => (by cases ho), fun st tbl hi _ => ?_⟩
  refine ⟨.node .Nil none m.name none [], st, ?_, by simp [Xml.tag], by simp [Xml.tag], fun o ho => .inl ho, tbl,
    resolve_node (by simp) (resolveKids_nil _), hi⟩
  have h1 : packable (m.settle (.sc .none)).tag = true := by
    unfold Meta.settle
    split
    · cases m <;> rfl
    · rcases hp with h | h
      · contradiction
      · exact h
  have h2 : (m.settle (.sc .none)).optional = m.optional ∧ (m.settle (.sc .none)).name = m.name := by
    unfold Meta.settle
    split <;> cases m <;> exact ⟨rfl, rfl⟩
  simp [ser, serScalar, h1, h2, ho, bind, Except.bind, pure, Except.pure]

theorem escaped_eq (s : PyStr) : escaped s = serializeString s := (C12_pointwise s).symm

theorem doc_text {t : Tag} (ht : t = .S ∨ t = .star) (n : Option String) (s : PyStr) :
    DocAs (.plain t (n.map String.toList) false) (.sc (.str s)) (text n s) [] := by
  unfold text leaf
  rw [escaped_eq]
  refine doc_leaf (by simp) ?_
  rcases ht with rfl | rfl <;> rfl
theorem doc_truth {t : Tag} (ht : t = .B ∨ t = .star) (n : Option String) (b : Bool) :
    DocAs (.plain t (n.map String.toList) false) (.sc (.bool b)) (truth n b) [] := by
  refine doc_leaf (by simp) ?_
  rcases ht with rfl | rfl <;> cases b <;> rfl
theorem doc_number {t : Tag} (ht : t = .I32 ∨ t = .star) (n : Option String) (i : Int) :
    DocAs (.plain t (n.map String.toList) false) (.sc (.int i)) (number n i) [] := by
  refine doc_leaf (by simp) ?_
  rcases ht with rfl | rfl <;> rfl
theorem doc_optText (n : Option String) (s : Option PyStr) :
    DocAs (.plain .S (n.map String.toList) false) (optStr s) (orNull text n s) [] := by
  cases s with
  | none => exact doc_null (m := .plain .S (n.map String.toList) false) (.inr rfl) rfl
  | some s => exact doc_text (.inl rfl) n s
theorem doc_optBool (n : Option String) (b : Option Bool) :
    DocAs (.plain .B (n.map String.toList) false) (optBool b) (orNull truth n b) [] := by
  cases b with
  | none => exact doc_null (m := .plain .B (n.map String.toList) false) (.inr rfl) rfl
  | some b => exact doc_truth (.inl rfl) n b

/-! ### Members -/

inductive PropsDoc : List (Meta × PyVal) → List Doc → List Nat → Prop
  | nil : PropsDoc [] [] []
  | skip {m : Meta} {ps : List (Meta × PyVal)} {ds : List Doc} {us : List Nat} (hp : packable m.tag = true)
      (ho : m.optional = true) (h : PropsDoc ps ds us) : PropsDoc ((m, .sc .none) :: ps) ds us
  | cons {m : Meta} {v : PyVal} {d : Doc} {ps : List (Meta × PyVal)} {ds : List Doc} {u us : List Nat}
      (h : DocAs m v d u) (t : PropsDoc ps ds us) : PropsDoc ((m, v) :: ps) (d :: ds) (u ++ us)

theorem propsDoc_append {a b : List (Meta × PyVal)} {wa wb : List Doc} {ua ub : List Nat} (ha : PropsDoc a wa ua)
    (hb : PropsDoc b wb ub) : PropsDoc (a ++ b) (wa ++ wb) (ua ++ ub) := by
  induction ha with
  | nil => exact hb
  | skip hp ho _ ih => exact .skip hp ho ih
  | cons h _ ih =>
    rw [List.cons_append, List.cons_append, List.append_assoc]
    exact .cons h ih

theorem props_doc {ps : List (Meta × PyVal)} {ds : List Doc} {us : List Nat} (h : PropsDoc ps ds us)
    (hd : (0 :: us).Nodup) {st : SerState} {tbl : TypeTable} (hi : DocAgree st tbl) (hf : Unwritten st (0 :: us)) :
    ∃ ks st', serProps ps st = .ok (ks, st') ∧ (∀ o ∈ st'.objs.map Prod.snd, o ∈ st.objs.map Prod.snd ∨ o ∈ us) ∧
      ∃ tbl', resolveKids ks tbl = ([], ds, tbl') ∧ DocAgree st' tbl' := by
  induction h generalizing st tbl with
  | nil => exact ⟨[], st, rfl, fun o ho => .inl ho, tbl, resolveKids_nil _, hi⟩
  | skip hp ho t ih =>
    rename_i m ps ws us
    obtain ⟨ks, st', h1, h2, h3⟩ := ih hd hi hf
    refine ⟨ks, st', ?_, h2, h3⟩
    have hs : m.settle (.sc .none) = m := by
      unfold Meta.settle
      rw [if_neg]
      intro h
      rw [h] at hp
      simp [packable] at hp
    simp [serProps, refFor, PyVal.oid?, ser, serScalar, hs, hp, ho, bind, Except.bind, pure, Except.pure, h1, kidsOf]
  | cons h t ih =>
    obtain ⟨x, st1, h1, h2, h3, h4, t1, h5, h6⟩ := h.2 st tbl hi (fresh_left hf)
    obtain ⟨ks, st2, k1, k2, t2, k3, k4⟩ := ih (nodup_right hd) h6 (fresh_after hf h4 hd)
    refine ⟨x :: ks, st2, ?_, objs_trans h4 k2, t2, resolveKids_cons h2 h3 h5 k3, k4⟩
    simp only [serProps, fresh_ref (fresh_left hf) h.1, h1, k1, bind, Except.bind, pure, Except.pure, kidsOf,
      List.cons_append, List.nil_append]

/-- An object with members. -/
theorem doc_obj {ps : List (Meta × PyVal)} {ds : List Doc} {us : List Nat} (h : PropsDoc ps ds us) (hd : (0 :: us).Nodup)
    (hp : ps ≠ []) {t : Tag} (ht : t = .Obj ∨ t = .star) (n : Option String) (o : Bool) :
    DocAs (.plain t (n.map String.toList) o) (extendedObj ps) (members n ds) us := by
  refine ⟨fun o ho => by cases ho; simp, fun st tbl hi hf => ?_⟩
  have hi' : DocAgree (newObjId st).2 tbl := hi
  obtain ⟨ks, st', h1, h2, t', h3, h4⟩ := props_doc h hd hi' (st := (newObjId st).2) hf
  refine ⟨.node .Obj (some (pyStrNat st.objId)) (n.map String.toList) none [.node .MS none none none ks], st', ?_,
    by simp [Xml.tag], by simp [Xml.tag], h2, t', ?_, h4⟩
  · have hset : ((Meta.plain t (n.map String.toList) o).settle (extendedObj ps)) = .plain .Obj (n.map String.toList) o := by
      rcases ht with rfl | rfl <;> rfl
    simp only [extendedObj, newObjId] at hset h1 ⊢
    simp only [ser, hset, Meta.tag, Meta.name, newObjId, if_true, createTnOpt, serProps, h1, bind, Except.bind, pure, Except.pure,
      setName_obj, toStringKids, if_neg hp, List.nil_append, List.append_nil]
  · exact resolve_node (by simp) (resolveKids_cons (by simp [Xml.tag]) (by simp [Xml.tag]) (resolve_node (by simp) h3) (resolveKids_nil _))

/-- A generic object with numbers. -/
theorem doc_pair (n a b : String) (oid : Nat) (i j : Int) : DocAs (metaOf .ObjDynamic n)
    (.generic oid [] none [] [(a.toList, .sc (.int i)), (b.toList, .sc (.int j))] [])
    (members (some n) [number (some a) i, number (some b) j]) [oid] := by
  refine ⟨fun o ho => by cases ho; simp, fun st tbl hi hf => ?_⟩
  refine ⟨.node .Obj (some (pyStrNat st.objId)) (some n.toList) none [.node .MS none none none
      [.node .I32 none (some a.toList) (some (pyStrInt i)) [], .node .I32 none (some b.toList) (some (pyStrInt j)) []]],
    { (newObjId st).2 with objs := st.objs ++ [(pyStrNat st.objId, oid)] }, rfl, by simp [Xml.tag], by simp [Xml.tag], ?_, tbl, ?_, hi⟩
  · intro o ho
    simpa [newObjId] using ho
  · refine resolve_node (by simp) (resolveKids_cons (by simp [Xml.tag]) (by simp [Xml.tag]) (resolve_node (by simp) ?_) (resolveKids_nil _))
    exact resolveKids_cons (by simp [Xml.tag]) (by simp [Xml.tag]) (resolve_node (by simp) (resolveKids_nil _))
      (resolveKids_cons (by simp [Xml.tag]) (by simp [Xml.tag]) (resolve_node (by simp) (resolveKids_nil _)) (resolveKids_nil _))

/-! ### Enumerations -/

theorem doc_enum {type : String} (hw : OnWire (enumTypes type)) (tx : String) (hs : serializeString tx.toList = tx.toList) (i : Int)
    (n : Option String) (o : Bool) {t : Tag} (ht : t = .Obj ∨ t = .star := by exact .inl rfl) :
    DocAs (.plain t (n.map String.toList) o) (.typed 0 (enumTypes type) (some tx.toList) [(.plain .I32 none false, .sc (.int i))] [] [])
      (enumerated n type tx i) [] := by
  refine ⟨fun o ho => by cases ho; simp, fun st tbl hi hf => ?_⟩
  have hi' : DocAgree (newObjId st).2 tbl := hi
  obtain ⟨tn, st1, t1, t2, tbl1, t3, t4⟩ := doc_tn hw hi'
  refine ⟨.node .Obj (some (pyStrNat st.objId)) (n.map String.toList) none
    (tn :: [.node .ToString none none (some tx.toList) [], .node .I32 none none (some (pyStrInt i)) []]), st1, ?_,
    by simp [Xml.tag], by simp [Xml.tag], ?_, tbl1, ?_, t3⟩
  · have t1' : createTnOpt (enumTypes type) { st with objId := st.objId + 1 } = .ok ([tn], st1) := by
      simp only [newObjId] at t1
      unfold enumTypes at t1 ⊢
      simp only [createTnOpt, t1, bind, Except.bind, pure, Except.pure]
    have hsp : serProps [(.plain .I32 none false, .sc (.int i))] st1 = .ok ([.node .I32 none none (some (pyStrInt i)) []], st1) := rfl
    have hnil : ∀ s, serProps [] s = .ok ([], s) := fun _ => rfl
    have hset : ∀ a b c d e f, (Meta.plain t (n.map String.toList) o).settle (.typed a b c d e f) = .plain .Obj (n.map String.toList) o :=
      fun _ _ _ _ _ _ => by rcases ht with rfl | rfl <;> rfl
    rw [ser]
    simp only [hset, Meta.tag, Meta.name, newObjId, if_true, t1', hsp, hnil, bind, Except.bind, pure, Except.pure, setName_obj,
      toStringKids, hs, List.append_nil, List.cons_append, List.nil_append]
  · rw [t2]
    exact fun o ho => .inl ho
  · refine resolve_node (by simp) (t4 _ [] _ _ ?_)
    exact resolveKids_cons (by simp [Xml.tag]) (by simp [Xml.tag]) (resolve_node (by simp) (resolveKids_nil _))
      (resolveKids_cons (by simp [Xml.tag]) (by simp [Xml.tag]) (resolve_node (by simp) (resolveKids_nil _)) (resolveKids_nil _))

/-! ### Lists and dictionaries -/

inductive ListDoc (e : Meta) : List PyVal → List Doc → List Nat → Prop
  | nil : ListDoc e [] [] []
  | cons {v : PyVal} {d : Doc} {vs : List PyVal} {ds : List Doc} {u us : List Nat} (h : DocAs e v d u) (t : ListDoc e vs ds us) :
      ListDoc e (v :: vs) (d :: ds) (u ++ us)

theorem list_doc {e : Meta} {vs : List PyVal} {ds : List Doc} {us : List Nat} (h : ListDoc e vs ds us)
    (hd : (0 :: us).Nodup) {st : SerState} {tbl : TypeTable} (hi : DocAgree st tbl) (hf : Unwritten st (0 :: us)) :
    ∃ ks st', serList e vs st = .ok (ks, st') ∧ (∀ o ∈ st'.objs.map Prod.snd, o ∈ st.objs.map Prod.snd ∨ o ∈ us) ∧
      ∃ tbl', resolveKids ks tbl = ([], ds, tbl') ∧ DocAgree st' tbl' := by
  induction h generalizing st tbl with
  | nil => exact ⟨[], st, rfl, fun o ho => .inl ho, tbl, resolveKids_nil _, hi⟩
  | cons h t ih =>
    obtain ⟨x, st1, h1, h2, h3, h4, t1, h5, h6⟩ := h.2 st tbl hi (fresh_left hf)
    obtain ⟨ks, st2, k1, k2, t2, k3, k4⟩ := ih (nodup_right hd) h6 (fresh_after hf h4 hd)
    refine ⟨x :: ks, st2, ?_, objs_trans h4 k2, t2, resolveKids_cons h2 h3 h5 k3, k4⟩
    simp only [serList, h1, k1, bind, Except.bind, pure, Except.pure, kidsOf, List.cons_append, List.nil_append]

theorem doc_list {m : Meta} {e : Meta} {types : List String} {n : Option String} {vs : List PyVal}
    (hm : (m.settle (.list vs)).tag = .LST) (hn : (m.settle (.list vs)).name = n.map String.toList)
    (he : listElem (m.settle (.list vs)) = e) (ht : listTypesOf (m.settle (.list vs)) = types.map String.toList)
    (hw : OnWire (types.map String.toList)) {ds : List Doc} {us : List Nat} (h : ListDoc e vs ds us) (hd : (0 :: us).Nodup) :
    DocAs m (.list vs) (listDoc n types ds) us := by
  refine ⟨fun o ho => (by cases ho), fun st tbl hi hf => ?_⟩
  have hi' : DocAgree (newObjId st).2 tbl := hi
  obtain ⟨tn, st1, htn, ho1, tbl1, hi1, hres⟩ := doc_tn hw hi'
  have hf1 : Unwritten st1 (0 :: us) := by
    intro o ho
    rw [ho1]
    exact hf o ho
  obtain ⟨ks, st2, k1, k2, tbl2, k3, k4⟩ := list_doc h hd hi1 hf1
  refine ⟨.node .Obj (some (pyStrNat st.objId)) (n.map String.toList) none [tn, .node .LST none none none ks], st2, ?_,
    by simp [Xml.tag], by simp [Xml.tag], ?_, tbl2, ?_, k4⟩
  · simp only [newObjId] at htn
    simp only [ser, hm, hn, he, ht, newObjId, true_or, if_true, htn, k1, bind, Except.bind, pure, Except.pure, setName_obj]
  · rw [ho1] at k2
    exact k2
  · exact resolve_node (by simp) (hres _ [] _ _ (resolveKids_cons (by simp [Xml.tag]) (by simp [Xml.tag])
      (resolve_node (by simp) k3) (resolveKids_nil _)))

inductive EntriesDoc (km vm : Meta) : List (PyVal × PyVal) → List (Doc × Doc) → List Nat → Prop
  | nil : EntriesDoc km vm [] [] []
  | cons {k v : PyVal} {dk dv : Doc} {es : List (PyVal × PyVal)} {ds : List (Doc × Doc)} {u us : List Nat} (hk : DocAs km k dk [])
      (h : DocAs vm v dv u) (t : EntriesDoc km vm es ds us) : EntriesDoc km vm ((k, v) :: es) ((dk, dv) :: ds) (u ++ us)

theorem entries_doc {km vm : Meta} {es : List (PyVal × PyVal)} {ds : List (Doc × Doc)} {us : List Nat} (h : EntriesDoc km vm es ds us)
    (hd : (0 :: us).Nodup) {st : SerState} {tbl : TypeTable} (hi : DocAgree st tbl) (hf : Unwritten st (0 :: us)) :
    ∃ ks st', serEntries km vm es st = .ok (ks, st') ∧ (∀ o ∈ st'.objs.map Prod.snd, o ∈ st.objs.map Prod.snd ∨ o ∈ us) ∧
      ∃ tbl', resolveKids ks tbl = ([], ds.map (fun e => .node .En none [] none [e.1, e.2]), tbl') ∧ DocAgree st' tbl' := by
  induction h generalizing st tbl with
  | nil => exact ⟨[], st, rfl, fun o ho => .inl ho, tbl, resolveKids_nil _, hi⟩
  | cons hk h t ih =>
    obtain ⟨y, st0, g1, g2, g3, g4, t0, g5, g6⟩ := hk.2 st tbl hi (fun o ho => hf o (by
      rw [List.mem_singleton.mp ho]
      simp))
    have hf0 : Unwritten st0 _ := fresh_after (u := []) hf g4 hd
    obtain ⟨x, st1, h1, h2, h3, h4, t1, h5, h6⟩ := h.2 st0 t0 g6 (fresh_left hf0)
    obtain ⟨ks, st2, k1, k2, t2, k3, k4⟩ := ih (nodup_right hd) h6 (fresh_after hf0 h4 hd)
    refine ⟨.node .En none none none [y, x] :: ks, st2, ?_, ?_, t2, ?_, k4⟩
    · simp only [serEntries, g1, h1, k1, bind, Except.bind, pure, Except.pure, kidsOf, List.cons_append, List.nil_append]
    · have := objs_trans g4 (objs_trans h4 k2)
      simpa using this
    · exact resolveKids_cons (by simp [Xml.tag]) (by simp [Xml.tag]) (resolve_node (by simp)
        (resolveKids_cons g2 g3 g5 (resolveKids_cons h2 h3 h5 (resolveKids_nil _)))) k3

theorem doc_dict {m : Meta} {km vm : Meta} {types : List String} {n : Option String} {es : List (PyVal × PyVal)}
    (hm : (m.settle (.dict es)).tag = .DCT) (hn : (m.settle (.dict es)).name = n.map String.toList)
    (hk : dictKey (m.settle (.dict es)) = km) (hv : dictValue (m.settle (.dict es)) = vm)
    (ht : dictTypesOf (m.settle (.dict es)) = types.map String.toList)
    (hw : OnWire (types.map String.toList)) {ds : List (Doc × Doc)} {us : List Nat} (h : EntriesDoc km vm es ds us)
    (hd : (0 :: us).Nodup) : DocAs m (.dict es) (dictDoc n types ds) us := by
  refine ⟨fun o ho => (by cases ho), fun st tbl hi hf => ?_⟩
  have hi' : DocAgree (newObjId st).2 tbl := hi
  obtain ⟨tn, st1, htn, ho1, tbl1, hi1, hres⟩ := doc_tn hw hi'
  have hf1 : Unwritten st1 (0 :: us) := by
    intro o ho
    rw [ho1]
    exact hf o ho
  obtain ⟨ks, st2, k1, k2, tbl2, k3, k4⟩ := entries_doc h hd hi1 hf1
  refine ⟨.node .Obj (some (pyStrNat st.objId)) (n.map String.toList) none [tn, .node .DCT none none none ks], st2, ?_,
    by simp [Xml.tag], by simp [Xml.tag], ?_, tbl2, ?_, k4⟩
  · simp only [newObjId] at htn
    simp only [ser, hm, hn, hk, hv, ht, newObjId, if_true, htn, k1, bind, Except.bind, pure, Except.pure, setName_obj]
  · rw [ho1] at k2
    exact k2
  · exact resolve_node (by simp) (hres _ [] _ _ (resolveKids_cons (by simp [Xml.tag]) (by simp [Xml.tag])
      (resolve_node (by simp) k3) (resolveKids_nil _)))

theorem wire_list : OnWire (["System.Object[]", "System.Array", "System.Object"].map String.toList) := by
  show _ ∈ wireTypes
  unfold wireTypes
  exact List.mem_cons_self
theorem wire_dict : OnWire (["System.Collections.Hashtable", "System.Object"].map String.toList) := by
  show _ ∈ wireTypes
  unfold wireTypes
  iterate 1 apply List.mem_cons_of_mem
  exact List.mem_cons_self
theorem cmdTypes_eq : cmdTypes = objectList.map String.toList := by decide +kernel
theorem wire_cmds : OnWire (objectList.map String.toList) := by
  rw [← cmdTypes_eq]
  show _ ∈ wireTypes
  unfold wireTypes
  iterate 4 apply List.mem_cons_of_mem
  exact List.mem_cons_self

mutual
theorem doc_value (n : Option String) : ∀ {v : PyVal}, Simple v → DocAs (.plain .star (n.map String.toList) false) v (value n v) []
  | .sc .none, _ => doc_null (m := .plain .star (n.map String.toList) false) (.inl rfl) rfl
  | .sc (.bool b), _ => doc_truth (.inr rfl) n b
  | .sc (.int i), _ => doc_number (.inr rfl) n i
  | .sc (.str s), _ => doc_text (.inr rfl) n s
  | .sc (.bytes b), _ => doc_leaf (m := .plain .star (n.map String.toList) false) (by simp) rfl
  | .sc (.guid u), _ => doc_leaf (m := .plain .star (n.map String.toList) false) (by simp) rfl
  | .list xs, h => doc_list (m := .plain .star (n.map String.toList) false) rfl rfl rfl rfl wire_list
      (doc_values (by cases h; assumption)) (by simp)
  | .dict es, h => doc_dict (m := .plain .star (n.map String.toList) false) rfl rfl rfl rfl rfl wire_dict
      (doc_entries (by cases h with | dict hk hv => exact fun e he => ⟨hk e he, hv e he⟩)) (by simp)
  | .tagged _ _, h => by cases h
  | .queue _, h => by cases h
  | .generic .., h => by cases h
  | .typed .., h => by cases h
  | .raw _, h => by cases h
theorem doc_values : ∀ {xs : List PyVal}, (∀ x ∈ xs, Simple x) → ListDoc (.plain .star none false) xs (values xs) []
  | [], _ => .nil
  | x :: _, h => .cons (u := []) (us := []) (doc_value none (h x (by simp))) (doc_values fun x hx => h x (List.mem_cons_of_mem _ hx))
theorem doc_entries : ∀ {es : List (PyVal × PyVal)}, (∀ e ∈ es, Simple e.1 ∧ Simple e.2) →
    EntriesDoc (.plain .star (some "Key".toList) false) (.plain .star (some "Value".toList) false) es (entries es) []
  | [], _ => .nil
  | (k, v) :: _, h => .cons (u := []) (us := []) (doc_value (some "Key") (h (k, v) (by simp)).1)
      (doc_value (some "Value") (h (k, v) (by simp)).2) (doc_entries fun x hx => h x (List.mem_cons_of_mem _ hx))
end

/-! ### Parts of the messages -/

theorem instance_eq {cls : String} {type : String} {m : List (Int × String)}
    (hc : findClass cls.toList = some (enumClass type (stringMap m))) {i : Int} {s : PyStr}
    (hs : (m.map (fun e => (e.1, e.2.toList))).lookup i = some s) :
    enumInstance cls i = .ok (.typed 0 (enumTypes type) (some s) [(.plain .I32 none false, .sc (.int i))] [] []) := by
  have hl : ([("value".toList, PyVal.sc (.int i))] : List (PyStr × PyVal)).lookup "value".toList = some (.sc (.int i)) := by
    rw [List.lookup_cons]; simp
  have he : enumValue [("value".toList, .sc (.int i))] = some i := by
    unfold enumValue; rw [hl]
  have ht : classText (enumClass type (stringMap m)) [("value".toList, .sc (.int i))] = .ok (some s) := by
    simp only [classText, enumClass, stringMap, he, Option.getD_some, hs]
  have hf : getFields [("value".toList, .sc (.int i))] (enumClass type (stringMap m)).sets =
      .ok [(.plain .I32 none false, .sc (.int i))] := by
    simp only [enumClass, getFields, hl, bind, Except.bind, pure, Except.pure]
  unfold enumInstance
  rw [hc]
  simp only [instanceOf, ht, hf, bind, Except.bind, pure, Except.pure]
  rfl

theorem doc_result {r : ResultTypes} (h : r.Named) (n : String) (o : Bool) :
    ∃ v, r.val = .ok v ∧ DocAs (.plain .Obj (some n.toList) o) v (resultDoc n r) [] := by
  obtain ⟨value, p2⟩ := r
  cases p2 with
  | false =>
    have h : value ≤ 8 := h
    have hv : value = 0 ∨ value = 1 ∨ value = 2 ∨ value = 3 ∨ value = 4 ∨ value = 5 ∨ value = 6 ∨ value = 7 ∨ value = 8 := by omega
    unfold ResultTypes.val
    simp only [Bool.false_eq_true, if_false]
    rcases hv with rfl | rfl | rfl | rfl | rfl | rfl | rfl | rfl | rfl <;>
      exact ⟨_, instance_eq find_result rfl, doc_enum wire_result _ (by decide +kernel) _ (some n) o⟩
  | true =>
    have h : value ≤ 3 := h
    have hv : value = 0 ∨ value = 1 ∨ value = 2 ∨ value = 3 := by omega
    rcases hv with rfl | rfl | rfl | rfl <;>
      exact ⟨_, rfl, doc_enum wire_result _ (by decide +kernel) _ (some n) o⟩

theorem doc_apartment {n : Nat} (h : n ≤ 2) : ∃ v, enumInstance "ApartmentState" n = .ok v ∧
    DocAs (metaOf .Obj "ApartmentState") v (apartmentDoc n) [] := by
  have hv : n = 0 ∨ n = 1 ∨ n = 2 := by omega
  rcases hv with rfl | rfl | rfl <;>
    exact ⟨_, instance_eq find_apartment rfl, doc_enum wire_apartment _ (by decide +kernel) _ (some "ApartmentState") false⟩

theorem doc_thread {n : Nat} (h : n ≤ 3) : ∃ v, enumInstance "PSThreadOptions" n = .ok v ∧
    DocAs (metaOf .Obj "PSThreadOptions") v (threadDoc n) [] := by
  have hv : n = 0 ∨ n = 1 ∨ n = 2 ∨ n = 3 := by omega
  rcases hv with rfl | rfl | rfl | rfl <;>
    exact ⟨_, instance_eq find_thread rfl, doc_enum wire_thread _ (by decide +kernel) _ (some "PSThreadOptions") false⟩

theorem stream_text (n : Nat) : remoteStreamText (some n) = (streamNames n).toList ∧
    serializeString (streamNames n).toList = (streamNames n).toList := by
  unfold remoteStreamText streamNames
  by_cases h : n = 15
  · subst h
    simp only [if_true]
    decide +kernel
  · rw [if_neg (by simpa using h), if_neg h]
    simp only [flagNames, remoteStreamMap, List.zip, List.zipWith, List.filter, List.filterMap, Option.getD_some]
    have e0 : (n &&& 1 == 1) = decide (n / 1 % 2 = 1) := by
      have := and_pow_iff n 0
      rwa [Nat.testBit_eq_decide_div_mod_eq] at this
    have e1 : (n &&& 2 == 2) = decide (n / 2 % 2 = 1) := by
      have := and_pow_iff n 1
      rwa [Nat.testBit_eq_decide_div_mod_eq] at this
    have e2 : (n &&& 4 == 4) = decide (n / 4 % 2 = 1) := by
      have := and_pow_iff n 2
      rwa [Nat.testBit_eq_decide_div_mod_eq] at this
    have e3 : (n &&& 8 == 8) = decide (n / 8 % 2 = 1) := by
      have := and_pow_iff n 3
      rwa [Nat.testBit_eq_decide_div_mod_eq] at this
    simp only [e0, e1, e2, e3]
    by_cases h0 : n / 1 % 2 = 1 <;> by_cases h1 : n / 2 % 2 = 1 <;> by_cases h2 : n / 4 % 2 = 1 <;> by_cases h3 : n / 8 % 2 = 1 <;>
      simp only [h0, h1, h2, h3, decide_true, decide_false, if_true, if_false] <;> decide +kernel

theorem doc_remote (n : Nat) : ∃ v, enumInstance "RemoteStreamOptions" n = .ok v ∧ DocAs (metaOf .Obj "RemoteStreamOptions") v
    (enumerated (some "RemoteStreamOptions") "System.Management.Automation.Runspaces.RemoteStreamOptions" (streamNames n) n) [] := by
  have hl : ([("value".toList, PyVal.sc (.int (n : Int)))] : List (PyStr × PyVal)).lookup "value".toList = some (.sc (.int n)) := by
    rw [List.lookup_cons]; simp
  have he : enumValue [("value".toList, .sc (.int (n : Int)))] = some (n : Int) := by
    unfold enumValue; rw [hl]
  have hf : getFields [("value".toList, .sc (.int (n : Int)))] remoteClass.sets = .ok [(.plain .I32 none false, .sc (.int n))] := by
    simp only [remoteClass, enumClass, getFields, hl, bind, Except.bind, pure, Except.pure]
  have ht : classText remoteClass [("value".toList, .sc (.int (n : Int)))] = .ok (some (streamNames n).toList) := by
    simp only [classText, remoteClass, enumClass, he, Option.map_some, Int.toNat_natCast, (stream_text n).1]
  refine ⟨_, ?_, doc_enum wire_remote (streamNames n) (stream_text n).2 n (some "RemoteStreamOptions") false⟩
  unfold enumInstance
  rw [find_remote]
  simp only [instanceOf, ht, hf, bind, Except.bind, pure, Except.pure]
  rfl

theorem merges_doc {ms : List (String × ResultTypes)} (h : ∀ m ∈ ms, m.2.Named) (o : Bool) :
    ∃ ps, mergeProps o ms = .ok ps ∧ PropsDoc ps (ms.map fun m => resultDoc m.1 m.2) [] := by
  induction ms with
  | nil => exact ⟨[], rfl, .nil⟩
  | cons m ms ih =>
    obtain ⟨name, r⟩ := m
    obtain ⟨v, h1, h2⟩ := doc_result (h (name, r) (by simp)) name o
    obtain ⟨ps, h3, h4⟩ := ih fun m hm => h m (List.mem_cons_of_mem _ hm)
    refine ⟨(.plain .Obj (some name.toList) o, v) :: ps, ?_, .cons (u := []) h2 h4⟩
    simp only [mergeProps, h1, h3, bind, Except.bind, pure, Except.pure]

theorem parameter_doc {env : Nat → PyVal} {a : Option PyStr × ArgVal} (hv : Simple (Seen.argSeen env a.2)) :
    DocAs (.plain .star none false) (parameterVal env a) (parameterDoc env a) [] := by
  refine doc_obj (t := .star) ?_ (by simp) (by simp) (.inr rfl) none false
  refine .cons (u := []) (us := []) (doc_optText (some "N") a.1) (.cons (u := []) (us := []) ?_ .nil)
  rw [argVal_seen]
  exact doc_value (some "V") hv

theorem map_doc {α : Type} {e : Meta} {f : α → PyVal} {g : α → Doc} {l : List α} (h : ∀ a ∈ l, DocAs e (f a) (g a) []) :
    ListDoc e (l.map f) (l.map g) [] := by
  induction l with
  | nil => exact .nil
  | cons a l ih => exact .cons (u := []) (us := []) (h a (by simp)) (ih fun a ha => h a (List.mem_cons_of_mem _ ha))

/-- A list of commands or parameters. -/
theorem doc_cmds (name : String) (tag : Tag) {vs : List PyVal} {ds : List Doc} (h : ListDoc (.plain tag none false) vs ds []) :
    DocAs (cmdList name tag) (.list vs) (listDoc (some name) objectList ds) [] :=
  doc_list (m := cmdList name tag) rfl rfl rfl cmdTypes_eq wire_cmds h (by simp)

theorem command_doc {env : Nat → PyVal} {c : Command} (h : c.Printed env) {b22 b23 : Bool}
    (h22 : versionEqualOrNewer c.version "2.2".toList = .ok b22) (h23 : versionEqualOrNewer c.version "2.3".toList = .ok b23) :
    ∃ v, c.val env = .ok v ∧ DocAs (.plain .Obj none false) v (commandDoc env b22 b23 c) [] := by
  obtain ⟨hvalues, hmerges⟩ := h
  simp only [List.mem_cons, List.not_mem_nil, or_false, forall_eq_or_imp, forall_eq] at hmerges
  obtain ⟨m1, m2, m3, m4, m5, m6, m7, m8⟩ := hmerges
  obtain ⟨p1, q1, r1⟩ := merges_doc (ms := [("MergeMyResult", c.mergeMyResult), ("MergeToResult", c.mergeToResult),
    ("MergePreviousResults", c.mergePrevious)]) (by
      simp only [List.mem_cons, List.not_mem_nil, or_false, forall_eq_or_imp, forall_eq, m1, m2, m3, true_and]) false
  obtain ⟨p2, q2, r2⟩ := merges_doc (ms := if b22 then [("MergeError", c.mergeError), ("MergeWarning", c.mergeWarning),
    ("MergeVerbose", c.mergeVerbose), ("MergeDebug", c.mergeDebug)] else []) (by
      cases b22
      · simp
      · simp only [if_true, List.mem_cons, List.not_mem_nil, or_false, forall_eq_or_imp, forall_eq, m4, m5, m6, m7, true_and]) true
  obtain ⟨p3, q3, r3⟩ := merges_doc (ms := if b23 then [("MergeInformation", c.mergeInformation)] else []) (by
      cases b23
      · simp
      · simp only [if_true, List.mem_cons, List.not_mem_nil, or_false, forall_eq, m8]) true
  refine ⟨extendedObj ([(metaOf .S "Cmd", .sc (.str c.cmd)), (metaOf .B "IsScript", optBool c.isScript),
      (metaOf .B "UseLocalScope", optBool c.useLocalScope)] ++ p1 ++
      [(cmdList "Args" .star, .list (c.args.map (parameterVal env)))] ++ p2 ++ p3), ?_, ?_⟩
  · simp only [Command.val, h22, h23, q1, q2, q3, bind, Except.bind, pure, Except.pure]
  · have a1 : PropsDoc [(metaOf .S "Cmd", .sc (.str c.cmd)), (metaOf .B "IsScript", optBool c.isScript),
        (metaOf .B "UseLocalScope", optBool c.useLocalScope)]
        [text (some "Cmd") c.cmd, orNull truth (some "IsScript") c.isScript, orNull truth (some "UseLocalScope") c.useLocalScope] [] :=
      .cons (u := []) (us := []) (doc_text (.inl rfl) (some "Cmd") c.cmd)
        (.cons (u := []) (us := []) (doc_optBool (some "IsScript") _)
          (.cons (u := []) (us := []) (doc_optBool (some "UseLocalScope") _) .nil))
    have a2 : PropsDoc [(cmdList "Args" .star, .list (c.args.map (parameterVal env)))]
        [listDoc (some "Args") objectList (c.args.map (parameterDoc env))] [] :=
      .cons (u := []) (us := []) (doc_cmds "Args" .star (map_doc fun a ha => parameter_doc (hvalues a ha))) .nil
    have a := propsDoc_append (propsDoc_append (propsDoc_append (propsDoc_append a1 r1) a2) r2) r3
    have hw : commandDoc env b22 b23 c = members none (([text (some "Cmd") c.cmd, orNull truth (some "IsScript") c.isScript,
        orNull truth (some "UseLocalScope") c.useLocalScope] ++ ([("MergeMyResult", c.mergeMyResult), ("MergeToResult", c.mergeToResult),
        ("MergePreviousResults", c.mergePrevious)].map fun m => resultDoc m.1 m.2) ++
        [listDoc (some "Args") objectList (c.args.map (parameterDoc env))] ++
        ((if b22 then [("MergeError", c.mergeError), ("MergeWarning", c.mergeWarning), ("MergeVerbose", c.mergeVerbose),
          ("MergeDebug", c.mergeDebug)] else []).map fun m => resultDoc m.1 m.2)) ++
        ((if b23 then [("MergeInformation", c.mergeInformation)] else []).map fun m => resultDoc m.1 m.2)) := by
      cases b22 <;> cases b23 <;> rfl
    rw [hw]
    exact doc_obj (t := .Obj) a (by simp) (by simp) (.inl rfl) none false

theorem commands_doc {env : Nat → PyVal} {cs : List Command} (h : ∀ c ∈ cs, c.Printed env) {b22 b23 : Bool}
    (h22 : ∀ c ∈ cs, versionEqualOrNewer c.version "2.2".toList = .ok b22)
    (h23 : ∀ c ∈ cs, versionEqualOrNewer c.version "2.3".toList = .ok b23) :
    ∃ vs, commandVals env cs = .ok vs ∧ ListDoc (.plain .Obj none false) vs (cs.map (commandDoc env b22 b23)) [] := by
  induction cs with
  | nil => exact ⟨[], rfl, .nil⟩
  | cons c cs ih =>
    obtain ⟨v, h1, h2⟩ := command_doc (h c (by simp)) (h22 c (by simp)) (h23 c (by simp))
    obtain ⟨vs, h3, h4⟩ := ih (fun c hc => h c (List.mem_cons_of_mem _ hc)) (fun c hc => h22 c (List.mem_cons_of_mem _ hc))
      (fun c hc => h23 c (List.mem_cons_of_mem _ hc))
    refine ⟨v :: vs, ?_, .cons (u := []) (us := []) h2 h4⟩
    simp only [commandVals, h1, h3, bind, Except.bind, pure, Except.pure]

theorem extra_doc {env : Nat → PyVal} {ss : List (List Command)} (h : ∀ s ∈ ss, ∀ c ∈ s, c.Printed env) {b22 b23 : Bool}
    (h22 : ∀ s ∈ ss, ∀ c ∈ s, versionEqualOrNewer c.version "2.2".toList = .ok b22)
    (h23 : ∀ s ∈ ss, ∀ c ∈ s, versionEqualOrNewer c.version "2.3".toList = .ok b23) :
    ∃ vs, extraVals env ss = .ok vs ∧ ListDoc (.plain .Obj none false) vs
      (ss.map fun s => members none [listDoc (some "Cmds") objectList (s.map (commandDoc env b22 b23))]) [] := by
  induction ss with
  | nil => exact ⟨[], rfl, .nil⟩
  | cons s ss ih =>
    obtain ⟨v, h1, h2⟩ := commands_doc (h s (by simp)) (h22 s (by simp)) (h23 s (by simp))
    obtain ⟨vs, h3, h4⟩ := ih (fun s hs => h s (List.mem_cons_of_mem _ hs)) (fun s hs => h22 s (List.mem_cons_of_mem _ hs))
      (fun s hs => h23 s (List.mem_cons_of_mem _ hs))
    refine ⟨extendedObj [(cmdList "Cmds" .Obj, .list v)] :: vs, ?_, .cons (u := []) (us := []) ?_ h4⟩
    · simp only [extraVals, h1, h3, bind, Except.bind, pure, Except.pure]
    · exact doc_obj (t := .Obj) (.cons (u := []) (us := []) (doc_cmds "Cmds" .Obj h2) .nil) (by simp) (by simp) (.inl rfl) none false

theorem pipeline_doc {env : Nat → PyVal} {cs : List Command} (hne : cs ≠ []) (h : ∀ c ∈ cs, c.Printed env) {b22 b23 : Bool}
    (h22 : ∀ c ∈ cs, versionEqualOrNewer c.version "2.2".toList = .ok b22)
    (h23 : ∀ c ∈ cs, versionEqualOrNewer c.version "2.3".toList = .ok b23) (nested redirect : Bool) (history : Option PyStr) :
    ∃ v, pipelineVal env nested cs history redirect = .ok v ∧ DocAs (metaOf .Obj "PowerShell") v
      (pipelineDoc env b22 b23 nested cs history redirect) [] := by
  obtain ⟨s, ss, hs, hw⟩ := write_statements hne
  have hmem : ∀ t ∈ s :: ss, ∀ c ∈ t, c ∈ cs := fun t ht c hc => statements_mem (by rw [hs]; exact ht) hc
  obtain ⟨vs, v1, v2⟩ := commands_doc (cs := s) (fun c hc => h c (hmem s (by simp) c hc))
    (fun c hc => h22 c (hmem s (by simp) c hc)) (fun c hc => h23 c (hmem s (by simp) c hc))
  have hextra : ∃ x w, (match (if ss = [] then none else some (s :: ss) : Option (List (List Command))) with
      | none => (.ok (.sc .none) : Except PyErr PyVal)
      | some ss => match extraVals env ss with
        | .error e => .error e
        | .ok vs => .ok (.list vs)) = .ok x ∧ DocAs (cmdList "ExtraCmds" .Obj) x w [] ∧
      w = (match Seen.statements cs with
        | s :: t :: ss => listDoc (some "ExtraCmds") objectList ((s :: t :: ss).map fun s =>
          members none [listDoc (some "Cmds") objectList (s.map (commandDoc env b22 b23))])
        | _ => null (some "ExtraCmds")) := by
    rw [hs]
    cases ss with
    | nil => exact ⟨.sc .none, _, rfl, doc_null (m := cmdList "ExtraCmds" .Obj) (.inr rfl) rfl, rfl⟩
    | cons t ss =>
      obtain ⟨es, e1, e2⟩ := extra_doc (ss := s :: t :: ss) (fun t ht c hc => h c (hmem t ht c hc))
        (fun t ht c hc => h22 c (hmem t ht c hc)) (fun t ht c hc => h23 c (hmem t ht c hc))
      refine ⟨.list es, _, ?_, doc_cmds "ExtraCmds" .Obj e2, rfl⟩
      simp [e1]
  obtain ⟨x, w, x1, x2, x3⟩ := hextra
  refine ⟨extendedObj [(metaOf .B "IsNested", .sc (.bool nested)), (cmdList "ExtraCmds" .Obj, x),
    (cmdList "Cmds" .Obj, .list vs), (metaOf .S "History", optStr history),
    (metaOf .B "RedirectShellErrorOutputPipe", .sc (.bool redirect))], ?_, ?_⟩
  · unfold pipelineVal
    simp only [hw, bind, Except.bind, pure, Except.pure]
    by_cases h0 : ss = []
    · simp only [h0, if_true] at x1 ⊢
      cases x1
      simp only [v1]
    · simp only [h0, if_false] at x1 ⊢
      cases he : extraVals env (s :: ss) with
      | error e => rw [he] at x1; cases x1
      | ok es =>
        rw [he] at x1
        cases x1
        simp only [v1]
  · have hp : pipelineDoc env b22 b23 nested cs history redirect = members (some "PowerShell") [truth (some "IsNested") nested, w,
        listDoc (some "Cmds") objectList (s.map (commandDoc env b22 b23)), orNull text (some "History") history,
        truth (some "RedirectShellErrorOutputPipe") redirect] := by
      rw [x3, pipelineDoc, hs]
      rfl
    rw [hp]
    refine doc_obj (us := []) (t := .Obj) ?_ (by simp) (by simp) (.inl rfl) (some "PowerShell") false
    exact .cons (u := []) (us := []) (doc_truth (.inl rfl) (some "IsNested") _)
        (.cons (u := []) (us := []) x2
          (.cons (u := []) (us := []) (doc_cmds "Cmds" .Obj v2)
            (.cons (u := []) (us := []) (doc_optText (some "History") _)
              (.cons (u := []) (us := []) (doc_truth (.inl rfl) (some "RedirectShellErrorOutputPipe") _) .nil))))

/-! ### Host information -/

theorem setting_doc {type : String} {m : Meta} {v : PyVal} {f : Option String → Doc} {us : List Nat} (h : DocAs m v (f (some "V")) us)
    (hd : (0 :: us).Nodup) :
    DocAs valueMeta (extendedObj [(metaOf .S "T", .sc (.str type.toList)), (m, v)]) (setting type f) us := by
  have := doc_obj (t := .star) (us := [] ++ (us ++ [])) (.cons (doc_text (.inl rfl) (some "T") type.toList) (.cons h .nil))
    (by simpa using hd) (by simp) (.inr rfl) (some "Value") false
  rw [List.nil_append, List.append_nil] at this
  exact this

theorem color_doc (i : Int) : ∃ v, colorVal (.color (some i)) = .ok v ∧
    DocAs valueMeta v (setting "System.ConsoleColor" fun n => number n i) [] :=
  ⟨_, rfl, setting_doc (m := metaOf .I32 "V") (doc_number (.inl rfl) (some "V") i) (by simp)⟩
theorem coordinates_doc (oid : Nat) (h0 : oid ≠ 0) (p : Int × Int) : ∃ v, coordinatesVal oid (.coordinates p.1 p.2) = .ok v ∧
    DocAs valueMeta v (position p) [oid] :=
  ⟨_, rfl, setting_doc (m := metaOf .ObjDynamic "V") (doc_pair "V" "x" "y" oid p.1 p.2)
    (by simpa using fun h : 0 = oid => h0 h.symm)⟩
theorem size_doc (oid : Nat) (h0 : oid ≠ 0) (p : Int × Int) : ∃ v, sizeVal oid (.size p.2 p.1) = .ok v ∧
    DocAs valueMeta v (extent p) [oid] :=
  ⟨_, rfl, setting_doc (m := metaOf .ObjDynamic "V") (doc_pair "V" "height" "width" oid p.2 p.1)
    (by simpa using fun h : 0 = oid => h0 h.symm)⟩
theorem intValue_doc (i : Int) : ∃ v, dictValueVal "System.Int32" (.int i) = .ok v ∧
    DocAs valueMeta v (setting "System.Int32" fun n => number n i) [] :=
  ⟨_, rfl, setting_doc (m := metaOf .star "V") (doc_number (.inr rfl) (some "V") i) (by simp)⟩
theorem strValue_doc (s : PyStr) : ∃ v, dictValueVal "System.String" (.str s) = .ok v ∧
    DocAs valueMeta v (setting "System.String" fun n => text n s) [] :=
  ⟨_, rfl, setting_doc (m := metaOf .star "V") (doc_text (.inr rfl) (some "V") s) (by simp)⟩

theorem hostData_doc {h : DefaultHost} {f : Seen.HostFacts} (hs : Seen.Shows h f) {r : RawUi} (hr : h.raw = some r) {s : Seen.Screen}
    (hf : f.screen = some s) : ∃ v, hostDataVal r = .ok v ∧
      DocAs (.plain .Obj (some "_hostDefaultData".toList) true) v (screenDoc s) [1, 2, 3, 4, 5, 6] := by
  obtain ⟨-, hs⟩ := hs
  rw [hr, hf] at hs
  obtain ⟨e0, e1, e2, e3, e4, e5, e6, e7, e8, e9, -⟩ := hs
  obtain ⟨v0, a0, b0⟩ := color_doc s.foreground
  obtain ⟨v1, a1, b1⟩ := color_doc s.background
  obtain ⟨v2, a2, b2⟩ := coordinates_doc 1 (by decide) s.cursorPosition
  obtain ⟨v3, a3, b3⟩ := coordinates_doc 2 (by decide) s.windowPosition
  obtain ⟨v4, a4, b4⟩ := intValue_doc s.cursorSize
  obtain ⟨v5, a5, b5⟩ := size_doc 3 (by decide) s.bufferSize
  obtain ⟨v6, a6, b6⟩ := size_doc 4 (by decide) s.windowSize
  obtain ⟨v7, a7, b7⟩ := size_doc 5 (by decide) s.maxWindowSize
  obtain ⟨v8, a8, b8⟩ := size_doc 6 (by decide) s.maxPhysicalWindowSize
  obtain ⟨v9, a9, b9⟩ := strValue_doc s.windowTitle
  have key : ∀ i : Nat, DocAs (.plain .I32 (some "Key".toList) false) (.sc (.int i)) (number (some "Key") i) [] :=
    fun i => doc_number (.inl rfl) (some "Key") i
  have hent : EntriesDoc (.plain .I32 (some "Key".toList) false) valueMeta _ _ _ :=
    .cons (key 0) b0 (.cons (key 1) b1 (.cons (key 2) b2 (.cons (key 3) b3 (.cons (key 4) b4 (.cons (key 5) b5
      (.cons (key 6) b6 (.cons (key 7) b7 (.cons (key 8) b8 (.cons (key 9) b9 .nil)))))))))
  have hdict := doc_dict (n := some "data") (m := .dict .DCT (some "data".toList) false (.plain .I32 (some "Key".toList) false)
      valueMeta dictTypes) rfl rfl rfl rfl rfl wire_dict hent (by decide)
  have hdata := doc_obj (t := .Obj) (.cons hdict .nil) (by decide) (by simp) (.inl rfl) (some "_hostDefaultData") true
  refine ⟨_, ?_, hdata⟩
  simp only [hostDataVal, e0, e1, e2, e3, e4, e5, e6, e7, e8, e9, a0, a1, a2, a3, a4, a5, a6, a7, a8, a9, bind, Except.bind, pure,
    Except.pure]
  rfl

theorem flags_doc (a b c d : Bool) : PropsDoc [(metaOf .B "_isHostNull", .sc (.bool a)), (metaOf .B "_isHostUINull", .sc (.bool b)),
    (metaOf .B "_isHostRawUINull", .sc (.bool c)), (metaOf .B "_useRunspaceHost", .sc (.bool d))]
    [truth (some "_isHostNull") a, truth (some "_isHostUINull") b, truth (some "_isHostRawUINull") c,
      truth (some "_useRunspaceHost") d] [] :=
  .cons (u := []) (us := []) (doc_truth (.inl rfl) (some "_isHostNull") _)
    (.cons (u := []) (us := []) (doc_truth (.inl rfl) (some "_isHostUINull") _)
      (.cons (u := []) (us := []) (doc_truth (.inl rfl) (some "_isHostRawUINull") _)
        (.cons (u := []) (us := []) (doc_truth (.inl rfl) (some "_useRunspaceHost") _) .nil)))

theorem withoutData_doc (a b c d : Bool) : DocAs (metaOf .Obj "HostInfo")
      (extendedObj [(.plain .Obj (some "_hostDefaultData".toList) true, .sc .none), (metaOf .B "_isHostNull", .sc (.bool a)),
        (metaOf .B "_isHostUINull", .sc (.bool b)), (metaOf .B "_isHostRawUINull", .sc (.bool c)),
        (metaOf .B "_useRunspaceHost", .sc (.bool d))])
      (members (some "HostInfo") [truth (some "_isHostNull") a, truth (some "_isHostUINull") b, truth (some "_isHostRawUINull") c,
      truth (some "_useRunspaceHost") d]) [] :=
  doc_obj (t := .Obj) (.skip rfl rfl (flags_doc a b c d)) (by simp) (by simp) (.inl rfl) (some "HostInfo") false

theorem withData_doc {v : PyVal} {w : Doc} (h : DocAs (.plain .Obj (some "_hostDefaultData".toList) true) v w [1, 2, 3, 4, 5, 6])
    (a b c d : Bool) : DocAs (metaOf .Obj "HostInfo")
      (extendedObj [(.plain .Obj (some "_hostDefaultData".toList) true, v), (metaOf .B "_isHostNull", .sc (.bool a)),
        (metaOf .B "_isHostUINull", .sc (.bool b)), (metaOf .B "_isHostRawUINull", .sc (.bool c)),
        (metaOf .B "_useRunspaceHost", .sc (.bool d))])
      (members (some "HostInfo") [w, truth (some "_isHostNull") a, truth (some "_isHostUINull") b, truth (some "_isHostRawUINull") c,
      truth (some "_useRunspaceHost") d]) [1, 2, 3, 4, 5, 6] :=
  doc_obj (t := .Obj) (.cons (u := [1, 2, 3, 4, 5, 6]) (us := []) h (flags_doc a b c d)) (by decide) (by simp) (.inl rfl) (some "HostInfo") false

theorem host_doc {host : Option DefaultHost} {facts : Option Seen.HostFacts} (hs : Seen.ShowsHost host facts) :
    ∃ v us, hostInfoVal host = .ok v ∧ DocAs (metaOf .Obj "HostInfo") v (hostDoc facts) us ∧ (0 :: us).Nodup := by
  cases host with
  | none =>
    cases facts with
    | some f => exact absurd hs id
    | none => exact ⟨_, [], rfl, withoutData_doc true true true true, by simp⟩
  | some h =>
    cases facts with
    | none => exact absurd hs id
    | some f =>
      have hs : Seen.Shows h f := hs
      have hu : h.ui = f.ui := hs.1
      obtain ⟨fui, fscreen⟩ := f
      simp only at hu
      cases fui with
      | false =>
        refine ⟨_, [], ?_, withoutData_doc false true true false, by simp⟩
        simp only [hostInfoVal, isHostRawUiNull, isHostNull, isHostUiNull, hu, pure, Except.pure, bind, Except.bind,
          Bool.false_eq_true, if_false, if_true, Option.isNone_some, Bool.not_false]
      | true =>
        cases hr : h.raw with
        | none =>
          cases fscreen with
          | some s => have := hs.2; rw [hr] at this; exact this.elim
          | none =>
            refine ⟨_, [], ?_, withoutData_doc false false true false, by simp⟩
            simp only [hostInfoVal, isHostRawUiNull, isHostNull, isHostUiNull, hu, hr, pure, Except.pure, bind, Except.bind,
              if_true, Option.isNone_some, Option.isNone_none, Bool.not_true]
        | some r =>
          cases fscreen with
          | none => have := hs.2; rw [hr] at this; exact this.elim
          | some s =>
            obtain ⟨v, h1, h2⟩ := hostData_doc hs hr rfl
            refine ⟨_, [1, 2, 3, 4, 5, 6], ?_, withData_doc h2 false false false false, by decide⟩
            simp only [hostInfoVal, isHostRawUiNull, isHostNull, isHostUiNull, hu, hr, h1, pure, Except.pure, bind, Except.bind,
              if_true, Bool.false_eq_true, if_false, Option.isNone_some, Bool.not_true, Option.bind]

end Verif
