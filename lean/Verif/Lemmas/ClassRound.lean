import Verif.Lemmas.Classes
import Verif.Lemmas.ClassTable
/-
Writing a typed object and reading it back.
-/
namespace Verif

/-! ### Scalars under their tag -/

theorem str_leaf {t : Tag} (ht : t ∈ [Tag.S, .URI, .XD, .SBK]) {s : PyStr} (hs : PlainScalar (.str s)) (n : Option PyStr)
    (m : DMeta) (d : DeState) :
    deser m (Xml.node t none n (some (serializeString s)) []).reparse d = .ok (.sc (.str s), d) := by
  have hd := C13_roundtrip_partial s hs.1
  rw [show (Xml.node t none n (some (serializeString s)) []).reparse =
    .node t none n (match some (serializeString s) with | some [] => none | x => x) [] from rfl]
  refine deser_leaf m ?_
  have hu : ∀ x d, unpackPrim t none x d = some (do let s ← deserializeString x; return .sc (.str s)) := by
    intro x d
    simp only [List.mem_cons, List.not_mem_nil, or_false] at ht
    rcases ht with rfl | rfl | rfl | rfl <;> rfl
  rw [hu]
  generalize serializeString s = t at hd
  cases t with
  | nil =>
    have : deserializeString none = .ok s := by rw [← hd]; decide +kernel
    simp only [this, bind, Except.bind, pure, Except.pure]
  | cons c cs => simp only [hd, bind, Except.bind, pure, Except.pure]

theorem tag_round {t : Tag} {s : Scalar} (h : TagFits t s) (n : Option PyStr) (hn : ∀ x, n = some x → ∀ c ∈ x, XmlSafe c)
    (o : Bool) (st : SerState) :
    t ≠ .star ∧ ∃ tx, ser (.plain t n o) (.sc s) st = .ok (some (.node t none n (some tx) []), st) ∧
      (Xml.node t none n (some tx) []).Sendable ∧
      ∀ m d, deser m (Xml.node t none n (some tx) []).reparse d = .ok (.sc s, d) := by
  cases s with
  | none => exact absurd h (by simp [TagFits])
  | bool b =>
    have h : t = .B := h
    subst h
    have : ∀ c ∈ "false".toList ++ "true".toList, 32 ≤ c.toNat ∧ c.toNat < 127 := by decide
    refine ⟨by decide, (if b then "true".toList else "false".toList), by cases b <;> rfl, ?_, ?_⟩
    · refine sendable_leaf hn fun c hc => ?_
      have := this c (by
        cases b
        · exact List.mem_append_left _ hc
        · exact List.mem_append_right _ hc)
      exact xmlSafe_ascii this.1 this.2
    · intro m d
      cases b <;> exact deser_leaf m rfl
  | int i =>
    have h : t ∈ [Tag.By, .SB, .U16, .I16, .U32, .I32, .U64, .I64] := h
    simp only [List.mem_cons, List.not_mem_nil, or_false] at h
    refine ⟨by rintro rfl; simp at h, pyStrInt i, ?_, sendable_leaf hn (safe_pyStrInt i), fun m d => ?_⟩
    · rcases h with rfl | rfl | rfl | rfl | rfl | rfl | rfl | rfl <;> rfl
    · rw [reparse_leaf _ _ (pyStrInt_ne_nil i)]
      refine deser_leaf m ?_
      have : unpackPrim t none (some (pyStrInt i)) d = some (intOf (some (pyStrInt i))) := by
        rcases h with rfl | rfl | rfl | rfl | rfl | rfl | rfl | rfl <;> rfl
      rw [this]
      simp only [intOf, pyInt_pyStrInt, bind, Except.bind, pure, Except.pure]
  | bytes b =>
    obtain ⟨rfl, hb⟩ := h
    refine ⟨by decide, b64Encode b, rfl, sendable_leaf hn (safe_b64 b), fun m d => ?_⟩
    rw [reparse_leaf _ _ (b64_ne_nil hb)]
    refine deser_leaf m ?_
    simp only [unpackPrim, b64DecodeStr_encode, bind, Except.bind, pure, Except.pure]
  | guid u =>
    have h : t = .G := h
    subst h
    refine ⟨by decide, u.toStr, rfl, sendable_leaf hn (safe_uuid u), fun m d => ?_⟩
    rw [reparse_leaf _ _ (uuid_ne_nil u)]
    refine deser_leaf m ?_
    simp only [unpackPrim, parseUUID_toStr, bind, Except.bind, pure, Except.pure]
  | str s =>
    rcases h with ⟨h, hs⟩ | ⟨rfl, hs⟩ | ⟨h, hne, hs⟩
    · refine ⟨by rintro rfl; simp at h, serializeString s, ?_, sendable_leaf hn (safe_serializeString s hs.2), str_leaf h hs n⟩
      simp only [List.mem_cons, List.not_mem_nil, or_false] at h
      rcases h with rfl | rfl | rfl | rfl <;> rfl
    · match s, hs with
      | [c], _ =>
        refine ⟨by decide, pyStrNat c.toNat, rfl, sendable_leaf hn (safe_pyStrNat _), fun m d => ?_⟩
        rw [reparse_leaf _ _ (pyStrNat_ne_nil _)]
        refine deser_leaf m ?_
        have hp : pyInt (pyStrNat c.toNat) = .ok (c.toNat : Int) := by
          have := pyInt_pyStrInt (c.toNat : Int)
          rwa [show pyStrInt (c.toNat : Int) = pyStrNat c.toNat from by simp [pyStrInt]] at this
        have hv : c.toNat.isValidChar := c.valid
        have hc : Char.ofNat c.toNat = c := Char.ofNat_toNat c
        simp [unpackPrim, hp, bind, Except.bind, pure, Except.pure, hv, hc]
    · refine ⟨by rintro rfl; simp at h, s, ?_, sendable_leaf hn hs, fun m d => ?_⟩
      · simp only [List.mem_cons, List.not_mem_nil, or_false] at h
        rcases h with rfl | rfl | rfl <;> rfl
      · rw [reparse_leaf _ _ hne]
        refine deser_leaf m ?_
        simp only [List.mem_cons, List.not_mem_nil, or_false] at h
        rcases h with rfl | rfl | rfl <;> rfl

/-! ### Values under the metadata of a property -/

/-- The element tags that a property with the metadata is looked up by. -/
def TagOf (m : Meta) (x : Xml) : Prop := m.tag = .star ∨ (x.tag = m.tag ∧ fieldTags m.tag = [m.tag]) ∨
  (x.tag = .Obj ∧ fieldTags m.tag = [.Obj, .Ref])

/-- What is to be shown for the value of a property: nothing is written for an optional None, a Nil for another None, and
otherwise an element that is read as the value. -/
def FieldRounds (m : Meta) (r : DMeta) (v : PyVal) : Prop :=
  ∀ st d, TnAgree Known st d → st.objs = [] → ∃ ox st', ser m v st = .ok (ox, st') ∧ st'.objs = [] ∧
    match ox with
    | none => v = .sc .none ∧ m.optional = true ∧ TnAgree Known st' d
    | some x => x.name = m.name ∧ x.Sendable ∧
      ((v = .sc .none ∧ m.optional = false ∧ m.tag ≠ .Nil ∧ x = .node .Nil none m.name none [] ∧ TnAgree Known st' d) ∨
        (TagOf m x ∧ ∃ v' d', deser r x.reparse d = .ok (v', d') ∧ v'.forget = v.forget ∧ TnAgree Known st' d'))

theorem sendable_nil {n : Option PyStr} (hn : ∀ x, n = some x → ∀ c ∈ x, XmlSafe c) :
    (Xml.node .Nil none n none []).Sendable := by
  rw [Xml.Sendable]
  exact ⟨by simp, hn, by simp, by simp⟩

theorem tagFine_tag {m : Meta} (h : tagFine m = true) : packable m.tag = true ∨ m.tag = .star := by
  unfold tagFine at h
  split at h <;> simp_all [Meta.tag]

theorem none_rounds {m : Meta} (hm : MetaFine m) (r : DMeta) : FieldRounds m r (.sc .none) := by
  have hp := tagFine_tag hm.2.2
  intro st d hi ho
  have hp' : packable (m.settle (.sc .none)).tag = true := by
    unfold Meta.settle
    split
    · cases m <;> rfl
    · rcases hp with h | h
      · exact h
      · contradiction
  have ho' : (m.settle (.sc .none)).optional = m.optional := by
    unfold Meta.settle; split <;> cases m <;> rfl
  have hn' : (m.settle (.sc .none)).name = m.name := by
    unfold Meta.settle; split <;> cases m <;> rfl
  have hnil : m.tag ≠ .Nil := by
    intro h
    rw [h] at hp
    simp [packable] at hp
  cases hopt : m.optional with
  | true =>
    refine ⟨none, st, ?_, ho, rfl, rfl, hi⟩
    simp [ser, serScalar, hp', ho', hopt, bind, Except.bind, pure, Except.pure]
  | false =>
    refine ⟨some (.node .Nil none m.name none []), st, ?_, ho, rfl, sendable_nil hm.1, .inl ⟨rfl, rfl, hnil, rfl, hi⟩⟩
    simp [ser, serScalar, hp', ho', hopt, hn', bind, Except.bind, pure, Except.pure]

theorem fieldTags_prim {t : Tag} (h : t ∉ [Tag.DCT, .LST, .IE, .QUE, .STK, .ObjDynamic]) : fieldTags t = [t] := by
  unfold fieldTags
  rw [if_neg h]

theorem tagFits_prim {t : Tag} {s : Scalar} (h : TagFits t s) : fieldTags t = [t] := by
  apply fieldTags_prim
  intro ht
  simp only [List.mem_cons, List.not_mem_nil, or_false] at ht
  cases s <;> rcases ht with rfl | rfl | rfl | rfl | rfl | rfl <;> simp [TagFits] at h

theorem scalar_rounds {t : Tag} {n : Option PyStr} {o : Bool} {s : Scalar} (hm : MetaFine (.plain t n o)) (h : TagFits t s) :
    FieldRounds (.plain t n o) (.plain t) (.sc s) := by
  intro st d hi ho
  obtain ⟨-, tx, h1, h2, h3⟩ := tag_round h n hm.1 o st
  exact ⟨_, st, h1, ho, rfl, h2, .inr ⟨.inr (.inl ⟨rfl, tagFits_prim h⟩), _, d, h3 _ d, rfl, hi⟩⟩

theorem any_rounds {n : Option PyStr} {o : Bool} {v : PyVal} (hm : MetaFine (.plain .star n o)) (h : PlainValue v) :
    FieldRounds (.plain .star n o) (.plain .star) v := by
  by_cases hv : v = .sc .none
  · subst hv
    exact none_rounds hm _
  · intro st d hi ho
    obtain ⟨x, st', h1, h2, h3, h4, d', h5, h6⟩ := roundTrips_of_plain known_ok known_container h n hm.1 st d hi
    exact ⟨some x, st', h1 o (.inl hv), h4.trans ho, h2, h3, .inr ⟨.inl rfl, v, d', h5 _, rfl, h6⟩⟩

theorem nil_round (n : Option PyStr) (m : DMeta) (d : DeState) :
    deser m (Xml.node .Nil none n none []).reparse d = .ok (.sc .none, d) := deser_leaf m rfl

/-- Elements of a list with a tag. -/
theorem tagged_list {t : Tag} {xs : List PyVal} (h : ∀ x ∈ xs, ∃ s, x = .sc s ∧ (s = .none ∨ TagFits t s))
    (ht : packable t = true ∨ t = .star) (st : SerState) :
    ∃ ks, serList (.plain t none false) xs st = .ok (ks, st) ∧ (∀ k ∈ ks, k.Sendable) ∧
      ∀ sh m d, deAll sh m (reparseAll ks) d = .ok (xs, d) := by
  induction xs with
  | nil => exact ⟨[], rfl, by simp, fun _ _ _ => rfl⟩
  | cons x xs ih =>
    obtain ⟨s, rfl, hs⟩ := h x (by simp)
    obtain ⟨ks, hks, hsk, hdk⟩ := ih fun x hx => h x (List.mem_cons_of_mem _ hx)
    have : ∃ y, ser (.plain t none false) (.sc s) st = .ok (some y, st) ∧ y.Sendable ∧
        ∀ m d, deser m y.reparse d = .ok (.sc s, d) := by
      rcases hs with rfl | hs
      · refine ⟨.node .Nil none none none [], ?_, sendable_nil (by simp), nil_round none⟩
        rcases ht with ht | rfl
        · have h1 : ((Meta.plain t none false).settle (.sc .none)).tag = t ∨
              ((Meta.plain t none false).settle (.sc .none)).tag = .S := by
            unfold Meta.settle; split <;> simp [Meta.setTag, Meta.tag, naturalTag, scalarTag]
          have h2 : packable ((Meta.plain t none false).settle (.sc .none)).tag = true := by
            rcases h1 with h | h <;> rw [h]
            · exact ht
            · rfl
          have h3 : ((Meta.plain t none false).settle (.sc .none)).optional = false := by
            unfold Meta.settle; split <;> rfl
          have h4 : ((Meta.plain t none false).settle (.sc .none)).name = none := by
            unfold Meta.settle; split <;> rfl
          simp [ser, serScalar, h2, h3, h4, bind, Except.bind, pure, Except.pure]
        · rfl
      · obtain ⟨-, tx, h1, h2, h3⟩ := tag_round hs none (by simp) false st
        exact ⟨_, h1, h2, h3⟩
    obtain ⟨y, hy, hsy, hd⟩ := this
    refine ⟨y :: ks, ?_, ?_, fun sh m d => ?_⟩
    · simp only [serList, hy, hks, bind, Except.bind, pure, Except.pure, kidsOf, List.cons_append, List.nil_append]
    · intro k hk
      rcases List.mem_cons.mp hk with rfl | hk
      · exact hsy
      · exact hsk k hk
    · simp only [reparseAll, deAll, hd, hdk, bind, Except.bind, pure, Except.pure]

/-- Elements of a list without tag; the reader's metadata keeps the tag of the first. -/
theorem any_list {xs : List PyVal} (h : ∀ x ∈ xs, PlainValue x) {st : SerState} {d : DeState} (hi : TnAgree Known st d) :
    ∃ ks st', serList (.plain .star none false) xs st = .ok (ks, st') ∧ (∀ k ∈ ks, k.Sendable) ∧ st'.objs = st.objs ∧
      ∃ d', (∀ t, deAll true (.plain t) (reparseAll ks) d = .ok (xs, d')) ∧ TnAgree Known st' d' := by
  induction xs generalizing st d with
  | nil => exact ⟨[], st, rfl, by simp, rfl, d, fun _ => rfl, hi⟩
  | cons x xs ih =>
    obtain ⟨y, st1, h1, -, h3, h4, d1, h5, h6⟩ :=
      roundTrips_of_plain known_ok known_container (h x (by simp)) none (by simp) st d hi
    obtain ⟨ks, st2, k1, k2, k3, d2, k4, k5⟩ := ih (fun x hx => h x (List.mem_cons_of_mem _ hx)) h6
    refine ⟨y :: ks, st2, ?_, ?_, k3.trans h4, d2, fun t => ?_, k5⟩
    · simp only [serList, h1 false (.inr rfl), k1, bind, Except.bind, pure, Except.pure, kidsOf, List.cons_append,
        List.nil_append]
    · intro k hk
      rcases List.mem_cons.mp hk with rfl | hk
      · exact h3
      · exact k2 k hk
    · obtain ⟨t', ht'⟩ := settle_plain t y.reparse.tag
      simp only [reparseAll, deAll, h5, ht', k4, bind, Except.bind, pure, Except.pure, if_true]

theorem list_rounds {n : Option PyStr} {o : Bool} {ts : List PyStr} {t : Tag} {xs : List PyVal}
    (hm : MetaFine (.list .lst .LST n o (.plain t none false) ts))
    (h : ∀ st d, TnAgree Known st d → ∃ ks st', serList (.plain t none false) xs st = .ok (ks, st') ∧ (∀ k ∈ ks, k.Sendable) ∧
      st'.objs = st.objs ∧ ∃ d', deAll true (.plain t) (reparseAll ks) d = .ok (xs, d') ∧ TnAgree Known st' d') :
    FieldRounds (.list .lst .LST n o (.plain t none false) ts) (.list (.plain t)) (.list xs) := by
  intro st d hi ho
  have hi' : TnAgree Known (newObjId st).2 d := hi
  obtain ⟨tn, st1, htn, hts, htag, ho1, d1, hg, hi1, -⟩ := tn_round' known_ok (hm.2.1 ts (by simp [metaTypes])) hi'
  obtain ⟨ks, st2, hks, hsend, ho2, d2, hde, hi2⟩ := h st1 d1 hi1
  refine ⟨some (.node .Obj (some (pyStrNat st.objId)) n none [tn, .node .LST none none none ks]), st2, ?_,
    ho2.trans (ho1.trans ho), rfl, sendable_obj (safe_pyStrNat _) hm.1 hts hsend, .inr ⟨.inr (.inr ⟨rfl, rfl⟩), .list xs,
      { d2 with objs := assign d2.objs (pyStrNat st.objId) (.list xs) }, ?_, rfl, hi2⟩⟩
  · simp only [ser, Meta.settle, Meta.tag, Meta.name, listTypesOf, listElem, newObjId,
      true_or, if_true, reduceCtorEq, if_false] at htn ⊢
    simp only [htn, hks, bind, Except.bind, pure, Except.pure, setName_obj]
  · have hne : tn.reparse.tag ≠ .LST := by
      rw [tag_reparse]; rcases htag with h | h <;> rw [h] <;> decide
    have hs : (DMeta.list (.plain t)).settle .Obj = .list (.plain t) := by simp [DMeta.settle]
    simp only [Xml.reparse, reparseAll, deser]
    rw [hg _ (by simp [tag_node])]
    simp only [bind, Except.bind, unpackPrim, hs, chooseMeta, deFind_second hne, hde, if_true, pure, Except.pure]

theorem dict_rounds {n : Option PyStr} {o : Bool} {ts : List PyStr} {es : List (PyVal × PyVal)}
    (hm : MetaFine (.dict .DCT n o (.plain .star (some "Key".toList) false) (.plain .star (some "Value".toList) false) ts))
    (h : PlainValue (.dict es)) :
    FieldRounds (.dict .DCT n o (.plain .star (some "Key".toList) false) (.plain .star (some "Value".toList) false) ts) .dict
      (.dict es) := by
  intro st d hi ho
  have hi' : TnAgree Known (newObjId st).2 d := hi
  obtain ⟨tn, st1, htn, hts, htag, ho1, d1, hg, hi1, -⟩ := tn_round' known_ok (hm.2.1 ts (by simp [metaTypes])) hi'
  cases h with | dict hk hd hv =>
  obtain ⟨ks, st2, hks, hsend, ho2, d2, hde, hi2⟩ := entries_round (acc := []) hk (by simpa using hd.imp keyEq_different)
    (fun e he => roundTrips_of_plain known_ok known_container (hv e he)) hi1
  refine ⟨some (.node .Obj (some (pyStrNat st.objId)) n none [tn, .node .DCT none none none ks]), st2, ?_,
    ho2.trans (ho1.trans ho), rfl, sendable_obj (safe_pyStrNat _) hm.1 hts hsend, .inr ⟨.inr (.inr ⟨rfl, rfl⟩), .dict es,
      { d2 with objs := assign d2.objs (pyStrNat st.objId) (.dict es) }, ?_, rfl, hi2⟩⟩
  · simp only [ser, Meta.settle, Meta.tag, Meta.name, dictTypesOf, dictKey, dictValue, newObjId,
      if_true, reduceCtorEq, if_false] at htn ⊢
    simp only [htn, hks, bind, Except.bind, pure, Except.pure, setName_obj]
  · have hne : tn.reparse.tag ≠ .DCT := by
      rw [tag_reparse]; rcases htag with h | h <;> rw [h] <;> decide
    have hs : (DMeta.dict).settle .Obj = .dict := by simp [DMeta.settle]
    simp only [Xml.reparse, reparseAll, deser]
    rw [hg _ (by simp [tag_node])]
    simp only [bind, Except.bind, unpackPrim, hs, chooseMeta, deDct_second hne, hde, if_true, pure, Except.pure,
      List.nil_append]

/-! ### Reading a group of properties -/

/-- Elements that cannot be found for a property. -/
def Avoids (f : Field) (x : Xml) : Prop :=
  ∀ t, t ∈ fieldTags f.write.tag ∨ (t = .Nil ∧ f.write.optional = false) → fieldMatch t f.write.name x = false

/-- Elements that were written for a property. -/
def ElemOf (f : Field) (x : Xml) : Prop :=
  x.name = f.write.name ∧ (x.tag = .Nil ∨ TagOf f.write x)

theorem apart_avoids {f g : Field} (h : apart f g = true) {x : Xml} (hx : ElemOf g x) : Avoids f x := by
  intro t ht
  unfold apart at h
  simp only [Bool.or_eq_true, Bool.and_eq_true, bne_iff_ne, ne_eq, beq_iff_eq, decide_eq_true_eq] at h
  rcases h with ⟨h1, h2⟩ | ⟨⟨⟨h1, h2⟩, h3⟩, h4⟩
  · have : (f.write.name == none) = false := by
      cases hn : f.write.name with
      | none => simp [hn] at h1
      | some n => rfl
    unfold fieldMatch
    rw [this, hx.1]
    have : (g.write.name == f.write.name) = false := by simpa using fun h => h2 h.symm
    rw [this]
    simp
  · have ht' : t = .Obj := by
      rcases ht with ht | ht
      · rw [h3] at ht
        simpa [fieldTags] using ht
      · rw [h2] at ht; simp at ht
    subst ht'
    have hxt : x.tag ≠ .Obj := by
      intro hxt
      rcases hx.2 with h | h | ⟨h, -⟩ | ⟨-, h⟩
      · rw [h] at hxt; cases hxt
      · rw [h] at h4; simp at h4
      · rw [h] at hxt; rw [hxt] at h4; simp at h4
      · simp only [List.mem_cons, List.not_mem_nil, or_false] at h4
        rcases h4 with h4 | h4 | h4 | h4 | h4 | h4 | h4 | h4 | h4 | h4 | h4 | h4 | h4 | h4 | h4 | h4 | h4 <;>
          rw [h4] at h <;> simp [fieldTags] at h
    unfold fieldMatch
    simp [hxt]

theorem tagOf_reparse {m : Meta} {x : Xml} (h : TagOf m x) : TagOf m x.reparse := by
  unfold TagOf at h ⊢
  rwa [tag_reparse]

/-- How one property is read: nothing, a Nil, or an element that gives the value. -/
def PropStep (f : Field) (v : PyVal) (ox : Option Xml) (d d1 : DeState) : Prop :=
  match ox with
  | none => v = .sc .none ∧ f.write.optional = true ∧ d1 = d
  | some x => x.name = f.write.name ∧ ((v = .sc .none ∧ f.write.optional = false ∧ f.write.tag ≠ .Nil ∧
      x = .node .Nil none f.write.name none [] ∧ d1 = d) ∨ (TagOf f.write x ∧ ∃ v', deser f.read x.reparse d = .ok (v', d1) ∧ v'.forget = v.forget))

inductive Back : List Field → List (Meta × PyVal) → List (Option Xml) → DeState → DeState → Prop
  | nil {d : DeState} : Back [] [] [] d d
  | cons {f : Field} {fs : List Field} {m : Meta} {v : PyVal} {vs : List (Meta × PyVal)} {ox : Option Xml} {oxs : List (Option Xml)}
      {d d1 d2 : DeState} (h : PropStep f v ox d d1) (t : Back fs vs oxs d1 d2) : Back (f :: fs) ((m, v) :: vs) (ox :: oxs) d d2

theorem step_elem {f : Field} {v : PyVal} {x : Xml} {d d1 : DeState} (h : PropStep f v (some x) d d1) : ElemOf f x.reparse := by
  obtain ⟨h1, h2⟩ := h
  refine ⟨by rw [name_reparse, h1], ?_⟩
  rcases h2 with ⟨-, -, -, rfl, -⟩ | ⟨h, -⟩
  · exact .inl rfl
  · exact .inr (tagOf_reparse h)

theorem back_elems {fs : List Field} {vs : List (Meta × PyVal)} {oxs : List (Option Xml)} {d d' : DeState}
    (h : Back fs vs oxs d d') : ∀ x ∈ reparseAll (oxs.flatMap kidsOf), ∃ f ∈ fs, ElemOf f x := by
  induction h with
  | nil => simp [reparseAll]
  | cons h t ih =>
    rename_i f fs m v vs ox oxs d d1 d2
    intro x hx
    rw [reparseAll_eq_map, List.flatMap_cons, List.map_append, List.mem_append] at hx
    rcases hx with hx | hx
    · cases ox with
      | none => simp [kidsOf] at hx
      | some y =>
        simp only [kidsOf, List.map_cons, List.map_nil, List.mem_cons, List.not_mem_nil, or_false] at hx
        subst hx
        exact ⟨f, by simp, step_elem h⟩
    · obtain ⟨g, hg, h'⟩ := ih x (by rwa [reparseAll_eq_map])
      exact ⟨g, List.mem_cons_of_mem _ hg, h'⟩

theorem find_one (p : Xml → Bool) (y : Xml) : [y].find? p = if p y then some y else none := by
  cases h : p y <;> simp [h]

theorem find_among {p : Xml → Bool} {P Q R : List Xml} (hP : ∀ x ∈ P, p x = false) (hR : ∀ x ∈ R, p x = false) :
    (P ++ Q ++ R).find? p = Q.find? p := by
  have h1 : P.find? p = none := List.find?_eq_none.mpr fun x hx => by simp [hP x hx]
  have h2 : R.find? p = none := List.find?_eq_none.mpr fun x hx => by simp [hR x hx]
  simp [List.find?_append, h1, h2]

/-- Reading the properties of a group, when nothing else can be taken for one of them. -/
theorem back_read {c : ClassDef} (hro : c.readOnly = []) {fs : List Field} {vs : List (Meta × PyVal)} {oxs : List (Option Xml)}
    {d d' : DeState} (hb : Back fs vs oxs d d') (inside : Option Tag) (kids P R : List Xml)
    (hk : ∀ t n, findField inside t n kids = (P ++ reparseAll (oxs.flatMap kidsOf) ++ R).find? (fieldMatch t n))
    (hP : ∀ f ∈ fs, ∀ x ∈ P, Avoids f x) (hR : ∀ f ∈ fs, ∀ x ∈ R, Avoids f x) (ha : allApart fs = true) :
    ∃ vs', readProps c (fun f t st => deLook inside t f.write.name f.read kids st)
      (fun f t => findField inside t f.write.name kids) fs d = .ok (vs', d') ∧ forgetAll vs' = forgetAll vs := by
  induction hb generalizing P with
  | nil => exact ⟨[], rfl, rfl⟩
  | cons h t ih =>
    rename_i f fs m v vs ox oxs d d1 d2
    simp only [allApart, Bool.and_eq_true, List.all_eq_true] at ha
    obtain ⟨vs', h1, h2⟩ := ih (P ++ (kidsOf ox).map Xml.reparse)
      (fun t n => by rw [hk]; simp [reparseAll_eq_map])
      (fun g hg x hx => by
        rcases List.mem_append.mp hx with hx | hx
        · exact hP g (List.mem_cons_of_mem _ hg) x hx
        · cases ox with
          | none => simp [kidsOf] at hx
          | some y =>
            simp only [kidsOf, List.map_cons, List.map_nil, List.mem_cons, List.not_mem_nil, or_false] at hx
            subst hx
            exact apart_avoids (ha.1 g hg).2 (step_elem h))
      (fun g hg => hR g (List.mem_cons_of_mem _ hg)) ha.2
    -- the elements that are found for the first property are its own
    have hown : ∀ tg, tg ∈ fieldTags f.write.tag ∨ (tg = .Nil ∧ f.write.optional = false) →
        findField inside tg f.write.name kids = ((kidsOf ox).map Xml.reparse).find? (fieldMatch tg f.write.name) := by
      intro tg htg
      rw [hk, reparseAll_eq_map, List.flatMap_cons, List.map_append, List.append_assoc P, List.append_assoc, ← List.append_assoc P]
      refine find_among (fun x hx => hP f (by simp) x hx tg htg) fun x hx => ?_
      rcases List.mem_append.mp hx with hx | hx
      · obtain ⟨g, hg, hgx⟩ := back_elems t x (by rwa [reparseAll_eq_map])
        exact apart_avoids (ha.1 g hg).1 hgx tg htg
      · exact hR f (by simp) x hx tg htg
    have hread : ∃ m' v', readProp c f (fun t st => deLook inside t f.write.name f.read kids st)
        (fun t => findField inside t f.write.name kids) d = .ok ((m', v'), d1) ∧ v'.forget = v.forget := by
      rw [readProp_eq]
      have hel : fieldElem inside f kids =
          (fieldTags f.write.tag).findSome? (fun t => ((kidsOf ox).map Xml.reparse).find? (fieldMatch t f.write.name)) := by
        unfold fieldElem
        have : ∀ l : List Tag, (∀ t ∈ l, t ∈ fieldTags f.write.tag) → l.findSome? (fun t => findField inside t f.write.name kids) =
            l.findSome? (fun t => ((kidsOf ox).map Xml.reparse).find? (fieldMatch t f.write.name)) := by
          intro l
          induction l with
          | nil => simp
          | cons a l ih =>
            intro hl
            rw [List.findSome?_cons, List.findSome?_cons, hown a (.inl (hl a (by simp))),
              ih fun t ht => hl t (List.mem_cons_of_mem _ ht)]
        exact this _ fun t ht => ht
      rw [hel]
      cases ox with
      | none =>
        obtain ⟨rfl, ho, rfl⟩ := h
        simp only [kidsOf, List.map_nil, List.find?_nil]
        rw [List.findSome?_eq_none_iff.mpr (fun _ _ => rfl)]
        exact ⟨f.write, .sc .none, by simp [ho], rfl⟩
      | some x =>
        obtain ⟨hn, h⟩ := h
        have hmatch : ∀ t : Tag, fieldMatch t f.write.name x.reparse = (t == .star || x.tag == t) := by
          intro t
          unfold fieldMatch
          rw [name_reparse, tag_reparse, hn]
          simp
        simp only [kidsOf, List.map_cons, List.map_nil, find_one, hmatch]
        rcases h with ⟨rfl, ho, hnt, rfl, rfl⟩ | ⟨htag, v', hd, hv⟩
        · by_cases hs : f.write.tag = .star
          · refine ⟨f.write.readWith (Xml.node .Nil none f.write.name none []).reparse, .sc .none, ?_, rfl⟩
            rw [show fieldTags f.write.tag = [Tag.star] by rw [hs]; rfl]
            simp [nil_round, Except.map]
          · refine ⟨f.write, .sc .none, ?_, rfl⟩
            have : (fieldTags f.write.tag).findSome? (fun t => if (t == .star ||
                (Xml.node .Nil none f.write.name none []).tag == t) = true
                then some (Xml.node .Nil none f.write.name none []).reparse else none) = none := by
              rw [List.findSome?_eq_none_iff]
              intro t ht
              unfold fieldTags at ht
              split at ht
              · simp only [List.mem_cons, List.not_mem_nil, or_false] at ht
                rcases ht with rfl | rfl <;> rfl
              · simp only [List.mem_cons, List.not_mem_nil, or_false] at ht
                subst ht
                have : (Tag.Nil == f.write.tag) = false := by simpa using fun h => hnt h.symm
                simp [hs, tag_node, this]
            rw [this]
            have hnil := hown .Nil (.inr ⟨rfl, ho⟩)
            simp only [kidsOf, List.map_cons, List.map_nil, find_one, hmatch] at hnil
            simp [ho, hnil, tag_node]
        · have : (fieldTags f.write.tag).findSome? (fun t => if (t == .star || x.tag == t) = true then
              some x.reparse else none) = some x.reparse := by
            rcases htag with h | ⟨h1, h2⟩ | ⟨h1, h2⟩
            · rw [h]; rfl
            · rw [h2]; simp [h1]
            · rw [h2]; simp [h1]
          rw [this]
          exact ⟨f.write.readWith x.reparse, v', by simp [hd, Except.map], hv⟩
    obtain ⟨m', v', h3, h4⟩ := hread
    refine ⟨(m', v') :: vs', ?_, by simp [forgetAll, h2, h4]⟩
    rw [readProps]
    simp only [h3, h1, hro, bind, Except.bind, List.not_mem_nil, if_false]

theorem refFor_nil {st : SerState} (h : st.objs = []) (v : PyVal) : refFor st v = none := by
  unfold refFor
  split
  · simp [findRef, h]
  · rfl

/-- Writing the properties of a group. -/
theorem props_write {fs : List Field} {vs : List (Meta × PyVal)} (hc : Declared fs vs)
    (h : ∀ p ∈ fs.zip vs, FieldRounds p.1.write p.1.read p.2.2) {st : SerState} {d : DeState} (hi : TnAgree Known st d)
    (ho : st.objs = []) :
    ∃ oxs st', serProps vs st = .ok (oxs.flatMap kidsOf, st') ∧ (∀ k ∈ oxs.flatMap kidsOf, k.Sendable) ∧ st'.objs = [] ∧
      ∃ d', Back fs vs oxs d d' ∧ TnAgree Known st' d' := by
  induction fs generalizing vs st d with
  | nil =>
    have : vs = [] := by simpa [Declared] using hc
    subst this
    exact ⟨[], st, rfl, by simp, ho, d, .nil, hi⟩
  | cons f fs ih =>
    match vs, hc with
    | (m, v) :: vs, hc =>
      simp only [Declared, List.map_cons, List.cons.injEq] at hc
      obtain ⟨hm, hc⟩ := hc
      subst hm
      have hf := h (f, (f.write, v)) (by simp)
      obtain ⟨ox, st1, h1, h2, h3⟩ := hf st d hi ho
      have hst : ∃ d1, PropStep f v ox d d1 ∧ TnAgree Known st1 d1 ∧ ∀ k ∈ kidsOf ox, k.Sendable := by
        cases ox with
        | none => exact ⟨d, ⟨h3.1, h3.2.1, rfl⟩, h3.2.2, by simp [kidsOf]⟩
        | some x =>
          obtain ⟨hn, hs, h3⟩ := h3
          rcases h3 with ⟨a, b, c, e, g⟩ | ⟨a, v', d', b, c, e⟩
          · exact ⟨d, ⟨hn, .inl ⟨a, b, c, e, rfl⟩⟩, g, by simpa [kidsOf] using hs⟩
          · exact ⟨d', ⟨hn, .inr ⟨a, v', b, c⟩⟩, e, by simpa [kidsOf] using hs⟩
      obtain ⟨d1, hs1, hi1, hk1⟩ := hst
      obtain ⟨oxs, st2, k1, k2, k3, d2, k4, k5⟩ := ih hc (fun p hp => h p (by simp [hp])) hi1 h2
      refine ⟨ox :: oxs, st2, ?_, ?_, k3, d2, .cons hs1 k4, k5⟩
      · rw [serProps]
        simp only [refFor_nil ho, h1, k1, bind, Except.bind, pure, Except.pure, List.flatMap_cons]
      · intro k hk
        rw [List.flatMap_cons, List.mem_append] at hk
        rcases hk with hk | hk
        · exact hk1 k hk
        · exact k2 k hk

/-! ### Texts -/

theorem joinWith_mem {sep : PyStr} {l : List PyStr} {c : Char} (h : c ∈ joinWith sep l) : c ∈ sep ∨ ∃ s ∈ l, c ∈ s := by
  fun_induction joinWith sep l with
  | case1 => simp at h
  | case2 p => exact .inr ⟨p, by simp, h⟩
  | case3 p q ps ih =>
    rcases List.mem_append.mp h with h | h
    · rcases List.mem_append.mp h with h | h
      · exact .inr ⟨p, by simp, h⟩
      · exact .inl h
    · rcases ih h with h | ⟨s, hs, h⟩
      · exact .inl h
      · exact .inr ⟨s, List.mem_cons_of_mem _ hs, h⟩

theorem asciiStr_mem {s : PyStr} : asciiStr s = true ↔ ∀ c ∈ s, (Nat.ble 32 c.toNat && Nat.ble c.toNat 126) = true := by
  unfold asciiStr
  exact List.all_eq_true

theorem flagNames_ascii {m : List (PyStr × Nat)} (hm : m.all (fun e => asciiStr e.1) = true) (v : Nat) :
    asciiStr (joinWith ", ".toList (flagNames m v)) = true := by
  rw [asciiStr_mem]
  intro c hc
  rcases joinWith_mem hc with h | ⟨s, hs, h⟩
  · exact asciiStr_mem.mp (by decide : asciiStr ", ".toList = true) c h
  · obtain ⟨e, he, rfl⟩ := List.mem_map.mp hs
    exact asciiStr_mem.mp (List.all_eq_true.mp hm e (List.mem_filter.mp he).1) c h

theorem flags_ascii {f : Option Nat → PyStr} (h : f = remoteStreamText ∨ f = commandTypeText) (v : Option Nat) :
    asciiStr (f v) = true := by
  rcases h with rfl | rfl
  · unfold remoteStreamText
    split
    · decide
    · exact flagNames_ascii (by decide +kernel) _
  · unfold commandTypeText
    split
    · decide
    · exact flagNames_ascii (by decide +kernel) _

theorem lookup_mem {α β : Type} [BEq α] {l : List (α × β)} {a : α} {b : β} (h : l.lookup a = some b) : ∃ k, (k, b) ∈ l := by
  induction l with
  | nil => simp at h
  | cons e l ih =>
    obtain ⟨k, v⟩ := e
    rw [List.lookup_cons] at h
    split at h
    · simp only [Option.some.injEq] at h
      exact ⟨k, by simp [h]⟩
    · obtain ⟨k', h'⟩ := ih h
      exact ⟨k', List.mem_cons_of_mem _ h'⟩

theorem text_ascii {name : PyStr} {c : ClassDef} (hc : findClass name = some c) {sets : List (Meta × PyVal)} {s : PyStr}
    (h : TextFits c.text sets (some s)) : asciiStr s = true := by
  have hf := class_text hc
  have hg := @class_flags name c hc
  cases ht : c.text with
  | attr d =>
    rw [ht] at h hf
    have h : some s = d := h
    subst h
    exact hf
  | enum m =>
    rw [ht] at h hf
    obtain ⟨k, hk⟩ := lookup_mem h.1.symm
    exact List.all_eq_true.mp hf _ hk
  | flags f =>
    rw [ht] at h
    have : s = f ((numberIn sets).map Int.toNat) := Option.some.inj h.1
    rw [this]
    exact flags_ascii (hg ht) _

/-- The text of an object is read back. -/
theorem read_text {text : Option PyStr} (h : ∀ s, text = some s → asciiStr s = true) {P R : List Xml}
    (hP : ∀ x ∈ P, x.tag ≠ .ToString) (hR : ∀ x ∈ R, x.tag ≠ .ToString) :
    readText (P ++ (toStringKids text).map Xml.reparse ++ R) = .ok text := by
  unfold readText
  rw [find_among (fun x hx => by simpa using hP x hx) (fun x hx => by simpa using hR x hx)]
  cases text with
  | none => rfl
  | some s =>
    have hd : deserializeString (some (serializeString s)) = .ok s := by
      apply C13_roundtrip_common_partial
      intro hs
      have := asciiStr_mem.mp (h s rfl) _ hs
      revert this
      decide
    have e : (toStringKids (some s)).map Xml.reparse = [.node .ToString none none
        (match some (serializeString s) with | some [] => none | x => x) []] := rfl
    rw [e, find_one]
    simp only [tag_node, decide_true, if_true]
    generalize serializeString s = t at hd
    cases t with
    | nil =>
      have : deserializeString none = .ok s := by rw [← hd]; decide +kernel
      simp only [Xml.text, this, bind, Except.bind, pure, Except.pure]
    | cons a b => simp only [Xml.text, hd, bind, Except.bind, pure, Except.pure]

theorem toString_sendable {text : Option PyStr} (h : ∀ s, text = some s → asciiStr s = true) :
    ∀ k ∈ toStringKids text, k.Sendable := by
  cases text with
  | none => simp [toStringKids]
  | some s =>
    intro k hk
    simp only [toStringKids, List.mem_cons, List.not_mem_nil, or_false] at hk
    subst hk
    refine sendable_leaf (by simp) (safe_serializeString s fun c hc => ?_)
    have := asciiStr_mem.mp (h s rfl) c hc
    simp only [Bool.and_eq_true, Nat.ble_eq] at this
    omega

theorem forget_int {v : PyVal} {i : Int} (h : v.forget = .sc (.int i)) : v = .sc (.int i) := by
  cases v <;> simp_all [PyVal.forget]

theorem number_forget {a b : List (Meta × PyVal)} (h : forgetAll a = forgetAll b) : numberIn a = numberIn b := by
  have key : ∀ l, numberIn l = numberIn (forgetAll l) := by
    intro l
    match l with
    | [] => rfl
    | (m, v) :: r =>
      cases v with
      | sc s => cases s <;> rfl
      | _ => rfl
  rw [key a, key b, h]

/-- The text of the object that was read. -/
theorem objText_fits {c : ClassDef} {sets sets' : List (Meta × PyVal)} {text : Option PyStr} (h : TextFits c.text sets text)
    (hs : forgetAll sets' = forgetAll sets) : objText c text sets' = text := by
  have hn := number_forget hs
  have : objText c text sets' = match c.text with
    | .attr d => text.or d
    | .enum m => m.lookup ((numberIn sets').getD 0)
    | .flags f => some (f ((numberIn sets').map Int.toNat)) := by
    unfold objText numberIn
    rfl
  rw [this, hn]
  cases ht : c.text with
  | attr d =>
    rw [ht] at h
    have h : text = d := h
    subst h
    cases text <;> rfl
  | enum m => rw [ht] at h; exact h.1.symm
  | flags f => rw [ht] at h; exact h.1.symm

/-! ### A typed object -/

theorem tnOpt_round {types : List PyStr} (ht : types ≠ [] → Known types) {st : SerState} {d : DeState} (hi : TnAgree Known st d) :
    ∃ tns st', createTnOpt types st = .ok (tns, st') ∧ (∀ k ∈ tns, k.Sendable) ∧ (∀ k ∈ tns, k.tag = .TN ∨ k.tag = .TNRef) ∧
      st'.objs = st.objs ∧ ∃ d', (∀ rest : List Xml, (∀ y ∈ rest, y.tag ≠ .TN ∧ y.tag ≠ .TNRef) →
        getTypes (tns.map Xml.reparse ++ rest) d = .ok (types, d')) ∧ TnAgree Known st' d' := by
  cases types with
  | nil => exact ⟨[], st, rfl, by simp, by simp, rfl, d, fun rest hr => getTypes_rest rest d hr, hi⟩
  | cons a b =>
    obtain ⟨x, st', h1, h2, h3, h4, d', h5, h6, -⟩ := tn_round' known_ok (ht (by simp)) hi
    refine ⟨[x], st', ?_, by simpa using h2, by simpa using h3, h4, d', h5, h6⟩
    simp only [createTnOpt, h1, bind, Except.bind, pure, Except.pure]

/-- The elements of one kind of properties. -/
theorem group_find {A B : List Xml} {g : Tag} {es : List Xml} (hA : ∀ x ∈ A, x.tag ≠ g) (hB : ∀ x ∈ B, x.tag ≠ g) (t : Tag)
    (n : Option PyStr) :
    findField (some g) t n (A ++ Xml.node g none none none es :: B) = es.find? (fieldMatch t n) := by
  have nil : ∀ l : List Xml, (∀ x ∈ l, x.tag ≠ g) → l.flatMap (fun k => if k.tag = g then k.kids else []) = [] := by
    intro l hl
    rw [List.flatMap_eq_nil_iff]
    intro x hx
    rw [if_neg (hl x hx)]
  unfold findField
  simp only [List.flatMap_append, List.flatMap_cons, nil A hA, nil B hB, tag_node, kids_node, if_true, List.nil_append,
    List.append_nil]

theorem back_nil {vs : List (Meta × PyVal)} {oxs : List (Option Xml)} {d d' : DeState} (h : Back [] vs oxs d d') :
    vs = [] ∧ oxs = [] ∧ d = d' := by
  cases h
  exact ⟨rfl, rfl, rfl⟩

theorem carries_nil {fs : List Field} {vs : List (Meta × PyVal)} (h : Declared fs vs) : vs = [] ↔ fs = [] := by
  unfold Declared at h
  constructor <;> rintro rfl
  · simpa using h.symm
  · simpa using h

theorem map_tags {l : List Xml} {p : Tag → Prop} (h : ∀ x ∈ l, p x.tag) : ∀ x ∈ l.map Xml.reparse, p x.tag := by
  intro x hx
  obtain ⟨y, hy, rfl⟩ := List.mem_map.mp hx
  rw [tag_reparse]
  exact h y hy

theorem toString_tags (text : Option PyStr) : ∀ x ∈ toStringKids text, x.tag = .ToString := by
  cases text <;> simp [toStringKids, tag_node]

theorem set_tags {sets : List (Meta × PyVal)} {oxs : List (Option Xml)} {d d' : DeState} {a : PyStr} {r : DMeta}
    (h : Back [⟨a, .plain .I32 none false, r⟩] sets oxs d d') :
    ∀ x ∈ reparseAll (oxs.flatMap kidsOf), x.tag = .I32 ∨ x.tag = .Nil := by
  intro x hx
  obtain ⟨f, hf, -, h⟩ := back_elems h x hx
  simp only [List.mem_cons, List.not_mem_nil, or_false] at hf
  subst hf
  rcases h with h | h | ⟨h, -⟩ | ⟨-, h⟩
  · exact .inr h
  · simp [Meta.tag] at h
  · exact .inl h
  · simp [fieldTags, Meta.tag] at h

theorem readProps_nil (c : ClassDef) (look : Field → Tag → DeState → Option (Except PyErr (PyVal × DeState)))
    (find : Field → Tag → Option Xml) (d : DeState) : readProps c look find [] d = .ok ([], d) := rfl

/-- Reading the properties of all three kinds from the children of an object. -/
theorem groups_read {c : ClassDef} (hr : c.readable = true) {sets ext adp : List (Meta × PyVal)} (hs : Declared c.sets sets)
    (he : Declared c.extended ext) (ha : Declared c.adapted adp) {o1 o2 o3 : List (Option Xml)} {d1 d2 d3 d4 : DeState}
    (b1 : Back c.sets sets o1 d1 d2) (b2 : Back c.extended ext o2 d2 d3) (b3 : Back c.adapted adp o3 d3 d4)
    (P : List Xml) (hP : ∀ x ∈ P, x.tag = .TN ∨ x.tag = .TNRef ∨ x.tag = .ToString) :
    ∃ kids, kids = P ++ reparseAll (o1.flatMap kidsOf ++ (if ext = [] then [] else [.node .MS none none none (o2.flatMap kidsOf)]) ++
        (if adp = [] then [] else [.node .Props none none none (o3.flatMap kidsOf)])) ∧
      (∀ x ∈ reparseAll (o1.flatMap kidsOf ++ (if ext = [] then [] else [.node .MS none none none (o2.flatMap kidsOf)]) ++
        (if adp = [] then [] else [.node .Props none none none (o3.flatMap kidsOf)])),
        x.tag ≠ .TN ∧ x.tag ≠ .TNRef ∧ x.tag ≠ .ToString) ∧
      ∃ s' a' e' da, readProps c (fun f t st => deLook none t f.write.name f.read kids st)
          (fun f t => findField none t f.write.name kids) c.sets d1 = .ok (s', d2) ∧
        readProps c (fun f t st => deLook (some .Props) t f.write.name f.read kids st)
          (fun f t => findField (some .Props) t f.write.name kids) c.adapted d2 = .ok (a', da) ∧
        readProps c (fun f t st => deLook (some .MS) t f.write.name f.read kids st)
          (fun f t => findField (some .MS) t f.write.name kids) c.extended da = .ok (e', d4) ∧
        forgetAll s' = forgetAll sets ∧ forgetAll e' = forgetAll ext ∧ forgetAll a' = forgetAll adp := by
  refine ⟨_, rfl, ?_⟩
  have e1 := carries_nil he
  have e2 := carries_nil ha
  unfold ClassDef.readable at hr
  simp only [Bool.and_eq_true, List.isEmpty_iff] at hr
  obtain ⟨⟨⟨hro, hae⟩, haa⟩, hr⟩ := hr
  by_cases h0 : c.sets = []
  · rw [h0] at b1 ⊢
    obtain ⟨rfl, rfl, rfl⟩ := back_nil b1
    simp only [h0, if_true, Bool.or_eq_true, List.isEmpty_iff] at hr
    simp only [List.flatMap_nil, List.nil_append]
    by_cases hx : c.extended = []
    · rw [hx] at b2 ⊢
      obtain ⟨rfl, rfl, rfl⟩ := back_nil b2
      simp only [if_true, List.nil_append]
      by_cases hy : c.adapted = []
      · rw [hy] at b3 ⊢
        obtain ⟨rfl, rfl, rfl⟩ := back_nil b3
        exact ⟨by simp [reparseAll], [], [], [], d1, rfl, rfl, rfl, rfl, rfl, rfl⟩
      · rw [if_neg fun h => hy (e2.mp h)]
        refine ⟨by simp [reparseAll, Xml.reparse, tag_node], ?_⟩
        obtain ⟨a', r1, r2⟩ := back_read hro b3 (some .Props)
          (P ++ reparseAll [.node .Props none none none (o3.flatMap kidsOf)]) [] []
          (fun t n => by
            rw [show P ++ reparseAll [Xml.node .Props none none none (o3.flatMap kidsOf)] =
              P ++ .node .Props none none none (reparseAll (o3.flatMap kidsOf)) :: [] from rfl]
            rw [group_find (fun x hx => by rcases hP x hx with h | h | h <;> rw [h] <;> decide) (by simp)]
            simp) (by simp) (by simp) haa
        exact ⟨[], a', [], d4, rfl, r1, rfl, rfl, rfl, r2⟩
    · have hy : c.adapted = [] := hr.resolve_left hx
      rw [hy] at b3 ⊢
      obtain ⟨rfl, rfl, rfl⟩ := back_nil b3
      rw [if_neg fun h => hx (e1.mp h)]
      simp only [if_true, List.append_nil]
      refine ⟨by simp [reparseAll, Xml.reparse, tag_node], ?_⟩
      obtain ⟨e', r1, r2⟩ := back_read hro b2 (some .MS)
        (P ++ reparseAll [.node .MS none none none (o2.flatMap kidsOf)]) [] []
        (fun t n => by
          rw [show P ++ reparseAll [Xml.node .MS none none none (o2.flatMap kidsOf)] =
            P ++ .node .MS none none none (reparseAll (o2.flatMap kidsOf)) :: [] from rfl]
          rw [group_find (fun x hx => by rcases hP x hx with h | h | h <;> rw [h] <;> decide) (by simp)]
          simp) (by simp) (by simp) hae
      exact ⟨[], [], e', d1, rfl, rfl, r1, rfl, r2, rfl⟩
  · rw [if_neg (by simpa using h0)] at hr
    simp only [Bool.and_eq_true, beq_iff_eq, List.isEmpty_iff] at hr
    obtain ⟨⟨hv, hx⟩, hy⟩ := hr
    rw [hx] at b2
    rw [hy] at b3
    obtain ⟨rfl, rfl, rfl⟩ := back_nil b2
    obtain ⟨rfl, rfl, rfl⟩ := back_nil b3
    have ht : ∀ x ∈ reparseAll (o1.flatMap kidsOf), x.tag = .I32 ∨ x.tag = .Nil := set_tags (hv ▸ b1)
    simp only [if_true, List.append_nil]
    refine ⟨fun x hx => by rcases ht x hx with h | h <;> rw [h] <;> decide, ?_⟩
    obtain ⟨s', r1, r2⟩ := back_read hro b1 none (P ++ reparseAll (o1.flatMap kidsOf)) P []
      (fun t n => by simp [findField])
      (fun f hf x hx t htt => by
        rw [hv] at hf
        simp only [List.mem_cons, List.not_mem_nil, or_false] at hf
        subst hf
        have : t = .I32 ∨ t = .Nil := by
          rcases htt with h | h
          · simp only [fieldTags, Meta.tag] at h
            exact .inl (by simpa using h)
          · exact .inr h.1
        unfold fieldMatch
        rcases this with rfl | rfl <;> rcases hP x hx with h | h | h <;> rw [h] <;> rfl)
      (by simp) (by rw [hv]; rfl)
    rw [hx, hy]
    exact ⟨s', [], [], d2, r1, rfl, rfl, r2, rfl, rfl⟩

theorem typed_rounds {t : Tag} {n : Option PyStr} {o : Bool} {name : PyStr} {c : ClassDef} {oid : Nat} {text : Option PyStr}
    {sets ext adp : List (Meta × PyVal)} (hm : MetaFine (.plain t n o)) (ht : t = .Obj ∨ t = .star)
    (hc : findClass name = some c) (hr : c.readable = true) (hs : Declared c.sets sets) (he : Declared c.extended ext)
    (ha : Declared c.adapted adp) (hx : TextFits c.text sets text)
    (fs : ∀ p ∈ c.sets.zip sets, FieldRounds p.1.write p.1.read p.2.2)
    (fe : ∀ p ∈ c.extended.zip ext, FieldRounds p.1.write p.1.read p.2.2)
    (fa : ∀ p ∈ c.adapted.zip adp, FieldRounds p.1.write p.1.read p.2.2) :
    FieldRounds (.plain t n o) (.cls name) (.typed oid c.types text sets ext adp) := by
  intro st d hi ho
  have hi' : TnAgree Known (newObjId st).2 d := hi
  have htx : ∀ s, text = some s → asciiStr s = true := fun s h => text_ascii hc (h ▸ hx)
  obtain ⟨tns, st1, t1, t2, t3, t4, d1, t5, hi1⟩ := tnOpt_round (class_types hc) hi'
  obtain ⟨o1, st2, s1, s2, s3, d2, b1, hi2⟩ := props_write hs fs hi1 (t4.trans ho)
  obtain ⟨o2, st3, e1, e2, e3, d3, b2, hi3⟩ := props_write he fe hi2 s3
  obtain ⟨o3, st4, a1, a2, a3, d4, b3, hi4⟩ := props_write ha fa hi3 e3
  have hPt : ∀ x ∈ (tns ++ toStringKids text).map Xml.reparse, x.tag = .TN ∨ x.tag = .TNRef ∨ x.tag = .ToString := by
    refine map_tags (p := fun t => t = .TN ∨ t = .TNRef ∨ t = .ToString) fun x hx => ?_
    rcases List.mem_append.mp hx with h | h
    · rcases t3 x h with h | h
      · exact .inl h
      · exact .inr (.inl h)
    · exact .inr (.inr (toString_tags text x h))
  obtain ⟨kids, hk, htags, s', a', e', da, r1, r2, r3, g1, g2, g3⟩ := groups_read hr hs he ha b1 b2 b3 _ hPt
  let K := tns ++ toStringKids text ++ o1.flatMap kidsOf ++
    (if ext = [] then [] else [.node .MS none none none (o2.flatMap kidsOf)]) ++
    (if adp = [] then [] else [.node .Props none none none (o3.flatMap kidsOf)])
  have hkids : reparseAll K = kids := by
    rw [hk]
    simp only [K, reparseAll_eq_map, List.map_append, List.append_assoc]
  have hsend : (Xml.node .Obj (some (pyStrNat st.objId)) n none K).Sendable := by
    rw [Xml.Sendable]
    refine ⟨?_, hm.1, by simp, ?_⟩
    · intro s hs
      simp only [Option.some.injEq] at hs
      exact hs ▸ safe_pyStrNat _
    · intro k hk
      have grp : ∀ (g : Tag) (es : List Xml), (∀ k ∈ es, k.Sendable) → (Xml.node g none none none es).Sendable := by
        intro g es h
        rw [Xml.Sendable]
        exact ⟨by simp, by simp, by simp, h⟩
      simp only [K, List.mem_append] at hk
      rcases hk with (((hk | hk) | hk) | hk) | hk
      · exact t2 k hk
      · exact toString_sendable htx k hk
      · exact s2 k hk
      · split at hk
        · simp at hk
        · simp only [List.mem_cons, List.not_mem_nil, or_false] at hk
          exact hk ▸ grp _ _ e2
      · split at hk
        · simp at hk
        · simp only [List.mem_cons, List.not_mem_nil, or_false] at hk
          exact hk ▸ grp _ _ a2
  refine ⟨some (.node .Obj (some (pyStrNat st.objId)) n none K), st4, ?_, a3, rfl, hsend, .inr ⟨?_, ?_⟩⟩
  · have hset : ((Meta.plain t n o).settle (.typed oid c.types text sets ext adp)) = .plain .Obj n o := by
      rcases ht with rfl | rfl <;> rfl
    have t1' : createTnOpt c.types { st with objId := st.objId + 1 } = .ok (tns, st1) := t1
    simp only [ser, hset, Meta.tag, Meta.name, newObjId, if_true, t1', s1, e1, a1, bind, Except.bind, pure, Except.pure,
      setName_obj, K]
  · rcases ht with rfl | rfl
    · exact .inr (.inl ⟨rfl, rfl⟩)
    · exact .inl rfl
  · refine ⟨.typed 0 c.types text s' e' a',
      ⟨d4.tn, assign d4.objs (pyStrNat st.objId) (.typed 0 c.types text s' e' a')⟩, ?_, by simp [PyVal.forget, g1, g2, g3], hi4⟩
    have hget : getTypes kids d = .ok (c.types, d1) := by
      rw [hk, List.map_append, List.append_assoc]
      apply t5
      intro y hy
      rcases List.mem_append.mp hy with h | h
      · have := map_tags (p := fun t => t = .ToString) (toString_tags text) y h
        rw [this]
        decide
      · exact ⟨(htags y h).1, (htags y h).2.1⟩
    have htext : readText kids = .ok text := by
      rw [hk, List.map_append]
      refine read_text htx (map_tags (p := fun t => t ≠ .ToString) fun x hx => ?_) fun x hx => (htags x hx).2.2
      rcases t3 x hx with h | h <;> rw [h] <;> decide
    have hset : (DMeta.cls name).settle .Obj = .cls name := by simp [DMeta.settle]
    have hre : (Xml.node .Obj (some (pyStrNat st.objId)) n none K).reparse =
        .node .Obj (some (pyStrNat st.objId)) n none kids := by
      rw [show (Xml.node .Obj (some (pyStrNat st.objId)) n none K).reparse =
        .node .Obj (some (pyStrNat st.objId)) n none (reparseAll K) from rfl, hkids]
    rw [hre, deser]
    simp only [hget, bind, Except.bind, unpackPrim, hset, chooseMeta, hc, htext, r1, r2, r3, objText_fits hx g1, if_true,
      pure, Except.pure]

/-- Every value that fits is written and read back. -/
theorem fits_rounds {m : Meta} {r : DMeta} {v : PyVal} (h : Fits m r v) (hm : MetaFine m) : FieldRounds m r v := by
  induction h with
  | none => exact none_rounds hm _
  | scalar h => exact scalar_rounds hm h
  | any h => exact any_rounds hm h
  | list h =>
    rename_i t n o ts xs
    have ht : packable t = true ∨ t = .star := by
      have := hm.2.2
      simp only [tagFine, Bool.and_eq_true, Bool.or_eq_true, beq_iff_eq] at this
      exact this.2
    refine list_rounds hm fun st d hi => ?_
    obtain ⟨ks, h1, h2, h3⟩ := tagged_list h ht st
    exact ⟨ks, st, h1, h2, rfl, d, h3 _ _ d, hi⟩
  | anyList h =>
    refine list_rounds hm fun st d hi => ?_
    obtain ⟨ks, st', h1, h2, h3, d', h4, h5⟩ := any_list h hi
    exact ⟨ks, st', h1, h2, h3, d', h4 _, h5⟩
  | dict h => exact dict_rounds hm h
  | obj ht hc hr hs he ha hx fs fe fa ihs ihe iha =>
    rename_i t n o name c oid text sets ext adp
    have mem : ∀ {l : List Field} {vs : List (Meta × PyVal)} {p : Field × (Meta × PyVal)}, p ∈ l.zip vs → p.1 ∈ l :=
      fun h => (List.of_mem_zip h).1
    exact typed_rounds hm ht hc hr hs he ha hx
      (fun p hp => ihs p hp (class_meta hc (by simp [ClassDef.fields, mem hp])))
      (fun p hp => ihe p hp (class_meta hc (by simp [ClassDef.fields, mem hp])))
      (fun p hp => iha p hp (class_meta hc (by simp [ClassDef.fields, mem hp])))

end Verif
