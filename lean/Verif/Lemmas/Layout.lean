import Verif.Lemmas.LayoutTable
import Verif.Lemmas.ClassBuild
import Verif.Lemmas.ClassRound
/-
Lemmas for the documents of the classes.
-/
namespace Verif

/-! ### What an element looks like -/

theorem setName_name {n : Option PyStr} {t : Tag} {r x : Option PyStr} {ks : List Xml} : ((Xml.node t r none x ks).setName n).name = n := by
  cases n <;> rfl

theorem setName_tag {n : Option PyStr} {t : Tag} {r x m : Option PyStr} {ks : List Xml} : ((Xml.node t r m x ks).setName n).tag = t := rfl

theorem setName_kids {n : Option PyStr} {t : Tag} {r x m : Option PyStr} {ks : List Xml} : ((Xml.node t r m x ks).setName n).kids = ks := rfl

theorem settle_name (m : Meta) (v : PyVal) : (m.settle v).name = m.name := by
  unfold Meta.settle
  split
  · cases m <;> rfl
  · rfl

theorem settle_optional (m : Meta) (v : PyVal) : (m.settle v).optional = m.optional := by
  unfold Meta.settle
  split
  · cases m <;> rfl
  · rfl

theorem settle_fixed {m : Meta} (h : m.tag ≠ .star) (v : PyVal) : m.settle v = m := by
  unfold Meta.settle
  rw [if_neg h]

theorem serScalar_none {m : Meta} {ox : Option Xml} (h : serScalar m .none = .ok ox) :
    ox = if m.optional then none else some (.node .Nil none m.name none []) := by
  unfold serScalar at h
  split at h
  · exact absurd h (by simp)
  · dsimp only at h
    split at h <;> rename_i ho <;> rw [← Except.ok.inj h]
    · rw [if_pos ho]
    · rw [if_neg ho]

theorem serScalar_some {m : Meta} {s : Scalar} (hs : s ≠ .none) {ox : Option Xml} (h : serScalar m s = .ok ox) :
    ∃ t, ox = some (.node m.tag none m.name (some t) []) := by
  unfold serScalar at h
  split at h
  · exact absurd h (by simp)
  · split at h
    · exact absurd rfl hs
    · split at h
      · exact absurd h (by simp)
      · cases hp : packScalar m.tag s with
        | error e => rw [hp] at h; exact absurd h (by simp [bind, Except.bind])
        | ok t => rw [hp] at h; exact ⟨t, (Except.ok.inj h).symm⟩

/-- Where the element of a list, dictionary or object comes from. -/
macro "ser_cases" h:ident : tactic => `(tactic| (
  rw [ser] at $h:ident
  simp only [bind, Except.bind, pure, Except.pure] at $h:ident
  repeat' split at $h:ident
  all_goals first | (exfalso; simp at $h:ident; done) | skip))

/-- An element for a value: nothing or null for None, and else an element with the name. -/
theorem ser_elem {m : Meta} {v : PyVal} {st st' : SerState} {ox : Option Xml} (h : ser m v st = .ok (ox, st')) :
    (v.isNull = true → ox = if m.optional then none else some (.node .Nil none m.name none [])) ∧
    (v.isNull = false → ∃ x, ox = some x ∧ x.name = m.name) := by
  cases v with
  | sc s =>
    rw [ser] at h
    cases hs : serScalar (m.settle (.sc s)) s with
    | error e => rw [hs] at h; simp [bind, Except.bind] at h
    | ok o =>
      rw [hs] at h
      simp only [bind, Except.bind, pure, Except.pure, Except.ok.injEq, Prod.mk.injEq] at h
      obtain ⟨rfl, rfl⟩ := h
      by_cases hn : s = .none
      · subst hn
        exact ⟨fun _ => by rw [serScalar_none hs, settle_optional, settle_name], fun hv => absurd hv (by simp [PyVal.isNull])⟩
      · obtain ⟨t, ht⟩ := serScalar_some hn hs
        exact ⟨fun hv => by cases s <;> first | exact absurd rfl hn | exact absurd hv (by simp [PyVal.isNull]), fun _ => ⟨_, ht, settle_name _ _⟩⟩
  | tagged t s =>
    rw [ser] at h
    split at h
    · cases hs : serScalar (m.settle (.tagged t s)) s with
      | error e => rw [hs] at h; simp [bind, Except.bind] at h
      | ok o =>
        rw [hs] at h
        simp only [bind, Except.bind, pure, Except.pure, Except.ok.injEq, Prod.mk.injEq] at h
        obtain ⟨rfl, rfl⟩ := h
        by_cases hn : s = .none
        · subst hn
          exact ⟨fun _ => by rw [serScalar_none hs, settle_optional, settle_name], fun hv => absurd hv (by simp [PyVal.isNull])⟩
        · obtain ⟨t, ht⟩ := serScalar_some hn hs
          exact ⟨fun hv => by cases s <;> first | exact absurd rfl hn | exact absurd hv (by simp [PyVal.isNull]), fun _ => ⟨_, ht, settle_name _ _⟩⟩
    · simp at h
  | list xs =>
    refine ⟨nofun, fun _ => ?_⟩
    ser_cases h
    · simp only [Except.ok.injEq, Prod.mk.injEq] at h
      exact ⟨_, h.1.symm, setName_name.trans (settle_name _ _)⟩
    · rename_i hm _ _ _ _ _ _
      simp only [Except.ok.injEq, Prod.mk.injEq] at h
      refine ⟨_, h.1.symm, setName_name.trans ?_⟩
      rw [← settle_name m (.list xs), hm]; rfl
  | queue xs =>
    refine ⟨nofun, fun _ => ?_⟩
    ser_cases h
    simp only [Except.ok.injEq, Prod.mk.injEq] at h
    exact ⟨_, h.1.symm, setName_name.trans (settle_name _ _)⟩
  | dict es =>
    refine ⟨nofun, fun _ => ?_⟩
    ser_cases h
    simp only [Except.ok.injEq, Prod.mk.injEq] at h
    exact ⟨_, h.1.symm, setName_name.trans (settle_name _ _)⟩
  | generic o ts tx s e a =>
    refine ⟨nofun, fun _ => ?_⟩
    ser_cases h
    all_goals
      simp only [Except.ok.injEq, Prod.mk.injEq] at h
      exact ⟨_, h.1.symm, setName_name.trans (settle_name _ _)⟩
  | typed o ts tx s e a =>
    refine ⟨nofun, fun _ => ?_⟩
    ser_cases h
    all_goals
      simp only [Except.ok.injEq, Prod.mk.injEq] at h
      exact ⟨_, h.1.symm, setName_name.trans (settle_name _ _)⟩
  | raw x => rw [ser] at h; simp at h

theorem ser_leaf {t : Tag} {n : Option PyStr} {o : Bool} (ht : leafTag t = true) {v : PyVal} {st st' : SerState} {ox : Option Xml}
    (h : ser (.plain t n o) v st = .ok (ox, st')) (hv : v.isNull = false) {x : Xml} (hx : ox = some x) : x.tag = t ∧ x.kids = [] := by
  simp only [leafTag, decide_eq_true_eq, List.mem_cons, List.not_mem_nil, or_false, not_or] at ht
  obtain ⟨t1, t2, t3, t4, t5, t6, t7, t8⟩ := ht
  have hset : ∀ v, (Meta.plain t n o).settle v = .plain t n o := settle_fixed t1
  cases v with
  | sc s =>
    rw [ser, hset] at h
    cases hs : serScalar (.plain t n o) s with
    | error e => rw [hs] at h; simp [bind, Except.bind] at h
    | ok o =>
      rw [hs] at h
      simp only [bind, Except.bind, pure, Except.pure, Except.ok.injEq, Prod.mk.injEq] at h
      obtain ⟨t', ht'⟩ := serScalar_some (fun he => by rw [he] at hv; exact absurd hv (by simp [PyVal.isNull])) hs
      rw [← h.1, ht', Option.some.injEq] at hx
      subst hx
      exact ⟨rfl, rfl⟩
  | tagged t' s => rw [ser, if_neg (show (Meta.plain t n o).tag ≠ _ from t1)] at h; simp at h
  | list xs => rw [ser, hset] at h; simp [Meta.tag, t4, t5, t7] at h
  | queue xs => rw [ser, hset] at h; simp [Meta.tag, t6] at h
  | dict es => rw [ser, hset] at h; simp [Meta.tag, t8] at h
  | generic => rw [ser, hset] at h; simp [Meta.tag, t2, t3] at h
  | typed => rw [ser, hset] at h; simp [Meta.tag, t2, t3] at h
  | raw x => rw [ser] at h; simp at h

theorem ser_object {n : Option PyStr} {o : Bool} {v : PyVal} {st st' : SerState} {ox : Option Xml}
    (h : ser (.plain .Obj n o) v st = .ok (ox, st')) (hv : v.isNull = false) {x : Xml} (hx : ox = some x) : x.tag = .Obj := by
  have hset : ∀ v, (Meta.plain .Obj n o).settle v = .plain .Obj n o := settle_fixed (by simp [Meta.tag])
  cases v with
  | sc s =>
    rw [ser, hset] at h
    cases hs : serScalar (.plain .Obj n o) s with
    | error e => rw [hs] at h; simp [bind, Except.bind] at h
    | ok o =>
      rw [hs] at h
      simp only [bind, Except.bind, pure, Except.pure, Except.ok.injEq, Prod.mk.injEq] at h
      obtain ⟨t', ht'⟩ := serScalar_some (fun he => by rw [he] at hv; exact absurd hv (by simp [PyVal.isNull])) hs
      rw [← h.1, ht', Option.some.injEq] at hx
      subst hx
      rfl
  | tagged t' s => rw [ser, if_neg (show (Meta.plain .Obj n o).tag ≠ _ from by simp [Meta.tag])] at h; simp at h
  | list xs => rw [ser, hset] at h; simp [Meta.tag] at h
  | queue xs => rw [ser, hset] at h; simp [Meta.tag] at h
  | dict es => rw [ser, hset] at h; simp [Meta.tag] at h
  | generic =>
    rw [ser, hset] at h
    simp only [Meta.tag, reduceCtorEq, if_false, if_true, Except.ok.injEq, Prod.mk.injEq] at h
    rw [hx, Option.some.injEq] at h
    rw [← h.1]; rfl
  | typed =>
    subst hx
    rw [ser, hset] at h
    simp only [Meta.tag, if_true, bind, Except.bind, pure, Except.pure] at h
    repeat' split at h
    all_goals first | (exfalso; simp at h; done) | skip
    all_goals
      simp only [Except.ok.injEq, Prod.mk.injEq, Option.some.injEq] at h
      rw [← h.1]; rfl
  | raw x => rw [ser] at h; simp at h

theorem ser_dynamic {n : Option PyStr} {o : Bool} {v : PyVal} {st st' : SerState} {ox : Option Xml}
    (h : ser (.plain .ObjDynamic n o) v st = .ok (ox, st')) (hv : v.isNull = false) {x : Xml} (hx : ox = some x) :
    x.tag = .Obj ∨ x.tag = .ObjDynamic := by
  have hset : ∀ v, (Meta.plain .ObjDynamic n o).settle v = .plain .ObjDynamic n o := settle_fixed (by simp [Meta.tag])
  cases v with
  | sc s =>
    rw [ser, hset] at h
    cases hs : serScalar (.plain .ObjDynamic n o) s with
    | error e => rw [hs] at h; simp [bind, Except.bind] at h
    | ok o =>
      rw [hs] at h
      simp only [bind, Except.bind, pure, Except.pure, Except.ok.injEq, Prod.mk.injEq] at h
      obtain ⟨t', ht'⟩ := serScalar_some (fun he => by rw [he] at hv; exact absurd hv (by simp [PyVal.isNull])) hs
      rw [← h.1, ht', Option.some.injEq] at hx
      subst hx
      exact .inr rfl
  | tagged t' s => rw [ser, if_neg (show (Meta.plain .ObjDynamic n o).tag ≠ _ from by simp [Meta.tag])] at h; simp at h
  | list xs => rw [ser, hset] at h; simp [Meta.tag] at h
  | queue xs => rw [ser, hset] at h; simp [Meta.tag] at h
  | dict es => rw [ser, hset] at h; simp [Meta.tag] at h
  | generic =>
    subst hx
    rw [ser, hset] at h
    simp only [Meta.tag, if_true, bind, Except.bind, pure, Except.pure] at h
    repeat' split at h
    all_goals first | (exfalso; simp at h; done) | skip
    all_goals
      simp only [Except.ok.injEq, Prod.mk.injEq, Option.some.injEq] at h
      rw [← h.1]; exact .inl rfl
  | typed => rw [ser, hset] at h; simp [Meta.tag] at h
  | raw x => rw [ser] at h; simp at h

/-! ### Lists and dictionaries -/

theorem ser_inner {t : Option Tag} {n : Option PyStr} (ht : innerFine t = true) {v : PyVal} {st st' : SerState} {ox : Option Xml}
    (h : ser (innerMeta t n) v st = .ok (ox, st')) : ∃ x, ox = some x ∧ x.name = n ∧ TagIs t x := by
  obtain ⟨h1, h2⟩ := ser_elem h
  cases hv : v.isNull with
  | true => exact ⟨_, h1 hv, rfl, fun _ _ => .inr rfl⟩
  | false =>
    obtain ⟨x, hx, hn⟩ := h2 hv
    refine ⟨x, hx, hn, ?_⟩
    rintro t' rfl
    simp only [innerFine, Bool.or_eq_true, beq_iff_eq] at ht
    rcases ht with ht | rfl
    · exact .inl (ser_leaf ht h hv hx).1
    · exact .inl (ser_object h hv hx)

theorem serList_inner {t : Option Tag} (ht : innerFine t = true) : ∀ {vs : List PyVal} {st st' : SerState} {ks : List Xml},
    serList (innerMeta t none) vs st = .ok (ks, st') → ks.length = vs.length ∧ ∀ k ∈ ks, TagIs t k ∧ k.name = none
  | [], st, st', ks, h => by
    rw [serList] at h
    simp only [Except.ok.injEq, Prod.mk.injEq] at h
    rw [← h.1]; simp
  | v :: vs, st, st', ks, h => by
    rw [serList] at h
    simp only [bind, Except.bind, pure, Except.pure] at h
    split at h
    · simp at h
    · rename_i p hp
      obtain ⟨ox, st1⟩ := p
      split at h
      · simp at h
      · rename_i q hq
        obtain ⟨ks1, st2⟩ := q
        simp only [Except.ok.injEq, Prod.mk.injEq] at h
        obtain ⟨x, rfl, h1, h2⟩ := ser_inner ht hp
        obtain ⟨h3, h4⟩ := serList_inner ht hq
        rw [← h.1]
        refine ⟨by simp [kidsOf, h3], ?_⟩
        intro k hk
        simp only [kidsOf, List.mem_append, List.mem_cons, List.not_mem_nil, or_false] at hk
        rcases hk with rfl | hk
        · exact ⟨h2, h1⟩
        · exact h4 k hk

theorem serEntries_inner {t u : Option Tag} {n k : Option PyStr} (ht : innerFine t = true) (hu : innerFine u = true) :
    ∀ {es : List (PyVal × PyVal)} {st st' : SerState} {ks : List Xml},
    serEntries (innerMeta t n) (innerMeta u k) es st = .ok (ks, st') → ks.length = es.length ∧
      ∀ e ∈ ks, ∃ a b, e = .node .En none none none [a, b] ∧ TagIs t a ∧ a.name = n ∧ TagIs u b ∧ b.name = k
  | [], st, st', ks, h => by
    rw [serEntries] at h
    simp only [Except.ok.injEq, Prod.mk.injEq] at h
    rw [← h.1]; simp
  | (v, w) :: es, st, st', ks, h => by
    rw [serEntries] at h
    simp only [bind, Except.bind, pure, Except.pure] at h
    split at h
    · simp at h
    · rename_i p hp
      obtain ⟨ox, st1⟩ := p
      split at h
      · simp at h
      · rename_i q hq
        obtain ⟨oy, st2⟩ := q
        split at h
        · simp at h
        · rename_i r hr
          obtain ⟨ks1, st3⟩ := r
          simp only [Except.ok.injEq, Prod.mk.injEq] at h
          obtain ⟨x, rfl, h1, h2⟩ := ser_inner ht hp
          obtain ⟨y, rfl, h5, h6⟩ := ser_inner hu hq
          obtain ⟨h3, h4⟩ := serEntries_inner ht hu hr
          rw [← h.1]
          refine ⟨by simp [h3], ?_⟩
          intro e he
          rcases List.mem_cons.mp he with rfl | he
          · exact ⟨x, y, rfl, h2, h1, h6, h5⟩
          · exact h4 e he

theorem createTn_elem {types : List String} {st st' : SerState} {x : Xml} (h : createTn (types.map String.toList) st = .ok (x, st')) : TypesElem types x := by
  unfold createTn at h
  split at h
  · simp at h
  · rename_i main more hm
    split at h
    · simp only [Except.ok.injEq, Prod.mk.injEq] at h
      refine .inl ⟨pyStrNat st.tnId, ?_⟩
      rw [← h.1, List.map_map]
      rfl
    · simp only [Except.ok.injEq, Prod.mk.injEq] at h
      exact .inr ⟨_, h.1.symm⟩

/-! ### Properties -/

theorem prop_elem {p : PropDoc} (hp : p.holds.fine = true) {v : PyVal} {st st' : SerState} {ox : Option Xml} (h : ser p.meta v st = .ok (ox, st')) :
    if v.isNull then kidsOf ox = if p.optional then [] else [.node .Nil none (p.name.map String.toList) none []] else
      ∃ x, kidsOf ox = [x] ∧ x.name = p.name.map String.toList ∧ p.holds.Shape v x := by
  have hm : p.meta.name = p.name.map String.toList ∧ p.meta.optional = p.optional := by
    unfold PropDoc.meta
    split <;> exact ⟨rfl, rfl⟩
  obtain ⟨h1, h2⟩ := ser_elem h
  rw [hm.1, hm.2] at h1
  rw [hm.1] at h2
  split
  · rename_i hv
    rw [h1 hv]
    split <;> rfl
  · rename_i hv
    rw [Bool.not_eq_true] at hv
    obtain ⟨x, rfl, hn⟩ := h2 hv
    refine ⟨x, rfl, hn, ?_⟩
    unfold PropDoc.meta at h
    cases hh : p.holds with
    | value t => rw [hh] at h hp; exact ser_leaf hp h hv rfl
    | object => rw [hh] at h; exact ser_object h hv rfl
    | dynamic => rw [hh] at h; exact ser_dynamic h hv rfl
    | any => trivial
    | list e ts =>
      rw [hh] at h hp
      rintro vs rfl
      rw [ser, settle_fixed (by simp [Meta.tag])] at h
      simp only [Meta.tag, true_or, if_true, bind, Except.bind, pure, Except.pure] at h
      split at h
      · simp at h
      · rename_i q hq
        obtain ⟨tn, st1⟩ := q
        split at h
        · simp at h
        · rename_i r hr
          obtain ⟨ks, st2⟩ := r
          simp only [Except.ok.injEq, Prod.mk.injEq, Option.some.injEq] at h
          obtain ⟨a, b⟩ := serList_inner hp hr
          rw [← h.1]
          exact ⟨rfl, tn, ks, rfl, createTn_elem hq, a, b⟩
    | dict k w ts =>
      rw [hh] at h hp
      simp only [Holds.fine, Bool.and_eq_true] at hp
      rintro es rfl
      rw [ser, settle_fixed (by simp [Meta.tag])] at h
      simp only [Meta.tag, if_true, bind, Except.bind, pure, Except.pure] at h
      split at h
      · simp at h
      · rename_i q hq
        obtain ⟨tn, st1⟩ := q
        split at h
        · simp at h
        · rename_i r hr
          obtain ⟨ks, st2⟩ := r
          simp only [Except.ok.injEq, Prod.mk.injEq, Option.some.injEq] at h
          obtain ⟨a, b⟩ := serEntries_inner hp.1 hp.2 hr
          rw [← h.1]
          exact ⟨rfl, tn, ks, rfl, createTn_elem hq, a, b⟩

/-! ### The table -/

theorem lookup_pair {α β : Type} [BEq α] [LawfulBEq α] {a : α} {b : β} : ∀ {l : List (α × β)}, l.lookup a = some b → (a, b) ∈ l
  | [], h => by simp at h
  | (k, v) :: l, h => by
    rw [List.lookup_cons] at h
    split at h
    · rename_i hk
      rw [Option.some.inj h, eq_of_beq hk]; simp
    · exact List.mem_cons_of_mem _ (lookup_pair h)

theorem same_found {name : String} : ∀ {cs : List (String × ClassDef)} {ls : List (String × Layout)},
    cs.map (fun e => (e.1, e.2.shape)) = ls.map (fun e => (e.1, e.2.shape)) →
    match cs.find? (fun e => e.1.toList == name.toList), ls.lookup name with
    | some c, some l => c.2.shape = l.shape
    | none, none => True
    | _, _ => False
  | [], [], _ => trivial
  | c :: cs, l :: ls, h => by
    simp only [List.map_cons, List.cons.injEq, Prod.mk.injEq] at h
    obtain ⟨⟨h1, h2⟩, h3⟩ := h
    rw [List.find?_cons, List.lookup_cons]
    by_cases hn : name = l.1
    · rw [show (c.1.toList == name.toList) = true from by rw [h1, hn]; simp, show (name == l.1) = true from by simpa using hn]
      exact h2
    · rw [show (c.1.toList == name.toList) = false from by rw [h1]; simpa [String.toList_inj] using fun h => hn h.symm,
        show (name == l.1) = false from by simpa using hn]
      exact same_found h3
  | [], _ :: _, h => by simp at h
  | _ :: _, [], h => by simp at h

/-- The class of the model is that of the table. -/
structure SameClass (c : ClassDef) (l : Layout) : Prop where
  types : c.types = l.types.map String.toList
  extended : c.extended.map (fun f => (f.attr, f.write)) = l.extended.map fun p => (p.attr.toList, p.meta)
  adapted : c.adapted.map (fun f => (f.attr, f.write)) = l.adapted.map fun p => (p.attr.toList, p.meta)
  sets : c.sets.map (fun f => (f.attr, f.write)) = (if l.number then [valueProp] else []).map fun p => (p.attr.toList, p.meta)
  text : (match c.text with
    | .attr d => (false, d, [])
    | .enum m => (true, none, m)
    | .flags _ => (true, none, [])) = (l.number, l.text.map String.toList, l.texts.map fun e => (e.1, e.2.toList))
  fine : ∀ p ∈ l.extended ++ l.adapted, p.holds.fine = true
  plain : ∀ t ∈ l.texts.map (·.2) ++ l.text.toList, serializeString t.toList = t.toList

theorem same_class {name : String} {c : ClassDef} {l : Layout} (hc : findClass name.toList = some c) (hl : layouts.lookup name = some l) : SameClass c l := by
  have h := same_found (name := name) same_shapes
  have hmem : (name, l) ∈ layouts := lookup_pair hl
  unfold findClass at hc
  cases hf : classes.find? (fun e => e.1.toList == name.toList) with
  | none => rw [hf] at hc; simp at hc
  | some e =>
    rw [hf] at hc h
    rw [hl] at h
    simp only [Option.map_some, Option.some.injEq] at hc
    subst hc
    dsimp only at h
    simp only [ClassDef.shape, Layout.shape, Prod.mk.injEq] at h
    obtain ⟨h1, h2, h3, h4, h5⟩ := h
    refine ⟨h1, h2, h3, h4, h5, ?_, ?_⟩
    · exact List.all_eq_true.mp (List.all_eq_true.mp table_fine _ hmem)
    · intro t ht
      simpa using List.all_eq_true.mp (List.all_eq_true.mp table_plain _ hmem) t ht

theorem class_layout {name : String} : (findClass name.toList).isSome = (layouts.lookup name).isSome := by
  have h := same_found (name := name) same_shapes
  unfold findClass
  cases hf : classes.find? (fun e => e.1.toList == name.toList) <;> cases hl : layouts.lookup name <;> rw [hf, hl] at h <;> first | rfl | exact h.elim

/-! ### The document -/

theorem serProps_wrote {attrs : List (PyStr × PyVal)} : ∀ {fs : List Field} {ps : List PropDoc} {vs : List (Meta × PyVal)} {st st' : SerState} {ks : List Xml},
    fs.map (fun f => (f.attr, f.write)) = ps.map (fun p => (p.attr.toList, p.meta)) → (∀ p ∈ ps, p.holds.fine = true) → getFields attrs fs = .ok vs → serProps vs st = .ok (ks, st') → WroteProps attrs ps ks
  | [], [], vs, st, st', ks, _, _, hg, h => by
    simp only [getFields, Except.ok.injEq] at hg
    subst hg
    rw [serProps] at h
    simp only [Except.ok.injEq, Prod.mk.injEq] at h
    rw [← h.1]; exact .nil
  | [], p :: ps, vs, st, st', ks, hs, _, hg, h => by simp at hs
  | f :: fs, [], vs, st, st', ks, hs, _, hg, h => by simp at hs
  | f :: fs, p :: ps, vs, st, st', ks, hs, hps, hg, h => by
    simp only [List.map_cons, List.cons.injEq, Prod.mk.injEq] at hs
    obtain ⟨⟨ha, hm⟩, ht⟩ := hs
    have hp := hps p (by simp)
    rw [getFields] at hg
    split at hg
    · simp at hg
    · rename_i v hv
      cases hg1 : getFields attrs fs with
      | error e => rw [hg1] at hg; simp [bind, Except.bind] at hg
      | ok vs1 =>
        rw [hg1] at hg
        simp only [bind, Except.bind, pure, Except.pure, Except.ok.injEq] at hg
        subst hg
        have key : ∃ ox st1 ks1, kidsOf ox ++ ks1 = ks ∧ serProps vs1 st1 = .ok (ks1, st') ∧
            ((v.oid?.isSome = true ∧ ∃ r, ox = some (.node .Ref (some r) none none [])) ∨ ser p.meta v st = .ok (ox, st1)) := by
          rw [serProps, hm] at h
          simp only [bind, Except.bind, pure, Except.pure] at h
          cases hr : refFor st v with
          | some r =>
            rw [hr] at h
            dsimp only at h
            split at h
            · simp at h
            · rename_i q hq
              simp only [Except.ok.injEq, Prod.mk.injEq] at h
              refine ⟨some (.node .Ref (some r) none none []), st, q.1, h.1, by rw [hq, ← h.2], .inl ⟨?_, r, rfl⟩⟩
              unfold refFor at hr
              cases hv' : v.oid? with
              | none => rw [hv'] at hr; simp at hr
              | some o => rfl
          | none =>
            rw [hr] at h
            dsimp only at h
            split at h
            · simp at h
            · rename_i q hq
              split at h
              · simp at h
              · rename_i q' hq'
                simp only [Except.ok.injEq, Prod.mk.injEq] at h
                exact ⟨q.1, q.2, q'.1, h.1, by rw [hq', ← h.2], .inr hq⟩
        obtain ⟨ox, st1, ks1, h1, h2, h3⟩ := key
        rw [← h1]
        refine .cons ?_ (serProps_wrote ht (fun q hq => hps q (by simp [hq])) hg1 h2)
        rw [ha] at hv
        unfold WroteProp
        rw [hv]
        dsimp only
        rcases h3 with ⟨ho, r, rfl⟩ | h3
        · have hn : v.isNull = false := by cases v <;> first | rfl | exact absurd ho (by simp [PyVal.oid?])
          rw [hn, if_neg (by simp)]
          exact .inr ⟨ho, r, rfl⟩
        · have := prop_elem hp h3
          split <;> rename_i hn
          · rw [if_pos hn] at this; exact this
          · rw [if_neg hn] at this; exact .inl this

end Verif
