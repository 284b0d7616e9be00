import Verif.Lemmas.ClassRound
/-
Lemmas about building objects from attributes.
-/
namespace Verif

theorem getFields_declared {attrs : List (PyStr × PyVal)} : ∀ {fs : List Field} {vs : List (Meta × PyVal)},
    getFields attrs fs = .ok vs → Declared fs vs ∧ ∀ p ∈ fs.zip vs, attrs.lookup p.1.attr = some p.2.2
  | [], vs, h => by
    cases h
    exact ⟨rfl, by simp⟩
  | f :: fs, vs, h => by
    unfold getFields at h
    cases hf : attrs.lookup f.attr with
    | none => simp [hf] at h
    | some v =>
      rw [hf] at h
      cases hr : getFields attrs fs with
      | error e => simp [hr, bind, Except.bind] at h
      | ok r =>
        simp only [hr, bind, Except.bind, pure, Except.pure, Except.ok.injEq] at h
        obtain ⟨h1, h2⟩ := getFields_declared hr
        subst h
        refine ⟨by simpa [Declared] using h1, ?_⟩
        intro p hp
        rw [List.zip_cons_cons, List.mem_cons] at hp
        rcases hp with rfl | hp
        · exact hf
        · exact h2 p hp

theorem getFields_ok {attrs : List (PyStr × PyVal)} : ∀ {fs : List Field}, (∀ f ∈ fs, (attrs.lookup f.attr).isSome) →
    ∃ vs, getFields attrs fs = .ok vs
  | [], _ => ⟨[], rfl⟩
  | f :: fs, h => by
    obtain ⟨vs, hv⟩ := getFields_ok (fs := fs) fun g hg => h g (List.mem_cons_of_mem _ hg)
    obtain ⟨v, hf⟩ := Option.isSome_iff_exists.mp (h f (by simp))
    exact ⟨(f.write, v) :: vs, by simp [getFields, hf, hv, bind, Except.bind, pure, Except.pure]⟩

theorem lookup_forget (fs : List Field) (vs : List (Meta × PyVal)) :
    ((fs.zip vs).map (fun p => (p.1.attr, p.2.2))).map (fun e => (e.1, e.2.forget)) =
      (fs.zip (forgetAll vs)).map (fun p => (p.1.attr, p.2.2)) := by
  induction fs generalizing vs with
  | nil => rfl
  | cons f fs ih =>
    cases vs with
    | nil => rfl
    | cons e vs =>
      simp only [List.zip_cons_cons, List.map_cons, forgetAll]
      rw [ih]

theorem lookup_map_snd (l : List (PyStr × PyVal)) (a : PyStr) :
    (l.map (fun e => (e.1, e.2.forget))).lookup a = (l.lookup a).map PyVal.forget := by
  induction l with
  | nil => rfl
  | cons e l ih =>
    rw [List.map_cons, List.lookup_cons, List.lookup_cons, ih]
    cases a == e.1 <;> rfl

theorem attrOf_forget (c : ClassDef) (v : PyVal) (a : PyStr) : (attrOf c v a).map PyVal.forget = attrOf c v.forget a := by
  cases v with
  | typed o ts tx s e d =>
    simp only [attrOf, PyVal.forget]
    rw [← lookup_map_snd]
    congr 1
    simp only [List.map_append, ← lookup_forget]
  | _ => rfl

theorem lookup_zip {attrs : List (PyStr × PyVal)} {l : List (Field × (Meta × PyVal))}
    (h : ∀ p ∈ l, attrs.lookup p.1.attr = some p.2.2) {a : PyStr} (ha : ∃ p ∈ l, p.1.attr = a) :
    (l.map (fun p => (p.1.attr, p.2.2))).lookup a = attrs.lookup a := by
  induction l with
  | nil => simp at ha
  | cons p l ih =>
    rw [List.map_cons, List.lookup_cons]
    by_cases e : a = p.1.attr
    · subst e
      simp [h p (by simp)]
    · rw [show (a == p.1.attr) = false by simpa using e]
      apply ih fun q hq => h q (List.mem_cons_of_mem _ hq)
      obtain ⟨q, hq, rfl⟩ := ha
      rcases List.mem_cons.mp hq with rfl | hq
      · exact absurd rfl e
      · exact ⟨q, hq, rfl⟩

theorem zip_mem {fs : List Field} {vs : List (Meta × PyVal)} (h : Declared fs vs) {f : Field} (hf : f ∈ fs) :
    ∃ p ∈ fs.zip vs, p.1 = f := by
  induction fs generalizing vs with
  | nil => simp at hf
  | cons g fs ih =>
    cases vs with
    | nil => simp [Declared] at h
    | cons e vs =>
      simp only [Declared, List.map_cons, List.cons.injEq] at h
      rcases List.mem_cons.mp hf with rfl | hf
      · exact ⟨(f, e), by simp, rfl⟩
      · obtain ⟨p, hp, h'⟩ := ih h.2 hf
        exact ⟨p, by simp [hp], h'⟩

/-- What a new object holds. -/
theorem instance_attrs {c : ClassDef} {oid : Nat} {attrs : List (PyStr × PyVal)} {v : PyVal} (h : instanceOf c oid attrs = .ok v) :
    ∃ text sets ext adp, v = .typed oid c.types text sets ext adp ∧ classText c attrs = .ok text ∧ Declared c.sets sets ∧
      Declared c.extended ext ∧ Declared c.adapted adp ∧
      (∀ p ∈ c.sets.zip sets ++ c.extended.zip ext ++ c.adapted.zip adp, attrs.lookup p.1.attr = some p.2.2) ∧
      ∀ f ∈ c.fields, attrOf c v f.attr = attrs.lookup f.attr := by
  unfold instanceOf at h
  cases h0 : classText c attrs with
  | error e => simp [h0, bind, Except.bind] at h
  | ok text =>
  cases h1 : getFields attrs c.sets with
  | error e => simp [h0, h1, bind, Except.bind] at h
  | ok sets =>
  cases h2 : getFields attrs c.extended with
  | error e => simp [h0, h1, h2, bind, Except.bind] at h
  | ok ext =>
  cases h3 : getFields attrs c.adapted with
  | error e => simp [h0, h1, h2, h3, bind, Except.bind] at h
  | ok adp =>
  simp only [h0, h1, h2, h3, bind, Except.bind, pure, Except.pure, Except.ok.injEq] at h
  obtain ⟨s1, s2⟩ := getFields_declared h1
  obtain ⟨e1, e2⟩ := getFields_declared h2
  obtain ⟨a1, a2⟩ := getFields_declared h3
  have all : ∀ p ∈ c.sets.zip sets ++ c.extended.zip ext ++ c.adapted.zip adp, attrs.lookup p.1.attr = some p.2.2 := by
    intro p hp
    rcases List.mem_append.mp hp with hp | hp
    · rcases List.mem_append.mp hp with hp | hp
      · exact s2 p hp
      · exact e2 p hp
    · exact a2 p hp
  refine ⟨text, sets, ext, adp, h.symm, rfl, s1, e1, a1, all, ?_⟩
  intro f hf
  subst h
  refine lookup_zip all ?_
  simp only [ClassDef.fields, List.mem_append] at hf
  rcases hf with (hf | hf) | hf
  · obtain ⟨p, hp, rfl⟩ := zip_mem s1 hf
    exact ⟨p, by simp [hp], rfl⟩
  · obtain ⟨p, hp, rfl⟩ := zip_mem e1 hf
    exact ⟨p, by simp [hp], rfl⟩
  · obtain ⟨p, hp, rfl⟩ := zip_mem a1 hf
    exact ⟨p, by simp [hp], rfl⟩

/-- Only enumerations compute their text. -/
theorem table_computed : classes.all (fun e => match e.2.text with
    | .attr _ => true
    | _ => e.2.sets == [⟨"value".toList, .plain .I32 none false, .plain .I32⟩]) = true := by decide +kernel

theorem class_text_fits {name : PyStr} {c : ClassDef} (hc : findClass name = some c) {attrs : List (PyStr × PyVal)}
    {text : Option PyStr} (ht : classText c attrs = .ok text) {sets : List (Meta × PyVal)} (hs : Declared c.sets sets)
    (all : ∀ p ∈ c.sets.zip sets, attrs.lookup p.1.attr = some p.2.2)
    (pos : ∀ i, attrs.lookup "value".toList = some (.sc (.int i)) → 0 ≤ i) : TextFits c.text sets text := by
  obtain ⟨e, he, rfl⟩ := findClass_mem hc
  have htab := List.all_eq_true.mp table_computed e he
  have hnum : e.2.sets = [⟨"value".toList, .plain .I32 none false, .plain .I32⟩] → numberIn sets = enumValue attrs ∧
      ∀ i, numberIn sets = some i → 0 ≤ i := by
    intro h
    rw [h] at hs all
    match sets, hs with
    | [(m, w)], _ =>
      have hw := all (⟨"value".toList, .plain .I32 none false, .plain .I32⟩, (m, w)) (by simp)
      refine ⟨?_, fun i hi => ?_⟩
      · unfold enumValue
        rw [hw]
        cases w with
        | sc s => cases s <;> rfl
        | _ => rfl
      · cases w with
        | sc s =>
          cases s <;> simp [numberIn] at hi
          exact pos i (by rw [hw, hi])
        | _ => simp [numberIn] at hi
  unfold classText at ht
  unfold TextFits
  cases hx : e.2.text with
  | attr d =>
    rw [hx] at ht
    simpa using ht.symm
  | enum m =>
    rw [hx] at ht htab
    obtain ⟨h1, -⟩ := hnum (by simpa using htab)
    simp only [h1] at ht ⊢
    cases hl : m.lookup ((enumValue attrs).getD 0) with
    | none => simp [hl] at ht
    | some s =>
      simp only [hl, Except.ok.injEq] at ht
      simp [← ht]
  | flags f =>
    rw [hx] at ht htab
    obtain ⟨h1, h2⟩ := hnum (by simpa using htab)
    refine ⟨?_, h2⟩
    rw [h1]
    simpa using ht.symm

theorem known_clear : TnAgree Known .clear .clear := ⟨by simp [SerState.clear], by simp [SerState.clear]⟩

theorem star_fine : MetaFine .star := ⟨by simp [Meta.star, Meta.name], by simp [Meta.star, metaTypes], by decide⟩

end Verif
