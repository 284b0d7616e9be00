import Verif.Spec.Namespaces
import Verif.Lemmas.XmlRead
import Verif.Lemmas.Shell
/-
Lemmas on namespaces.
-/
namespace Verif

theorem xmlns_text : "xmlns:".toList = ['x', 'm', 'l', 'n', 's', ':'] := rfl

theorem declaredPrefix_declaring (p : PyStr) : declaredPrefix (declaring p) = some p := by
  unfold declaring
  by_cases h : p = []
  · subst h; rfl
  · rw [if_neg h]
    unfold declaredPrefix
    rw [if_neg (fun he => by have := congrArg List.length he; simp at this), if_pos ⟨by simp [xmlns_text], fun he => by
      have := congrArg List.length he; simp at this; exact h this⟩]
    simp [xmlns_text]

theorem declaring_of_prefix {n p : PyStr} (h : declaredPrefix n = some p) : n = declaring p := by
  unfold declaredPrefix at h
  split at h
  · rename_i hn
    cases h
    exact hn
  · split at h
    · rename_i hp
      cases h
      obtain ⟨hp, hne⟩ := hp
      rw [List.isPrefixOf_iff_prefix] at hp
      obtain ⟨r, rfl⟩ := hp
      have hr : r ≠ [] := by rintro rfl; exact hne (by simp)
      have : List.drop 6 ("xmlns:".toList ++ r) = r := by simp [xmlns_text]
      rw [this, declaring, if_neg hr]
    · cases h

theorem declaring_inj {p q : PyStr} (h : declaring p = declaring q) : p = q := by
  have := congrArg declaredPrefix h
  rwa [declaredPrefix_declaring, declaredPrefix_declaring, Option.some.injEq] at this

theorem lookup_declaredIn (attrs : List (PyStr × PyStr)) (p : PyStr) : (declaredIn attrs).lookup p = attrs.lookup (declaring p) := by
  induction attrs with
  | nil => rfl
  | cons a as ih =>
    obtain ⟨n, v⟩ := a
    unfold declaredIn at ih ⊢
    rw [List.filterMap_cons, List.lookup_cons]
    cases h : declaredPrefix n with
    | none =>
      have hne : (declaring p == n) = false := by
        rw [beq_eq_false_iff_ne]
        rintro rfl
        rw [declaredPrefix_declaring] at h; cases h
      rw [hne]
      exact ih
    | some q =>
      have hn := declaring_of_prefix h
      subst hn
      simp only [Option.map_some, List.lookup_cons]
      by_cases hpq : p = q
      · subst hpq; simp
      · have h1 : (p == q) = false := by rw [beq_eq_false_iff_ne]; exact hpq
        have h2 : (declaring p == declaring q) = false := by rw [beq_eq_false_iff_ne]; exact fun he => hpq (declaring_inj he)
        rw [h1, h2]
        exact ih

theorem lookup_append {α β : Type} [BEq α] (l r : List (α × β)) (a : α) : (l ++ r).lookup a = (l.lookup a).or (r.lookup a) := by
  induction l with
  | nil => simp
  | cons x xs ih =>
    rw [List.cons_append, List.lookup_cons, List.lookup_cons]
    cases h : a == x.1
    · exact ih
    · rfl

/-- The scope of the model is the scope of the specification. -/
theorem scope_inside {scope : List (PyStr × PyStr)} {sc : NsScope} (h : ∀ p, scope.lookup p = sc p) (attrs : List (PyStr × PyStr)) :
    ∀ p, (declaredIn attrs ++ scope).lookup p = sc.inside attrs p := by
  intro p
  rw [lookup_append, lookup_declaredIn, h]
  rfl

theorem scope_outermost (p : PyStr) : List.lookup p [("xml".toList, xmlUri)] = outermost p := by
  rw [List.lookup_cons, outermost]
  by_cases h : p = "xml".toList
  · subst h; rfl
  · have : (p == "xml".toList) = false := by rw [beq_eq_false_iff_ne]; exact h
    rw [this, if_neg h]; rfl

/-! ### Names -/

/-- The name that ElementTree gives. -/
def nameIn (uri name : PyStr) : PyStr := if uri = [] then name else clarkName uri name

theorem span_colon {p l : PyStr} (hp : PlainName p) :
    (p ++ ':' :: l).takeWhile (· ≠ ':') = p ∧ (p ++ ':' :: l).dropWhile (· ≠ ':') = ':' :: l :=
  span_stop (p := fun c => decide (c ≠ ':')) (fun c hc => decide_eq_true fun h => hp.2.1 (h ▸ hc)) (by simp)

theorem resolveName_stands {scope : List (PyStr × PyStr)} {sc : NsScope} (h : ∀ p, scope.lookup p = sc p) {element : Bool}
    {written uri name : PyStr} (hs : StandsFor sc element written uri name) : resolveName scope element written = some (nameIn uri name) := by
  obtain ⟨hn, ⟨p, hp, rfl, hu, hne⟩ | ⟨rfl, rfl⟩⟩ := hs
  · unfold resolveName nameIn
    rw [if_neg (by simp [hn.2.2.1, hn.2.2.2, hp.2.2.1, hp.2.2.2]), if_pos (by simp)]
    obtain ⟨h1, h2⟩ := span_colon (l := name) hp
    simp only [h1, h2, List.drop_succ_cons, List.drop_zero]
    rw [if_neg (by simp [hp.1, hn.1, hn.2.1]), h, hu, if_neg hne]
    rfl
  · unfold resolveName nameIn
    rw [if_neg (by simp [hn.2.2.1, hn.2.2.2]), if_neg hn.2.1]
    cases element with
    | false => simp
    | true =>
      rw [if_pos rfl, if_pos rfl, h]
      cases sc [] with
      | none => simp
      | some u => cases u <;> simp

theorem namespaces_once : ∀ d ∈ wsmanNamespaces, wsmanNamespaces.find? (·.2 = d.2) = some d := by decide +kernel

theorem namespaces_plain : ∀ d ∈ wsmanNamespaces, d.2 ≠ [] ∧ '}' ∉ d.2 ∧ d.1 ≠ [] ∧ ':' ∉ d.1 ∧ '{' ∉ d.1 ∧ '}' ∉ d.1 := by decide +kernel

theorem namespaces_lookup : ∀ d ∈ wsmanNamespaces, wsmanNamespaces.lookup d.1 = some d.2 := by decide +kernel

theorem span_brace {u l : PyStr} (hu : '}' ∉ u) :
    (u ++ '}' :: l).takeWhile (· ≠ '}') = u ∧ (u ++ '}' :: l).dropWhile (· ≠ '}') = '}' :: l :=
  span_stop (p := fun c => decide (c ≠ '}')) (fun c hc => decide_eq_true fun h => hu (h ▸ hc)) (by simp)

theorem libraryName_clark {u l : PyStr} (hu : '}' ∉ u) : libraryName (clarkName u l) =
    match wsmanNamespaces.find? (·.2 = u) with
    | some d => d.1 ++ ':' :: l
    | none => clarkName u l := by
  obtain ⟨h1, h2⟩ := span_brace (l := l) hu
  show (match wsmanNamespaces.find? (·.2 = (u ++ '}' :: l).takeWhile (· ≠ '}')) with
    | some d => d.1 ++ ':' :: ((u ++ '}' :: l).dropWhile (· ≠ '}')).drop 1
    | none => clarkName u l) = _
  rw [h1, h2]
  rfl

theorem libraryName_plain {s : PyStr} (h : '{' ∉ s) : libraryName s = s := by
  unfold libraryName
  split
  · simp at h
  · rfl

theorem libraryName_called {uri name called : PyStr} (hn : PlainName name) (hu : '}' ∉ uri) (h : CalledInLibrary uri name called) :
    libraryName (nameIn uri name) = called := by
  unfold nameIn
  rcases h with ⟨rfl, rfl⟩ | ⟨p, hp, rfl⟩ | ⟨hne, hno, rfl⟩
  · rw [if_pos rfl, libraryName_plain hn.2.2.1]
  · rw [if_neg (namespaces_plain _ hp).1, libraryName_clark hu, namespaces_once _ hp]
  · rw [if_neg hne, libraryName_clark hu]
    have : wsmanNamespaces.find? (·.2 = uri) = none := by
      rw [List.find?_eq_none]
      intro d hd
      simpa using hno d hd
    rw [this]; rfl

/-! ### Documents -/

/-- The namespaces of a scope have no brace. -/
def NsScope.Good (sc : NsScope) : Prop := ∀ p uri, sc p = some uri → '}' ∉ uri

theorem good_outermost : NsScope.Good outermost := by
  intro p uri h
  unfold outermost at h
  split at h
  · cases h; decide
  · cases h

theorem pair_of_lookup {α β : Type} [BEq α] [LawfulBEq α] {l : List (α × β)} {a : α} {b : β} (h : l.lookup a = some b) : (a, b) ∈ l := by
  induction l with
  | nil => cases h
  | cons x xs ih =>
    rw [List.lookup_cons] at h
    cases hx : a == x.1 with
    | true => rw [hx] at h; cases h; rw [eq_of_beq hx]; exact List.mem_cons_self ..
    | false => rw [hx] at h; exact List.mem_cons_of_mem _ (ih h)

theorem good_inside {sc : NsScope} (h : sc.Good) {attrs : List (PyStr × PyStr)} (ha : GoodDeclarations attrs) : NsScope.Good (sc.inside attrs) := by
  intro p uri hp
  unfold NsScope.inside at hp
  cases hl : attrs.lookup (declaring p) with
  | none => rw [hl, Option.none_or] at hp; exact h p uri hp
  | some u => rw [hl, Option.some_or, Option.some.injEq] at hp; subst hp; exact (ha p u (pair_of_lookup hl)).2.1

theorem good_stands {sc : NsScope} (h : sc.Good) {element : Bool} {written uri name : PyStr} (hs : StandsFor sc element written uri name) : '}' ∉ uri := by
  obtain ⟨_, ⟨p, _, _, hu, _⟩ | ⟨_, rfl⟩⟩ := hs
  · exact h p uri hu
  · cases element with
    | false => simp
    | true =>
      rw [if_pos rfl]
      cases hs : sc [] with
      | none => simp
      | some u => exact h [] u hs

theorem all_good {attrs : List (PyStr × PyStr)} (h : GoodDeclarations attrs) : (declaredIn attrs).all goodDeclaration = true := by
  rw [List.all_eq_true]
  intro d hd
  unfold declaredIn at hd
  rw [List.mem_filterMap] at hd
  obtain ⟨⟨n, v⟩, ha, he⟩ := hd
  cases hp : declaredPrefix n with
  | none => rw [hp] at he; cases he
  | some p =>
    rw [hp, Option.map_some, Option.some.injEq] at he
    subst he
    have hn := declaring_of_prefix hp
    subst hn
    obtain ⟨h1, h2, h3, h4⟩ := h p v ha
    unfold goodDeclaration
    dsimp only
    have e1 : decide (v = xmlUri) = false := decide_eq_false h3
    have e2 : decide (v ≠ xmlnsUri) = true := decide_eq_true h4
    have e3 : decide ('}' ∉ v) = true := by simpa using h2
    rw [e1, e2, e3]
    rcases h1 with rfl | ⟨hq, hx, hy, hv⟩
    · simp
    · have e4 : decide (p = "xml".toList) = false := by simpa using hx
      have e5 : decide (p ≠ "xmlns".toList) = true := by simpa using hy
      have e6 : decide (':' ∉ p) = true := by simpa using hq.2.1
      have e7 : decide (v ≠ []) = true := by simpa using hv
      rw [e4, e5, e6, e7]
      simp

theorem resolveAttrs_written {scope : List (PyStr × PyStr)} {sc : NsScope} (h : ∀ p, scope.lookup p = sc p) (hg : sc.Good)
    {as bs : List (PyStr × PyStr)} (hw : WrittenAttrs sc as bs) :
    ∃ cs, resolveAttrs scope as = some cs ∧ cs.map (fun a => (libraryName a.1, a.2)) = bs := by
  induction hw with
  | nil => exact ⟨[], rfl, rfl⟩
  | declaration _ ih =>
    obtain ⟨cs, h1, h2⟩ := ih
    refine ⟨cs, ?_, h2⟩
    rw [resolveAttrs, if_pos (by rw [declaredPrefix_declaring]; rfl), h1]
  | @attr written uri name called value as bs hd hs hc _ ih =>
    obtain ⟨cs, h1, h2⟩ := ih
    refine ⟨(nameIn uri name, value) :: cs, ?_, ?_⟩
    · rw [resolveAttrs, if_neg, resolveName_stands h hs, h1]
      · rfl
      · cases hp : declaredPrefix written with
        | none => simp
        | some p => exact absurd (declaring_of_prefix hp) (hd p)
    · rw [List.map_cons, h2, libraryName_called hs.1 (good_stands hg hs) hc]

theorem nodup_of_map {α β : Type} {f : α → β} {l : List α} (h : (l.map f).Nodup) : l.Nodup := by
  induction l with
  | nil => exact .nil
  | cons a l ih =>
    rw [List.map_cons, List.nodup_cons] at h
    exact List.nodup_cons.2 ⟨fun hm => h.1 (List.mem_map_of_mem hm), ih h.2⟩

mutual
theorem resolveElem_written {sc : NsScope} {raw e : Elem} (hw : WrittenAs sc raw e) (scope : List (PyStr × PyStr))
    (h : ∀ p, scope.lookup p = sc p) (hg : sc.Good) : ∃ t, resolveElem scope raw = some t ∧ t.inLibrary = e := by
  match hw with
  | @WrittenAs.node _ tag attrs text kids uri name called bs ls hd hs hc ha hn hk =>
    have h' := scope_inside h attrs
    have hg' := good_inside hg hd
    obtain ⟨cs, h1, h2⟩ := resolveAttrs_written h' hg' ha
    obtain ⟨ks, h3, h4⟩ := resolveKids_written hk _ h' hg'
    refine ⟨.node (nameIn uri name) cs text ks, ?_, ?_⟩
    · rw [resolveElem, if_pos (all_good hd), resolveName_stands h' hs, h1]
      have hcs : (cs.map (·.1)).Nodup := by
        rw [← h2, List.map_map] at hn
        have : ((fun x : PyStr × PyStr => x.1) ∘ fun a : PyStr × PyStr => (libraryName a.1, a.2)) = libraryName ∘ (fun x => x.1) := rfl
        rw [this, ← List.map_map] at hn
        exact nodup_of_map hn
      simp only [Option.bind_eq_bind, Option.bind_some]
      rw [if_pos hcs, h3]
      rfl
    · rw [Elem.inLibrary, h2, h4, libraryName_called hs.1 (good_stands hg' hs) hc]

theorem resolveKids_written {sc : NsScope} {ks ls : List Elem} (hw : WrittenKids sc ks ls) (scope : List (PyStr × PyStr))
    (h : ∀ p, scope.lookup p = sc p) (hg : sc.Good) : ∃ ts, resolveChildren scope ks = some ts ∧ inLibraryKids ts = ls := by
  match hw with
  | .nil => exact ⟨[], rfl, rfl⟩
  | .cons hk hks =>
    obtain ⟨t, h1, h2⟩ := resolveElem_written hk scope h hg
    obtain ⟨ts, h3, h4⟩ := resolveKids_written hks scope h hg
    exact ⟨t :: ts, by rw [resolveChildren, h1, h3]; rfl, by rw [inLibraryKids, h2, h4]⟩
end

/-! ### Paths -/

/-- A name as ElementTree gives it. -/
def ClarkName (n : PyStr) : Prop :=
  (':' ∉ n ∧ '{' ∉ n) ∨ ∃ u l, '}' ∉ u ∧ ':' ∉ l ∧ n = clarkName u l

theorem namespaces_colon : ∀ d ∈ wsmanNamespaces, ':' ∈ d.2 := by decide +kernel

theorem append_colon_inj {p q l m : PyStr} (hp : ':' ∉ p) (hq : ':' ∉ q) (h : p ++ ':' :: l = q ++ ':' :: m) : p = q ∧ l = m := by
  induction p generalizing q with
  | nil => cases q with
    | nil => exact ⟨rfl, by simpa using h⟩
    | cons c q => rw [List.nil_append, List.cons_append, List.cons.injEq] at h; rw [← h.1] at hq; simp at hq
  | cons a p ih => cases q with
    | nil => rw [List.nil_append, List.cons_append, List.cons.injEq] at h; rw [h.1] at hp; simp at hp
    | cons c q =>
      rw [List.cons_append, List.cons_append, List.cons.injEq] at h
      rw [List.mem_cons, not_or] at hp hq
      obtain ⟨rfl, rfl⟩ := ih hp.2 hq.2 h.2
      exact ⟨by rw [h.1], rfl⟩

theorem clark_inj {u v l m : PyStr} (hu : '}' ∉ u) (hv : '}' ∉ v) (h : clarkName u l = clarkName v m) : u = v ∧ l = m := by
  unfold clarkName at h
  rw [List.cons.injEq] at h
  have h1 := (span_brace (l := l) hu)
  have h2 := (span_brace (l := m) hv)
  rw [h.2] at h1
  have a := h1.1.symm.trans h2.1
  have b := h1.2.symm.trans h2.2
  exact ⟨a, by simpa using b⟩

/-- A step of a path is found under the same names. -/
theorem step_iff {s q n : PyStr} (hs : pathStep s = some q) (hn : ClarkName n) : libraryName n = s ↔ n = q := by
  unfold pathStep at hs
  split at hs
  · rename_i hc
    cases hl : wsmanNamespaces.lookup (s.takeWhile (· ≠ ':')) with
    | none => rw [hl] at hs; cases hs
    | some uri =>
      rw [hl, Option.map_some, Option.some.injEq] at hs
      have hm := pair_of_lookup hl
      have hp := namespaces_plain _ hm
      dsimp only at hp
      have hsp : s = s.takeWhile (· ≠ ':') ++ ':' :: (s.dropWhile (· ≠ ':')).drop 1 := by
        have h1 := List.takeWhile_append_dropWhile (p := fun c => decide (c ≠ ':')) (l := s)
        cases hd : s.dropWhile (· ≠ ':') with
        | nil =>
          rw [hd, List.append_nil] at h1
          have := hp.2.2.2.1
          rw [h1] at this
          exact absurd hc this
        | cons c r =>
          have hc' : c = ':' := by
            have h3 := List.head?_dropWhile_not (p := fun c => decide (c ≠ ':')) (l := s)
            rw [hd] at h3
            simpa using h3
          rw [hd, hc'] at h1
          rw [List.drop_succ_cons, List.drop_zero]
          exact h1.symm
      generalize s.takeWhile (· ≠ ':') = p at *
      generalize (s.dropWhile (· ≠ ':')).drop 1 = l at *
      subst hs
      subst hsp
      rcases hn with ⟨h1, h2⟩ | ⟨u, m, hu, hm', rfl⟩
      · rw [libraryName_plain h2]
        constructor
        · rintro rfl; simp at h1
        · rintro rfl; simp [clarkName] at h2
      · rw [libraryName_clark hu]
        cases hf : wsmanNamespaces.find? (·.2 = u) with
        | none =>
          rw [List.find?_eq_none] at hf
          constructor
          · intro he
            dsimp only at he
            unfold clarkName at he
            cases p with
            | nil => exact absurd rfl hp.2.2.1
            | cons a p => rw [List.cons_append, List.cons.injEq] at he; rw [← he.1] at hp; simp at hp
          · intro he
            have := (clark_inj hu hp.2.1 he).1
            subst this
            exact absurd (decide_eq_true rfl) (hf _ hm)
        | some d =>
          have hd := List.mem_of_find?_eq_some hf
          have hdu : d.2 = u := by simpa using List.find?_some hf
          dsimp only
          constructor
          · intro he
            obtain ⟨h3, rfl⟩ := append_colon_inj (namespaces_plain _ hd).2.2.2.1 hp.2.2.2.1 he
            have h4 := namespaces_lookup _ hd
            have h5 := namespaces_lookup _ hm
            dsimp only at h5
            rw [h3, h5, Option.some.injEq] at h4
            rw [← hdu, ← h4]
          · intro he
            obtain ⟨h3, rfl⟩ := clark_inj hu hp.2.1 he
            have h4 := namespaces_once _ hm
            dsimp only at h4
            rw [← h3] at h4
            rw [h4, Option.some.injEq] at hf
            rw [← hf]
  · rename_i hc
    rw [Option.some.injEq] at hs
    subst hs
    rcases hn with ⟨h1, h2⟩ | ⟨u, m, hu, hm', rfl⟩
    · rw [libraryName_plain h2]
    · rw [libraryName_clark hu]
      cases hf : wsmanNamespaces.find? (·.2 = u) with
      | none => exact Iff.rfl
      | some d =>
        have hd := List.mem_of_find?_eq_some hf
        have hdu : d.2 = u := by simpa using List.find?_some hf
        dsimp only
        constructor
        · rintro rfl; simp at hc
        · rintro rfl
          have := namespaces_colon _ hd
          rw [hdu] at this
          simp [clarkName, this] at hc

mutual
/-- All names are as ElementTree gives them. -/
def Elem.Clark : Elem → Prop
  | .node tag attrs _ kids => ClarkName tag ∧ (∀ a ∈ attrs, ClarkName a.1) ∧ ClarkKids kids

def ClarkKids : List Elem → Prop
  | [] => True
  | k :: ks => k.Clark ∧ ClarkKids ks
end

theorem inLibraryKids_eq (ks : List Elem) : inLibraryKids ks = ks.map Elem.inLibrary := by
  induction ks with
  | nil => rfl
  | cons k ks ih => rw [inLibraryKids, ih]; rfl

theorem clarkKids_iff (ks : List Elem) : ClarkKids ks ↔ ∀ k ∈ ks, k.Clark := by
  induction ks with
  | nil => simp [ClarkKids]
  | cons k ks ih => simp [ClarkKids, ih]

theorem elemsAt_library : ∀ {path names : List PyStr}, pathSteps path = some names → ∀ {t : Elem}, t.Clark →
    elemsAt path t.inLibrary = (elemsAt names t).map Elem.inLibrary
  | [], names, h, t, _ => by cases h; rfl
  | s :: path, names, h, .node tag attrs text kids, ht => by
    rw [pathSteps] at h
    cases hs : pathStep s with
    | none => rw [hs] at h; cases h
    | some q =>
      cases hp : pathSteps path with
      | none => rw [hs, hp] at h; cases h
      | some ns =>
        rw [hs, hp] at h
        cases h
        rw [Elem.Clark, clarkKids_iff] at ht
        rw [Elem.inLibrary, inLibraryKids_eq]
        have hk := ht.2.2
        clear ht
        show List.flatMap (elemsAt path) (List.filter (fun k => k.tag = s) (kids.map Elem.inLibrary)) =
          ((List.filter (fun k => k.tag = q) kids).flatMap (elemsAt ns)).map Elem.inLibrary
        induction kids with
        | nil => rfl
        | cons k ks ih =>
          have ih := ih fun x hx => hk x (List.mem_cons_of_mem _ hx)
          have hkc := hk k (List.mem_cons_self ..)
          have htag : k.inLibrary.tag = libraryName k.tag := by cases k; rfl
          have hck : ClarkName k.tag := by cases k; exact hkc.1
          rw [List.map_cons, List.filter_cons, List.filter_cons]
          by_cases hq : k.tag = q
          · rw [if_pos (by rw [htag]; simpa using (step_iff hs hck).2 hq), if_pos (by simpa using hq), List.flatMap_cons, List.flatMap_cons,
              List.map_append, ih, elemsAt_library hp hkc]
          · rw [if_neg (by rw [htag]; simpa using fun h => hq ((step_iff hs hck).1 h)), if_neg (by simpa using hq), ih]

/-! ### What is read has such names -/

/-- The namespaces of a scope have no brace. -/
def GoodScope (scope : List (PyStr × PyStr)) : Prop := ∀ d ∈ scope, '}' ∉ d.2

theorem resolveName_clark {scope : List (PyStr × PyStr)} (h : GoodScope scope) {element : Bool} {name n : PyStr}
    (hr : resolveName scope element name = some n) : ClarkName n := by
  unfold resolveName at hr
  split at hr
  · cases hr
  · rename_i hb
    rw [not_or] at hb
    split at hr
    · dsimp only at hr
      split at hr
      · cases hr
      · rename_i hl
        cases hu : scope.lookup (name.takeWhile (· ≠ ':')) with
        | none => rw [hu] at hr; cases hr
        | some u =>
          rw [hu, Option.map_some, Option.some.injEq] at hr
          refine .inr ⟨u, _, h _ (pair_of_lookup hu), ?_, hr.symm⟩
          intro hc; exact hl (.inr (.inr hc))
    · rename_i hc
      split at hr
      · split at hr
        · cases hr; exact .inl ⟨hc, hb.1⟩
        · cases hr; exact .inl ⟨hc, hb.1⟩
        · rename_i u _ hu
          cases hr
          exact .inr ⟨u, _, h _ (pair_of_lookup hu), hc, rfl⟩
      · cases hr; exact .inl ⟨hc, hb.1⟩

theorem resolveAttrs_clark {scope : List (PyStr × PyStr)} (h : GoodScope scope) : ∀ {as bs : List (PyStr × PyStr)},
    resolveAttrs scope as = some bs → ∀ b ∈ bs, ClarkName b.1
  | [], bs, hr => by cases hr; simp
  | a :: as, bs, hr => by
    rw [resolveAttrs] at hr
    split at hr
    · exact resolveAttrs_clark h hr
    · cases hn : resolveName scope false a.1 with
      | none => rw [hn] at hr; cases hr
      | some n =>
        cases hs : resolveAttrs scope as with
        | none => rw [hn, hs] at hr; cases hr
        | some cs =>
          rw [hn, hs] at hr
          cases hr
          intro b hb
          rcases List.mem_cons.1 hb with rfl | hb
          · exact resolveName_clark h hn
          · exact resolveAttrs_clark h hs b hb

theorem goodScope_inside {scope : List (PyStr × PyStr)} (h : GoodScope scope) {attrs : List (PyStr × PyStr)}
    (ha : (declaredIn attrs).all goodDeclaration = true) : GoodScope (declaredIn attrs ++ scope) := by
  intro d hd
  rcases List.mem_append.1 hd with hd | hd
  · have := List.all_eq_true.1 ha d hd
    unfold goodDeclaration at this
    simp only [Bool.and_eq_true, decide_eq_true_eq] at this
    exact this.1.2
  · exact h d hd

mutual
theorem resolveElem_clark {scope : List (PyStr × PyStr)} (h : GoodScope scope) : ∀ {e t : Elem}, resolveElem scope e = some t → t.Clark
  | .node tag attrs text kids, t, hr => by
    rw [resolveElem] at hr
    split at hr
    · rename_i ha
      have h' := goodScope_inside h ha
      cases h1 : resolveName (declaredIn attrs ++ scope) true tag with
      | none => rw [h1] at hr; cases hr
      | some n =>
        cases h2 : resolveAttrs (declaredIn attrs ++ scope) attrs with
        | none => rw [h1, h2] at hr; cases hr
        | some as =>
          rw [h1, h2] at hr
          simp only [Option.bind_eq_bind, Option.bind_some] at hr
          split at hr
          · cases h3 : resolveChildren (declaredIn attrs ++ scope) kids with
            | none => rw [h3] at hr; cases hr
            | some ks =>
              rw [h3] at hr
              cases hr
              exact ⟨resolveName_clark h' h1, resolveAttrs_clark h' h2, resolveKids_clark h' h3⟩
          · cases hr
    · cases hr

theorem resolveKids_clark {scope : List (PyStr × PyStr)} (h : GoodScope scope) : ∀ {ks ts : List Elem}, resolveChildren scope ks = some ts → ClarkKids ts
  | [], ts, hr => by cases hr; exact trivial
  | k :: ks, ts, hr => by
    rw [resolveChildren] at hr
    cases h1 : resolveElem scope k with
    | none => rw [h1] at hr; cases hr
    | some t =>
      cases h2 : resolveChildren scope ks with
      | none => rw [h1, h2] at hr; cases hr
      | some us =>
        rw [h1, h2] at hr
        cases hr
        exact ⟨resolveElem_clark h h1, resolveKids_clark h h2⟩
end

theorem fromString_clark {b : Bytes} {t : Elem} (h : fromString b = some t) : t.Clark := by
  unfold fromString at h
  cases h1 : decodeUtf8 b with
  | none => rw [h1] at h; cases h
  | some s =>
    cases h2 : readDocument s with
    | none => rw [h1, Option.bind_some, h2] at h; cases h
    | some e =>
      rw [h1, Option.bind_some, h2, Option.bind_some] at h
      refine resolveElem_clark ?_ h
      intro d hd
      rw [List.mem_singleton] at hd
      subst hd
      decide

/-! ### What the library writes -/

theorem prefixOf_colon {p l : PyStr} (hp : PlainName p) : prefixOf (p ++ ':' :: l) = some p := by
  unfold prefixOf
  rw [if_pos (by simp), (span_colon hp).1]

theorem stands_agree {sc1 sc2 : NsScope} {element : Bool} {written uri name : PyStr} (h : StandsFor sc1 element written uri name)
    (h0 : sc1 [] = sc2 []) (hp : ∀ p, prefixOf written = some p → sc1 p = sc2 p) : StandsFor sc2 element written uri name := by
  obtain ⟨hn, ⟨p, hq, rfl, hu, hne⟩ | ⟨rfl, rfl⟩⟩ := h
  · exact ⟨hn, .inl ⟨p, hq, rfl, by rw [← hp p (prefixOf_colon hq)]; exact hu, hne⟩⟩
  · exact ⟨hn, .inr ⟨rfl, by rw [h0]⟩⟩

theorem attrs_agree {sc1 sc2 : NsScope} {as bs : List (PyStr × PyStr)} (h : WrittenAttrs sc1 as bs)
    (h0 : sc1 [] = sc2 []) (hp : ∀ p ∈ as.filterMap (fun a => prefixOf a.1), sc1 p = sc2 p) : WrittenAttrs sc2 as bs := by
  induction h with
  | nil => exact .nil
  | @declaration q uri as bs _ ih =>
    refine .declaration (ih fun p hm => hp p ?_)
    rw [List.filterMap_cons]; split
    · exact hm
    · exact List.mem_cons_of_mem _ hm
  | @attr written uri name called value as bs hd hs hc _ ih =>
    refine .attr hd (stands_agree hs h0 fun p hm => hp p ?_) hc (ih fun p hm => hp p ?_)
    · rw [List.filterMap_cons, hm]; exact List.mem_cons_self ..
    · rw [List.filterMap_cons]; split
      · exact hm
      · exact List.mem_cons_of_mem _ hm

theorem inside_agree {sc1 sc2 : NsScope} {p : PyStr} (h : sc1 p = sc2 p) (attrs : List (PyStr × PyStr)) :
    sc1.inside attrs p = sc2.inside attrs p := by unfold NsScope.inside; rw [h]

mutual
theorem written_agree {sc1 sc2 : NsScope} {raw e : Elem} (hw : WrittenAs sc1 raw e) (h0 : sc1 [] = sc2 [])
    (hp : ∀ p ∈ raw.prefixes, sc1 p = sc2 p) : WrittenAs sc2 raw e := by
  match hw with
  | @WrittenAs.node _ tag attrs text kids uri name called bs ls hd hs hc ha hn hk =>
    have h0' := inside_agree h0 attrs
    rw [Elem.prefixes] at hp
    exact .node hd (stands_agree hs h0' fun p hm => inside_agree (hp p (by simp [hm])) attrs) hc
      (attrs_agree ha h0' fun p hm => inside_agree (hp p (List.mem_append_left _ (List.mem_append_right _ hm))) attrs) hn
      (writtenKids_agree hk h0' fun p hm => inside_agree (hp p (List.mem_append_right _ hm)) attrs)

theorem writtenKids_agree {sc1 sc2 : NsScope} {ks ls : List Elem} (hw : WrittenKids sc1 ks ls) (h0 : sc1 [] = sc2 [])
    (hp : ∀ p ∈ prefixesKids ks, sc1 p = sc2 p) : WrittenKids sc2 ks ls := by
  match hw with
  | .nil => exact .nil
  | @WrittenKids.cons _ k l ks ls hk hks =>
    rw [prefixesKids] at hp
    exact .cons (written_agree hk h0 fun p hm => hp p (List.mem_append_left _ hm))
      (writtenKids_agree hks h0 fun p hm => hp p (List.mem_append_right _ hm))
end

mutual
theorem written_normal {sc : NsScope} {raw e : Elem} (hw : WrittenAs sc raw e) : WrittenAs sc raw.normal e.normal := by
  match hw with
  | @WrittenAs.node _ tag attrs text kids uri name called bs ls hd hs hc ha hn hk =>
    exact .node hd hs hc ha hn (writtenKids_normal hk)

theorem writtenKids_normal {sc : NsScope} {ks ls : List Elem} (hw : WrittenKids sc ks ls) : WrittenKids sc (normalKids ks) (normalKids ls) := by
  match hw with
  | .nil => exact .nil
  | .cons hk hks => exact .cons (written_normal hk) (writtenKids_normal hks)
end

theorem registered_good : ∀ d ∈ registeredNamespaces, (d.1 ≠ [] ∧ ':' ∉ d.1 ∧ '{' ∉ d.1 ∧ '}' ∉ d.1) ∧ d.1 ≠ "xml".toList ∧
    d.1 ≠ "xmlns".toList ∧ d.2 ≠ [] ∧ '}' ∉ d.2 ∧ d.2 ≠ xmlUri ∧ d.2 ≠ xmlnsUri := by decide +kernel

theorem mem_declarations {e : Elem} {a : PyStr × PyStr} (h : a ∈ declarations e) :
    ∃ d ∈ registeredNamespaces, d.1 ∈ e.prefixes ∧ a = (declaring d.1, d.2) := by
  unfold declarations at h
  obtain ⟨d, hd, rfl⟩ := List.mem_map.1 h
  rw [List.mem_filter] at hd
  refine ⟨d, hd.1, by simpa using hd.2, ?_⟩
  rw [declaring, if_neg (registered_good d hd.1).1.1]

theorem lookup_none_of {α β : Type} [BEq α] [LawfulBEq α] {l : List (α × β)} {a : α} (h : a ∉ l.map (·.1)) : l.lookup a = none := by
  cases hl : l.lookup a with
  | none => rfl
  | some b => exact absurd (List.mem_map_of_mem (f := (·.1)) (pair_of_lookup hl)) h

theorem lookup_of_mem {α β : Type} [BEq α] [LawfulBEq α] {l : List (α × β)} {a : α} {b : β} (h : (l.map (·.1)).Nodup) (hm : (a, b) ∈ l) :
    l.lookup a = some b := by
  induction l with
  | nil => cases hm
  | cons x xs ih =>
    rw [List.map_cons, List.nodup_cons] at h
    rw [List.lookup_cons]
    rcases List.mem_cons.1 hm with rfl | hm
    · simp
    · have : (a == x.1) = false := by
        rw [beq_eq_false_iff_ne]
        rintro rfl
        exact h.1 (List.mem_map_of_mem (f := (·.1)) hm)
      rw [this]
      exact ih h.2 hm

theorem table_lookup {p uri : PyStr} (h : wsmanNamespaces.lookup p = some uri) (hx : p ≠ "xml".toList) : (p, uri) ∈ registeredNamespaces := by
  have := pair_of_lookup h
  unfold wsmanNamespaces at this
  rcases List.mem_cons.1 this with he | hm
  · exact absurd (congrArg Prod.fst he) hx
  · exact hm

/-- With the declarations on the root, the prefixes that are used stand for what they stand for in the table. -/
theorem scope_declared {e : Elem} (hn : ((declarations e ++ e.attrs).map (·.1)).Nodup) {p : PyStr} (hp : p ∈ e.prefixes ∨ p = []) :
    outermost.inside (declarations e ++ e.attrs) p = libraryScope.inside e.attrs p := by
  unfold NsScope.inside
  rw [lookup_append]
  rw [List.map_append, List.nodup_append] at hn
  obtain ⟨hn1, _, hn3⟩ := hn
  cases ha : e.attrs.lookup (declaring p) with
  | some v =>
    have : (declarations e).lookup (declaring p) = none := by
      refine lookup_none_of fun hm => ?_
      exact hn3 _ hm _ (List.mem_map_of_mem (f := (·.1)) (pair_of_lookup ha)) rfl
    rw [this]; rfl
  | none =>
    rw [Option.or_none, Option.none_or]
    by_cases hx : p = "xml".toList
    · subst hx
      have : (declarations e).lookup (declaring "xml".toList) = none := by
        refine lookup_none_of fun hm => ?_
        obtain ⟨a, ha, hm⟩ := List.mem_map.1 hm
        obtain ⟨d, hd, _, rfl⟩ := mem_declarations ha
        exact (registered_good d hd).2.1 (declaring_inj hm)
      rw [this]; rfl
    · have ho : outermost p = none := by unfold outermost; rw [if_neg hx]
      rw [ho, Option.or_none]
      unfold libraryScope
      cases hl : wsmanNamespaces.lookup p with
      | none =>
        refine lookup_none_of fun hm => ?_
        obtain ⟨a, ha, hm⟩ := List.mem_map.1 hm
        obtain ⟨d, hd, _, rfl⟩ := mem_declarations ha
        have hdp := declaring_inj hm
        have := namespaces_lookup d (List.mem_cons_of_mem _ hd)
        rw [hdp, hl] at this
        cases this
      | some uri =>
        have hm := table_lookup hl hx
        have hpe : p ∈ e.prefixes := by
          rcases hp with hp | rfl
          · exact hp
          · exact absurd rfl (registered_good _ hm).1.1
        refine lookup_of_mem hn1 ?_
        unfold declarations
        refine List.mem_map.2 ⟨(p, uri), List.mem_filter.2 ⟨hm, by simpa using hpe⟩, ?_⟩
        rw [declaring, if_neg (registered_good _ hm).1.1]

theorem writtenAttrs_declarations {sc : NsScope} {ds as bs : List (PyStr × PyStr)} (hd : ∀ a ∈ ds, ∃ p uri, a = (declaring p, uri))
    (h : WrittenAttrs sc as bs) : WrittenAttrs sc (ds ++ as) bs := by
  induction ds with
  | nil => exact h
  | cons a ds ih =>
    obtain ⟨p, uri, rfl⟩ := hd a (List.mem_cons_self ..)
    exact .declaration (ih fun x hx => hd x (List.mem_cons_of_mem _ hx))

/-- What the library writes, with the declarations on the root, is what its names mean by the table. -/
theorem written_document {e e' : Elem} (hw : WrittenAs libraryScope e e') (hn : ((declarations e ++ e.attrs).map (·.1)).Nodup) :
    WrittenAs outermost (.node e.tag (declarations e ++ e.attrs) e.text e.kids) e' := by
  have hscope : ∀ {p}, p ∈ e.prefixes ∨ p = [] → libraryScope.inside e.attrs p = outermost.inside (declarations e ++ e.attrs) p :=
    fun hp => (scope_declared hn hp).symm
  have hdecl : GoodDeclarations (declarations e) := by
    intro p uri hm
    obtain ⟨d, hd, _, he⟩ := mem_declarations hm
    rw [Prod.mk.injEq] at he
    have hp := declaring_inj he.1
    obtain ⟨h1, h2, h3, h4, h5, h6, h7⟩ := registered_good d hd
    rw [hp, he.2]
    exact ⟨.inr ⟨h1, h2, h3, h4⟩, h5, h6, h7⟩
  have hds : ∀ a ∈ declarations e, ∃ p uri, a = (declaring p, uri) := fun a ha => by
    obtain ⟨d, _, _, rfl⟩ := mem_declarations ha
    exact ⟨_, _, rfl⟩
  generalize hD : declarations e = D at *
  match hw with
  | @WrittenAs.node _ tag attrs text kids uri name called bs ls hd hs hc ha hn' hk =>
    simp only [Elem.tag, Elem.attrs, Elem.text, Elem.kids] at *
    rw [Elem.prefixes] at hscope
    have h0 := hscope (p := []) (.inr rfl)
    refine .node ?_ (stands_agree hs h0 fun p hm => hscope (.inl (by simp [hm]))) hc
      (writtenAttrs_declarations hds (attrs_agree ha h0 fun p hm =>
        hscope (.inl (List.mem_append_left _ (List.mem_append_right _ hm))))) hn'
      (writtenKids_agree hk h0 fun p hm => hscope (.inl (List.mem_append_right _ hm)))
    intro p uri hm
    rcases List.mem_append.1 hm with hm | hm
    · exact hdecl p uri hm
    · exact hd p uri hm

theorem clark_elemsAt : ∀ {path : List PyStr} {t x : Elem}, t.Clark → x ∈ elemsAt path t → x.Clark
  | [], t, x, h, hx => by rw [elemsAt, List.mem_singleton] at hx; rw [hx]; exact h
  | s :: path, .node tag attrs text kids, x, h, hx => by
    rw [elemsAt, List.mem_flatMap] at hx
    obtain ⟨k, hk, hx⟩ := hx
    rw [Elem.Clark, clarkKids_iff] at h
    exact clark_elemsAt (h.2.2 k (List.mem_filter.1 hk).1) hx

end Verif
