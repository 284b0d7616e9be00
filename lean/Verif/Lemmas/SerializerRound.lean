import Verif.Lemmas.Serializer
import Verif.Props.Strings
/-
Helper lemmas for CLIXML documents: the round-trip of nested values.
-/
namespace Verif

theorem getTypes_nil (d : DeState) : getTypes [] d = .ok ([], d) := rfl

theorem tag_node (t : Tag) (r n x : Option PyStr) (k : List Xml) : (Xml.node t r n x k).tag = t := rfl
theorem kids_node (t : Tag) (r n x : Option PyStr) (k : List Xml) : (Xml.node t r n x k).kids = k := rfl
theorem refId_node (t : Tag) (r n x : Option PyStr) (k : List Xml) : (Xml.node t r n x k).refId = r := rfl

theorem deser_leaf {t : Tag} {r n tx : Option PyStr} {d : DeState} {v : PyVal} (m : DMeta)
    (h : unpackPrim t r tx d = some (.ok v)) : deser m (.node t r n tx []) d = .ok (v, d) := by
  rw [deser]
  simp only [getTypes_nil, bind, Except.bind, h, pure, Except.pure]

theorem serializeString_mem (s : PyStr) (c : Char) (h : c ∈ serializeString s) :
    c ∈ s ∨ (0x20 ≤ c.toNat ∧ c.toNat < 0x7f) := by
  induction s with
  | nil => simp [serialize_nil] at h
  | cons d ds ih =>
    rw [serialize_cons, List.mem_append] at h
    rcases h with h | h
    · rw [escapedChar_eq] at h
      split at h
      · have : ∀ c ∈ "_x005F_".toList, 0x20 ≤ c.toNat ∧ c.toNat < 0x7f := by decide
        exact .inr (this c h)
      · split at h
        · obtain ⟨u, -, hu⟩ := List.mem_flatMap.mp h
          have := escapeUnit_ascii u c hu
          exact .inr (by omega)
        · simp only [List.mem_singleton] at h
          exact .inl (by simp [h])
    · rcases ih h with h | h
      · exact .inl (List.mem_cons_of_mem _ h)
      · exact .inr h

theorem safe_serializeString (s : PyStr) (hs : ∀ c ∈ s, c.toNat ≠ 0xFFFE ∧ c.toNat ≠ 0xFFFF) :
    ∀ c ∈ serializeString s, XmlSafe c := by
  intro c hc
  rcases serializeString_mem s c hc with h | h
  · have hn := C12_no_control_characters s c hc
    refine ⟨C12_xml_characters_partial s c hc (hs c h).1 (hs c h).2, ?_⟩
    rintro rfl
    exact absurd hn.1 (by decide)
  · exact xmlSafe_ascii h.1 h.2

theorem sendable_leaf {t : Tag} {name : Option PyStr} {tx : PyStr} (hn : ∀ n, name = some n → ∀ c ∈ n, XmlSafe c)
    (ht : ∀ c ∈ tx, XmlSafe c) : (Xml.node t none name (some tx) []).Sendable := by
  rw [Xml.Sendable]
  refine ⟨by simp, hn, ?_, by simp⟩
  intro s hs
  simp only [Option.some.injEq] at hs
  exact hs ▸ ht

theorem reparse_leaf (t : Tag) (name : Option PyStr) {tx : PyStr} (h : tx ≠ []) :
    (Xml.node t none name (some tx) []).reparse = .node t none name (some tx) [] := by
  cases tx with
  | nil => exact absurd rfl h
  | cons c cs => rfl

/-- The document of a scalar. -/
theorem scalar_round {s : Scalar} (hs : PlainScalar s) (name : Option PyStr)
    (hn : ∀ n, name = some n → ∀ c ∈ n, XmlSafe c) (st : SerState) :
    ∃ x, ser (.plain .star name false) (.sc s) st = .ok (some x, st) ∧ x.name = name ∧ x.Sendable ∧
      x.reparse.name = name ∧ ∀ m d, deser m x.reparse d = .ok (.sc s, d) := by
  cases s with
  | none =>
    refine ⟨.node .Nil none name none [], rfl, rfl, ?_, rfl, fun m d => deser_leaf m rfl⟩
    rw [Xml.Sendable]
    exact ⟨by simp, hn, by simp, by simp⟩
  | bool b =>
    cases b
    · refine ⟨.node .B none name (some "false".toList) [], rfl, rfl, ?_, rfl, fun m d => deser_leaf m rfl⟩
      exact sendable_leaf hn fun c hc => by
        have : ∀ c ∈ "false".toList, 32 ≤ c.toNat ∧ c.toNat < 127 := by decide
        exact xmlSafe_ascii (this c hc).1 (this c hc).2
    · refine ⟨.node .B none name (some "true".toList) [], rfl, rfl, ?_, rfl, fun m d => deser_leaf m rfl⟩
      exact sendable_leaf hn fun c hc => by
        have : ∀ c ∈ "true".toList, 32 ≤ c.toNat ∧ c.toNat < 127 := by decide
        exact xmlSafe_ascii (this c hc).1 (this c hc).2
  | int i =>
    refine ⟨.node .I32 none name (some (pyStrInt i)) [], rfl, rfl, sendable_leaf hn (safe_pyStrInt i), ?_, fun m d => ?_⟩
    · rw [reparse_leaf _ _ (pyStrInt_ne_nil i)]; rfl
    · rw [reparse_leaf _ _ (pyStrInt_ne_nil i)]
      refine deser_leaf m ?_
      simp only [unpackPrim, intOf, pyInt_pyStrInt, bind, Except.bind, pure, Except.pure]
  | str s =>
    refine ⟨.node .S none name (some (serializeString s)) [], rfl, rfl,
      sendable_leaf hn (safe_serializeString s hs.2), rfl, fun m d => ?_⟩
    have hd := C13_roundtrip_partial s hs.1
    show deser m (.node .S none name _ []) d = _
    refine deser_leaf m ?_
    simp only [unpackPrim]
    generalize serializeString s = t at hd
    cases t with
    | nil =>
      have : deserializeString none = .ok s := by rw [← hd]; decide +kernel
      simp only [this, bind, Except.bind, pure, Except.pure]
    | cons c cs => simp only [hd, bind, Except.bind, pure, Except.pure]
  | bytes b =>
    refine ⟨.node .BA none name (some (b64Encode b)) [], rfl, rfl, sendable_leaf hn (safe_b64 b), rfl, fun m d => ?_⟩
    rw [reparse_leaf _ _ (b64_ne_nil hs)]
    refine deser_leaf m ?_
    simp only [unpackPrim, b64DecodeStr_encode, bind, Except.bind, pure, Except.pure]
  | guid u =>
    refine ⟨.node .G none name (some u.toStr) [], rfl, rfl, sendable_leaf hn (safe_uuid u), ?_, fun m d => ?_⟩
    · rw [reparse_leaf _ _ (uuid_ne_nil u)]; rfl
    · rw [reparse_leaf _ _ (uuid_ne_nil u)]
      refine deser_leaf m ?_
      simp only [unpackPrim, parseUUID_toStr, bind, Except.bind, pure, Except.pure]

/-- The type-name tables of the writer and the reader agree, as far as the type lists `ok` are concerned. -/
def TnAgree (ok : List PyStr → Prop) (st : SerState) (d : DeState) : Prop :=
  (∀ main i, st.tn.lookup main = some i → i < st.tnId) ∧
  (∀ types main i, ok types → types.head? = some main → st.tn.lookup main = some i →
    d.tn.lookup (pyStrNat i) = some types)

/-- Type lists with pairwise different first names, all XML safe. -/
def OkTypes (ok : List PyStr → Prop) : Prop :=
  (∀ a b, ok a → ok b → a.head? = b.head? → a = b) ∧ (∀ a, ok a → a ≠ [] ∧ ∀ t ∈ a, ∀ c ∈ t, XmlSafe c)

theorem lookup_append_ne {α β : Type} [BEq α] [LawfulBEq α] (l : List (α × β)) (a k : α) (b : β) (h : k ≠ a) :
    (l ++ [(a, b)]).lookup k = l.lookup k := by
  induction l with
  | nil => simp [List.lookup, beq_eq_false_iff_ne.mpr h]
  | cons e l ih =>
    simp only [List.cons_append, List.lookup]
    split
    · rfl
    · exact ih

theorem lookup_append_eq {α β : Type} [BEq α] [LawfulBEq α] (l : List (α × β)) (a : α) (b : β)
    (h : l.lookup a = none) : (l ++ [(a, b)]).lookup a = some b := by
  induction l with
  | nil => simp
  | cons e l ih =>
    simp only [List.cons_append, List.lookup] at h ⊢
    split
    · rename_i hx; rw [hx] at h; simp at h
    · rename_i hx; rw [hx] at h; exact ih h

theorem reparseAll_eq_map (xs : List Xml) : reparseAll xs = xs.map Xml.reparse := by
  induction xs with
  | nil => rfl
  | cons x xs ih => simp [reparseAll, ih]

theorem tnTexts_map (types : List PyStr) :
    ((types.map (fun t => Xml.node .T none none (some t) [])).map Xml.reparse).map (fun t => t.text.getD []) = types := by
  induction types with
  | nil => rfl
  | cons t ts ih =>
    simp only [List.map_cons, ih]
    congr 1
    cases t <;> rfl

theorem tag_reparse (x : Xml) : x.reparse.tag = x.tag := by cases x; rfl
theorem name_reparse (x : Xml) : x.reparse.name = x.name := by cases x; rfl

theorem filter_T (types : List PyStr) :
    (((types.map (fun t => Xml.node .T none none (some t) [])).map Xml.reparse).filter (fun t => t.tag = .T)) =
      (types.map (fun t => Xml.node .T none none (some t) [])).map Xml.reparse := by
  rw [List.filter_eq_self]
  intro x hx
  obtain ⟨y, hy, rfl⟩ := List.mem_map.mp hx
  obtain ⟨t, -, rfl⟩ := List.mem_map.mp hy
  rfl

theorem tnTexts_rest (rest : List Xml) (h : ∀ y ∈ rest, y.tag ≠ .TN) : tnTexts rest = [] := by
  simp only [tnTexts, List.flatMap_eq_nil_iff]
  intro y hy
  rw [if_neg (h y hy)]

theorem tnTexts_cons (x : Xml) (rest : List Xml) (h : ∀ y ∈ rest, y.tag ≠ .TN) : tnTexts (x :: rest) = tnTexts [x] := by
  have := tnTexts_rest rest h
  simp only [tnTexts, List.flatMap_cons, List.flatMap_nil, List.append_nil] at this ⊢
  rw [this, List.append_nil]

theorem find_none (rest : List Xml) (t : Tag) (h : ∀ y ∈ rest, y.tag ≠ t) : rest.find? (fun k => k.tag = t) = none := by
  rw [List.find?_eq_none]
  intro y hy
  simpa using h y hy

/-- Elements without type names. -/
theorem getTypes_rest (rest : List Xml) (d : DeState) (h : ∀ y ∈ rest, y.tag ≠ .TN ∧ y.tag ≠ .TNRef) :
    getTypes rest d = .ok ([], d) := by
  unfold getTypes
  rw [tnTexts_rest rest fun y hy => (h y hy).1, find_none rest .TNRef fun y hy => (h y hy).2]
  rfl

/-- Writing the type names and reading them back, in front of other elements. -/
theorem tn_round' {ok : List PyStr → Prop} (hok : OkTypes ok) {types : List PyStr} (ht : ok types) {st : SerState} {d : DeState}
    (hi : TnAgree ok st d) :
    ∃ x st', createTn types st = .ok (x, st') ∧ x.Sendable ∧ (x.tag = .TN ∨ x.tag = .TNRef) ∧ st'.objs = st.objs ∧
      ∃ d', (∀ rest : List Xml, (∀ y ∈ rest, y.tag ≠ .TN ∧ y.tag ≠ .TNRef) → getTypes (x.reparse :: rest) d = .ok (types, d')) ∧
        TnAgree ok st' d' ∧ d'.objs = d.objs := by
  obtain ⟨hne, hsafe⟩ := hok.2 types ht
  cases types with
  | nil => exact absurd rfl hne
  | cons main tail =>
    simp only [createTn]
    cases hl : st.tn.lookup main with
    | none =>
      refine ⟨_, _, rfl, ?_, .inl rfl, rfl, ?_⟩
      · rw [Xml.Sendable]
        refine ⟨?_, by simp, by simp, ?_⟩
        · intro s hs
          simp only [Option.some.injEq] at hs
          exact hs ▸ safe_pyStrNat _
        · intro k hk
          obtain ⟨t, htm, rfl⟩ := List.mem_map.mp hk
          exact sendable_leaf (by simp) (hsafe t htm)
      · refine ⟨{ d with tn := assign d.tn (pyStrNat st.tnId) (main :: tail) }, ?_, ⟨?_, ?_⟩, rfl⟩
        · intro rest hr
          unfold getTypes
          have e : tnTexts [(Xml.node .TN (some (pyStrNat st.tnId)) none none
              ((main :: tail).map (fun t => Xml.node .T none none (some t) []))).reparse] = main :: tail := by
            simp only [tnTexts, List.flatMap_cons, List.flatMap_nil, tag_node, Xml.reparse, kids_node, if_true,
              List.append_nil, reparseAll_eq_map]
            rw [filter_T, tnTexts_map]
          have h2 := find_none rest .TNRef fun y hy => (hr y hy).2
          rw [tnTexts_cons _ _ fun y hy => (hr y hy).1, e]
          simp [Xml.reparse, List.find?, tag_node, Xml.refId, h2, bind, Except.bind, pure, Except.pure]
        · intro m i hm
          by_cases hmm : m = main
          · subst hmm
            rw [lookup_append_eq _ _ _ hl] at hm
            simp only [Option.some.injEq] at hm
            subst hm
            exact Nat.lt_succ_self _
          · rw [lookup_append_ne _ _ _ _ hmm] at hm
            exact Nat.lt_succ_of_lt (hi.1 m i hm)
        · intro ts m i hts hh hm
          by_cases hmm : m = main
          · subst hmm
            rw [lookup_append_eq _ _ _ hl] at hm
            simp only [Option.some.injEq] at hm
            subst hm
            have := hok.1 ts (m :: tail) hts ht (by simp [hh])
            subst this
            simp [assign]
          · rw [lookup_append_ne _ _ _ _ hmm] at hm
            have hlt := hi.1 m i hm
            have hne : pyStrNat i ≠ pyStrNat st.tnId := fun h => by
              have := pyStrNat_inj h; omega
            simp only [assign, List.lookup]
            rw [beq_eq_false_iff_ne.mpr hne]
            exact hi.2 ts m i hts hh hm
    | some i =>
      refine ⟨_, _, rfl, ?_, .inr rfl, rfl, d, ?_, hi, rfl⟩
      · rw [Xml.Sendable]
        refine ⟨?_, by simp, by simp, by simp⟩
        intro s hs
        simp only [Option.some.injEq] at hs
        exact hs ▸ safe_pyStrNat _
      · intro rest hr
        have := hi.2 (main :: tail) main i ht rfl hl
        unfold getTypes
        rw [tnTexts_cons _ _ fun y hy => (hr y hy).1]
        simp [tnTexts, Xml.reparse, List.find?, tag_node, Xml.refId, this, bind, Except.bind, pure, Except.pure]

/-- Writing the type names and reading them back. -/
theorem tn_round {ok : List PyStr → Prop} (hok : OkTypes ok) {types : List PyStr} (ht : ok types) {st : SerState} {d : DeState}
    (hi : TnAgree ok st d) (rest : Tag) (ks : List Xml) (h1 : rest ≠ .TN) (h2 : rest ≠ .TNRef) :
    ∃ x st', createTn types st = .ok (x, st') ∧ x.Sendable ∧
      ∃ d', getTypes [x.reparse, .node rest none none none ks] d = .ok (types, d') ∧ TnAgree ok st' d' ∧ d'.objs = d.objs := by
  obtain ⟨x, st', h, hs, -, -, d', hg, h3, h4⟩ := tn_round' hok ht hi
  exact ⟨x, st', h, hs, d', hg _ (by simp [h1, h2, tag_node]), h3, h4⟩

end Verif
