import Verif.Lemmas.ServerDocs
import Verif.Lemmas.SerializerNest
/-
The reader on the documents of a server, for C96.
-/
namespace Verif

/-- The metadata with which the elements of a place are read. -/
def Reads (p : Place) (m : DMeta) : Prop :=
  match p with
  | .property => m = .plain .star ∨ m = .plain .Obj
  | .objects => m = .dynamic
  | .list => ∃ t, m = .plain t

theorem settle_obj {p : Place} {m : DMeta} (h : Reads p m) :
    (m.settle .Obj = .dynamic ∧ p = .objects) ∨ ∃ t, m.settle .Obj = .plain t ∧ (p = .property → t = .Obj) ∧ p ≠ .objects := by
  cases p with
  | property => exact .inr ⟨.Obj, by rcases h with rfl | rfl <;> rfl, fun _ => rfl, by simp⟩
  | objects => exact .inl ⟨by rw [show m = .dynamic from h]; rfl, rfl⟩
  | list =>
    obtain ⟨t, rfl⟩ := h
    by_cases ht : t = .star
    · subst ht; exact .inr ⟨.Obj, rfl, by simp, by simp⟩
    · exact .inr ⟨t, by simp [DMeta.settle, ht], by simp, by simp⟩

theorem deser_prim {t : Tag} {x : Option PyStr} {v : Scalar} (h : PrimWritten t x v) (m : DMeta) (r n : Option PyStr) (d : DeState) :
    deser m (.node t r n x []) d = .ok (.sc v, d) := by
  rw [deser]
  simp only [getTypes_none (xs := []) (by intro x hx; simp at hx), prim_read h, bind, Except.bind, pure, Except.pure]

/-- Reading the element of an object whose form is known. -/
theorem deser_known {m m' : DMeta} {r : PyStr} {n : Option PyStr} {kids : List Xml} {d d1 d2 : DeState} {types : List PyStr} {v : PyVal}
    (hg : getTypes kids d = .ok (types, d1)) (hm : chooseMeta (m.settle .Obj) types = some m')
    (hv : (m' = .dynamic ∧ ∃ o, deDyn {} kids d1 = .ok (o, d2) ∧ v = o.val) ∨
      (∃ e vs, m' = .list e ∧ deFind .LST true e kids d1 = .ok (vs, d2) ∧ v = .list vs) ∨
      (∃ es, m' = .dict ∧ deDct [] kids d1 = .ok (es, d2) ∧ v = .dict es)) :
    deser m (.node .Obj (some r) n none kids) d = .ok (v, { d2 with objs := assign d2.objs r v }) := by
  rw [deser]
  simp only [hg, bind, Except.bind, unpackPrim, hm]
  rcases hv with ⟨rfl, o, ho, rfl⟩ | ⟨e, vs, rfl, ho, rfl⟩ | ⟨es, rfl, ho, rfl⟩ <;>
    simp only [ho, if_true, pure, Except.pure]

theorem setNamed_fresh {l : List (PyStr × PyVal)} {k : PyStr} {v : PyVal} (h : k ∉ l.map (·.1)) : setNamed l k v = l ++ [(k, v)] := by
  unfold setNamed
  rw [if_neg]
  intro ha
  obtain ⟨e, he, hk⟩ := List.any_eq_true.mp ha
  exact h (List.mem_map.mpr ⟨e, he, eq_of_beq hk⟩)

theorem deDyn_types {s s1 : SrvState} {types : List PyStr} {tx : List Xml} (h : TypesWritten s types tx s1) {d : DeState} (hk : Knows s1 d) (xs : List Xml) :
    ∃ d1, deDyn {} (tx ++ xs) d = deDyn { types := types } xs d1 ∧ Knows s1 d1 := by
  cases h with
  | none => exact ⟨d, rfl, hk⟩
  | @new r _ hne =>
    refine ⟨{ d with tn := assign d.tn r types }, ?_, knows_tn_again hk (by simp)⟩
    rw [List.cons_append, List.nil_append, deDyn, if_pos rfl]
    have : (types.map fun t => Xml.node .T none none (some t) []).map (fun k => k.text.getD []) = types := by
      rw [List.map_map]
      conv => rhs; rw [← List.map_id types]
      rfl
    simp only [List.nil_append, this]
  | @again r _ hne hr =>
    refine ⟨d, ?_, hk⟩
    rw [List.cons_append, List.nil_append, deDyn, if_neg (by decide), if_pos rfl]
    simp only [hk.1 r, hr]

theorem deDyn_text {text : Option PyStr} {sx : List Xml} (h : ObjText text sx) {o : DynObj} (ho : o.toStr = none) (xs : List Xml) (d : DeState) :
    deDyn o (sx ++ xs) d = deDyn { o with toStr := text } xs d := by
  cases text with
  | none => rw [show sx = [] from h, ← ho]; rfl
  | some t =>
    obtain ⟨x, rfl, hx⟩ := h
    rw [List.cons_append, List.nil_append, deDyn, if_neg (by decide), if_neg (by decide), if_neg (by decide), if_neg (by decide), if_pos rfl]
    simp only [text_read hx, bind, Except.bind]

theorem deDyn_base {base : Option Scalar} {bx : List Xml} (h : ObjBase base bx) {o : DynObj} (ho : o.sets = []) (xs : List Xml) (d : DeState) :
    deDyn o (bx ++ xs) d = deDyn { o with sets := base.toList.map .sc } xs d := by
  cases base with
  | none =>
    rw [show bx = [] from h]
    cases o
    simp only at ho
    subst ho
    rfl
  | some v =>
    obtain ⟨t, x, rfl, hx⟩ := h
    have ht := prim_tag hx
    simp only [List.mem_cons, List.not_mem_nil, or_false, not_or] at ht
    rw [List.cons_append, List.nil_append, deDyn, if_neg ht.2.2.2.1, if_neg ht.2.2.2.2.1, if_neg ht.2.2.2.2.2.1, if_neg ht.2.2.2.2.2.2.1,
      if_neg ht.2.2.2.2.2.2.2]
    simp only [deser_prim hx, bind, Except.bind, ho]
    rfl

theorem deDyn_mid {base : Option Scalar} {text : Option PyStr} {bx sx mid : List Xml} (hb : ObjBase base bx) (hs : ObjText text sx)
    (hm : mid = bx ++ sx ∨ mid = sx ++ bx) {o : DynObj} (h1 : o.sets = []) (h2 : o.toStr = none) (xs : List Xml) (d : DeState) :
    deDyn o (mid ++ xs) d = deDyn { o with sets := base.toList.map .sc, toStr := text } xs d := by
  rcases hm with rfl | rfl
  · rw [List.append_assoc, deDyn_base hb h1]
    exact deDyn_text hs (o := { o with sets := base.toList.map .sc }) h2 _ _
  · rw [List.append_assoc, deDyn_text hs h2]
    exact deDyn_base hb (o := { o with toStr := text }) h1 _ _

theorem deDyn_props {l : List (PyStr × PyVal)} {ax ag : List Xml} (hg : GroupOf .Props ax ag) {o : DynObj} (ho : o.adp = []) {d d1 : DeState}
    (h : deProps [] ax d = .ok (l, d1)) (xs : List Xml) : deDyn o (ag ++ xs) d = deDyn { o with adp := l } xs d1 := by
  rcases hg with rfl | ⟨rfl, rfl⟩
  · rw [List.cons_append, List.nil_append, deDyn, if_neg (by decide), if_neg (by decide), if_pos rfl]
    simp only [ho, h, bind, Except.bind]
  · rw [deProps] at h
    simp only [Except.ok.injEq, Prod.mk.injEq] at h
    obtain ⟨rfl, rfl⟩ := h
    cases o
    simp only at ho
    subst ho
    rfl

theorem deDyn_members {l : List (PyStr × PyVal)} {ax ag : List Xml} (hg : GroupOf .MS ax ag) {o : DynObj} (ho : o.ext = []) {d d1 : DeState}
    (h : deProps [] ax d = .ok (l, d1)) (xs : List Xml) : deDyn o (ag ++ xs) d = deDyn { o with ext := l } xs d1 := by
  rcases hg with rfl | ⟨rfl, rfl⟩
  · rw [List.cons_append, List.nil_append, deDyn, if_neg (by decide), if_neg (by decide), if_neg (by decide), if_pos rfl]
    simp only [ho, h, bind, Except.bind]
  · rw [deProps] at h
    simp only [Except.ok.injEq, Prod.mk.injEq] at h
    obtain ⟨rfl, rfl⟩ := h
    cases o
    simp only at ho
    subst ho
    rfl

theorem group_noTypes {t : Tag} {ax ag : List Xml} (h : GroupOf t ax ag) (ht : t ≠ .TN ∧ t ≠ .TNRef) : NoTypes ag := by
  rcases h with rfl | ⟨-, rfl⟩ <;> intro x hx
  · simp only [List.mem_cons, List.not_mem_nil, or_false] at hx
    subst hx; exact ht
  · simp at hx

theorem mid_noTypes {base : Option Scalar} {text : Option PyStr} {bx sx mid : List Xml} (hb : ObjBase base bx) (hs : ObjText text sx)
    (hm : mid = bx ++ sx ∨ mid = sx ++ bx) : NoTypes mid := by
  have h1 : NoTypes bx := by
    cases base with
    | none => rw [show bx = [] from hb]; intro x hx; simp at hx
    | some v =>
      obtain ⟨t, x, rfl, hx⟩ := hb
      have ht := prim_tag hx
      simp only [List.mem_cons, List.not_mem_nil, or_false, not_or] at ht
      intro y hy
      simp only [List.mem_cons, List.not_mem_nil, or_false] at hy
      subst hy
      exact ⟨ht.2.2.2.1, ht.2.2.2.2.1⟩
  have h2 : NoTypes sx := by
    cases text with
    | none => rw [show sx = [] from hs]; intro x hx; simp at hx
    | some v =>
      obtain ⟨x, rfl, hx⟩ := hs
      intro y hy
      simp only [List.mem_cons, List.not_mem_nil, or_false] at hy
      subst hy
      exact ⟨by simp [Xml.tag], by simp [Xml.tag]⟩
  rcases hm with rfl | rfl <;> intro x hx <;> rcases List.mem_append.mp hx with h | h
  · exact h1 x h
  · exact h2 x h
  · exact h2 x h
  · exact h1 x h

/-- The elements with type names are skipped when the items are looked for. -/
theorem types_tags {s s1 : SrvState} {types : List PyStr} {tx : List Xml} (h : TypesWritten s types tx s1) : ∀ x ∈ tx, x.tag = .TN ∨ x.tag = .TNRef := by
  cases h with
  | none => simp
  | new => intro x hx; simp only [List.mem_cons, List.not_mem_nil, or_false] at hx; subst hx; exact .inl rfl
  | again => intro x hx; simp only [List.mem_cons, List.not_mem_nil, or_false] at hx; subst hx; exact .inr rfl

theorem deFind_skip {tx : List Xml} (h : ∀ x ∈ tx, x.tag ≠ .LST) (e : DMeta) (xs rest : List Xml) (d : DeState) :
    deFind .LST true e (tx ++ .node .LST none none none xs :: rest) d = deAll true e xs d := by
  induction tx with
  | nil => rw [List.nil_append, deFind, if_pos rfl]
  | cons x tx ih =>
    cases x with | node t r n a ks =>
    have ht : t ≠ .LST := h (.node t r n a ks) (by simp)
    rw [List.cons_append, deFind, if_neg ht, ih fun y hy => h y (by simp [hy])]

theorem deDct_skip {tx : List Xml} (h : ∀ x ∈ tx, x.tag ≠ .DCT) (l : List (PyVal × PyVal)) (xs : List Xml) (d : DeState) :
    deDct l (tx ++ xs) d = deDct l xs d := by
  induction tx with
  | nil => rfl
  | cons x tx ih =>
    cases x with | node t r n a ks =>
    have ht : t ≠ .DCT := h (.node t r n a ks) (by simp)
    rw [List.cons_append, deDct, if_neg ht]
    simp only [bind, Except.bind]
    exact ih fun y hy => h y (by simp [hy])

theorem dictSet_fresh {l : List (PyVal × PyVal)} {k v : PyVal} (h : ∀ e ∈ l, keyEq e.1 k = false) : dictSet l k v = l ++ [(k, v)] := by
  unfold dictSet
  rw [if_neg]
  intro ha
  obtain ⟨e, he, hk⟩ := List.any_eq_true.mp ha
  rw [h e he] at hk
  exact absurd hk (by simp)

theorem valuesOf_eq (vs : List SVal) : valuesOf vs = vs.map SVal.value := by
  induction vs with
  | nil => rfl
  | cons v vs ih => rw [valuesOf, ih, List.map_cons]

theorem namedValues_eq (ps : List (PyStr × SVal)) : namedValues ps = ps.map fun p => (p.1, p.2.value) := by
  induction ps with
  | nil => rfl
  | cons p ps ih => obtain ⟨n, v⟩ := p; rw [namedValues, ih, List.map_cons]

theorem entryValues_eq (es : List (Scalar × SVal)) : entryValues es = es.map fun p => (.sc p.1, p.2.value) := by
  induction es with
  | nil => rfl
  | cons p ps ih => obtain ⟨n, v⟩ := p; rw [entryValues, ih, List.map_cons]

/-- The element is read as the value. -/
def ReadAs (s : SrvState) (p : Place) (v : SVal) (x : Xml) (s' : SrvState) : Prop :=
  ∀ m d, Reads p m → Knows s d → ∃ d', deser m x d = .ok (v.value, d') ∧ Knows s' d'

/-- The properties are read. -/
def PropsRead (s : SrvState) (ps : List (PyStr × SVal)) (xs : List Xml) (s' : SrvState) : Prop :=
  ∀ d l, Knows s d → (l.map (·.1) ++ ps.map (·.1)).Nodup → ∃ d', deProps l xs d = .ok (l ++ namedValues ps, d') ∧ Knows s' d'

/-- The items are read. -/
def ItemsRead (s : SrvState) (q : Place) (vs : List SVal) (xs : List Xml) (s' : SrvState) : Prop :=
  ∀ m d, (q = .property → m = .plain .Obj) → Reads q m → Knows s d → ∃ d', deAll true m xs d = .ok (valuesOf vs, d') ∧ Knows s' d'

/-- The entries are read. -/
def EntriesRead (s : SrvState) (es : List (Scalar × SVal)) (xs : List Xml) (s' : SrvState) : Prop :=
  ∀ d l, Knows s d → (∀ a ∈ l, ∀ b ∈ es, keyEq a.1 (.sc b.1) = false) → es.Pairwise (fun a b => keyEq (.sc a.1) (.sc b.1) = false) →
    ∃ d', deEntries l xs d = .ok (l ++ entryValues es, d') ∧ Knows s' d'

theorem obj_read {s s1 s2 s3 : SrvState} {p : Place} {n : Option PyStr} {r : PyStr} {types : List PyStr} {base : Option Scalar} {text : Option PyStr}
    {adp ext : List (PyStr × SVal)} {tx bx sx ax ex ag eg mid : List Xml} (hf : p.Fits (.obj types base text adp ext)) (hg : p = .objects ∨ GenericTypes types)
    (ht : TypesWritten s types tx s1) (hb : ObjBase base bx) (hs : ObjText text sx) (hm : mid = bx ++ sx ∨ mid = sx ++ bx)
    (ha : (adp.map (·.1)).Nodup) (he : (ext.map (·.1)).Nodup) (hga : GroupOf .Props ax ag) (hge : GroupOf .MS ex eg)
    (h1 : PropsRead s1 adp ax s2) (h2 : PropsRead s2 ext ex s3) :
    ReadAs s p (.obj types base text adp ext) (.node .Obj (some r) n none (tx ++ mid ++ ag ++ eg))
      { s3 with objs := (r, .obj types base text adp ext) :: s3.objs } := by
  intro m d hr hk
  have hno : NoTypes (mid ++ (ag ++ eg)) := by
    intro x hx
    rcases List.mem_append.mp hx with h | h
    · exact mid_noTypes hb hs hm x h
    · rcases List.mem_append.mp h with h | h
      · exact group_noTypes hga (by decide) x h
      · exact group_noTypes hge (by decide) x h
  obtain ⟨d1, hd1, hk1⟩ := types_read ht hno hk
  obtain ⟨d2, hd2, hk2⟩ := deDyn_types ht hk1 (mid ++ (ag ++ eg))
  obtain ⟨d3, hd3, hk3⟩ := h1 d2 [] hk2 (by simpa using ha)
  obtain ⟨d4, hd4, hk4⟩ := h2 d3 [] hk3 (by simpa using he)
  rw [List.nil_append] at hd3 hd4
  have hchoose : chooseMeta (m.settle .Obj) types = some .dynamic := by
    rcases settle_obj hr with ⟨hm, -⟩ | ⟨t, hm, hp, hno⟩
    · rw [hm]; rfl
    · rw [hm]
      unfold chooseMeta
      dsimp only
      by_cases h0 : types = []
      · have ht : t = .Obj := by
          cases p with
          | property => exact hp rfl
          | objects => exact absurd rfl hno
          | list => exact absurd h0 hf
        rw [if_pos ⟨ht, h0⟩]
        decide +kernel
      · rw [if_neg (by simp [h0])]
        exact generic_meta (hg.resolve_left hno) h0
  have hdyn : deDyn {} (tx ++ mid ++ ag ++ eg) d1 = .ok (⟨types, text, base.toList.map .sc, namedValues ext, namedValues adp⟩, d4) := by
    rw [List.append_assoc, List.append_assoc, hd2, deDyn_mid hb hs hm rfl rfl, deDyn_props hga rfl hd3]
    rw [show eg = eg ++ [] from by simp, deDyn_members hge rfl hd4, deDyn]
  refine ⟨_, ?_, knows_obj hk4 r _⟩
  rw [SVal.value]
  refine deser_known (types := types) ?_ hchoose (.inl ⟨rfl, _, hdyn, rfl⟩)
  rw [List.append_assoc, List.append_assoc]
  exact hd1

theorem list_read {s s1 s2 : SrvState} {p q : Place} {n : Option PyStr} {r : PyStr} {types : List PyStr} {items : List SVal} {tx xs rest : List Xml}
    (hf : p.Fits (.list items)) (hq : (q = .objects ∧ ObjectListTypes types) ∨ (q = .list ∧ ListTypes types)) (ht : TypesWritten s types tx s1)
    (hb : Besides .LST rest) (h : ItemsRead s1 q items xs s2) :
    ReadAs s p (.list items) (.node .Obj (some r) n none (tx ++ .node .LST none none none xs :: rest)) { s2 with objs := (r, .list items) :: s2.objs } := by
  intro m d hr hk
  have hno : NoTypes (.node .LST none none none xs :: rest) := by
    intro x hx
    rcases List.mem_cons.mp hx with rfl | hx
    · exact ⟨by simp [Xml.tag], by simp [Xml.tag]⟩
    · exact ⟨(hb x hx).1, (hb x hx).2.1⟩
  obtain ⟨d1, hd1, hk1⟩ := types_read ht hno hk
  obtain ⟨e, hmeta, he, hqp⟩ : ∃ e, metaForTypes types = some (.list e) ∧ Reads q e ∧ q ≠ .property := by
    rcases hq with ⟨rfl, ho⟩ | ⟨rfl, ho⟩
    · exact ⟨_, objects_meta ho, rfl, by simp⟩
    · obtain ⟨t, ht⟩ := list_meta ho
      exact ⟨_, ht, ⟨t, rfl⟩, by simp⟩
  obtain ⟨d2, hd2, hk2⟩ := h e d1 (fun h => absurd h hqp) he hk1
  have hne : types ≠ [] := by rintro rfl; simp [metaForTypes] at hmeta
  have hchoose : chooseMeta (m.settle .Obj) types = some (.list e) := by
    rcases settle_obj hr with ⟨-, rfl⟩ | ⟨t, hm, -, -⟩
    · exact absurd hf (by simp [Place.Fits])
    · rw [hm]
      unfold chooseMeta
      dsimp only
      rw [if_neg (by simp [hne]), hmeta]
  refine ⟨_, ?_, knows_obj hk2 r _⟩
  rw [SVal.value]
  refine deser_known hd1 hchoose (.inr (.inl ⟨e, _, rfl, ?_, rfl⟩))
  rw [deFind_skip, hd2]
  intro x hx
  rcases types_tags ht x hx with h | h <;> rw [h] <;> decide

theorem dict_read {s s1 s2 : SrvState} {p : Place} {n : Option PyStr} {r : PyStr} {types : List PyStr} {entries : List (Scalar × SVal)}
    {tx xs rest : List Xml} (hf : p.Fits (.dict entries)) (hq : DictTypes types) (ht : TypesWritten s types tx s1)
    (hp : entries.Pairwise (fun a b => keyEq (.sc a.1) (.sc b.1) = false)) (hb : Besides .DCT rest) (h : EntriesRead s1 entries xs s2) :
    ReadAs s p (.dict entries) (.node .Obj (some r) n none (tx ++ .node .DCT none none none xs :: rest)) { s2 with objs := (r, .dict entries) :: s2.objs } := by
  intro m d hr hk
  have hno : NoTypes (.node .DCT none none none xs :: rest) := by
    intro x hx
    rcases List.mem_cons.mp hx with rfl | hx
    · exact ⟨by simp [Xml.tag], by simp [Xml.tag]⟩
    · exact ⟨(hb x hx).1, (hb x hx).2.1⟩
  obtain ⟨d1, hd1, hk1⟩ := types_read ht hno hk
  obtain ⟨d2, hd2, hk2⟩ := h d1 [] hk1 (by simp) hp
  have hmeta := dict_meta hq
  have hne : types ≠ [] := by rintro rfl; simp [metaForTypes] at hmeta
  have hchoose : chooseMeta (m.settle .Obj) types = some .dict := by
    rcases settle_obj hr with ⟨-, rfl⟩ | ⟨t, hm, -, -⟩
    · exact absurd hf (by simp [Place.Fits])
    · rw [hm]
      unfold chooseMeta
      dsimp only
      rw [if_neg (by simp [hne]), hmeta]
  refine ⟨_, ?_, knows_obj hk2 r _⟩
  rw [SVal.value]
  refine deser_known hd1 hchoose (.inr (.inr ⟨_, rfl, ?_, rfl⟩))
  rw [deDct_skip, deDct, if_pos rfl, hd2]
  · simp only [bind, Except.bind, List.nil_append]
    have := deDct_skip (tx := rest) (fun x hx => (hb x hx).2.2) (entryValues entries) [] d2
    rw [List.append_nil, deDct] at this
    exact this
  · intro x hx
    rcases types_tags ht x hx with h | h <;> rw [h] <;> decide

theorem props_cons {s s1 s2 : SrvState} {n : PyStr} {v : SVal} {ps : List (PyStr × SVal)} {x : Xml} {xs : List Xml}
    (hn : x.name = some n) (h1 : ReadAs s .property v x s1) (h2 : PropsRead s1 ps xs s2) : PropsRead s ((n, v) :: ps) (x :: xs) s2 := by
  intro d l hk hd
  obtain ⟨d1, hd1, hk1⟩ := h1 (.plain .star) d (.inl rfl) hk
  have hnl : n ∉ l.map (·.1) := by
    intro hm
    rw [List.map_cons] at hd
    exact (List.nodup_append.mp hd).2.2 n hm n (by simp) rfl
  obtain ⟨d2, hd2, hk2⟩ := h2 d1 (l ++ [(n, v.value)]) hk1 (by simpa using hd)
  refine ⟨d2, ?_, hk2⟩
  cases x with | node t r nm a ks =>
  have hnm : nm = some n := hn
  subst hnm
  rw [deProps]
  simp only [hd1, bind, Except.bind, setNamed_fresh hnl, hd2, namedValues, List.append_assoc, List.cons_append, List.nil_append]

theorem items_cons {s s1 s2 : SrvState} {q : Place} {v : SVal} {vs : List SVal} {x : Xml} {xs : List Xml} (h1 : ReadAs s q v x s1)
    (h2 : ItemsRead s1 q vs xs s2) : ItemsRead s q (v :: vs) (x :: xs) s2 := by
  intro m d hq hr hk
  obtain ⟨d1, hd1, hk1⟩ := h1 m d hr hk
  have hr2 : Reads q (m.settle x.tag) := by
    cases q with
    | property => rw [hq rfl]; exact .inr rfl
    | objects => rw [show m = .dynamic from hr]; rfl
    | list =>
      obtain ⟨t, rfl⟩ := hr
      by_cases ht : t = .star
      · subst ht; exact ⟨x.tag, rfl⟩
      · exact ⟨t, by simp [DMeta.settle, ht]⟩
  obtain ⟨d2, hd2, hk2⟩ := h2 _ d1 (fun h => by rw [hq h]; rfl) hr2 hk1
  refine ⟨d2, ?_, hk2⟩
  rw [deAll]
  simp only [hd1, bind, Except.bind, if_true, hd2, pure, Except.pure, valuesOf]

theorem entries_cons {s s1 s2 : SrvState} {t : Tag} {kx : Option PyStr} {k : Scalar} {v : SVal} {es : List (Scalar × SVal)} {x : Xml} {xs : List Xml}
    (hp : PrimWritten t kx k) (hn : x.name = some "Value".toList) (h1 : ReadAs s .property v x s1) (h2 : EntriesRead s1 es xs s2) :
    EntriesRead s ((k, v) :: es) (.node .En none none none [.node t none (some "Key".toList) kx [], x] :: xs) s2 := by
  intro d l hk hl hd
  obtain ⟨d1, hd1, hk1⟩ := h1 (.plain .star) d (.inl rfl) hk
  rw [List.pairwise_cons] at hd
  have hnew : ∀ e ∈ l, keyEq e.1 (.sc k) = false := fun e he => hl e he (k, v) (by simp)
  obtain ⟨d2, hd2, hk2⟩ := h2 d1 (l ++ [(.sc k, v.value)]) hk1 (by
    intro a ha b hb
    rcases List.mem_append.mp ha with ha | ha
    · exact hl a ha b (by simp [hb])
    · simp only [List.mem_cons, List.not_mem_nil, or_false] at ha
      subst ha
      exact hd.1 b hb) hd.2
  refine ⟨d2, ?_, hk2⟩
  cases x with | node tg r nm a ks =>
  have hnm : nm = some "Value".toList := hn
  subst hnm
  rw [deEntries, if_pos rfl, deNamed, if_pos rfl, deser_prim hp]
  simp only [bind, Except.bind]
  rw [deNamed, if_neg (by decide +kernel), deNamed, if_pos rfl, hd1]
  simp only [hashable, if_true, dictSet_fresh hnew, hd2, entryValues, List.append_assoc, List.cons_append, List.nil_append]

theorem written_name {s s' : SrvState} {p : Place} {v : SVal} {n : Option PyStr} {x : Xml} (h : Written s p v n x s') : x.name = n := by
  cases h <;> rfl

theorem written_read {s s' : SrvState} {p : Place} {v : SVal} {n : Option PyStr} {x : Xml} (h : Written s p v n x s') : ReadAs s p v x s' := by
  refine Written.rec (motive_1 := fun s p v _ x s' _ => ReadAs s p v x s') (motive_2 := fun s ps xs s' _ => PropsRead s ps xs s')
    (motive_3 := fun s q vs xs s' _ => ItemsRead s q vs xs s') (motive_4 := fun s es xs s' _ => EntriesRead s es xs s')
    ?_ ?_ ?_ ?_ ?_ ?_ ?_ ?_ ?_ ?_ ?_ ?_ h
  · intro s p n m d _ hk
    refine ⟨d, ?_, hk⟩
    rw [deser]
    simp only [getTypes_none (xs := []) (by intro x hx; simp at hx), unpackPrim, bind, Except.bind, pure, Except.pure, SVal.value]
  · intro s p n t x v hp m d _ hk
    exact ⟨d, by rw [deser_prim hp, SVal.value], hk⟩
  · intro s p n r v hr m d _ hk
    refine ⟨d, ?_, hk⟩
    rw [deser]
    simp only [getTypes_none (xs := []) (by intro x hx; simp at hx), unpackPrim, hk.2 r _ hr, bind, Except.bind, pure, Except.pure]
  · intro s s1 s2 s3 p n r types base text adp ext tx bx sx ax ex ag eg mid hf hg ht hb hs hm ha he _ _ hga hge h1 h2
    exact obj_read hf hg ht hb hs hm ha he hga hge h1 h2
  · intro s s1 s2 p q n r types items tx xs rest hf hq ht _ hb h
    exact list_read hf hq ht hb h
  · intro s s1 s2 p n r types entries tx xs rest hf hq ht hp _ hb h
    exact dict_read hf hq ht (hp.imp keyEq_different) hb h
  · intro s d l hk _
    exact ⟨d, by rw [deProps]; simp [namedValues], hk⟩
  · intro s s1 s2 n v ps x xs hw _ h1 h2
    exact props_cons (written_name hw) h1 h2
  · intro s q m d _ _ hk
    exact ⟨d, by rw [deAll, valuesOf], hk⟩
  · intro s s1 s2 q v vs x xs _ _ h1 h2
    exact items_cons h1 h2
  · intro s d l hk _ _
    exact ⟨d, by rw [deEntries]; simp [entryValues], hk⟩
  · intro s s1 s2 t kx k v es x xs hp hw _ h1 h2
    exact entries_cons hp (written_name hw) h1 h2

end Verif
