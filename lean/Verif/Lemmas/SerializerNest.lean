import Verif.Lemmas.SerializerRound
/-
Helper lemmas for CLIXML documents: the round-trip of lists and dictionaries.
-/
namespace Verif

/-- The type lists of the plain containers. -/
def okContainer (ts : List PyStr) : Prop := ts = listTypes ∨ ts = dictTypes ∨ ts = queueTypes ∨ ts = stackTypes

theorem okContainer_ok : OkTypes okContainer := by
  have hm : ∀ a, okContainer a → a ∈ [listTypes, dictTypes, queueTypes, stackTypes] := by
    rintro a (rfl | rfl | rfl | rfl) <;> simp
  constructor
  · intro a b ha hb h
    have : ∀ a ∈ [listTypes, dictTypes, queueTypes, stackTypes], ∀ b ∈ [listTypes, dictTypes, queueTypes, stackTypes],
        a.head? = b.head? → a = b := by decide +kernel
    exact this a (hm a ha) b (hm b hb) h
  · intro a ha
    have : ∀ a ∈ [listTypes, dictTypes, queueTypes, stackTypes], a ≠ [] ∧ ∀ t ∈ a, ∀ c ∈ t, 32 ≤ c.toNat ∧ c.toNat < 127 := by
      decide +kernel
    obtain ⟨h1, h2⟩ := this a (hm a ha)
    exact ⟨h1, fun t ht c hc => xmlSafe_ascii (h2 t ht c hc).1 (h2 t ht c hc).2⟩

theorem createTn_tag {types : List PyStr} {st st' : SerState} {x : Xml} (h : createTn types st = .ok (x, st')) :
    x.tag = .TN ∨ x.tag = .TNRef := by
  unfold createTn at h
  split at h
  · simp at h
  · split at h
    · simp only [Except.ok.injEq, Prod.mk.injEq] at h
      exact .inl (h.1 ▸ rfl)
    · simp only [Except.ok.injEq, Prod.mk.injEq] at h
      exact .inr (h.1 ▸ rfl)

theorem setName_obj (rid : PyStr) (name : Option PyStr) (ks : List Xml) :
    (Xml.node .Obj (some rid) none none ks).setName name = .node .Obj (some rid) name none ks := by
  cases name <;> rfl

theorem choose_list' (t : Tag) : chooseMeta (.plain t) listTypes = some (.list .dynamic) := by
  have h : metaForTypes listTypes = some (.list .dynamic) := by decide +kernel
  have h2 : listTypes ≠ [] := by decide
  simp [chooseMeta, h2, h]
theorem choose_dict' (t : Tag) : chooseMeta (.plain t) dictTypes = some .dict := by
  have h : metaForTypes dictTypes = some .dict := by decide +kernel
  have h2 : dictTypes ≠ [] := by decide
  simp [chooseMeta, h2, h]
theorem settle_plain (t u : Tag) : ∃ t', (DMeta.plain t).settle u = .plain t' := by
  unfold DMeta.settle
  split
  · exact ⟨_, rfl⟩
  · exact ⟨_, rfl⟩
theorem choose_list : chooseMeta ((DMeta.plain .star).settle .Obj) listTypes = some (.list .dynamic) := by decide +kernel
theorem choose_dict : chooseMeta ((DMeta.plain .star).settle .Obj) dictTypes = some .dict := by decide +kernel
theorem choose_queue : chooseMeta ((DMeta.plain .star).settle .Obj) queueTypes = some .queue := by decide +kernel
theorem choose_stack : chooseMeta ((DMeta.plain .star).settle .Obj) stackTypes = some .stack := by decide +kernel

theorem sendable_obj {rid : PyStr} {name : Option PyStr} {tn : Xml} {t : Tag} {ks : List Xml} (h0 : ∀ c ∈ rid, XmlSafe c)
    (hn : ∀ n, name = some n → ∀ c ∈ n, XmlSafe c) (h1 : tn.Sendable) (h2 : ∀ k ∈ ks, k.Sendable) :
    (Xml.node .Obj (some rid) name none [tn, .node t none none none ks]).Sendable := by
  rw [Xml.Sendable]
  refine ⟨fun s hs => ?_, hn, by simp, fun k hk => ?_⟩
  · simp only [Option.some.injEq] at hs
    exact hs ▸ h0
  · simp only [List.mem_cons, List.not_mem_nil, or_false] at hk
    rcases hk with rfl | rfl
    · exact h1
    · rw [Xml.Sendable]
      exact ⟨by simp, by simp, by simp, h2⟩

/-- A run of scalars as elements. -/
theorem scalars_round {xs : List PyVal} (h : ∀ x ∈ xs, ∃ s, x = .sc s ∧ PlainScalar s) (st : SerState) :
    ∃ ks, serList .star xs st = .ok (ks, st) ∧ (∀ k ∈ ks, k.Sendable) ∧
      ∀ sh m d, deAll sh m (reparseAll ks) d = .ok (xs, d) := by
  induction xs with
  | nil => exact ⟨[], rfl, by simp, fun _ _ _ => rfl⟩
  | cons x xs ih =>
    obtain ⟨s, rfl, hs⟩ := h x (by simp)
    obtain ⟨y, hy, -, hsy, -, hd⟩ := scalar_round hs none (by simp) st
    obtain ⟨ks, hks, hsk, hdk⟩ := ih fun x hx => h x (List.mem_cons_of_mem _ hx)
    refine ⟨y :: ks, ?_, ?_, fun sh m d => ?_⟩
    · have : ser .star (.sc s) st = .ok (some y, st) := hy
      simp only [serList, this, hks, bind, Except.bind, pure, Except.pure, kidsOf, List.cons_append, List.nil_append]
    · intro k hk
      rcases List.mem_cons.mp hk with rfl | hk
      · exact hsy
      · exact hsk k hk
    · simp only [reparseAll, deAll, hd, hdk, bind, Except.bind, pure, Except.pure]

theorem deFind_second {t : Tag} {sh : Bool} {m : DMeta} {x : Xml} {ks : List Xml} {d : DeState} (hx : x.tag ≠ t) :
    deFind t sh m [x, .node t none none none ks] d = deAll sh m ks d := by
  cases x
  simp only [deFind, tag_node] at hx ⊢
  simp [hx]

theorem deDct_second {x : Xml} {ks : List Xml} {d : DeState} (hx : x.tag ≠ .DCT) :
    deDct [] [x, .node .DCT none none none ks] d = deEntries [] ks d := by
  cases x
  simp only [deDct, tag_node] at hx ⊢
  simp only [hx, if_false, bind, Except.bind, if_true]
  cases deEntries [] ks d <;> rfl

theorem deNamed_first {n : PyStr} {x : Xml} {xs : List Xml} {d : DeState} (hx : x.name = some n) :
    deNamed n (x :: xs) d = deser (.plain .star) x d := by
  cases x with | node t r nm tx ks =>
  have : nm = some n := hx
  simp [deNamed, this]

theorem deNamed_skip {n : PyStr} {x : Xml} {xs : List Xml} {d : DeState} (hx : x.name ≠ some n) :
    deNamed n (x :: xs) d = deNamed n xs d := by
  cases x with | node t r nm tx ks =>
  have : nm ≠ some n := hx
  simp [deNamed, this]

theorem keyEq_different {a b : PyVal} (h : DifferentKeys a b) : keyEq a b = false := by
  unfold keyEq
  split
  · exact beq_false_of_ne fun e => h.2 _ rfl (by rw [keyNumber, ← e])
  · exact beq_false_of_ne fun e => h.2 _ rfl (by rw [keyNumber, e])
  · exact beq_false_of_ne fun e => h.1 (by rw [e])
  · rfl

theorem dictSet_new {d : List (PyVal × PyVal)} {k v : PyVal} (h : ∀ e ∈ d, keyEq e.1 k = false) :
    dictSet d k v = d ++ [(k, v)] := by
  unfold dictSet
  rw [if_neg]
  simp only [List.any_eq_true, not_exists, not_and, Bool.not_eq_true]
  exact h

/-- What is to be shown for one value. -/
def RoundTrips (ok : List PyStr → Prop) (v : PyVal) : Prop :=
  ∀ (name : Option PyStr), (∀ n, name = some n → ∀ c ∈ n, XmlSafe c) → ∀ st d, TnAgree ok st d →
    ∃ x st', (∀ o, (v ≠ .sc .none ∨ o = false) → ser (.plain .star name o) v st = .ok (some x, st')) ∧ x.name = name ∧ x.Sendable ∧
      st'.objs = st.objs ∧ ∃ d', (∀ t, deser (.plain t) x.reparse d = .ok (v, d')) ∧ TnAgree ok st' d'

theorem safe_ascii_str {n : PyStr} (h : ∀ c ∈ n, 32 ≤ c.toNat ∧ c.toNat < 127) :
    ∀ m, some n = some m → ∀ c ∈ m, XmlSafe c := by
  intro m hm c hc
  simp only [Option.some.injEq] at hm
  subst hm
  exact xmlSafe_ascii (h c hc).1 (h c hc).2

theorem entries_round {ok : List PyStr → Prop} {es acc : List (PyVal × PyVal)} (hk : ∀ e ∈ es, ∃ s, e.1 = .sc s ∧ PlainScalar s)
    (hd : (acc ++ es).Pairwise (fun a b => keyEq a.1 b.1 = false)) (hv : ∀ e ∈ es, RoundTrips ok e.2) {st : SerState}
    {d : DeState} (hi : TnAgree ok st d) :
    ∃ ks st', serEntries (.plain .star (some "Key".toList) false) (.plain .star (some "Value".toList) false) es st =
        .ok (ks, st') ∧ (∀ k ∈ ks, k.Sendable) ∧ st'.objs = st.objs ∧
      ∃ d', deEntries acc (reparseAll ks) d = .ok (acc ++ es, d') ∧ TnAgree ok st' d' := by
  induction es generalizing acc st d with
  | nil => exact ⟨[], st, rfl, by simp, rfl, d, by simp [reparseAll, deEntries], hi⟩
  | cons e es ih =>
    obtain ⟨k, v⟩ := e
    obtain ⟨s, hks, hs⟩ := hk (k, v) (by simp)
    simp only at hks
    subst hks
    obtain ⟨x, hx, hxn, hxs, hxn', hxd⟩ := scalar_round hs (some "Key".toList) (safe_ascii_str (by decide)) st
    obtain ⟨y, st1, hy, hyn, hys, ho1, d1, hyd, hi1⟩ :=
      hv (.sc s, v) (by simp) (some "Value".toList) (safe_ascii_str (by decide)) st d hi
    have hy := hy false (.inr rfl)
    obtain ⟨ks, st2, hks, hsend, ho2, d2, hde, hi2⟩ := ih (acc := acc ++ [(.sc s, v)])
      (fun e he => hk e (List.mem_cons_of_mem _ he)) (by simpa using hd) (fun e he => hv e (List.mem_cons_of_mem _ he)) hi1
    refine ⟨.node .En none none none [x, y] :: ks, st2, ?_, ?_, ho2.trans ho1, d2, ?_, hi2⟩
    · simp only [serEntries, hx, hy, hks, bind, Except.bind, pure, Except.pure, kidsOf, List.cons_append, List.nil_append]
    · intro k hk
      rcases List.mem_cons.mp hk with rfl | hk
      · rw [Xml.Sendable]
        refine ⟨by simp, by simp, by simp, fun k hk => ?_⟩
        simp only [List.mem_cons, List.not_mem_nil, or_false] at hk
        rcases hk with rfl | rfl <;> assumption
      · exact hsend k hk
    · have hset : dictSet acc (.sc s) v = acc ++ [(.sc s, v)] := by
        apply dictSet_new
        intro e he
        have := (List.pairwise_append.mp hd).2.2 e he (.sc s, v) (by simp)
        exact this
      have h1 : deNamed "Key".toList [x.reparse, y.reparse] d = .ok (.sc s, d) := by
        rw [deNamed_first hxn', hxd]
      have h2 : deNamed "Value".toList [x.reparse, y.reparse] d = .ok (v, d1) := by
        rw [deNamed_skip (by rw [hxn']; decide), deNamed_first (by rw [name_reparse, hyn]), hyd]
      simp only [reparseAll, Xml.reparse, deEntries, if_true, h1, h2, bind, Except.bind, hashable, hset, hde]
      simp

theorem scalar_round_opt {s : Scalar} (hs : PlainScalar s) (name : Option PyStr)
    (hn : ∀ n, name = some n → ∀ c ∈ n, XmlSafe c) (st : SerState) :
    ∃ x, (∀ o, (s ≠ .none ∨ o = false) → ser (.plain .star name o) (.sc s) st = .ok (some x, st)) ∧ x.name = name ∧
      x.Sendable ∧ ∀ m d, deser m x.reparse d = .ok (.sc s, d) := by
  obtain ⟨x, hx, hxn, hxs, -, hxd⟩ := scalar_round hs name hn st
  refine ⟨x, fun o ho => ?_, hxn, hxs, hxd⟩
  rcases ho with ho | rfl
  · rw [← hx]
    cases s with
    | none => exact absurd rfl ho
    | _ => rfl
  · exact hx

theorem roundTrips_of_plain {ok : List PyStr → Prop} (hok : OkTypes ok) (hsub : ∀ t, okContainer t → ok t) {v : PyVal}
    (hv : PlainValue v) : RoundTrips ok v := by
  induction hv with
  | sc h =>
    intro name hn st d hi
    obtain ⟨x, hx, hxn, hxs, hxd⟩ := scalar_round_opt h name hn st
    exact ⟨x, st, fun o ho => hx o (by simpa using ho), hxn, hxs, rfl, d, fun _ => hxd _ d, hi⟩
  | list h =>
    rename_i xs
    intro name hn st d hi
    have hi' : TnAgree ok (newObjId st).2 d := hi
    obtain ⟨tn, st1, htn, hts, htag, ho, d1, hg, hi1, -⟩ := tn_round' hok (hsub listTypes (.inl rfl)) hi'
    obtain ⟨ks, hks, hsend, hde⟩ := scalars_round h st1
    refine ⟨.node .Obj (some (pyStrNat st.objId)) name none [tn, .node .LST none none none ks], st1, fun o _ => ?_, rfl,
      sendable_obj (safe_pyStrNat _) hn hts hsend, ho, ?_⟩
    · simp only [ser, Meta.settle, Meta.tag, if_true, naturalTag, Meta.setTag, Meta.name, listTypesOf, listElem, newObjId,
        true_or] at htn ⊢
      simp only [htn, hks, bind, Except.bind, pure, Except.pure, setName_obj]
    · have hne : tn.reparse.tag ≠ .LST := by
        rw [tag_reparse]; rcases htag with h | h <;> rw [h] <;> decide
      refine ⟨{ d1 with objs := assign d1.objs (pyStrNat st.objId) (.list xs) }, fun t => ?_, hi1⟩
      obtain ⟨t', ht'⟩ := settle_plain t .Obj
      simp only [Xml.reparse, reparseAll, deser]
      rw [hg _ (by simp [tag_node])]
      simp only [bind, Except.bind, unpackPrim, ht', choose_list', deFind_second hne, hde, if_true, pure, Except.pure]
  | dict hk hd hv ih =>
    rename_i es
    intro name hn st d hi
    have hi' : TnAgree ok (newObjId st).2 d := hi
    obtain ⟨tn, st1, htn, hts, htag, ho, d1, hg, hi1, -⟩ := tn_round' hok (hsub dictTypes (.inr (.inl rfl))) hi'
    obtain ⟨ks, st2, hks, hsend, ho2, d2, hde, hi2⟩ := entries_round (acc := []) hk (by simpa using hd.imp keyEq_different) ih hi1
    refine ⟨.node .Obj (some (pyStrNat st.objId)) name none [tn, .node .DCT none none none ks], st2, fun o _ => ?_, rfl,
      sendable_obj (safe_pyStrNat _) hn hts hsend, ho2.trans ho, ?_⟩
    · simp only [ser, Meta.settle, Meta.tag, if_true, naturalTag, Meta.setTag, Meta.name, dictTypesOf, dictKey, dictValue,
        newObjId] at htn ⊢
      simp only [htn, hks, bind, Except.bind, pure, Except.pure, setName_obj]
    · have hne : tn.reparse.tag ≠ .DCT := by
        rw [tag_reparse]; rcases htag with h | h <;> rw [h] <;> decide
      refine ⟨{ d2 with objs := assign d2.objs (pyStrNat st.objId) (.dict es) }, fun t => ?_, hi2⟩
      obtain ⟨t', ht'⟩ := settle_plain t .Obj
      simp only [Xml.reparse, reparseAll, deser]
      rw [hg _ (by simp [tag_node])]
      simp only [bind, Except.bind, unpackPrim, ht', choose_dict', deDct_second hne, hde, if_true, pure, Except.pure,
        List.nil_append]

end Verif
