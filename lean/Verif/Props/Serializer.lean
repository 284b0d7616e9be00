import Verif.Lemmas.SerializerNest
import Verif.Lemmas.SerializerIds
/-
C15, C16, C17, C18: CLIXML documents.
-/
namespace Verif

/-! ### C15 -/

/-- C15, partial. Any nested value made of None, booleans, integers, strings, byte strings, GUIDs, lists and dictionaries
is serialized to a document that XML can carry, and deserializing what arrives gives the same value. Missing: containers
directly inside a list, empty byte strings, and the strings of C13 (`C15_nested_list_false`, `C15_empty_bytes_false`). -/
theorem C15_roundtrip_partial (v : PyVal) (h : PlainValue v) :
    ∃ x, serialize .star v = .ok (some x) ∧ x.Sendable ∧ deserialize x.reparse = .ok v := by
  have hi : TnAgree okContainer .clear .clear := ⟨by simp [SerState.clear], by simp [SerState.clear]⟩
  obtain ⟨x, st', h1, -, h2, -, d', h3, -⟩ := roundTrips_of_plain okContainer_ok (fun _ h => h) h none (by simp) _ _ hi
  refine ⟨x, ?_, h2, ?_⟩
  · have : ser .star v .clear = .ok (some x, st') := h1 false (.inr rfl)
    simp only [serialize, this, bind, Except.bind, pure, Except.pure]
  · simp only [deserialize, h3 .star, bind, Except.bind, pure, Except.pure]

/-- C15 in the middle of a larger document: the same holds from any state of the type-name tables of the two sides in
which they agree about the container types. -/
theorem C15_roundtrip_any_state_partial (v : PyVal) (h : PlainValue v) (st : SerState) (d : DeState)
    (hi : TnAgree okContainer st d) :
    ∃ x st' d', ser .star v st = .ok (some x, st') ∧ deser (.plain .star) x.reparse d = .ok (v, d') ∧
      TnAgree okContainer st' d' := by
  obtain ⟨x, st', h1, -, -, -, d', h3, h4⟩ := roundTrips_of_plain okContainer_ok (fun _ h => h) h none (by simp) _ _ hi
  exact ⟨x, st', d', h1 false (.inr rfl), h3 .star, h4⟩

/-- A value that meets the hypotheses: {1: {"a": [None, True]}, "k": b"\x00"}. -/
example : PlainValue (.dict [(.sc (.int 1), .dict [(.sc (.str ['a']), .list [.sc .none, .sc (.bool true)])]),
    (.sc (.str ['k']), .sc (.bytes [0]))]) := by
  have ha : PlainScalar (.str ['a']) := ⟨fun ⟨n, _, _, _, _, _, _, _, _, _, _, hu, _⟩ => by
    have := congrArg List.length hu
    have hle : (utf16 ((['a'].drop n).take 8)).length ≤ 1 := by
      match n with
      | 0 => decide
      | _ + 1 => simp [utf16]
    simp at this
    omega, by decide⟩
  have hk : PlainScalar (.str ['k']) := ⟨fun ⟨n, _, _, _, _, _, _, _, _, _, _, hu, _⟩ => by
    have := congrArg List.length hu
    have hle : (utf16 ((['k'].drop n).take 8)).length ≤ 1 := by
      match n with
      | 0 => decide
      | _ + 1 => simp [utf16]
    simp at this
    omega, by decide⟩
  refine .dict ?_ (by simp [DifferentKeys, keyNumber]) ?_
  · simp only [List.mem_cons, List.not_mem_nil, or_false]
    rintro e (rfl | rfl)
    · exact ⟨_, rfl, trivial⟩
    · exact ⟨_, rfl, hk⟩
  · simp only [List.mem_cons, List.not_mem_nil, or_false]
    rintro e (rfl | rfl)
    · refine .dict ?_ (by simp) ?_
      · simp only [List.mem_cons, List.not_mem_nil, or_false]
        rintro e rfl
        exact ⟨_, rfl, ha⟩
      · simp only [List.mem_cons, List.not_mem_nil, or_false]
        rintro e rfl
        refine .list ?_
        simp only [List.mem_cons, List.not_mem_nil, or_false]
        rintro x (rfl | rfl)
        · exact ⟨_, rfl, trivial⟩
        · exact ⟨_, rfl, trivial⟩
    · exact .sc (by simp [PlainScalar])

/-- Serialize, write, parse and deserialize. -/
def sent (v : PyVal) : Except PyErr PyVal := do
  match ← serialize .star v with
  | some x => deserialize x.reparse
  | none => .ok (.sc .none)

/-- For each element of a list or queue: a scalar, or the number of property sets and the type names of an object. -/
def shown : PyVal → List (Scalar ⊕ Nat × List PyStr)
  | .list xs | .queue xs => xs.filterMap fun
    | .sc s => some (.inl s)
    | .generic _ ts _ sets _ _ => some (.inr (sets.length, ts))
    | _ => none
  | _ => []

/-- A list inside a list is not restored: [[1]] comes back as a list holding a generic object with one property set. -/
theorem C15_nested_list_false :
    (sent (.list [.list [.sc (.int 1)]])).map shown = .ok [.inr (1, listTypes)] := by decide +kernel

/-- So is a dictionary inside a list. -/
theorem C15_dict_in_list_false :
    (sent (.list [.dict [(.sc (.int 1), .sc .none)]])).map shown = .ok [.inr (1, dictTypes)] := by decide +kernel

/-- The empty byte string cannot be read back. -/
theorem C15_empty_bytes_false : sent (.sc (.bytes [])) = .error .typeError := rfl

/-! ### C16 -/

theorem numbered_refIds_obj {a b : Nat} {es : List Xml} (h : NumberedAll a b es) :
    refIds .Obj es = (List.range' a (cnt .Obj es)).map (fun i => some (pyStrNat i)) := by
  induction es generalizing a b with
  | nil => rfl
  | cons e es ih =>
    have := ih h.2
    by_cases ht : e.tag = .Obj
    · have c : cnt .Obj [e] = 1 := by simp [cnt, ht]
      rw [c] at this
      rw [cnt_cons, c, Nat.add_comm 1, List.range'_succ, List.map_cons, ← this, ← h.1.1 ht]
      simp [refIds, ht]
    · have c : cnt .Obj [e] = 0 := by simp [cnt, ht]
      rw [c] at this
      rw [Nat.add_zero] at this
      rw [cnt_cons, c, Nat.zero_add, ← this]
      simp [refIds, ht]

theorem numbered_refIds_tn {a b : Nat} {es : List Xml} (h : NumberedAll a b es) :
    refIds .TN es = (List.range' b (cnt .TN es)).map (fun i => some (pyStrNat i)) := by
  induction es generalizing a b with
  | nil => rfl
  | cons e es ih =>
    have := ih h.2
    by_cases ht : e.tag = .TN
    · have c : cnt .TN [e] = 1 := by simp [cnt, ht]
      rw [c] at this
      rw [cnt_cons, c, Nat.add_comm 1, List.range'_succ, List.map_cons, ← this, ← h.1.2.1 ht]
      simp [refIds, ht]
    · have c : cnt .TN [e] = 0 := by simp [cnt, ht]
      rw [c] at this
      rw [Nat.add_zero] at this
      rw [cnt_cons, c, Nat.zero_add, ← this]
      simp [refIds, ht]

theorem numbered_split {a b : Nat} {bef aft : List Xml} {e : Xml} (h : NumberedAll a b (bef ++ e :: aft)) :
    NumberedAll a b bef ∧ Numbered (a + cnt .Obj bef) (b + cnt .TN bef) e := by
  induction bef generalizing a b with
  | nil => exact ⟨trivial, h.1⟩
  | cons x xs ih =>
    obtain ⟨h1, h2⟩ := ih h.2
    refine ⟨⟨h.1, h1⟩, ?_⟩
    rw [cnt_cons .Obj, cnt_cons .TN, ← Nat.add_assoc, ← Nat.add_assoc]
    exact h2

theorem nodup_ids (n : Nat) : ((List.range' 0 n).map (fun i => some (pyStrNat i))).Nodup := by
  rw [List.nodup_iff_pairwise_ne, List.pairwise_map]
  refine List.Pairwise.imp ?_ (List.nodup_iff_pairwise_ne.mp List.nodup_range')
  intro i j hij h
  exact hij (pyStrNat_inj (Option.some.inj h))

theorem numbered_serialize {m : Meta} {v : PyVal} {x : Xml} (h : serialize m v = .ok (some x)) : NumberedAll 0 0 x.elems := by
  obtain ⟨⟨ox, st'⟩, h1, h⟩ := bind_ok h
  have h := pure_ok h
  subst h
  have := (writesOk v m .clear (some x) st' h1 ⟨by simp [SerState.clear], by simp [SerState.clear]⟩).1
  simpa [kidsOf, elemsAll, SerState.clear] using this

/-- C16. In the document of any value, under any metadata: all objects have RefIds and no two the same, all definitions of
type names have RefIds and no two the same, and every reference to type names points to a definition before it. -/
theorem C16_reference_ids (m : Meta) (v : PyVal) (x : Xml) (h : serialize m v = .ok (some x)) :
    ((refIds .Obj x.elems).Nodup ∧ none ∉ refIds .Obj x.elems) ∧ ((refIds .TN x.elems).Nodup ∧ none ∉ refIds .TN x.elems) ∧
      RefersBack .TNRef .TN x.elems := by
  have hn := numbered_serialize h
  refine ⟨?_, ?_, ?_⟩
  · rw [numbered_refIds_obj hn]
    exact ⟨nodup_ids _, by simp⟩
  · rw [numbered_refIds_tn hn]
    exact ⟨nodup_ids _, by simp⟩
  · intro bef e aft he ht
    rw [he] at hn
    obtain ⟨hb, hnum⟩ := numbered_split hn
    obtain ⟨i, hi, hr⟩ := hnum.2.2.1 ht
    have : some (pyStrNat i) ∈ refIds .TN bef := by
      rw [numbered_refIds_tn hb]
      exact List.mem_map.mpr ⟨i, List.mem_range'_1.mpr ⟨Nat.zero_le _, hi⟩, rfl⟩
    obtain ⟨d, hd, hdr⟩ := List.mem_map.mp this
    obtain ⟨hd1, hd2⟩ := List.mem_filter.mp hd
    exact ⟨d, hd1, by simpa using hd2, by rw [hdr]; simp, by rw [hdr, hr]⟩

/-- C16. References to objects point to an object before them in the document. -/
theorem C16_object_references (m : Meta) (v : PyVal) (x : Xml) (h : serialize m v = .ok (some x)) :
    RefersBack .Ref .Obj x.elems := by
  have hn := numbered_serialize h
  intro bef e aft he ht
  rw [he] at hn
  obtain ⟨hb, hnum⟩ := numbered_split hn
  obtain ⟨i, hi, hr⟩ := hnum.2.2.2 ht
  have : some (pyStrNat i) ∈ refIds .Obj bef := by
    rw [numbered_refIds_obj hb]
    exact List.mem_map.mpr ⟨i, List.mem_range'_1.mpr ⟨Nat.zero_le _, hi⟩, rfl⟩
  obtain ⟨d, hd, hdr⟩ := List.mem_map.mp this
  obtain ⟨hd1, hd2⟩ := List.mem_filter.mp hd
  exact ⟨d, hd1, by simpa using hd2, by rw [hdr]; simp, by rw [hdr, hr]⟩

/-- A document with three objects, two definitions and a reference. -/
example : ∃ x, serialize .star (.dict [(.sc (.int 1), .list []), (.sc (.int 2), .list [])]) = .ok (some x) ∧
    refIds .Obj x.elems = [some ['0'], some ['1'], some ['2']] ∧ refIds .TN x.elems = [some ['0'], some ['1']] ∧
    refIds .TNRef x.elems = [some ['1']] := ⟨_, rfl, by decide +kernel, by decide +kernel, by decide +kernel⟩

/-- A document in which an object is written once and then referred to. -/
example : ∃ x, serialize .star (.generic 1 [] none [] [(['a'], .generic 2 [] none [] [] []), (['b'], .generic 2 [] none [] [] [])] []) =
      .ok (some x) ∧ refIds .Obj x.elems = [some ['0'], some ['1']] ∧ refIds .Ref x.elems = [some ['1']] :=
  ⟨_, rfl, by decide +kernel, by decide +kernel⟩

/-! ### C17 -/

theorem getTypes_one {types : List PyStr} {st st' : SerState} {x : Xml} (h : createTn types st = .ok (x, st')) (d : DeState) :
    getTypes [x.reparse] d = getTypes [x.reparse, .node .LST none none none []] d := by
  unfold createTn at h
  split at h
  · simp at h
  · split at h
    all_goals
      simp only [Except.ok.injEq, Prod.mk.injEq] at h
      obtain ⟨rfl, -⟩ := h
      simp [getTypes, tnTexts, Xml.reparse, List.find?, Xml.tag]

theorem deDyn_tn {types : List PyStr} {st st' : SerState} {x : Xml} (h : createTn types st = .ok (x, st')) {d d' : DeState}
    (hg : getTypes [x.reparse] d = .ok (types, d')) :
    ∃ d'', deDyn {} [x.reparse] d' = .ok ({ types := types }, d'') ∧ ∀ k, d''.tn.lookup k = d'.tn.lookup k := by
  unfold createTn at h
  split at h
  · simp at h
  · rename_i main tail
    split at h
    · simp only [Except.ok.injEq, Prod.mk.injEq] at h
      obtain ⟨rfl, -⟩ := h
      refine ⟨{ d' with tn := assign d'.tn (pyStrNat st.tnId) (main :: tail) }, ?_, ?_⟩
      · simp only [Xml.reparse, deDyn, if_true, reparseAll_eq_map, tnTexts_map, List.nil_append]
      · intro k
        have hd : d'.tn = assign d.tn (pyStrNat st.tnId) (main :: tail) := by
          unfold getTypes at hg
          have e : tnTexts [(Xml.node .TN (some (pyStrNat st.tnId)) none none
              ((main :: tail).map (fun t => Xml.node .T none none (some t) []))).reparse] = main :: tail := by
            simp only [tnTexts, List.flatMap_cons, List.flatMap_nil, tag_node, Xml.reparse, kids_node, if_true,
              List.append_nil, reparseAll_eq_map]
            rw [filter_T, tnTexts_map]
          rw [e] at hg
          simp [Xml.reparse, List.find?, Xml.tag, Xml.refId, bind, Except.bind, pure, Except.pure] at hg
          rw [← hg]
        rw [hd]
        simp only [assign, List.lookup]
        split <;> simp_all
    · rename_i i hl
      simp only [Except.ok.injEq, Prod.mk.injEq] at h
      obtain ⟨rfl, -⟩ := h
      refine ⟨d', ?_, fun _ => rfl⟩
      simp [getTypes, tnTexts, Xml.reparse, reparseAll, List.find?, Xml.tag, Xml.refId, bind, Except.bind, pure, Except.pure] at hg
      split at hg
      · rename_i ts hts
        simp only [Except.ok.injEq, Prod.mk.injEq] at hg
        obtain ⟨rfl, rfl⟩ := hg
        simp [Xml.reparse, deDyn, hts]
      · simp at hg

theorem bare_round {ok : List PyStr → Prop} (hok : OkTypes ok) {types : List PyStr} (ht : types = [] ∨ ok types)
    {st : SerState} {d : DeState} (hi : TnAgree ok st d) :
    ∃ x st', ser .star (bare types) st = .ok (some x, st') ∧ x.Sendable ∧ x.tag = .Obj ∧
      ∃ d', deser .dynamic x.reparse d = .ok (bare types, d') ∧ TnAgree ok st' d' := by
  rcases ht with rfl | ht
  · refine ⟨.node .Obj (some (pyStrNat st.objId)) none none [], _, rfl, ?_, rfl,
      { d with objs := assign d.objs (pyStrNat st.objId) (bare []) }, rfl, hi⟩
    rw [Xml.Sendable]
    refine ⟨fun s hs => ?_, by simp, by simp, by simp⟩
    simp only [Option.some.injEq] at hs
    exact hs ▸ safe_pyStrNat _
  · let st0 : SerState := { (newObjId st).2 with objs := (newObjId st).2.objs ++ [((newObjId st).1, 0)] }
    have hi' : TnAgree ok st0 d := hi
    obtain ⟨x, st', hx, hs, d1, hg, hi1, -⟩ := tn_round hok ht hi' .LST [] (by decide) (by decide)
    rw [← getTypes_one hx] at hg
    obtain ⟨d2, hd2, hl⟩ := deDyn_tn hx hg
    refine ⟨.node .Obj (some (pyStrNat st.objId)) none none [x], st', ?_, ?_, rfl,
      { d2 with objs := assign d2.objs (pyStrNat st.objId) (bare types) }, ?_, hi1.1, fun ts m i h1 h2 h3 => ?_⟩
    · have hx' : createTnOpt types st0 = .ok ([x], st') := by
        unfold createTnOpt
        split
        · exact absurd rfl (hok.2 _ ht).1
        · simp only [hx, bind, Except.bind, pure, Except.pure]
      have hx'' : createTnOpt types { objId := st.objId + 1, objs := st.objs ++ [(pyStrNat st.objId, 0)], tnId := st.tnId, tn := st.tn } =
        .ok ([x], st') := hx'
      simp only [bare, ser, Meta.settle, Meta.star, Meta.tag, if_true, naturalTag, Meta.setTag, Meta.name, newObjId, hx'',
        serSets, serNamed, bind, Except.bind, pure, Except.pure, toStringKids, List.append_nil, Xml.setName]
    · rw [Xml.Sendable]
      refine ⟨fun s hs => ?_, by simp, by simp, by simpa using hs⟩
      simp only [Option.some.injEq] at hs
      exact hs ▸ safe_pyStrNat _
    · simp only [Xml.reparse, reparseAll, deser]
      rw [hg]
      simp only [bind, Except.bind, unpackPrim]
      rw [show chooseMeta (DMeta.dynamic.settle Tag.Obj) types = some .dynamic from rfl]
      simp only [hd2, if_true, pure, Except.pure, DynObj.val, bare]
    · rw [show ({ d2 with objs := assign d2.objs (pyStrNat st.objId) (bare types) } : DeState).tn = d2.tn from rfl, hl]
      exact hi1.2 ts m i h1 h2 h3

theorem bares_round {ok : List PyStr → Prop} (hok : OkTypes ok) {L : List (List PyStr)} (hL : ∀ ts ∈ L, ts = [] ∨ ok ts)
    {st : SerState} {d : DeState} (hi : TnAgree ok st d) :
    ∃ ks st', serList .star (L.map bare) st = .ok (ks, st') ∧ (∀ k ∈ ks, k.Sendable) ∧
      ∃ d', deAll true .dynamic (reparseAll ks) d = .ok (L.map bare, d') := by
  induction L generalizing st d with
  | nil => exact ⟨[], st, rfl, by simp, d, rfl⟩
  | cons ts L ih =>
    obtain ⟨x, st1, h1, hs, -, d1, hd, hi1⟩ := bare_round hok (hL ts (by simp)) hi
    obtain ⟨ks, st2, h2, hsk, d2, hd2⟩ := ih (fun ts h => hL ts (List.mem_cons_of_mem _ h)) hi1
    refine ⟨x :: ks, st2, ?_, ?_, d2, ?_⟩
    · simp only [List.map_cons, serList, h1, h2, bind, Except.bind, pure, Except.pure, kidsOf, List.cons_append,
        List.nil_append]
    · intro k hk
      rcases List.mem_cons.mp hk with rfl | hk
      · exact hs
      · exact hsk k hk
    · simp only [List.map_cons, reparseAll, deAll, hd, bind, Except.bind, pure, Except.pure, if_true]
      rw [show DMeta.dynamic.settle x.reparse.tag = .dynamic from rfl, hd2]

/-- C17, partial. A receiver of any sequence of objects finds for each of them the type names it was given, provided any
two type lists in the document with the same first name are the same. Missing: lists that share only the first name,
`C17_type_names_false`. -/
theorem C17_type_names_partial (L : List (List PyStr)) (hs : ∀ ts ∈ L, ∀ t ∈ ts, ∀ c ∈ t, XmlSafe c)
    (h : ∀ a ∈ listTypes :: L, ∀ b ∈ listTypes :: L, a.head? = b.head? → a = b) :
    ∃ x, serialize .star (.list (L.map bare)) = .ok (some x) ∧ x.Sendable ∧ deserialize x.reparse = .ok (.list (L.map bare)) := by
  let ok : List PyStr → Prop := fun ts => ts ∈ listTypes :: L ∧ ts ≠ []
  have hok : OkTypes ok := by
    refine ⟨fun a b ha hb hh => h a ha.1 b hb.1 hh, fun a ha => ⟨ha.2, ?_⟩⟩
    rcases List.mem_cons.mp ha.1 with rfl | hm
    · exact (okContainer_ok.2 listTypes (.inl rfl)).2
    · exact hs a hm
  have hlist : ok listTypes := ⟨by simp, by simp [listTypes]⟩
  have hi : TnAgree ok (newObjId SerState.clear).2 .clear := ⟨by simp [SerState.clear, newObjId], by simp [SerState.clear, newObjId]⟩
  obtain ⟨tn, st1, htn, hts, d1, hg0, hi1, -⟩ := tn_round hok hlist hi .LST [] (by decide) (by decide)
  obtain ⟨ks, st2, hks, hsend, d2, hde⟩ := bares_round hok (L := L) (fun ts hts => by
    by_cases h0 : ts = []
    · exact .inl h0
    · exact .inr ⟨List.mem_cons_of_mem _ hts, h0⟩) hi1
  have htag := createTn_tag htn
  have hg : getTypes [tn.reparse, .node .LST none none none (reparseAll ks)] .clear = .ok (listTypes, d1) := hg0
  refine ⟨.node .Obj (some (pyStrNat 0)) none none [tn, .node .LST none none none ks], ?_,
    sendable_obj (safe_pyStrNat _) (by simp) hts hsend, ?_⟩
  · simp only [serialize, ser, Meta.settle, Meta.star, Meta.tag, if_true, naturalTag, Meta.setTag, Meta.name, listTypesOf,
      listElem, newObjId, true_or, SerState.clear] at htn hks ⊢
    simp only [htn, hks, bind, Except.bind, pure, Except.pure, setName_obj]
  · have hne : tn.reparse.tag ≠ .LST := by
      rw [tag_reparse]; rcases htag with h | h <;> rw [h] <;> decide
    simp only [deserialize, Xml.reparse, reparseAll, deser]
    rw [hg]
    simp only [bind, Except.bind, unpackPrim, choose_list, deFind_second hne, hde, if_true, pure, Except.pure]

/-- Type lists that meet the hypotheses: two objects of one class and one of another. -/
example : ∀ a ∈ listTypes :: [["A".toList, "B".toList], ["C".toList], ["A".toList, "B".toList]],
    ∀ b ∈ listTypes :: [["A".toList, "B".toList], ["C".toList], ["A".toList, "B".toList]], a.head? = b.head? → a = b := by
  decide +kernel

/-- Two objects with the same first type name: the second comes back with the type names of the first. -/
theorem C17_type_names_false :
    (sent (.list [bare ["A".toList, "B".toList], bare ["A".toList]])).map shown =
      .ok [.inr (0, ["A".toList, "B".toList]), .inr (0, ["A".toList, "B".toList])] := by decide +kernel

/-! ### C18 -/

theorem ser_settled {s : Scalar} {t : Tag} (st : SerState) (hp : packable t = true)
    (h : s = .none ∨ scalarTag s = t) : ser (.plain t none false) (.sc s) st = ser .star (.sc s) st := by
  have hstar : t ≠ .star := by rintro rfl; simp [packable] at hp
  simp only [ser, Meta.settle, Meta.star, Meta.tag, hstar, if_false, if_true, naturalTag, Meta.setTag]
  rcases h with rfl | rfl
  · simp only [serScalar, Meta.tag, hp, scalarTag, Meta.name, Meta.optional, show packable .S = true from rfl]
    rfl
  · rfl

theorem kindOf_tag {a b : Scalar} (h : kindOf a = kindOf b) : scalarTag a = scalarTag b := by
  cases a <;> cases b <;> simp_all [kindOf, scalarTag]

theorem packable_scalar (s : Scalar) : packable (scalarTag s) = true := by cases s <;> rfl

theorem queue_settled {ss : List Scalar} {t : Tag} (hp : packable t = true) (h : ∀ b ∈ ss, b = .none ∨ scalarTag b = t)
    (st : SerState) : serQueue (.plain t none false) (ss.map .sc) st = serList .star (ss.map .sc) st := by
  induction ss generalizing st with
  | nil => rfl
  | cons s ss ih =>
    have hstar : t ≠ .star := by rintro rfl; simp [packable] at hp
    have : (Meta.plain t none false).settle (.sc s) = .plain t none false := by simp [Meta.settle, Meta.tag, hstar]
    simp only [List.map_cons, serQueue, serList, ser_settled st hp (h s (by simp)), this]
    simp only [ih fun b hb => h b (List.mem_cons_of_mem _ hb)]

theorem queue_uniform {ss : List Scalar} (h : Uniform ss) (st : SerState) :
    serQueue .star (ss.map .sc) st = serList .star (ss.map .sc) st := by
  cases ss with
  | nil => rfl
  | cons a as =>
    have : Meta.star.settle (.sc a) = .plain (scalarTag a) none false := rfl
    simp only [List.map_cons, serQueue, serList, this]
    have hq := queue_settled (ss := as) (packable_scalar a) (fun b hb => (h b hb).imp id kindOf_tag)
    simp only [hq]

/-- An object whose type names are written out. -/
def HasTypes (x : Xml) (types : List String) : Prop :=
  ∃ r r' body, x = .node .Obj (some r) none none (.node .TN (some r') none none (types.map fun t => .node .T none none (some t.toList) []) :: body)

/-- C18, partial (queues). A queue of scalars of one kind (and None) comes back with the same elements in the same order.
Missing: queues of mixed kinds, `C18_mixed_queue_false`, and that the caller's queue is left alone, `C18_queue_drained_false`. -/
theorem C18_queue_partial (ss : List Scalar) (hs : ∀ s ∈ ss, PlainScalar s) (hu : Uniform ss) :
    ∃ x, serialize .star (.queue (ss.map .sc)) = .ok (some x) ∧ HasTypes x ["System.Collections.Queue", "System.Object"] ∧ x.Sendable ∧
      deserialize x.reparse = .ok (.queue (ss.map .sc)) := by
  have hi : TnAgree okContainer (newObjId SerState.clear).2 .clear := ⟨by simp [SerState.clear, newObjId], by simp [SerState.clear, newObjId]⟩
  obtain ⟨tn, st1, htn, hts, d1, hg0, hi1, -⟩ :=
    tn_round okContainer_ok (types := queueTypes) (.inr (.inr (.inl rfl))) hi .QUE [] (by decide) (by decide)
  obtain ⟨ks, hks, hsend, hde⟩ := scalars_round (xs := ss.map .sc) (by
    intro x hx
    obtain ⟨s, hm, rfl⟩ := List.mem_map.mp hx
    exact ⟨s, rfl, hs s hm⟩) st1
  rw [← queue_uniform hu] at hks
  have htag := createTn_tag htn
  have hg : getTypes [tn.reparse, .node .QUE none none none (reparseAll ks)] .clear = .ok (queueTypes, d1) := hg0
  refine ⟨.node .Obj (some (pyStrNat 0)) none none [tn, .node .QUE none none none ks], ?_, ⟨_, pyStrNat 0, _, by
      rw [show tn = _ from congrArg Prod.fst (Except.ok.inj (htn.symm.trans rfl))]; rfl⟩,
    sendable_obj (safe_pyStrNat _) (by simp) hts hsend, ?_⟩
  · simp only [serialize, ser, Meta.settle, Meta.star, Meta.tag, if_true, naturalTag, Meta.setTag, Meta.name, queueTypesOf,
      queueElem, newObjId, SerState.clear] at htn hks ⊢
    simp only [htn, hks, bind, Except.bind, pure, Except.pure, setName_obj]
  · have hne : tn.reparse.tag ≠ .QUE := by
      rw [tag_reparse]; rcases htag with h | h <;> rw [h] <;> decide
    simp only [deserialize, Xml.reparse, reparseAll, deser]
    rw [hg]
    simp only [bind, Except.bind, unpackPrim, choose_queue, deFind_second hne, hde, if_true, pure, Except.pure]

example : Uniform [.int 1, .none, .int (-5)] ∧ ∀ s ∈ [Scalar.int 1, .none, .int (-5)], PlainScalar s := by
  simp [Uniform, kindOf, PlainScalar]

/-- The kind of the first element is applied to the others: the string "2" comes back as the number 2, and a number after
a string cannot be serialized. -/
theorem C18_mixed_queue_false :
    (sent (.queue [.sc (.int 1), .sc (.str ['2'])])).map shown = .ok [.inl (.int 1), .inl (.int 2)] ∧
    serialize .star (.queue [.sc (.str ['a']), .sc (.int 1)]) = .error .attributeError := ⟨by decide +kernel, by rfl⟩

/-- Serializing empties the caller's queue. -/
theorem C18_queue_drained_false (e : Meta) (xs : List PyVal) (st : SerState) (r : List Xml × SerState)
    (h : serQueue e xs st = .ok r) : queueLeft e xs st = [] := by
  induction xs generalizing e st r with
  | nil => rfl
  | cons v vs ih =>
    rw [serQueue] at h
    obtain ⟨⟨x, st1⟩, h1, h⟩ := bind_ok h
    obtain ⟨⟨ks, st2⟩, h2, h⟩ := bind_ok h
    simp only [queueLeft, h1]
    exact ih _ _ _ h2

theorem stack_settled {ss : List Scalar} {t : Tag} (hp : packable t = true) (h : ∀ b ∈ ss, b = .none ∨ scalarTag b = t)
    (hl : ∀ b, ss.getLast? = some b → scalarTag b = t) (st : SerState) :
    serStack .star (ss.map .sc) st = serList .star (ss.map .sc).reverse st := by
  induction ss generalizing st with
  | nil => rfl
  | cons s ss ih =>
    have happ : ∀ xs st, serList .star (xs ++ [.sc s]) st = (do
        let (ks, st) ← serList .star xs st
        let (x, st) ← ser .star (.sc s) st
        return (ks ++ kidsOf x, st)) := by
      intro xs
      induction xs with
      | nil =>
        intro st
        simp only [List.nil_append, serList, bind, Except.bind, pure, Except.pure, List.append_nil]
      | cons y ys ihy =>
        intro st
        simp only [List.cons_append, serList, ihy]
        cases ser .star y st with
        | error e => rfl
        | ok r =>
          simp only [bind, Except.bind]
          cases serList .star ys r.2 with
          | error e => rfl
          | ok q =>
            simp only [pure, Except.pure]
            cases ser .star (.sc s) q.2 with
            | error e => rfl
            | ok p => simp only [List.append_assoc]
    simp only [List.map_cons, serStack, List.reverse_cons, happ]
    cases hss : ss.getLast? with
    | none =>
      have : ss = [] := List.getLast?_eq_none_iff.mp hss
      subst this
      rfl
    | some l =>
      rw [ih (fun b hb => h b (List.mem_cons_of_mem _ hb)) (fun b hb => by
        rw [hss] at hb; simp only [Option.some.injEq] at hb
        subst hb
        refine hl l ?_
        cases ss with
        | nil => simp at hss
        | cons _ _ => simpa using hss)]
      have hlt : scalarTag l = t := hl l (by
        cases ss with
        | nil => simp at hss
        | cons _ _ => simpa using hss)
      have hm : (ss.map PyVal.sc).getLast? = some (.sc l) := by simp [List.getLast?_map, hss]
      rw [hm]
      have : Meta.star.settle (.sc l) = .plain t none false := by rw [← hlt]; rfl
      simp only [this, ser_settled _ hp (h s (by simp))]

/-- C18, partial (stacks). A stack of scalars of one kind (and None) comes back as a list in the opposite order: from the
top to the bottom. The full claim is false: `C18_stack_reversed_false`. -/
theorem C18_stack_partial (ss : List Scalar) (hs : ∀ s ∈ ss, PlainScalar s) (hu : Uniform ss.reverse) :
    ∃ x, serialize (.list .stk .STK none false .star (["System.Collections.Stack", "System.Object"].map String.toList)) (.list (ss.map .sc)) = .ok (some x) ∧
      HasTypes x ["System.Collections.Stack", "System.Object"] ∧ x.Sendable ∧
      deserialize x.reparse = .ok (.list (ss.reverse.map .sc)) := by
  rw [show ["System.Collections.Stack", "System.Object"].map String.toList = stackTypes from rfl]
  have hi : TnAgree okContainer (newObjId SerState.clear).2 .clear := ⟨by simp [SerState.clear, newObjId], by simp [SerState.clear, newObjId]⟩
  obtain ⟨tn, st1, htn, hts, d1, hg0, hi1, -⟩ :=
    tn_round okContainer_ok (types := stackTypes) (.inr (.inr (.inr rfl))) hi .STK [] (by decide) (by decide)
  obtain ⟨ks, hks, hsend, hde⟩ := scalars_round (xs := (ss.map .sc).reverse) (by
    intro x hx
    obtain ⟨s, hm, rfl⟩ := List.mem_map.mp (List.mem_reverse.mp hx)
    exact ⟨s, rfl, hs s hm⟩) st1
  have hst : serStack .star (ss.map .sc) st1 = serList .star (ss.map .sc).reverse st1 := by
    cases hr : ss.getLast? with
    | none =>
      have : ss = [] := List.getLast?_eq_none_iff.mp hr
      subst this; rfl
    | some l =>
      have hcons : ss.reverse = l :: ss.reverse.tail := by
        have : ss.reverse.head? = some l := by rw [List.head?_reverse]; exact hr
        cases hrv : ss.reverse with
        | nil => rw [hrv] at this; simp at this
        | cons a as => rw [hrv] at this; simp at this; simp [this]
      rw [hcons] at hu
      refine stack_settled (packable_scalar l) (fun b hb => ?_) (fun b hb => ?_) st1
      · have : b ∈ l :: ss.reverse.tail := by rw [← hcons]; exact List.mem_reverse.mpr hb
        rcases List.mem_cons.mp this with rfl | hb
        · exact .inr rfl
        · exact (hu b hb).imp id kindOf_tag
      · rw [hr] at hb
        simp only [Option.some.injEq] at hb
        rw [hb]
  rw [← hst] at hks
  have htag := createTn_tag htn
  have hg : getTypes [tn.reparse, .node .STK none none none (reparseAll ks)] .clear = .ok (stackTypes, d1) := hg0
  refine ⟨.node .Obj (some (pyStrNat 0)) none none [tn, .node .STK none none none ks], ?_, ⟨_, pyStrNat 0, _, by
      rw [show tn = _ from congrArg Prod.fst (Except.ok.inj (htn.symm.trans rfl))]; rfl⟩,
    sendable_obj (safe_pyStrNat _) (by simp) hts hsend, ?_⟩
  · simp only [serialize, ser, Meta.settle, Meta.tag, newObjId, SerState.clear] at htn hks ⊢
    simp only [reduceCtorEq, if_false, or_self, if_true, htn, hks, bind, Except.bind, pure, Except.pure, setName_obj]
  · have hne : tn.reparse.tag ≠ .STK := by
      rw [tag_reparse]; rcases htag with h | h <;> rw [h] <;> decide
    simp only [deserialize, Xml.reparse, reparseAll, deser]
    rw [hg]
    simp only [bind, Except.bind, unpackPrim, choose_stack, deFind_second hne, hde, if_true, pure, Except.pure,
      List.map_reverse]

/-- A stack with 1 at the bottom and 2 on top comes back with 2 at the bottom and 1 on top. -/
theorem C18_stack_reversed_false : ∃ x,
    serialize (.list .stk .STK none false .star (["System.Collections.Stack", "System.Object"].map String.toList)) (.list [.sc (.int 1), .sc (.int 2)]) = .ok (some x) ∧
      deserialize x.reparse = .ok (.list [.sc (.int 2), .sc (.int 1)]) := by
  obtain ⟨x, h1, -, -, h2⟩ := C18_stack_partial [.int 1, .int 2] (by simp [PlainScalar]) (by simp [Uniform, kindOf])
  exact ⟨x, h1, h2⟩

/-- And the caller's stack is empty afterwards. -/
theorem C18_stack_drained_false (e : Meta) (xs : List PyVal) (st : SerState) (r : List Xml × SerState)
    (h : serQueue e xs.reverse st = .ok r) : stackLeft e xs st = [] := by
  simp [stackLeft, C18_queue_drained_false e _ st r h]

end Verif
