import Verif.Spec.ServerDocs
import Verif.Lemmas.Serializer
import Verif.Lemmas.Numbers
import Verif.Lemmas.Base64
import Verif.Props.Strings
/-
Reading the documents of a server, for C96.
-/
namespace Verif

/-! ### the table of types -/

set_option maxRecDepth 100000 in
theorem known_table : structures.all (fun e => knownNames.any fun n => n.toList == e.1) = true := by decide +kernel

theorem lookup_unknown {n : PyStr} (h : ¬ OneOf knownNames n) : structures.lookup n = none := by
  rw [List.lookup_eq_none_iff]
  intro e he
  have := List.all_eq_true.mp known_table e he
  obtain ⟨k, hk, hkn⟩ := List.any_eq_true.mp this
  simp only [beq_iff_eq] at hkn
  have hne : n ≠ e.1 := by
    rintro rfl
    exact h ⟨k, hk, hkn.symm⟩
  simpa using hne

theorem lookup_generic : ∀ n ∈ genericNames, structures.lookup n.toList = some .dynamic := by decide +kernel
theorem lookup_list : ∀ n ∈ listNames, structures.lookup n.toList = some (.list (.plain .star)) := by decide +kernel
theorem lookup_dict : ∀ n ∈ dictNames, structures.lookup n.toList = some .dict := by decide +kernel
theorem lookup_prim : ∀ n ∈ primNames, (structures.lookup n.toList).any (fun m => match m with | .plain _ => true | _ => false) = true := by
  decide +kernel

/-- `parseTypeName` after the prefix is removed. -/
def parsePlain (t : PyStr) : Option (PyStr × Bool) :=
  if "[]".toList.isSuffixOf t then some (t.dropLast.dropLast, true)
  else if "System.Collections.Generic.List`1[[".toList.isPrefixOf t then
    some ((splitChar ',' (sliceDropLast 35 t)).headD [], true)
  else if "System.Collections.ObjectModel.Collection`1[[".toList.isPrefixOf t then
    some ((splitChar ',' (sliceDropLast 45 t)).headD [], true)
  else if "System.Collections.ObjectModel.ReadOnlyCollection`1[[".toList.isPrefixOf t then
    some ((splitChar ',' (sliceDropLast 53 t)).headD [], true)
  else if "System.Collections.Generic.Dictionary`2[[".toList.isPrefixOf t then none
  else some (t, false)

theorem parse_plain (t : PyStr) : parseTypeName t = parsePlain (plainType t) := by
  unfold parseTypeName parsePlain plainType
  by_cases h : "Deserialized.System.".toList <+: t
  · rw [if_pos h, if_pos (List.isPrefixOf_iff_prefix.mpr h)]
  · rw [if_neg h, if_neg (mt List.isPrefixOf_iff_prefix.mp h)]

theorem dropLast_two {e : PyStr} {a b : Char} : (e ++ [a, b]).dropLast.dropLast = e := by
  rw [show e ++ [a, b] = (e ++ [a]) ++ [b] from by simp, List.dropLast_concat, List.dropLast_concat]

theorem foreign_skip {t : PyStr} (h : Foreign t) (ts : List PyStr) : metaForTypes (t :: ts) = metaForTypes ts := by
  obtain ⟨h1, h2, h3, h4⟩ := h
  have hp : ∃ n b, parseTypeName t = some (n, b) ∧ structures.lookup n = none := by
    rw [parse_plain]
    unfold parsePlain
    by_cases hs : "[]".toList.isSuffixOf (plainType t) = true
    · obtain ⟨e, he⟩ := List.isSuffixOf_iff_suffix.mp hs
      rw [if_pos hs]
      refine ⟨_, _, rfl, ?_⟩
      rw [← he, show "[]".toList = ['[', ']'] from rfl, dropLast_two]
      exact lookup_unknown (h2 e he.symm)
    · have hl : ∀ p ∈ listPrefixes, ¬ p.toList.isPrefixOf (plainType t) = true := fun p hp => mt List.isPrefixOf_iff_prefix.mp (h3 p hp)
      have ha := hl _ (List.mem_cons_self)
      have hb := hl _ (List.mem_cons_of_mem _ List.mem_cons_self)
      have hc := hl _ (List.mem_cons_of_mem _ (List.mem_cons_of_mem _ List.mem_cons_self))
      have hd : ¬ "System.Collections.Generic.Dictionary`2[[".toList.isPrefixOf (plainType t) = true := mt List.isPrefixOf_iff_prefix.mp h4
      rw [if_neg hs, if_neg ha, if_neg hb, if_neg hc, if_neg hd]
      exact ⟨_, _, rfl, lookup_unknown h1⟩
  obtain ⟨n, b, hn, hl⟩ := hp
  rw [metaForTypes, hn]
  simp only [hl]

theorem foreign_skips {before : List PyStr} (h : ∀ u ∈ before, Foreign u) (ts : List PyStr) : metaForTypes (before ++ ts) = metaForTypes ts := by
  induction before with
  | nil => rfl
  | cons t b ih => rw [List.cons_append, foreign_skip (h t (by simp)), ih fun u hu => h u (by simp [hu])]

/-- A known name is looked up as it is. -/
theorem parse_known {names : List String} (hn : names = genericNames ∨ names = listNames ∨ names = dictNames) {t : PyStr} (h : OneOf names t) :
    parsePlain t = some (t, false) := by
  obtain ⟨n, hm, rfl⟩ := h
  have : ∀ n ∈ genericNames ++ listNames ++ dictNames, parsePlain n.toList = some (n.toList, false) := by decide +kernel
  apply this
  simp only [List.mem_append]
  rcases hn with rfl | rfl | rfl
  · exact .inl (.inl hm)
  · exact .inl (.inr hm)
  · exact .inr hm

theorem first_meta {P : PyStr → Prop} {types : List PyStr} {m : DMeta} (h : FirstKnown P types)
    (hP : ∀ t, P t → parsePlain t = none ∧ m = .dict ∨ ∃ n b k, parsePlain t = some (n, b) ∧ structures.lookup n = some k ∧ m = if b then .list k else k) :
    metaForTypes types = some m := by
  obtain ⟨before, t, after, rfl, hb, ht⟩ := h
  rw [foreign_skips hb, metaForTypes, parse_plain]
  rcases hP _ ht with ⟨h1, h2⟩ | ⟨n, b, k, h1, h2, h3⟩
  · rw [h1, h2]
  · rw [h1]
    simp only [h2]
    rw [h3]

theorem splitChar_head {c : Char} {s rest : PyStr} (h : c ∉ s) : (splitChar c (s ++ c :: rest)).headD [] = s := by
  induction s with
  | nil => simp [splitChar]
  | cons a s ih =>
    have ha : a ≠ c := by rintro rfl; exact h (by simp)
    have := ih (by intro hc; exact h (by simp [hc]))
    rw [List.cons_append, splitChar]
    simp only [ha, if_false]
    cases hs : splitChar c (s ++ c :: rest) with
    | nil => rw [hs] at this; simp at this; simp [← this]
    | cons x xs => rw [hs] at this; simp at this; simp [this]

theorem parse_listOf {names : List String} (hc : ∀ n ∈ names, ',' ∉ n.toList) {t : PyStr} (h : ListOf names t) :
    ∃ e ∈ names, parsePlain t = some (e.toList, true) := by
  obtain ⟨e, he, rfl | ⟨p, hp, c, rest, ht, hns⟩⟩ := h
  · refine ⟨e, he, ?_⟩
    unfold parsePlain
    rw [if_pos (List.isSuffixOf_iff_suffix.mpr (List.suffix_append _ _)), show "[]".toList = ['[', ']'] from rfl, dropLast_two]
  · refine ⟨e, he, ?_⟩
    have hlast : ∃ r, t = p.toList ++ (e.toList ++ ',' :: (r ++ [(c :: rest).getLast (by simp)])) ∧ r = (c :: rest).dropLast := by
      refine ⟨_, ?_, rfl⟩
      rw [List.dropLast_concat_getLast, ht, List.append_assoc]
    obtain ⟨r, hr, -⟩ := hlast
    have hcut : ∀ k, p.toList.length = k → (splitChar ',' (sliceDropLast k t)).headD [] = e.toList := by
      rintro k rfl
      unfold sliceDropLast
      have : t = (p.toList ++ (e.toList ++ ',' :: r)) ++ [(c :: rest).getLast (by simp)] := by rw [hr]; simp
      rw [this, List.dropLast_concat, List.drop_left]
      exact splitChar_head (hc e he)
    have hpre : p.toList.isPrefixOf t = true := by rw [List.isPrefixOf_iff_prefix, hr]; exact List.prefix_append _ _
    have hs : ¬ "[]".toList.isSuffixOf t = true := mt List.isSuffixOf_iff_suffix.mp hns
    unfold parsePlain
    rw [if_neg hs]
    have clash : ∀ q : PyStr, q.isPrefixOf t = true → ¬ (q <+: p.toList) → ¬ (p.toList <+: q) → False := by
      intro q hq h1 h2
      rcases List.prefix_or_prefix_of_prefix (List.isPrefixOf_iff_prefix.mp hq) (List.isPrefixOf_iff_prefix.mp hpre) with h | h
      · exact h1 h
      · exact h2 h
    simp only [listPrefixes, List.mem_cons, List.not_mem_nil, or_false] at hp
    rcases hp with rfl | rfl | rfl
    · rw [if_pos hpre, hcut 35 (by decide +kernel)]
    · rw [if_neg (fun h => clash _ h (by decide +kernel) (by decide +kernel)), if_pos hpre, hcut 45 (by decide +kernel)]
    · rw [if_neg (fun h => clash _ h (by decide +kernel) (by decide +kernel)), if_neg (fun h => clash _ h (by decide +kernel) (by decide +kernel)),
        if_pos hpre, hcut 53 (by decide +kernel)]

theorem generic_meta {types : List PyStr} (h : GenericTypes types) (hne : types ≠ []) : metaForTypes types = some .dynamic := by
  rcases h with h | h
  · exact absurd h hne
  · refine first_meta h fun t ht => .inr ⟨t, false, .dynamic, parse_known (.inl rfl) ht, ?_, rfl⟩
    obtain ⟨n, hn, rfl⟩ := ht
    exact lookup_generic n hn

theorem objects_meta {types : List PyStr} (h : ObjectListTypes types) : metaForTypes types = some (.list .dynamic) := by
  refine first_meta h fun t ht => ?_
  obtain ⟨e, he, hp⟩ := parse_listOf (by decide +kernel) ht
  exact .inr ⟨_, true, .dynamic, hp, lookup_generic e he, rfl⟩

theorem list_meta {types : List PyStr} (h : ListTypes types) : ∃ t, metaForTypes types = some (.list (.plain t)) := by
  obtain ⟨before, t, after, rfl, hb, ht⟩ := h
  rcases ht with ht | ht
  · refine ⟨.star, first_meta (P := OneOf listNames) ⟨before, t, after, rfl, hb, ht⟩ fun t ht => ?_⟩
    refine .inr ⟨t, false, .list (.plain .star), parse_known (.inr (.inl rfl)) ht, ?_, rfl⟩
    obtain ⟨n, hn, rfl⟩ := ht
    exact lookup_list n hn
  · obtain ⟨e, he, hp⟩ := parse_listOf (by decide +kernel) ht
    have hl := lookup_prim e he
    cases hk : structures.lookup e.toList with
    | none => rw [hk] at hl; simp at hl
    | some k =>
      rw [hk] at hl
      cases k <;> simp at hl
      rename_i k
      refine ⟨k, first_meta (P := fun u => u = plainType t) ⟨before, t, after, rfl, hb, rfl⟩ fun u hu => ?_⟩
      subst hu
      exact .inr ⟨_, true, _, hp, hk, rfl⟩

theorem dict_meta {types : List PyStr} (h : DictTypes types) : metaForTypes types = some .dict := by
  refine first_meta h fun t ht => ?_
  rcases ht with ht | ⟨hp, hs⟩
  · refine .inr ⟨t, false, .dict, parse_known (.inr (.inr rfl)) ht, ?_, rfl⟩
    obtain ⟨n, hn, rfl⟩ := ht
    exact lookup_dict n hn
  · refine .inl ⟨?_, rfl⟩
    have clash : ∀ q : PyStr, q.isPrefixOf t = true → ¬ (q <+: dictPrefix.toList) → ¬ (dictPrefix.toList <+: q) → False := by
      intro q hq h1 h2
      rcases List.prefix_or_prefix_of_prefix (List.isPrefixOf_iff_prefix.mp hq) hp with h | h
      · exact h1 h
      · exact h2 h
    unfold parsePlain
    rw [if_neg (mt List.isSuffixOf_iff_suffix.mp hs), if_neg (fun h => clash _ h (by decide +kernel) (by decide +kernel)),
      if_neg (fun h => clash _ h (by decide +kernel) (by decide +kernel)), if_neg (fun h => clash _ h (by decide +kernel) (by decide +kernel)),
      if_pos (show "System.Collections.Generic.Dictionary`2[[".toList.isPrefixOf t = true from List.isPrefixOf_iff_prefix.mpr hp)]

/-! ### primitive values -/

theorem text_read {x : Option PyStr} {s : PyStr} (h : TextMeans x s) : deserializeString x = .ok s := by
  rcases h with ⟨rfl, rfl⟩ | ⟨t, pieces, rfl, h1, h2, h3, h4⟩
  · rfl
  · exact C14_decode t s pieces h1 h2 h3 h4

theorem pyInt_negative {s : PyStr} (h : IsDecimal s) : pyInt ('-' :: s) = .ok (-(decimalValue s : Int)) := by
  unfold pyInt
  rw [intStrip_minus h]
  simp only
  rw [pyDigits_decimal 0 _ h.2 false (.inl h.1)]
  rfl

theorem lower_pair : ∀ e ∈ letterPairs, (if 'A' ≤ e.1 ∧ e.1 ≤ 'Z' then Char.ofNat (e.1.toNat + 32) else e.1) = e.2 := by decide +kernel

theorem lower_capitalised {s t : PyStr} (h : Capitalised s t) (ht : ∀ c ∈ t, ¬('A' ≤ c ∧ c ≤ 'Z')) : lowerAscii s = t := by
  induction h with
  | nil => rfl
  | same _ ih =>
    simp only [lowerAscii, List.map_cons, List.cons.injEq]
    exact ⟨if_neg (ht _ (by simp)), ih fun c hc => ht c (List.mem_cons_of_mem _ hc)⟩
  | capital hp _ ih =>
    simp only [lowerAscii, List.map_cons, List.cons.injEq]
    exact ⟨lower_pair _ hp, ih fun c hc => ht c (List.mem_cons_of_mem _ hc)⟩

theorem prim_read {t : Tag} {x : Option PyStr} {v : Scalar} (h : PrimWritten t x v) (r : Option PyStr) (d : DeState) :
    unpackPrim t r x d = some (.ok (.sc v)) := by
  cases h with
  | text ht hx =>
    simp only [List.mem_cons, List.not_mem_nil, or_false] at ht
    rcases ht with rfl | rfl | rfl | rfl <;> simp only [unpackPrim, text_read hx, bind, Except.bind, pure, Except.pure]
  | whole ht hs =>
    simp only [List.mem_cons, List.not_mem_nil, or_false] at ht
    rcases ht with rfl | rfl | rfl | rfl | rfl | rfl | rfl | rfl <;> simp only [unpackPrim, intOf, pyInt_decimal hs, bind, Except.bind, pure, Except.pure]
  | negative ht hs =>
    simp only [List.mem_cons, List.not_mem_nil, or_false] at ht
    rcases ht with rfl | rfl | rfl | rfl <;> simp only [unpackPrim, intOf, pyInt_negative hs, bind, Except.bind, pure, Except.pure]
  | @bool s b hs =>
    have hl : lowerAscii s = if b then "true".toList else "false".toList := lower_capitalised hs (by cases b <;> decide +kernel)
    simp only [unpackPrim, hl]
    cases b <;> rfl
  | char hs hc =>
    simp only [unpackPrim, pyInt_decimal hs, bind, Except.bind, pure, Except.pure, hc]
    rename_i c
    have hv : (0 : Int) ≤ (c.toNat : Int) ∧ (c.toNat : Int).toNat.isValidChar := ⟨by omega, by
      simp only [Int.toNat_natCast]
      exact c.valid⟩
    rw [if_pos hv]
    simp only [Int.toNat_natCast, Char.ofNat_toNat]
  | other ht =>
    simp only [List.mem_cons, List.not_mem_nil, or_false] at ht
    rcases ht with rfl | rfl | rfl | rfl <;> rfl
  | bytes => simp only [unpackPrim, b64DecodeStr_encode, bind, Except.bind, pure, Except.pure]
  | guid => simp only [unpackPrim, parseUUID_toStr, bind, Except.bind, pure, Except.pure]

/-- The tags of primitive values. -/
theorem prim_tag {t : Tag} {x : Option PyStr} {v : Scalar} (h : PrimWritten t x v) :
    t ∉ [Tag.Obj, .Nil, .Ref, .TN, .TNRef, .Props, .MS, .ToString] := by
  cases h with
  | text ht => revert t; decide
  | whole ht => revert t; decide
  | negative ht => revert t; decide
  | bool => decide
  | char => decide
  | other ht => revert t; decide
  | bytes => decide
  | guid => decide

/-! ### the state -/

/-- The reader knows what the server has written. It may know more objects. -/
def Knows (s : SrvState) (d : DeState) : Prop :=
  (∀ r, d.tn.lookup r = s.tn.lookup r) ∧ ∀ r v, s.objs.lookup r = some v → d.objs.lookup r = some v.value

theorem knows_tn {s : SrvState} {d : DeState} (h : Knows s d) (r : PyStr) (ts : List PyStr) :
    Knows { s with tn := (r, ts) :: s.tn } { d with tn := assign d.tn r ts } := by
  refine ⟨fun q => ?_, h.2⟩
  simp only [assign, List.lookup_cons, h.1 q]

theorem knows_tn_again {s : SrvState} {d : DeState} (h : Knows s d) {r : PyStr} {ts : List PyStr} (hr : s.tn.lookup r = some ts) :
    Knows s { d with tn := assign d.tn r ts } := by
  refine ⟨fun q => ?_, h.2⟩
  simp only [assign, List.lookup_cons, h.1 q]
  split
  · rename_i he
    rw [eq_of_beq he, hr]
  · rfl

theorem knows_obj {s : SrvState} {d : DeState} (h : Knows s d) (r : PyStr) (v : SVal) :
    Knows { s with objs := (r, v) :: s.objs } { d with objs := assign d.objs r v.value } := by
  refine ⟨h.1, fun q u hq => ?_⟩
  simp only [assign, List.lookup_cons] at hq ⊢
  split at hq
  · rw [← Option.some.inj hq]
  · exact h.2 q u hq

/-- No type names among these elements. -/
def NoTypes (xs : List Xml) : Prop := ∀ x ∈ xs, x.tag ≠ .TN ∧ x.tag ≠ .TNRef

theorem getTypes_none {xs : List Xml} (h : NoTypes xs) (d : DeState) : getTypes xs d = .ok ([], d) := by
  have h1 : tnTexts xs = [] := by
    unfold tnTexts
    rw [List.flatMap_eq_nil_iff]
    intro x hx
    rw [if_neg (h x hx).1]
  have h2 : xs.find? (fun k => decide (k.tag = .TNRef)) = none := by
    rw [List.find?_eq_none]
    intro x hx
    simpa using (h x hx).2
  simp only [getTypes, h1, ne_eq, not_true_eq_false, if_false, h2, bind, Except.bind, pure, Except.pure]

theorem types_texts (ts : List PyStr) : ((ts.map fun t => Xml.node .T none none (some t) []).filter (fun t => t.tag = .T)).map (fun t => t.text.getD []) = ts := by
  induction ts with
  | nil => rfl
  | cons t ts ih =>
    rw [List.map_cons, List.filter_cons_of_pos (by rfl), List.map_cons, ih]
    rfl

theorem types_read {s s1 : SrvState} {types : List PyStr} {tx : List Xml} (h : TypesWritten s types tx s1) {xs : List Xml} (hx : NoTypes xs)
    {d : DeState} (hk : Knows s d) : ∃ d1, getTypes (tx ++ xs) d = .ok (types, d1) ∧ Knows s1 d1 := by
  have hx1 : tnTexts xs = [] := by
    unfold tnTexts
    rw [List.flatMap_eq_nil_iff]
    intro x hm
    rw [if_neg (hx x hm).1]
  have hx2 : xs.find? (fun k => decide (k.tag = .TNRef)) = none := by
    rw [List.find?_eq_none]
    intro x hm
    simpa using (hx x hm).2
  cases h with
  | none => exact ⟨d, getTypes_none hx d, hk⟩
  | @new r _ hne =>
    refine ⟨_, ?_, knows_tn hk r types⟩
    have h1 : tnTexts (Xml.node .TN (some r) none none (types.map fun t => .node .T none none (some t) []) :: xs) = types := by
      unfold tnTexts at hx1 ⊢
      rw [List.flatMap_cons, hx1, if_pos (by rfl), List.append_nil]
      exact types_texts types
    have f1 : (Xml.node .TN (some r) none none (types.map fun t => .node .T none none (some t) []) :: xs).find? (fun k => decide (k.tag = .TN)) =
        some (.node .TN (some r) none none (types.map fun t => .node .T none none (some t) [])) := List.find?_cons_of_pos (by rfl)
    have f2 : (Xml.node .TN (some r) none none (types.map fun t => .node .T none none (some t) []) :: xs).find? (fun k => decide (k.tag = .TNRef)) =
        none := by rw [List.find?_cons_of_neg (by simp [Xml.tag])]; exact hx2
    simp only [List.cons_append, List.nil_append, getTypes, h1, f1, f2, ne_eq, hne, not_false_eq_true, if_true, Xml.refId, bind, Except.bind,
      pure, Except.pure]
  | @again r _ hne hr =>
    refine ⟨d, ?_, hk⟩
    have h1 : tnTexts (Xml.node .TNRef (some r) none none [] :: xs) = [] := by
      unfold tnTexts at hx1 ⊢
      rw [List.flatMap_cons, hx1, if_neg (by simp [Xml.tag])]
      rfl
    have f2 : (Xml.node .TNRef (some r) none none [] :: xs).find? (fun k => decide (k.tag = .TNRef)) = some (.node .TNRef (some r) none none []) :=
      List.find?_cons_of_pos (by rfl)
    simp only [List.cons_append, List.nil_append, getTypes, h1, f2, ne_eq, not_true_eq_false, if_false, Xml.refId, bind, Except.bind, pure,
      Except.pure, hk.1 r, hr]

end Verif
