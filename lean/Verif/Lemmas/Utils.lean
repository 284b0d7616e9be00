import Verif.Spec.Utils
namespace Verif

theorem splitChar_ne_nil (sep : Char) (s : PyStr) : splitChar sep s ≠ [] := by
  cases s with
  | nil => simp [splitChar]
  | cons c cs =>
    rw [splitChar]
    split
    · simp
    · split <;> simp

theorem splitChar_no_sep {sep : Char} {s : PyStr} (h : sep ∉ s) : splitChar sep s = [s] := by
  induction s with
  | nil => rfl
  | cons c cs ih =>
    have hc : c ≠ sep := fun e => h (by simp [e])
    have := ih (fun hm => h (by simp [hm]))
    simp [splitChar, hc, this]

theorem splitChar_append {sep : Char} {s : PyStr} (h : sep ∉ s) (rest : PyStr) :
    splitChar sep (s ++ sep :: rest) = s :: splitChar sep rest := by
  induction s with
  | nil => simp [splitChar]
  | cons c cs ih =>
    have hc : c ≠ sep := fun e => h (by simp [e])
    have := ih (fun hm => h (by simp [hm]))
    simp [splitChar, hc, this]

theorem splitChar_join {sep : Char} {parts : List PyStr} (hne : parts ≠ []) (h : ∀ p ∈ parts, sep ∉ p) :
    splitChar sep (joinWith [sep] parts) = parts := by
  induction parts with
  | nil => exact absurd rfl hne
  | cons p ps ih =>
    cases ps with
    | nil => simp [joinWith, splitChar_no_sep (h p (by simp))]
    | cons q qs =>
      simp only [joinWith, List.append_assoc, List.singleton_append]
      rw [splitChar_append (h p (by simp)), ih (by simp) (fun p' hp' => h p' (by simp [hp']))]

theorem isDigit_not_space {c : Char} (h : c.isDigit = true) : isPySpace c = false := by
  simp only [Char.isDigit, Bool.and_eq_true, decide_eq_true_eq, ge_iff_le] at h
  obtain ⟨h1, h2⟩ := h
  have e1 : 48 ≤ c.toNat := UInt32.le_iff_toNat_le.mp h1
  have e2 : c.toNat ≤ 57 := UInt32.le_iff_toNat_le.mp h2
  simp only [isPySpace, Bool.or_eq_false_iff, Bool.and_eq_false_iff, decide_eq_false_iff_not,
    beq_eq_false_iff_ne]
  omega

theorem isDigit_not_intSpace {c : Char} (h : c.isDigit = true) : isIntSpace c = false := by
  rw [isIntSpace, isDigit_not_space h]; rfl

theorem dropWhile_eq_self {α : Type} {p : α → Bool} {l : List α} (h : ∀ a ∈ l.head?, p a = false) :
    l.dropWhile p = l := by
  cases l with
  | nil => rfl
  | cons a l => simp [List.dropWhile, h a (by simp)]

theorem intStrip_decimal {s : PyStr} (h : IsDecimal s) : intStrip s = s := by
  unfold intStrip
  rw [dropWhile_eq_self (l := s), dropWhile_eq_self, List.reverse_reverse]
  · intro a ha
    exact isDigit_not_intSpace (h.2 a (by
      have := List.mem_of_mem_head? ha
      simpa using this))
  · intro a ha
    exact isDigit_not_intSpace (h.2 a (List.mem_of_mem_head? ha))

theorem pyDigits_decimal (acc : Nat) (s : PyStr) (h : ∀ c ∈ s, c.isDigit = true) (b : Bool) (hb : s ≠ [] ∨ b = true) :
    pyDigits acc b s = some (s.foldl (fun n c => 10 * n + (c.toNat - 48)) acc) := by
  induction s generalizing acc b with
  | nil =>
    rcases hb with hb | hb
    · exact absurd rfl hb
    · simp [pyDigits, hb]
  | cons c cs ih =>
    have hc := h c (by simp)
    rw [pyDigits, if_pos hc, ih _ (fun c' hc' => h c' (by simp [hc'])) true (.inr rfl)]
    rfl

theorem pyInt_decimal {s : PyStr} (h : IsDecimal s) : pyInt s = .ok (decimalValue s : Int) := by
  unfold pyInt
  rw [intStrip_decimal h]
  have hd := pyDigits_decimal 0 s h.2 false (.inl h.1)
  split
  · rename_i cs
    have := h.2 '+' (by simp)
    exact absurd this (by decide)
  · rename_i cs
    have := h.2 '-' (by simp)
    exact absurd this (by decide)
  · rw [hd]; rfl

/-- The comparison of padded component lists. -/
theorem versionLoop_spec (ps : List (PyStr × PyStr)) (h : ∀ p ∈ ps, IsDecimal p.1 ∧ IsDecimal p.2) :
    ∃ b, versionLoop ps = .ok b ∧
      (b = true ↔ VersionGe (ps.map (fun p => decimalValue p.1)) (ps.map (fun p => decimalValue p.2))) := by
  induction ps with
  | nil =>
    refine ⟨true, rfl, ?_⟩
    simp [VersionGe, component]
  | cons p ps ih =>
    obtain ⟨hv, hr⟩ := h p (by simp)
    obtain ⟨b, hb, hiff⟩ := ih fun q hq => h q (by simp [hq])
    obtain ⟨v, r⟩ := p
    simp only at hv hr
    simp only [versionLoop, pyInt_decimal hv, pyInt_decimal hr, bind, Except.bind, pure, Except.pure]
    have e0a : component (List.map (fun p => decimalValue p.1) ((v, r) :: ps)) 0 = decimalValue v := by
      simp [component]
    have e0b : component (List.map (fun p => decimalValue p.2) ((v, r) :: ps)) 0 = decimalValue r := by
      simp [component]
    have esa : ∀ i, component (List.map (fun p => decimalValue p.1) ((v, r) :: ps)) (i + 1) =
        component (List.map (fun p => decimalValue p.1) ps) i := by
      intro i; simp [component]
    have esb : ∀ i, component (List.map (fun p => decimalValue p.2) ((v, r) :: ps)) (i + 1) =
        component (List.map (fun p => decimalValue p.2) ps) i := by
      intro i; simp [component]
    by_cases hlt : decimalValue v < decimalValue r
    · refine ⟨false, ?_, ?_⟩
      · rw [if_pos (by omega)]
      · simp only [Bool.false_eq_true, false_iff]
        rintro (hall | ⟨i, hi, hgt⟩)
        · have := hall 0; rw [e0a, e0b] at this; omega
        · cases i with
          | zero => rw [e0a, e0b] at hgt; omega
          | succ i => have := hi 0 (by omega); rw [e0a, e0b] at this; omega
    · by_cases hgt : decimalValue v > decimalValue r
      · refine ⟨true, ?_, ?_⟩
        · rw [if_neg (by omega), if_pos (by omega)]
        · simp only [true_iff]
          exact .inr ⟨0, by intro j hj; omega, by rw [e0a, e0b]; exact hgt⟩
      · refine ⟨b, ?_, ?_⟩
        · rw [if_neg (by omega), if_neg (by omega), hb]
        · rw [hiff]
          constructor
          · rintro (hall | ⟨i, hi, hgt'⟩)
            · left
              intro i
              cases i with
              | zero => rw [e0a, e0b]; omega
              | succ i => rw [esa, esb]; exact hall i
            · right
              refine ⟨i + 1, ?_, by rw [esa, esb]; exact hgt'⟩
              intro j hj
              cases j with
              | zero => rw [e0a, e0b]; omega
              | succ j => rw [esa, esb]; exact hi j (by omega)
          · rintro (hall | ⟨i, hi, hgt'⟩)
            · left
              intro i
              have := hall (i + 1); rwa [esa, esb] at this
            · cases i with
              | zero => rw [e0a, e0b] at hgt'; omega
              | succ i =>
                right
                refine ⟨i, ?_, by rwa [esa, esb] at hgt'⟩
                intro j hj
                have := hi (j + 1) (by omega); rwa [esa, esb] at this

theorem component_pad (parts : List PyStr) (n i : Nat) :
    component ((padZero parts n).map decimalValue) i = component (parts.map decimalValue) i := by
  unfold component padZero
  rw [List.map_append, List.map_replicate]
  have h0 : decimalValue ['0'] = 0 := by decide
  rw [h0]
  simp only [List.getD_eq_getElem?_getD]
  by_cases h : i < (parts.map decimalValue).length
  · rw [List.getElem?_append_left h]
  · rw [List.getElem?_append_right (by omega), List.getElem?_eq_none (l := parts.map decimalValue) (by omega)]
    rw [List.getElem?_replicate]
    split <;> simp

theorem versionGe_congr {a a' b b' : List Nat} (ha : ∀ i, component a i = component a' i)
    (hb : ∀ i, component b i = component b' i) : VersionGe a b ↔ VersionGe a' b' := by
  unfold VersionGe
  simp only [ha, hb]

theorem padZero_length (parts : List PyStr) (n : Nat) : (padZero parts n).length = max parts.length n := by
  unfold padZero; simp; omega

theorem digit_ne_dot {c : Char} (h : c.isDigit = true) : c ≠ '.' := by
  intro e; subst e; exact absurd h (by decide)

theorem joinWith_intercalate (sep : PyStr) (ls : List PyStr) : joinWith sep ls = sep.intercalate ls := by
  fun_induction joinWith sep ls with
  | case1 => rfl
  | case2 => simp [List.intercalate]
  | case3 p q ps ih => rw [ih]; simp [List.intercalate, List.intersperse]

theorem version_dotted {v r : PyStr} {a b : List Nat} (hv : Dotted v a) (hr : Dotted r b) :
    ∃ res, versionEqualOrNewer v r = .ok res ∧ (res = true ↔ VersionGe a b) := by
  obtain ⟨vp, hvne, rfl, hvd, rfl⟩ := hv
  obtain ⟨rp, hrne, rfl, hrd, rfl⟩ := hr
  unfold versionEqualOrNewer
  have hdot : ∀ (parts : List PyStr), (∀ p ∈ parts, IsDecimal p) → ∀ p ∈ parts, '.' ∉ p := by
    intro parts h p hp hm
    exact digit_ne_dot ((h p hp).2 _ hm) rfl
  rw [← joinWith_intercalate, ← joinWith_intercalate, splitChar_join hvne (hdot vp hvd), splitChar_join hrne (hdot rp hrd)]
  simp only
  have hzero : IsDecimal ['0'] := ⟨by simp, by decide⟩
  have hpad : ∀ (parts : List PyStr) n, (∀ p ∈ parts, IsDecimal p) → ∀ p ∈ padZero parts n, IsDecimal p := by
    intro parts n h p hp
    unfold padZero at hp
    rw [List.mem_append] at hp
    rcases hp with hp | hp
    · exact h p hp
    · rw [(List.mem_replicate.mp hp).2]; exact hzero
  generalize hV : padZero vp rp.length = V
  generalize hR : padZero rp V.length = R
  have hlen : V.length = R.length := by
    rw [← hR, padZero_length, ← hV, padZero_length]; omega
  obtain ⟨res, h1, h2⟩ := versionLoop_spec (V.zip R) (by
    intro p hp
    have := List.of_mem_zip (a := p.1) (b := p.2) hp
    exact ⟨hpad vp rp.length hvd p.1 (hV ▸ this.1), hpad rp V.length hrd p.2 (hR ▸ this.2)⟩)
  refine ⟨res, h1, h2.trans ?_⟩
  have e1 : (V.zip R).map (fun p => decimalValue p.1) = V.map decimalValue := by
    rw [show (fun p : PyStr × PyStr => decimalValue p.1) = decimalValue ∘ Prod.fst from rfl, ← List.map_map,
      List.map_fst_zip (by omega)]
  have e2 : (V.zip R).map (fun p => decimalValue p.2) = R.map decimalValue := by
    rw [show (fun p : PyStr × PyStr => decimalValue p.2) = decimalValue ∘ Prod.snd from rfl, ← List.map_map,
      List.map_snd_zip (by omega)]
  rw [e1, e2, ← hV, ← hR]
  exact versionGe_congr (component_pad _ _) (component_pad _ _)

theorem versionGe_refl (a : List Nat) : VersionGe a a := .inl fun _ => rfl

theorem versionGe_trans {a b c : List Nat} (h1 : VersionGe a b) (h2 : VersionGe b c) : VersionGe a c := by
  rcases h1 with h1 | ⟨i, hi, hgi⟩
  · rcases h2 with h2 | ⟨j, hj, hgj⟩
    · exact .inl fun k => (h1 k).trans (h2 k)
    · exact .inr ⟨j, fun k hk => (h1 k).trans (hj k hk), by rw [h1 j]; exact hgj⟩
  · rcases h2 with h2 | ⟨j, hj, hgj⟩
    · exact .inr ⟨i, fun k hk => (hi k hk).trans (h2 k), by rw [← h2 i]; exact hgi⟩
    · rcases Nat.lt_trichotomy i j with h | h | h
      · exact .inr ⟨i, fun k hk => (hi k hk).trans (hj k (by omega)), by rw [← hj i h]; exact hgi⟩
      · subst h; exact .inr ⟨i, fun k hk => (hi k hk).trans (hj k hk), by omega⟩
      · exact .inr ⟨j, fun k hk => (hi k (by omega)).trans (hj k hk), by rw [hi j h]; exact hgj⟩

theorem versionGe_total (a b : List Nat) : VersionGe a b ∨ VersionGe b a := by
  by_cases h : ∀ i, component a i = component b i
  · exact .inl (.inl h)
  · have hex : ∃ i, component a i ≠ component b i := Classical.byContradiction fun hn =>
      h fun i => Classical.byContradiction fun hi => hn ⟨i, hi⟩
    have hmin : ∃ i, component a i ≠ component b i ∧ ∀ j, j < i → component a j = component b j := by
      obtain ⟨i, hi⟩ := hex
      induction i using Nat.strongRecOn with
      | _ i ih =>
        by_cases hall : ∀ j, j < i → component a j = component b j
        · exact ⟨i, hi, hall⟩
        · have : ∃ j, j < i ∧ component a j ≠ component b j := Classical.byContradiction fun hn =>
            hall fun j hj => Classical.byContradiction fun hne => hn ⟨j, hj, hne⟩
          obtain ⟨j, hj, hne⟩ := this
          exact ih j hj hne
    obtain ⟨i, hne, hall⟩ := hmin
    by_cases hlt : component b i < component a i
    · exact .inl (.inr ⟨i, hall, hlt⟩)
    · exact .inr (.inr ⟨i, fun j hj => (hall j hj).symm, by omega⟩)

theorem versionGe_antisymm {a b : List Nat} (h1 : VersionGe a b) (h2 : VersionGe b a) :
    ∀ i, component a i = component b i := by
  rcases h1 with h1 | ⟨i, hi, hgi⟩
  · exact h1
  · rcases h2 with h2 | ⟨j, hj, hgj⟩
    · exact fun k => (h2 k).symm
    · exfalso
      rcases Nat.lt_trichotomy i j with h | h | h
      · have := hj i h; omega
      · subst h; omega
      · have := hi j h; omega

/-! ### scripts -/

theorem scriptLoop_block (ls : List PyStr) :
    scriptLoop true ls =
      scriptLoop false ((ls.dropWhile (fun m => !['#', '>'].isSuffixOf (pyStrip m))).drop 1) := by
  induction ls with
  | nil => rfl
  | cons l ls ih =>
    rw [scriptLoop]
    cases h : ['#', '>'].isSuffixOf (pyStrip l)
    · simp [List.dropWhile, h, ih]
    · simp [List.dropWhile, h]

theorem codeLines_go_of_le (n : Nat) (ls : List PyStr) (hn : ls.length ≤ n)
    (hno : ∀ l ∈ ls, ¬ (['<', '#'].isPrefixOf (pyStrip l) = true ∧ ['#', '>'].isSuffixOf (pyStrip l) = true)) :
    codeLines.go n (ls.map pyStrip) = scriptLoop false ls := by
  induction n generalizing ls with
  | zero =>
    have : ls = [] := List.length_eq_zero_iff.mp (by omega)
    subst this; rfl
  | succ n ih =>
    cases ls with
    | nil => rfl
    | cons l ls =>
      simp only [List.length_cons] at hn
      have hno' : ∀ m ∈ ls, ¬ (['<', '#'].isPrefixOf (pyStrip m) = true ∧ ['#', '>'].isSuffixOf (pyStrip m) = true) :=
        fun m hm => hno m (by simp [hm])
      rw [List.map_cons, codeLines.go, scriptLoop]
      simp only [Bool.false_eq_true, if_false]
      by_cases hp : ['<', '#'].isPrefixOf (pyStrip l) = true
      · rw [if_pos hp, if_pos hp, if_neg (fun hs => hno l (by simp) ⟨hp, hs⟩), scriptLoop_block, List.dropWhile_map,
          ← List.map_drop]
        apply ih
        · have := (List.dropWhile_sublist ((fun m => !['#', '>'].isSuffixOf m) ∘ pyStrip) (l := ls)).length_le
          simp only [List.length_drop]; omega
        · intro m hm
          exact hno' m ((List.dropWhile_sublist _).subset (List.mem_of_mem_drop hm))
      · rw [if_neg hp, if_neg hp]
        by_cases hq : pyStrip l = [] ∨ ['#'].isPrefixOf (pyStrip l) = true
        · rw [if_pos hq, if_neg (by
            rintro ⟨a, b⟩
            rcases hq with hq | hq
            · exact a hq
            · exact b hq)]
          exact ih ls (by omega) hno'
        · rw [if_neg hq, if_pos (by
            refine ⟨fun h => hq (.inl h), fun h => hq (.inr h)⟩)]
          rw [ih ls (by omega) hno']

theorem isPySpace_iff (c : Char) : isPySpace c = true ↔ c.toNat ∈ whiteSpace := by
  simp only [isPySpace, whiteSpace, Bool.or_eq_true, Bool.and_eq_true, decide_eq_true_eq, beq_iff_eq, List.mem_cons, List.not_mem_nil, or_false]
  omega

theorem isLineBreak_iff (c : Char) : isLineBreak c = true ↔ c.toNat ∈ lineEnds := by
  simp only [isLineBreak, lineEnds, Bool.or_eq_true, Bool.and_eq_true, decide_eq_true_eq, beq_iff_eq, List.mem_cons, List.not_mem_nil, or_false]
  omega

theorem dropWhile_all {p : Char → Bool} {a s : PyStr} (h : ∀ c ∈ a, p c = true) : (a ++ s).dropWhile p = s.dropWhile p := by
  induction a with
  | nil => rfl
  | cons c a ih =>
    rw [List.cons_append, List.dropWhile_cons_of_pos (h c (by simp)), ih fun d hd => h d (by simp [hd])]

theorem dropWhile_head {p : Char → Bool} {s : PyStr} (h : ∀ c, s.head? = some c → p c = false) : s.dropWhile p = s := by
  cases s with
  | nil => rfl
  | cons c s => rw [List.dropWhile_cons_of_neg (by simp [h c rfl])]

theorem dropWhile_parts {p : Char → Bool} (s : PyStr) : ∃ a, s = a ++ s.dropWhile p ∧ (∀ c ∈ a, p c = true) ∧ ∀ c, (s.dropWhile p).head? = some c → p c = false := by
  refine ⟨s.takeWhile p, (List.takeWhile_append_dropWhile).symm, fun c hc => List.all_eq_true.mp List.all_takeWhile c hc, ?_⟩
  intro c hc
  induction s with
  | nil => simp at hc
  | cons d s ih =>
    by_cases hd : p d = true
    · rw [List.dropWhile_cons_of_pos hd] at hc; exact ih hc
    · rw [List.dropWhile_cons_of_neg hd] at hc
      simp only [List.head?_cons, Option.some.injEq] at hc
      rw [← hc]; simpa using hd

theorem not_space {c : Char} : isPySpace c = false ↔ c.toNat ∉ whiteSpace := by
  rw [← isPySpace_iff]; simp

theorem trims_strip {l t : PyStr} (h : Trims l t) : pyStrip l = t := by
  obtain ⟨a, b, rfl, hab, hh, hl⟩ := h
  have ha : ∀ c ∈ a, isPySpace c = true := fun c hc => (isPySpace_iff c).mpr (hab c (by simp [hc]))
  have hb : ∀ c ∈ b, isPySpace c = true := fun c hc => (isPySpace_iff c).mpr (hab c (by simp [hc]))
  unfold pyStrip
  rw [List.append_assoc, dropWhile_all ha]
  by_cases ht : t = []
  · subst ht
    have : (b ++ ([] : PyStr)).dropWhile isPySpace = [] := by rw [dropWhile_all hb]; rfl
    rw [List.append_nil] at this
    rw [List.nil_append, this]; rfl
  · rw [dropWhile_head (s := t ++ b), List.reverse_append, dropWhile_all (by simpa using hb), dropWhile_head, List.reverse_reverse]
    · intro c hc
      rw [List.head?_reverse] at hc
      exact not_space.mpr (hl c hc)
    · intro c hc
      cases t with
      | nil => exact absurd rfl ht
      | cons d t => exact not_space.mpr (hh c hc)

theorem strip_trims (l : PyStr) : Trims l (pyStrip l) := by
  obtain ⟨a, ha, hsa, hna⟩ := dropWhile_parts (p := isPySpace) l
  obtain ⟨b, hb, hsb, hnb⟩ := dropWhile_parts (p := isPySpace) (l.dropWhile isPySpace).reverse
  have hs : l.dropWhile isPySpace = pyStrip l ++ b.reverse := by
    have := congrArg List.reverse hb
    rw [List.reverse_reverse, List.reverse_append] at this
    exact this
  refine ⟨a, b.reverse, ?_, ?_, ?_, ?_⟩
  · rw [List.append_assoc, ← hs]; exact ha
  · intro c hc
    rw [← isPySpace_iff]
    rcases List.mem_append.mp hc with hc | hc
    · exact hsa c hc
    · exact hsb c (List.mem_reverse.mp hc)
  · intro c hc
    apply not_space.mp
    apply hna c
    rw [hs]
    cases hp : pyStrip l with
    | nil => rw [hp] at hc; simp at hc
    | cons d t => rw [hp] at hc; simpa using hc
  · intro c hc
    apply not_space.mp
    apply hnb c
    unfold pyStrip at hc
    rw [List.getLast?_reverse] at hc
    exact hc

theorem splitLinesAux_line {l : PyStr} (h : ∀ c ∈ l, isLineBreak c = false) (cur s : PyStr) (b : Bool) :
    splitLinesAux cur b (l ++ s) = splitLinesAux (l.reverse ++ cur) (b || !l.isEmpty) s := by
  induction l generalizing cur b with
  | nil => simp
  | cons c l ih =>
    have hc := h c (by simp)
    rw [List.cons_append, splitLinesAux]
    · rw [if_neg (by simp [hc]), ih fun d hd => h d (by simp [hd])]
      simp
    · intro cs hcr _
      subst hcr
      exact absurd hc (by decide)

theorem lines_split {s : PyStr} {ls : List PyStr} (h : Lines s ls) : pySplitLines s = ls := by
  have nb : ∀ {l : PyStr}, (∀ c ∈ l, c.toNat ∉ lineEnds) → ∀ c ∈ l, isLineBreak c = false := fun hl c hc => by
    have := mt (isLineBreak_iff c).mp (hl c hc); simpa using this
  unfold pySplitLines
  induction h with
  | none => rfl
  | @last l hne hl =>
    have := splitLinesAux_line (nb hl) [] [] false
    rw [List.append_nil] at this
    rw [this]
    cases l with
    | nil => exact absurd rfl hne
    | cons => simp [splitLinesAux]
  | crlf hl _ ih => rw [splitLinesAux_line (nb hl), splitLinesAux, ih]; simp
  | line hl he hne _ ih =>
    rw [splitLinesAux_line (nb hl), splitLinesAux]
    · rw [if_pos ((isLineBreak_iff _).mpr he), ih]; simp
    · intro cs h1 h2
      exact hne ⟨h1, by rw [h2]; rfl⟩

theorem lines_exist (s : PyStr) : ∃ ls, Lines s ls := by
  induction hn : s.length using Nat.strongRecOn generalizing s with
  | _ n ih =>
    obtain ⟨a, ha, hsa, hna⟩ := dropWhile_parts (p := fun c => !isLineBreak c) s
    have hl : ∀ c ∈ a, c.toNat ∉ lineEnds := fun c hc hm => by
      have := hsa c hc
      rw [(isLineBreak_iff c).mpr hm] at this
      simp at this
    have hlen := congrArg List.length ha
    rw [List.length_append] at hlen
    rw [ha]
    cases hd : s.dropWhile (fun c => !isLineBreak c) with
    | nil =>
      rw [List.append_nil]
      by_cases h0 : a = []
      · exact ⟨[], by rw [h0]; exact .none⟩
      · exact ⟨[a], .last h0 hl⟩
    | cons e r =>
      rw [hd] at hlen hna
      simp only [List.length_cons] at hlen
      have he : e.toNat ∈ lineEnds := (isLineBreak_iff e).mp (by simpa using hna e rfl)
      by_cases hc : e = '\r' ∧ r.head? = some '\n'
      · obtain ⟨rfl, hr⟩ := hc
        cases r with
        | nil => simp at hr
        | cons n r =>
          simp only [List.head?_cons, Option.some.injEq] at hr
          subst hr
          simp only [List.length_cons] at hlen
          obtain ⟨ls, h⟩ := ih r.length (by omega) r rfl
          exact ⟨_, .crlf hl h⟩
      · obtain ⟨ls, h⟩ := ih r.length (by omega) r rfl
        exact ⟨_, .line hl he hc h⟩

theorem trimmed_split {s : PyStr} {ts : List PyStr} (h : TrimmedLines s ts) : (pySplitLines s).map pyStrip = ts := by
  obtain ⟨hl, hlen, ht⟩ := h
  rename_i ls
  rw [lines_split hl]
  clear hl
  induction ls generalizing ts with
  | nil => cases ts with
    | nil => rfl
    | cons => simp at hlen
  | cons l ls ih => cases ts with
    | nil => simp at hlen
    | cons t ts =>
      rw [List.map_cons, trims_strip (ht (l, t) (by simp)), ih (by simpa using hlen) fun p hp => ht p (by simp [hp])]

theorem trimmed_exist (s : PyStr) : ∃ ts, TrimmedLines s ts := by
  obtain ⟨ls, h⟩ := lines_exist s
  refine ⟨ls.map pyStrip, .mk h (by simp) ?_⟩
  intro p hp
  rw [List.zip_map_right] at hp
  obtain ⟨q, hq, rfl⟩ := List.mem_map.mp hp
  have := List.of_mem_zip hq
  have he : q.1 = q.2 := by
    clear h this hp
    induction ls with
    | nil => simp at hq
    | cons a l ih =>
      simp only [List.zip_cons_cons, List.mem_cons] at hq
      rcases hq with rfl | hq
      · rfl
      · exact ih hq
  simp only [Prod.map, id, he]
  exact strip_trims _

end Verif
