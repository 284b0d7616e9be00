import Verif.Props.WholeNumber
/-
C24: the comparison of versions for all texts, also those that are no versions.
-/
namespace Verif

/-- Part `i` of a text between dots; after the last there are zeros. -/
def PartOf (s : PyStr) (i : Nat) (p : PyStr) : Prop :=
  ∃ parts : List PyStr, parts ≠ [] ∧ s = ['.'].intercalate parts ∧ (∀ q ∈ parts, '.' ∉ q) ∧ p = parts.getD i ['0']

/-- A relation between two texts at the first place where their parts are not the same number. -/
def FirstDiffer (v r : PyStr) (rel : PyStr → PyStr → Prop) : Prop :=
  ∃ i p q, PartOf v i p ∧ PartOf r i q ∧ rel p q ∧ ∀ j, j < i → ∃ p' q' n, PartOf v j p' ∧ PartOf r j q' ∧ WholeNumber p' n ∧ WholeNumber q' n

/-- The same number. -/
def SameNumber (p q : PyStr) : Prop := ∃ n, WholeNumber p n ∧ WholeNumber q n

/-- A larger number. -/
def LargerNumber (p q : PyStr) : Prop := ∃ m n, WholeNumber p m ∧ WholeNumber q n ∧ n < m

/-- One of the two is no number. -/
def NotNumbers (p q : PyStr) : Prop := (¬ ∃ n, WholeNumber p n) ∨ ¬ ∃ n, WholeNumber q n

def zeroPair : PyStr × PyStr := (['0'], ['0'])

/-- The relation holds for the first pair that is not the same number. -/
def AtFirst (ps : List (PyStr × PyStr)) (rel : PyStr → PyStr → Prop) : Prop :=
  ∃ i, rel (ps.getD i zeroPair).1 (ps.getD i zeroPair).2 ∧ ∀ j, j < i → SameNumber (ps.getD j zeroPair).1 (ps.getD j zeroPair).2

def AllSame (ps : List (PyStr × PyStr)) : Prop := ∀ j, SameNumber (ps.getD j zeroPair).1 (ps.getD j zeroPair).2

theorem atFirst_cons (x : PyStr × PyStr) (ps : List (PyStr × PyStr)) (rel : PyStr → PyStr → Prop) :
    AtFirst (x :: ps) rel ↔ rel x.1 x.2 ∨ SameNumber x.1 x.2 ∧ AtFirst ps rel := by
  constructor
  · rintro ⟨i, h1, h2⟩
    cases i with
    | zero => exact .inl h1
    | succ i => exact .inr ⟨h2 0 (by omega), i, h1, fun j hj => h2 (j + 1) (by omega)⟩
  · rintro (h | ⟨h, i, h1, h2⟩)
    · exact ⟨0, h, fun j hj => absurd hj (by omega)⟩
    · refine ⟨i + 1, h1, fun j hj => ?_⟩
      cases j with
      | zero => exact h
      | succ j => exact h2 j (by omega)

theorem allSame_cons (x : PyStr × PyStr) (ps : List (PyStr × PyStr)) : AllSame (x :: ps) ↔ SameNumber x.1 x.2 ∧ AllSame ps := by
  constructor
  · exact fun h => ⟨h 0, fun j => h (j + 1)⟩
  · rintro ⟨h1, h2⟩ j
    cases j with
    | zero => exact h1
    | succ j => exact h2 j

theorem zero_number : WholeNumber ['0'] 0 := ((C106_int _).1 0).1 (by decide +kernel)

theorem versionLoop_iff (ps : List (PyStr × PyStr)) : (versionLoop ps = .ok true ↔ AllSame ps ∨ AtFirst ps LargerNumber) ∧
    (versionLoop ps = .ok false ↔ AtFirst ps fun p q => LargerNumber q p) ∧ (versionLoop ps = .error .valueError ↔ AtFirst ps NotNumbers) := by
  induction ps with
  | nil =>
    have hz : ∀ m, WholeNumber ['0'] m → m = 0 := fun m h => C106_unique h zero_number
    refine ⟨⟨fun _ => .inl fun j => ⟨0, zero_number, zero_number⟩, fun _ => rfl⟩, ⟨fun h => (by cases h), ?_⟩, ⟨fun h => (by cases h), ?_⟩⟩
    · rintro ⟨i, ⟨m, n, h1, h2, h3⟩, -⟩
      rw [hz m h1, hz n h2] at h3
      exact absurd h3 (by decide)
    · rintro ⟨i, h | h, -⟩ <;> exact absurd ⟨0, zero_number⟩ h
  | cons x ps ih =>
    obtain ⟨v, r⟩ := x
    obtain ⟨ih1, ih2, ih3⟩ := ih
    rw [allSame_cons, atFirst_cons, atFirst_cons, atFirst_cons]
    simp only
    by_cases hr : ∃ n, WholeNumber r n
    · obtain ⟨n, hr⟩ := hr
      by_cases hv : ∃ m, WholeNumber v m
      · obtain ⟨m, hv⟩ := hv
        have hloop : versionLoop ((v, r) :: ps) = if m < n then .ok false else if m > n then .ok true else versionLoop ps := by
          simp only [versionLoop, bind, Except.bind, ((C106_int r).1 n).2 hr, ((C106_int v).1 m).2 hv, pure, Except.pure]
        have hsame : SameNumber v r ↔ m = n := ⟨fun ⟨k, h1, h2⟩ => by rw [C106_unique hv h1, C106_unique hr h2], fun h => ⟨n, h ▸ hv, hr⟩⟩
        have hlarge : LargerNumber v r ↔ n < m :=
          ⟨fun ⟨a, b, h1, h2, h3⟩ => by rw [C106_unique hv h1, C106_unique hr h2]; exact h3, fun h => ⟨m, n, hv, hr, h⟩⟩
        have hsmall : LargerNumber r v ↔ m < n :=
          ⟨fun ⟨a, b, h1, h2, h3⟩ => by rw [C106_unique hv h2, C106_unique hr h1]; exact h3, fun h => ⟨n, m, hr, hv, h⟩⟩
        have hbad : ¬ NotNumbers v r := fun h => h.elim (fun h => h ⟨m, hv⟩) (fun h => h ⟨n, hr⟩)
        rw [hloop, hsame, hlarge, hsmall]
        by_cases h1 : m < n
        · rw [if_pos h1]
          refine ⟨⟨fun h => (by cases h), ?_⟩, ⟨fun _ => .inl h1, fun _ => rfl⟩, ⟨fun h => (by cases h), ?_⟩⟩
          · rintro (⟨h, -⟩ | h | ⟨h, -⟩) <;> omega
          · rintro (h | ⟨h, -⟩)
            · exact absurd h hbad
            · omega
        · rw [if_neg h1]
          by_cases h2 : m > n
          · rw [if_pos h2]
            refine ⟨⟨fun _ => .inr (.inl h2), fun _ => rfl⟩, ⟨fun h => (by cases h), ?_⟩, ⟨fun h => (by cases h), ?_⟩⟩
            · rintro (h | ⟨h, -⟩) <;> omega
            · rintro (h | ⟨h, -⟩)
              · exact absurd h hbad
              · omega
          · rw [if_neg h2, ih1, ih2, ih3]
            have he : m = n := by omega
            refine ⟨⟨?_, ?_⟩, ⟨fun h => .inr ⟨he, h⟩, ?_⟩, ⟨fun h => .inr ⟨he, h⟩, ?_⟩⟩
            · rintro (h | h)
              · exact .inl ⟨he, h⟩
              · exact .inr (.inr ⟨he, h⟩)
            · rintro (⟨-, h⟩ | h | ⟨-, h⟩)
              · exact .inl h
              · exact absurd h h2
              · exact .inr h
            · rintro (h | ⟨-, h⟩)
              · exact absurd h h1
              · exact h
            · rintro (h | ⟨-, h⟩)
              · exact absurd h hbad
              · exact h
      · have hloop : versionLoop ((v, r) :: ps) = .error .valueError := by
          simp only [versionLoop, bind, Except.bind, ((C106_int r).1 n).2 hr, (C106_int v).2 hv]
        rw [hloop]
        refine ⟨⟨fun h => (by cases h), ?_⟩, ⟨fun h => (by cases h), ?_⟩, ⟨fun _ => .inl (.inl hv), fun _ => rfl⟩⟩
        · rintro (⟨⟨k, h, -⟩, -⟩ | ⟨k, -, h, -⟩ | ⟨⟨k, h, -⟩, -⟩) <;> exact absurd ⟨k, h⟩ hv
        · rintro (⟨-, k, -, h, -⟩ | ⟨⟨k, h, -⟩, -⟩) <;> exact absurd ⟨k, h⟩ hv
    · have hloop : versionLoop ((v, r) :: ps) = .error .valueError := by
        simp only [versionLoop, bind, Except.bind, (C106_int r).2 hr]
      rw [hloop]
      refine ⟨⟨fun h => (by cases h), ?_⟩, ⟨fun h => (by cases h), ?_⟩, ⟨fun _ => .inl (.inr hr), fun _ => rfl⟩⟩
      · rintro (⟨⟨k, -, h⟩, -⟩ | ⟨-, k, -, h, -⟩ | ⟨⟨k, -, h⟩, -⟩) <;> exact absurd ⟨k, h⟩ hr
      · rintro (⟨k, -, h, -⟩ | ⟨⟨k, -, h⟩, -⟩) <;> exact absurd ⟨k, h⟩ hr

theorem splitChar_parts (s : PyStr) : splitChar '.' s ≠ [] ∧ (∀ q ∈ splitChar '.' s, '.' ∉ q) ∧ s = ['.'].intercalate (splitChar '.' s) := by
  induction s with
  | nil => exact ⟨by simp [splitChar], by simp [splitChar], rfl⟩
  | cons c cs ih =>
    obtain ⟨h1, h2, h3⟩ := ih
    rw [splitChar]
    split
    · rename_i hc
      refine ⟨by simp, fun q hq => ?_, ?_⟩
      · rcases List.mem_cons.1 hq with rfl | hq
        · simp
        · exact h2 q hq
      · cases hs : splitChar '.' cs with
        | nil => exact absurd hs h1
        | cons p ps =>
          rw [hs] at h3
          rw [h3, hc]
          cases ps <;> simp [List.intercalate, List.intersperse]
    · rename_i hc
      cases hs : splitChar '.' cs with
      | nil => exact absurd hs h1
      | cons p ps =>
        rw [hs] at h2 h3
        refine ⟨by simp, fun q hq => ?_, ?_⟩
        · rcases List.mem_cons.1 hq with rfl | hq
          · intro hm
            rcases List.mem_cons.1 hm with h | h
            · exact hc h.symm
            · exact h2 p (by simp) h
          · exact h2 q (by simp [hq])
        · rw [h3]
          cases ps <;> simp [List.intercalate, List.intersperse]

theorem partOf_iff (s : PyStr) (i : Nat) (p : PyStr) : PartOf s i p ↔ p = (splitChar '.' s).getD i ['0'] := by
  obtain ⟨h1, h2, h3⟩ := splitChar_parts s
  constructor
  · rintro ⟨parts, hne, rfl, hdot, rfl⟩
    rw [← joinWith_intercalate, splitChar_join hne hdot]
  · rintro rfl
    exact ⟨_, h1, h3, h2, rfl⟩

theorem padded_getD (a b : List PyStr) (i : Nat) :
    (((padZero a b.length).zip (padZero b (padZero a b.length).length)).getD i zeroPair) = (a.getD i ['0'], b.getD i ['0']) := by
  have hl : ∀ (l : List PyStr) n, (padZero l n)[i]? = if i < l.length then l[i]? else if i < n then some ['0'] else none := by
    intro l n
    unfold padZero
    split
    · rename_i h; rw [List.getElem?_append_left h]
    · rename_i h
      rw [List.getElem?_append_right (by omega), List.getElem?_replicate]
      split <;> split <;> first | rfl | omega
  have hlen : ∀ (l : List PyStr) n, (padZero l n).length = max l.length n := by
    intro l n; unfold padZero; rw [List.length_append, List.length_replicate]; omega
  rw [List.getD_eq_getElem?_getD, List.zip, List.getElem?_zipWith, hl, hl, hlen, List.getD_eq_getElem?_getD, List.getD_eq_getElem?_getD]
  by_cases ha : i < a.length
  · by_cases hb : i < b.length
    · rw [if_pos ha, if_pos hb, List.getElem?_eq_getElem ha, List.getElem?_eq_getElem hb]; rfl
    · rw [if_pos ha, if_neg hb, if_pos (by omega), List.getElem?_eq_getElem ha, List.getElem?_eq_none (by omega : b.length ≤ i)]; rfl
  · by_cases hb : i < b.length
    · rw [if_neg ha, if_pos hb, if_pos hb, List.getElem?_eq_getElem hb, List.getElem?_eq_none (by omega : a.length ≤ i)]; rfl
    · rw [if_neg ha, if_neg hb, if_neg hb, List.getElem?_eq_none (by omega : a.length ≤ i), List.getElem?_eq_none (by omega : b.length ≤ i)]; rfl

/-- C24 for all texts: the first parts that are not the same number decide. If one of them is no number, the comparison raises `ValueError`; what comes after
is not looked at. -/
theorem C24_all_texts (v r : PyStr) :
    (versionEqualOrNewer v r = .ok true ↔ (∀ i p q, PartOf v i p → PartOf r i q → SameNumber p q) ∨ FirstDiffer v r LargerNumber) ∧
    (versionEqualOrNewer v r = .ok false ↔ FirstDiffer v r fun p q => LargerNumber q p) ∧
    (versionEqualOrNewer v r = .error .valueError ↔ FirstDiffer v r NotNumbers) := by
  have hg := padded_getD (splitChar '.' v) (splitChar '.' r)
  have h := versionLoop_iff ((padZero (splitChar '.' v) (splitChar '.' r).length).zip
    (padZero (splitChar '.' r) (padZero (splitChar '.' v) (splitChar '.' r).length).length))
  have hall : AllSame ((padZero (splitChar '.' v) (splitChar '.' r).length).zip
      (padZero (splitChar '.' r) (padZero (splitChar '.' v) (splitChar '.' r).length).length)) ↔ ∀ i p q, PartOf v i p → PartOf r i q → SameNumber p q := by
    unfold AllSame
    simp only [hg, partOf_iff]
    exact ⟨fun h i p q hp hq => by rw [hp, hq]; exact h i, fun h i => h i _ _ rfl rfl⟩
  have hfirst : ∀ rel, AtFirst ((padZero (splitChar '.' v) (splitChar '.' r).length).zip
      (padZero (splitChar '.' r) (padZero (splitChar '.' v) (splitChar '.' r).length).length)) rel ↔ FirstDiffer v r rel := by
    intro rel
    unfold AtFirst FirstDiffer
    simp only [hg, partOf_iff]
    constructor
    · rintro ⟨i, h1, h2⟩
      exact ⟨i, _, _, rfl, rfl, h1, fun j hj => let ⟨n, h3, h4⟩ := h2 j hj; ⟨_, _, n, rfl, rfl, h3, h4⟩⟩
    · rintro ⟨i, _, _, rfl, rfl, h1, h2⟩
      exact ⟨i, h1, fun j hj => by obtain ⟨_, _, n, rfl, rfl, h3, h4⟩ := h2 j hj; exact ⟨n, h3, h4⟩⟩
  rw [hall, hfirst, hfirst, hfirst] at h
  exact h

/-- The comparison raises only if it reaches the part that is no number. -/
example : versionEqualOrNewer "2.x".toList "1.0".toList = .ok true ∧ versionEqualOrNewer "1.x".toList "1.0".toList = .error .valueError ∧
    versionEqualOrNewer " 1_0".toList "9".toList = .ok true ∧ versionEqualOrNewer "-1".toList "0.5".toList = .ok false := by
  decide +kernel

end Verif
