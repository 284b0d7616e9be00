import Verif.Spec.WholeNumber
import Verif.Lemmas.Utils
/-
C106: `int()` of a text.
-/
namespace Verif

theorem Digits.head {s d : PyStr} (h : Digits s d) : ∃ c t, s = c :: t ∧ c.isDigit = true := by
  cases h with
  | one hc => exact ⟨_, _, rfl, hc⟩
  | next hc _ => exact ⟨_, _, rfl, hc⟩
  | under hc _ => exact ⟨_, _, rfl, hc⟩

theorem Digits.last {s d : PyStr} (h : Digits s d) : ∃ c t, s = t ++ [c] ∧ c.isDigit = true := by
  induction h with
  | one hc => exact ⟨_, [], rfl, hc⟩
  | next _ _ ih => obtain ⟨c, t, rfl, hc⟩ := ih; exact ⟨c, _ :: t, rfl, hc⟩
  | under _ _ ih => obtain ⟨c, t, rfl, hc⟩ := ih; exact ⟨c, _ :: '_' :: t, rfl, hc⟩

theorem WholeNumber.ne_nil {s : PyStr} {n : Int} (h : WholeNumber s n) : s ≠ [] := by
  obtain ⟨lead, sign, body, trail, digits, rfl, -, hd, -⟩ := h
  obtain ⟨c, t, rfl, -⟩ := hd.head
  simp

/-- The value of digits that follow others. -/
def valueAfter (acc : Nat) (digits : PyStr) : Nat := digits.foldl (fun n c => 10 * n + (c.toNat - 48)) acc

theorem pyDigits_iff (s : PyStr) : (∀ acc n, pyDigits acc false s = some n ↔ ∃ d, Digits s d ∧ n = valueAfter acc d) ∧
    ∀ acc n, pyDigits acc true s = some n ↔ (s = [] ∧ n = acc) ∨ (∃ d, Digits s d ∧ n = valueAfter acc d) ∨
      ∃ t d, s = '_' :: t ∧ Digits t d ∧ n = valueAfter acc d := by
  induction s with
  | nil =>
    refine ⟨fun acc n => ⟨fun h => (by cases h), fun ⟨d, h, _⟩ => (by cases h)⟩, fun acc n => ⟨fun h => ?_, fun h => ?_⟩⟩
    · rw [pyDigits, if_pos rfl] at h
      exact .inl ⟨rfl, (Option.some.inj h).symm⟩
    · rcases h with ⟨-, rfl⟩ | ⟨d, h, -⟩ | ⟨t, d, h, -⟩
      · rfl
      · cases h
      · cases h
  | cons c cs ih =>
    obtain ⟨ih1, ih2⟩ := ih
    have digit : ∀ acc n, c.isDigit = true →
        (pyDigits (10 * acc + (c.toNat - 48)) true cs = some n ↔ ∃ d, Digits (c :: cs) d ∧ n = valueAfter acc d) := by
      intro acc n hc
      rw [ih2]
      constructor
      · rintro (⟨rfl, rfl⟩ | ⟨d, h, rfl⟩ | ⟨t, d, rfl, h, rfl⟩)
        · exact ⟨[c], .one hc, rfl⟩
        · exact ⟨c :: d, .next hc h, rfl⟩
        · exact ⟨c :: d, .under hc h, rfl⟩
      · rintro ⟨d, h, rfl⟩
        cases h with
        | one _ => exact .inl ⟨rfl, rfl⟩
        | next _ h => exact .inr (.inl ⟨_, h, rfl⟩)
        | under _ h => exact .inr (.inr ⟨_, _, rfl, h, rfl⟩)
    have nodigit : ∀ d, ¬ c.isDigit = true → ¬ Digits (c :: cs) d := by
      intro d hc h
      obtain ⟨_, _, he, hd⟩ := h.head
      cases he
      exact hc hd
    refine ⟨fun acc n => ?_, fun acc n => ?_⟩
    · rw [pyDigits]
      by_cases hc : c.isDigit = true
      · rw [if_pos hc]; exact digit acc n hc
      · rw [if_neg hc, if_neg (by simp)]
        exact ⟨fun h => (by cases h), fun ⟨d, h, _⟩ => absurd h (nodigit d hc)⟩
    · rw [pyDigits]
      by_cases hc : c.isDigit = true
      · rw [if_pos hc, digit acc n hc]
        constructor
        · exact fun h => .inr (.inl h)
        · rintro (⟨h, -⟩ | h | ⟨t, d, h, -⟩)
          · cases h
          · exact h
          · cases h; exact absurd hc (by decide)
      · rw [if_neg hc]
        by_cases hu : c = '_'
        · subst hu
          rw [if_pos (by simp), ih1]
          constructor
          · exact fun ⟨d, h, hn⟩ => .inr (.inr ⟨cs, d, rfl, h, hn⟩)
          · rintro (⟨h, -⟩ | ⟨d, h, -⟩ | ⟨t, d, h, h1, h2⟩)
            · cases h
            · exact absurd h (nodigit d hc)
            · cases h; exact ⟨d, h1, h2⟩
        · rw [if_neg (by simp [hu])]
          refine ⟨fun h => (by cases h), ?_⟩
          rintro (⟨h, -⟩ | ⟨d, h, -⟩ | ⟨t, d, h, -⟩)
          · cases h
          · exact absurd h (nodigit d hc)
          · cases h; exact absurd rfl hu

theorem isIntSpace_iff (c : Char) : isIntSpace c = true ↔ NumberSpace c := by
  unfold isIntSpace NumberSpace
  rw [Bool.and_eq_true, isPySpace_iff]
  simp only [Bool.not_eq_true', Bool.and_eq_false_iff, decide_eq_false_iff_not, List.mem_cons, List.not_mem_nil, or_false]
  constructor
  · rintro ⟨h1, h2⟩; exact ⟨h1, by omega⟩
  · rintro ⟨h1, h2⟩; exact ⟨h1, by omega⟩

theorem intStrip_core {lead core trail : PyStr} (hs : ∀ c ∈ lead ++ trail, NumberSpace c) (hh : ∃ c t, core = c :: t ∧ isIntSpace c = false)
    (hl : ∃ c t, core = t ++ [c] ∧ isIntSpace c = false) : intStrip (lead ++ core ++ trail) = core := by
  have ha : ∀ c ∈ lead, isIntSpace c = true := fun c hc => (isIntSpace_iff c).2 (hs c (by simp [hc]))
  have hb : ∀ c ∈ trail.reverse, isIntSpace c = true := fun c hc => (isIntSpace_iff c).2 (hs c (by simp [List.mem_reverse.1 hc]))
  unfold intStrip
  rw [List.append_assoc, dropWhile_all ha, dropWhile_head (s := core ++ trail), List.reverse_append, dropWhile_all hb, dropWhile_head, List.reverse_reverse]
  · obtain ⟨c, t, rfl, hc⟩ := hl
    intro d hd
    rw [List.reverse_append, List.reverse_singleton, List.singleton_append, List.head?_cons] at hd
    cases hd; exact hc
  · obtain ⟨c, t, rfl, hc⟩ := hh
    intro d hd
    rw [List.cons_append, List.head?_cons] at hd
    cases hd; exact hc

theorem intStrip_parts (s : PyStr) : ∃ lead trail, s = lead ++ intStrip s ++ trail ∧ ∀ c ∈ lead ++ trail, NumberSpace c := by
  obtain ⟨a, ha, hsa, -⟩ := dropWhile_parts (p := isIntSpace) s
  obtain ⟨b, hb, hsb, -⟩ := dropWhile_parts (p := isIntSpace) (s.dropWhile isIntSpace).reverse
  have hs : s.dropWhile isIntSpace = intStrip s ++ b.reverse := by
    have := congrArg List.reverse hb
    rw [List.reverse_reverse, List.reverse_append] at this
    exact this
  refine ⟨a, b.reverse, by rw [List.append_assoc, ← hs]; exact ha, fun c hc => ?_⟩
  rw [← isIntSpace_iff]
  rcases List.mem_append.1 hc with hc | hc
  · exact hsa c hc
  · exact hsb c (List.mem_reverse.1 hc)

/-- C106. `int()` of a text gives a number iff it is the text of that number, and raises `ValueError` for all other texts. -/
theorem C106_int (s : PyStr) : (∀ n, pyInt s = .ok n ↔ WholeNumber s n) ∧ ((¬ ∃ n, WholeNumber s n) → pyInt s = .error .valueError) := by
  have key : ∀ n, pyInt s = .ok n ↔ WholeNumber s n := by
    intro n
    constructor
    · intro h
      obtain ⟨lead, trail, hs, hsp⟩ := intStrip_parts s
      unfold pyInt at h
      split at h
      · rename_i cs hc
        cases hd : pyDigits 0 false cs with
        | none => rw [hd] at h; cases h
        | some m =>
          rw [hd] at h
          obtain ⟨d, h1, h2⟩ := ((pyDigits_iff cs).1 0 m).1 hd
          rw [hc] at hs
          exact ⟨lead, ['+'], cs, trail, d, hs, hsp, h1, .inl ⟨.inr rfl, by cases h; rw [h2]; rfl⟩⟩
      · rename_i cs hc
        cases hd : pyDigits 0 false cs with
        | none => rw [hd] at h; cases h
        | some m =>
          rw [hd] at h
          obtain ⟨d, h1, h2⟩ := ((pyDigits_iff cs).1 0 m).1 hd
          rw [hc] at hs
          exact ⟨lead, ['-'], cs, trail, d, hs, hsp, h1, .inr ⟨rfl, by cases h; rw [h2]; rfl⟩⟩
      · cases hd : pyDigits 0 false (intStrip s) with
        | none => rw [hd] at h; cases h
        | some m =>
          rw [hd] at h
          obtain ⟨d, h1, h2⟩ := ((pyDigits_iff _).1 0 m).1 hd
          exact ⟨lead, [], intStrip s, trail, d, hs, hsp, h1, .inl ⟨.inl rfl, by cases h; rw [h2]; rfl⟩⟩
    · rintro ⟨lead, sign, body, trail, d, rfl, hsp, hd, hn⟩
      have hb := ((pyDigits_iff body).1 0 (valueAfter 0 d)).2 ⟨d, hd, rfl⟩
      obtain ⟨c, t, hbt, hc⟩ := hd.head
      obtain ⟨c', t', hbl, hc'⟩ := hd.last
      have hst : ∀ sign : PyStr, (∀ x ∈ sign, isIntSpace x = false) → intStrip (lead ++ (sign ++ body) ++ trail) = sign ++ body := by
        intro sign hs
        refine intStrip_core hsp ?_ ⟨c', sign ++ t', by rw [hbl, List.append_assoc], isDigit_not_intSpace hc'⟩
        cases sign with
        | nil => exact ⟨c, t, hbt, isDigit_not_intSpace hc⟩
        | cons x xs => exact ⟨x, xs ++ body, rfl, hs x (by simp)⟩
      rcases hn with ⟨rfl | rfl, rfl⟩ | ⟨rfl, rfl⟩
      · unfold pyInt
        rw [hst [] (by simp), List.nil_append]
        split
        · cases hbt; exact absurd hc (by decide)
        · cases hbt; exact absurd hc (by decide)
        · rw [hb]; rfl
      · unfold pyInt
        rw [hst ['+'] (by decide)]
        simp only [List.singleton_append, hb]
        rfl
      · unfold pyInt
        rw [hst ['-'] (by decide)]
        simp only [List.singleton_append, hb]
        rfl
  refine ⟨key, fun hn => ?_⟩
  cases h : pyInt s with
  | ok n => exact absurd ⟨n, (key n).1 h⟩ hn
  | error e =>
    unfold pyInt at h
    repeat' split at h
    all_goals first | (injection h with h; rw [h]) | cases h

example : WholeNumber " -1_000\n".toList (-1000) ∧ (¬ ∃ n, WholeNumber "1__0".toList n) ∧ ¬ ∃ n, WholeNumber "+ 1".toList n := by
  refine ⟨((C106_int _).1 _).1 (by decide +kernel), fun ⟨n, h⟩ => ?_, fun ⟨n, h⟩ => ?_⟩
  · have := ((C106_int _).1 n).2 h
    rw [show pyInt "1__0".toList = .error .valueError by decide +kernel] at this
    cases this
  · have := ((C106_int _).1 n).2 h
    rw [show pyInt "+ 1".toList = .error .valueError by decide +kernel] at this
    cases this

/-- C106: a text stands for at most one number. -/
theorem C106_unique {s : PyStr} {m n : Int} (hm : WholeNumber s m) (hn : WholeNumber s n) : m = n := by
  have h1 := ((C106_int s).1 m).2 hm
  rw [((C106_int s).1 n).2 hn] at h1
  exact (Except.ok.inj h1).symm

end Verif
