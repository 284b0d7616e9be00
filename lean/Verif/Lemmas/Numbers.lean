import Verif.Lemmas.Utils
/-
Decimal text of integers.
-/
namespace Verif

theorem digitChar_toNat {n : Nat} (h : n < 10) : (Char.ofNat (48 + n)).toNat = 48 + n := by
  have : ∀ m : Fin 10, (Char.ofNat (48 + m.val)).toNat = 48 + m.val := by decide
  exact this ⟨n, h⟩

theorem digitChar_isDigit {n : Nat} (h : n < 10) : (Char.ofNat (48 + n)).isDigit = true := by
  have : ∀ m : Fin 10, (Char.ofNat (48 + m.val)).isDigit = true := by decide
  exact this ⟨n, h⟩

theorem pyStrNat_decimal (n : Nat) : IsDecimal (pyStrNat n) := by
  fun_induction pyStrNat n with
  | case1 n h => exact ⟨by simp, by simpa using digitChar_isDigit h⟩
  | case2 n h ih =>
    refine ⟨by simp, ?_⟩
    intro c hc
    rcases List.mem_append.mp hc with hc | hc
    · exact ih.2 c hc
    · simp only [List.mem_singleton] at hc
      rw [hc]; exact digitChar_isDigit (by omega)

theorem decimalValue_concat (s : PyStr) (c : Char) : decimalValue (s ++ [c]) = 10 * decimalValue s + (c.toNat - 48) := by
  simp [decimalValue]

theorem decimalValue_pyStrNat (n : Nat) : decimalValue (pyStrNat n) = n := by
  fun_induction pyStrNat n with
  | case1 n h =>
    simp only [decimalValue, List.foldl_cons, List.foldl_nil, digitChar_toNat h]; omega
  | case2 n h ih =>
    rw [decimalValue_concat, ih, digitChar_toNat (by omega)]; omega

theorem pyInt_pyStrNat (n : Nat) : pyInt (pyStrNat n) = .ok (n : Int) := by
  rw [pyInt_decimal (pyStrNat_decimal n), decimalValue_pyStrNat]

theorem intStrip_minus {s : PyStr} (h : IsDecimal s) : intStrip ('-' :: s) = '-' :: s := by
  have h1 := intStrip_decimal h
  unfold intStrip at *
  have e : isIntSpace '-' = false := by decide
  have h0 : s.dropWhile isIntSpace = s := dropWhile_eq_self (by
    intro a ha
    exact isDigit_not_intSpace (h.2 a (List.mem_of_mem_head? ha)))
  rw [h0] at h1
  rw [List.dropWhile_cons, if_neg (by simp [e]), List.reverse_cons]
  have hr : (s.reverse ++ ['-']).dropWhile isIntSpace = s.reverse ++ ['-'] := dropWhile_eq_self (by
    intro a ha
    cases hs : s.reverse with
    | nil => exact absurd (by simpa using hs) h.1
    | cons x xs =>
      rw [hs] at ha
      simp only [List.cons_append, List.head?_cons, Option.mem_def, Option.some.injEq] at ha
      subst ha
      exact isDigit_not_intSpace (h.2 x (by
        have : x ∈ s.reverse := by rw [hs]; simp
        simpa using this)))
  rw [hr]; simp

theorem pyInt_pyStrInt (n : Int) : pyInt (pyStrInt n) = .ok n := by
  unfold pyStrInt
  split
  · rename_i hn
    unfold pyInt
    rw [intStrip_minus (pyStrNat_decimal _)]
    simp only
    rw [pyDigits_decimal 0 _ (pyStrNat_decimal _).2 false (.inl (pyStrNat_decimal _).1)]
    simp only
    have := decimalValue_pyStrNat n.natAbs
    unfold decimalValue at this
    rw [this]
    congr 1; omega
  · rw [pyInt_pyStrNat]; congr 1; omega

theorem pyStrInt_inj {a b : Int} (h : pyStrInt a = pyStrInt b) : a = b := by
  have := congrArg pyInt h
  rw [pyInt_pyStrInt, pyInt_pyStrInt] at this
  exact Except.ok.inj this

end Verif
