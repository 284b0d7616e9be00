import Verif.Props.Base64Text
/-
C105: what .NET reads as base64 (copy.ps1), Python reads as the same bytes.
-/
namespace Verif

theorem b64Index_pad {c : Char} {i : Nat} (h : b64Index c = some i) : c ≠ '=' := by
  rintro rfl
  rw [show b64Index '=' = none by decide +kernel] at h
  cases h

theorem netGroups_python (s : PyStr) (b : Bytes) (h : netGroups s = some b) : b64Loop .q0 0 s = .ok b := by
  fun_induction netGroups s generalizing b with
  | case1 => cases h; rfl
  | case2 w x i j hi hj =>
    cases h
    have := b64Index_lt hi
    have := b64Index_lt hj
    simp only [b64Loop, if_neg (b64Index_pad hi), if_neg (b64Index_pad hj), hi, hj, if_true, Except.map]
    simp only [Nat.zero_add, Nat.reduceAdd, Nat.reduceLeDiff, if_true, if_false, Except.ok.injEq, List.cons.injEq, and_true]
    first | exact congrArg _ (by omega) | exact ⟨congrArg _ (by omega), congrArg _ (by omega)⟩
  | case3 => cases h
  | case4 w x y hne i j k hi hj hk n =>
    cases h
    have := b64Index_lt hi
    have := b64Index_lt hj
    have := b64Index_lt hk
    simp only [b64Loop, if_neg (b64Index_pad hi), if_neg (b64Index_pad hj), if_neg (b64Index_pad hk), hi, hj, hk, if_true, Except.map]
    simp only [Nat.zero_add, Nat.reduceAdd, Nat.reduceLeDiff, if_true, if_false, Except.ok.injEq, List.cons.injEq, and_true]
    first | exact congrArg _ (by omega) | exact ⟨congrArg _ (by omega), congrArg _ (by omega)⟩
  | case5 => cases h
  | case6 w x y z rest hn1 hn2 i j k l hi hj hk hl bs hr n ih =>
    cases h
    have := b64Index_lt hi
    have := b64Index_lt hj
    have := b64Index_lt hk
    have := b64Index_lt hl
    simp only [b64Loop, if_neg (b64Index_pad hi), if_neg (b64Index_pad hj), if_neg (b64Index_pad hk), if_neg (b64Index_pad hl), hi, hj, hk, hl, ih bs hr, Except.map, Except.ok.injEq, List.cons.injEq, and_true]
    exact ⟨congrArg _ (by omega), congrArg _ (by omega), congrArg _ (by omega)⟩
  | case7 => cases h
  | case8 => cases h
  | case9 => cases h

/-- C105: a text that .NET reads as base64 is read as the same bytes by Python. -/
theorem C105_dotnet (s : PyStr) (b : Bytes) (h : netFromBase64 s = some b) : Base64Text s b := by
  refine ((C105_decode s).1 b).1 ?_
  have h1 := netGroups_python _ b h
  unfold b64Decode
  rw [b64Loop_filter, List.filter_filter] at h1
  rw [b64Loop_filter, ← h1]
  congr 1
  refine List.filter_congr fun c _ => ?_
  by_cases hc : c = ' ' ∨ c = '\t' ∨ c = '\n' ∨ c = '\r'
  · rcases hc with rfl | rfl | rfl | rfl <;> decide +kernel
  · have : (!(c = ' ' || c = '\t' || c = '\n' || c = '\r')) = true := by simpa [not_or, and_assoc] using hc
    rw [this, Bool.and_true]

/-- Lines as `Convert.ToBase64String` writes them. -/
example : netFromBase64 "AQ\r\nI=".toList = some [1, 2] ∧ netFromBase64 "AQI".toList = none ∧ netFromBase64 "AQ=I".toList = none := by decide +kernel

end Verif
