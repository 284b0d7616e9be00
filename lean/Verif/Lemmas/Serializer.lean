import Verif.Spec.Serializer
import Verif.Lemmas.StringsShift
import Verif.Lemmas.Base64
import Verif.Lemmas.Numbers
/-
Helper lemmas for CLIXML documents: scalars.
-/
namespace Verif

theorem hexLower_value {n : Nat} (h : n < 16) : hexValue (hexDigitLower n) = some n ∧ hexDigitLower n ≠ '-' ∧
    hexDigitLower n ≠ '{' ∧ hexDigitLower n ≠ '}' ∧ (hexDigitLower n).toNat < 127 ∧ 47 < (hexDigitLower n).toNat := by
  have : ∀ m : Fin 16, hexValue (hexDigitLower m.val) = some m.val ∧ hexDigitLower m.val ≠ '-' ∧
    hexDigitLower m.val ≠ '{' ∧ hexDigitLower m.val ≠ '}' ∧ (hexDigitLower m.val).toNat < 127 ∧
    47 < (hexDigitLower m.val).toNat := by decide
  exact this ⟨n, h⟩

theorem hexByte_chars (b : UInt8) : ∀ c ∈ hexByte b, c ≠ '-' ∧ c ≠ '{' ∧ c ≠ '}' ∧ c.toNat < 127 ∧ 47 < c.toNat := by
  have := b.toNat_lt
  intro c hc
  simp only [hexByte, List.mem_cons, List.not_mem_nil, or_false] at hc
  rcases hc with rfl | rfl
  · exact (hexLower_value (by omega)).2
  · exact (hexLower_value (by omega)).2

theorem hex_chars (bs : Bytes) : ∀ c ∈ bs.flatMap hexByte, c ≠ '-' ∧ c ≠ '{' ∧ c ≠ '}' ∧ c.toNat < 127 ∧ 47 < c.toNat := by
  intro c hc
  obtain ⟨b, -, hb⟩ := List.mem_flatMap.mp hc
  exact hexByte_chars b c hb

theorem unhexlify_go_hex (bs : Bytes) : unhexlify.go (bs.flatMap hexByte) = .ok bs := by
  induction bs with
  | nil => rfl
  | cons b bs ih =>
    have := b.toNat_lt
    simp only [List.flatMap_cons, hexByte, List.cons_append, List.nil_append, unhexlify.go,
      (hexLower_value (show b.toNat / 16 < 16 by omega)).1, (hexLower_value (show b.toNat % 16 < 16 by omega)).1, ih, bind,
      Except.bind, pure, Except.pure]
    congr 2
    apply UInt8.toNat_inj.mp
    simp only [UInt8.toNat_ofNat']
    omega

theorem unhexlify_hexBytes (bs : Bytes) : unhexlify (bs.flatMap hexByte) = .ok bs := by
  unfold unhexlify
  rw [if_neg, unhexlify_go_hex]
  simp only [List.any_eq_true, decide_eq_true_eq, not_exists, not_and]
  intro c hc
  have := hex_chars bs c hc
  omega

theorem filter_dashes (p : Char → Bool) (l : PyStr) (h : ∀ c ∈ l, p c = true) (hd : p '-' = false) (i j k m : Nat) :
    (l.take i ++ '-' :: (l.drop i).take j ++ '-' :: (l.drop (i + j)).take k ++ '-' :: (l.drop (i + j + k)).take m ++
      '-' :: l.drop (i + j + k + m)).filter p = l := by
  have hf : ∀ (t : PyStr), (∀ c ∈ t, c ∈ l) → t.filter p = t := fun t ht =>
    List.filter_eq_self.mpr fun c hc => h c (ht c hc)
  simp only [List.filter_append, List.filter_cons, hd, Bool.false_eq_true, if_false, List.append_assoc, List.cons_append]
  rw [hf (l.take i) fun c hc => List.mem_of_mem_take hc,
    hf ((l.drop i).take j) fun c hc => List.mem_of_mem_drop (List.mem_of_mem_take hc),
    hf ((l.drop (i + j)).take k) fun c hc => List.mem_of_mem_drop (List.mem_of_mem_take hc),
    hf ((l.drop (i + j + k)).take m) fun c hc => List.mem_of_mem_drop (List.mem_of_mem_take hc),
    hf (l.drop (i + j + k + m)) fun c hc => List.mem_of_mem_drop hc]
  rw [← List.drop_drop (i := m), List.take_append_drop, ← List.drop_drop (i := k), List.take_append_drop,
    ← List.drop_drop (i := j), List.take_append_drop, List.take_append_drop]

theorem parseUUID_toStr (u : UUID) : parseUUID u.toStr = .ok u := by
  have e : (u.toStr.filter (fun c => decide (c ≠ '{' ∧ c ≠ '}'))).filter (fun c => decide (c ≠ '-')) =
      u.bytes.flatMap hexByte := by
    rw [List.filter_filter]
    exact filter_dashes _ (u.bytes.flatMap hexByte) (fun c hc => by
      have := hex_chars _ c hc
      simp [this.1, this.2.1, this.2.2.1]) (by decide) 8 4 4 4
  unfold parseUUID
  simp only [e, unhexlify_hexBytes, u.len, dite_true]

/-! Characters -/

theorem xmlSafe_ascii {c : Char} (h1 : 32 ≤ c.toNat) (h2 : c.toNat < 127) : XmlSafe c := by
  refine ⟨?_, ?_⟩
  · unfold IsXmlChar; omega
  · rintro rfl
    exact absurd h1 (by decide)

theorem pyStrNat_chars (n : Nat) : ∀ c ∈ pyStrNat n, 48 ≤ c.toNat ∧ c.toNat ≤ 57 := by
  intro c hc
  have hd := (pyStrNat_decimal n).2 c hc
  simp only [Char.isDigit, Bool.and_eq_true, decide_eq_true_eq] at hd
  exact ⟨by simpa using UInt32.le_iff_toNat_le.mp hd.1, by simpa using UInt32.le_iff_toNat_le.mp hd.2⟩

theorem safe_pyStrNat (n : Nat) : ∀ c ∈ pyStrNat n, XmlSafe c := by
  intro c hc
  have := pyStrNat_chars n c hc
  exact xmlSafe_ascii (by omega) (by omega)

theorem pyStrNat_ne_nil (n : Nat) : pyStrNat n ≠ [] := (pyStrNat_decimal n).1

theorem pyStrNat_inj {m n : Nat} (h : pyStrNat m = pyStrNat n) : m = n := by
  rw [← decimalValue_pyStrNat m, ← decimalValue_pyStrNat n, h]

theorem safe_pyStrInt (n : Int) : ∀ c ∈ pyStrInt n, XmlSafe c := by
  intro c hc
  unfold pyStrInt at hc
  split at hc
  · rcases List.mem_cons.mp hc with rfl | hc
    · exact xmlSafe_ascii (by decide) (by decide)
    · exact safe_pyStrNat _ c hc
  · exact safe_pyStrNat _ c hc

theorem pyStrInt_ne_nil (n : Int) : pyStrInt n ≠ [] := by
  unfold pyStrInt
  split
  · simp
  · exact pyStrNat_ne_nil _

theorem safe_b64Char (n : Nat) : XmlSafe (b64Char n) := by
  unfold b64Char
  rw [List.getD_eq_getElem?_getD]
  cases h : b64Alphabet[n]? with
  | none => exact xmlSafe_ascii (by decide) (by decide)
  | some c =>
    have hm := List.mem_of_getElem? h
    have : ∀ c ∈ b64Alphabet, 32 ≤ c.toNat ∧ c.toNat < 127 := by decide
    have := this c hm
    exact xmlSafe_ascii this.1 this.2

theorem safe_b64 (b : Bytes) : ∀ c ∈ b64Encode b, XmlSafe c := by
  have he : XmlSafe '=' := xmlSafe_ascii (by decide) (by decide)
  fun_induction b64Encode b with
  | case1 => simp
  | case2 a n =>
    intro c hc
    simp only [List.mem_cons, List.not_mem_nil, or_false] at hc
    rcases hc with rfl | rfl | rfl | rfl <;> first | exact he | exact safe_b64Char _
  | case3 a b n =>
    intro c hc
    simp only [List.mem_cons, List.not_mem_nil, or_false] at hc
    rcases hc with rfl | rfl | rfl | rfl <;> first | exact he | exact safe_b64Char _
  | case4 a b d rest n ih =>
    intro c hc
    simp only [List.mem_cons] at hc
    rcases hc with rfl | rfl | rfl | rfl | hc <;> first | exact ih _ hc | exact safe_b64Char _

theorem b64_ne_nil {b : Bytes} (h : b ≠ []) : b64Encode b ≠ [] := by
  match b, h with
  | [_], _ => simp [b64Encode]
  | [_, _], _ => simp [b64Encode]
  | _ :: _ :: _ :: _, _ => simp [b64Encode]

theorem uuid_text_mem (u : UUID) : ∀ c ∈ u.toStr, c = '-' ∨ c ∈ u.bytes.flatMap hexByte := by
  intro c hc
  simp only [UUID.toStr, List.mem_append, List.mem_cons] at hc
  have t : ∀ {n : Nat} {l : PyStr}, c ∈ l.take n → c ∈ l := fun h => List.mem_of_mem_take h
  have d : ∀ {n : Nat} {l : PyStr}, c ∈ l.drop n → c ∈ l := fun h => List.mem_of_mem_drop h
  rcases hc with (((h | h | h) | h | h) | h | h) | h | h
  all_goals first | exact .inl h | exact .inr (t h) | exact .inr (d h) | exact .inr (d (t h))

theorem safe_uuid (u : UUID) : ∀ c ∈ u.toStr, XmlSafe c := by
  intro c hc
  rcases uuid_text_mem u c hc with rfl | h
  · exact xmlSafe_ascii (by decide) (by decide)
  · have := hex_chars _ c h
    exact xmlSafe_ascii (by omega) this.2.2.2.1

theorem uuid_ne_nil (u : UUID) : u.toStr ≠ [] := by
  simp [UUID.toStr]

end Verif
