import Verif.Spec.Encodings
import Verif.Lemmas.Bytes
/-
C99: the texts of numbers, ids and bytes.
-/
namespace Verif

theorem pyStrNat_toDigits (n : Nat) : pyStrNat n = Nat.toDigits 10 n := by
  induction n using Nat.strongRecOn with
  | _ n ih =>
    have hd : ∀ m, m < 10 → Char.ofNat (48 + m) = m.digitChar := by
      intro m hm
      have : ∀ k : Fin 10, Char.ofNat (48 + k.val) = k.val.digitChar := by decide
      exact this ⟨m, hm⟩
    rw [pyStrNat]
    split
    · next h => rw [Nat.toDigits_of_lt_base h, hd n h]
    · next h =>
      rw [ih (n / 10) (by omega), hd _ (Nat.mod_lt _ (by decide))]
      exact (Nat.toDigits_of_base_le (by decide) (by omega)).symm

/-- C99: the text of a number is its usual decimal notation. -/
theorem C99_number (i : Int) : pyStrInt i = (toString i).toList := by
  have hn (n : Nat) : (toString n).toList = pyStrNat n := by
    rw [pyStrNat_toDigits]; exact Nat.toList_repr
  unfold pyStrInt
  cases i with
  | ofNat n =>
    rw [if_neg (by simp [Int.ofNat_eq_natCast])]
    exact (hn n).symm
  | negSucc n =>
    rw [if_pos (Int.negSucc_lt_zero n)]
    show '-' :: pyStrNat (n + 1) = (toString (Int.negSucc n)).toList
    rw [← hn]
    show _ = ("-" ++ toString (n + 1)).toList
    rw [String.toList_append]; rfl

/-! ### Base64 -/

theorem b64Char_eq {n : Nat} (h : n < 64) : b64Char n = sextetChar n := by
  have : ∀ k : Fin 64, b64Char k.val = sextetChar k.val := by decide +kernel
  exact this ⟨n, h⟩

theorem bits_fin (P : UInt8 → Bool) (h : ∀ n : Fin 256, P (UInt8.ofNat n.val) = true) (b : UInt8) : P b = true := by
  simpa using h ⟨b.toNat, b.toNat_lt⟩

def bitsFit (b : UInt8) : Bool :=
  decide (bitsValue ([7, 6, 5, 4, 3, 2].map b.toNat.testBit) = b.toNat / 4 ∧ bitsValue ([1, 0].map b.toNat.testBit) = b.toNat % 4 ∧
    bitsValue ([7, 6, 5, 4].map b.toNat.testBit) = b.toNat / 16 ∧ bitsValue ([3, 2, 1, 0].map b.toNat.testBit) = b.toNat % 16 ∧
    bitsValue ([7, 6].map b.toNat.testBit) = b.toNat / 64 ∧ bitsValue ([5, 4, 3, 2, 1, 0].map b.toNat.testBit) = b.toNat % 64)

/-- The parts of a byte that fall into different groups. -/
theorem bits_parts (b : UInt8) : ∃ b7 b6 b5 b4 b3 b2 b1 b0, bitsOf b = [b7, b6, b5, b4, b3, b2, b1, b0] ∧
    bitsValue [b7, b6, b5, b4, b3, b2] = b.toNat / 4 ∧ bitsValue [b1, b0] = b.toNat % 4 ∧
    bitsValue [b7, b6, b5, b4] = b.toNat / 16 ∧ bitsValue [b3, b2, b1, b0] = b.toNat % 16 ∧
    bitsValue [b7, b6] = b.toNat / 64 ∧ bitsValue [b5, b4, b3, b2, b1, b0] = b.toNat % 64 := by
  have k : bitsFit b = true := bits_fin bitsFit (by decide +kernel) b
  exact ⟨_, _, _, _, _, _, _, _, rfl, of_decide_eq_true k⟩

theorem value_two_four (a b c d e f : Bool) : bitsValue [a, b, c, d, e, f] = bitsValue [a, b] * 16 + bitsValue [c, d, e, f] := by
  cases a <;> cases b <;> cases c <;> cases d <;> cases e <;> cases f <;> rfl

theorem value_four_two (a b c d e f : Bool) : bitsValue [a, b, c, d, e, f] = bitsValue [a, b, c, d] * 4 + bitsValue [e, f] := by
  cases a <;> cases b <;> cases c <;> cases d <;> cases e <;> cases f <;> rfl

/-- C99: bytes are written as base64. -/
theorem C99_base64 (b : Bytes) : b64Encode b = base64Of b := by
  fun_induction b64Encode b with
  | case1 => rfl
  | case2 a n =>
    obtain ⟨a7, a6, a5, a4, a3, a2, a1, a0, ha, h1, h2, -⟩ := bits_parts a
    have := a.toNat_lt
    have e1 : n / 262144 = a.toNat / 4 := by omega
    have e2 : n / 4096 % 64 = a.toNat % 4 * 16 := by omega
    have z : bitsValue [false, false, false, false] = 0 := rfl
    simp only [base64Of, List.flatMap_cons, List.flatMap_nil, List.append_nil, ha, sextets, List.map_cons, List.map_nil, List.length_cons, List.length_nil]
    show _ = [sextetChar _, sextetChar (bitsValue [a1, a0, false, false, false, false]), '=', '=']
    rw [h1, value_two_four, h2, z, e1, e2, b64Char_eq (by omega), b64Char_eq (by omega)]
    rfl
  | case3 a b n =>
    obtain ⟨a7, a6, a5, a4, a3, a2, a1, a0, ha, h1, h2, -⟩ := bits_parts a
    obtain ⟨b7, b6, b5, b4, b3, b2, b1, b0, hb, -, -, h3, h4, -⟩ := bits_parts b
    have := a.toNat_lt
    have := b.toNat_lt
    have e1 : n / 262144 = a.toNat / 4 := by omega
    have e2 : n / 4096 % 64 = a.toNat % 4 * 16 + b.toNat / 16 := by omega
    have e3 : n / 64 % 64 = b.toNat % 16 * 4 := by omega
    have z : bitsValue [false, false] = 0 := rfl
    simp only [base64Of, List.flatMap_cons, List.flatMap_nil, List.append_nil, ha, hb, List.cons_append, List.nil_append, sextets, List.map_cons,
      List.map_nil, List.length_cons, List.length_nil]
    show _ = [sextetChar _, sextetChar _, sextetChar (bitsValue [b3, b2, b1, b0, false, false]), '=']
    rw [h1, value_two_four, h2, h3, value_four_two, h4, z, e1, e2, e3, b64Char_eq (by omega), b64Char_eq (by omega), b64Char_eq (by omega)]
    rfl
  | case4 a b c rest n ih =>
    obtain ⟨a7, a6, a5, a4, a3, a2, a1, a0, ha, h1, h2, -⟩ := bits_parts a
    obtain ⟨b7, b6, b5, b4, b3, b2, b1, b0, hb, -, -, h3, h4, -⟩ := bits_parts b
    obtain ⟨c7, c6, c5, c4, c3, c2, c1, c0, hc, -, -, -, -, h5, h6⟩ := bits_parts c
    have := a.toNat_lt
    have := b.toNat_lt
    have := c.toNat_lt
    have e1 : n / 262144 = a.toNat / 4 := by omega
    have e2 : n / 4096 % 64 = a.toNat % 4 * 16 + b.toNat / 16 := by omega
    have e3 : n / 64 % 64 = b.toNat % 16 * 4 + c.toNat / 64 := by omega
    have e4 : n % 64 = c.toNat % 64 := by omega
    have hl : (a :: b :: c :: rest).length % 3 = rest.length % 3 := by simp only [List.length_cons]; omega
    rw [ih]
    simp only [base64Of, hl, List.flatMap_cons, ha, hb, hc, List.cons_append, List.nil_append, sextets, List.map_cons]
    rw [h1, value_two_four, h2, h3, value_four_two, h4, h5, h6, e1, e2, e3, e4, b64Char_eq (by omega), b64Char_eq (by omega), b64Char_eq (by omega),
      b64Char_eq (by omega)]

/-! ### Ids -/

theorem bytesValue_snoc (b : Bytes) (x : UInt8) : bytesValue (b ++ [x]) = 256 * bytesValue b + x.toNat := by simp [bytesValue]

/-- The hexadecimal digits of a number are those of its bytes. -/
theorem hex_bytes (b : Bytes) : (List.range (2 * b.length)).map (fun k => bytesValue b / 16 ^ (2 * b.length - 1 - k) % 16) =
    b.flatMap fun x => [x.toNat / 16, x.toNat % 16] := by
  induction h : b.length generalizing b with
  | zero => rw [List.length_eq_zero_iff.mp h]; rfl
  | succ n ih =>
    obtain ⟨c, x, rfl⟩ : ∃ c x, b = c ++ [x] := ⟨b.dropLast, b.getLast (by intro h0; simp [h0] at h), (List.dropLast_concat_getLast _).symm⟩
    have hc : c.length = n := by simpa using h
    have := x.toNat_lt
    rw [show 2 * (n + 1) = 2 * n + 1 + 1 by omega, List.range_succ, List.range_succ, List.map_append, List.map_append, List.flatMap_append, ← ih c hc,
      bytesValue_snoc, List.append_assoc]
    congr 1
    · apply List.map_congr_left
      intro k hk
      have hk := List.mem_range.mp hk
      rw [show 2 * n + 1 + 1 - 1 - k = 2 + (2 * n - 1 - k) by omega, Nat.pow_add, ← Nat.div_div_eq_div_mul, show 16 ^ 2 = 256 from rfl]
      rw [show (256 * bytesValue c + x.toNat) / 256 = bytesValue c by omega]
    · simp only [List.map_cons, List.map_nil, List.flatMap_cons, List.flatMap_nil, List.append_nil, List.cons_append, List.nil_append]
      rw [show 2 * n + 1 + 1 - 1 - 2 * n = 1 by omega, show 2 * n + 1 + 1 - 1 - (2 * n + 1) = 0 by omega]
      simp only [Nat.pow_one, Nat.pow_zero, Nat.div_one]
      congr 1
      · omega
      · congr 1; omega

theorem hexByte_digits (b : Bytes) : b.flatMap hexByte = (b.flatMap fun x => [x.toNat / 16, x.toNat % 16]).map fun d => "0123456789abcdef".toList.getD d '?' := by
  have hd : ∀ d, d < 16 → hexDigitLower d = "0123456789abcdef".toList.getD d '?' := by
    intro d h
    have : ∀ k : Fin 16, hexDigitLower k.val = "0123456789abcdef".toList.getD k.val '?' := by decide +kernel
    exact this ⟨d, h⟩
  induction b with
  | nil => rfl
  | cons x xs ih =>
    have := x.toNat_lt
    simp only [List.flatMap_cons, List.map_append, ih, hexByte, List.map_cons, List.map_nil, hd (x.toNat / 16) (by omega), hd (x.toNat % 16) (by omega)]

/-- C99: the text of an id has its 32 hexadecimal digits in lower case, in groups of 8, 4, 4, 4 and 12. -/
theorem C99_uuid (u : UUID) : u.toStr = uuidText (bytesValue u.bytes) := by
  have hl : u.bytes.length = 16 := u.len
  have h := hex_bytes u.bytes
  rw [hl] at h
  unfold UUID.toStr
  simp only [hexByte_digits, ← h, List.map_map]
  rfl

/-- C99: in binary data the first three groups of an id have their bytes reversed. -/
theorem C99_uuid_bytes (u : UUID) : u.bytesLe = [3, 2, 1, 0, 5, 4, 7, 6, 8, 9, 10, 11, 12, 13, 14, 15].map fun i => u.bytes.getD i 0 := by
  obtain ⟨b, h⟩ := u
  match b, h with
  | [b0, b1, b2, b3, b4, b5, b6, b7, b8, b9, b10, b11, b12, b13, b14, b15], _ => rfl

/-! ### Texts -/

/-- C99: the code units of a text are those of its characters. -/
theorem C99_utf16 (s : PyStr) : (utf16 s).map UInt16.toNat = s.flatMap unitsOf := by
  induction s with
  | nil => rfl
  | cons c cs ih =>
    have hv : c.toNat < 0x110000 := by
      rcases c.valid with h | h
      · exact Nat.lt_trans h (by decide)
      · exact h.2
    simp only [utf16, List.flatMap_cons, List.map_append] at ih ⊢
    rw [ih]
    congr 1
    unfold charUnits unitsOf
    have ht : ∀ n, n < 65536 → (UInt16.ofNat n).toNat = n := by
      intro n h
      rw [UInt16.toNat_ofNat']; exact Nat.mod_eq_of_lt h
    split
    · next h => rw [List.map_cons, List.map_nil, ht _ h]
    · rw [List.map_cons, List.map_cons, List.map_nil, ht _ (by omega), ht _ (by omega)]

/-- C99: a number in a header has the given width and order, and is refused exactly if it does not fit. -/
theorem C99_fields (w n : Nat) : (∀ b, packBE w n = .ok b ↔ b.length = w ∧ bytesValue b = n) ∧
    (∀ b, packLE w n = .ok b ↔ b.length = w ∧ bytesValue b.reverse = n) ∧ (n < 256 ^ w ↔ ∃ b, packBE w n = .ok b) := by
  have hv : ∀ b : Bytes, bytesValue b.reverse = leDec b := by
    intro b
    induction b with
    | nil => rfl
    | cons x xs ih => rw [List.reverse_cons, bytesValue_snoc, ih, leDec, Nat.add_comm]
  have hlt : ∀ b : Bytes, leDec b < 256 ^ b.length := by
    intro b
    induction b with
    | nil => simp [leDec]
    | cons x xs ih =>
      have := x.toNat_lt
      rw [leDec, List.length_cons, Nat.pow_succ]; omega
  have le : ∀ b, packLE w n = .ok b ↔ b.length = w ∧ bytesValue b.reverse = n := by
    intro b
    rw [hv]
    unfold packLE
    constructor
    · intro h
      split at h
      · next hn =>
        injection h with h
        subst h
        exact ⟨by simp, leDec_leEnc_of_lt hn⟩
      · simp at h
    · rintro ⟨rfl, rfl⟩
      rw [if_pos (hlt b), leEnc_leDec]
  refine ⟨fun b => ?_, le, ?_⟩
  · have e : packBE w n = .ok b ↔ packLE w n = .ok b.reverse := by
      unfold packBE packLE
      split
      · simp only [Except.ok.injEq]
        exact ⟨fun h => by rw [← h, List.reverse_reverse], fun h => by rw [h, List.reverse_reverse]⟩
      · simp
    rw [e, le, List.reverse_reverse, List.length_reverse]
  · unfold packBE
    split <;> simp_all

/-! ### Witnesses -/

example : b64Encode [0xfb, 0xef, 0xff, 0x01] = "++//AQ==".toList ∧ base64Of [0xfb, 0xef, 0xff, 0x01] = "++//AQ==".toList := by decide +kernel
example : uuidText 0x0123456789abcdef0123456789abcdef = "01234567-89ab-cdef-0123-456789abcdef".toList := by decide +kernel
example : pyStrInt (-120) = "-120".toList ∧ packBE 4 258 = .ok [0, 0, 1, 2] ∧ packLE 4 258 = .ok [2, 1, 0, 0] := by decide +kernel
example : ['😀'].flatMap unitsOf = [0xD83D, 0xDE00] := by decide +kernel

end Verif
