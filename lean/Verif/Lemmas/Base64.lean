import Verif.Model.Base64
namespace Verif

theorem b64Index_char (n : Nat) (h : n < 64) : b64Index (b64Char n) = some n := by
  have key : ∀ m : Fin 64, b64Index (b64Char m.val) = some m.val := by decide +kernel
  exact key ⟨n, h⟩

theorem b64Char_ne_pad (n : Nat) (h : n < 64) : b64Char n ≠ '=' := by
  have key : ∀ m : Fin 64, b64Char m.val ≠ '=' := by decide +kernel
  exact key ⟨n, h⟩

theorem b64Encode_length (b : Bytes) : (b64Encode b).length = 4 * ((b.length + 2) / 3) := by
  fun_induction b64Encode b with
  | case1 => rfl
  | case2 => simp
  | case3 => simp
  | case4 a b c rest n ih =>
    simp only [List.length_cons, ih]
    omega

theorem ofNat_of_toNat (a : UInt8) (n : Nat) (h : n = a.toNat) : UInt8.ofNat n = a := by
  rw [h]; exact UInt8.ofNat_toNat

theorem b64Loop_char (q : Quad) (pads n : Nat) (cs : PyStr) (h : n < 64) : b64Loop q pads (b64Char n :: cs) =
    match q with
    | .q0 => b64Loop (.q1 n) 0 cs
    | .q1 l => (b64Loop (.q2 (n % 16)) 0 cs).map (UInt8.ofNat (l * 4 + n / 16) :: ·)
    | .q2 l => (b64Loop (.q3 (n % 4)) 0 cs).map (UInt8.ofNat (l * 16 + n / 4) :: ·)
    | .q3 l => (b64Loop .q0 0 cs).map (UInt8.ofNat (l * 64 + n) :: ·) := by
  conv => lhs; unfold b64Loop
  rw [if_neg (b64Char_ne_pad n h), b64Index_char n h]
  cases q <;> rfl

theorem b64Decode_encode (b : Bytes) : b64Decode (b64Encode b) = .ok b := by
  unfold b64Decode
  fun_induction b64Encode b with
  | case1 => rfl
  | case2 a n =>
    have ha := a.toNat_lt
    rw [b64Loop_char _ _ _ _ (by omega)]
    dsimp only
    rw [b64Loop_char _ _ _ _ (by omega)]
    rw [show ∀ l, b64Loop (.q2 l) 0 ['=', '='] = .ok [] from fun l => by simp [b64Loop]]
    simp only [Except.map, Except.ok.injEq, List.cons.injEq, and_true]
    exact ofNat_of_toNat _ _ (by omega)
  | case3 a b n =>
    have ha := a.toNat_lt
    have hb := b.toNat_lt
    rw [b64Loop_char _ _ _ _ (by omega)]
    dsimp only
    rw [b64Loop_char _ _ _ _ (by omega)]
    dsimp only
    rw [b64Loop_char _ _ _ _ (by omega)]
    rw [show ∀ l, b64Loop (.q3 l) 0 ['='] = .ok [] from fun l => by simp [b64Loop]]
    simp only [Except.map, Except.ok.injEq, List.cons.injEq, and_true]
    exact ⟨ofNat_of_toNat _ _ (by omega), ofNat_of_toNat _ _ (by omega)⟩
  | case4 a b c rest n ih =>
    have ha := a.toNat_lt
    have hb := b.toNat_lt
    have hc := c.toNat_lt
    rw [b64Loop_char _ _ _ _ (by omega)]
    dsimp only
    rw [b64Loop_char _ _ _ _ (by omega)]
    dsimp only
    rw [b64Loop_char _ _ _ _ (by omega)]
    dsimp only
    rw [b64Loop_char _ _ _ _ (by omega), ih]
    simp only [Except.map, Except.ok.injEq, List.cons.injEq, and_true]
    exact ⟨ofNat_of_toNat _ _ (by omega), ofNat_of_toNat _ _ (by omega), ofNat_of_toNat _ _ (by omega)⟩

theorem netGroups_encode (b : Bytes) : netGroups (b64Encode b) = some b := by
  fun_induction b64Encode b with
  | case1 => rfl
  | case2 a n =>
    have ha := a.toNat_lt
    have h1 : n / 262144 < 64 := by omega
    have h2 : n / 4096 % 64 < 64 := by omega
    rw [netGroups]
    rw [b64Index_char _ h1, b64Index_char _ h2]
    simp only [Option.some.injEq, List.cons.injEq, and_true]
    exact ofNat_of_toNat _ _ (by omega)
  | case3 a b n =>
    have ha := a.toNat_lt
    have hb := b.toNat_lt
    have h1 : n / 262144 < 64 := by omega
    have h2 : n / 4096 % 64 < 64 := by omega
    have h3 : n / 64 % 64 < 64 := by omega
    rw [netGroups]
    · rw [b64Index_char _ h1, b64Index_char _ h2, b64Index_char _ h3]
      simp only [Option.some.injEq, List.cons.injEq, and_true]
      exact ⟨ofNat_of_toNat _ _ (by omega), ofNat_of_toNat _ _ (by omega)⟩
    · intro h; exact absurd h (b64Char_ne_pad _ h3)
  | case4 a b c rest n ih =>
    have ha := a.toNat_lt
    have hb := b.toNat_lt
    have hc := c.toNat_lt
    have h1 : n / 262144 < 64 := by omega
    have h2 : n / 4096 % 64 < 64 := by omega
    have h3 : n / 64 % 64 < 64 := by omega
    have h4 : n % 64 < 64 := by omega
    rw [netGroups]
    · rw [b64Index_char _ h1, b64Index_char _ h2, b64Index_char _ h3, b64Index_char _ h4, ih]
      simp only [Option.some.injEq, List.cons.injEq, and_true]
      exact ⟨ofNat_of_toNat _ _ (by omega), ofNat_of_toNat _ _ (by omega), ofNat_of_toNat _ _ (by omega)⟩
    · intro h _ _; exact absurd h (b64Char_ne_pad _ h3)
    · intro h; exact absurd h (b64Char_ne_pad _ h4)

theorem b64Encode_inj {a b : Bytes} (h : b64Encode a = b64Encode b) : a = b := by
  have := b64Decode_encode a
  rw [h, b64Decode_encode] at this
  simpa using this.symm

theorem b64Char_space (n : Nat) (h : n < 64) :
    (!(b64Char n = ' ' || b64Char n = '\t' || b64Char n = '\n' || b64Char n = '\r')) = true := by
  have key : ∀ m : Fin 64, (!(b64Char m.val = ' ' || b64Char m.val = '\t' || b64Char m.val = '\n' || b64Char m.val = '\r')) = true := by
    decide +kernel
  exact key ⟨n, h⟩

theorem b64Encode_chars (b : Bytes) : ∀ c ∈ b64Encode b, c = '=' ∨ ∃ n, n < 64 ∧ c = b64Char n := by
  fun_induction b64Encode b with
  | case1 => simp
  | case2 a n =>
    have ha := a.toNat_lt
    simp only [List.mem_cons, List.not_mem_nil, or_false]
    rintro c (rfl | rfl | rfl | rfl)
    · exact .inr ⟨_, by omega, rfl⟩
    · exact .inr ⟨_, by omega, rfl⟩
    · exact .inl rfl
    · exact .inl rfl
  | case3 a b n =>
    have ha := a.toNat_lt
    have hb := b.toNat_lt
    simp only [List.mem_cons, List.not_mem_nil, or_false]
    rintro c (rfl | rfl | rfl | rfl)
    · exact .inr ⟨_, by omega, rfl⟩
    · exact .inr ⟨_, by omega, rfl⟩
    · exact .inr ⟨_, by omega, rfl⟩
    · exact .inl rfl
  | case4 a b c rest n ih =>
    have ha := a.toNat_lt
    have hb := b.toNat_lt
    have hc := c.toNat_lt
    simp only [List.mem_cons]
    rintro c (rfl | rfl | rfl | rfl | h)
    · exact .inr ⟨_, by omega, rfl⟩
    · exact .inr ⟨_, by omega, rfl⟩
    · exact .inr ⟨_, by omega, rfl⟩
    · exact .inr ⟨_, by omega, rfl⟩
    · exact ih c h

theorem netFromBase64_encode (b : Bytes) : netFromBase64 (b64Encode b) = some b := by
  unfold netFromBase64
  rw [List.filter_eq_self.mpr, netGroups_encode]
  intro c hc
  rcases b64Encode_chars b c hc with rfl | ⟨n, hn, rfl⟩
  · decide
  · exact b64Char_space n hn

theorem b64Encode_ascii (b : Bytes) : (b64Encode b).all (fun c => c.toNat < 128) = true := by
  rw [List.all_eq_true]
  intro c hc
  have key : ∀ n : Fin 64, (b64Char n.val).toNat < 128 := by decide +kernel
  rcases b64Encode_chars b c hc with rfl | ⟨n, hn, rfl⟩
  · decide
  · simpa using key ⟨n, hn⟩

theorem b64DecodeStr_encode (b : Bytes) : b64DecodeStr (b64Encode b) = .ok b := by
  rw [b64DecodeStr, if_pos (b64Encode_ascii b), b64Decode_encode]

end Verif
