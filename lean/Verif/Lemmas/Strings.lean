import Verif.Spec.Strings
/-
Lemmas about UTF-16 and the escape scanner.
-/
namespace Verif

theorem isWordByte_eq (b : UInt8) : isWordByte b = isWordNul b := by
  have : ∀ n : Fin 256, isWordByte (UInt8.ofNat n.val) = isWordNul (UInt8.ofNat n.val) := by decide +kernel
  simpa using this ⟨b.toNat, b.toNat_lt⟩

theorem isHexDigit_value {c : Char} {n : Nat} : IsHexDigit c n ↔ hexValue c = some n := by
  unfold hexValue
  simp only [Char.isDigit, Bool.and_eq_true, decide_eq_true_eq, Char.le_def, ge_iff_le, UInt32.le_iff_toNat_le]
  have e : c.val.toNat = c.toNat := rfl
  simp only [e, show ('0' : Char).val.toNat = 48 from rfl, show ('9' : Char).val.toNat = 57 from rfl, show ('a' : Char).val.toNat = 97 from rfl,
    show ('f' : Char).val.toNat = 102 from rfl, show ('A' : Char).val.toNat = 65 from rfl, show ('F' : Char).val.toNat = 70 from rfl]
  split
  · simp only [Option.some.injEq, IsHexDigit]; omega
  · split
    · simp only [Option.some.injEq, IsHexDigit]; omega
    · split
      · simp only [Option.some.injEq, IsHexDigit]; omega
      · simp only [reduceCtorEq, iff_false, IsHexDigit]; omega

theorem unit_of_bytes (u : UInt16) : UInt16.ofNat (256 * (hiByte u).toNat + (loByte u).toNat) = u := by
  have h := u.toNat_lt
  apply UInt16.toNat_inj.mp
  simp only [hiByte, loByte, UInt16.toNat_ofNat', UInt8.toNat_ofNat']
  omega

theorem unitBytes_eq (u : UInt16) : unitBytes u = [hiByte u, loByte u] := rfl

theorem unit_ext {u v : UInt16} (h1 : hiByte u = hiByte v) (h2 : loByte u = loByte v) : u = v := by
  rw [← unit_of_bytes u, ← unit_of_bytes v, h1, h2]

theorem bytesUnits_unitBytes (us : List UInt16) : bytesUnits (us.flatMap unitBytes) = .ok us := by
  induction us with
  | nil => rfl
  | cons u us ih =>
    simp only [List.flatMap_cons, unitBytes_eq, List.cons_append, List.nil_append, bytesUnits, ih, bind, Except.bind,
      pure, Except.pure, unit_of_bytes]

theorem char_lt (c : Char) : c.toNat < 0xD800 ∨ (0xDFFF < c.toNat ∧ c.toNat < 0x110000) := by
  have := c.valid
  simpa [UInt32.isValidChar, Nat.isValidChar] using this

theorem unitsChars_cons_bmp {u : UInt16} (us : List UInt16) (h1 : isHighSurrogate u = false)
    (h2 : isLowSurrogate u = false) :
    unitsChars (u :: us) = (do let cs ← unitsChars us; return Char.ofNat u.toNat :: cs) := by
  cases us with
  | nil => simp [unitsChars, h1, h2, bind, Except.bind, pure, Except.pure]
  | cons v vs =>
    conv => lhs; unfold unitsChars
    simp [h1, h2]

theorem unitsChars_utf16 (s : PyStr) : unitsChars (utf16 s) = .ok s := by
  induction s with
  | nil => rfl
  | cons c s ih =>
    have hv := char_lt c
    simp only [utf16, List.flatMap_cons] at ih ⊢
    generalize hu : charUnits c = w
    unfold charUnits at hu
    split at hu <;> subst hu
    · rename_i hb
      have hn : (UInt16.ofNat c.toNat).toNat = c.toNat := by simp only [UInt16.toNat_ofNat']; omega
      rw [List.singleton_append, unitsChars_cons_bmp, ih]
      · simp [bind, Except.bind, pure, Except.pure, hn]
      · simp only [isHighSurrogate, hn]
        rcases hv with h | h <;> simp <;> omega
      · simp only [isLowSurrogate, hn]
        rcases hv with h | h <;> simp <;> omega
    · rename_i hb
      have h1 : (UInt16.ofNat (0xD800 + (c.toNat - 0x10000) / 0x400)).toNat = 0xD800 + (c.toNat - 0x10000) / 0x400 := by
        simp only [UInt16.toNat_ofNat']; omega
      have h2 : (UInt16.ofNat (0xDC00 + (c.toNat - 0x10000) % 0x400)).toNat = 0xDC00 + (c.toNat - 0x10000) % 0x400 := by
        simp only [UInt16.toNat_ofNat']; omega
      generalize UInt16.ofNat (0xD800 + (c.toNat - 0x10000) / 0x400) = u at *
      generalize UInt16.ofNat (0xDC00 + (c.toNat - 0x10000) % 0x400) = v at *
      have e1 : isHighSurrogate u = true := by simp only [isHighSurrogate, h1]; simp; omega
      have e2 : isLowSurrogate v = true := by simp only [isLowSurrogate, h2]; simp; omega
      simp only [List.cons_append, List.nil_append, unitsChars, e1, e2, if_true, ih, bind, Except.bind, pure, Except.pure,
        Except.ok.injEq, List.cons.injEq, and_true]
      rw [h1, h2]
      have : 0x10000 + (0xD800 + (c.toNat - 0x10000) / 0x400 - 0xD800) * 0x400 +
          (0xDC00 + (c.toNat - 0x10000) % 0x400 - 0xDC00) = c.toNat := by omega
      rw [this]; simp

theorem decode_encode (s : PyStr) : decodeUtf16BE (encodeUtf16BE s) = .ok s := by
  simp only [decodeUtf16BE, encodeUtf16BE, bytesUnits_unitBytes, bind, Except.bind, unitsChars_utf16]

/-- Lists with at least `n` elements. -/
theorem exists_cons_of_le {α : Type} {n : Nat} {l : List α} (h : n + 1 ≤ l.length) : ∃ a l', l = a :: l' ∧ n ≤ l'.length := by
  cases l with
  | nil => simp at h
  | cons a l' => exact ⟨a, l', rfl, by simpa using h⟩

theorem flatMap_unitBytes_length (us : List UInt16) : (us.flatMap unitBytes).length = 2 * us.length := by
  induction us with
  | nil => rfl
  | cons u us ih => simp [List.flatMap_cons, unitBytes, ih]; omega

theorem matchEscape_length {bs g r : Bytes} (h : matchEscape bs = some (g, r)) : 14 ≤ bs.length := by
  unfold matchEscape at h
  split at h
  · rename_i hc
    have := congrArg List.length hc.2.2.2
    simp only [List.length_take, List.length_drop, List.length_cons, List.length_nil] at this
    omega
  · simp at h

theorem matchEscape_aligned {us : List UInt16} {x : Bytes × Bytes} (h : matchEscape (us.flatMap unitBytes) = some x) :
    LooksEscaped us := by
  obtain ⟨g, r⟩ := x
  have hl0 := matchEscape_length h
  rw [flatMap_unitBytes_length] at hl0
  obtain ⟨u0, us, rfl, hl6⟩ := exists_cons_of_le (n := 6) (by omega : 7 ≤ us.length)
  clear hl0
  obtain ⟨u1, us, rfl, hl5⟩ := exists_cons_of_le (n := 5) hl6
  obtain ⟨u2, us, rfl, hl4⟩ := exists_cons_of_le (n := 4) hl5
  obtain ⟨u3, us, rfl, hl3⟩ := exists_cons_of_le (n := 3) hl4
  obtain ⟨u4, us, rfl, hl2⟩ := exists_cons_of_le (n := 2) hl3
  obtain ⟨u5, us, rfl, hl1⟩ := exists_cons_of_le (n := 1) hl2
  obtain ⟨u6, us, rfl, hl0⟩ := exists_cons_of_le (n := 0) hl1
  unfold matchEscape at h
  split at h
  · rename_i hc
    simp [List.flatMap_cons, unitBytes_eq] at hc
    obtain ⟨⟨a1, a2, a3, a4⟩, ⟨b1, b2, b3, b4, b5, b6, b7, b8⟩, c1, c2⟩ := hc
    refine ⟨u2, u3, u4, u5, us, ?_, ?_, ?_, ?_, ?_⟩
    · have e0 : u0 = 0x5F := unit_ext (a1.trans (by decide)) (a2.trans (by decide))
      have e1 : u1 = 0x78 := unit_ext (a3.trans (by decide)) (a4.trans (by decide))
      have e6 : u6 = 0x5F := unit_ext (c1.trans (by decide)) (c2.trans (by decide))
      rw [e0, e1, e6]
    all_goals simp [isWordUnit, isWordByte_eq, *]
  · simp at h

theorem matchEscape_shifted {u0 : UInt16} {us : List UInt16} {x : Bytes × Bytes}
    (h : matchEscape (loByte u0 :: us.flatMap unitBytes) = some x) : LooksEscapedShifted (u0 :: us) := by
  obtain ⟨g, r⟩ := x
  have hl0 := matchEscape_length h
  rw [List.length_cons, flatMap_unitBytes_length] at hl0
  obtain ⟨u1, us, rfl, hl6⟩ := exists_cons_of_le (n := 6) (by omega : 7 ≤ us.length)
  clear hl0
  obtain ⟨u2, us, rfl, hl5⟩ := exists_cons_of_le (n := 5) hl6
  obtain ⟨u3, us, rfl, hl4⟩ := exists_cons_of_le (n := 4) hl5
  obtain ⟨u4, us, rfl, hl3⟩ := exists_cons_of_le (n := 3) hl4
  obtain ⟨u5, us, rfl, hl2⟩ := exists_cons_of_le (n := 2) hl3
  obtain ⟨u6, us, rfl, hl1⟩ := exists_cons_of_le (n := 1) hl2
  obtain ⟨u7, us, rfl, hl0⟩ := exists_cons_of_le (n := 0) hl1
  unfold matchEscape at h
  split at h
  · rename_i hc
    simp [List.flatMap_cons, unitBytes_eq] at hc
    obtain ⟨⟨a1, a2, a3, a4⟩, ⟨b1, b2, b3, b4, b5, b6, b7, b8⟩, c1, c2⟩ := hc
    refine ⟨u0, u2, u3, u4, u5, u6, u7, us, ?_, a1, a4, ?_⟩
    · have e1 : u1 = 0x5F00 := unit_ext (a2.trans (by decide)) (a3.trans (by decide))
      rw [e1]
    · simp [isWordUnit, isWordByte_eq, *]
  · simp at h

theorem matchEscape_shifted_iff (u0 : UInt16) (us : List UInt16) :
    (matchEscape (loByte u0 :: us.flatMap unitBytes)).isSome ↔ LooksEscapedShifted (u0 :: us) := by
  constructor
  · intro h
    obtain ⟨x, hx⟩ := Option.isSome_iff_exists.mp h
    exact matchEscape_shifted hx
  · rintro ⟨v0, u2, u3, u4, u5, u6, u7, rest, he, h⟩
    simp only [List.cons.injEq] at he
    obtain ⟨rfl, rfl⟩ := he
    have e1 : hiByte 0x5F00 = 0x5F := by decide
    have e2 : loByte 0x5F00 = 0 := by decide
    unfold matchEscape
    rw [if_pos]
    · rfl
    · simp only [isWordUnit, isWordByte_eq, Bool.and_eq_true] at h
      simp [List.flatMap_cons, unitBytes_eq, e1, e2, h]

theorem hexValue_lt {c : Char} {n : Nat} (h : hexValue c = some n) : n < 16 := by
  unfold hexValue at h
  split at h
  · rename_i hd
    simp only [Char.isDigit, Bool.and_eq_true, decide_eq_true_eq] at hd
    have h1 : c.toNat ≤ 57 := by simpa using UInt32.le_iff_toNat_le.mp hd.2
    simp only [Option.some.injEq] at h; omega
  · split at h
    · rename_i hd
      have h1 : c.toNat ≤ 102 := by simpa [Char.le_def, UInt32.le_iff_toNat_le] using hd.2
      simp only [Option.some.injEq] at h; omega
    · split at h
      · rename_i hd
        have h1 : c.toNat ≤ 70 := by simpa [Char.le_def, UInt32.le_iff_toNat_le] using hd.2
        simp only [Option.some.injEq] at h; omega
      · simp at h

/-- Hexadecimal digits are ASCII word characters. -/
theorem hexValue_ascii {c : Char} {n : Nat} (h : hexValue c = some n) :
    c.toNat < 128 ∧ c.toNat ≠ 0 ∧ isWordNul (UInt8.ofNat c.toNat) = true := by
  have key : (48 ≤ c.toNat ∧ c.toNat ≤ 57) ∨ (97 ≤ c.toNat ∧ c.toNat ≤ 102) ∨ (65 ≤ c.toNat ∧ c.toNat ≤ 70) := by
    unfold hexValue at h
    split at h
    · rename_i hd
      simp only [Char.isDigit, Bool.and_eq_true, decide_eq_true_eq] at hd
      have h1 : c.toNat ≤ 57 := by simpa using UInt32.le_iff_toNat_le.mp hd.2
      have h2 : 48 ≤ c.toNat := by simpa using UInt32.le_iff_toNat_le.mp hd.1
      omega
    · split at h
      · rename_i hd
        have h1 : c.toNat ≤ 102 := by simpa [Char.le_def, UInt32.le_iff_toNat_le] using hd.2
        have h2 : 97 ≤ c.toNat := by simpa [Char.le_def, UInt32.le_iff_toNat_le] using hd.1
        omega
      · split at h
        · rename_i hd
          have h1 : c.toNat ≤ 70 := by simpa [Char.le_def, UInt32.le_iff_toNat_le] using hd.2
          have h2 : 65 ≤ c.toNat := by simpa [Char.le_def, UInt32.le_iff_toNat_le] using hd.1
          omega
        · simp at h
  refine ⟨by omega, by omega, ?_⟩
  have e : (UInt8.ofNat c.toNat).toNat = c.toNat := by simp only [UInt8.toNat_ofNat']; omega
  simp only [isWordNul, e, Bool.or_eq_true, Bool.and_eq_true, decide_eq_true_eq]
  omega

theorem utf16_ascii {c : Char} (h : c.toNat < 128) : utf16 [c] = [UInt16.ofNat c.toNat] ∧
    hiByte (UInt16.ofNat c.toNat) = 0 ∧ loByte (UInt16.ofNat c.toNat) = UInt8.ofNat c.toNat := by
  have e : (UInt16.ofNat c.toNat).toNat = c.toNat := by simp only [UInt16.toNat_ofNat']; omega
  refine ⟨?_, ?_, ?_⟩
  · simp [utf16, charUnits]; omega
  · simp only [hiByte, e]
    rw [Nat.div_eq_of_lt (by omega)]; rfl
  · simp only [loByte, e]
    rw [Nat.mod_eq_of_lt (by omega)]

theorem utf16_append (a b : PyStr) : utf16 (a ++ b) = utf16 a ++ utf16 b := by simp [utf16]

theorem unhexlify_hex {u : UInt16} {a b c d : Char} (h : IsHexOf u a b c d) :
    unhexlify [a, b, c, d] = .ok (unitBytes u) := by
  obtain ⟨w, x, y, z, ha, hb, hc, hd, hu⟩ := h
  rw [isHexDigit_value] at ha hb hc hd
  have la := hexValue_lt ha
  have lb := hexValue_lt hb
  have lc := hexValue_lt hc
  have ld := hexValue_lt hd
  unfold unhexlify
  rw [if_neg]
  · simp only [unhexlify.go, ha, hb, hc, hd, bind, Except.bind, pure, Except.pure, unitBytes, hu]
    congr 2
    · congr 1; omega
    · congr 2; omega
  · have h1 := (hexValue_ascii ha).1
    have h2 := (hexValue_ascii hb).1
    have h3 := (hexValue_ascii hc).1
    have h4 := (hexValue_ascii hd).1
    simp; omega

theorem matchEscape_piece {u : UInt16} {a b c d : Char} (h : IsHexOf u a b c d) (rest : Bytes) :
    matchEscape ((Piece.esc u a b c d).written.flatMap unitBytes ++ rest) = some (encodeUtf16BE [a, b, c, d], rest) ∧
      deserialReplace (encodeUtf16BE [a, b, c, d]) = .ok (unitBytes u) := by
  have hu := unhexlify_hex h
  obtain ⟨w, x, y, z, ha, hb, hc, hd, -⟩ := h
  rw [isHexDigit_value] at ha hb hc hd
  have ea := utf16_ascii (hexValue_ascii ha).1
  have eb := utf16_ascii (hexValue_ascii hb).1
  have ec := utf16_ascii (hexValue_ascii hc).1
  have ed := utf16_ascii (hexValue_ascii hd).1
  have e4 : utf16 [a, b, c, d] = [UInt16.ofNat a.toNat, UInt16.ofNat b.toNat, UInt16.ofNat c.toNat, UInt16.ofNat d.toNat] := by
    have : ([a, b, c, d] : PyStr) = [a] ++ [b] ++ [c] ++ [d] := rfl
    rw [this, utf16_append, utf16_append, utf16_append, ea.1, eb.1, ec.1, ed.1]; rfl
  refine ⟨?_, ?_⟩
  · simp only [Piece.written, encodeUtf16BE, e4]
    have k1 : hiByte 0x5F = 0 ∧ loByte 0x5F = 0x5F ∧ hiByte 0x78 = 0 ∧ loByte 0x78 = 0x78 := by decide
    simp only [List.cons_append, List.nil_append, List.flatMap_cons, List.flatMap_nil, unitBytes_eq, ea.2, eb.2, ec.2, ed.2, k1]
    unfold matchEscape
    rw [if_pos]
    · simp
    · have k0 : isWordNul 0 = true := by decide
      simp [k0, (hexValue_ascii ha).2.2, (hexValue_ascii hb).2.2, (hexValue_ascii hc).2.2, (hexValue_ascii hd).2.2]
  · simp only [deserialReplace, decode_encode, bind, Except.bind, hu]

theorem unescapeBytes_some {bs g r : Bytes} (h : matchEscape bs = some (g, r)) :
    unescapeBytes bs = (do let v ← deserialReplace g; let x ← unescapeBytes r; return v ++ x) := by
  rw [unescapeBytes]
  split
  · rename_i h2
    rw [h] at h2
    simp only [Option.some.injEq, Prod.mk.injEq] at h2
    obtain ⟨rfl, rfl⟩ := h2
    rfl
  · rename_i h2; rw [h] at h2; simp at h2

theorem unescapeBytes_none {b : UInt8} {bs : Bytes} (h : matchEscape (b :: bs) = none) :
    unescapeBytes (b :: bs) = (do let x ← unescapeBytes bs; return b :: x) := by
  rw [unescapeBytes]
  split
  · rename_i h2; rw [h] at h2; simp at h2
  · rfl

/-- The scanner undoes every unambiguous escaping. -/
theorem unescape_pieces (ps : List Piece) (hv : ∀ p ∈ ps, p.Valid) (hu : Unambiguous ps) :
    unescapeBytes ((ps.flatMap Piece.written).flatMap unitBytes) = .ok ((ps.map Piece.meant).flatMap unitBytes) := by
  induction ps with
  | nil => rw [List.flatMap_nil, List.flatMap_nil, unescapeBytes]; rfl
  | cons p ps ih =>
    cases p with
    | lit u =>
      obtain ⟨h1, h2, h3⟩ := hu
      have ih := ih (fun p hp => hv p (by simp [hp])) h3
      simp only [List.flatMap_cons, Piece.written, List.map_cons, Piece.meant, unitBytes_eq,
        List.cons_append, List.nil_append]
      rw [unescapeBytes_none, unescapeBytes_none, ih]
      · rfl
      · cases hm : matchEscape (loByte u :: (ps.flatMap Piece.written).flatMap unitBytes) with
        | none => rfl
        | some x => exact absurd (matchEscape_shifted hm) h2
      · cases hm : matchEscape (hiByte u :: loByte u :: (ps.flatMap Piece.written).flatMap unitBytes) with
        | none => rfl
        | some x =>
          have : LooksEscaped (u :: ps.flatMap Piece.written) := matchEscape_aligned (x := x) (by
            rw [List.flatMap_cons, unitBytes_eq]; exact hm)
          exact absurd this h1
    | esc u a b c d =>
      have ih := ih (fun p hp => hv p (by simp [hp])) hu
      have hh : IsHexOf u a b c d := hv (.esc u a b c d) (by simp)
      rw [List.flatMap_cons, List.flatMap_append]
      obtain ⟨m1, m2⟩ := matchEscape_piece hh ((ps.flatMap Piece.written).flatMap unitBytes)
      rw [unescapeBytes_some m1, m2, ih]
      rfl

theorem deserialize_pieces {t s : PyStr} {ps : List Piece} (ht : utf16 t = ps.flatMap Piece.written)
    (hs : utf16 s = ps.map Piece.meant) (hv : ∀ p ∈ ps, p.Valid) (hu : Unambiguous ps) :
    deserializeString (some t) = .ok s := by
  have h := unescape_pieces ps hv hu
  rw [← ht, ← hs] at h
  simp only [deserializeString, encodeUtf16BE] at h ⊢
  rw [h]
  exact decode_encode s

end Verif
