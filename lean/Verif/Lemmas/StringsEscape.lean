import Verif.Lemmas.Strings
/-
The client's own escaping as a sequence of pieces.
-/
namespace Verif

/-- The next character makes an underscore need escaping. -/
def nextIsX (s : PyStr) : Prop := s.head? = some 'x' ∨ s.head? = some 'X'

instance (s : PyStr) : Decidable (nextIsX s) := inferInstanceAs (Decidable (_ ∨ _))

theorem subUnderscoreX_cons (c : Char) (cs : PyStr) :
    subUnderscoreX (c :: cs) = (if c = '_' ∧ nextIsX cs then "_x005F_".toList else [c]) ++ subUnderscoreX cs := by
  have hx : ∀ d (ds : PyStr), d ≠ '_' → subUnderscoreX (d :: ds) = d :: subUnderscoreX ds := by
    intro d ds hd
    rw [subUnderscoreX.eq_def]
    split
    · simp_all
    · simp_all
    · simp_all
  by_cases hc : c = '_'
  · subst hc
    cases cs with
    | nil => simp [subUnderscoreX, nextIsX]
    | cons d ds =>
      rw [subUnderscoreX]
      by_cases hd : d = 'x' ∨ d = 'X'
      · rw [if_pos hd, if_pos ⟨rfl, by simpa [nextIsX] using hd⟩, hx d ds (by rcases hd with rfl | rfl <;> decide)]
      · rw [if_neg hd, if_neg (by simpa [nextIsX] using hd)]; rfl
  · rw [hx c cs hc, if_neg (by simp [hc])]; rfl

theorem serialize_nil : serializeString [] = [] := rfl

theorem escapeUnit_hex (n : Nat) (h : n < 65536) : escapeUnit (UInt16.ofNat n) = hexEscape n := by
  have hd : ∀ m, hexDigit (m % 16) = "0123456789ABCDEF".toList.getD (m % 16) '?' := by
    intro m
    have : ∀ k : Fin 16, hexDigit k.val = "0123456789ABCDEF".toList.getD k.val '?' := by decide +kernel
    exact this ⟨m % 16, Nat.mod_lt _ (by decide)⟩
  have hn : (UInt16.ofNat n).toNat = n := by simp only [UInt16.toNat_ofNat']; omega
  have h1 : n / 4096 = n / 4096 % 16 := by omega
  simp only [escapeUnit, hex4, hexEscape, hn, List.map_cons, List.map_nil, Nat.div_one, ← hd]
  rw [← h1]
  rfl

theorem units_escape (c : Char) : (unitsOf c).flatMap hexEscape = (utf16 [c]).flatMap escapeUnit := by
  have hv : c.toNat < 0x110000 := by
    have := c.valid
    rcases this with h | h
    · exact Nat.lt_trans h (by decide)
    · exact h.2
  unfold unitsOf
  simp only [utf16, charUnits, List.flatMap_cons, List.flatMap_nil, List.append_nil]
  split
  · next h => simp only [List.flatMap_cons, List.flatMap_nil, List.append_nil, escapeUnit_hex _ h]
  · next h =>
    simp only [List.flatMap_cons, List.flatMap_nil, List.append_nil]
    rw [escapeUnit_hex _ (by omega), escapeUnit_hex _ (by omega)]

theorem escapedChar_eq (c : Char) (next : Option Char) : escapedChar c next = if c = '_' ∧ (next = some 'x' ∨ next = some 'X') then "_x005F_".toList
    else if c.toNat ≤ 0x1f ∨ (0x7f ≤ c.toNat ∧ c.toNat ≤ 0x9f) ∨ 0x10000 ≤ c.toNat then (utf16 [c]).flatMap escapeUnit
    else [c] := by
  rw [← units_escape]; rfl

theorem serialize_cons (c : Char) (cs : PyStr) : serializeString (c :: cs) = escapedChar c cs.head? ++ serializeString cs := by
  unfold serializeString
  rw [subUnderscoreX_cons, List.flatMap_append]
  congr 1
  rw [escapedChar_eq]
  by_cases h : c = '_' ∧ nextIsX cs
  · rw [if_pos h, if_pos (show c = '_' ∧ (List.head? cs = some 'x' ∨ List.head? cs = some 'X') from h)]; decide
  · rw [if_neg h, if_neg (show ¬ (c = '_' ∧ (List.head? cs = some 'x' ∨ List.head? cs = some 'X')) from h)]
    simp only [List.flatMap_cons, List.flatMap_nil, List.append_nil, inSerialClass, serialReplace, utf16]
    simp only [Bool.or_eq_true, Bool.and_eq_true, decide_eq_true_eq, or_assoc]

/-- An escape with upper case digits. -/
def escOf (u : UInt16) : Piece :=
  .esc u (hexDigit (u.toNat / 4096)) (hexDigit (u.toNat / 256 % 16)) (hexDigit (u.toNat / 16 % 16)) (hexDigit (u.toNat % 16))

theorem hexValue_hexDigit {n : Nat} (h : n < 16) : hexValue (hexDigit n) = some n := by
  have : ∀ m : Fin 16, hexValue (hexDigit m.val) = some m.val := by decide
  exact this ⟨n, h⟩

theorem escOf_valid (u : UInt16) : (escOf u).Valid := by
  have := u.toNat_lt
  have h {n : Nat} (hn : n < 16) := isHexDigit_value.mpr (hexValue_hexDigit hn)
  exact ⟨_, _, _, _, h (by omega), h (by omega), h (by omega), h (by omega), by omega⟩

theorem escOf_written (u : UInt16) : (escOf u).written = utf16 (escapeUnit u) := by
  have e : escapeUnit u = ['_', 'x'] ++ hex4 u ++ ['_'] := rfl
  rw [e, utf16_append, utf16_append]
  rfl

theorem utf16_cons (c : Char) (s : PyStr) : utf16 (c :: s) = utf16 [c] ++ utf16 s := utf16_append [c] s

theorem utf16_bmp {c : Char} (h : c.toNat < 0x10000) : utf16 [c] = [UInt16.ofNat c.toNat] := by
  simp [utf16, charUnits, h]

theorem utf16_escapes (us : List UInt16) : utf16 (us.flatMap escapeUnit) = (us.map escOf).flatMap Piece.written := by
  induction us with
  | nil => rfl
  | cons u us ih => rw [List.flatMap_cons, utf16_append, ih, List.map_cons, List.flatMap_cons, escOf_written]

/-- The pieces the client writes for one character. -/
def charPieces (c : Char) (cs : PyStr) : List Piece :=
  if c = '_' ∧ nextIsX cs then [escOf 0x5F]
  else if inSerialClass c then (charUnits c).map escOf
  else (charUnits c).map .lit

/-- The pieces the client writes for a string. -/
def piecesOf : PyStr → List Piece
  | [] => []
  | c :: cs => charPieces c cs ++ piecesOf cs

/-- The code units the client writes. -/
def writtenOf (s : PyStr) : List UInt16 := (piecesOf s).flatMap Piece.written

theorem notSerial_bmp {c : Char} (h : inSerialClass c = false) : c.toNat < 0x10000 ∧ 0 < c.toNat := by
  simp [inSerialClass] at h; omega

/-- A character is written literally or as escapes. -/
theorem charPieces_cases (c : Char) (cs : PyStr) :
    (¬ (c = '_' ∧ nextIsX cs) ∧ inSerialClass c = false ∧ charPieces c cs = [.lit (UInt16.ofNat c.toNat)]) ∨
    ∃ u us, charPieces c cs = escOf u :: us.map escOf ∧ charUnits c = u :: us ∧ (c = '_' ∧ nextIsX cs ∨ inSerialClass c = true) := by
  unfold charPieces
  by_cases h : c = '_' ∧ nextIsX cs
  · rw [if_pos h]
    right
    exact ⟨0x5F, [], rfl, by rw [h.1]; decide, .inl h⟩
  · rw [if_neg h]
    by_cases h2 : inSerialClass c = true
    · rw [if_pos h2]
      right
      unfold charUnits
      split
      · exact ⟨_, [], rfl, rfl, .inr h2⟩
      · exact ⟨_, [_], rfl, rfl, .inr h2⟩
    · rw [if_neg h2]
      left
      have h3 : inSerialClass c = false := by simpa using h2
      refine ⟨h, h3, ?_⟩
      simp [charUnits, (notSerial_bmp h3).1]

theorem escapedChar_written (c : Char) (cs : PyStr) :
    utf16 (escapedChar c cs.head?) = (charPieces c cs).flatMap Piece.written := by
  rw [escapedChar_eq]
  unfold charPieces
  by_cases h : c = '_' ∧ nextIsX cs
  · rw [if_pos (show c = '_' ∧ (List.head? cs = some 'x' ∨ List.head? cs = some 'X') from h), if_pos h]; decide
  · rw [if_neg (show ¬ (c = '_' ∧ (List.head? cs = some 'x' ∨ List.head? cs = some 'X')) from h), if_neg h]
    by_cases h2 : inSerialClass c = true
    · rw [if_pos (by simpa [inSerialClass, or_assoc] using h2), if_pos h2, utf16_escapes]
      simp [utf16]
    · rw [if_neg (by simpa [inSerialClass, or_assoc] using h2), if_neg h2]
      simp only [utf16, List.flatMap_cons, List.flatMap_nil, List.append_nil]
      generalize charUnits c = us
      induction us with
      | nil => rfl
      | cons u us ih => simp only [List.map_cons, List.flatMap_cons, ← ih]; rfl

theorem utf16_serialize (s : PyStr) : utf16 (serializeString s) = writtenOf s := by
  induction s with
  | nil => rfl
  | cons c cs ih =>
    rw [serialize_cons, utf16_append, ih, escapedChar_written]
    simp [writtenOf, piecesOf]

theorem meant_piecesOf (s : PyStr) : (piecesOf s).map Piece.meant = utf16 s := by
  induction s with
  | nil => rfl
  | cons c cs ih =>
    rw [utf16_cons, piecesOf, List.map_append, ih]
    congr 1
    rcases charPieces_cases c cs with ⟨-, h, e⟩ | ⟨u, us, e, hu, -⟩
    · rw [e, utf16_bmp (notSerial_bmp h).1]; rfl
    · rw [e]
      simp only [utf16, List.flatMap_cons, List.flatMap_nil, List.append_nil, hu, List.map_cons, List.map_map]
      congr 1
      have : Piece.meant ∘ escOf = id := by funext u; rfl
      rw [this, List.map_id]

theorem valid_piecesOf (s : PyStr) : ∀ p ∈ piecesOf s, p.Valid := by
  induction s with
  | nil => intro p hp; simp [piecesOf] at hp
  | cons c cs ih =>
    intro p hp
    rw [piecesOf, List.mem_append] at hp
    rcases hp with hp | hp
    · rcases charPieces_cases c cs with ⟨-, h, e⟩ | ⟨u, us, e, hu, -⟩
      · rw [e] at hp; simp only [List.mem_singleton] at hp; subst hp; trivial
      · rw [e, ← List.map_cons (f := escOf), List.mem_map] at hp
        obtain ⟨v, -, rfl⟩ := hp
        exact escOf_valid v
    · exact ih p hp

/-- The first written unit: a literal character, or the start of an escape. -/
theorem writtenOf_head {s : PyStr} {u : UInt16} {us : List UInt16} (h : writtenOf s = u :: us) :
    (∃ c cs, s = c :: cs ∧ ¬ (c = '_' ∧ nextIsX cs) ∧ inSerialClass c = false ∧ u = UInt16.ofNat c.toNat ∧
      us = writtenOf cs) ∨
    (∃ h0 h1 h2 h3 us', u = 0x5F ∧ us = 0x78 :: h0 :: h1 :: h2 :: h3 :: 0x5F :: us' ∧
      loByte h0 ≠ 0 ∧ loByte h1 ≠ 0 ∧ loByte h2 ≠ 0 ∧ loByte h3 ≠ 0) := by
  cases s with
  | nil => simp [writtenOf, piecesOf] at h
  | cons c cs =>
    rw [writtenOf, piecesOf, List.flatMap_append] at h
    rcases charPieces_cases c cs with ⟨h1, h2, e⟩ | ⟨v, vs, e, hu, -⟩
    · left
      rw [e] at h
      simp only [List.flatMap_cons, List.flatMap_nil, List.append_nil, Piece.written, List.cons_append, List.nil_append,
        List.cons.injEq] at h
      exact ⟨c, cs, rfl, h1, h2, h.1.symm, h.2.symm⟩
    · right
      rw [e] at h
      have hd : ∀ n, n < 16 → ∃ x, utf16 [hexDigit n] = [x] ∧ loByte x ≠ 0 := by
        intro n hn
        have a := hexValue_ascii (hexValue_hexDigit hn)
        have b := utf16_ascii a.1
        refine ⟨_, b.1, ?_⟩
        rw [b.2.2]
        intro hz
        have := congrArg UInt8.toNat hz
        simp only [UInt8.toNat_ofNat'] at this
        have : (0 : UInt8).toNat = 0 := rfl
        omega
      have hlt := v.toNat_lt
      obtain ⟨x0, e0, n0⟩ := hd (v.toNat / 4096) (by omega)
      obtain ⟨x1, e1, n1⟩ := hd (v.toNat / 256 % 16) (by omega)
      obtain ⟨x2, e2, n2⟩ := hd (v.toNat / 16 % 16) (by omega)
      obtain ⟨x3, e3, n3⟩ := hd (v.toNat % 16) (by omega)
      refine ⟨x0, x1, x2, x3, (vs.map escOf).flatMap Piece.written ++ (piecesOf cs).flatMap Piece.written, ?_⟩
      have ew : (escOf v).written = [0x5F, 0x78, x0, x1, x2, x3, 0x5F] := by
        rw [escOf, Piece.written, utf16_cons, utf16_cons (hexDigit (v.toNat / 256 % 16)), utf16_cons (hexDigit (v.toNat / 16 % 16)),
          e0, e1, e2, e3]
        rfl
      rw [List.flatMap_cons, ew] at h
      simp only [List.cons_append, List.nil_append, List.cons.injEq] at h
      exact ⟨h.1.symm, by rw [← h.2], n0, n1, n2, n3⟩

theorem not_looksEscaped {c : Char} {cs : PyStr} (h : ¬ (c = '_' ∧ nextIsX cs)) (h2 : inSerialClass c = false) :
    ¬ LooksEscaped (UInt16.ofNat c.toNat :: writtenOf cs) := by
  rintro ⟨a, b, d, e, rest, he, -⟩
  simp only [List.cons.injEq] at he
  have hc : c = '_' := by
    have := congrArg UInt16.toNat he.1
    simp only [UInt16.toNat_ofNat'] at this
    have hb := (notSerial_bmp h2).1
    have h5 : (0x5F : UInt16).toNat = 95 := rfl
    exact Char.toNat_inj.mp (by show c.toNat = 95; omega)
  rcases writtenOf_head he.2 with ⟨d, ds, rfl, -, hs, hu, -⟩ | ⟨_, _, _, _, _, hu, -⟩
  · have hd : d = 'x' := by
      have := congrArg UInt16.toNat hu
      simp only [UInt16.toNat_ofNat'] at this
      have hb := (notSerial_bmp hs).1
      have h5 : (0x78 : UInt16).toNat = 120 := rfl
      exact Char.toNat_inj.mp (by show d.toNat = 120; omega)
    exact h ⟨hc, by simp [nextIsX, hd]⟩
  · exact absurd hu (by decide)

theorem shifted_chars {c : Char} {cs : PyStr} (h : ¬ (c = '_' ∧ nextIsX cs)) (h2 : inSerialClass c = false)
    (hl : LooksEscapedShifted (UInt16.ofNat c.toNat :: writtenOf cs)) :
    ShiftedPattern (c :: cs) ∧ ∃ c7 cs7, cs = cs.take 6 ++ c7 :: cs7 ∧ cs.length ≥ 7 ∧
      ¬ (c7 = '_' ∧ nextIsX cs7) ∧ inSerialClass c7 = false ∧ piecesOf cs =
      (cs.take 7).map (fun c => Piece.lit (UInt16.ofNat c.toNat)) ++ piecesOf cs7 := by
  obtain ⟨u0, u2, u3, u4, u5, u6, u7, rest, he, k0, k2, k2', k3, k4, k5, k6, k6', k7⟩ := hl
  simp only [List.cons.injEq] at he
  obtain ⟨rfl, he⟩ := he
  have hlit : ∀ {d : Char} {ds : PyStr}, ¬ (d = '_' ∧ nextIsX ds) → inSerialClass d = false →
      piecesOf (d :: ds) = .lit (UInt16.ofNat d.toNat) :: piecesOf ds := by
    intro d ds hd1 hd2
    rcases charPieces_cases d ds with ⟨-, -, e⟩ | ⟨_, _, -, -, hx⟩
    · rw [piecesOf, e]; rfl
    · rcases hx with hx | hx
      · exact absurd hx hd1
      · rw [hd2] at hx; simp at hx
  rcases writtenOf_head he with ⟨c1, cs1, rfl, a1, b1, v1, he1⟩ | ⟨_, _, _, _, _, hu, -⟩
  rotate_left
  · exact absurd hu (by decide)
  rcases writtenOf_head he1.symm with ⟨c2, cs2, rfl, a2, b2, v2, he2⟩ | ⟨_, _, _, _, _, hu, -⟩
  rotate_left
  · rw [hu] at k2; exact absurd k2 (by decide)
  rcases writtenOf_head he2.symm with ⟨c3, cs3, rfl, a3, b3, v3, he3⟩ | ⟨_, _, _, _, _, -, hu, n0, n1, -⟩
  rotate_left
  · simp only [List.cons.injEq] at hu; exact absurd (hu.2.2.1 ▸ k6') n1
  rcases writtenOf_head he3.symm with ⟨c4, cs4, rfl, a4, b4, v4, he4⟩ | ⟨_, _, _, _, _, -, hu, n0, n1, -⟩
  rotate_left
  · simp only [List.cons.injEq] at hu; exact absurd (hu.2.1 ▸ k6') n0
  rcases writtenOf_head he4.symm with ⟨c5, cs5, rfl, a5, b5, v5, he5⟩ | ⟨_, _, _, _, _, -, hu, -⟩
  rotate_left
  · simp only [List.cons.injEq] at hu; rw [hu.1] at k6'; exact absurd k6' (by decide)
  rcases writtenOf_head he5.symm with ⟨c6, cs6, rfl, a6, b6, v6, he6⟩ | ⟨_, _, _, _, _, hu, -⟩
  rotate_left
  · rw [hu] at k6'; exact absurd k6' (by decide)
  rcases writtenOf_head he6.symm with ⟨c7, cs7, rfl, a7, b7, v7, he7⟩ | ⟨_, _, _, _, _, hu, -⟩
  rotate_left
  · rw [hu] at k7; exact absurd k7 (by decide)
  refine ⟨⟨?_, ?_, ?_⟩, c7, cs7, by simp, by simp, a7, b7, ?_⟩
  · intro d hd
    simp only [List.take_succ_cons, List.take_zero, List.mem_cons, List.not_mem_nil, or_false] at hd
    rcases hd with rfl | rfl | rfl | rfl | rfl | rfl | rfl | rfl
    · exact (notSerial_bmp h2).symm
    · exact (notSerial_bmp b1).symm
    · exact (notSerial_bmp b2).symm
    · exact (notSerial_bmp b3).symm
    · exact (notSerial_bmp b4).symm
    · exact (notSerial_bmp b5).symm
    · exact (notSerial_bmp b6).symm
    · exact (notSerial_bmp b7).symm
  · intro a b rest' hab
    have key : ∀ {d e : Char} {es : PyStr}, ¬ (d = '_' ∧ nextIsX (e :: es)) → d = '_' → e ≠ 'x' ∧ e ≠ 'X' := by
      intro d e es hn hd
      constructor
      · rintro rfl; exact hn ⟨hd, by simp [nextIsX]⟩
      · rintro rfl; exact hn ⟨hd, by simp [nextIsX]⟩
    simp only [List.take_succ_cons, List.take_zero] at hab
    match a, hab with
    | [], hab => simp only [List.nil_append, List.cons.injEq] at hab; exact hab.2.1 ▸ key h hab.1
    | [_], hab => simp only [List.cons_append, List.nil_append, List.cons.injEq] at hab; exact hab.2.2.1 ▸ key a1 hab.2.1
    | [_, _], hab => simp only [List.cons_append, List.nil_append, List.cons.injEq] at hab; exact hab.2.2.2.1 ▸ key a2 hab.2.2.1
    | [_, _, _], hab => simp only [List.cons_append, List.nil_append, List.cons.injEq] at hab; exact hab.2.2.2.2.1 ▸ key a3 hab.2.2.2.1
    | [_, _, _, _], hab => simp only [List.cons_append, List.nil_append, List.cons.injEq] at hab; exact hab.2.2.2.2.2.1 ▸ key a4 hab.2.2.2.2.1
    | [_, _, _, _, _], hab => simp only [List.cons_append, List.nil_append, List.cons.injEq] at hab; exact hab.2.2.2.2.2.2.1 ▸ key a5 hab.2.2.2.2.2.1
    | [_, _, _, _, _, _], hab => simp only [List.cons_append, List.nil_append, List.cons.injEq] at hab; exact hab.2.2.2.2.2.2.2.1 ▸ key a6 hab.2.2.2.2.2.2.1
    | _ :: _ :: _ :: _ :: _ :: _ :: _ :: l, hab =>
      have := congrArg List.length hab
      simp at this; omega
  · have : utf16 ((c :: c1 :: c2 :: c3 :: c4 :: c5 :: c6 :: c7 :: cs7).take 8) =
        [UInt16.ofNat c.toNat, 0x5F00, u2, u3, u4, u5, u6, u7] := by
      simp only [List.take_succ_cons, List.take_zero]
      rw [utf16_cons, utf16_cons c1, utf16_cons c2, utf16_cons c3, utf16_cons c4, utf16_cons c5, utf16_cons c6,
        utf16_bmp (notSerial_bmp h2).1, utf16_bmp (notSerial_bmp b1).1, utf16_bmp (notSerial_bmp b2).1,
        utf16_bmp (notSerial_bmp b3).1, utf16_bmp (notSerial_bmp b4).1, utf16_bmp (notSerial_bmp b5).1,
        utf16_bmp (notSerial_bmp b6).1, utf16_bmp (notSerial_bmp b7).1, v1, v2, v3, v4, v5, v6, v7]
      rfl
    exact ⟨_, u2, u3, u4, u5, u6, u7, [], this, k0, k2, k2', k3, k4, k5, k6, k6', k7⟩
  · rw [hlit a1 b1, hlit a2 b2, hlit a3 b3, hlit a4 b4, hlit a5 b5, hlit a6 b6, hlit a7 b7]; rfl

theorem hasShifted_cons {c : Char} {cs : PyStr} (h : HasShiftedPattern cs) : HasShiftedPattern (c :: cs) := by
  obtain ⟨n, hn⟩ := h
  exact ⟨n + 1, by simpa using hn⟩

theorem unambiguous_piecesOf {s : PyStr} (h : ¬ HasShiftedPattern s) : Unambiguous (piecesOf s) := by
  induction s with
  | nil => trivial
  | cons c cs ih =>
    have ih := ih (fun hc => h (hasShifted_cons hc))
    rw [piecesOf]
    rcases charPieces_cases c cs with ⟨h1, h2, e⟩ | ⟨u, us, e, -, -⟩
    · rw [e]
      refine ⟨not_looksEscaped h1 h2, ?_, ih⟩
      intro hl
      exact h ⟨0, (shifted_chars h1 h2 hl).1⟩
    · rw [e, ← List.map_cons (f := escOf)]
      generalize u :: us = vs
      induction vs with
      | nil => exact ih
      | cons v vs ih2 => exact ih2

end Verif
