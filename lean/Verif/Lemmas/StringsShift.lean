import Verif.Lemmas.StringsEscape
/-
What happens to a string that contains the shifted pattern: the decoded bytes are too few.
-/
namespace Verif

theorem char_toNat_ofNat {n : Nat} (h : n.isValidChar) : (Char.ofNat n).toNat = n := by
  unfold Char.ofNat
  rw [dif_pos h]
  simp [Char.ofNatAux, Char.toNat]

theorem except_bind_ok {ε α β : Type} {x : Except ε α} {f : α → Except ε β} {b : β} (h : x.bind f = .ok b) :
    ∃ a, x = .ok a ∧ f a = .ok b := by
  cases x with
  | error e => simp [Except.bind] at h
  | ok a => exact ⟨a, rfl, h⟩

theorem unhexlify_go_length (s : PyStr) (r : Bytes) (h : unhexlify.go s = .ok r) : 2 * r.length = s.length := by
  fun_induction unhexlify.go s generalizing r with
  | case1 => simp only [Except.ok.injEq] at h; subst h; rfl
  | case2 => simp at h
  | case3 a b cs x y hx hy ih =>
    obtain ⟨r', h1, h2⟩ := except_bind_ok h
    simp only [pure, Except.pure, Except.ok.injEq] at h2
    subst h2
    have := ih r' h1
    simp only [List.length_cons]; omega
  | case4 => simp at h

theorem deserialReplace_length {g v : Bytes} (hg : g.length = 8) (h : deserialReplace g = .ok v) :
    v.length ≤ 2 := by
  obtain ⟨s, h1, h2⟩ := except_bind_ok h
  obtain ⟨us, h3, h4⟩ := except_bind_ok h1
  have hl : us.length = 4 := by
    match g, hg with
    | [a, b, c, d, e, f, i, j], _ =>
      simp only [bytesUnits, bind, Except.bind, pure, Except.pure, Except.ok.injEq] at h3
      subst h3; rfl
  have hs : s.length ≤ us.length ∧ us.length ≤ 2 * s.length := by
    clear h2 h3 hl h1
    fun_induction unitsChars us generalizing s with
    | case1 => simp only [Except.ok.injEq] at h4; subst h4; simp
    | case2 => simp at h4
    | case3 => simp only [Except.ok.injEq] at h4; subst h4; simp
    | case4 u v us h1 h2 ih =>
      obtain ⟨cs, h5, h6⟩ := except_bind_ok h4
      simp only [pure, Except.pure, Except.ok.injEq] at h6
      subst h6
      have := ih cs h5
      simp only [List.length_cons]; omega
    | case5 => simp at h4
    | case6 => simp at h4
    | case7 u v us h1 h2 ih =>
      obtain ⟨cs, h5, h6⟩ := except_bind_ok h4
      simp only [pure, Except.pure, Except.ok.injEq] at h6
      subst h6
      have := ih cs h5
      simp only [List.length_cons] at this ⊢; omega
  unfold unhexlify at h2
  split at h2
  · simp at h2
  · have := unhexlify_go_length _ _ h2
    omega


theorem matchEscape_parts {bs g r : Bytes} (h : matchEscape bs = some (g, r)) : g.length = 8 ∧ r = bs.drop 14 := by
  unfold matchEscape at h
  split at h
  · rename_i hc
    simp only [Option.some.injEq, Prod.mk.injEq] at h
    exact ⟨h.1 ▸ hc.2.1, h.2.symm⟩
  · simp at h

/-- Number of pieces, in bytes of the meant string. -/
def meantBytes (s : PyStr) : Nat := 2 * (piecesOf s).length

theorem unescape_match_length {bs g r x : Bytes} (h : matchEscape bs = some (g, r)) (hx : unescapeBytes bs = .ok x) :
    ∃ y, unescapeBytes (bs.drop 14) = .ok y ∧ x.length ≤ 2 + y.length := by
  rw [unescapeBytes_some h] at hx
  obtain ⟨v, h1, hx1⟩ := except_bind_ok hx
  obtain ⟨y, h2, hx2⟩ := except_bind_ok hx1
  obtain ⟨hg, hr⟩ := matchEscape_parts h
  simp only [pure, Except.pure, Except.ok.injEq] at hx2
  refine ⟨y, hr ▸ h2, ?_⟩
  rw [← hx2, List.length_append]
  have := deserialReplace_length hg h1
  omega

theorem unescape_skip_length {b : UInt8} {bs x : Bytes} (h : matchEscape (b :: bs) = none) (hx : unescapeBytes (b :: bs) = .ok x) :
    ∃ y, unescapeBytes bs = .ok y ∧ x = b :: y := by
  rw [unescapeBytes_none h] at hx
  obtain ⟨y, h2, hx⟩ := except_bind_ok hx
  simp only [pure, Except.pure, Except.ok.injEq] at hx
  exact ⟨y, h2, hx.symm⟩

/-- An escape piece is decoded to two bytes. -/
theorem unescape_escs (us : List UInt16) (rest x : Bytes)
    (hx : unescapeBytes (((us.map escOf).flatMap Piece.written).flatMap unitBytes ++ rest) = .ok x) :
    ∃ y, unescapeBytes rest = .ok y ∧ x.length = 2 * us.length + y.length := by
  induction us generalizing x with
  | nil => exact ⟨x, by simpa using hx, by simp⟩
  | cons u us ih =>
    rw [List.map_cons, List.flatMap_cons, List.flatMap_append, List.append_assoc] at hx
    have hm := matchEscape_piece (escOf_valid u) (((us.map escOf).flatMap Piece.written).flatMap unitBytes ++ rest)
    rw [show (Piece.esc u (hexDigit (u.toNat / 4096)) (hexDigit (u.toNat / 256 % 16)) (hexDigit (u.toNat / 16 % 16))
      (hexDigit (u.toNat % 16))) = escOf u from rfl] at hm
    rw [unescapeBytes_some hm.1, hm.2] at hx
    obtain ⟨y, h2, hx⟩ := except_bind_ok hx
    obtain ⟨z, h3, hx⟩ := except_bind_ok hx
    simp only [pure, Except.pure, Except.ok.injEq] at h2 hx
    obtain ⟨w, h4, h5⟩ := ih z h3
    refine ⟨w, h4, ?_⟩
    rw [← hx, ← h2, List.length_append]
    simp [unitBytes]; omega

theorem writtenOf_cons (c : Char) (cs : PyStr) : writtenOf (c :: cs) = (charPieces c cs).flatMap Piece.written ++ writtenOf cs := by
  simp [writtenOf, piecesOf]

/-- The bytes that follow a shifted match. -/
theorem drop_shifted {u : UInt16} {cs cs7 : PyStr} {c7 : Char} (h : cs = cs.take 6 ++ c7 :: cs7) (hl : cs.length ≥ 7)
    (hp : piecesOf cs = (cs.take 7).map (fun c => Piece.lit (UInt16.ofNat c.toNat)) ++ piecesOf cs7) :
    (loByte u :: (writtenOf cs).flatMap unitBytes).drop 14 = loByte (UInt16.ofNat c7.toNat) :: (writtenOf cs7).flatMap unitBytes := by
  have hw : writtenOf cs = (cs.take 7).map (fun c => UInt16.ofNat c.toNat) ++ writtenOf cs7 := by
    rw [writtenOf, hp, List.flatMap_append]
    congr 1
    generalize cs.take 7 = l
    induction l with
    | nil => rfl
    | cons a l ih => rw [List.map_cons, List.flatMap_cons, ih]; rfl
  have ht : cs.take 7 = cs.take 6 ++ [c7] := by
    conv => lhs; rw [h]
    rw [List.take_append]
    simp only [List.length_take]
    rw [show 7 - min 6 cs.length = 1 by omega, List.take_of_length_le (by simp; omega)]
    rfl
  have h6 : (cs.take 6).length = 6 := by simp; omega
  rw [hw, ht]
  generalize cs.take 6 = l at h6
  match l, h6 with
  | [a, b, c, d, e, f], _ => rfl

/-- Decoding never gives more bytes than were meant, even when it starts in the middle of a code unit. -/
theorem unescape_le (n : Nat) : ∀ (s : PyStr), s.length ≤ n →
    (∀ x, unescapeBytes ((writtenOf s).flatMap unitBytes) = .ok x → x.length ≤ meantBytes s) ∧
    (∀ c x, ¬ (c = '_' ∧ nextIsX s) → inSerialClass c = false →
      unescapeBytes (loByte (UInt16.ofNat c.toNat) :: (writtenOf s).flatMap unitBytes) = .ok x → x.length ≤ 1 + meantBytes s) := by
  induction n with
  | zero =>
    intro s hs
    have : s = [] := List.eq_nil_of_length_eq_zero (by omega)
    subst this
    constructor
    · intro x hx
      rw [show (writtenOf []).flatMap unitBytes = [] from rfl, unescapeBytes] at hx
      have : x = [] := by simpa [matchEscape] using hx.symm
      subst this; simp
    · intro c x _ _ hx
      cases hm : matchEscape (loByte (UInt16.ofNat c.toNat) :: (writtenOf []).flatMap unitBytes) with
      | some p =>
        have := matchEscape_length (g := p.1) (r := p.2) hm
        simp [writtenOf, piecesOf] at this
      | none =>
        obtain ⟨y, hy, rfl⟩ := unescape_skip_length hm hx
        rw [show (writtenOf []).flatMap unitBytes = [] from rfl, unescapeBytes] at hy
        have : y = [] := by simpa [matchEscape] using hy.symm
        subst this; simp
  | succ n ih =>
    intro s hs
    have hE : ∀ x, unescapeBytes ((writtenOf s).flatMap unitBytes) = .ok x → x.length ≤ meantBytes s := by
      intro x hx
      cases s with
      | nil => exact (ih [] (by simp)).1 x hx
      | cons d ds =>
        have hds : ds.length ≤ n := by simpa using hs
        rw [writtenOf_cons] at hx
        rcases charPieces_cases d ds with ⟨h1, h2, e⟩ | ⟨u, us, e, -, -⟩
        · rw [e] at hx
          simp only [List.flatMap_cons, List.flatMap_nil, List.append_nil, Piece.written, List.cons_append, List.nil_append,
            unitBytes_eq] at hx
          cases hm : matchEscape (hiByte (UInt16.ofNat d.toNat) :: loByte (UInt16.ofNat d.toNat) :: (writtenOf ds).flatMap unitBytes) with
          | some p => exact absurd (matchEscape_aligned (us := UInt16.ofNat d.toNat :: writtenOf ds) hm) (not_looksEscaped h1 h2)
          | none =>
            obtain ⟨y, hy, rfl⟩ := unescape_skip_length hm hx
            have := (ih ds hds).2 d y h1 h2 hy
            simp only [meantBytes, piecesOf, e, List.length_cons, List.length_append, List.length_nil] at this ⊢
            omega
        · rw [e, ← List.map_cons (f := escOf), List.flatMap_append] at hx
          obtain ⟨y, hy, hl⟩ := unescape_escs _ _ _ hx
          have := (ih ds hds).1 y hy
          simp only [meantBytes, piecesOf, e, List.length_cons, List.length_append, List.length_map] at this hl ⊢
          omega
    refine ⟨hE, ?_⟩
    intro c x h1 h2 hx
    cases hm : matchEscape (loByte (UInt16.ofNat c.toNat) :: (writtenOf s).flatMap unitBytes) with
    | none =>
      obtain ⟨y, hy, rfl⟩ := unescape_skip_length hm hx
      have := hE y hy
      simp only [List.length_cons]; omega
    | some p =>
      obtain ⟨-, c7, cs7, hc, hl, a7, b7, hp⟩ := shifted_chars h1 h2 (matchEscape_shifted hm)
      obtain ⟨y, hy, hle⟩ := unescape_match_length (g := p.1) (r := p.2) hm hx
      rw [drop_shifted hc hl hp] at hy
      have hlen : cs7.length ≤ n := by
        have := congrArg List.length hc
        simp only [List.length_append, List.length_cons] at this
        omega
      have := (ih cs7 hlen).2 c7 y a7 b7 hy
      have hk : (s.take 7).length = 7 := by simp; omega
      simp only [meantBytes, hp, List.length_append, List.length_map, hk] at this ⊢
      omega

/-- The characters of a shifted pattern are written as they are. -/
theorem shiftedPattern_unescaped {c : Char} {cs : PyStr} (h : ShiftedPattern (c :: cs)) :
    ¬ (c = '_' ∧ nextIsX cs) ∧ inSerialClass c = false ∧ LooksEscapedShifted (UInt16.ofNat c.toNat :: writtenOf cs) := by
  obtain ⟨hb, hx, u0, u2, u3, u4, u5, u6, u7, rest, he, k0, k2, k2', k3, k4, k5, k6, k6', k7⟩ := h
  have hlen : (utf16 ((c :: cs).take 8)).length = ((c :: cs).take 8).length := by
    generalize (c :: cs).take 8 = l at hb
    clear he hx
    induction l with
    | nil => rfl
    | cons a l ih =>
      rw [utf16_cons, utf16_bmp (hb a (by simp)).2, List.length_append, ih (fun d hd => hb d (by simp [hd]))]
      simp; omega
  have hl8 : ((c :: cs).take 8).length = 8 := by
    rw [he] at hlen
    simp only [List.length_cons, List.length_take] at hlen ⊢
    omega
  obtain ⟨c1, t1, rfl, hl1⟩ := exists_cons_of_le (n := 6) (l := cs) (by simp at hl8; omega)
  obtain ⟨c2, t2, rfl, hl2⟩ := exists_cons_of_le (n := 5) hl1
  obtain ⟨c3, t3, rfl, hl3⟩ := exists_cons_of_le (n := 4) hl2
  obtain ⟨c4, t4, rfl, hl4⟩ := exists_cons_of_le (n := 3) hl3
  obtain ⟨c5, t5, rfl, hl5⟩ := exists_cons_of_le (n := 2) hl4
  obtain ⟨c6, t6, rfl, hl6⟩ := exists_cons_of_le (n := 1) hl5
  obtain ⟨c7, t7, rfl, -⟩ := exists_cons_of_le (n := 0) hl6
  simp only [List.take_succ_cons, List.take_zero] at he hb hx
  have b0 := hb c (by simp)
  have b1 := hb c1 (by simp)
  have b2 := hb c2 (by simp)
  have b3 := hb c3 (by simp)
  have b4 := hb c4 (by simp)
  have b5 := hb c5 (by simp)
  have b6 := hb c6 (by simp)
  have b7 := hb c7 (by simp)
  rw [utf16_cons, utf16_cons c1, utf16_cons c2, utf16_cons c3, utf16_cons c4, utf16_cons c5, utf16_cons c6,
    utf16_bmp b0.2, utf16_bmp b1.2, utf16_bmp b2.2, utf16_bmp b3.2, utf16_bmp b4.2, utf16_bmp b5.2, utf16_bmp b6.2,
    utf16_bmp b7.2] at he
  simp only [List.cons_append, List.nil_append, List.cons.injEq] at he
  obtain ⟨e0, e1, e2, e3, e4, e5, e6, e7, -⟩ := he
  have hi : ∀ {d : Char}, d.toNat < 0x10000 → (hiByte (UInt16.ofNat d.toNat)).toNat = d.toNat / 256 := by
    intro d hd
    simp only [hiByte, UInt16.toNat_ofNat', UInt8.toNat_ofNat']; omega
  have lo : ∀ {d : Char}, d.toNat < 0x10000 → (loByte (UInt16.ofNat d.toNat)).toNat = d.toNat % 256 := by
    intro d hd
    simp only [loByte, UInt16.toNat_ofNat', UInt8.toNat_ofNat']; omega
  have wn : ∀ {b : UInt8}, isWordByte b = true → b.toNat = 0 ∨ (48 ≤ b.toNat ∧ b.toNat ≤ 122) := by
    intro b h
    simp only [isWordByte_eq, isWordNul, Bool.or_eq_true, Bool.and_eq_true, decide_eq_true_eq] at h
    omega
  have ser : ∀ {d : Char}, (0x20 ≤ d.toNat ∧ d.toNat < 0x7f ∨ 0xa0 ≤ d.toNat ∧ d.toNat < 0x10000) → inSerialClass d = false := by
    intro d h
    simp only [inSerialClass, Bool.or_eq_false_iff, Bool.and_eq_false_iff, decide_eq_false_iff_not]
    omega
  have s0 : inSerialClass c = false := by
    have := lo b0.2; rw [e0, k0] at this
    have z : (0 : UInt8).toNat = 0 := rfl
    exact ser (by omega)
  have s1 : inSerialClass c1 = false := by
    have := hi b1.2; rw [e1] at this
    have z : (hiByte 0x5F00).toNat = 0x5F := by decide
    exact ser (by omega)
  have s2 : inSerialClass c2 = false := by
    have := hi b2.2; rw [e2, k2] at this
    have z : (0x78 : UInt8).toNat = 0x78 := rfl
    exact ser (by omega)
  have word : ∀ {d : Char} {u : UInt16}, 0 < d.toNat ∧ d.toNat < 0x10000 → UInt16.ofNat d.toNat = u → isWordUnit u = true →
      inSerialClass d = false := by
    intro d u hd hu hw
    subst hu
    simp only [isWordUnit, Bool.and_eq_true] at hw
    have h1 := wn hw.1
    have h2 := wn hw.2
    rw [hi hd.2] at h1
    rw [lo hd.2] at h2
    exact ser (by omega)
  have s3 := word b3 e3 k3
  have s4 := word b4 e4 k4
  have s5 := word b5 e5 k5
  have s6 : inSerialClass c6 = false := by
    have := lo b6.2; rw [e6, k6'] at this
    have z : (0 : UInt8).toNat = 0 := rfl
    exact ser (by omega)
  have s7 : inSerialClass c7 = false := by
    have := hi b7.2; rw [e7, k7] at this
    have z : (0x5F : UInt8).toNat = 0x5F := rfl
    exact ser (by omega)
  have nx : ∀ {d e : Char} {es : PyStr} (a rest : PyStr), [c, c1, c2, c3, c4, c5, c6, c7] = a ++ d :: e :: rest →
      ¬ (d = '_' ∧ nextIsX (e :: es)) := by
    rintro d e es a rest h ⟨rfl, hn⟩
    have := hx a e rest h
    simp only [nextIsX, List.head?_cons, Option.some.injEq] at hn
    rcases hn with hn | hn
    · exact this.1 hn
    · exact this.2 hn
  have n7 : ¬ (c7 = '_' ∧ nextIsX t7) := by
    rintro ⟨rfl, -⟩
    have := hi b7.2; rw [e7, k7] at this
    exact absurd this (by decide)
  have hlit : ∀ {d : Char} {ds : PyStr}, ¬ (d = '_' ∧ nextIsX ds) → inSerialClass d = false →
      writtenOf (d :: ds) = UInt16.ofNat d.toNat :: writtenOf ds := by
    intro d ds hd1 hd2
    rcases charPieces_cases d ds with ⟨-, -, e⟩ | ⟨_, _, -, -, hx⟩
    · rw [writtenOf_cons, e]; rfl
    · rcases hx with hx | hx
      · exact absurd hx hd1
      · rw [hd2] at hx; simp at hx
  refine ⟨nx [] [c2, c3, c4, c5, c6, c7] rfl, s0, ?_⟩
  rw [hlit (nx [c] [c3, c4, c5, c6, c7] rfl) s1, hlit (nx [c, c1] [c4, c5, c6, c7] rfl) s2,
    hlit (nx [c, c1, c2] [c5, c6, c7] rfl) s3, hlit (nx [c, c1, c2, c3] [c6, c7] rfl) s4,
    hlit (nx [c, c1, c2, c3, c4] [c7] rfl) s5, hlit (nx [c, c1, c2, c3, c4, c5] [] rfl) s6, hlit n7 s7,
    e0, e1, e2, e3, e4, e5, e6, e7]
  exact ⟨u0, u2, u3, u4, u5, u6, u7, _, rfl, k0, k2, k2', k3, k4, k5, k6, k6', k7⟩

/-- With a shifted pattern, fewer bytes are decoded than were meant. -/
theorem unescape_lt (s : PyStr) (h : HasShiftedPattern s) (x : Bytes)
    (hx : unescapeBytes ((writtenOf s).flatMap unitBytes) = .ok x) : x.length < meantBytes s := by
  induction s generalizing x with
  | nil =>
    obtain ⟨n, -, -, _, _, _, _, _, _, _, _, he, -⟩ := h
    simp [utf16] at he
  | cons d ds ih =>
    rw [writtenOf_cons] at hx
    rcases charPieces_cases d ds with ⟨h1, h2, e⟩ | ⟨u, us, e, -, hor⟩
    · rw [e] at hx
      simp only [List.flatMap_cons, List.flatMap_nil, List.append_nil, Piece.written, List.cons_append, List.nil_append,
        unitBytes_eq] at hx
      cases hm : matchEscape (hiByte (UInt16.ofNat d.toNat) :: loByte (UInt16.ofNat d.toNat) :: (writtenOf ds).flatMap unitBytes) with
      | some p => exact absurd (matchEscape_aligned (us := UInt16.ofNat d.toNat :: writtenOf ds) hm) (not_looksEscaped h1 h2)
      | none =>
        obtain ⟨y, hy, rfl⟩ := unescape_skip_length hm hx
        cases hm2 : matchEscape (loByte (UInt16.ofNat d.toNat) :: (writtenOf ds).flatMap unitBytes) with
        | none =>
          obtain ⟨z, hz, rfl⟩ := unescape_skip_length hm2 hy
          have hs : HasShiftedPattern ds := by
            obtain ⟨n, hn⟩ := h
            cases n with
            | succ n => exact ⟨n, by simpa using hn⟩
            | zero =>
              have := (matchEscape_shifted_iff _ _).mpr (shiftedPattern_unescaped hn).2.2
              rw [hm2] at this; simp at this
          have := ih hs z hz
          simp only [meantBytes, piecesOf, e, List.length_cons, List.length_append, List.length_nil] at this ⊢
          omega
        | some p =>
          obtain ⟨-, c7, cs7, hc, hl, a7, b7, hp⟩ := shifted_chars h1 h2 (matchEscape_shifted hm2)
          obtain ⟨z, hz, hle⟩ := unescape_match_length (g := p.1) (r := p.2) hm2 hy
          rw [drop_shifted hc hl hp] at hz
          have := (unescape_le cs7.length cs7 (Nat.le_refl _)).2 c7 z a7 b7 hz
          have hk : (ds.take 7).length = 7 := by simp; omega
          simp only [meantBytes, piecesOf, e, hp, List.length_append, List.length_map, hk, List.length_cons, List.length_nil] at this ⊢
          omega
    · rw [e, ← List.map_cons (f := escOf), List.flatMap_append] at hx
      obtain ⟨y, hy, hl⟩ := unescape_escs _ _ _ hx
      have hs : HasShiftedPattern ds := by
        obtain ⟨n, hn⟩ := h
        cases n with
        | succ n => exact ⟨n, by simpa using hn⟩
        | zero =>
          have h3 := shiftedPattern_unescaped hn
          rcases hor with hor | hor
          · exact absurd hor h3.1
          · rw [h3.2.1] at hor; simp at hor
      have := ih hs y hy
      simp only [meantBytes, piecesOf, e, List.length_cons, List.length_append, List.length_map] at this hl ⊢
      omega

theorem bytesUnits_length (b : Bytes) (us : List UInt16) (h : bytesUnits b = .ok us) : b.length = 2 * us.length := by
  fun_induction bytesUnits b generalizing us with
  | case1 => simp only [Except.ok.injEq] at h; subst h; rfl
  | case2 => simp at h
  | case3 a b bs ih =>
    obtain ⟨r, h1, h2⟩ := except_bind_ok h
    simp only [pure, Except.pure, Except.ok.injEq] at h2
    subst h2
    have := ih r h1
    simp only [List.length_cons]; omega

theorem utf16_unitsChars_length (us : List UInt16) (s : PyStr) (h : unitsChars us = .ok s) : (utf16 s).length = us.length := by
  fun_induction unitsChars us generalizing s with
  | case1 => simp only [Except.ok.injEq] at h; subst h; rfl
  | case2 => simp at h
  | case3 u hn =>
    simp only [Except.ok.injEq] at h; subst h
    have := u.toNat_lt
    simp only [isHighSurrogate, isLowSurrogate, Bool.or_eq_true, Bool.and_eq_true, decide_eq_true_eq] at hn
    have hv : (Char.ofNat u.toNat).toNat = u.toNat := char_toNat_ofNat (by unfold Nat.isValidChar; omega)
    rw [utf16_bmp (by omega)]; rfl
  | case4 u v us h1 h2 ih =>
    obtain ⟨cs, h5, h6⟩ := except_bind_ok h
    simp only [pure, Except.pure, Except.ok.injEq] at h6
    subst h6
    have := ih cs h5
    have hu := u.toNat_lt
    have hv := v.toNat_lt
    simp only [isHighSurrogate, isLowSurrogate, Bool.and_eq_true, decide_eq_true_eq] at h1 h2
    have hc : (Char.ofNat (0x10000 + (u.toNat - 0xD800) * 0x400 + (v.toNat - 0xDC00))).toNat =
        0x10000 + (u.toNat - 0xD800) * 0x400 + (v.toNat - 0xDC00) :=
      char_toNat_ofNat (by unfold Nat.isValidChar; omega)
    rw [utf16_cons, List.length_append, this]
    simp only [utf16, List.flatMap_cons, List.flatMap_nil, List.append_nil, charUnits, hc]
    rw [if_neg (by omega)]
    simp; omega
  | case5 => simp at h
  | case6 => simp at h
  | case7 u v us h1 h2 ih =>
    obtain ⟨cs, h5, h6⟩ := except_bind_ok h
    simp only [pure, Except.pure, Except.ok.injEq] at h6
    subst h6
    have := ih cs h5
    have hu := u.toNat_lt
    simp only [isHighSurrogate, isLowSurrogate, Bool.and_eq_true, decide_eq_true_eq] at h1 h2
    have hv : (Char.ofNat u.toNat).toNat = u.toNat := char_toNat_ofNat (by unfold Nat.isValidChar; omega)
    rw [utf16_cons, utf16_bmp (by omega), List.length_append, this]
    simp; omega

theorem deserialize_shifted {s : PyStr} (h : HasShiftedPattern s) : deserializeString (some (serializeString s)) ≠ .ok s := by
  intro hd
  obtain ⟨x, h1, h2⟩ := except_bind_ok hd
  rw [encodeUtf16BE, utf16_serialize] at h1
  have hlt := unescape_lt s h x h1
  obtain ⟨us, h3, h4⟩ := except_bind_ok h2
  have e1 := bytesUnits_length _ _ h3
  have e2 := utf16_unitsChars_length _ _ h4
  have e3 := congrArg List.length (meant_piecesOf s)
  rw [List.length_map] at e3
  unfold meantBytes at hlt
  omega

end Verif
