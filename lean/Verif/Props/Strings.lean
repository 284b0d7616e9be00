import Verif.Lemmas.StringsShift
/-
C12, C13, C14: CLIXML string escaping.
-/
namespace Verif

/-- C12. The escaped form, character by character: each character is written as the specification says, depending only
on itself and the next character. -/
theorem C12_pointwise (s : PyStr) :
    serializeString s = (List.range s.length).flatMap (fun i => escapedChar (s.getD i default) s[i + 1]?) := by
  induction s with
  | nil => rfl
  | cons c cs ih =>
    rw [serialize_cons, List.length_cons, List.range_succ_eq_map, List.flatMap_cons, ih]
    congr 1
    · simp [List.head?_eq_getElem?]
    · rw [List.flatMap_map]
      simp

theorem escapeUnit_ascii (u : UInt16) : ∀ c ∈ escapeUnit u, 0x30 ≤ c.toNat ∧ c.toNat < 0x7f := by
  have hd : ∀ n, n < 16 → 0x30 ≤ (hexDigit n).toNat ∧ (hexDigit n).toNat < 0x7f := by
    intro n hn
    have : ∀ m : Fin 16, 0x30 ≤ (hexDigit m.val).toNat ∧ (hexDigit m.val).toNat < 0x7f := by decide
    exact this ⟨n, hn⟩
  have hl := u.toNat_lt
  intro c hc
  simp only [escapeUnit, hex4, List.cons_append, List.nil_append, List.mem_cons, List.not_mem_nil, or_false] at hc
  rcases hc with rfl | rfl | rfl | rfl | rfl | rfl | rfl
  · decide
  · decide
  · exact hd _ (by omega)
  · exact hd _ (by omega)
  · exact hd _ (by omega)
  · exact hd _ (by omega)
  · decide

/-- C12. The escaped form of any string contains no C0 control character, no DEL or C1 control character and no
character outside the basic plane. -/
theorem C12_no_control_characters (s : PyStr) (c : Char) (h : c ∈ serializeString s) :
    0x20 ≤ c.toNat ∧ ¬ (0x7f ≤ c.toNat ∧ c.toNat ≤ 0x9f) ∧ c.toNat < 0x10000 := by
  induction s with
  | nil => simp [serialize_nil] at h
  | cons d ds ih =>
    rw [serialize_cons, List.mem_append] at h
    rcases h with h | h
    · rw [escapedChar_eq] at h
      split at h
      · have : ∀ c ∈ "_x005F_".toList, 0x20 ≤ c.toNat ∧ c.toNat < 0x7f := by decide
        have := this c h; omega
      · split at h
        · obtain ⟨u, -, hu⟩ := List.mem_flatMap.mp h
          have := escapeUnit_ascii u c hu; omega
        · simp only [List.mem_singleton] at h
          subst h; omega
    · exact ih h

/-- C12, partial: every character of the escaped form is an XML 1.0 character unless it is U+FFFE or U+FFFF.
Missing: those two, see `C12_noncharacters_false`. -/
theorem C12_xml_characters_partial (s : PyStr) (c : Char) (h : c ∈ serializeString s) (h1 : c.toNat ≠ 0xFFFE)
    (h2 : c.toNat ≠ 0xFFFF) : IsXmlChar c := by
  have hc := C12_no_control_characters s c h
  have hv := char_lt c
  unfold IsXmlChar; omega

/-- U+FFFE and U+FFFF are not escaped although XML cannot carry them. -/
theorem C12_noncharacters_false :
    ∃ c ∈ serializeString ['a', Char.ofNat 0xFFFF], ¬ IsXmlChar c := by
  refine ⟨Char.ofNat 0xFFFF, by decide, ?_⟩
  unfold IsXmlChar; decide

example : serializeString "a_x_X\n😀".toList = "a_x005F_x_x005F_X_x000A__xD83D__xDE00_".toList := by decide +kernel

/-- C14. Whatever mixture of literal code units and `_xHHHH_` escapes (upper or lower case digits) a text consists of,
decoding gives the string whose code units were meant, provided no literal part looks like an escape to the reader. -/
theorem C14_decode (text meant : PyStr) (pieces : List Piece) (htext : utf16 text = pieces.flatMap Piece.written)
    (hmeant : utf16 meant = pieces.map Piece.meant) (hvalid : ∀ p ∈ pieces, p.Valid) (hu : Unambiguous pieces) :
    deserializeString (some text) = .ok meant := deserialize_pieces htext hmeant hvalid hu

/-- A text with a lower case escape, a literal underscore, an escaped surrogate pair and a literal one. -/
example : deserializeString (some "_a_x000a_x_xD83D__xde00_😀_".toList) = .ok "_a\nx😀😀_".toList := by
  refine C14_decode _ _ [.lit 0x5F, .lit 0x61, .esc 0xA '0' '0' '0' 'a', .lit 0x78, .esc 0xD83D 'D' '8' '3' 'D',
    .esc 0xDE00 'd' 'e' '0' '0', .lit 0xD83D, .lit 0xDE00, .lit 0x5F] (by decide +kernel) (by decide +kernel) ?_ ?_
  · intro p hp
    simp only [List.mem_cons, List.not_mem_nil, or_false] at hp
    rcases hp with rfl | rfl | rfl | rfl | rfl | rfl | rfl | rfl | rfl <;> try trivial
    · exact ⟨0, 0, 0, 10, by decide⟩
    · exact ⟨13, 8, 3, 13, by decide⟩
    · exact ⟨13, 14, 0, 0, by decide⟩
  · have no : ∀ (u v : UInt16) us, u ≠ 0x5F ∨ v ≠ 0x78 → ¬ LooksEscaped (u :: v :: us) := by
      rintro u v us hn ⟨_, _, _, _, _, he, -⟩
      simp only [List.cons.injEq] at he
      rcases hn with hn | hn
      · exact hn he.1
      · exact hn he.2.1
    have no2 : ∀ (u v : UInt16) us, v ≠ 0x5F00 → ¬ LooksEscapedShifted (u :: v :: us) := by
      rintro u v us hn ⟨_, _, _, _, _, _, _, _, he, -⟩
      simp only [List.cons.injEq] at he
      exact hn he.2.1
    refine ⟨no _ _ _ (by decide), no2 _ _ _ (by decide), no _ _ _ (by decide), no2 _ _ _ (by decide), no _ _ _ (by decide),
      no2 _ _ _ (by decide), no _ _ _ (by decide), no2 _ _ _ (by decide), no _ _ _ (by decide), no2 _ _ _ (by decide), ?_, ?_,
      trivial⟩
    · rintro ⟨_, _, _, _, _, he, -⟩
      have := congrArg List.length he
      simp at this
    · rintro ⟨_, _, _, _, _, _, _, _, he, -⟩
      have := congrArg List.length he
      simp at this

/-- C13, the positive half: a string without the shifted pattern survives. -/
theorem C13_roundtrip_partial (s : PyStr) (h : ¬ HasShiftedPattern s) :
    deserializeString (some (serializeString s)) = .ok s :=
  deserialize_pieces (utf16_serialize s) (meant_piecesOf s).symm (valid_piecesOf s) (unambiguous_piecesOf h)

/-- C13. A string survives being escaped and decoded again exactly when it does not contain the shifted pattern. -/
theorem C13_roundtrip_iff (s : PyStr) :
    deserializeString (some (serializeString s)) = .ok s ↔ ¬ HasShiftedPattern s :=
  ⟨fun h hs => deserialize_shifted hs h, C13_roundtrip_partial s⟩

/-- The shifted pattern needs a character in U+5F00 – a string without that character always survives. In particular
every ASCII string does. -/
theorem C13_roundtrip_common_partial (s : PyStr) (h : Char.ofNat 0x5F00 ∉ s) :
    deserializeString (some (serializeString s)) = .ok s := by
  apply C13_roundtrip_partial
  rintro ⟨n, h1, -, u0, u2, u3, u4, u5, u6, u7, rest, he, -⟩
  have hx : (0x5F00 : UInt16) ∈ utf16 ((s.drop n).take 8) := by rw [he]; simp
  obtain ⟨c, hc, hm⟩ := List.mem_flatMap.mp hx
  have hb := (h1 c hc).2
  simp only [charUnits, hb, if_true, List.mem_singleton] at hm
  have := congrArg UInt16.toNat hm
  simp only [UInt16.toNat_ofNat'] at this
  have h5 : (0x5F00 : UInt16).toNat = 0x5F00 := rfl
  have hcc : c = Char.ofNat 0x5F00 := Char.toNat_inj.mp (by show c.toNat = 0x5F00; omega)
  exact h (hcc ▸ List.mem_of_mem_drop (List.mem_of_mem_take hc))

/-- The eight characters U+4100 U+5F00 U+7800 U+3000 U+3000 U+3000 U+4100 U+5F00. -/
def shiftedWitness : PyStr :=
  [0x4100, 0x5F00, 0x7800, 0x3000, 0x3000, 0x3000, 0x4100, 0x5F00].map Char.ofNat

/-- C13 is false in full: the witness is a string of plain CJK characters that does not survive. -/
theorem C13_shifted_false : deserializeString (some (serializeString shiftedWitness)) ≠ .ok shiftedWitness := by
  rw [Ne, C13_roundtrip_iff, Classical.not_not]
  refine ⟨0, ?_, ?_, ?_⟩
  · decide
  · intro a b rest hab
    have : '_' ∈ (shiftedWitness.drop 0).take 8 := by rw [hab]; simp
    exact absurd this (by decide)
  · exact ⟨0x4100, 0x7800, 0x3000, 0x3000, 0x3000, 0x4100, 0x5F00, [], by decide⟩

end Verif
