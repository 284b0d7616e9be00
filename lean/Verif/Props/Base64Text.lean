import Verif.Spec.Base64Text
import Verif.Lemmas.Base64
import Verif.Props.Encodings
/-
C105: texts that are read as base64.
-/
namespace Verif

theorem sextetOf_eq (c : Char) : sextetOf c = b64Index c := by
  have hal : b64Alphabet = (List.range 64).map sextetChar := by decide +kernel
  have hin : ∀ n : Fin 64, sextetOf (sextetChar n.val) = some n.val ∧ b64Index (sextetChar n.val) = some n.val := by decide +kernel
  by_cases h : ∃ n, n < 64 ∧ sextetChar n = c
  · obtain ⟨n, hn, rfl⟩ := h
    rw [(hin ⟨n, hn⟩).1, (hin ⟨n, hn⟩).2]
  · have h1 : sextetOf c = none := by
      unfold sextetOf
      rw [List.find?_eq_none]
      intro n hn
      simp only [decide_eq_true_eq]
      exact fun hc => h ⟨n, List.mem_range.1 hn, hc⟩
    have h2 : b64Index c = none := by
      unfold b64Index
      have : b64Alphabet.findIdx (· == c) = 64 := by
        have hl : b64Alphabet.length = 64 := by decide +kernel
        rw [← hl]
        refine List.findIdx_eq_length_of_false fun x hx => ?_
        rw [hal, List.mem_map] at hx
        obtain ⟨n, hn, rfl⟩ := hx
        simp only [beq_eq_false_iff_ne]
        exact fun hc => h ⟨n, List.mem_range.1 hn, hc⟩
      dsimp only
      rw [this]
      rfl
    rw [h1, h2]

theorem b64Index_lt {c : Char} {i : Nat} (h : b64Index c = some i) : i < 64 := by
  unfold b64Index at h
  dsimp only at h
  split at h
  · cases h; assumption
  · cases h

/-- The bits that are left over. -/
def Quad.bits : Quad → List Bool
  | .q0 => []
  | .q1 l => sixBits l
  | .q2 l => [3, 2, 1, 0].map l.testBit
  | .q3 l => [1, 0].map l.testBit

def Quad.count : Quad → Nat
  | .q0 => 0
  | .q1 _ => 1
  | .q2 _ => 2
  | .q3 _ => 3

def Quad.Fits : Quad → Prop
  | .q0 => True
  | .q1 l => l < 64
  | .q2 l => l < 16
  | .q3 l => l < 4

theorem bits_q1 {l i : Nat} (hl : l < 64) (hi : i < 64) :
    sixBits l ++ sixBits i = bitsOf (UInt8.ofNat (l * 4 + i / 16)) ++ (Quad.q2 (i % 16)).bits := by
  have : ∀ (l i : Fin 64), sixBits l.val ++ sixBits i.val = bitsOf (UInt8.ofNat (l.val * 4 + i.val / 16)) ++ (Quad.q2 (i.val % 16)).bits := by decide +kernel
  exact this ⟨l, hl⟩ ⟨i, hi⟩

theorem bits_q2 {l i : Nat} (hl : l < 16) (hi : i < 64) :
    (Quad.q2 l).bits ++ sixBits i = bitsOf (UInt8.ofNat (l * 16 + i / 4)) ++ (Quad.q3 (i % 4)).bits := by
  have : ∀ (l : Fin 16) (i : Fin 64), (Quad.q2 l.val).bits ++ sixBits i.val = bitsOf (UInt8.ofNat (l.val * 16 + i.val / 4)) ++ (Quad.q3 (i.val % 4)).bits := by
    decide +kernel
  exact this ⟨l, hl⟩ ⟨i, hi⟩

theorem bits_q3 {l i : Nat} (hl : l < 4) (hi : i < 64) : (Quad.q3 l).bits ++ sixBits i = bitsOf (UInt8.ofNat (l * 64 + i)) := by
  have : ∀ (l : Fin 4) (i : Fin 64), (Quad.q3 l.val).bits ++ sixBits i.val = bitsOf (UInt8.ofNat (l.val * 64 + i.val)) := by decide +kernel
  exact this ⟨l, hl⟩ ⟨i, hi⟩

/-- The state of the decoder after a text. -/
structure DecoderAt (q : Quad) (pads : Nat) (pre : PyStr) (out : Bytes) : Prop where
  fits : q.Fits
  count : (sextetsIn pre).length % 4 = q.count
  bits : (sextetsIn pre).flatMap sixBits = out.flatMap bitsOf ++ q.bits
  padded : q.count = 2 → (1 ≤ pads ↔ ∃ a c, pre = a ++ '=' :: c ∧ sextetsIn c = [])
  fresh : q.count < 2 → pads = 0
  going : ∀ a c, pre = a ++ '=' :: c → ¬ PaddingEnds a

theorem DecoderAt.make {q : Quad} {pads : Nat} {pre : PyStr} {out : Bytes} (h : DecoderAt q pads pre out) : BitsMake (sextetsIn pre) out := by
  have hb := h.bits
  have h1 : ∀ l : List Nat, (l.flatMap sixBits).length = 6 * l.length := by
    intro l
    induction l with
    | nil => rfl
    | cons x xs ih => rw [List.flatMap_cons, List.length_append, ih, List.length_cons]; simp [sixBits]; omega
  have h2 : ∀ l : Bytes, (l.flatMap bitsOf).length = 8 * l.length := by
    intro l
    induction l with
    | nil => rfl
    | cons x xs ih => rw [List.flatMap_cons, List.length_append, ih, List.length_cons]; simp [bitsOf]; omega
  have h3 : q.bits.length < 8 := by cases q <;> simp [Quad.bits, sixBits]
  have hl := congrArg List.length hb
  rw [List.length_append, h1, h2] at hl
  refine ⟨by omega, ?_⟩
  rw [hb, List.take_append_of_le_length (by rw [h2]; exact Nat.le_refl _), ← h2, List.take_length]

theorem split_snoc {pre a c : PyStr} {x y : Char} (h : pre ++ [x] = a ++ y :: c) : (c = [] ∧ pre = a ∧ x = y) ∨ ∃ c', c = c' ++ [x] ∧ pre = a ++ y :: c' := by
  rcases List.eq_nil_or_concat c with rfl | ⟨c', z, rfl⟩
  · have := List.append_inj' h rfl
    exact .inl ⟨rfl, this.1, by simpa using this.2⟩
  · right
    rw [List.concat_eq_append] at h ⊢
    rw [show a ++ y :: (c' ++ [z]) = (a ++ y :: c') ++ [z] by simp] at h
    have := List.append_inj' h rfl
    have hz : x = z := by simpa using this.2
    subst hz
    exact ⟨c', rfl, this.1⟩

theorem sextetsIn_snoc (pre : PyStr) (c : Char) : sextetsIn (pre ++ [c]) = sextetsIn pre ++ (b64Index c).toList := by
  unfold sextetsIn
  rw [List.filterMap_append]
  congr 1
  simp only [List.filterMap_cons, List.filterMap_nil, sextetOf_eq]
  cases b64Index c <;> rfl

/-- A character outside the alphabet that is not padding. -/
theorem DecoderAt.skip {q : Quad} {pads : Nat} {pre : PyStr} {out : Bytes} (h : DecoderAt q pads pre out) {c : Char} (hc : c ≠ '=') (hi : b64Index c = none) :
    DecoderAt q pads (pre ++ [c]) out := by
  have hs : sextetsIn (pre ++ [c]) = sextetsIn pre := by rw [sextetsIn_snoc, hi]; simp
  refine ⟨h.fits, by rw [hs]; exact h.count, by rw [hs]; exact h.bits, fun hq => (h.padded hq).trans ⟨?_, ?_⟩, h.fresh, fun a d hd => ?_⟩
  · rintro ⟨a, d, rfl, hd⟩
    refine ⟨a, d ++ [c], by simp, ?_⟩
    rw [sextetsIn_snoc, hd, hi]; rfl
  · rintro ⟨a, d, h1, hd⟩
    rcases split_snoc h1 with ⟨-, -, h2⟩ | ⟨d', rfl, h2⟩
    · exact absurd h2 hc
    · refine ⟨a, d', h2, ?_⟩
      rw [sextetsIn_snoc, hi] at hd
      simpa using hd
  · rcases split_snoc hd with ⟨-, -, h2⟩ | ⟨d', rfl, h2⟩
    · exact absurd h2 hc
    · exact h.going a d' h2

theorem pad_index : b64Index '=' = none := by decide +kernel

/-- Padding that does not end the text. -/
theorem DecoderAt.pad {q : Quad} {pads : Nat} {pre : PyStr} {out : Bytes} (h : DecoderAt q pads pre out) (hn : ¬ PaddingEnds pre) {pads' : Nat}
    (h2 : q.count = 2 → 1 ≤ pads') (h3 : q.count < 2 → pads' = 0) : DecoderAt q pads' (pre ++ ['=']) out := by
  have hs : sextetsIn (pre ++ ['=']) = sextetsIn pre := by rw [sextetsIn_snoc, pad_index]; simp
  refine ⟨h.fits, by rw [hs]; exact h.count, by rw [hs]; exact h.bits, fun hq => ⟨fun _ => ⟨pre, [], rfl, rfl⟩, fun _ => h2 hq⟩, h3, fun a d hd => ?_⟩
  rcases split_snoc hd with ⟨-, rfl, -⟩ | ⟨d', rfl, h4⟩
  · exact hn
  · exact h.going a d' h4

/-- A character of the alphabet. -/
theorem DecoderAt.data {q : Quad} {pads : Nat} {pre : PyStr} {out : Bytes} (h : DecoderAt q pads pre out) {c : Char} {i : Nat} (hc : c ≠ '=') (hi : b64Index c = some i)
    {q' : Quad} {out' : Bytes} (hf : q'.Fits) (hn : (q.count + 1) % 4 = q'.count) (hb : q.bits ++ sixBits i = out'.flatMap bitsOf ++ q'.bits) :
    DecoderAt q' 0 (pre ++ [c]) (out ++ out') := by
  have hs : sextetsIn (pre ++ [c]) = sextetsIn pre ++ [i] := by rw [sextetsIn_snoc, hi]; rfl
  refine ⟨hf, ?_, ?_, fun _ => ⟨fun h => absurd h (by decide), ?_⟩, fun _ => rfl, fun a d hd => ?_⟩
  · rw [hs, List.length_append, List.length_singleton, Nat.add_mod, h.count]
    have : q.count < 4 := by cases q <;> simp [Quad.count]
    omega
  · rw [hs, List.flatMap_append, h.bits, List.flatMap_append, List.append_assoc, List.append_assoc, ← hb]
    simp
  · rintro ⟨a, d, h1, hd⟩
    rcases split_snoc h1 with ⟨-, -, h2⟩ | ⟨d', rfl, h2⟩
    · exact absurd h2 hc
    · rw [sextetsIn_snoc, hi] at hd
      simp at hd
  · rcases split_snoc hd with ⟨-, -, h2⟩ | ⟨d', rfl, h2⟩
    · exact absurd h2 hc
    · exact h.going a d' h2

/-- What the decoder does with the rest of a text. -/
def DecoderOutcome (out : Bytes) (pre s : PyStr) (r : Except PyErr Bytes) : Prop :=
  ∃ used rest, ReadsUpTo (pre ++ s) used rest ∧
    ((∃ b, r = .ok b ∧ (rest = [] → (sextetsIn used).length % 4 = 0) ∧ BitsMake (sextetsIn used) (out ++ b)) ∨
      (r = .error .binasciiError ∧ rest = [] ∧ (sextetsIn used).length % 4 ≠ 0))

theorem DecoderOutcome.shift {out : Bytes} {pre s : PyStr} {c : Char} {x : UInt8} {r : Except PyErr Bytes} (h : DecoderOutcome (out ++ [x]) (pre ++ [c]) s r) :
    DecoderOutcome out pre (c :: s) (r.map (x :: ·)) := by
  obtain ⟨used, rest, h1, h2⟩ := h
  refine ⟨used, rest, by simpa using h1, ?_⟩
  rcases h2 with ⟨b, rfl, h3, h4⟩ | ⟨rfl, h3⟩
  · exact .inl ⟨x :: b, rfl, h3, by simpa using h4⟩
  · exact .inr ⟨rfl, h3⟩

theorem DecoderOutcome.same {out : Bytes} {pre s : PyStr} {c : Char} {r : Except PyErr Bytes} (h : DecoderOutcome out (pre ++ [c]) s r) : DecoderOutcome out pre (c :: s) r := by
  obtain ⟨used, rest, h1, h2⟩ := h
  exact ⟨used, rest, by simpa using h1, h2⟩

theorem outcome_ends {q : Quad} {pads : Nat} {pre : PyStr} {out : Bytes} (h : DecoderAt q pads pre out) (s : PyStr) (he : PaddingEnds pre) :
    DecoderOutcome out pre ('=' :: s) (.ok []) :=
  ⟨pre, '=' :: s, ⟨rfl, h.going, .inr ⟨s, rfl, he⟩⟩, .inl ⟨[], rfl, (fun h => by cases h), (by rw [List.append_nil]; exact h.make)⟩⟩

theorem loop_outcome : ∀ (s : PyStr) (q : Quad) (pads : Nat) (pre : PyStr) (out : Bytes), DecoderAt q pads pre out → DecoderOutcome out pre s (b64Loop q pads s) := by
  intro s
  induction s with
  | nil =>
    intro q pads pre out h
    refine ⟨pre, [], ⟨rfl, h.going, .inl rfl⟩, ?_⟩
    unfold b64Loop
    have hc := h.count
    cases q with
    | q0 => exact .inl ⟨[], rfl, fun _ => hc, by rw [List.append_nil]; exact h.make⟩
    | _ => refine .inr ⟨rfl, rfl, ?_⟩; rw [hc]; simp [Quad.count]
  | cons c cs ih =>
    intro q pads pre out h
    unfold b64Loop
    by_cases hc : c = '='
    · subst hc
      rw [if_pos rfl]
      have hcount := h.count
      cases q with
      | q0 =>
        refine (ih .q0 pads _ out (h.pad ?_ (fun hq => by cases hq) h.fresh)).same
        rintro (h1 | ⟨h1, -⟩) <;> rw [hcount] at h1 <;> simp [Quad.count] at h1
      | q1 l =>
        refine (ih (.q1 l) pads _ out (h.pad ?_ (fun hq => by simp [Quad.count] at hq) h.fresh)).same
        rintro (h1 | ⟨h1, -⟩) <;> rw [hcount] at h1 <;> simp [Quad.count] at h1
      | q2 l =>
        dsimp only
        by_cases hp : 2 ≤ pads + 1
        · rw [if_pos hp]
          exact outcome_ends h cs (.inr ⟨hcount, (h.padded rfl).1 (by omega)⟩)
        · rw [if_neg hp]
          refine (ih (.q2 l) (pads + 1) _ out (h.pad ?_ (fun _ => by omega) (fun hq => by simp [Quad.count] at hq))).same
          rintro (h1 | ⟨-, h1⟩)
          · rw [hcount] at h1; simp [Quad.count] at h1
          · have := (h.padded rfl).2 h1; omega
      | q3 l => exact outcome_ends h cs (.inl hcount)
    · rw [if_neg hc]
      cases hi : b64Index c with
      | none => exact (ih q pads _ out (h.skip hc hi)).same
      | some i =>
        have hlt := b64Index_lt hi
        have hf := h.fits
        cases q with
        | q0 =>
          have := h.data (q' := .q1 i) (out' := []) hc hi hlt rfl rfl
          rw [List.append_nil] at this
          exact (ih _ 0 _ out this).same
        | q1 l => exact (ih _ 0 _ _ (h.data (q' := .q2 (i % 16)) hc hi (Nat.mod_lt _ (by decide)) rfl (by rw [List.flatMap_singleton]; exact bits_q1 hf hlt))).shift
        | q2 l => exact (ih _ 0 _ _ (h.data (q' := .q3 (i % 4)) hc hi (Nat.mod_lt _ (by decide)) rfl (by rw [List.flatMap_singleton]; exact bits_q2 hf hlt))).shift
        | q3 l => exact (ih _ 0 _ _ (h.data (q' := .q0) hc hi trivial (by simp [Quad.count]) (by rw [List.flatMap_singleton]; exact (bits_q3 hf hlt).trans (List.append_nil _).symm))).shift

/-- A text is read up to one place. -/
theorem readsUpTo_unique {s u1 r1 u2 r2 : PyStr} (h1 : ReadsUpTo s u1 r1) (h2 : ReadsUpTo s u2 r2) : u1 = u2 ∧ r1 = r2 := by
  have key : ∀ {u1 r1 u2 r2 : PyStr}, ReadsUpTo s u1 r1 → ReadsUpTo s u2 r2 → ¬ u1.length < u2.length := by
    intro u1 r1 u2 r2 ⟨e1, _, f1⟩ ⟨e2, g2, _⟩ hl
    obtain ⟨x, hx⟩ : ∃ x, u2 = u1 ++ x := by
      have : u1 <+: u2 := List.prefix_of_prefix_length_le ⟨r1, e1.symm⟩ ⟨r2, e2.symm⟩ (Nat.le_of_lt hl)
      obtain ⟨x, hx⟩ := this
      exact ⟨x, hx.symm⟩
    subst hx
    rw [e1, List.append_assoc] at e2
    have e3 := List.append_cancel_left e2
    cases x with
    | nil => simp at hl
    | cons y ys =>
      rcases f1 with rfl | ⟨r, rfl, hp⟩
      · cases e3
      · rw [List.cons_append, List.cons.injEq] at e3
        exact g2 u1 ys (by rw [e3.1]) hp
  have hl : u1.length = u2.length := by
    have a := key h1 h2
    have b := key h2 h1
    omega
  have := List.append_inj (h1.1.symm.trans h2.1) hl
  exact this

theorem state_start : DecoderAt .q0 0 [] [] :=
  ⟨trivial, rfl, rfl, (fun h => by cases h), (fun _ => rfl), fun a c h => by simp at h⟩

/-- The bits determine the bytes. -/
theorem bitsMake_unique {values : List Nat} {a b : Bytes} (ha : BitsMake values a) (hb : BitsMake values b) : a = b := by
  have hl : a.length = b.length := ha.1.trans hb.1.symm
  have h : a.flatMap bitsOf = b.flatMap bitsOf := by rw [ha.2, hb.2, hl]
  clear ha hb
  induction a generalizing b with
  | nil => cases b with
    | nil => rfl
    | cons y ys => simp at hl
  | cons x xs ih => cases b with
    | nil => simp at hl
    | cons y ys =>
      rw [List.flatMap_cons, List.flatMap_cons] at h
      have := List.append_inj h (by simp [bitsOf])
      have hxy : x = y := by
        have h1 : ∀ z : UInt8, bitsValue (bitsOf z) = z.toNat := by
          intro z
          have := bits_fin (fun z => decide (bitsValue (bitsOf z) = z.toNat)) (by decide +kernel) z
          exact of_decide_eq_true this
        have h2 := congrArg bitsValue this.1
        rw [h1, h1] at h2
        exact UInt8.toNat_inj.1 h2
      rw [hxy, ih (by simpa using hl) this.2]

/-- C105: what the library reads as base64: the bytes of exactly the texts that are base64 for them, whatever white space or other characters are between, and
whatever follows the padding; an error for all others. -/
theorem C105_decode (s : PyStr) : (∀ b, b64Decode s = .ok b ↔ Base64Text s b) ∧ ((¬ ∃ b, Base64Text s b) → b64Decode s = .error .binasciiError) := by
  have h := loop_outcome s .q0 0 [] [] state_start
  rw [show b64Loop .q0 0 s = b64Decode s from rfl] at h
  obtain ⟨used, rest, h1, h2⟩ := h
  rw [List.nil_append] at h1
  constructor
  · intro b
    constructor
    · intro hd
      rcases h2 with ⟨b', h3, h4, h5⟩ | ⟨h3, -⟩
      · rw [hd] at h3
        cases h3
        exact ⟨used, rest, h1, h4, by simpa using h5⟩
      · rw [hd] at h3; cases h3
    · rintro ⟨u, r, h6, h7, h8⟩
      obtain ⟨rfl, rfl⟩ := readsUpTo_unique h1 h6
      rcases h2 with ⟨b', h3, h4, h5⟩ | ⟨-, h3, h4⟩
      · rw [h3, bitsMake_unique (a := b') (by simpa using h5) h8]
      · exact absurd (h7 h3) h4
  · intro hn
    rcases h2 with ⟨b', h3, h4, h5⟩ | ⟨h3, -⟩
    · exact absurd ⟨b', used, rest, h1, h4, by simpa using h5⟩ hn
    · exact h3

/-- C105: the same for strings, which must be ASCII. -/
theorem C105_string (s : PyStr) : (∀ b, b64DecodeStr s = .ok b ↔ Base64Ascii s b) ∧
    ((¬ ∃ b, Base64Ascii s b) → b64DecodeStr s = .error .binasciiError ∨ b64DecodeStr s = .error .valueError ∧ ∃ c ∈ s, 128 ≤ c.toNat) := by
  unfold b64DecodeStr Base64Ascii
  by_cases h : s.all (fun c => c.toNat < 128) = true
  · have ha : ∀ c ∈ s, c.toNat < 128 := fun c hc => of_decide_eq_true (List.all_eq_true.1 h c hc)
    rw [if_pos h]
    exact ⟨fun b => ⟨fun hb => ⟨ha, ((C105_decode s).1 b).1 hb⟩, fun hb => ((C105_decode s).1 b).2 hb.2⟩,
      fun hn => .inl ((C105_decode s).2 fun ⟨b, hb⟩ => hn ⟨b, ha, hb⟩)⟩
  · rw [if_neg h]
    have hc : ∃ c ∈ s, 128 ≤ c.toNat := by
      refine Classical.byContradiction fun hn => h (List.all_eq_true.2 fun c hc => decide_eq_true ?_)
      exact Nat.lt_of_not_le fun hle => hn ⟨c, hc, hle⟩
    refine ⟨fun b => ⟨fun hb => (by cases hb), fun hb => ?_⟩, fun _ => .inr ⟨rfl, hc⟩⟩
    obtain ⟨c, h1, h2⟩ := hc
    exact absurd (hb.1 c h1) (Nat.not_lt.2 h2)

example : b64DecodeStr "AQ\nI=".toList = .ok [1, 2] ∧ b64DecodeStr "AQé=".toList = .error .valueError ∧ b64DecodeStr "AQI".toList = .error .binasciiError := by
  decide +kernel

theorem b64Loop_filter : ∀ (s : PyStr) q pads, b64Loop q pads s = b64Loop q pads (s.filter fun c => (sextetOf c).isSome || c = '=') := by
  intro s
  induction s with
  | nil => intro q pads; rfl
  | cons c cs ih =>
    intro q pads
    rw [List.filter_cons]
    by_cases hc : c = '='
    · subst hc
      rw [if_pos (by simp)]
      unfold b64Loop
      rw [if_pos rfl, if_pos rfl]
      cases q <;> simp only [ih]
    · cases hi : b64Index c with
      | none =>
        rw [if_neg (by simp [sextetOf_eq, hi, hc])]
        conv => lhs; unfold b64Loop
        rw [if_neg hc, hi]
        exact ih q pads
      | some i =>
        rw [if_pos (by simp [sextetOf_eq, hi])]
        unfold b64Loop
        rw [if_neg hc, if_neg hc, hi]
        cases q <;> simp only [ih]

/-- C105: white space and other characters outside the alphabet make no difference, so that base64 in lines is read like base64. -/
theorem C105_lines (s : PyStr) (b : Bytes) (h : s.filter (fun c => (sextetOf c).isSome || c = '=') = base64Of b) : b64Decode s = .ok b := by
  unfold b64Decode
  rw [b64Loop_filter, h, ← C99_base64]
  exact b64Decode_encode b

/-- Lines, and text after the padding. -/
example : b64Decode "AQID\r\nBA==".toList = .ok [1, 2, 3, 4] := C105_lines _ _ (by decide +kernel)
example : Base64Text "A=Q=ID B A = = !AAA".toList [1, 2, 3, 4] := ((C105_decode _).1 _).1 (by decide +kernel)
example : ¬ ∃ b, Base64Text "AQIDB".toList b := by
  rintro ⟨b, h⟩
  have h1 := ((C105_decode _).1 b).2 h
  have h2 : b64Decode "AQIDB".toList = .error .binasciiError := by decide +kernel
  rw [h2] at h1
  cases h1

end Verif
