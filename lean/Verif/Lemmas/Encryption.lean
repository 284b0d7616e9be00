import Verif.Spec.Encryption
import Verif.Lemmas.Numbers
import Verif.Lemmas.Bytes
import Verif.Lemmas.StringsShift
/-
Helper lemmas for WinRM message encryption.
-/
namespace Verif

theorem ascii_append (a b : PyStr) : ascii (a ++ b) = ascii a ++ ascii b := List.map_append

theorem lines_first : ascii "--Encrypted Boundary\r\n\tContent-Type: ".toList = mimeBoundary ++ (crlf ++ ascii "\tContent-Type: ".toList) := by decide +kernel

theorem lines_original : ascii "\r\n\tOriginalContent: type=application/soap+xml;charset=UTF-8;Length=".toList =
    crlf ++ ascii "\tOriginalContent: type=application/soap+xml;charset=UTF-8;Length=".toList := by decide +kernel

theorem lines_octets : ascii "\r\n--Encrypted Boundary\r\n\tContent-Type: application/octet-stream\r\n".toList =
    crlf ++ (mimeBoundary ++ (crlf ++ (ascii "\tContent-Type: application/octet-stream".toList ++ crlf))) := by decide +kernel

theorem lines_type (p : SealProtocol) : (sealingType p).toList = p.text := by cases p <;> decide +kernel

theorem lines_join (m c t y o l k : Bytes) : m ++ (c ++ t) ++ y ++ (c ++ o) ++ l ++ (c ++ (m ++ (c ++ (k ++ c)))) =
    m ++ c ++ t ++ y ++ c ++ o ++ l ++ c ++ m ++ c ++ k ++ c := by simp only [List.append_assoc]

theorem partLines_eq (p : SealProtocol) (n : Nat) : ascii (partLines p n) = partHeader p n := by
  unfold partLines partHeader
  rw [ascii_append, ascii_append, ascii_append, ascii_append, lines_first, lines_original, lines_octets, lines_type]
  exact lines_join _ _ _ _ _ _ _

theorem multipart_eq (p : SealProtocol) (parts : List SealedPart) : multipart p parts =
    parts.flatMap (fun s => partHeader p s.declared ++ sealedBytes s.header s.data) ++ mimeBoundary ++ [45, 45] ++ crlf := by
  have h : ascii "--Encrypted Boundary--\r\n".toList = mimeBoundary ++ [45, 45] ++ crlf := rfl
  simp only [multipart, partLines_eq, h, List.append_assoc]

theorem mimeBoundary_eq : mimeBoundary = [45, 45] ++ winrmBoundary := by decide

theorem matchBoundary_dashes (b t r : Bytes) : matchBoundary b t (45 :: 45 :: r) =
    if (b ++ t).isPrefixOf (r.dropWhile isByteSpace) then some ((r.dropWhile isByteSpace).drop (b ++ t).length) else none := by
  rfl

theorem matchBoundary_prefix {b t m r : Bytes} (h : matchBoundary b t m = some r) : ∃ r', matchBoundary b [] m = some r' := by
  unfold matchBoundary at h ⊢
  split at h
  · rename_i x
    dsimp only at h ⊢
    split at h
    · rename_i hp
      have : (b ++ []).isPrefixOf (x.dropWhile isByteSpace) = true := by
        rw [List.isPrefixOf_iff_prefix] at hp ⊢
        rw [List.append_nil]
        exact (List.prefix_append b t).trans hp
      exact ⟨_, by rw [if_pos this]⟩
    · simp at h
  · simp at h

theorem matchBoundary_none {b t m : Bytes} (h : matchBoundary b [] m = none) : matchBoundary b t m = none := by
  cases hx : matchBoundary b t m with
  | none => rfl
  | some r =>
    obtain ⟨r', hr⟩ := matchBoundary_prefix hx
    rw [h] at hr; simp at hr

theorem matchBoundary_start {b t m : Bytes} (h : (matchBoundary b t m).isSome) : ∃ r, m = 45 :: 45 :: r := by
  unfold matchBoundary at h
  split at h
  · exact ⟨_, rfl⟩
  · simp at h

theorem isByteSpace_iff (b : UInt8) : isByteSpace b = true ↔ b ∈ ([9, 10, 11, 12, 13, 32] : Bytes) := by
  have : ∀ n : Fin 256, isByteSpace (UInt8.ofNat n.val) = true ↔ UInt8.ofNat n.val ∈ ([9, 10, 11, 12, 13, 32] : Bytes) := by decide +kernel
  have h := this ⟨b.toNat, b.toNat_lt⟩
  simpa using h

/-- The boundary does not occur inside bytes that do not contain it, even together with the line that follows. -/
theorem no_match_inside {u next : Bytes} (hu : u ≠ []) (hc : ¬ HasBoundary u)
    (hn : next = [] ∨ ∃ r, next = 45 :: 45 :: r) : matchBoundary winrmBoundary [] (u ++ next) = none := by
  cases hm : matchBoundary winrmBoundary [] (u ++ next) with
  | none => rfl
  | some q =>
    exfalso
    obtain ⟨r, hr⟩ := matchBoundary_start (by rw [hm]; rfl)
    rw [hr, matchBoundary_dashes] at hm
    split at hm
    · rename_i hp
      rw [List.append_nil, List.isPrefixOf_iff_prefix] at hp
      match u, hu with
      | [x], _ =>
        simp only [List.cons_append, List.nil_append, List.cons.injEq] at hr
        rcases hn with rfl | ⟨n, rfl⟩
        · simp at hr
        · simp only [List.cons.injEq] at hr
          obtain ⟨-, -, rfl⟩ := hr
          rw [show (45 :: n : Bytes).dropWhile isByteSpace = 45 :: n from rfl] at hp
          obtain ⟨t, ht⟩ := hp
          have : winrmBoundary.head? = some 45 := by
            rw [show winrmBoundary = 69 :: winrmBoundary.tail from by decide] at ht
            simp at ht
          exact absurd this (by decide)
      | x :: y :: u', _ =>
        simp only [List.cons_append, List.cons.injEq] at hr
        obtain ⟨rfl, rfl, rfl⟩ := hr
        -- the white space after the dashes
        let sp := u'.takeWhile isByteSpace
        let v := u'.dropWhile isByteSpace
        have hsv : u' = sp ++ v := (List.takeWhile_append_dropWhile).symm
        have hspall : ∀ b ∈ sp, isByteSpace b = true := fun b hb => by
          have := List.all_takeWhile (p := isByteSpace) (l := u')
          exact List.all_eq_true.mp this b hb
        have hdw : (u' ++ next).dropWhile isByteSpace = v ++ next := by
          cases hv : v with
          | nil =>
            have hu' : u' = sp := by rw [hsv, hv, List.append_nil]
            have hall : ∀ b ∈ u', isByteSpace b = true := by rw [hu']; exact hspall
            rw [List.dropWhile_append_of_pos hall]
            rcases hn with rfl | ⟨n, rfl⟩ <;> rfl
          | cons c cs =>
            have hne : u'.dropWhile isByteSpace ≠ [] := by show v ≠ []; rw [hv]; simp
            rw [List.dropWhile_append]
            rw [if_neg (by simpa using hne)]
            show v ++ next = _
            rw [hv]
        rw [hdw] at hp
        by_cases hlen : winrmBoundary.length ≤ v.length
        · obtain ⟨t, ht⟩ := hp
          have : winrmBoundary <+: v := List.prefix_of_prefix_length_le ⟨t, ht⟩ (List.prefix_append v next) hlen
          obtain ⟨w, hw⟩ := this
          refine hc ⟨[], sp, w, ?_, fun b hb => (isByteSpace_iff b).1 (hspall b hb)⟩
          rw [hsv, ← hw]
          simp
        · obtain ⟨t, ht⟩ := hp
          have hget : winrmBoundary[v.length]? = next[0]? := by
            have h1 := congrArg (fun l : Bytes => l[v.length]?) ht
            simp only [List.getElem?_append_left (show v.length < winrmBoundary.length by omega),
              List.getElem?_append_right (Nat.le_refl v.length), Nat.sub_self] at h1
            exact h1
          rcases hn with rfl | ⟨n, rfl⟩
          · have h1 := congrArg List.length ht
            simp at h1; omega
          · have hall : ∀ i : Fin 18, winrmBoundary[i.val]? ≠ some 45 := by decide
            have hlt : v.length < 18 := by
              have : winrmBoundary.length = 18 := by decide
              omega
            exact hall ⟨v.length, hlt⟩ (by simpa using hget)
    · simp at hm

theorem hasBoundary_drop {w : Bytes} {n : Nat} (h : HasBoundary (w.drop n)) : HasBoundary w := by
  obtain ⟨b, s, a, he, hs⟩ := h
  refine ⟨w.take n ++ b, s, a, ?_, hs⟩
  have := List.take_append_drop n w
  rw [he] at this
  simpa using this.symm

theorem hasMarker_tail {b : UInt8} {w : Bytes} (h : HasMarker w) : HasMarker (b :: w) := by
  obtain ⟨p, q, rfl⟩ := h
  exact ⟨b :: p, q, by simp⟩

theorem hasBoundary_tail {b : UInt8} {w : Bytes} (h : HasBoundary w) : HasBoundary (b :: w) :=
  hasBoundary_drop (n := 1) h

/-- No boundary in a text without two dashes in a row and without a dash at the end, followed by clean bytes. -/
def noDashes : Bytes → Bool
  | [] => true
  | [b] => b != 45
  | a :: b :: bs => !(a == 45 && b == 45) && noDashes (b :: bs)

theorem noDashes_append {a b : Bytes} (ha : noDashes a = true) (hb : noDashes b = true) : noDashes (a ++ b) = true := by
  induction a with
  | nil => exact hb
  | cons x xs ih =>
    cases xs with
    | nil =>
      cases b with
      | nil => exact ha
      | cons y ys =>
        simp only [noDashes, bne_iff_ne, ne_eq] at ha
        simp [noDashes, ha, hb]
    | cons y ys =>
      simp only [noDashes, Bool.and_eq_true] at ha
      simp only [List.cons_append, noDashes, Bool.and_eq_true]
      exact ⟨ha.1, ih ha.2⟩

theorem noBoundary_append {a w : Bytes} (ha : noDashes a = true) (hw : ¬ HasBoundary w) : ¬ HasBoundary (a ++ w) := by
  induction a with
  | nil => exact hw
  | cons x xs ih =>
    rintro ⟨b, s, t, he, hs⟩
    cases b with
    | nil =>
      simp only [List.nil_append, List.cons_append, List.cons.injEq] at he
      obtain ⟨rfl, he⟩ := he
      cases xs with
      | nil => simp [noDashes] at ha
      | cons y ys =>
        simp only [List.cons_append, List.cons.injEq] at he
        obtain ⟨rfl, -⟩ := he
        simp [noDashes] at ha
    | cons b0 b' =>
      simp only [List.cons_append, List.cons.injEq] at he
      refine ih ?_ ⟨b', s, t, ?_, hs⟩
      · cases xs with
        | nil => rfl
        | cons y ys =>
          simp only [noDashes, Bool.and_eq_true] at ha
          exact ha.2
      · exact he.2

/-- The split function passes over bytes in which no boundary starts. -/
theorem split_clean {w next cur : Bytes} (hw : ¬ HasBoundary w) (hn : next = [] ∨ ∃ r, next = 45 :: 45 :: r) :
    splitBoundary winrmBoundary cur (w ++ next) = splitBoundary winrmBoundary (cur ++ w) next := by
  induction w generalizing cur with
  | nil => simp
  | cons b w ih =>
    have hm := matchBoundary_none (t := crlf) (no_match_inside (u := b :: w) (by simp) hw hn)
    rw [splitBoundary]
    split
    · rename_i hx
      rw [hm] at hx; simp at hx
    · simp only [List.cons_append]
      rw [ih fun h => hw (hasBoundary_tail h)]
      simp

theorem split_boundary (cur rest : Bytes) :
    splitBoundary winrmBoundary cur (mimeBoundary ++ crlf ++ rest) = cur :: splitBoundary winrmBoundary [] rest := by
  have hm : matchBoundary winrmBoundary crlf (mimeBoundary ++ crlf ++ rest) = some rest := by
    rw [show mimeBoundary ++ crlf ++ rest = 45 :: 45 :: (winrmBoundary ++ crlf ++ rest) from by
      rw [mimeBoundary_eq]; simp, matchBoundary_dashes]
    have hd : (winrmBoundary ++ crlf ++ rest).dropWhile isByteSpace = winrmBoundary ++ crlf ++ rest := by
      rw [show winrmBoundary = 69 :: winrmBoundary.tail from by decide]
      rfl
    rw [hd, if_pos (by rw [List.isPrefixOf_iff_prefix]; exact List.prefix_append _ _), List.drop_left]
  rw [splitBoundary]
  split
  · rename_i q hx
    rw [hm] at hx
    simp only [Option.some.injEq] at hx
    rw [hx]
  · rename_i hx
    rw [hm] at hx; simp at hx

/-- The end of a body. -/
def bodyEnd : Bytes := mimeBoundary ++ [45, 45] ++ crlf

theorem split_end (cur : Bytes) : splitBoundary winrmBoundary cur bodyEnd = [cur ++ bodyEnd] := by
  have key : ∀ (m cur : Bytes), (∀ n, matchBoundary winrmBoundary crlf (m.drop n) = none) →
      splitBoundary winrmBoundary cur m = [cur ++ m] := by
    intro m
    induction m with
    | nil =>
      intro cur h
      rw [splitBoundary]
      split
      · rename_i hx
        have := h 0
        rw [List.drop_zero] at this
        rw [this] at hx; simp at hx
      · simp
    | cons b m ih =>
      intro cur h
      rw [splitBoundary]
      split
      · rename_i hx
        have := h 0
        rw [List.drop_zero] at this
        rw [this] at hx; simp at hx
      · simp only
        rw [ih _ fun n => by simpa using h (n + 1)]
        simp
  refine key _ _ fun n => ?_
  by_cases hn : n < 24
  · have : ∀ i : Fin 24, matchBoundary winrmBoundary crlf (bodyEnd.drop i.val) = none := by decide
    exact this ⟨n, hn⟩
  · rw [List.drop_eq_nil_of_le (by have : bodyEnd.length = 24 := by decide
                                   omega)]
    rfl

theorem removeEnd_clean {w : Bytes} (hw : ¬ HasBoundary w) : removeEnd winrmBoundary w = w := by
  induction w with
  | nil => rfl
  | cons b w ih =>
    have hm := matchBoundary_none (t := [45, 45, 13, 10]) (no_match_inside (u := b :: w) (next := []) (by simp) hw (.inl rfl))
    rw [List.append_nil] at hm
    rw [removeEnd]
    split
    · rename_i hx; rw [hm] at hx; simp at hx
    · rename_i hx; rw [hm] at hx; simp at hx
    · rw [ih fun h => hw (hasBoundary_tail h)]

theorem removeEnd_end {w : Bytes} (hw : ¬ HasBoundary w) : removeEnd winrmBoundary (w ++ bodyEnd) = w := by
  induction w with
  | nil => decide
  | cons b w ih =>
    have hm := matchBoundary_none (t := [45, 45, 13, 10])
      (no_match_inside (u := b :: w) (next := bodyEnd) (by simp) hw (.inr ⟨_, rfl⟩))
    rw [List.cons_append] at hm ⊢
    rw [removeEnd]
    split
    · rename_i hx; rw [hm] at hx; simp at hx
    · rename_i hx; rw [hm] at hx; simp at hx
    · rw [ih fun h => hw (hasBoundary_tail h)]

theorem removeAll_none {w : Bytes} (hw : ¬ HasMarker w) : removeAll octetMarker (by decide) w = w := by
  induction w with
  | nil =>
    rw [removeAll]
    split
    · rename_i h
      exact absurd h (by decide)
    · rfl
  | cons b w ih =>
    rw [removeAll]
    split
    · rename_i h
      obtain ⟨t, ht⟩ := List.isPrefixOf_iff_prefix.mp h
      exact absurd ⟨[], t, by rw [List.nil_append]; exact ht.symm⟩ hw
    · simp only
      rw [ih fun h => hw (hasMarker_tail h)]

theorem removeAll_marker {w : Bytes} (hw : ¬ HasMarker w) : removeAll octetMarker (by decide) (octetMarker ++ w) = w := by
  rw [removeAll, dif_pos (by rw [List.isPrefixOf_iff_prefix]; exact List.prefix_append _ _), List.drop_left,
    removeAll_none hw]

theorem unpackI32_enc {n : Nat} (h : n < 2 ^ 31) : unpackI32 (leEnc 4 n) = .ok (n : Int) := by
  unfold unpackI32
  rw [unpackLE_enc (by omega)]
  simp only [bind, Except.bind, pure, Except.pure, h, if_true]

theorem leEnc4_length (n : Nat) : (leEnc 4 n).length = 4 := rfl

/-- What comes out of the payload of a clean part. -/
theorem payload_round {header data tail : Bytes} (hl : header.length < 2 ^ 31)
    (hb : ¬ HasBoundary (sealedBytes header data)) (hm : ¬ HasMarker (sealedBytes header data))
    (ht : tail = [] ∨ tail = bodyEnd) :
    payloadParts winrmBoundary (octetMarker ++ sealedBytes header data ++ tail) = .ok (header, data) := by
  have hb' : ¬ HasBoundary (octetMarker ++ sealedBytes header data) := noBoundary_append (by decide) hb
  have hr : removeEnd winrmBoundary (octetMarker ++ sealedBytes header data ++ tail) = octetMarker ++ sealedBytes header data := by
    rcases ht with rfl | rfl
    · rw [List.append_nil, removeEnd_clean hb']
    · rw [removeEnd_end hb']
  unfold payloadParts
  rw [hr, removeAll_marker hm]
  dsimp only
  have h4 : (sealedBytes header data).take 4 = leEnc 4 header.length := by
    rw [sealedBytes, List.append_assoc, take_append_eq (leEnc4_length _)]
  rw [h4, unpackI32_enc hl]
  simp only [bind, Except.bind, pure, Except.pure]
  have hs : sliceIndex (sealedBytes header data).length (4 + (header.length : Int)) = 4 + header.length := by
    unfold sliceIndex
    rw [if_neg (by omega)]
    simp only [sealedBytes, List.length_append, leEnc4_length]
    omega
  rw [hs]
  have h1 : (sealedBytes header data).take (4 + header.length) = leEnc 4 header.length ++ header := by
    rw [sealedBytes, take_append_eq (by simp)]
  have h2 : (sealedBytes header data).drop (4 + header.length) = data := by
    rw [sealedBytes, drop_append_eq (by simp)]
  rw [h1, h2, drop_append_eq (leEnc4_length _)]

theorem unpackI32_signed {n : Int} (h1 : -2 ^ 31 ≤ n) (h2 : n < 2 ^ 31) : unpackI32 (leEnc 4 (n % 2 ^ 32).toNat) = .ok n := by
  unfold unpackI32
  rw [unpackLE_enc (by omega)]
  simp only [bind, Except.bind, pure, Except.pure]
  split <;> (congr 1; omega)

/-- The pieces of any payload that starts with a number. -/
theorem payload_signed {n : Int} (h1 : -2 ^ 31 ≤ n) (h2 : n < 2 ^ 31) (c : Bytes)
    (hb : ¬ HasBoundary (leEnc 4 (n % 2 ^ 32).toNat ++ c)) (hm : ¬ HasMarker (leEnc 4 (n % 2 ^ 32).toNat ++ c)) :
    payloadParts winrmBoundary (octetMarker ++ (leEnc 4 (n % 2 ^ 32).toNat ++ c)) =
      .ok (c.take (sliceIndex (4 + c.length) (4 + n) - 4), (leEnc 4 (n % 2 ^ 32).toNat ++ c).drop (sliceIndex (4 + c.length) (4 + n))) := by
  unfold payloadParts
  rw [removeEnd_clean (noBoundary_append (by decide) hb), removeAll_marker hm]
  dsimp only
  rw [take_append_eq (leEnc4_length _), unpackI32_signed h1 h2]
  simp only [bind, Except.bind, pure, Except.pure, List.length_append, leEnc4_length]
  rw [List.drop_take, drop_append_eq (leEnc4_length _)]

/-! The header of a part -/

/-- The lines between the two boundaries. -/
def headerLines (p : SealProtocol) (n : Nat) : Bytes :=
  ascii "\tContent-Type: ".toList ++ ascii p.text ++ crlf ++
    ascii "\tOriginalContent: type=application/soap+xml;charset=UTF-8;Length=".toList ++ ascii (pyStrNat n) ++ crlf

theorem partHeader_eq (p : SealProtocol) (n : Nat) :
    partHeader p n = mimeBoundary ++ crlf ++ headerLines p n ++ (mimeBoundary ++ crlf ++ octetMarker) := by
  rw [show octetMarker = ascii "\tContent-Type: application/octet-stream".toList ++ crlf from by decide]
  simp only [partHeader, headerLines, List.append_assoc]

theorem digit_bytes (n : Nat) : ∀ b ∈ ascii (pyStrNat n), 48 ≤ b.toNat ∧ b.toNat ≤ 57 := by
  intro b hb
  obtain ⟨c, hc, rfl⟩ := List.mem_map.mp hb
  have hd := (pyStrNat_decimal n).2 c hc
  simp only [Char.isDigit, Bool.and_eq_true, decide_eq_true_eq] at hd
  have h1 : 48 ≤ c.toNat := by simpa using UInt32.le_iff_toNat_le.mp hd.1
  have h2 : c.toNat ≤ 57 := by simpa using UInt32.le_iff_toNat_le.mp hd.2
  rw [UInt8.toNat_ofNat']
  omega

theorem noDashes_digits {l : Bytes} (h : ∀ b ∈ l, 48 ≤ b.toNat ∧ b.toNat ≤ 57) : noDashes l = true := by
  have hne : ∀ b ∈ l, b ≠ 45 := by
    rintro b hb rfl
    have := h 45 hb
    exact absurd this.1 (by decide)
  induction l with
  | nil => rfl
  | cons b bs ih =>
    cases bs with
    | nil => simp [noDashes, hne b (by simp)]
    | cons c cs =>
      simp only [noDashes, Bool.and_eq_true]
      exact ⟨by simp [hne b (by simp)], ih (fun x hx => h x (List.mem_cons_of_mem _ hx)) (fun x hx => hne x (List.mem_cons_of_mem _ hx))⟩

theorem not_hasBoundary_nil : ¬ HasBoundary [] := by
  rintro ⟨b, s, a, he, -⟩
  have := congrArg List.length he
  simp at this

theorem headerLines_clean (p : SealProtocol) (n : Nat) : ¬ HasBoundary (headerLines p n) := by
  rw [← List.append_nil (headerLines p n)]
  refine noBoundary_append ?_ not_hasBoundary_nil
  unfold headerLines
  refine noDashes_append (noDashes_append (noDashes_append (noDashes_append (noDashes_append (by decide) ?_) (by decide))
    (by decide)) (noDashes_digits (digit_bytes n))) (by decide)
  cases p <;> decide

theorem ascii_digits_back (n : Nat) : (ascii (pyStrNat n)).map (fun x => Char.ofNat x.toNat) = pyStrNat n := by
  unfold ascii
  rw [List.map_map]
  conv => rhs; rw [← List.map_id (pyStrNat n)]
  apply List.map_congr_left
  intro c hc
  have hd := (pyStrNat_decimal n).2 c hc
  simp only [Char.isDigit, Bool.and_eq_true, decide_eq_true_eq] at hd
  have h2 : c.toNat ≤ 57 := by simpa using UInt32.le_iff_toNat_le.mp hd.2
  simp only [Function.comp_apply, UInt8.toNat_ofNat', id_eq]
  rw [Nat.mod_eq_of_lt (by omega)]
  exact Char.ofNat_toNat c

theorem upTo_digits {l : Bytes} (h : ∀ b ∈ l, 48 ≤ b.toNat ∧ b.toNat ≤ 57) : upTo (ascii "Length=".toList) l = l := by
  induction l with
  | nil => rfl
  | cons b bs ih =>
    rw [upTo, if_neg, ih fun x hx => h x (List.mem_cons_of_mem _ hx)]
    rw [List.isPrefixOf_iff_prefix]
    rintro ⟨t, ht⟩
    rw [show ascii "Length=".toList = 76 :: ascii "ength=".toList from by decide] at ht
    simp only [List.cons_append, List.cons.injEq] at ht
    have := h b (by simp)
    rw [← ht.1] at this
    exact absurd this.2 (by decide)

theorem afterFirst_length {pat l x : Bytes} (h : afterFirst pat l = some x) : pat.length ≤ l.length := by
  induction l with
  | nil => simp [afterFirst] at h
  | cons b l ih =>
    rw [afterFirst] at h
    split at h
    · rename_i hp
      exact (List.isPrefixOf_iff_prefix.mp hp).length_le
    · have := ih h
      simp only [List.length_cons]
      omega

theorem afterFirst_append {pat l x r : Bytes} (h : afterFirst pat l = some x) : afterFirst pat (l ++ r) = some (x ++ r) := by
  induction l with
  | nil => simp [afterFirst] at h
  | cons b l ih =>
    have hl := afterFirst_length h
    rw [afterFirst] at h
    rw [List.cons_append, afterFirst]
    split at h
    · rename_i hp
      have hp' := List.isPrefixOf_iff_prefix.mp hp
      simp only [Option.some.injEq] at h
      rw [if_pos, ← h, ← List.cons_append, List.drop_append_of_le_length hl]
      rw [List.isPrefixOf_iff_prefix, ← List.cons_append]
      exact hp'.trans (List.prefix_append _ _)
    · rename_i hp
      rw [if_neg, ih h]
      intro hq
      refine hp ?_
      rw [List.isPrefixOf_iff_prefix] at hq ⊢
      rw [← List.cons_append] at hq
      exact List.prefix_of_prefix_length_le hq (List.prefix_append _ _) hl

theorem headerText_after (p : SealProtocol) (r : Bytes) :
    afterFirst (ascii "Length=".toList) (ascii "Content-Type: ".toList ++ ascii p.text ++ crlf ++
      ascii "\tOriginalContent: type=application/soap+xml;charset=UTF-8;Length=".toList ++ r) = some r := by
  have h : afterFirst (ascii "Length=".toList) (ascii "Content-Type: ".toList ++ ascii p.text ++ crlf ++
      ascii "\tOriginalContent: type=application/soap+xml;charset=UTF-8;Length=".toList) = some [] := by
    cases p <;> decide +kernel
  have := afterFirst_append (r := r) h
  rwa [List.nil_append] at this

theorem stripBytes_core {a : UInt8} {l : Bytes} {z : UInt8} (ha : isByteSpace a = false) (hz : isByteSpace z = false) :
    stripBytes (9 :: a :: (l ++ [z]) ++ crlf) = a :: (l ++ [z]) := by
  have h9 : isByteSpace 9 = true := by decide
  have h13 : isByteSpace 13 = true := by decide
  have h10 : isByteSpace 10 = true := by decide
  simp [stripBytes, crlf, List.dropWhile, h9, h13, h10, ha, hz]

theorem declared_headerLines (p : SealProtocol) (n : Nat) : declaredLength (headerLines p n) = .ok (n : Int) := by
  have hne : pyStrNat n ≠ [] := (pyStrNat_decimal n).1
  obtain ⟨ds, d, hds⟩ : ∃ ds d, ascii (pyStrNat n) = ds ++ [d] := by
    have : ascii (pyStrNat n) ≠ [] := by simpa [ascii] using hne
    exact ⟨_, _, (List.dropLast_concat_getLast this).symm⟩
  have hd : isByteSpace d = false := by
    have := digit_bytes n d (by rw [hds]; simp)
    simp only [isByteSpace, Bool.or_eq_false_iff, Bool.and_eq_false_iff, decide_eq_false_iff_not, beq_eq_false_iff_ne]
    omega
  have hstrip : stripBytes (headerLines p n) = ascii "Content-Type: ".toList ++ ascii p.text ++ crlf ++
      ascii "\tOriginalContent: type=application/soap+xml;charset=UTF-8;Length=".toList ++ ascii (pyStrNat n) := by
    have := stripBytes_core (a := 67) (z := d) (l := ascii "ontent-Type: ".toList ++ ascii p.text ++ crlf ++
      ascii "\tOriginalContent: type=application/soap+xml;charset=UTF-8;Length=".toList ++ ds) (by decide) hd
    rw [show ascii "Content-Type: ".toList = 67 :: ascii "ontent-Type: ".toList from by decide, hds]
    unfold headerLines
    rw [show ascii "\tContent-Type: ".toList = 9 :: 67 :: ascii "ontent-Type: ".toList from by decide, hds]
    simp only [List.cons_append, List.append_assoc] at this ⊢
    exact this
  unfold declaredLength
  rw [hstrip, headerText_after]
  simp only [upTo_digits (digit_bytes n)]
  unfold intBytes
  rw [if_neg, ascii_digits_back, pyInt_pyStrNat]
  simp only [List.any_eq_true, decide_eq_true_eq, not_exists, not_and]
  intro b hb
  have := digit_bytes n b hb
  omega

/-- The parts of a multipart body. -/
theorem bodyParts_multipart (p : SealProtocol) (parts : List SealedPart) (hne : parts ≠ []) (hc : ∀ s ∈ parts, s.Clean) :
    ∃ qs : List (Bytes × Bytes), bodyParts winrmBoundary (multipart p parts) = qs.flatMap (fun q => [q.1, q.2]) ∧
      qs.length = parts.length ∧
      ∀ (i : Nat) (s : SealedPart), parts[i]? = some s → ∃ t, (t = [] ∨ t = bodyEnd) ∧
        qs[i]? = some (headerLines p s.declared, octetMarker ++ sealedBytes s.header s.data ++ t) := by
  -- splitting after the first boundary
  have hnn : ∀ s : SealedPart, ∀ t, headerLines p s.declared ≠ [] ∧ octetMarker ++ sealedBytes s.header s.data ++ t ≠ [] := by
    intro s t
    refine ⟨?_, ?_⟩
    · intro h
      have := congrArg List.length h
      simp [headerLines, ascii] at this
    · intro h
      have := congrArg List.length h
      simp [octetMarker, ascii] at this
  have hsplit : ∀ (parts : List SealedPart), parts ≠ [] → (∀ s ∈ parts, s.Clean) → ∀ cur,
      ∃ qs : List (Bytes × Bytes), splitBoundary winrmBoundary cur (multipart p parts) = cur :: qs.flatMap (fun q => [q.1, q.2]) ∧
        qs.length = parts.length ∧ (∀ q ∈ qs, q.1 ≠ [] ∧ q.2 ≠ []) ∧
        ∀ (i : Nat) (s : SealedPart), parts[i]? = some s → ∃ t, (t = [] ∨ t = bodyEnd) ∧
          qs[i]? = some (headerLines p s.declared, octetMarker ++ sealedBytes s.header s.data ++ t) := by
    intro parts
    induction parts with
    | nil => intro h; exact absurd rfl h
    | cons s rest ih =>
      intro _ hc cur
      have hs := hc s (by simp)
      have hrest : ∃ r, multipart p rest = 45 :: 45 :: r := by
        cases rest with
        | nil => exact ⟨_, rfl⟩
        | cons s' rest' => exact ⟨_, rfl⟩
      have hm : multipart p (s :: rest) = mimeBoundary ++ crlf ++ (headerLines p s.declared ++ (mimeBoundary ++ crlf ++
          (octetMarker ++ sealedBytes s.header s.data ++ multipart p rest))) := by
        simp only [multipart_eq, List.flatMap_cons, partHeader_eq, List.append_assoc]
      have hclean : ¬ HasBoundary (octetMarker ++ sealedBytes s.header s.data) := noBoundary_append (by decide) hs.2.1
      have step : splitBoundary winrmBoundary cur (multipart p (s :: rest)) = cur :: headerLines p s.declared ::
          splitBoundary winrmBoundary (octetMarker ++ sealedBytes s.header s.data) (multipart p rest) := by
        rw [hm, split_boundary, split_clean (headerLines_clean p _) (.inr ⟨winrmBoundary ++ (crlf ++
          (octetMarker ++ (sealedBytes s.header s.data ++ multipart p rest))), by
          rw [mimeBoundary_eq]; simp only [List.cons_append, List.nil_append, List.append_assoc]⟩), List.nil_append,
          split_boundary, split_clean hclean (.inr hrest), List.nil_append]
      by_cases hr : rest = []
      · subst hr
        refine ⟨[(headerLines p s.declared, octetMarker ++ sealedBytes s.header s.data ++ bodyEnd)], ?_, rfl, ?_, ?_⟩
        · rw [step, show multipart p [] = bodyEnd from by simp [multipart_eq, bodyEnd], split_end]
          simp
        · intro q hq
          simp only [List.mem_singleton] at hq
          subst hq
          exact hnn s _
        · intro i s' hi
          cases i with
          | zero =>
            simp only [List.getElem?_cons_zero, Option.some.injEq] at hi
            subst hi
            exact ⟨bodyEnd, .inr rfl, rfl⟩
          | succ i => simp at hi
      · obtain ⟨qs, h1, h2, h3, h4⟩ := ih hr (fun x hx => hc x (List.mem_cons_of_mem _ hx)) (octetMarker ++ sealedBytes s.header s.data)
        refine ⟨(headerLines p s.declared, octetMarker ++ sealedBytes s.header s.data) :: qs, ?_, by simp [h2], ?_, ?_⟩
        · rw [step, h1]; simp
        · intro q hq
          rcases List.mem_cons.mp hq with rfl | hq
          · have := hnn s []
            rw [List.append_nil] at this
            exact this
          · exact h3 q hq
        · intro i s' hi
          cases i with
          | zero =>
            simp only [List.getElem?_cons_zero, Option.some.injEq] at hi
            subst hi
            exact ⟨[], .inl rfl, by simp⟩
          | succ i =>
            simp only [List.getElem?_cons_succ] at hi ⊢
            exact h4 i s' hi
  obtain ⟨qs, h1, h2, h3, h4⟩ := hsplit parts hne hc []
  refine ⟨qs, ?_, h2, h4⟩
  unfold bodyParts
  rw [h1, List.filter_cons, if_neg (by simp)]
  rw [List.filter_eq_self]
  intro x hx
  obtain ⟨q, hq, hxq⟩ := List.mem_flatMap.mp hx
  have := h3 q hq
  simp only [List.mem_cons, List.not_mem_nil, or_false] at hxq
  rcases hxq with rfl | rfl <;> simp [this]

/-- What unwrapping should do with the parts. -/
def openParts (ctx : SealContext) (k : Nat) : List SealedPart → Except PyErr Bytes
  | [] => .ok []
  | s :: ss => do
    let plain ← ctx.unwrap k s.header s.data
    if plain.length ≠ s.declared then .error .winRMError
    else do
      let rest ← openParts ctx (k + 1) ss
      return plain ++ rest

theorem unwrap_multipart (ctx : SealContext) (p : SealProtocol) (parts : List SealedPart) (hne : parts ≠ [])
    (hc : ∀ s ∈ parts, s.Clean) :
    unwrapMessage ctx (multipart p parts) winrmBoundary = openParts ctx 0 parts := by
  obtain ⟨qs, h1, h2, h4⟩ := bodyParts_multipart p parts hne hc
  unfold unwrapMessage
  rw [h1]
  clear h1 hne
  generalize 0 = k
  induction parts generalizing qs k with
  | nil =>
    have : qs = [] := by simpa using h2
    subst this; rfl
  | cons s ss ih =>
    cases qs with
    | nil => simp at h2
    | cons q qs =>
      obtain ⟨t, ht, hq⟩ := h4 0 s rfl
      simp only [List.getElem?_cons_zero, Option.some.injEq] at hq
      subst hq
      have hs := hc s (by simp)
      have ih' := ih (fun x hx => hc x (List.mem_cons_of_mem _ hx)) qs (by simpa using h2)
        (fun i s' hi => by simpa using h4 (i + 1) s' (by simpa using hi)) (k + 1)
      simp only [List.flatMap_cons, List.cons_append, List.nil_append, unwrapParts, openParts, declared_headerLines, bind,
        Except.bind, payload_round hs.1 hs.2.1 hs.2.2 ht, ih']
      cases ctx.unwrap k s.header s.data with
      | error e => rfl
      | ok plain =>
        dsimp only
        by_cases hp : plain.length = s.declared
        · rw [if_neg (by simp [hp]), if_neg (by simp [hp])]
        · rw [if_pos (by simpa [Int.natCast_inj] using hp), if_pos hp]

theorem wrapChunks_eq (ctx : SealContext) (p : SealProtocol) (pieces : List Bytes) (k : Nat)
    (h : ∀ i m, pieces[i]? = some m → (ctx.wrap (k + i) m).1.length < 2 ^ 31) :
    wrapChunks ctx p k pieces =
      .ok ((sealedParts ctx k pieces).flatMap (fun s => partHeader p s.declared ++ sealedBytes s.header s.data)) := by
  induction pieces generalizing k with
  | nil => rfl
  | cons m ms ih =>
    have h0 := h 0 m rfl
    have hi := ih (k + 1) fun i m' hm => by
      have := h (i + 1) m' (by simpa using hm)
      rwa [show k + (i + 1) = k + 1 + i from by omega] at this
    simp only [wrapChunks, wrapOne, bind, Except.bind, pure, Except.pure, hi, sealedParts, List.flatMap_cons, sealedBytes]
    rw [if_pos (by simpa using h0)]

theorem wrapMessage_eq (ctx : SealContext) (p : SealProtocol) (message : Bytes)
    (h : ∀ i m, (wrapPieces p message)[i]? = some m → (ctx.wrap i m).1.length < 2 ^ 31) :
    wrapMessage ctx p message = .ok (wrapContentType p message, multipart p (sealedParts ctx 0 (wrapPieces p message))) := by
  unfold wrapMessage
  rw [wrapChunks_eq ctx p _ 0 (by simpa using h)]
  simp only [bind, Except.bind, pure, Except.pure, multipart_eq, List.append_assoc]
  rfl

theorem chunksOf_flatten (n : Nat) (hn : 0 < n) (m : Bytes) : (chunksOf n hn m).flatten = m := by
  induction m using chunksOf.induct n hn with
  | case1 => unfold chunksOf; simp
  | case2 m h ih => rw [chunksOf, dif_neg h, List.flatten_cons, ih, List.take_append_drop]

theorem chunksOf_le (n : Nat) (hn : 0 < n) (m : Bytes) : ∀ c ∈ chunksOf n hn m, c.length ≤ n ∧ c ≠ [] := by
  induction m using chunksOf.induct n hn with
  | case1 => unfold chunksOf; simp
  | case2 m h ih =>
    rw [chunksOf, dif_neg h]
    intro c hc
    rcases List.mem_cons.mp hc with rfl | hc
    · refine ⟨by simp; omega, ?_⟩
      intro h0
      rcases List.take_eq_nil_iff.mp h0 with h1 | h1
      · omega
      · exact h h1
    · exact ih c hc

theorem wrapPieces_spec (p : SealProtocol) (message : Bytes) :
    (wrapPieces p message).flatten = message ∧ wrapPieces p message ≠ [] ∧
    (p = .credSSP → ∀ c ∈ wrapPieces p message, c.length ≤ 16384) ∧
    ((p ≠ .credSSP ∨ message.length ≤ 16384) → wrapPieces p message = [message]) := by
  unfold wrapPieces
  split
  · rename_i h
    refine ⟨chunksOf_flatten _ _ _, ?_, fun _ c hc => (chunksOf_le _ _ _ c hc).1, ?_⟩
    · intro h0
      have := chunksOf_flatten sixteenKB (by decide) message
      rw [h0] at this
      have h1 := h.2
      rw [← this] at h1
      simp at h1
    · have := h.2
      rintro (h1 | h1)
      · exact absurd h.1 h1
      · unfold sixteenKB at this; omega
  · rename_i h
    refine ⟨by simp, by simp, fun hp c hc => ?_, fun _ => rfl⟩
    simp only [List.mem_singleton] at hc
    subst hc
    unfold sixteenKB at h
    exact Classical.byContradiction fun hc => h ⟨hp, by omega⟩

theorem open_sealed (ctx : SealContext) (pieces : List Bytes) (k : Nat)
    (h : ∀ i m, pieces[i]? = some m → ctx.Undoes (k + i) m) :
    openParts ctx k (sealedParts ctx k pieces) = .ok pieces.flatten ∧ ∀ s ∈ sealedParts ctx k pieces, s.Clean := by
  induction pieces generalizing k with
  | nil => exact ⟨rfl, by simp [sealedParts]⟩
  | cons m ms ih =>
    obtain ⟨hd, data, hw, hu, hl, hb, hm⟩ := h 0 m rfl
    rw [Nat.add_zero] at hw hu
    obtain ⟨i1, i2⟩ := ih (k + 1) fun i m' hm => by
      have := h (i + 1) m' (by simpa using hm)
      rwa [show k + (i + 1) = k + 1 + i from by omega] at this
    refine ⟨?_, ?_⟩
    · simp only [sealedParts, openParts, hw, hu, bind, Except.bind, pure, Except.pure, Nat.add_zero, i1, List.flatten_cons]
      simp
    · intro s hs
      simp only [sealedParts] at hs
      rcases List.mem_cons.mp hs with rfl | hs
      · rw [hw]; exact ⟨hl, hb, hm⟩
      · exact i2 s hs

theorem no_infix_of_missing {b : UInt8} {w pat : Bytes} (hb : b ∈ pat) (h : b ∉ w) : ¬ ∃ x y, w = x ++ pat ++ y := by
  rintro ⟨x, y, rfl⟩
  exact h (by simp [hb])

end Verif
