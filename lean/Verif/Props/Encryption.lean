import Verif.Lemmas.Encryption
/-
C21, C22, C23: WinRM message encryption.
-/
namespace Verif

/-- C21, full claim: every body, every protocol, every sealing function that can be undone. Proved here for sealing functions
without padding whose output contains neither the boundary nor the marker line; `C21_marker_false` and `C21_boundary_false`
show that the claim is false without that, `C21_padding_false` that a padding that is cut off again is not accepted. The
body is sealed in pieces: one piece or, for CredSSP and a long body, chunks. -/
theorem C21_roundtrip_partial (p : SealProtocol) (message : Bytes) :
    ∃ pieces : List Bytes, pieces.flatten = message ∧ (p ≠ .credSSP ∨ message.length ≤ 16384 → pieces = [message]) ∧
      ∀ ctx : SealContext, (∀ i piece, pieces[i]? = some piece → ctx.Undoes i piece) →
        ∃ contentType body, wrapMessage ctx p message = .ok (contentType, body) ∧
          unwrapMessage ctx body winrmBoundary = .ok message := by
  obtain ⟨h1, h2, -, h4⟩ := wrapPieces_spec p message
  refine ⟨wrapPieces p message, h1, h4, fun ctx hc => ?_⟩
  refine ⟨_, _, wrapMessage_eq ctx p message fun i m hm => ?_, ?_⟩
  · obtain ⟨hd, data, hw, -, hl, -⟩ := hc i m hm
    rw [hw]; exact hl
  · have hne : sealedParts ctx 0 (wrapPieces p message) ≠ [] := by
      cases hx : wrapPieces p message with
      | nil => exact absurd hx h2
      | cons m ms => simp [sealedParts]
    obtain ⟨ho, hcl⟩ := open_sealed ctx (wrapPieces p message) 0 (by simpa using hc)
    rw [unwrap_multipart ctx p _ hne hcl, ho, h1]

/-- A context for the examples: the header is the number of the call modulo 100, the data is the complement of the message. -/
def flipContext : SealContext where
  wrap k m := ([UInt8.ofNat (k % 100)], m.map (255 - ·), 0)
  unwrap _ _ d := .ok (d.map (255 - ·))

/-- Complemented ASCII text stays clear of the marker and the boundary. -/
theorem flip_undoes (k : Nat) (piece : Bytes) (h : ∀ b ∈ piece, b.toNat < 128) : flipContext.Undoes k piece := by
  have hmem : (110 : UInt8) ∉ sealedBytes [UInt8.ofNat (k % 100)] (piece.map (255 - ·)) := by
    intro hm
    simp only [sealedBytes, List.length_singleton, List.mem_append, List.mem_singleton, List.mem_map] at hm
    rcases hm with (hm | hm) | ⟨x, hx, hm⟩
    · exact absurd hm (by decide)
    · have := congrArg UInt8.toNat hm
      rw [UInt8.toNat_ofNat'] at this
      have h2 : (110 : UInt8).toNat = 110 := by decide
      omega
    · have := h x hx
      have h1 := congrArg UInt8.toNat hm
      rw [UInt8.toNat_sub_of_le _ _ (by rw [UInt8.le_iff_toNat_le]; have : (255 : UInt8).toNat = 255 := by decide
                                        omega)] at h1
      have h2 : (110 : UInt8).toNat = 110 := by decide
      have h3 : (255 : UInt8).toNat = 255 := by decide
      omega
  refine ⟨_, _, rfl, ?_, by simp, ?_, ?_⟩
  · simp only [flipContext, List.map_map]
    congr 1
    conv => rhs; rw [← List.map_id piece]
    apply List.map_congr_left
    intro x _
    simp only [Function.comp_apply, id_eq]
    rw [← UInt8.toNat_inj]
    have hx : x.toNat < 256 := x.toNat_lt
    have h3 : (255 : UInt8).toNat = 255 := by decide
    rw [UInt8.toNat_sub_of_le _ _ (by rw [UInt8.le_iff_toNat_le, UInt8.toNat_sub_of_le _ _ (by rw [UInt8.le_iff_toNat_le]; omega)]; omega),
      UInt8.toNat_sub_of_le _ _ (by rw [UInt8.le_iff_toNat_le]; omega)]
    omega
  · rintro ⟨b, s, a, he, -⟩
    exact no_infix_of_missing (b := 110) (pat := winrmBoundary) (by decide) hmem ⟨_, _, he⟩
  · rintro ⟨b, a, he⟩
    exact no_infix_of_missing (b := 110) (pat := octetMarker) (by decide) hmem ⟨_, _, he⟩

/-- C21 applies to a CredSSP body in three chunks. -/
example : ∃ contentType body, wrapMessage flipContext .credSSP (List.replicate 40000 65) = .ok (contentType, body) ∧
    unwrapMessage flipContext body winrmBoundary = .ok (List.replicate 40000 65) := by
  obtain ⟨pieces, hf, -, h⟩ := C21_roundtrip_partial .credSSP (List.replicate 40000 65)
  refine h _ fun i piece hi => flip_undoes i piece fun b hb => ?_
  have : b ∈ pieces.flatten := List.mem_flatten.mpr ⟨piece, List.mem_of_getElem? hi, hb⟩
  rw [hf, List.mem_replicate] at this
  rw [this.2]; decide

/-- A context that leaves the message as it is; it can be undone. -/
def plainContext : SealContext where
  wrap _ m := ([], m, 0)
  unwrap _ _ d := .ok d

/-- What unwrapping gives for the wrapped message. -/
def throughWire (ctx : SealContext) (p : SealProtocol) (message : Bytes) : Except PyErr Bytes := do
  let (_, body) ← wrapMessage ctx p message
  unwrapMessage ctx body winrmBoundary

/-- C21 is false for sealed data with the marker line in it: the line is removed and the length check fails. -/
theorem C21_marker_false : ∃ ctx : SealContext, (∀ k m, ∃ h d, ctx.wrap k m = (h, d, 0) ∧ ctx.unwrap k h d = .ok m) ∧
    ∃ message, throughWire ctx .spnego message = .error .winRMError :=
  ⟨plainContext, fun _ m => ⟨[], m, rfl, rfl⟩, [1] ++ octetMarker ++ [2], by decide +kernel⟩

/-- C21 is false for sealed data with the boundary in it: the data is split there. -/
theorem C21_boundary_false : ∃ ctx : SealContext, (∀ k m, ∃ h d, ctx.wrap k m = (h, d, 0) ∧ ctx.unwrap k h d = .ok m) ∧
    ∃ message e, throughWire ctx .kerberos message = .error e :=
  ⟨plainContext, fun _ m => ⟨[], m, rfl, rfl⟩, [1] ++ mimeBoundary ++ crlf ++ [2], .winRMError, by decide +kernel⟩

/-- A context that appends one byte of padding and cuts it off again. -/
def paddedContext : SealContext where
  wrap _ m := ([], m ++ [0], 1)
  unwrap _ _ d := .ok d.dropLast

/-- C21 is false for a context that reports padding and removes it when it unwraps: the declared length includes the
padding. -/
theorem C21_padding_false : ∃ ctx : SealContext, (∀ k m, ∃ h d n, ctx.wrap k m = (h, d, n) ∧ ctx.unwrap k h d = .ok m) ∧
    ∃ message, throughWire ctx .kerberos message = .error .winRMError :=
  ⟨paddedContext, fun _ m => ⟨[], m ++ [0], 1, rfl, by simp [paddedContext]⟩, [1, 2, 3], by decide +kernel⟩

/-- C22: the calls of the sealing function, for every body and protocol. The body on the wire consists of one part for every
piece, in order; for CredSSP the pieces are at most 16384 bytes long, for other protocols and for short bodies there is one
piece; the multi-encrypted content type is used exactly for long CredSSP bodies. -/
theorem C22_chunks (p : SealProtocol) (message : Bytes) :
    ∃ pieces : List Bytes, pieces.flatten = message ∧
      (p = .credSSP → ∀ c ∈ pieces, c.length ≤ 16384) ∧
      (p = .credSSP ∧ 16384 < message.length → 1 < pieces.length) ∧
      (p ≠ .credSSP ∨ message.length ≤ 16384 → pieces = [message]) ∧
      ∀ ctx : SealContext, (∀ i m, pieces[i]? = some m → (ctx.wrap i m).1.length < 2 ^ 31) →
        ∃ contentType, wrapMessage ctx p message = .ok (contentType, multipart p (sealedParts ctx 0 pieces)) ∧
          (contentType = "multipart/x-multi-encrypted".toList ↔ p = .credSSP ∧ 16384 < message.length) ∧
          (contentType = "multipart/encrypted".toList ↔ ¬ (p = .credSSP ∧ 16384 < message.length)) := by
  obtain ⟨h1, h2, h3, h4⟩ := wrapPieces_spec p message
  refine ⟨wrapPieces p message, h1, h3, fun ⟨hp, hl⟩ => ?_, h4, fun ctx hc => ⟨_, wrapMessage_eq ctx p message hc, ?_⟩⟩
  · match hx : wrapPieces p message with
    | [] => exact absurd hx h2
    | [c] =>
      rw [hx] at h1 h3
      have := h3 hp c (by simp)
      simp only [List.flatten_cons, List.flatten_nil, List.append_nil] at h1
      rw [h1] at this; omega
    | _ :: _ :: _ => simp
  · unfold wrapContentType sixteenKB
    by_cases h : p = .credSSP ∧ message.length > 16384
    · rw [if_pos h]
      exact ⟨⟨fun _ => h, fun _ => rfl⟩, ⟨fun h0 => absurd h0 (by decide), fun h0 => absurd h h0⟩⟩
    · rw [if_neg h]
      exact ⟨⟨fun h0 => absurd h0 (by decide), fun h0 => absurd h0 h⟩, ⟨fun _ => h, fun _ => rfl⟩⟩

/-- C22 applies to a body of 16385 bytes: CredSSP seals more than one chunk, Kerberos seals once. -/
example : (∃ pieces : List Bytes, 1 < pieces.length ∧ wrapMessage flipContext .credSSP (List.replicate 16385 7) =
      .ok ("multipart/x-multi-encrypted".toList, multipart .credSSP (sealedParts flipContext 0 pieces))) ∧
    wrapMessage flipContext .kerberos (List.replicate 16385 7) =
      .ok ("multipart/encrypted".toList, multipart .kerberos (sealedParts flipContext 0 [List.replicate 16385 7])) := by
  have hl : (List.replicate 16385 (7 : UInt8)).length = 16385 := List.length_replicate
  refine ⟨?_, ?_⟩
  · obtain ⟨pieces, -, -, h3, -, h⟩ := C22_chunks .credSSP (List.replicate 16385 7)
    obtain ⟨ct, h1, h2, -⟩ := h flipContext fun i m _ => by simp [flipContext]
    have hlong : SealProtocol.credSSP = .credSSP ∧ 16384 < (List.replicate 16385 (7 : UInt8)).length := ⟨rfl, by rw [hl]; omega⟩
    exact ⟨pieces, h3 hlong, by rw [h1, h2.mpr hlong]⟩
  · obtain ⟨pieces, -, -, -, h4, h⟩ := C22_chunks .kerberos (List.replicate 16385 7)
    obtain ⟨ct, h1, -, h2⟩ := h flipContext fun i m _ => by simp [flipContext]
    rw [h4 (.inl (by decide))] at h1
    rw [h1, h2.mpr (fun h => absurd h.1 (by decide))]

/-- C23 for every body made of parts: if some part does not decrypt to its declared length, unwrapping raises. (The model
returns either data or an exception.) -/
theorem C23_wrong_length (ctx : SealContext) (p : SealProtocol) (parts : List SealedPart) (hc : ∀ s ∈ parts, s.Clean)
    (i : Nat) (s : SealedPart) (hi : parts[i]? = some s)
    (hwrong : ∀ plain, ctx.unwrap i s.header s.data = .ok plain → plain.length ≠ s.declared) :
    ∃ e, unwrapMessage ctx (multipart p parts) winrmBoundary = .error e := by
  have hne : parts ≠ [] := by rintro rfl; simp at hi
  rw [unwrap_multipart ctx p parts hne hc]
  have key : ∀ (parts : List SealedPart) (k i : Nat), parts[i]? = some s →
      (∀ plain, ctx.unwrap (k + i) s.header s.data = .ok plain → plain.length ≠ s.declared) →
      ∃ e, openParts ctx k parts = .error e := by
    intro parts
    induction parts with
    | nil => intro k i hi; simp at hi
    | cons q qs ih =>
      intro k i hi hw
      simp only [openParts, bind, Except.bind]
      cases hu : ctx.unwrap k q.header q.data with
      | error e => exact ⟨e, rfl⟩
      | ok plain =>
        dsimp only
        split
        · exact ⟨_, rfl⟩
        · rename_i hl
          cases i with
          | zero =>
            simp only [List.getElem?_cons_zero, Option.some.injEq] at hi
            subst hi
            exact absurd (hw plain hu) hl
          | succ i =>
            obtain ⟨e, he⟩ := ih (k + 1) i (by simpa using hi) (by rwa [show k + 1 + i = k + (i + 1) from by omega])
            rw [he]
            exact ⟨e, rfl⟩
  exact key parts 0 i hi (by simpa using hwrong)

/-- The error is the error of pypsrp when all parts before decrypt. -/
theorem C23_error_kind (ctx : SealContext) (p : SealProtocol) (before : List SealedPart) (s : SealedPart)
    (after : List SealedPart) (hc : ∀ q ∈ before ++ s :: after, q.Clean)
    (hgood : ∀ i q, before[i]? = some q → ∃ plain, ctx.unwrap i q.header q.data = .ok plain ∧ plain.length = q.declared)
    (plain : Bytes) (hu : ctx.unwrap before.length s.header s.data = .ok plain) (hwrong : plain.length ≠ s.declared) :
    unwrapMessage ctx (multipart p (before ++ s :: after)) winrmBoundary = .error .winRMError := by
  rw [unwrap_multipart ctx p _ (by simp) hc]
  have key : ∀ (before : List SealedPart) (k : Nat),
      (∀ i q, before[i]? = some q → ∃ plain, ctx.unwrap (k + i) q.header q.data = .ok plain ∧ plain.length = q.declared) →
      ctx.unwrap (k + before.length) s.header s.data = .ok plain →
      openParts ctx k (before ++ s :: after) = .error .winRMError := by
    intro before
    induction before with
    | nil =>
      intro k _ hu
      rw [List.length_nil, Nat.add_zero] at hu
      simp only [List.nil_append, openParts, bind, Except.bind, hu]
      rw [if_pos hwrong]
    | cons q qs ih =>
      intro k hg hu
      obtain ⟨x, hx, hl⟩ := hg 0 q rfl
      rw [Nat.add_zero] at hx
      have := ih (k + 1) (fun i q' hq => by
        have := hg (i + 1) q' (by simpa using hq)
        rwa [show k + (i + 1) = k + 1 + i from by omega] at this)
        (by rw [← hu, List.length_cons]; congr 1; omega)
      simp only [List.cons_append, openParts, bind, Except.bind, hx]
      rw [if_neg (by simp [hl]), this]
  exact key before 0 (by simpa using hgood) (by simpa using hu)

/-- C23 for arbitrary bytes: when unwrapping returns, every pair of parts of the body decrypted to exactly the number that
its header declares, and the result is the concatenation. -/
theorem C23_any_body (ctx : SealContext) (body boundary out : Bytes) (h : unwrapMessage ctx body boundary = .ok out) :
    ∃ plains : List Bytes, out = plains.flatten ∧ (bodyParts boundary body).length = 2 * plains.length ∧
      ∀ (i : Nat) (plain : Bytes), plains[i]? = some plain →
        ∃ headerPart payload header data, (bodyParts boundary body)[2 * i]? = some headerPart ∧
          (bodyParts boundary body)[2 * i + 1]? = some payload ∧
          declaredLength headerPart = .ok (plain.length : Int) ∧ payloadParts boundary payload = .ok (header, data) ∧
          ctx.unwrap i header data = .ok plain := by
  unfold unwrapMessage at h
  generalize bodyParts boundary body = parts at h ⊢
  have key : ∀ (n : Nat) (parts : List Bytes) (k : Nat) (out : Bytes), parts.length ≤ n → unwrapParts ctx boundary k parts = .ok out →
      ∃ plains : List Bytes, out = plains.flatten ∧ parts.length = 2 * plains.length ∧
      ∀ (i : Nat) (plain : Bytes), plains[i]? = some plain →
        ∃ headerPart payload header data, parts[2 * i]? = some headerPart ∧ parts[2 * i + 1]? = some payload ∧
          declaredLength headerPart = .ok (plain.length : Int) ∧ payloadParts boundary payload = .ok (header, data) ∧
          ctx.unwrap (k + i) header data = .ok plain := by
    intro n
    induction n with
    | zero =>
      intro parts k out hl h
      have : parts = [] := List.length_eq_zero_iff.mp (by omega)
      subst this
      simp only [unwrapParts, Except.ok.injEq] at h
      exact ⟨[], by simp [← h], rfl, by simp⟩
    | succ n ih =>
      intro parts k out hl h
      match parts with
      | [] =>
        simp only [unwrapParts, Except.ok.injEq] at h
        exact ⟨[], by simp [← h], rfl, by simp⟩
      | [_] => simp [unwrapParts] at h
      | hp :: payload :: rest =>
        simp only [unwrapParts, bind, Except.bind] at h
        split at h
        · simp at h
        · rename_i declared hd
          split at h
          · simp at h
          · rename_i pr hpl
            split at h
            · simp at h
            · rename_i plain hu
              split at h
              · simp at h
              · rename_i hlen
                split at h
                · simp at h
                · rename_i more hmore
                  simp only [pure, Except.pure, Except.ok.injEq] at h
                  obtain ⟨plains, h1, h2, h3⟩ := ih rest (k + 1) more (by simp only [List.length_cons] at hl; omega) hmore
                  refine ⟨plain :: plains, by rw [← h, h1]; simp, by simp [h2]; omega, ?_⟩
                  intro i x hx
                  cases i with
                  | zero =>
                    simp only [List.getElem?_cons_zero, Option.some.injEq] at hx
                    subst hx
                    refine ⟨hp, payload, pr.1, pr.2, rfl, rfl, ?_, hpl, hu⟩
                    rw [hd, Classical.not_not.mp hlen]
                  | succ i =>
                    obtain ⟨a, b, c, d, e1, e2, e3, e4, e5⟩ := h3 i x (by simpa using hx)
                    refine ⟨a, b, c, d, ?_, ?_, e3, e4, by rw [← e5]; congr 1; omega⟩
                    · rw [show 2 * (i + 1) = 2 * i + 1 + 1 from by omega]; simpa using e1
                    · rw [show 2 * (i + 1) + 1 = 2 * i + 1 + 1 + 1 from by omega]; simpa using e2
  obtain ⟨plains, h1, h2, h3⟩ := key _ parts 0 out (Nat.le_refl _) h
  exact ⟨plains, h1, h2, by simpa using h3⟩

/-- C23 applies: the second of two parts declares the wrong length. -/
example : unwrapMessage plainContext (multipart .credSSP [⟨3, [9], [1, 2, 3]⟩, ⟨4, [9], [1, 2, 3]⟩]) winrmBoundary =
    .error .winRMError := by
  have hclean : ∀ w : Bytes, w.length < 18 → ¬ HasBoundary w ∧ ¬ HasMarker w := by
    intro w hw
    refine ⟨?_, ?_⟩
    · rintro ⟨a, b, c, rfl, -⟩
      have : winrmBoundary.length = 18 := by decide
      simp only [List.length_append] at hw; omega
    · rintro ⟨a, b, rfl⟩
      have : (ascii "\tContent-Type: application/octet-stream\r\n".toList).length = 41 := by decide
      simp only [List.length_append] at hw; omega
  refine C23_error_kind plainContext .credSSP [⟨3, [9], [1, 2, 3]⟩] ⟨4, [9], [1, 2, 3]⟩ [] ?_ ?_ [1, 2, 3] rfl (by decide)
  · intro q hq
    simp only [List.cons_append, List.nil_append, List.mem_cons, List.not_mem_nil, or_false] at hq
    rcases hq with rfl | rfl <;> exact ⟨by decide, hclean _ (by decide)⟩
  · intro i q hi
    cases i with
    | zero =>
      simp only [List.getElem?_cons_zero, Option.some.injEq] at hi
      subst hi
      exact ⟨_, rfl, rfl⟩
    | succ i => simp at hi

/-- `C23_any_body` applies to two parts with the right lengths. -/
example : unwrapMessage plainContext (multipart .credSSP [⟨3, [9], [1, 2, 3]⟩, ⟨2, [9], [4, 5]⟩]) winrmBoundary =
    .ok [1, 2, 3, 4, 5] := by decide +kernel

/-- C23, the pieces of a payload: its first four bytes are a signed number. If it is not negative, so many of the bytes that follow
are the header and the others the data. A number from -4 to -1 leaves no header, and data that begin in the number itself. A smaller
one counts from the end: what is below -4 is the number of bytes of data. -/
theorem C23_pieces {n : Int} (h1 : -2 ^ 31 ≤ n) (h2 : n < 2 ^ 31) (c number : Bytes) (hn : number = leEnc 4 (n % 2 ^ 32).toNat)
    (hb : ¬ HasBoundary (number ++ c)) (hm : ¬ HasMarker (number ++ c)) :
    (0 ≤ n → payloadParts winrmBoundary (octetMarker ++ (number ++ c)) = .ok (c.take n.toNat, c.drop n.toNat)) ∧
    (-4 ≤ n → n < 0 → payloadParts winrmBoundary (octetMarker ++ (number ++ c)) = .ok ([], number.drop (4 + n).toNat ++ c)) ∧
    (∀ k : Nat, n = -4 - (k + 1) → k < c.length →
      ∃ header data, payloadParts winrmBoundary (octetMarker ++ (number ++ c)) = .ok (header, data) ∧ c = header ++ data ∧ data.length = k + 1) := by
  subst hn
  rw [payload_signed h1 h2 c hb hm]
  unfold sliceIndex
  refine ⟨fun h => ?_, fun h h' => ?_, fun k hk hc => ?_⟩
  · rw [if_neg (by omega)]
    congr 1
    by_cases hl : n.toNat ≤ c.length
    · rw [show min (4 + n).toNat (4 + c.length) = 4 + n.toNat by omega, Nat.add_sub_cancel_left, ← List.drop_drop, drop_append_eq (leEnc4_length _)]
    · rw [show min (4 + n).toNat (4 + c.length) = 4 + c.length by omega, Nat.add_sub_cancel_left, ← List.drop_drop, drop_append_eq (leEnc4_length _),
        List.take_of_length_le (Nat.le_refl _), List.drop_of_length_le (Nat.le_refl _), List.take_of_length_le (by omega), List.drop_of_length_le (by omega)]
  · rw [if_neg (by omega)]
    congr 1
    rw [show min (4 + n).toNat (4 + c.length) = (4 + n).toNat by omega, show (4 + n).toNat - 4 = 0 by omega, List.take_zero,
      List.drop_append_of_le_length (by rw [leEnc4_length]; omega)]
  · rw [if_pos (by omega)]
    refine ⟨_, _, rfl, ?_, ?_⟩
    · rw [show (((4 + c.length : Nat) : Int) + (4 + n)).toNat = 4 + (c.length - (k + 1)) by omega, Nat.add_sub_cancel_left, ← List.drop_drop,
        drop_append_eq (leEnc4_length _), List.take_append_drop]
    · rw [List.length_drop, List.length_append, leEnc4_length]
      omega

/-- A length of -5 makes the last byte the data, and a length of -4 makes the number a part of the data. -/
example : payloadParts winrmBoundary (octetMarker ++ ([251, 255, 255, 255] ++ [7, 8, 9])) = .ok ([7, 8], [9]) ∧
    payloadParts winrmBoundary (octetMarker ++ ([252, 255, 255, 255] ++ [7, 8, 9])) = .ok ([], [252, 255, 255, 255, 7, 8, 9]) := by decide +kernel

end Verif
