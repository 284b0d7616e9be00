import Verif.Lemmas.FragmentUse
import Verif.Lemmas.Base64
import Verif.Lemmas.Utils
import Verif.Model.Session
/-
C08, C09, C50: payload limits and the opening messages.
-/
namespace Verif

/-- C50. Whatever the envelope limit and the size of the empty envelope, a payload within the payload limit, base64
encoded, together with a header of up to 254 bytes more than the one used for the calculation, stays within the
envelope limit. -/
theorem C50_payload_fits (skeleton header : Nat) (env : Int) (payload : Bytes)
    (hp : (payload.length : Int) ≤ (ConnSizes.init skeleton env).maxPayload)
    (hpos : (skeleton : Int) + 256 ≤ env) (hh : header ≤ skeleton + 254) :
    (header : Int) + (b64Encode payload).length ≤ (ConnSizes.init skeleton env).maxEnvelope := by
  rw [b64Encode_length]
  simp only [ConnSizes.init, calcEnvelopeSize] at hp ⊢
  rw [Int.tdiv_eq_ediv_of_nonneg (by omega)] at hp
  omega

/-- C50. The limit is not wasteful: four more payload bytes than allowed would not fit next to a header 256 bytes
larger than the skeleton. -/
theorem C50_limit_tight (skeleton : Nat) (env : Int) (payload : Bytes)
    (hp : (ConnSizes.init skeleton env).maxPayload + 4 ≤ (payload.length : Int))
    (hpos : (skeleton : Int) + 256 ≤ env) :
    (ConnSizes.init skeleton env).maxEnvelope < (skeleton : Int) + 256 + (b64Encode payload).length := by
  rw [b64Encode_length]
  simp only [ConnSizes.init, calcEnvelopeSize] at hp ⊢
  rw [Int.tdiv_eq_ediv_of_nonneg (by omega)] at hp
  omega

example : (ConnSizes.init 1500 153600).maxPayload = 113883 := by
  simp [ConnSizes.init, calcEnvelopeSize]

/-- C08, partial: after any capability message the blocks exceed the connection's payload limit by at most 21 bytes.
Missing: the 21 bytes, see `C08_overrun_false`. The fragmenter is the one of a pool created on the same connection. -/
theorem C08_overrun_at_most_header_partial (skeleton : Nat) (env : Int) (n : Nat) (version : PyStr)
    (c' : ConnSizes) (o' o'' : OutState) (ss : List Send) (bss : List (List Bytes))
    (h : processSessionCapability skeleton (ConnSizes.init skeleton env)
      ⟨n, (OutState.init (ConnSizes.init skeleton env).maxPayload).maxSize⟩ version = .ok (c', o'))
    (hsize : 21 < c'.maxPayload) (hmsg : ∀ s ∈ ss, ∀ m ∈ s.messages, m ≠ [])
    (hs : sends o' ss = .ok (bss, o'')) : ∀ bs ∈ bss, ∀ b ∈ bs, (b.length : Int) ≤ c'.maxPayload + 21 := by
  have hms : 0 < o'.maxSize ∧ o'.maxSize ≤ c'.maxPayload := by
    simp only [processSessionCapability, bind, Except.bind, pure, Except.pure] at h
    split at h
    · simp at h
    · split at h
      · simp only [Except.ok.injEq, Prod.mk.injEq] at h
        generalize updateMaxPayloadSize skeleton 512000 = C at h
        obtain ⟨rfl, rfl⟩ := h
        exact ⟨Int.lt_trans (by decide) hsize, Int.le_refl _⟩
      · simp only [Except.ok.injEq, Prod.mk.injEq] at h
        obtain ⟨rfl, rfl⟩ := h
        simp only [OutState.init]; omega
  obtain ⟨_, _, _, _, _, _, _, e5⟩ := sends_ok hms.1 hmsg hs
  intro bs hbs b hb
  have := e5 b (List.mem_flatten.mpr ⟨bs, hbs, hb⟩)
  omega

theorem capability_raises {skeleton : Nat} {E : Int} {o : OutState} {version : PyStr}
    (hres : versionEqualOrNewer version "2.2".toList = .ok true) :
    processSessionCapability skeleton ⟨153600, E⟩ o version =
      .ok (updateMaxPayloadSize skeleton 512000, ⟨o.counter, (updateMaxPayloadSize skeleton 512000).maxPayload⟩) := by
  unfold processSessionCapability
  rw [hres]
  simp only [bind, Except.bind, pure, Except.pure]
  simp only [and_self, if_true]

theorem updateMax_pos {skeleton : Nat} (hsk : skeleton ≤ 500000) :
    0 < (updateMaxPayloadSize skeleton 512000).maxPayload := by
  unfold updateMaxPayloadSize calcEnvelopeSize
  simp only
  rw [Int.tdiv_eq_ediv_of_nonneg (by omega)]
  omega

theorem first_block {n : Nat} {P : Int} (hn : n < 2 ^ 64) (hpos : 0 < P) (msg : Bytes) (hlen : P ≤ (msg.length : Int))
    (hlt : msg.length < 2 ^ 32) :
    ∃ b bs o'', fragment ⟨n, P⟩ msg none = .ok (b :: bs, o'') ∧ (b.length : Int) = P + 21 := by
  obtain ⟨ps, hps⟩ := fragment_none_total (o := ⟨n, P⟩) (msg := msg) hpos hn hlt
  have hne : msg ≠ [] := by
    intro h0; subst h0; simp at hlen; omega
  have hchunk : chunksFlag P.toNat msg =
      (msg.take P.toNat, decide (msg.length ≤ P.toNat)) :: chunksFlag P.toNat (msg.drop P.toNat) := by
    rw [chunksFlag, dif_pos ⟨by omega, hne⟩]
  have hps' := hps
  simp only [fragment, byteIterator, bind, Except.bind, pure, Except.pure] at hps'
  rw [if_neg (by omega), if_neg (by omega), hchunk] at hps'
  simp only [packPieces, bind, Except.bind, pure, Except.pure] at hps'
  split at hps'
  · simp at hps'
  · rename_i v hv2
    split at hv2
    · simp at hv2
    · rename_i p hp
      split at hv2
      · simp at hv2
      · rename_i qs hqs
        simp only [Except.ok.injEq] at hv2
        subst hv2
        simp only [Except.ok.injEq, Prod.mk.injEq] at hps'
        refine ⟨p, qs, _, by rw [hps, ← hps'.1], ?_⟩
        obtain ⟨_, rfl⟩ := pack_ok_iff hp
        simp only [Fragment.wire_length, List.length_take]
        omega

/-- C08 is false: once the limits have been raised (protocol 2.2 or newer and the default envelope size), the first
block of every message at least as long as the payload limit has 21 bytes more than the limit. -/
theorem C08_overrun_false (skeleton n : Nat) (version : PyStr) (a : List Nat) (hv : Dotted version a)
    (hnew : VersionGe a [2, 2]) (hn : n < 2 ^ 64) (hsk : skeleton ≤ 500000) :
    ∃ c' o', processSessionCapability skeleton (ConnSizes.init skeleton 153600)
        ⟨n, (OutState.init (ConnSizes.init skeleton 153600).maxPayload).maxSize⟩ version = .ok (c', o') ∧
      ∀ msg : Bytes, c'.maxPayload ≤ (msg.length : Int) → msg.length < 2 ^ 32 →
        ∃ b bs o'', fragment o' msg none = .ok (b :: bs, o'') ∧ (b.length : Int) = c'.maxPayload + 21 := by
  have h22 : Dotted "2.2".toList [2, 2] :=
    ⟨[['2'], ['2']], by decide, by decide, by
      intro p hp
      simp only [List.mem_cons, List.not_mem_nil, or_false, or_self] at hp
      subst hp; exact ⟨by decide, by decide⟩, by decide⟩
  obtain ⟨res, hres, hiff⟩ := version_dotted hv h22
  rw [hiff.mpr hnew] at hres
  refine ⟨_, _, capability_raises hres, fun msg hlen hlt => ?_⟩
  exact first_block hn (updateMax_pos hsk) msg hlen hlt

/-- C08: the overrun does not break the envelope limit, since the payload calculation leaves room for it: a block of
`maxPayload + 21` bytes with a header up to 224 bytes larger than the skeleton still fits. -/
theorem C08_envelope_still_fits (skeleton header : Nat) (env : Int) (block : Bytes)
    (hb : (block.length : Int) ≤ (ConnSizes.init skeleton env).maxPayload + 21)
    (hpos : (skeleton : Int) + 256 ≤ env) (hh : header ≤ skeleton + 224) :
    (header : Int) + (b64Encode block).length ≤ (ConnSizes.init skeleton env).maxEnvelope := by
  rw [b64Encode_length]
  simp only [ConnSizes.init, calcEnvelopeSize] at hb ⊢
  rw [Int.tdiv_eq_ediv_of_nonneg (by omega)] at hb
  omega

/-- The first fragment of `fragment` with a remaining size. -/
theorem fragment_some_first {o : OutState} {msg : Bytes} {r : Int} (hm : 0 < o.maxSize) (hr : 0 < r)
    (ho : o.counter < 2 ^ 64) (hl : msg.length < 2 ^ 32) :
    ∃ rest, fragment o msg (some r) =
        .ok ((Fragment.mk o.counter 0 (msg.take r.toNat) true (decide (msg.length ≤ r.toNat))).wire :: rest,
          { o with counter := o.counter + 1 }) ∧
      (rest = [] ↔ msg.length ≤ r.toNat) := by
  obtain ⟨p, ps, h⟩ := fragment_some_total (msg := msg) hm hr ho hl
  have h' := h
  have hsl : sliceTo msg r = msg.take r.toNat := by
    unfold sliceTo; rw [if_pos (by omega)]
  have hdrop : msg.drop (msg.take r.toNat).length = msg.drop r.toNat := by
    simp only [List.length_take]
    by_cases hle : r.toNat ≤ msg.length
    · rw [Nat.min_eq_left hle]
    · rw [Nat.min_eq_right (by omega), List.drop_eq_nil_of_le (Nat.le_refl _), List.drop_eq_nil_of_le (by omega)]
  have hbeq : (msg.drop r.toNat == []) = decide (msg.length ≤ r.toNat) := by
    cases h : decide (msg.length ≤ r.toNat)
    · simp only [decide_eq_false_iff_not] at h
      simp; omega
    · simp only [decide_eq_true_eq] at h
      simp; omega
  simp only [fragment, hsl, hdrop, hbeq, bind, Except.bind, pure, Except.pure] at h'
  split at h'
  · simp at h'
  · rename_i q hq
    obtain ⟨_, rfl⟩ := pack_ok_iff hq
    split at h'
    · simp at h'
    · rename_i pieces hpc
      split at h'
      · simp at h'
      · rename_i qs hqs
        simp only [Except.ok.injEq, Prod.mk.injEq, List.cons.injEq, and_true] at h'
        refine ⟨qs, by rw [h, ← h'.1, h'.2], ?_⟩
        obtain ⟨ds, h1, h2, h3, h4, h5⟩ := chunksFlag_spec (n := o.maxSize.toNat) (by omega) (msg.drop r.toNat)
        unfold byteIterator at hpc
        rw [if_neg (by omega), if_neg (by omega), h1] at hpc
        simp only [Except.ok.injEq] at hpc
        subst hpc
        obtain ⟨rfl, _⟩ := packPieces_ok hqs
        have hlen := mkRun_length o.counter 1 false ds
        constructor
        · intro hnil
          have : ds = [] := by
            rw [List.map_eq_nil_iff] at hnil
            rw [hnil] at hlen
            exact List.length_eq_zero_iff.mp (by simpa using hlen.symm)
          have hd : msg.drop r.toNat = [] := Classical.byContradiction fun hc => h5 hc this
          simpa using hd
        · intro hle
          have hd : msg.drop r.toNat = [] := by simpa using hle
          rw [hd, List.length_nil] at h4
          have : ds = [] := List.length_eq_zero_iff.mp (by omega)
          subst this; rfl

/-- What `open` sends: the whole capability message and the first piece of the initialisation message. -/
theorem openBlocks_eq {o : OutState} {cap init : Bytes} (ho : o.counter + 1 < 2 ^ 64)
    (hcap : (cap.length : Int) + 21 < o.maxSize) (hlc : cap.length < 2 ^ 32) (hli : init.length < 2 ^ 32) :
    ∃ rest, openBlocks o cap init = .ok (
        wires [⟨o.counter, 0, cap, true, true⟩,
          ⟨o.counter + 1, 0, init.take (o.maxSize - cap.length - 21).toNat, true,
            decide (init.length ≤ (o.maxSize - cap.length - 21).toNat)⟩],
        rest, ⟨o.counter + 2, o.maxSize⟩) ∧
      (rest = [] ↔ (init.length : Int) + cap.length + 21 ≤ o.maxSize) := by
  obtain ⟨rest1, h1, e1⟩ := fragment_some_first (o := o) (msg := cap) (r := o.maxSize) (by omega) (by omega)
    (by omega) hlc
  have hr1 : rest1 = [] := e1.mpr (by omega)
  subst hr1
  obtain ⟨rest2, h2, e2⟩ := fragment_some_first (o := ⟨o.counter + 1, o.maxSize⟩) (msg := init)
    (r := o.maxSize - cap.length - 21) (by simp only; omega) (by omega) (by simpa using ho) hli
  refine ⟨rest2, ?_, by rw [e2]; omega⟩
  have hd : decide (cap.length ≤ o.maxSize.toNat) = true := by simp; omega
  have htake : cap.take o.maxSize.toNat = cap := List.take_of_length_le (by omega)
  rw [htake, hd] at h1
  have hlen : (o.maxSize - ((Fragment.mk o.counter 0 cap true true).wire.length : Int)) =
      o.maxSize - cap.length - 21 := by
    simp only [Fragment.wire_length]; push_cast; omega
  simp only [openBlocks, fragmentMultiple, fragmentMultipleLoop, h1, bind, Except.bind]
  simp only [ne_eq, not_true_eq_false, false_and, if_false, List.nil_append, List.getLast?_singleton]
  rw [hlen]
  have hnle : ¬ (o.maxSize - (cap.length : Int) - 21 ≤ 0) := by omega
  simp only [hnle, if_false, h2]
  rw [if_pos (by simp; omega)]
  simp only [List.dropLast_singleton, List.nil_append, List.singleton_append,
    List.getLast?_cons, pure, Except.pure]
  simp [wires]

/-- C09, partial: if both opening messages fit one block, the server reassembles both of them from the bytes sent.
Missing: longer initialisation messages (large application arguments), where the claim is false. -/
theorem C09_open_delivers_partial (M : Int) (cap init : Bytes)
    (hfit : (cap.length : Int) + 21 + init.length ≤ M - 21) (hinit : init ≠ []) (hM : M < 2 ^ 32) :
    ∃ sent o' b outs, openBlocks (OutState.init M) cap init = .ok (sent, [], o') ∧
      receives noBuffers [sent] = (b, .ok outs) ∧ outs.flatten = [cap, init] := by
  have hpos := List.length_pos_iff.mpr hinit
  obtain ⟨rest, h1, h2⟩ := openBlocks_eq (o := OutState.init M) (cap := cap) (init := init)
    (by simp only [OutState.init]; omega)
    (by simp only [OutState.init]; omega) (by omega) (by omega)
  have hrest : rest = [] := h2.mpr (by simp only [OutState.init]; omega)
  subst hrest
  have htake : init.take ((OutState.init M).maxSize - cap.length - 21).toNat = init :=
    List.take_of_length_le (by simp only [OutState.init]; omega)
  have hdec : decide (init.length ≤ ((OutState.init M).maxSize - cap.length - 21).toNat) = true :=
    decide_eq_true (by simp only [OutState.init]; omega)
  rw [htake, hdec] at h1
  have hfits : ∀ f ∈ [Fragment.mk (OutState.init M).counter 0 cap true true,
      Fragment.mk ((OutState.init M).counter + 1) 0 init true true], f.Fits := by
    intro f hf
    simp only [List.mem_cons, List.not_mem_nil, or_false, OutState.init] at hf
    rcases hf with rfl | rfl
    · exact ⟨by simp, by simp, by simp only; omega⟩
    · exact ⟨by simp, by simp, by simp only; omega⟩
  have hF : ∀ c (m : Bytes), Fragmentation c m [⟨c, 0, m, true, true⟩] := fun c m =>
    ⟨by simp, by simp, by simp, by simp, by simp, by simp [payload]⟩
  have hfo : FragmentsOf (OutState.init M).counter [cap, init]
      [[Fragment.mk (OutState.init M).counter 0 cap true true],
       [Fragment.mk ((OutState.init M).counter + 1) 0 init true true]] := ⟨hF _ _, hF _ _, trivial⟩
  have hp : ParsesAll [wires [Fragment.mk (OutState.init M).counter 0 cap true true,
      Fragment.mk ((OutState.init M).counter + 1) 0 init true true]] (_ ++ []) := .cons (parses_wires hfits) .nil
  obtain ⟨outs, e1, e2⟩ := hp.receives noBuffers noBuffers [cap, init] (by
    have := hfo.defragList noBuffers (fun _ _ => rfl)
    simpa using this)
  exact ⟨_, _, noBuffers, outs, h1, e1, e2⟩

/-- C09 is false in general: if the two messages do not fit one block, the initialisation message never reaches the
server completely. Whatever is sent afterwards over the pool, and however it is cut into receives, the server gets the
capability message and the later messages only. -/
theorem C09_open_loses_data_false (M : Int) (cap init : Bytes) (hcap : (cap.length : Int) + 21 < M - 21)
    (hbig : M - 21 < (cap.length : Int) + 21 + init.length) (hM : M < 2 ^ 32) (hi : init.length < 2 ^ 32)
    (ss : List Send) (hmsg : ∀ s ∈ ss, ∀ m ∈ s.messages, m ≠ [] ∧ m.length < 2 ^ 32)
    (hcount : 3 + (ss.flatMap Send.messages).length ≤ 2 ^ 64) :
    ∃ sent dropped o' bss o'' b outs, openBlocks (OutState.init M) cap init = .ok (sent, dropped, o') ∧
      dropped ≠ [] ∧ sends o' ss = .ok (bss, o'') ∧
      receives noBuffers (sent :: bss.flatten) = (b, .ok outs) ∧
      outs.flatten = cap :: ss.flatMap Send.messages := by
  obtain ⟨rest, h1, h2⟩ := openBlocks_eq (o := OutState.init M) (cap := cap) (init := init)
    (by simp only [OutState.init]; omega)
    (by simp only [OutState.init]; omega) (by omega) (by omega)
  have hrest : rest ≠ [] := fun h => by
    have := h2.mp h
    simp only [OutState.init] at this; omega
  have hdec : decide (init.length ≤ ((OutState.init M).maxSize - cap.length - 21).toNat) = false :=
    decide_eq_false (by simp only [OutState.init]; omega)
  rw [hdec] at h1
  generalize hpiece : init.take ((OutState.init M).maxSize - cap.length - 21).toNat = piece at h1
  have hpl : piece.length < 2 ^ 32 := by rw [← hpiece]; simp; omega
  have hc1 : (OutState.init M).counter = 1 := rfl
  rw [hc1] at h1
  obtain ⟨bss, o'', hs⟩ := sends_total (o := ⟨1 + 2, (OutState.init M).maxSize⟩) (ss := ss)
    (by simp only [OutState.init]; omega) (by simpa using hcount) (fun s hs m hm => (hmsg s hs m hm).2)
    (fun s hs m hm => (hmsg s hs m hm).1)
  obtain ⟨_, bfs, fss, a1, a2, a3, a4, _⟩ := sends_ok (by simp only [OutState.init]; omega)
    (fun s hs m hm => (hmsg s hs m hm).1) hs
  have hfits : ∀ f ∈ [Fragment.mk 1 0 cap true true, Fragment.mk (1 + 1) 0 piece true false], f.Fits := by
    intro f hf
    simp only [List.mem_cons, List.not_mem_nil, or_false] at hf
    rcases hf with rfl | rfl
    · exact ⟨by simp, by simp, by simp only; omega⟩
    · exact ⟨by simp, by simp, hpl⟩
  have hpb := parsesAll_groups a2 (groups := bss.flatten.map (fun b => [b])) (by rw [flatten_map_singleton, a1])
  rw [List.map_map] at hpb
  have hid : (List.flatten ∘ fun b : Bytes => [b]) = id := by
    funext b; simp
  rw [hid, List.map_id, a3] at hpb
  have hp : ParsesAll (wires [Fragment.mk 1 0 cap true true, Fragment.mk (1 + 1) 0 piece true false] :: bss.flatten)
      ([Fragment.mk 1 0 cap true true, Fragment.mk (1 + 1) 0 piece true false] ++ fss.flatten) :=
    .cons (parses_wires hfits) hpb
  let b1 : InBufs := (((noBuffers.set 1 (some ⟨[], 0⟩)).set 1 none).set 2 (some ⟨[], 0⟩)).set 2 (some ⟨piece, 1⟩)
  have hfirst : defragList noBuffers [Fragment.mk 1 0 cap true true, Fragment.mk (1 + 1) 0 piece true false] [] =
      (b1, .ok [cap]) := by rfl
  obtain ⟨outs, e1, e2⟩ := hp.receives noBuffers b1 (cap :: ss.flatMap Send.messages) (by
    rw [defragList_append, hfirst]
    simp only
    rw [defragList_done, a4.defragList b1 ?_]
    · rfl
    · intro i hi
      simp only at hi
      have hi1 : i ≠ 1 := by omega
      have hi2 : i ≠ 2 := by omega
      simp [b1, InBufs.set, hi1, hi2, noBuffers])
  exact ⟨_, rest, _, bss, o'', b1, outs, h1, hrest, hs, e1, e2⟩

/-- The hypotheses of the two C09 theorems can be met. -/
example : ((List.replicate 300 0 : Bytes).length : Int) + 21 + (List.replicate 1000 0 : Bytes).length ≤ 113883 - 21 ∧
    ((List.replicate 300 0 : Bytes).length : Int) + 21 < 1000 - 21 ∧
    (1000 : Int) - 21 < (List.replicate 300 0 : Bytes).length + 21 + (List.replicate 1000 0 : Bytes).length := by
  simp only [List.length_replicate]; omega

theorem updateMax_envelope (skeleton : Nat) (n : Int) : (updateMaxPayloadSize skeleton n).maxEnvelope = n := rfl

theorem updateMax_payload (skeleton : Nat) (n : Int) :
    (updateMaxPayloadSize skeleton n).maxPayload = (ConnSizes.init skeleton n).maxPayload := rfl

/-- C68. The capability message of a server with version `a` raises the limits to 512000 exactly when the server speaks
2.2 or newer and the client still has the default envelope size; otherwise sizes and fragmenter stay as they were. The
object counter is kept in any case. -/
theorem C68_raised_exactly_when (skeleton : Nat) (c : ConnSizes) (o : OutState) (version : PyStr) (a : List Nat)
    (hv : Dotted version a) :
    ∃ c' o', processSessionCapability skeleton c o version = .ok (c', o') ∧ o'.counter = o.counter ∧
      (VersionGe a [2, 2] ∧ c.maxEnvelope = 153600 →
        c'.maxEnvelope = 512000 ∧ c'.maxPayload = (ConnSizes.init skeleton 512000).maxPayload ∧ o'.maxSize = c'.maxPayload) ∧
      (¬ VersionGe a [2, 2] ∨ c.maxEnvelope ≠ 153600 → c' = c ∧ o' = o) := by
  have h22 : Dotted "2.2".toList [2, 2] :=
    ⟨[['2'], ['2']], by decide, by decide, by
      intro p hp
      simp only [List.mem_cons, List.not_mem_nil, or_false, or_self] at hp
      subst hp; exact ⟨by decide, by decide⟩, by decide⟩
  obtain ⟨res, hres, hiff⟩ := version_dotted hv h22
  obtain ⟨E, P⟩ := c
  by_cases h : VersionGe a [2, 2] ∧ E = 153600
  · obtain ⟨h1, rfl⟩ := h
    have e1 := updateMax_envelope skeleton 512000
    have e2 := updateMax_payload skeleton 512000
    have e3 := capability_raises (skeleton := skeleton) (E := P) (o := o) (hres.trans (by rw [hiff.mpr h1]))
    generalize updateMaxPayloadSize skeleton 512000 = C at e1 e2 e3
    refine ⟨_, _, e3, rfl, fun _ => ⟨e1, e2, rfl⟩, ?_⟩
    rintro (h | h)
    · exact absurd h1 h
    · exact absurd rfl h
  · refine ⟨⟨E, P⟩, o, ?_, rfl, fun h2 => absurd h2 h, fun _ => ⟨rfl, rfl⟩⟩
    unfold processSessionCapability
    rw [hres]
    simp only [bind, Except.bind, pure, Except.pure]
    rw [if_neg]
    rintro ⟨h1, h2⟩
    exact h ⟨hiff.mp h1, h2⟩

/-- The user's own envelope size is kept with a 2.3 server. -/
example : ∃ o', processSessionCapability 1500 (ConnSizes.init 1500 100000) (OutState.init 70000) "2.3".toList =
    .ok (ConnSizes.init 1500 100000, o') := by
  have hd : Dotted "2.3".toList [2, 3] :=
    ⟨[['2'], ['3']], by decide, by decide, by
      intro p hp
      simp only [List.mem_cons, List.not_mem_nil, or_false] at hp
      rcases hp with rfl | rfl <;> exact ⟨by decide, by decide⟩, by decide⟩
  obtain ⟨c', o', h, -, -, h2⟩ := C68_raised_exactly_when 1500 (ConnSizes.init 1500 100000) (OutState.init 70000) _ _ hd
  obtain ⟨rfl, rfl⟩ := h2 (.inr (by show (100000 : Int) ≠ 153600; omega))
  exact ⟨_, h⟩

end Verif
