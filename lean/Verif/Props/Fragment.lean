import Verif.Lemmas.FragmentUse
/-
C01-C07: fragments on the wire, sending and receiving.
-/
namespace Verif

/-- C01. A fragment whose fields fit the wire format packs; unpacking the bytes followed by anything gives the
fragment back and leaves exactly what followed. -/
theorem C01_pack_unpack (f : Fragment) (rest : Bytes) (h : f.Fits) :
    ∃ p, f.pack = .ok p ∧ Fragment.unpack (p ++ rest) = .ok (f, rest) :=
  ⟨f.wire, Fragment.pack_fits h, Fragment.unpack_wire h rest⟩

/-- C01. Packing fails exactly when a field does not fit, and then with `struct.error`. -/
theorem C01_pack_fails_iff (f : Fragment) : f.pack = .error .structError ↔ ¬ f.Fits := by
  constructor
  · intro h hf; rw [Fragment.pack_fits hf] at h; simp at h
  · exact Fragment.pack_not_fits

/-- C01. The packed fragment has 21 bytes more than its data. -/
theorem C01_pack_length (f : Fragment) (p : Bytes) (h : f.pack = .ok p) : p.length = f.data.length + 21 := by
  obtain ⟨_, rfl⟩ := pack_ok_iff h; simp

/-- C01. Different fragments have different bytes. -/
theorem C01_pack_injective (f g : Fragment) (p : Bytes) (hf : f.pack = .ok p) (hg : g.pack = .ok p) : f = g := by
  obtain ⟨ff, hp⟩ := pack_ok_iff hf
  obtain ⟨fg, hq⟩ := pack_ok_iff hg
  have a := Fragment.unpack_wire ff []
  have b := Fragment.unpack_wire fg []
  rw [← hp] at a
  rw [← hq] at b
  rw [a] at b
  simpa using b

example : Fragment.Fits ⟨2 ^ 64 - 1, 3, [1, 2, 3], false, true⟩ := by decide
example : ¬ Fragment.Fits ⟨2 ^ 64, 3, [1, 2, 3], false, true⟩ := by decide
example : (Fragment.mk 258 1 [7] true false).pack =
    .ok [0, 0, 0, 0, 0, 0, 1, 2, 0, 0, 0, 0, 0, 0, 0, 1, 1, 0, 0, 0, 1, 7] := by decide

/-- C02. The fragments of one message, grouped into receives in any way, deliver exactly that message and leave
the buffers as they were (other objects' partial data included). -/
theorem C02_fragment_reassemble (o : OutState) (msg : Bytes) (b : InBufs) (hsize : 0 < o.maxSize)
    (hmsg : msg ≠ []) (hcount : o.counter < 2 ^ 64) (hlen : msg.length < 2 ^ 32) (hb : b o.counter = none) :
    ∃ blocks o', fragment o msg none = .ok (blocks, o') ∧
      ∀ groups : List (List Bytes), groups.flatten = blocks →
        ∃ outs, receives b (groups.map List.flatten) = (b, .ok outs) ∧ outs.flatten = [msg] := by
  obtain ⟨blocks, hbl⟩ := fragment_none_total hsize hcount hlen
  refine ⟨blocks, _, hbl, ?_⟩
  obtain ⟨_, fs, hfr, hps, hfit, _⟩ := fragment_none hsize hmsg hbl
  intro groups hg
  have hbfs : groups.flatten = (fs.map (fun f => [f])).map wires := by
    rw [hg, hps]; simp [wires]
  have hp := parsesAll_groups (bfs := fs.map (fun f => [f]))
    (by
      intro g hg f hf
      simp only [List.mem_map] at hg
      obtain ⟨a, ha, rfl⟩ := hg
      simp only [List.mem_singleton] at hf
      subst hf; exact hfit _ ha) hbfs
  rw [flatten_map_singleton] at hp
  exact hp.receives b b [msg] (hfr.defragList b hb)

/-- C02. Nothing is delivered before the last fragment arrives. -/
theorem C02_nothing_before_last (o o' : OutState) (msg : Bytes) (blocks : List Bytes) (b : InBufs)
    (hsize : 0 < o.maxSize) (hmsg : msg ≠ []) (hb : b o.counter = none)
    (hbl : fragment o msg none = .ok (blocks, o')) (k : Nat) (hk : k < blocks.length)
    (groups : List (List Bytes)) (hg : groups.flatten = blocks.take k) :
    ∃ b' outs, receives b (groups.map List.flatten) = (b', .ok outs) ∧ outs.flatten = [] := by
  obtain ⟨_, fs, hfr, hps, hfit, _⟩ := fragment_none hsize hmsg hbl
  have hbfs : groups.flatten = ((fs.take k).map (fun f => [f])).map wires := by
    rw [hg, hps, ← List.map_take, List.map_map]
    exact List.map_congr_left fun f _ => by simp [wires]
  have hp := parsesAll_groups (bfs := (fs.take k).map (fun f => [f]))
    (by
      intro g hg f hf
      simp only [List.mem_map] at hg
      obtain ⟨a, ha, rfl⟩ := hg
      simp only [List.mem_singleton] at hf
      subst hf; exact hfit _ (List.mem_of_mem_take ha)) hbfs
  rw [flatten_map_singleton] at hp
  have hall := hfr.defragList b hb
  rw [← List.take_append_drop k fs, defragList_append] at hall
  match hd : defragList b (fs.take k) [] with
  | (b1, .error e) => rw [hd] at hall; simp at hall
  | (b1, .ok m1) =>
    have hm1 : m1 = [] := defragList_no_end (hfr.take_no_end (by rw [hps] at hk; simpa using hk)) hd
    obtain ⟨outs, h1, h2⟩ := hp.receives b b1 m1 hd
    exact ⟨b1, outs, h1, by rw [h2, hm1]⟩

example : fragment (OutState.init 24) [1, 2, 3, 4] none = .ok ([
    [0, 0, 0, 0, 0, 0, 0, 1, 0, 0, 0, 0, 0, 0, 0, 0, 1, 0, 0, 0, 3, 1, 2, 3],
    [0, 0, 0, 0, 0, 0, 0, 1, 0, 0, 0, 0, 0, 0, 0, 1, 2, 0, 0, 0, 1, 4]], ⟨2, 3⟩) := by decide +kernel

/-- C03. Whatever is sent over one fragmenter (single messages and batches, non-empty messages that fit the wire
format) succeeds, and the bytes of all blocks in order are the fragments of the messages in order, message `i`
having object id `counter + i`. -/
theorem C03_well_formed (o : OutState) (ss : List Send) (hsize : 0 < o.maxSize)
    (hmsg : ∀ s ∈ ss, ∀ m ∈ s.messages, m ≠ [] ∧ m.length < 2 ^ 32)
    (hcount : o.counter + (ss.flatMap Send.messages).length ≤ 2 ^ 64) :
    ∃ bss o', sends o ss = .ok (bss, o') ∧
      o'.counter = o.counter + (ss.flatMap Send.messages).length ∧ o'.maxSize = o.maxSize ∧
      ∃ fss, FragmentsOf o.counter (ss.flatMap Send.messages) fss ∧ ParsesAll bss.flatten fss.flatten := by
  obtain ⟨bss, o', h⟩ := sends_total hsize hcount (fun s hs m hm => (hmsg s hs m hm).2)
    (fun s hs m hm => (hmsg s hs m hm).1)
  obtain ⟨ho, bfs, fss, e1, e2, e3, e4, _⟩ := sends_ok hsize (fun s hs m hm => (hmsg s hs m hm).1) h
  refine ⟨bss, o', h, by rw [ho], by rw [ho], fss, e4, ?_⟩
  have := parsesAll_groups e2 (groups := bss.flatten.map (fun b => [b])) (by rw [flatten_map_singleton, e1])
  rw [List.map_map] at this
  have hid : (List.flatten ∘ fun b : Bytes => [b]) = id := by
    funext b; simp
  rw [hid, List.map_id, e3] at this
  exact this

/-- C03. Object ids of later messages are larger than those of earlier ones, and at least the counter. -/
theorem C03_ids_fresh (c : Nat) (ms : List Bytes) (fss : List (List Fragment)) (h : FragmentsOf c ms fss)
    (i j : Nat) (fs gs : List Fragment) (hi : fss[i]? = some fs) (hj : fss[j]? = some gs) (hij : i < j) :
    ∀ f ∈ fs, ∀ g ∈ gs, c ≤ f.objectId ∧ f.objectId < g.objectId := by
  obtain ⟨_, _, h1⟩ := h.get i fs hi
  obtain ⟨_, _, h2⟩ := h.get j gs hj
  intro f hf g hg
  have e1 := h1.object f hf
  have e2 := h2.object g hg
  omega

example : ∃ bss o', sends (OutState.init 24) [.single [1, 2, 3, 4], .batch [[5], [6, 7, 8, 9]], .single [1]] =
    .ok (bss, o') ∧ o'.counter = 5 := by
  obtain ⟨bss, o', h, hc, _⟩ := C03_well_formed (OutState.init 24)
    [.single [1, 2, 3, 4], .batch [[5], [6, 7, 8, 9]], .single [1]] (by decide)
    (by simp [Send.messages]) (by simp [Send.messages, OutState.init])
  exact ⟨bss, o', h, by simpa [OutState.init, Send.messages] using hc⟩

/-- C04. A fragmenter created for payload limit `M` never hands over a block of more than `M` bytes. -/
theorem C04_block_size (M : Int) (ss : List Send) (bss : List (List Bytes)) (o' : OutState) (hM : 21 < M)
    (hmsg : ∀ s ∈ ss, ∀ m ∈ s.messages, m ≠ [])
    (h : sends (OutState.init M) ss = .ok (bss, o')) : ∀ bs ∈ bss, ∀ b ∈ bs, (b.length : Int) ≤ M := by
  obtain ⟨_, _, _, _, _, _, _, e5⟩ := sends_ok (o := OutState.init M) (by simp only [OutState.init]; omega) hmsg h
  intro bs hbs b hb
  have := e5 b (List.mem_flatten.mpr ⟨bs, hbs, hb⟩)
  simp only [OutState.init] at this
  omega

/-- The hypotheses of `C04_block_size` can be met, and the limit is reached: here both blocks have 30 bytes. -/
example : (sends (OutState.init 30) [.batch [[1], List.replicate 14 2]]).map (fun r => r.1.map (·.map List.length)) =
    .ok [[22, 30, 26]] := by decide +kernel
example : (sends (OutState.init 60) [.batch [[1], List.replicate 14 2]]).map (fun r => r.1.map (·.map List.length)) =
    .ok [[57]] := by decide +kernel

/-- C05. The blocks of a batch, grouped into receives in any way, deliver exactly the messages in order. -/
theorem C05_batch_delivery (o : OutState) (msgs : List Bytes) (b : InBufs) (hsize : 0 < o.maxSize)
    (hlen : ∀ m ∈ msgs, m.length < 2 ^ 32) (hcount : o.counter + msgs.length ≤ 2 ^ 64)
    (hb : ∀ i, o.counter ≤ i → b i = none) :
    ∃ blocks o', fragmentMultiple o msgs = .ok (blocks, o') ∧
      ∀ groups : List (List Bytes), groups.flatten = blocks →
        ∃ outs, receives b (groups.map List.flatten) = (b, .ok outs) ∧ outs.flatten = msgs := by
  obtain ⟨blocks, o', h⟩ := fragmentMultipleLoop_total (o := o) (r := o.maxSize) (frags := []) hsize hsize hcount hlen
  refine ⟨blocks, o', h, ?_⟩
  obtain ⟨_, bfs, fss, e1, e2, e3, e4, _⟩ := fragmentMultipleLoop_ok (bfs := []) hsize
    ⟨hsize, Int.le_refl _⟩ rfl (by simp) (by simp) (by simp) h
  intro groups hg
  have hp := parsesAll_groups e2 (hg.trans e1)
  rw [e3] at hp
  simp only [List.flatten_nil, List.nil_append] at hp
  exact hp.receives b b msgs (e4.defragList b hb)

example : (fragmentMultiple (OutState.init 60) [[1], List.replicate 14 2, []]).map (fun r => r.1.map List.length) =
    .ok [57, 21] := by decide +kernel

/-- C06. Fragments of several messages arriving interleaved: if the fragments of every object are those of message
`m o` in order, then, whatever the interleaving and the grouping into receives, every message is delivered exactly, in
the order in which the last fragments arrive, and nothing is left over. -/
theorem C06_interleaved (m : Nat → Bytes) (fs : List Fragment) (datas : List Bytes) (hp : ParsesAll datas fs)
    (h : ∀ o, ofObject o fs = [] ∨ Fragmentation o (m o) (ofObject o fs)) :
    ∃ outs, receives noBuffers datas = (noBuffers, .ok outs) ∧
      outs.flatten = (fs.filter (·.end_)).map (fun f => m f.objectId) := by
  apply hp.receives
  apply defragList_interleaved
  intro o
  left
  refine ⟨rfl, ?_⟩
  rcases h o with h | h
  · exact .inl h
  · obtain ⟨ds, h1, h2, h3⟩ := h.eq_mkRun
    exact .inr ⟨ds, h1, h3, h2⟩

/-- The bytes of a fragment, empty if packing fails. -/
def packedBytes (f : Fragment) : Bytes := match f.pack with
  | .ok p => p
  | .error _ => []

/-- C06. The same, with the fragments' wire bytes given directly: any interleaving of fragments that fit the wire
format, cut into receives `groups`. -/
theorem C06_interleaved_wire (m : Nat → Bytes) (groups : List (List Fragment))
    (hfit : ∀ f ∈ groups.flatten, f.Fits)
    (h : ∀ o, ofObject o groups.flatten = [] ∨ Fragmentation o (m o) (ofObject o groups.flatten)) :
    ∃ outs, receives noBuffers (groups.map (fun g => (g.map packedBytes).flatten)) = (noBuffers, .ok outs) ∧
      outs.flatten = (groups.flatten.filter (·.end_)).map (fun f => m f.objectId) := by
  apply C06_interleaved m _ _ _ h
  clear h
  induction groups with
  | nil => exact .nil
  | cons g gs ih =>
    have hg : g.map packedBytes = g.map Fragment.wire := by
      apply List.map_congr_left
      intro f hf
      simp [packedBytes, Fragment.pack_fits (hfit f (by simp [hf]))]
    refine .cons ?_ (ih fun f hf => hfit f (by
      rw [List.flatten_cons, List.mem_append]; exact .inr hf))
    show Parses (g.map packedBytes).flatten g
    rw [hg]
    exact parses_wires fun f hf => hfit f (by simp [hf])

/-- Two interleaved messages meet the hypotheses of C06. -/
example : let fs : List Fragment := [⟨1, 0, [1], true, false⟩, ⟨2, 0, [9], true, false⟩, ⟨2, 1, [8], false, true⟩,
      ⟨1, 1, [2], false, true⟩]
    let m : Nat → Bytes := fun o => if o = 1 then [1, 2] else [9, 8]
    ∀ o, ofObject o fs = [] ∨ Fragmentation o (m o) (ofObject o fs) := by
  intro fs m o
  by_cases h1 : o = 1
  · subst h1; right
    exact ⟨by decide, by decide, by decide, by decide, by decide, by decide⟩
  · by_cases h2 : o = 2
    · subst h2; right
      exact ⟨by decide, by decide, by decide, by decide, by decide, by decide⟩
    · left
      simp only [ofObject, fs]
      have h1' : (1 == o) = false := by simp; omega
      have h2' : (2 == o) = false := by simp; omega
      simp [h1', h2']

/-- C07. For any received byte strings: processing them succeeds exactly when they consist of whole fragment headers
and the fragments of every object count 0,1,2,... starting again after each end fragment. -/
theorem C07_accepts_iff (datas : List Bytes) :
    (∃ b outs, receives noBuffers datas = (b, .ok outs)) ↔
      ∃ fs, ParsesAll datas fs ∧ ∀ o, CountsFrom 0 (ofObject o fs) := by
  constructor
  · rintro ⟨b, outs, h⟩
    obtain ⟨fs, hp, hd⟩ := receives_ok h
    exact ⟨fs, hp, (defragList_ok_iff noBuffers fs []).mp ⟨_, _, hd⟩⟩
  · rintro ⟨fs, hp, hc⟩
    obtain ⟨b', ms, hd⟩ := (defragList_ok_iff noBuffers fs []).mpr hc
    obtain ⟨outs, h, _⟩ := hp.receives _ _ _ hd
    exact ⟨b', outs, h⟩

/-- C07. If the bytes are whole fragments but some object's fragments are out of order, `FragmentError` is raised. -/
theorem C07_rejects (datas : List Bytes) (fs : List Fragment) (hp : ParsesAll datas fs) (o : Nat)
    (hbad : ¬ CountsFrom 0 (ofObject o fs)) : (receives noBuffers datas).2 = .error .fragmentError := by
  have key : ∀ (b : InBufs), (∀ b' ms, defragList b fs [] ≠ (b', .ok ms)) →
      (receives b datas).2 = .error .fragmentError := by
    clear hbad
    induction hp with
    | nil => intro b h; exact absurd rfl (h b [])
    | @cons data ds fs gs hp _ ih =>
      intro b h
      simp only [receives, defragment, hp.defragLoop]
      match hd : defragList b fs [] with
      | (b1, .error e) => simp [defragList_err hd]
      | (b1, .ok m1) =>
        have := ih b1 (by
          intro b' ms hg
          apply h b' (m1 ++ ms)
          rw [defragList_append, hd]
          simp only []
          rw [defragList_done, hg])
        simp only []
        match hr : receives b1 ds with
        | (b2, .error e) => rw [hr] at this; simpa using this
        | (b2, .ok m2) => rw [hr] at this; simp at this
  apply key
  intro b' ms hd
  exact hbad ((defragList_ok_iff noBuffers fs []).mp ⟨b', ms, hd⟩ o)

/-- C07. The messages delivered are, for each end fragment with id `k` in order of arrival, the data of the last `k+1`
fragments of its object. As the property says this needs the start flag on fragment 0 only; see
`C07_repeated_start_false`. -/
theorem C07_delivers_runs (datas : List Bytes) (fs : List Fragment) (b : InBufs) (outs : List (List Bytes))
    (hp : ParsesAll datas fs) (hst : ∀ f ∈ fs, f.start = true → f.fragmentId = 0)
    (h : receives noBuffers datas = (b, .ok outs)) : outs.flatten = completed [] fs := by
  obtain ⟨fs', hp', hd⟩ := receives_ok h
  rw [hp.unique hp'] at hst ⊢
  exact defragList_completed [] noBuffers b fs' _ bufInv_empty hst hd

/-- C07. Those last `k+1` fragments are fragments 0,1,...,k of the object and only the last has the end flag. -/
theorem C07_runs_in_order (fs pre post : List Fragment) (f : Fragment) (hc : CountsFrom 0 fs)
    (hfs : fs = pre ++ f :: post) :
    (lastN (f.fragmentId + 1) (pre ++ [f])).map (·.fragmentId) = List.range (f.fragmentId + 1) ∧
      ∀ g ∈ (lastN (f.fragmentId + 1) (pre ++ [f])).dropLast, g.end_ = false := by
  subst hfs
  have h1 : CountsFrom 0 (pre ++ [f]) := by
    rw [show pre ++ f :: post = (pre ++ [f]) ++ post by simp] at hc
    exact hc.of_append
  obtain ⟨hpre, hid⟩ := (countsFrom_concat 0 pre f).mp h1
  obtain ⟨hle, hids, hends⟩ := countsFrom_lastN pre hpre
  rw [hid, lastN_concat _ _ _ hle]
  constructor
  · rw [List.map_append, hids, List.range_succ]; simp [hid]
  · simpa using hends

/-- C07. Number of messages = number of end fragments, with no condition on start flags. -/
theorem C07_count (datas : List Bytes) (b : InBufs) (outs : List (List Bytes))
    (h : receives noBuffers datas = (b, .ok outs)) :
    ∃ fs, ParsesAll datas fs ∧ outs.flatten.length = (fs.filter (·.end_)).length := by
  obtain ⟨fs, hp, hd⟩ := receives_ok h
  refine ⟨fs, hp, ?_⟩
  clear hp h
  generalize noBuffers = b0 at hd
  generalize outs.flatten = ms at hd
  induction fs generalizing b0 ms with
  | nil => simp [defragList] at hd; simp [hd]
  | cons f fs ih =>
    have hid : f.fragmentId = nextId b0 f.objectId := by
      have := (defragList_ok_iff b0 (f :: fs) []).mp ⟨b, ms, hd⟩ f.objectId
      rw [ofObject_cons_same] at this
      exact this.1
    obtain ⟨b1, _, _, hs⟩ := defragStep_eq b0 f hid
    cases he : f.end_
    · simp only [he, Bool.false_eq_true, if_false] at hs
      simp only [defragList, hs] at hd
      simp [he, ih _ _ hd]
    · simp only [he, if_true] at hs
      simp only [defragList, hs] at hd
      rw [defragList_done] at hd
      match hd2 : defragList b1 fs [] with
      | (b2, .error e) => rw [hd2] at hd; simp at hd
      | (b2, .ok m2) =>
        rw [hd2] at hd
        simp only [Prod.mk.injEq, Except.ok.injEq] at hd
        rw [← hd.2]
        have := ih b1 m2 (by rw [hd2, hd.1])
        simp [he, this]

/-- C07 without the start-flag condition is false: a second fragment (id 1) that also has the start flag discards the
data of fragment 0. -/
theorem C07_repeated_start_false :
    ∃ datas b outs, receives noBuffers datas = (b, .ok outs) ∧
      ∃ fs, ParsesAll datas fs ∧ outs.flatten = [[2]] ∧ completed [] fs = [[1, 2]] := by
  have hfit : ∀ f ∈ [Fragment.mk 1 0 [1] true false, Fragment.mk 1 1 [2] true true], f.Fits := by decide
  have hp : ParsesAll [wires [Fragment.mk 1 0 [1] true false, Fragment.mk 1 1 [2] true true]]
      ([Fragment.mk 1 0 [1] true false, Fragment.mk 1 1 [2] true true] ++ []) := .cons (parses_wires hfit) .nil
  obtain ⟨outs, h1, h2⟩ := hp.receives noBuffers
    ((((noBuffers.set 1 (some ⟨[], 0⟩)).set 1 (some ⟨[1], 1⟩))).set 1 none) [[2]] (by rfl)
  exact ⟨_, _, outs, h1, _, hp, h2, by decide⟩

/-- C07: a body shorter than its declared length is accepted as complete (slices clip silently). The fragment below
declares 5 bytes of data but only 2 follow. -/
theorem C07_truncated_body_false :
    ∃ data : Bytes, ∃ b, Fragment.unpack data = .ok (⟨1, 0, [7, 8], true, true⟩, []) ∧
      unpackBE 4 ((data.drop 17).take 4) = .ok 5 ∧ receives noBuffers [data] = (b, .ok [[[7, 8]]]) := by
  refine ⟨[0, 0, 0, 0, 0, 0, 0, 1, 0, 0, 0, 0, 0, 0, 0, 0, 3, 0, 0, 0, 5, 7, 8],
    (noBuffers.set 1 (some ⟨[], 0⟩)).set 1 none, by decide, by decide, ?_⟩
  have hp : ParsesAll [[0, 0, 0, 0, 0, 0, 0, 1, 0, 0, 0, 0, 0, 0, 0, 0, 3, 0, 0, 0, 5, 7, 8]]
    ([⟨1, 0, [7, 8], true, true⟩] ++ []) := .cons (.cons (by decide) (rest := []) (by decide) .nil) .nil
  simp only [receives, defragment]
  rw [(show Parses _ [⟨1, 0, [7, 8], true, true⟩] from .cons (by decide) (rest := []) (by decide) .nil).defragLoop]
  rfl

example : CountsFrom 0 (ofObject 1 [⟨1, 0, [1], true, false⟩, ⟨2, 0, [9], true, true⟩, ⟨1, 1, [2], false, true⟩,
    ⟨1, 0, [3], true, true⟩]) := by decide
example : ¬ CountsFrom 0 (ofObject 1 [⟨1, 0, [1], true, false⟩, ⟨1, 2, [2], false, true⟩]) := by decide
example : completed [] [⟨1, 0, [1], true, false⟩, ⟨2, 0, [9], true, true⟩, ⟨1, 1, [2], false, true⟩,
    ⟨1, 0, [3], true, true⟩] = [[9], [1, 2], [3]] := by decide

end Verif
