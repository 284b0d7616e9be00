import Verif.Lemmas.FragmentRecv
namespace Verif

/-- Pieces with the "last one" flag. -/
def flagLast : List Bytes → List (Bytes × Bool)
  | [] => []
  | [d] => [(d, true)]
  | d :: d' :: ds => (d, false) :: flagLast (d' :: ds)

theorem chunksFlag_nil (n : Nat) : chunksFlag n [] = [] := by
  rw [chunksFlag]; simp

theorem chunksFlag_spec {n : Nat} (hn : 0 < n) (data : Bytes) :
    ∃ ds, chunksFlag n data = flagLast ds ∧ ds.flatten = data ∧ (∀ d ∈ ds, d.length ≤ n) ∧
      ds.length ≤ data.length ∧ (data ≠ [] → ds ≠ []) := by
  induction h : data.length using Nat.strongRecOn generalizing data with
  | _ k ih =>
    by_cases hd : data = []
    · subst hd; exact ⟨[], by rw [chunksFlag_nil]; rfl, rfl, by simp, by simp, fun h => absurd rfl h⟩
    · rw [chunksFlag, dif_pos ⟨hn, hd⟩]
      have hpos := List.length_pos_iff.mpr hd
      obtain ⟨ds, h1, h2, h3, h4, h5⟩ := ih (data.drop n).length (by simp; omega) (data.drop n) rfl
      refine ⟨data.take n :: ds, ?_, by simp [h2], ?_, ?_, by simp⟩
      · rw [h1]
        cases ds with
        | nil =>
          have : data.drop n = [] := Classical.byContradiction fun hc => h5 hc rfl
          have hle : data.length ≤ n := by simpa using this
          simp [flagLast, hle]
        | cons d ds =>
          have : ¬ data.length ≤ n := by
            intro hle
            have : data.drop n = [] := by simpa using hle
            rw [this, chunksFlag_nil] at h1
            cases ds <;> simp [flagLast] at h1
          simp [flagLast, this]
      · intro d hdm
        simp only [List.mem_cons] at hdm
        rcases hdm with rfl | hdm
        · simp; omega
        · exact h3 d hdm
      · simp only [List.length_cons, List.length_drop] at h4 ⊢
        omega

theorem pack_ok_iff {f : Fragment} {p : Bytes} (h : f.pack = .ok p) : f.Fits ∧ p = f.wire := by
  by_cases hf : f.Fits
  · rw [Fragment.pack_fits hf] at h
    exact ⟨hf, by simpa using h.symm⟩
  · rw [Fragment.pack_not_fits hf] at h; simp at h

theorem packPieces_ok {o i : Nat} {s : Bool} {ds : List Bytes} {ps : List Bytes}
    (h : packPieces o i s (flagLast ds) = .ok ps) :
    ps = (mkRun o i s ds).map Fragment.wire ∧ ∀ f ∈ mkRun o i s ds, f.Fits := by
  induction ds generalizing i s ps with
  | nil => simp [flagLast, packPieces] at h; simp [mkRun, h]
  | cons d ds ih =>
    cases ds with
    | nil =>
      simp only [flagLast, packPieces, bind, Except.bind, pure, Except.pure] at h
      split at h
      · simp at h
      · rename_i p hp
        simp only [Except.ok.injEq] at h
        obtain ⟨hf, rfl⟩ := pack_ok_iff hp
        simp [mkRun, ← h, hf]
    | cons d' ds =>
      simp only [flagLast, packPieces, bind, Except.bind, pure, Except.pure] at h
      split at h
      · simp at h
      · rename_i p hp
        split at h
        · simp at h
        · rename_i ps' hps
          simp only [Except.ok.injEq] at h
          obtain ⟨hf, rfl⟩ := pack_ok_iff hp
          obtain ⟨rfl, hfs⟩ := ih hps
          subst h
          refine ⟨by simp [mkRun], ?_⟩
          intro f hf'
          simp only [mkRun, List.mem_cons] at hf'
          rcases hf' with rfl | hf'
          · exact hf
          · exact hfs f hf'

theorem packPieces_total {o i : Nat} {s : Bool} {ds : List Bytes} (ho : o < 2 ^ 64)
    (hi : i + ds.length < 2 ^ 64) (hd : ∀ d ∈ ds, d.length < 2 ^ 32) :
    ∃ ps, packPieces o i s (flagLast ds) = .ok ps := by
  induction ds generalizing i s with
  | nil => exact ⟨[], rfl⟩
  | cons d ds ih =>
    have hf : ∀ e, (Fragment.mk o i d s e).Fits := fun e => ⟨ho, by simp at hi ⊢; omega, hd d (by simp)⟩
    cases ds with
    | nil =>
      simp [flagLast, packPieces, bind, Except.bind, pure, Except.pure, Fragment.pack_fits (hf _)]
    | cons d' ds =>
      obtain ⟨ps, hps⟩ := ih (i := i + 1) (s := false) (by simp at hi ⊢; omega) (fun d hd' => hd d (by simp [hd']))
      simp [flagLast, packPieces, bind, Except.bind, pure, Except.pure, Fragment.pack_fits (hf _), hps]

/-- `fragment` without a remaining size. -/
theorem fragment_none {o o' : OutState} {msg : Bytes} {ps : List Bytes} (hm : 0 < o.maxSize) (hne : msg ≠ [])
    (h : fragment o msg none = .ok (ps, o')) :
    o' = { o with counter := o.counter + 1 } ∧
    ∃ fs, Fragmentation o.counter msg fs ∧ ps = fs.map Fragment.wire ∧ (∀ f ∈ fs, f.Fits) ∧
      ∀ f ∈ fs, (f.data.length : Int) ≤ o.maxSize := by
  obtain ⟨ds, h1, h2, h3, h4, h5⟩ := chunksFlag_spec (n := o.maxSize.toNat) (by omega) msg
  have hb : byteIterator msg o.maxSize = .ok (flagLast ds) := by
    unfold byteIterator
    rw [if_neg (by omega), if_neg (by omega), h1]
  simp only [fragment, hb, bind, Except.bind, pure, Except.pure] at h
  split at h
  · simp at h
  · rename_i ps' hps
    simp only [Except.ok.injEq, Prod.mk.injEq] at h
    obtain ⟨rfl, rfl⟩ := h
    obtain ⟨rfl, hfit⟩ := packPieces_ok hps
    refine ⟨rfl, mkRun o.counter 0 true ds, h2 ▸ fragmentation_mkRun (h5 hne), rfl, hfit, ?_⟩
    intro f hf
    have hmem : f.data ∈ ds := by
      have hd : (mkRun o.counter 0 true ds).map (fun f => f.data) = ds := by
        clear h1 h2 h3 h4 h5 hb hps hfit hf
        generalize true = s
        generalize 0 = i
        induction ds generalizing i s with
        | nil => rfl
        | cons d ds ih =>
          cases ds with
          | nil => rfl
          | cons d' ds => rw [mkRun, List.map_cons, ih]
      rw [← hd]; exact List.mem_map_of_mem hf
    have := h3 _ hmem
    omega

theorem mkRun_data (o i s ds) : (mkRun o i s ds).map Fragment.data = ds := by
  induction ds generalizing i s with
  | nil => rfl
  | cons d ds ih =>
    cases ds with
    | nil => rfl
    | cons d' ds => rw [mkRun, List.map_cons, ih]

/-- `fragment` with a remaining size `r > 0`: the first fragment's data has at most `r` bytes. -/
theorem fragment_some {o o' : OutState} {msg : Bytes} {ps : List Bytes} {r : Int} (hm : 0 < o.maxSize)
    (hr : 0 < r) (h : fragment o msg (some r) = .ok (ps, o')) :
    o' = { o with counter := o.counter + 1 } ∧
    ∃ f fs, Fragmentation o.counter msg (f :: fs) ∧ ps = (f :: fs).map Fragment.wire ∧
      (∀ g ∈ f :: fs, g.Fits) ∧ (f.data.length : Int) ≤ r ∧ ∀ g ∈ fs, (g.data.length : Int) ≤ o.maxSize := by
  have hsl : sliceTo msg r = msg.take r.toNat := by
    unfold sliceTo; rw [if_pos (by omega)]
  have hdrop : msg.drop (msg.take r.toNat).length = msg.drop r.toNat := by
    simp only [List.length_take]
    by_cases hle : r.toNat ≤ msg.length
    · rw [Nat.min_eq_left hle]
    · rw [Nat.min_eq_right (by omega), List.drop_eq_nil_of_le (Nat.le_refl _), List.drop_eq_nil_of_le (by omega)]
  obtain ⟨ds, h1, h2, h3, h4, h5⟩ := chunksFlag_spec (n := o.maxSize.toNat) (by omega) (msg.drop r.toNat)
  have hb : byteIterator (msg.drop r.toNat) o.maxSize = .ok (flagLast ds) := by
    unfold byteIterator
    rw [if_neg (by omega), if_neg (by omega), h1]
  simp only [fragment, hsl, hdrop, hb, bind, Except.bind, pure, Except.pure] at h
  split at h
  · simp at h
  · rename_i p hp
    split at h
    · simp at h
    · rename_i ps' hps
      simp only [Except.ok.injEq, Prod.mk.injEq] at h
      obtain ⟨rfl, rfl⟩ := h
      obtain ⟨hf0, rfl⟩ := pack_ok_iff hp
      obtain ⟨rfl, hfit⟩ := packPieces_ok hps
      have hrun : mkRun o.counter 0 true (msg.take r.toNat :: ds) =
          ⟨o.counter, 0, msg.take r.toNat, true, msg.drop r.toNat == []⟩ :: mkRun o.counter 1 false ds := by
        cases ds with
        | nil =>
          have : msg.drop r.toNat = [] := Classical.byContradiction fun hc => h5 hc rfl
          simp [mkRun, this]
        | cons d ds =>
          have : msg.drop r.toNat ≠ [] := by
            intro hc
            rw [hc, chunksFlag_nil] at h1
            cases ds <;> simp [flagLast] at h1
          have hbf : (msg.drop r.toNat == []) = false := by
            simpa using this
          rw [mkRun, hbf]
      refine ⟨rfl, _, _, ?_, rfl, ?_, ?_, ?_⟩
      · rw [← hrun]
        have hfl : (msg.take r.toNat :: ds).flatten = msg := by simp [h2]
        have := fragmentation_mkRun (o := o.counter) (ds := msg.take r.toNat :: ds) (by simp)
        rwa [hfl] at this
      · intro g hg
        simp only [List.mem_cons] at hg
        rcases hg with rfl | hg
        · exact hf0
        · exact hfit g hg
      · simp; omega
      · intro g hg
        have : g.data ∈ ds := by
          have := List.mem_map_of_mem (f := Fragment.data) hg
          rwa [mkRun_data] at this
        have := h3 _ this
        omega

theorem fragment_none_total {o : OutState} {msg : Bytes} (hm : 0 < o.maxSize) (ho : o.counter < 2 ^ 64)
    (hl : msg.length < 2 ^ 32) : ∃ ps, fragment o msg none = .ok (ps, { o with counter := o.counter + 1 }) := by
  obtain ⟨ds, h1, h2, h3, h4, h5⟩ := chunksFlag_spec (n := o.maxSize.toNat) (by omega) msg
  have hb : byteIterator msg o.maxSize = .ok (flagLast ds) := by
    unfold byteIterator
    rw [if_neg (by omega), if_neg (by omega), h1]
  have hlen : ∀ d ∈ ds, d.length < 2 ^ 32 := by
    intro d hd
    have := (List.sublist_flatten_of_mem hd).length_le
    rw [h2] at this; omega
  obtain ⟨ps, hps⟩ := packPieces_total (s := true) (i := 0) ho (by omega) hlen
  exact ⟨ps, by simp [fragment, hb, hps, bind, Except.bind, pure, Except.pure]⟩

theorem fragment_some_total {o : OutState} {msg : Bytes} {r : Int} (hm : 0 < o.maxSize) (hr : 0 < r)
    (ho : o.counter < 2 ^ 64) (hl : msg.length < 2 ^ 32) :
    ∃ p ps, fragment o msg (some r) = .ok (p :: ps, { o with counter := o.counter + 1 }) := by
  have hsl : sliceTo msg r = msg.take r.toNat := by
    unfold sliceTo; rw [if_pos (by omega)]
  obtain ⟨ds, h1, h2, h3, h4, h5⟩ := chunksFlag_spec (n := o.maxSize.toNat) (by omega)
    (msg.drop (msg.take r.toNat).length)
  have hb : byteIterator (msg.drop (msg.take r.toNat).length) o.maxSize = .ok (flagLast ds) := by
    unfold byteIterator
    rw [if_neg (by omega), if_neg (by omega), h1]
  have hlen : ∀ d ∈ ds, d.length < 2 ^ 32 := by
    intro d hd
    have := (List.sublist_flatten_of_mem hd).length_le
    rw [h2] at this; simp only [List.length_drop] at this; omega
  obtain ⟨ps, hps⟩ := packPieces_total (o := o.counter) (s := false) (i := 1) ho
    (by simp only [List.length_drop] at h4; omega) hlen
  have hf : (Fragment.mk o.counter 0 (msg.take r.toNat) true (msg.drop (msg.take r.toNat).length == [])).Fits :=
    ⟨ho, by simp, by simp; omega⟩
  refine ⟨(Fragment.mk o.counter 0 (msg.take r.toNat) true (msg.drop (msg.take r.toNat).length == [])).wire, ps, ?_⟩
  simp only [fragment, hsl, hb, hps, bind, Except.bind, pure, Except.pure, Fragment.pack_fits hf]

theorem FragmentsOf.append {c ms fss ms' fss'} (h : FragmentsOf c ms fss)
    (h' : FragmentsOf (c + ms.length) ms' fss') : FragmentsOf c (ms ++ ms') (fss ++ fss') := by
  induction ms generalizing c fss with
  | nil => cases fss with
    | nil => simpa using h'
    | cons => exact h.elim
  | cons m ms ih =>
    cases fss with
    | nil => exact h.elim
    | cons fs fss =>
      refine ⟨h.1, ih h.2 ?_⟩
      have : c + 1 + ms.length = c + (m :: ms).length := by simp; omega
      rw [this]; exact h'

theorem flatten_map_singleton {α : Type} (l : List α) : (l.map (fun a => [a])).flatten = l := by
  induction l with
  | nil => rfl
  | cons a l ih => simp [ih]

/-- The loop of `fragment_multiple`. -/
theorem fragmentMultipleLoop_ok {o o' : OutState} {r : Int} {msgs : List Bytes} {frags blocks : List Bytes}
    {bfs : List (List Fragment)} (hm : 0 < o.maxSize) (hr : 0 < r ∧ r ≤ o.maxSize)
    (hb : frags = bfs.map wires) (hfit : ∀ g ∈ bfs, ∀ f ∈ g, f.Fits)
    (hsz : ∀ b ∈ frags, (b.length : Int) ≤ o.maxSize + 21)
    (hlast : frags ≠ [] → r ≠ o.maxSize → r ≤ o.maxSize - (frags.getLastD []).length)
    (h : fragmentMultipleLoop o r frags msgs = .ok (blocks, o')) :
    o' = { o with counter := o.counter + msgs.length } ∧
    ∃ (bfs' : List (List Fragment)) (fss : List (List Fragment)), blocks = bfs'.map wires ∧ (∀ g ∈ bfs', ∀ f ∈ g, f.Fits) ∧
      bfs'.flatten = bfs.flatten ++ fss.flatten ∧ FragmentsOf o.counter msgs fss ∧
      ∀ b ∈ blocks, (b.length : Int) ≤ o.maxSize + 21 := by
  induction msgs generalizing o r frags bfs with
  | nil =>
    simp only [fragmentMultipleLoop, Except.ok.injEq, Prod.mk.injEq] at h
    obtain ⟨rfl, rfl⟩ := h
    exact ⟨rfl, bfs, [], hb, hfit, by simp, trivial, hsz⟩
  | cons msg msgs ih =>
    simp only [fragmentMultipleLoop, bind, Except.bind] at h
    split at h
    · simp at h
    · rename_i v hv
      obtain ⟨bf, o1⟩ := v
      obtain ⟨ho1, f, fs, hfr, hps, hff, hfl, hfsl⟩ := fragment_some hm hr.1 hv
      simp only [List.map_cons] at hps
      subst hps
      simp only at h
      -- the new blocks as lists of fragments
      have key : ∃ bfs2 : List (List Fragment), ∃ frags2,
          (match (if r ≠ o.maxSize ∧ frags ≠ [] then
              (Except.ok (frags.dropLast ++ [frags.getLastD [] ++ f.wire], fs.map Fragment.wire) :
                Except PyErr (List Bytes × List Bytes))
            else .ok (frags, f.wire :: fs.map Fragment.wire)) with
            | .ok (a, b) => a ++ b
            | .error _ => []) = frags2 ∧ frags2 = bfs2.map wires ∧ (∀ g ∈ bfs2, ∀ f ∈ g, f.Fits) ∧
            bfs2.flatten = bfs.flatten ++ (f :: fs) ∧ frags2 ≠ [] ∧
            (∀ b ∈ frags2, (b.length : Int) ≤ o.maxSize + 21) := by
        have hfsfit : ∀ g ∈ fs.map (fun f => [f]), ∀ f ∈ g, f.Fits := by
          intro g hg f' hf'
          simp only [List.mem_map] at hg
          obtain ⟨a, ha, rfl⟩ := hg
          simp only [List.mem_singleton] at hf'
          subst hf'; exact hff _ (by simp [ha])
        have hwfs : (fs.map (fun f => [f])).map wires = fs.map Fragment.wire := by
          simp [wires]
        have hflfs : (fs.map (fun f => [f])).flatten = fs := flatten_map_singleton fs
        have hszfs : ∀ b ∈ fs.map Fragment.wire, (b.length : Int) ≤ o.maxSize + 21 := by
          intro b hb
          simp only [List.mem_map] at hb
          obtain ⟨a, ha, rfl⟩ := hb
          have := hfsl a ha
          simp only [Fragment.wire_length]; omega
        by_cases hc : r ≠ o.maxSize ∧ frags ≠ []
        · rw [if_pos hc]
          have hbne : bfs ≠ [] := by
            intro h0; rw [h0] at hb; exact hc.2 hb
          have hspl := List.dropLast_concat_getLast hbne
          have hlastmem := List.getLast_mem hbne
          generalize hl : bfs.getLast hbne = bl at *
          generalize hi : bfs.dropLast = bi at *
          have hfr' : frags = bi.map wires ++ [wires bl] := by
            rw [hb, ← hspl]; simp
          have hgl : frags.getLastD [] = wires bl := by rw [hfr']; simp [List.getLastD_eq_getLast?]
          refine ⟨bi ++ [bl ++ [f]] ++ fs.map (fun f => [f]), _, rfl, ?_, ?_, ?_, ?_, ?_⟩
          · simp only [List.map_append, hwfs, hgl]
            rw [hfr']
            simp [wires]
          · intro g hg f' hf'
            simp only [List.mem_append, List.mem_singleton] at hg
            rcases hg with (hg | rfl) | hg
            · exact hfit g (by rw [← hspl]; simp [hg]) f' hf'
            · simp only [List.mem_append, List.mem_singleton] at hf'
              rcases hf' with hf' | rfl
              · exact hfit bl (by rw [← hspl]; simp) f' hf'
              · exact hff _ (by simp)
            · exact hfsfit g hg f' hf'
          · simp only [List.flatten_append, hflfs]
            rw [← hspl]; simp
          · simp
          · intro b hb'
            simp only [List.mem_append, List.mem_singleton] at hb'
            rcases hb' with (hb' | rfl) | hb'
            · exact hsz b (List.dropLast_subset _ hb')
            · have := hlast hc.2 hc.1
              simp only [List.length_append, Fragment.wire_length]
              push_cast
              omega
            · exact hszfs b hb'
        · rw [if_neg hc]
          refine ⟨bfs ++ ([f] :: fs.map (fun f => [f])), _, rfl, ?_, ?_, ?_, by simp, ?_⟩
          · simp only [List.map_append, List.map_cons, hwfs, hb]
            simp [wires]
          · intro g hg f' hf'
            simp only [List.mem_append, List.mem_cons] at hg
            rcases hg with hg | rfl | hg
            · exact hfit g hg f' hf'
            · simp only [List.mem_singleton] at hf'
              subst hf'; exact hff _ (by simp)
            · exact hfsfit g hg f' hf'
          · simp only [List.flatten_append, List.flatten_cons, hflfs]
            simp
          · intro b hb'
            simp only [List.mem_append, List.mem_cons] at hb'
            rcases hb' with hb' | rfl | hb'
            · exact hsz b hb'
            · simp only [Fragment.wire_length]
              have := hr.2; push_cast; omega
            · exact hszfs b hb'
      obtain ⟨bfs2, frags2, hf2, hb2, hfit2, hfl2, hne2, hsz2⟩ := key
      -- run the rest of the loop
      have hrest : ∃ last, frags2.getLast? = some last ∧
          fragmentMultipleLoop o1 (if o.maxSize - (last.length : Int) ≤ 0 then o.maxSize
            else o.maxSize - last.length) frags2 msgs = .ok (blocks, o') := by
        refine ⟨frags2.getLast hne2, List.getLast?_eq_some_getLast hne2, ?_⟩
        by_cases hc : r ≠ o.maxSize ∧ frags ≠ []
        · rw [if_pos hc] at h hf2
          simp only at h hf2
          rw [hf2, List.getLast?_eq_some_getLast hne2] at h
          exact h
        · rw [if_neg hc] at h hf2
          simp only at h hf2
          rw [hf2, List.getLast?_eq_some_getLast hne2] at h
          exact h
      obtain ⟨last, hlast2, hloop⟩ := hrest
      have hms1 : o1.maxSize = o.maxSize := by rw [ho1]
      have hl2 : (frags2.getLastD []) = last := by simp [List.getLastD_eq_getLast?, hlast2]
      obtain ⟨ho', bfs', fss, e1, e2, e3, e4, e5⟩ := ih (o := o1) (bfs := bfs2) (by rw [hms1]; exact hm)
        (by rw [hms1]; split <;> omega) hb2 hfit2 (by rw [hms1]; exact hsz2)
        (by
          intro _ hne
          rw [hms1, hl2] at *
          split at hne
          · exact absurd rfl hne
          · rw [if_neg (by assumption)]; omega) hloop
      subst ho1
      refine ⟨?_, bfs', (f :: fs) :: fss, e1, e2, ?_, ⟨hfr, e4⟩, e5⟩
      · rw [ho']; simp; omega
      · rw [e3, hfl2]; simp

theorem fragmentMultipleLoop_total {o : OutState} {r : Int} {msgs : List Bytes} {frags : List Bytes}
    (hm : 0 < o.maxSize) (hr : 0 < r) (ho : o.counter + msgs.length ≤ 2 ^ 64)
    (hl : ∀ m ∈ msgs, m.length < 2 ^ 32) :
    ∃ blocks o', fragmentMultipleLoop o r frags msgs = .ok (blocks, o') := by
  induction msgs generalizing o r frags with
  | nil => exact ⟨frags, o, rfl⟩
  | cons msg msgs ih =>
    simp only [List.length_cons] at ho
    obtain ⟨p, ps, hf⟩ := fragment_some_total (msg := msg) hm hr (by omega) (hl msg (by simp))
    simp only [fragmentMultipleLoop, hf, bind, Except.bind]
    have go : ∀ frags2 : List Bytes, frags2 ≠ [] → ∃ blocks o',
        (match frags2.getLast? with
          | none => Except.error PyErr.indexError
          | some last =>
            fragmentMultipleLoop { o with counter := o.counter + 1 }
              (if o.maxSize - (last.length : Int) ≤ 0 then o.maxSize else o.maxSize - last.length) frags2 msgs) =
          .ok (blocks, o') := by
      intro frags2 hne
      rw [List.getLast?_eq_some_getLast hne]
      simp only
      exact ih (o := { o with counter := o.counter + 1 }) hm (by split <;> omega) (by simp; omega)
        (fun m hm' => hl m (by simp [hm']))
    by_cases hc : r ≠ o.maxSize ∧ frags ≠ []
    · rw [if_pos hc]
      exact go _ (by simp)
    · rw [if_neg hc]
      exact go _ (by simp)

end Verif
