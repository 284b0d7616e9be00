import Verif.Lemmas.Fragment
import Verif.Spec.Fragment
namespace Verif

theorem Parses.defragLoop {data fs} (h : Parses data fs) (b : InBufs) (done : List Bytes) :
    defragLoop b data done = defragList b fs done := by
  induction h generalizing b done with
  | nil => rw [Verif.defragLoop]; simp [defragList]
  | @cons data rest f fs hne hu hp ih =>
    rw [Verif.defragLoop, dif_neg hne]
    split
    · rename_i e he; rw [hu] at he; simp at he
    · rename_i f' rest' he
      rw [hu] at he
      simp only [Except.ok.injEq, Prod.mk.injEq] at he
      obtain ⟨rfl, rfl⟩ := he
      simp only [defragList]
      split <;> simp_all

theorem parses_of_defragLoop {b : InBufs} {data : Bytes} {done ms : List Bytes} {b' : InBufs}
    (h : defragLoop b data done = (b', .ok ms)) : ∃ fs, Parses data fs := by
  induction hn : data.length using Nat.strongRecOn generalizing b data done with
  | _ n ih =>
    rw [defragLoop] at h
    split at h
    · rename_i hd; exact ⟨[], hd ▸ .nil⟩
    · rename_i hd
      split at h
      · simp at h
      · rename_i f rest hu
        have hlt := Fragment.unpack_shorter hu hd
        split at h
        · simp at h
        all_goals
          obtain ⟨fs, hfs⟩ := ih rest.length (hn ▸ hlt) h rfl
          exact ⟨f :: fs, .cons hd hu hfs⟩

theorem parses_wires {fs : List Fragment} (h : ∀ f ∈ fs, f.Fits) : Parses (wires fs) fs := by
  induction fs with
  | nil => exact .nil
  | cons f fs ih =>
    have hw : wires (f :: fs) = f.wire ++ wires fs := by simp [wires]
    refine .cons (rest := wires fs) ?_ ?_ (ih fun g hg => h g (by simp [hg]))
    · rw [hw]; simp [f.wire_ne_nil]
    · rw [hw]; exact Fragment.unpack_wire (h f (by simp)) _

/-- The receives of a stream behave like processing the parsed fragments one by one. -/
theorem ParsesAll.receives {datas fs} (h : ParsesAll datas fs) (b b' : InBufs) (ms : List Bytes)
    (hd : defragList b fs [] = (b', .ok ms)) :
    ∃ outs, receives b datas = (b', .ok outs) ∧ outs.flatten = ms := by
  induction h generalizing b ms with
  | nil =>
    simp only [defragList, Prod.mk.injEq, Except.ok.injEq] at hd
    exact ⟨[], by simp [Verif.receives, hd.1], by simp [hd.2]⟩
  | @cons data ds fs gs hp _ ih =>
    rw [defragList_append] at hd
    simp only [Verif.receives, defragment, hp.defragLoop]
    match hd1 : defragList b fs [] with
    | (b1, .error e) => rw [hd1] at hd; simp at hd
    | (b1, .ok m1) =>
      rw [hd1] at hd
      simp only [] at hd
      rw [defragList_done] at hd
      match hd2 : defragList b1 gs [] with
      | (b2, .error e) => rw [hd2] at hd; simp at hd
      | (b2, .ok m2) =>
        rw [hd2] at hd
        simp only [Prod.mk.injEq, Except.ok.injEq] at hd
        obtain ⟨rfl, rfl⟩ := hd
        obtain ⟨outs, ho, hfl⟩ := ih b1 m2 hd2
        exact ⟨m1 :: outs, by simp [ho], by simp [hfl]⟩

theorem receives_ok {datas : List Bytes} {b b' : InBufs} {outs : List (List Bytes)}
    (h : receives b datas = (b', .ok outs)) :
    ∃ fs, ParsesAll datas fs ∧ defragList b fs [] = (b', .ok outs.flatten) := by
  induction datas generalizing b outs with
  | nil =>
    simp only [receives, Prod.mk.injEq, Except.ok.injEq] at h
    obtain ⟨rfl, rfl⟩ := h
    exact ⟨[], .nil, rfl⟩
  | cons d ds ih =>
    simp only [receives] at h
    split at h
    · simp at h
    · rename_i b1 m1 h1
      split at h
      · simp at h
      · rename_i b2 m2 h2
        simp only [Prod.mk.injEq, Except.ok.injEq] at h
        obtain ⟨rfl, rfl⟩ := h
        obtain ⟨gs, hgs, hdl⟩ := ih h2
        obtain ⟨fs, hfs⟩ := parses_of_defragLoop h1
        refine ⟨fs ++ gs, .cons hfs hgs, ?_⟩
        unfold defragment at h1
        rw [hfs.defragLoop] at h1
        rw [defragList_append, h1]
        simp only []
        rw [defragList_done, hdl]
        simp

/-! ### Runs of fragments -/

/-- Fragments for the data pieces `ds` with ids from `i`; `s` is the start flag of the first one. -/
def mkRun (o i : Nat) (s : Bool) : List Bytes → List Fragment
  | [] => []
  | [d] => [⟨o, i, d, s, true⟩]
  | d :: d' :: ds => ⟨o, i, d, s, false⟩ :: mkRun o (i + 1) false (d' :: ds)

theorem mkRun_length (o i s ds) : (mkRun o i s ds).length = ds.length := by
  induction ds generalizing i s with
  | nil => rfl
  | cons d ds ih =>
    cases ds with
    | nil => rfl
    | cons d' ds => simp [mkRun, ih]

theorem mkRun_ids (o i s ds) : (mkRun o i s ds).map (·.fragmentId) = (List.range ds.length).map (i + ·) := by
  induction ds generalizing i s with
  | nil => rfl
  | cons d ds ih =>
    cases ds with
    | nil => rfl
    | cons d' ds =>
      rw [mkRun, List.map_cons, ih, List.length_cons (a := d), List.range_succ_eq_map]
      simp only [List.map_cons, List.map_map, Nat.add_zero, List.cons.injEq, true_and]
      apply List.map_congr_left
      intro a _; simp; omega

theorem mkRun_starts (o i s ds) :
    (mkRun o i s ds).map (·.start) = (List.range ds.length).map (fun k => k == 0 && s) := by
  induction ds generalizing i s with
  | nil => rfl
  | cons d ds ih =>
    cases ds with
    | nil => simp [mkRun]
    | cons d' ds =>
      rw [mkRun, List.map_cons, ih, List.length_cons (a := d), List.range_succ_eq_map]
      simp only [List.map_cons, List.map_map, List.cons.injEq, beq_self_eq_true, Bool.true_and, true_and]
      apply List.map_congr_left
      intro a _; simp

theorem mkRun_ends (o i s ds) :
    (mkRun o i s ds).map (·.end_) = (List.range ds.length).map (fun k => k + 1 == ds.length) := by
  induction ds generalizing i s with
  | nil => rfl
  | cons d ds ih =>
    cases ds with
    | nil => simp [mkRun]
    | cons d' ds =>
      rw [mkRun, List.map_cons, ih, List.length_cons (a := d), List.range_succ_eq_map]
      simp only [List.map_cons, List.map_map, List.cons.injEq]
      constructor
      · simp
      · apply List.map_congr_left
        intro a _; simp

theorem mkRun_payload (o i s ds) : payload (mkRun o i s ds) = ds.flatten := by
  induction ds generalizing i s with
  | nil => rfl
  | cons d ds ih =>
    cases ds with
    | nil => simp [mkRun, payload]
    | cons d' ds =>
      have := ih (i := i + 1) (s := false)
      simp only [payload] at this
      simp [mkRun, payload, this]

theorem mkRun_object (o i s ds) : ∀ f ∈ mkRun o i s ds, f.objectId = o := by
  induction ds generalizing i s with
  | nil => simp [mkRun]
  | cons d ds ih =>
    cases ds with
    | nil => simp [mkRun]
    | cons d' ds =>
      intro f hf
      simp only [mkRun, List.mem_cons] at hf
      rcases hf with rfl | hf
      · rfl
      · exact ih _ _ f hf

theorem fragmentation_mkRun {o : Nat} {ds : List Bytes} (h : ds ≠ []) :
    Fragmentation o ds.flatten (mkRun o 0 true ds) where
  nonempty := by
    intro h'
    have := congrArg List.length h'
    rw [mkRun_length] at this
    exact h (List.length_eq_zero_iff.mp this)
  object := mkRun_object _ _ _ _
  ids := by rw [mkRun_ids, mkRun_length]; simp
  starts := by rw [mkRun_starts, mkRun_length]; simp
  ends := by rw [mkRun_ends, mkRun_length]
  data := mkRun_payload _ _ _ _

/-- A run is determined by its ids, flags and data. -/
theorem eq_mkRun (o i : Nat) (s : Bool) (fs : List Fragment) (hobj : ∀ f ∈ fs, f.objectId = o)
    (hids : fs.map (·.fragmentId) = (List.range fs.length).map (i + ·))
    (hst : fs.map (·.start) = (List.range fs.length).map (fun k => k == 0 && s))
    (hen : fs.map (·.end_) = (List.range fs.length).map (fun k => k + 1 == fs.length)) :
    fs = mkRun o i s (fs.map (·.data)) := by
  induction fs generalizing i s with
  | nil => rfl
  | cons f fs ih =>
    rw [List.length_cons, List.range_succ_eq_map] at hids hst hen
    simp only [List.map_cons, List.cons.injEq, List.map_map, Nat.add_zero, beq_self_eq_true, Bool.true_and,
      Nat.zero_add] at hids hst hen
    have hf : f.objectId = o := hobj f (by simp)
    have hfs : ∀ g ∈ fs, g.objectId = o := fun g hg => hobj g (by simp [hg])
    have h1 := ih (i + 1) false hfs
      (by rw [hids.2]; apply List.map_congr_left; intro a _; simp; omega)
      (by rw [hst.2]; apply List.map_congr_left; intro a _; simp)
      (by rw [hen.2]; apply List.map_congr_left; intro a _; simp)
    cases fs with
    | nil =>
      obtain ⟨fo, fi, fd, fs', fe⟩ := f
      simp only [List.map_cons, List.map_nil, mkRun, List.cons.injEq, and_true]
      have a1 := hids.1; have a2 := hst.1; have a3 := hen.1
      simp only at a1 a2 hf
      subst a1 a2 hf
      simpa using a3
    | cons g gs =>
      simp only [List.map_cons, mkRun, List.cons.injEq]
      refine ⟨?_, ?_⟩
      · obtain ⟨fo, fi, fd, fs', fe⟩ := f
        have a1 := hids.1; have a2 := hst.1; have a3 := hen.1
        simp only at a1 a2 hf
        subst a1 a2 hf
        simpa using a3
      · exact h1

theorem Fragmentation.eq_mkRun {o m fs} (h : Fragmentation o m fs) :
    ∃ ds, ds ≠ [] ∧ ds.flatten = m ∧ fs = mkRun o 0 true ds := by
  refine ⟨fs.map Fragment.data, ?_, h.data, ?_⟩
  · simp [h.nonempty]
  · exact Verif.eq_mkRun o 0 true fs h.object (by rw [h.ids]; simp) (by rw [h.starts]; simp) h.ends

/-! ### Interleaved objects -/

theorem InBufs.set_same (b : InBufs) (k v) : b.set k v k = v := by simp [InBufs.set]
theorem InBufs.set_other (b : InBufs) {k k'} (v) (h : k' ≠ k) : b.set k v k' = b k' := by simp [InBufs.set, h]

/-- The state of object `o` while `rem` is still to be received: nothing pending, the whole message pending,
or the rest of it. -/
def ObjInv (m : Nat → Bytes) (b : InBufs) (rem : List Fragment) (o : Nat) : Prop :=
  (b o = none ∧ (ofObject o rem = [] ∨ ∃ ds, ds ≠ [] ∧ ofObject o rem = mkRun o 0 true ds ∧ ds.flatten = m o)) ∨
  (∃ d i ds, b o = some ⟨d, i⟩ ∧ ds ≠ [] ∧ ofObject o rem = mkRun o i false ds ∧ d ++ ds.flatten = m o)

theorem ofObject_cons_same (f : Fragment) (fs) : ofObject f.objectId (f :: fs) = f :: ofObject f.objectId fs := by
  simp [ofObject]

theorem ofObject_cons_other {f : Fragment} {o : Nat} (fs) (h : f.objectId ≠ o) :
    ofObject o (f :: fs) = ofObject o fs := by
  simp [ofObject, h]

theorem ofObject_append (o fs gs) : ofObject o (fs ++ gs) = ofObject o fs ++ ofObject o gs := by
  simp [ofObject]

/-- One fragment. -/
theorem defragStep_interleaved (m : Nat → Bytes) (b : InBufs) (f : Fragment) (rem : List Fragment) (hinv : ∀ o, ObjInv m b (f :: rem) o) :
    ∃ b', (∀ o, ObjInv m b' rem o) ∧ defragStep b f = (b', .ok (if f.end_ then some (m f.objectId) else none)) := by
  -- the other objects keep their invariant
  have hother : ∀ (b' : InBufs), (∀ o, o ≠ f.objectId → b' o = b o) → ∀ o, o ≠ f.objectId →
      ObjInv m b' rem o := by
    intro b' hb' o ho
    have := hinv o
    unfold ObjInv at this ⊢
    rw [hb' o ho, ← ofObject_cons_other rem (fun h => ho h.symm)]
    exact this
  have hstep : ∃ b', (∀ o, ObjInv m b' rem o) ∧
      defragStep b f = (b', .ok (if f.end_ then some (m f.objectId) else none)) := by
    rcases hinv f.objectId with ⟨hb, h⟩ | ⟨d, i, ds, hb, hne, hr, hm⟩
    · rcases h with h | ⟨ds, hne, hr, hm⟩
      · rw [ofObject_cons_same] at h; simp at h
      · rw [ofObject_cons_same] at hr
        cases ds with
        | nil => exact absurd rfl hne
        | cons d ds =>
          cases ds with
          | nil =>
            simp only [mkRun, List.cons.injEq] at hr
            obtain ⟨hf, hrest⟩ := hr
            have e1 : f.start = true := by rw [hf]
            have e2 : f.end_ = true := by rw [hf]
            have e3 : f.fragmentId = 0 := by rw [hf]
            have e4 : f.data = d := by rw [hf]
            refine ⟨(b.set f.objectId (some ⟨[], 0⟩)).set f.objectId none, ?_, ?_⟩
            · intro o
              by_cases ho : o = f.objectId
              · subst ho
                left
                exact ⟨InBufs.set_same _ _ _, .inl hrest⟩
              · exact hother _ (fun o ho => by rw [InBufs.set_other _ _ ho, InBufs.set_other _ _ ho]) o ho
            · simp only [defragStep, hb, e1, e2, e3, e4]
              simp at hm
              simp [hm]
          | cons d' ds =>
            simp only [mkRun, List.cons.injEq] at hr
            obtain ⟨hf, hrest⟩ := hr
            have e1 : f.start = true := by rw [hf]
            have e2 : f.end_ = false := by rw [hf]
            have e3 : f.fragmentId = 0 := by rw [hf]
            have e4 : f.data = d := by rw [hf]
            refine ⟨(b.set f.objectId (some ⟨[], 0⟩)).set f.objectId (some ⟨d, 1⟩), ?_, ?_⟩
            · intro o
              by_cases ho : o = f.objectId
              · subst ho
                right
                exact ⟨d, 1, d' :: ds, InBufs.set_same _ _ _, by simp, hrest, by simpa using hm⟩
              · exact hother _ (fun o ho => by rw [InBufs.set_other _ _ ho, InBufs.set_other _ _ ho]) o ho
            · simp [defragStep, hb, e1, e2, e3, e4]
    · rw [ofObject_cons_same] at hr
      cases ds with
      | nil => exact absurd rfl hne
      | cons d1 ds =>
        cases ds with
        | nil =>
          simp only [mkRun, List.cons.injEq] at hr
          obtain ⟨hf, hrest⟩ := hr
          have e1 : f.start = false := by rw [hf]
          have e2 : f.end_ = true := by rw [hf]
          have e3 : f.fragmentId = i := by rw [hf]
          have e4 : f.data = d1 := by rw [hf]
          refine ⟨b.set f.objectId none, ?_, ?_⟩
          · intro o
            by_cases ho : o = f.objectId
            · subst ho
              left
              exact ⟨InBufs.set_same _ _ _, .inl hrest⟩
            · exact hother _ (fun o ho => by rw [InBufs.set_other _ _ ho]) o ho
          · simp only [defragStep, hb, e1, e2, e3, e4]
            simp at hm
            simp [hm]
        | cons d' ds =>
          simp only [mkRun, List.cons.injEq] at hr
          obtain ⟨hf, hrest⟩ := hr
          have e1 : f.start = false := by rw [hf]
          have e2 : f.end_ = false := by rw [hf]
          have e3 : f.fragmentId = i := by rw [hf]
          have e4 : f.data = d1 := by rw [hf]
          refine ⟨b.set f.objectId (some ⟨d ++ d1, i + 1⟩), ?_, ?_⟩
          · intro o
            by_cases ho : o = f.objectId
            · subst ho
              right
              exact ⟨d ++ d1, i + 1, d' :: ds, InBufs.set_same _ _ _, by simp, hrest, by simpa using hm⟩
            · exact hother _ (fun o ho => by rw [InBufs.set_other _ _ ho]) o ho
          · simp [defragStep, hb, e1, e2, e3, e4]
  exact hstep

theorem defragList_interleaved (m : Nat → Bytes) (b : InBufs) (rem : List Fragment)
    (hinv : ∀ o, ObjInv m b rem o) :
    defragList b rem [] = (noBuffers, .ok ((rem.filter (·.end_)).map (fun f => m f.objectId))) := by
  induction rem generalizing b with
  | nil =>
    have : b = noBuffers := by
      funext o
      rcases hinv o with ⟨h, _⟩ | ⟨d, i, ds, hb, hne, hr, _⟩
      · exact h
      · exfalso
        have hl := congrArg List.length hr
        rw [mkRun_length] at hl
        simp [ofObject] at hl
        exact hne (List.length_eq_zero_iff.mp hl.symm)
    simp [defragList, this]
  | cons f rem ih =>
    have hstep := defragStep_interleaved m b f rem hinv
    obtain ⟨b', hinv', hs⟩ := hstep
    have := ih b' hinv'
    simp only [defragList, hs]
    cases he : f.end_
    · simp [this, he]
    · simp only [if_true]
      rw [defragList_done, this]
      simp [he]

/-- The fragments of one receive, with `rem` still to come. -/
theorem defragList_part (m : Nat → Bytes) (rem : List Fragment) (g : List Fragment) : ∀ b, (∀ o, ObjInv m b (g ++ rem) o) →
    ∃ b', (∀ o, ObjInv m b' rem o) ∧ defragList b g [] = (b', .ok ((g.filter (·.end_)).map (fun f => m f.objectId))) := by
  induction g with
  | nil => exact fun b h => ⟨b, h, rfl⟩
  | cons f g ih =>
    intro b h
    obtain ⟨b1, h1, hs⟩ := defragStep_interleaved m b f (g ++ rem) h
    obtain ⟨b2, h2, hd⟩ := ih b1 h1
    refine ⟨b2, h2, ?_⟩
    simp only [defragList, hs]
    cases he : f.end_
    · simp [hd, he]
    · simp only [if_true]
      rw [defragList_done, hd]
      simp [he]

end Verif
