import Verif.Lemmas.FragmentSend
import Verif.Lemmas.FragmentOrder
namespace Verif

theorem flatten_eq_map {α β : Type} (f : α → β) {gs : List (List β)} {l : List α} (h : gs.flatten = l.map f) :
    ∃ hs : List (List α), hs.flatten = l ∧ gs = hs.map (List.map f) := by
  induction gs generalizing l with
  | nil =>
    simp only [List.flatten_nil] at h
    have : l = [] := by simpa using h.symm
    exact ⟨[], by simp [this], rfl⟩
  | cons g gs ih =>
    rw [List.flatten_cons] at h
    obtain ⟨l1, l2, hl, h1, h2⟩ := List.map_eq_append_iff.mp h.symm
    obtain ⟨hs, e1, e2⟩ := ih h2.symm
    exact ⟨l1 :: hs, by simp [e1, hl], by simp [e2, h1]⟩

theorem parses_append {a b : Bytes} {fs gs : List Fragment} (hf : ∀ f ∈ fs, f.Fits) (ha : a = wires fs)
    (hb : Parses b gs) : Parses (a ++ b) (fs ++ gs) := by
  subst ha
  induction fs with
  | nil => simpa [wires] using hb
  | cons f fs ih =>
    have hw : wires (f :: fs) ++ b = f.wire ++ (wires fs ++ b) := by simp [wires]
    rw [hw, List.cons_append]
    refine .cons (by simp [f.wire_ne_nil]) (Fragment.unpack_wire (hf f (by simp)) _)
      (ih fun g hg => hf g (by simp [hg]))

/-- Blocks made of whole fragments, grouped in any way, parse to the same fragments. -/
theorem parsesAll_groups {bfs : List (List Fragment)} (hfit : ∀ g ∈ bfs, ∀ f ∈ g, f.Fits)
    {groups : List (List Bytes)} (hg : groups.flatten = bfs.map wires) :
    ParsesAll (groups.map List.flatten) bfs.flatten := by
  obtain ⟨hs, h1, h2⟩ := flatten_eq_map wires hg
  subst h1 h2
  induction hs with
  | nil => exact .nil
  | cons h hs ih =>
    rw [List.flatten_cons, List.flatten_append, List.map_cons, List.map_cons]
    have hw : (List.map wires h).flatten = wires h.flatten := by
      clear hfit hg
      induction h with
      | nil => rfl
      | cons a h ih' => rw [List.map_cons, List.flatten_cons, ih']; simp [wires]
    rw [hw]
    refine .cons ?_ (ih (fun g hg => hfit g ?_) ?_)
    · apply parses_wires
      intro f hf
      obtain ⟨g, hg, hfg⟩ := List.mem_flatten.mp hf
      exact hfit g (by simp only [List.flatten_cons, List.mem_append]; exact .inl hg) f hfg
    · simp only [List.flatten_cons, List.mem_append]; exact .inr hg
    · simp [List.map_flatten]

theorem defragList_run (b : InBufs) (o i : Nat) (s : Bool) (ds : List Bytes) (hne : ds ≠ [])
    (hid : nextId b o = i) :
    ∃ b', (∀ o', o' ≠ o → b' o' = b o') ∧ b' o = none ∧
      defragList b (mkRun o i s ds) [] =
        (b', .ok [(if s then [] else (entryOf b o).data) ++ ds.flatten]) := by
  induction ds generalizing b i s with
  | nil => exact absurd rfl hne
  | cons d ds ih =>
    cases ds with
    | nil =>
      obtain ⟨b', h1, h2, h3⟩ := defragStep_eq b ⟨o, i, d, s, true⟩ hid.symm
      refine ⟨b', h1, by simpa using h2, ?_⟩
      simp only [mkRun, defragList, h3]
      simp
    | cons d' ds =>
      obtain ⟨b', h1, h2, h3⟩ := defragStep_eq b ⟨o, i, d, s, false⟩ hid.symm
      simp only [Bool.false_eq_true, if_false] at h2 h3
      obtain ⟨b'', e1, e2, e3⟩ := ih b' (i + 1) false (by simp) (by unfold nextId; rw [h2])
      refine ⟨b'', fun o' ho' => by rw [e1 o' ho', h1 o' ho'], e2, ?_⟩
      simp only [mkRun, defragList, h3]
      rw [e3]
      have : (entryOf b' o).data = (if s then [] else (entryOf b o).data) ++ d := by
        unfold entryOf at *; rw [h2]
      simp [this]

theorem Fragmentation.defragList {o m fs} (h : Fragmentation o m fs) (b : InBufs) (hb : b o = none) :
    defragList b fs [] = (b, .ok [m]) := by
  obtain ⟨ds, hne, hfl, rfl⟩ := h.eq_mkRun
  obtain ⟨b', h1, h2, h3⟩ := defragList_run b o 0 true ds hne (by simp [nextId, hb])
  have : b' = b := by
    funext o'
    by_cases ho : o' = o
    · subst ho; rw [h2, hb]
    · exact h1 o' ho
  rw [h3, this, hfl]; simp

theorem FragmentsOf.defragList {c ms fss} (h : FragmentsOf c ms fss) (b : InBufs)
    (hb : ∀ o, c ≤ o → b o = none) : defragList b fss.flatten [] = (b, .ok ms) := by
  induction ms generalizing c fss with
  | nil => cases fss with
    | nil => rfl
    | cons => exact h.elim
  | cons m ms ih =>
    cases fss with
    | nil => exact h.elim
    | cons fs fss =>
      rw [List.flatten_cons, defragList_append, h.1.defragList b (hb c (Nat.le_refl _))]
      simp only []
      rw [defragList_done, ih h.2 (fun o ho => hb o (by omega))]
      simp

/-- A list without an end fragment delivers nothing. -/
theorem defragList_no_end {b b' : InBufs} {fs : List Fragment} {ms : List Bytes} (hne : ∀ f ∈ fs, f.end_ = false)
    (h : defragList b fs [] = (b', .ok ms)) : ms = [] := by
  induction fs generalizing b with
  | nil => simp [Verif.defragList] at h; exact h.2
  | cons f fs ih =>
    have hid : f.fragmentId = nextId b f.objectId := by
      have := (defragList_ok_iff b (f :: fs) []).mp ⟨b', ms, h⟩ f.objectId
      rw [ofObject_cons_same] at this
      exact this.1
    obtain ⟨b1, _, _, hs⟩ := defragStep_eq b f hid
    rw [hne f (by simp)] at hs
    simp only [Bool.false_eq_true, if_false] at hs
    simp only [Verif.defragList, hs] at h
    exact ih (fun g hg => hne g (by simp [hg])) h

/-- All ends before the last position are false. -/
theorem Fragmentation.take_no_end {o m fs} (h : Fragmentation o m fs) {k : Nat} (hk : k < fs.length) :
    ∀ f ∈ fs.take k, f.end_ = false := by
  intro f hf
  obtain ⟨i, hi, rfl⟩ := List.mem_iff_getElem.mp hf
  rw [List.length_take] at hi
  rw [List.getElem_take]
  have h1 : (fs.map (fun f => f.end_))[i]? = some (fs[i]'(by omega)).end_ := by
    rw [List.getElem?_map, List.getElem?_eq_getElem (by omega)]; rfl
  rw [h.ends, List.getElem?_map, List.getElem?_range (by omega)] at h1
  simp only [Option.map_some, Option.some.injEq] at h1
  rw [← h1]
  simp; omega

theorem sends_ok {o o' : OutState} {ss : List Send} {bss : List (List Bytes)} (hm : 0 < o.maxSize)
    (hne : ∀ s ∈ ss, ∀ m ∈ s.messages, m ≠ []) (h : sends o ss = .ok (bss, o')) :
    o' = { o with counter := o.counter + (ss.flatMap Send.messages).length } ∧
    ∃ (bfs fss : List (List Fragment)), bss.flatten = bfs.map wires ∧ (∀ g ∈ bfs, ∀ f ∈ g, f.Fits) ∧
      bfs.flatten = fss.flatten ∧ FragmentsOf o.counter (ss.flatMap Send.messages) fss ∧
      ∀ b ∈ bss.flatten, (b.length : Int) ≤ o.maxSize + 21 := by
  induction ss generalizing o bss with
  | nil =>
    simp only [sends, Except.ok.injEq, Prod.mk.injEq] at h
    obtain ⟨rfl, rfl⟩ := h
    exact ⟨rfl, [], [], by simp, by simp, by simp, trivial, by simp⟩
  | cons s ss ih =>
    simp only [sends, bind, Except.bind, pure, Except.pure] at h
    have first : ∀ bs o1, s.run o = .ok (bs, o1) →
        o1 = { o with counter := o.counter + s.messages.length } ∧
        ∃ (bfs fss : List (List Fragment)), bs = bfs.map wires ∧ (∀ g ∈ bfs, ∀ f ∈ g, f.Fits) ∧
          bfs.flatten = fss.flatten ∧ FragmentsOf o.counter s.messages fss ∧
          ∀ b ∈ bs, (b.length : Int) ≤ o.maxSize + 21 := by
      intro bs o1 hs
      cases s with
      | single m =>
        simp only [Send.run] at hs
        obtain ⟨ho, fs, hfr, hps, hfit, hsz⟩ := fragment_none hm
          (hne (.single m) (by simp) m (by simp [Send.messages])) hs
        refine ⟨by rw [ho]; rfl, fs.map (fun f => [f]), [fs], ?_, ?_, ?_, ⟨hfr, trivial⟩, ?_⟩
        · rw [hps]; simp [wires]
        · intro g hg f hf
          simp only [List.mem_map] at hg
          obtain ⟨a, ha, rfl⟩ := hg
          simp only [List.mem_singleton] at hf
          subst hf; exact hfit _ ha
        · rw [flatten_map_singleton]; simp
        · intro b hb
          rw [hps] at hb
          simp only [List.mem_map] at hb
          obtain ⟨a, ha, rfl⟩ := hb
          have := hsz a ha
          simp only [Fragment.wire_length]; omega
      | batch ms =>
        simp only [Send.run, fragmentMultiple] at hs
        obtain ⟨ho, bfs', fss, e1, e2, e3, e4, e5⟩ := fragmentMultipleLoop_ok (bfs := []) hm
          ⟨hm, Int.le_refl _⟩ rfl (by simp) (by simp) (by simp) hs
        exact ⟨ho, bfs', fss, e1, e2, by simpa using e3, e4, e5⟩
    split at h
    · simp at h
    · rename_i v hv
      obtain ⟨bs, o1⟩ := v
      obtain ⟨ho1, bfs, fss, a1, a2, a3, a4, a5⟩ := first bs o1 hv
      split at h
      · simp at h
      · rename_i v2 hv2
        obtain ⟨bss2, o2⟩ := v2
        simp only [Except.ok.injEq, Prod.mk.injEq] at h
        obtain ⟨rfl, rfl⟩ := h
        have hms : o1.maxSize = o.maxSize := by rw [ho1]
        obtain ⟨ho2, bfs2, fss2, c1, c2, c3, c4, c5⟩ := ih (o := o1) (by rw [hms]; exact hm)
          (fun s' hs' => hne s' (by simp [hs'])) hv2
        refine ⟨?_, bfs ++ bfs2, fss ++ fss2, ?_, ?_, ?_, ?_, ?_⟩
        · rw [ho2, ho1]; simp; omega
        · simp [a1, c1]
        · intro g hg
          simp only [List.mem_append] at hg
          rcases hg with hg | hg
          · exact a2 g hg
          · exact c2 g hg
        · simp [a3, c3]
        · rw [List.flatMap_cons]
          refine a4.append ?_
          rw [ho1] at c4; exact c4
        · intro b hb
          simp only [List.flatten_cons, List.mem_append] at hb
          rcases hb with hb | hb
          · exact a5 b hb
          · rw [← hms]; exact c5 b hb

theorem sends_total {o : OutState} {ss : List Send} (hm : 0 < o.maxSize)
    (hc : o.counter + (ss.flatMap Send.messages).length ≤ 2 ^ 64)
    (hl : ∀ s ∈ ss, ∀ m ∈ s.messages, m.length < 2 ^ 32) :
    (∀ s ∈ ss, ∀ m ∈ s.messages, m ≠ []) → ∃ bss o', sends o ss = .ok (bss, o') := by
  induction ss generalizing o with
  | nil => exact fun _ => ⟨[], o, rfl⟩
  | cons s ss ih =>
    intro hne
    rw [List.flatMap_cons, List.length_append] at hc
    have first : ∃ bs o1, s.run o = .ok (bs, o1) ∧
        o1 = { o with counter := o.counter + s.messages.length } := by
      cases s with
      | single m =>
        simp only [Send.messages, List.length_singleton] at hc
        obtain ⟨ps, hps⟩ := fragment_none_total (msg := m) hm (by omega)
          (hl (.single m) (by simp) m (by simp [Send.messages]))
        exact ⟨ps, _, hps, rfl⟩
      | batch ms =>
        simp only [Send.messages] at hc
        obtain ⟨bs, o1, h1⟩ := fragmentMultipleLoop_total (o := o) (r := o.maxSize) (msgs := ms) (frags := []) hm hm
          (by omega) (hl (.batch ms) (by simp))
        obtain ⟨ho, _⟩ := fragmentMultipleLoop_ok (bfs := []) hm
          ⟨hm, Int.le_refl _⟩ rfl (by simp) (by simp) (by simp) h1
        exact ⟨bs, o1, h1, ho⟩
    obtain ⟨bs, o1, h1, ho1⟩ := first
    obtain ⟨bss, o2, h2⟩ := ih (o := o1) (by rw [ho1]; exact hm)
      (by rw [ho1]; simp only; omega) (fun s' hs' => hl s' (by simp [hs'])) (fun s' hs' => hne s' (by simp [hs']))
    refine ⟨bs :: bss, o2, ?_⟩
    simp only [sends, h1, h2, bind, Except.bind, pure, Except.pure]

theorem FragmentsOf.get {c ms fss} (h : FragmentsOf c ms fss) (i : Nat) (fs : List Fragment)
    (hi : fss[i]? = some fs) : ∃ m, ms[i]? = some m ∧ Fragmentation (c + i) m fs := by
  induction ms generalizing c fss i with
  | nil => cases fss with
    | nil => simp at hi
    | cons => exact h.elim
  | cons m ms ih =>
    cases fss with
    | nil => exact h.elim
    | cons fs' fss =>
      cases i with
      | zero =>
        simp only [List.getElem?_cons_zero, Option.some.injEq] at hi
        subst hi
        exact ⟨m, rfl, h.1⟩
      | succ i =>
        obtain ⟨m', h1, h2⟩ := ih h.2 i (by simpa using hi)
        refine ⟨m', by simpa using h1, ?_⟩
        rw [show c + (i + 1) = c + 1 + i by omega]; exact h2

end Verif
