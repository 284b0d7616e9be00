import Verif.Lemmas.FragmentRecv
namespace Verif

/-- The fragment id expected next for an object. -/
def nextId (b : InBufs) (o : Nat) : Nat := match b o with
  | none => 0
  | some e => e.id

def entryOf (b : InBufs) (o : Nat) : InBuf := match b o with
  | none => ⟨[], 0⟩
  | some e => e

/-- `defragStep` in one formula. -/
theorem defragStep_eq (b : InBufs) (f : Fragment) (h : f.fragmentId = nextId b f.objectId) :
    ∃ b', (∀ o, o ≠ f.objectId → b' o = b o) ∧
      (b' f.objectId = if f.end_ then none else
        some ⟨(if f.start then [] else (entryOf b f.objectId).data) ++ f.data, f.fragmentId + 1⟩) ∧
      defragStep b f = (b', .ok (if f.end_ then
        some ((if f.start then [] else (entryOf b f.objectId).data) ++ f.data) else none)) := by
  unfold nextId at h
  unfold entryOf
  unfold defragStep
  cases hb : b f.objectId with
  | none =>
    rw [hb] at h
    simp only at h
    cases hs : f.start <;> cases he : f.end_ <;> simp [h] <;>
      (refine ⟨fun o ho => ?_, ?_⟩ <;> simp_all [InBufs.set])
  | some e =>
    rw [hb] at h
    simp only at h
    cases hs : f.start <;> cases he : f.end_ <;> simp [h] <;>
      (refine ⟨fun o ho => ?_, ?_⟩ <;> simp_all [InBufs.set])

theorem defragStep_err (b : InBufs) (f : Fragment) (h : f.fragmentId ≠ nextId b f.objectId) :
    (defragStep b f).2 = .error .fragmentError := by
  unfold nextId at h
  unfold defragStep
  cases hb : b f.objectId with
  | none => rw [hb] at h; simp only at h; simp [h]
  | some e => rw [hb] at h; simp only at h; simp [h]

theorem defragList_ok_iff (b : InBufs) (fs : List Fragment) (done : List Bytes) :
    (∃ b' ms, defragList b fs done = (b', .ok ms)) ↔ ∀ o, CountsFrom (nextId b o) (ofObject o fs) := by
  induction fs generalizing b done with
  | nil => simp [defragList, ofObject, CountsFrom]
  | cons f fs ih =>
    by_cases h : f.fragmentId = nextId b f.objectId
    · obtain ⟨b', hoth, hsame, hs⟩ := defragStep_eq b f h
      have hiff : (∃ b'' ms, defragList b (f :: fs) done = (b'', .ok ms)) ↔
          ∀ o, CountsFrom (nextId b' o) (ofObject o fs) := by
        cases he : f.end_
        · simp only [he, Bool.false_eq_true, if_false] at hs
          simp only [defragList, hs]
          exact ih b' done
        · simp only [he, if_true] at hs
          simp only [defragList, hs]
          exact ih b' _
      rw [hiff]
      constructor
      · intro hc o
        by_cases ho : o = f.objectId
        · subst ho
          rw [ofObject_cons_same]
          refine ⟨h, ?_⟩
          have := hc f.objectId
          unfold nextId at this
          rw [hsame] at this
          cases he : f.end_
          · simp only [he, Bool.false_eq_true, if_false] at this ⊢
            rw [← h]; exact this
          · simp only [he, if_true] at this ⊢
            exact this
        · rw [ofObject_cons_other fs (fun h => ho h.symm)]
          have := hc o
          unfold nextId at this ⊢
          rwa [hoth o ho] at this
      · intro hc o
        by_cases ho : o = f.objectId
        · subst ho
          have := hc f.objectId
          rw [ofObject_cons_same] at this
          have := this.2
          unfold nextId
          rw [hsame]
          cases he : f.end_
          · simp only [he, Bool.false_eq_true, if_false] at this ⊢
            rw [h]; exact this
          · simp only [he, if_true] at this ⊢
            exact this
        · have := hc o
          rw [ofObject_cons_other fs (fun h => ho h.symm)] at this
          unfold nextId at this ⊢
          rwa [hoth o ho]
    · have he := defragStep_err b f h
      constructor
      · rintro ⟨b', ms, hd⟩
        exfalso
        simp only [defragList] at hd
        split at hd <;> simp_all
      · intro hc
        exfalso
        have := hc f.objectId
        rw [ofObject_cons_same] at this
        exact h this.1

theorem defragList_err {b b' : InBufs} {fs : List Fragment} {done : List Bytes} {e : PyErr}
    (h : defragList b fs done = (b', .error e)) : e = .fragmentError := by
  induction fs generalizing b done with
  | nil => simp [defragList] at h
  | cons f fs ih =>
    by_cases hi : f.fragmentId = nextId b f.objectId
    · obtain ⟨b1, _, _, hs⟩ := defragStep_eq b f hi
      cases he : f.end_
      · simp only [he, Bool.false_eq_true, if_false] at hs
        simp only [defragList, hs] at h
        exact ih h
      · simp only [he, if_true] at hs
        simp only [defragList, hs] at h
        exact ih h
    · have he := defragStep_err b f hi
      simp only [defragList] at h
      split at h
      · rename_i b1 e1 heq
        rw [heq] at he
        simp only [Prod.mk.injEq, Except.error.injEq] at h he
        rw [← h.2, he]
      · simp_all
      · simp_all

theorem lastN_concat {α : Type} (n : Nat) (l : List α) (x : α) (h : n ≤ l.length) :
    lastN (n + 1) (l ++ [x]) = lastN n l ++ [x] := by
  unfold lastN
  rw [List.length_append]
  simp only [List.length_singleton]
  rw [show l.length + 1 - (n + 1) = l.length - n by omega]
  rw [List.drop_append_of_le_length (by omega)]

theorem payload_append (a b : List Fragment) : payload (a ++ b) = payload a ++ payload b := by
  simp [payload]

/-- What the buffers hold after the fragments `seen`. -/
def BufInv (seen : List Fragment) (b : InBufs) : Prop :=
  ∀ o e, b o = some e → e.id ≤ (ofObject o seen).length ∧ payload (lastN e.id (ofObject o seen)) = e.data

theorem defragList_completed (seen : List Fragment) (b b' : InBufs) (fs : List Fragment) (ms : List Bytes)
    (hinv : BufInv seen b) (hst : ∀ f ∈ fs, f.start = true → f.fragmentId = 0)
    (h : defragList b fs [] = (b', .ok ms)) : ms = completed seen fs := by
  induction fs generalizing seen b ms with
  | nil => simp [defragList] at h; simp [completed, h]
  | cons f fs ih =>
    have hid : f.fragmentId = nextId b f.objectId := by
      have := (defragList_ok_iff b (f :: fs) []).mp ⟨b', ms, h⟩ f.objectId
      rw [ofObject_cons_same] at this
      exact this.1
    obtain ⟨b1, hoth, hsame, hs⟩ := defragStep_eq b f hid
    have hdata : f.fragmentId ≤ (ofObject f.objectId seen).length ∧
        (if f.start then [] else (entryOf b f.objectId).data) ++ f.data =
          payload (lastN (f.fragmentId + 1) (ofObject f.objectId (seen ++ [f]))) := by
      rw [ofObject_append]
      have hsing : ofObject f.objectId [f] = [f] := by simp [ofObject]
      rw [hsing]
      have hle : f.fragmentId ≤ (ofObject f.objectId seen).length := by
        unfold nextId at hid
        cases hb : b f.objectId with
        | none => rw [hb] at hid; simp only at hid; omega
        | some e => rw [hb] at hid; simp only at hid; rw [hid]; exact (hinv _ e hb).1
      refine ⟨hle, ?_⟩
      rw [lastN_concat _ _ _ hle, payload_append]
      have hp1 : payload [f] = f.data := by simp [payload]
      rw [hp1]
      congr 1
      cases hsf : f.start
      · unfold nextId at hid
        unfold entryOf
        cases hb : b f.objectId with
        | none =>
          rw [hb] at hid; simp only at hid
          simp [hid, lastN, payload]
        | some e =>
          rw [hb] at hid; simp only at hid
          simp only [Bool.false_eq_true, if_false]
          rw [hid]; exact (hinv _ e hb).2.symm
      · have := hst f (by simp) hsf
        simp [this, lastN, payload]
    have hinv1 : BufInv (seen ++ [f]) b1 := by
      intro o e hb
      by_cases ho : o = f.objectId
      · subst ho
        rw [hsame] at hb
        split at hb
        · simp at hb
        · simp only [Option.some.injEq] at hb
          subst hb
          simp only
          refine ⟨?_, hdata.2.symm⟩
          rw [ofObject_append]
          simp only [ofObject, List.length_append]
          have := hdata.1
          unfold ofObject at this
          simp; omega
      · rw [hoth o ho] at hb
        have := hinv o e hb
        rw [ofObject_append]
        have hnil : ofObject o [f] = [] := by
          have : ¬ f.objectId = o := fun h => ho h.symm
          simp [ofObject, this]
        rw [hnil, List.append_nil]; exact this
    have hst' : ∀ g ∈ fs, g.start = true → g.fragmentId = 0 := fun g hg => hst g (by simp [hg])
    cases he : f.end_
    · simp only [he, Bool.false_eq_true, if_false] at hs
      simp only [defragList, hs] at h
      have := ih (seen ++ [f]) b1 ms hinv1 hst' h
      simp [completed, he, this]
    · simp only [he, if_true] at hs
      simp only [defragList, hs] at h
      rw [defragList_done] at h
      match hd : defragList b1 fs [] with
      | (b2, .error e) => rw [hd] at h; simp at h
      | (b2, .ok m2) =>
        rw [hd] at h
        simp only [List.nil_append, Prod.mk.injEq, Except.ok.injEq] at h
        have hms := ih (seen ++ [f]) b1 m2 hinv1 hst' (by rw [hd, h.1])
        rw [← h.2, hms, hdata.2]
        simp [completed, he]

/-! ### Uniqueness of parsing, and counting -/

theorem Parses.unique {data fs gs} (h : Parses data fs) (h' : Parses data gs) : fs = gs := by
  induction h generalizing gs with
  | nil =>
    cases h' with
    | nil => rfl
    | cons hne _ _ => exact absurd rfl hne
  | cons hne hu _ ih =>
    cases h' with
    | nil => exact absurd rfl hne
    | cons _ hu' hp' =>
      rw [hu] at hu'
      simp only [Except.ok.injEq, Prod.mk.injEq] at hu'
      obtain ⟨rfl, rfl⟩ := hu'
      rw [ih hp']

theorem ParsesAll.unique {datas fs gs} (h : ParsesAll datas fs) (h' : ParsesAll datas gs) : fs = gs := by
  induction h generalizing gs with
  | nil => cases h'; rfl
  | cons hp _ ih =>
    cases h' with
    | cons hp' h'' => rw [hp.unique hp', ih h'']

/-- The id expected after a list that counts from `i`. -/
def countAfter : Nat → List Fragment → Nat
  | i, [] => i
  | i, f :: fs => countAfter (if f.end_ then 0 else i + 1) fs

theorem countsFrom_concat (i : Nat) (l : List Fragment) (f : Fragment) :
    CountsFrom i (l ++ [f]) ↔ CountsFrom i l ∧ f.fragmentId = countAfter i l := by
  induction l generalizing i with
  | nil => simp [CountsFrom, countAfter]
  | cons g l ih => simp [CountsFrom, countAfter, ih, and_assoc]

theorem countAfter_concat (i : Nat) (l : List Fragment) (f : Fragment) :
    countAfter i (l ++ [f]) = if f.end_ then 0 else countAfter i l + 1 := by
  induction l generalizing i with
  | nil => simp [countAfter]
  | cons g l ih => simp [countAfter, ih]

theorem CountsFrom.of_append {i : Nat} {l l' : List Fragment} (h : CountsFrom i (l ++ l')) : CountsFrom i l := by
  induction l generalizing i with
  | nil => trivial
  | cons g l ih => exact ⟨h.1, ih h.2⟩

theorem lastN_zero {α : Type} (l : List α) : lastN 0 l = [] := by simp [lastN]

theorem countsFrom_lastN (l : List Fragment) (h : CountsFrom 0 l) :
    countAfter 0 l ≤ l.length ∧ (lastN (countAfter 0 l) l).map (·.fragmentId) = List.range (countAfter 0 l) ∧
      ∀ g ∈ lastN (countAfter 0 l) l, g.end_ = false := by
  induction hn : l.length generalizing l with
  | zero =>
    have : l = [] := List.length_eq_zero_iff.mp hn
    subst this; simp [countAfter, lastN]
  | succ n ih =>
    have hne : l ≠ [] := by intro h0; simp [h0] at hn
    have hspl := List.dropLast_concat_getLast hne
    generalize l.getLast hne = f at hspl
    generalize hi : l.dropLast = pre at hspl
    subst hspl
    obtain ⟨hpre, hid⟩ := (countsFrom_concat 0 pre f).mp h
    obtain ⟨hle, hids, hends⟩ := ih pre hpre (by simpa using hn)
    rw [countAfter_concat]
    cases he : f.end_
    · simp only [Bool.false_eq_true, if_false]
      refine ⟨by simp at hn ⊢; omega, ?_, ?_⟩
      · rw [lastN_concat _ _ _ (by simp at hn; omega), List.map_append, hids, List.range_succ]; simp [hid]
      · rw [lastN_concat _ _ _ (by simp at hn; omega)]
        intro g hg
        simp only [List.mem_append, List.mem_singleton] at hg
        rcases hg with hg | rfl
        · exact hends g hg
        · exact he
    · simp [lastN_zero]

theorem bufInv_empty : BufInv [] noBuffers := by
  intro o e h; simp [noBuffers] at h

end Verif
