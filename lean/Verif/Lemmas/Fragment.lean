import Verif.Model.Fragment
import Verif.Lemmas.Bytes
import Verif.Spec.Fragment
namespace Verif

def Fragment.flag (f : Fragment) : Nat := (if f.start then 1 else 0) + (if f.end_ then 2 else 0)

/-- The bytes of a fragment whose fields fit. -/
def Fragment.wire (f : Fragment) : Bytes :=
  (leEnc 8 f.objectId).reverse ++ ((leEnc 8 f.fragmentId).reverse ++ ((leEnc 1 f.flag).reverse ++
    ((leEnc 4 f.data.length).reverse ++ f.data)))

theorem Fragment.flag_lt (f : Fragment) : f.flag < 256 ^ 1 := by
  unfold Fragment.flag; split <;> split <;> omega

theorem Fragment.pack_fits {f : Fragment} (h : f.Fits) : f.pack = .ok f.wire := by
  obtain ⟨h1, h2, h3⟩ := h
  have e8 : (256 : Nat) ^ 8 = 2 ^ 64 := by decide
  have e4 : (256 : Nat) ^ 4 = 2 ^ 32 := by decide
  have hf := f.flag_lt
  unfold Fragment.flag at hf
  simp only [Fragment.pack, packBE, e8, e4, h1, h2, h3, hf, if_true, bind, Except.bind, pure, Except.pure,
    Fragment.wire, Fragment.flag, List.append_assoc]

theorem Fragment.pack_not_fits {f : Fragment} (h : ¬ f.Fits) : f.pack = .error .structError := by
  have e8 : (256 : Nat) ^ 8 = 2 ^ 64 := by decide
  have e4 : (256 : Nat) ^ 4 = 2 ^ 32 := by decide
  have hf := f.flag_lt
  unfold Fragment.flag at hf
  simp only [Fragment.pack, packBE, e8, e4, hf, bind, Except.bind, pure, Except.pure]
  by_cases h1 : f.objectId < 2 ^ 64 <;> by_cases h2 : f.fragmentId < 2 ^ 64 <;>
    by_cases h3 : f.data.length < 2 ^ 32 <;> simp only [h1, h2, h3, if_true, if_false]
  exact absurd ⟨h1, h2, h3⟩ h

@[simp] theorem Fragment.wire_length (f : Fragment) : f.wire.length = f.data.length + 21 := by
  simp [Fragment.wire]; omega

theorem Fragment.wire_ne_nil (f : Fragment) : f.wire ≠ [] := by
  intro h
  have := congrArg List.length h
  simp at this

theorem Fragment.unpack_wire {f : Fragment} (h : f.Fits) (rest : Bytes) :
    Fragment.unpack (f.wire ++ rest) = .ok (f, rest) := by
  obtain ⟨h1, h2, h3⟩ := h
  have e8 : (256 : Nat) ^ 8 = 2 ^ 64 := by decide
  have e4 : (256 : Nat) ^ 4 = 2 ^ 32 := by decide
  have A : (f.wire ++ rest).take 8 = (leEnc 8 f.objectId).reverse := by
    simp only [Fragment.wire, List.append_assoc]; exact take_append_eq (by simp)
  have A' : (f.wire ++ rest).drop 8 = (leEnc 8 f.fragmentId).reverse ++ ((leEnc 1 f.flag).reverse ++
    ((leEnc 4 f.data.length).reverse ++ (f.data ++ rest))) := by
    simp only [Fragment.wire, List.append_assoc]; exact drop_append_eq (by simp)
  have B' : (f.wire ++ rest).drop 16 = (leEnc 1 f.flag).reverse ++
    ((leEnc 4 f.data.length).reverse ++ (f.data ++ rest)) := by
    rw [show (16 : Nat) = 8 + 8 from rfl, ← List.drop_drop, A']; exact drop_append_eq (by simp)
  have C' : (f.wire ++ rest).drop 17 = (leEnc 4 f.data.length).reverse ++ (f.data ++ rest) := by
    rw [show (17 : Nat) = 16 + 1 from rfl, ← List.drop_drop, B']; exact drop_append_eq (by simp)
  have D' : (f.wire ++ rest).drop 21 = f.data ++ rest := by
    rw [show (21 : Nat) = 17 + 4 from rfl, ← List.drop_drop, C']; exact drop_append_eq (by simp)
  have E' : (f.wire ++ rest).drop (21 + f.data.length) = rest := by
    rw [← List.drop_drop, D']; exact drop_append_eq rfl
  unfold Fragment.unpack
  rw [A, A', B', C', D', take_append_eq (by simp), take_append_eq (by simp), take_append_eq (by simp)]
  rw [unpackBE_enc (by omega), unpackBE_enc (by omega), unpackBE_enc f.flag_lt, unpackBE_enc (by omega)]
  simp only [bind, Except.bind, pure, Except.pure]
  rw [E', take_append_eq rfl]
  have hs : (f.flag % 2 == 1) = f.start := by
    unfold Fragment.flag; cases f.start <;> cases f.end_ <;> rfl
  have he : (f.flag / 2 % 2 == 1) = f.end_ := by
    unfold Fragment.flag; cases f.start <;> cases f.end_ <;> rfl
  rw [hs, he]

/-! ### The receiving loop on a list of fragments -/

/-- Processing a list of fragments one after the other: buffer, messages, error. -/
def defragList (b : InBufs) : List Fragment → List Bytes → InBufs × Except PyErr (List Bytes)
  | [], done => (b, .ok done)
  | f :: fs, done =>
    match defragStep b f with
    | (b', .error e) => (b', .error e)
    | (b', .ok none) => defragList b' fs done
    | (b', .ok (some m)) => defragList b' fs (done ++ [m])

def wires (fs : List Fragment) : Bytes := (fs.map Fragment.wire).flatten

theorem defragLoop_wires (b : InBufs) (fs : List Fragment) (done : List Bytes) (h : ∀ f ∈ fs, f.Fits) :
    defragLoop b (wires fs) done = defragList b fs done := by
  induction fs generalizing b done with
  | nil => rw [defragLoop]; simp [wires, defragList]
  | cons f fs ih =>
    have hf := h f (by simp)
    have hfs : ∀ g ∈ fs, g.Fits := fun g hg => h g (by simp [hg])
    have hw : wires (f :: fs) = f.wire ++ wires fs := by simp [wires]
    rw [defragLoop]
    have hne : wires (f :: fs) ≠ [] := by
      rw [hw]; simp [f.wire_ne_nil]
    rw [dif_neg hne]
    have hu : Fragment.unpack (wires (f :: fs)) = .ok (f, wires fs) := by
      rw [hw]; exact Fragment.unpack_wire hf _
    split
    · rename_i e he; rw [hu] at he; simp at he
    · rename_i f' rest he
      rw [hu] at he
      simp only [Except.ok.injEq, Prod.mk.injEq] at he
      obtain ⟨rfl, rfl⟩ := he
      simp only [defragList]
      split <;> simp_all

theorem defragList_done (b : InBufs) (fs : List Fragment) (done : List Bytes) :
    defragList b fs done =
      match defragList b fs [] with
      | (b', .ok ms) => (b', .ok (done ++ ms))
      | (b', .error e) => (b', .error e) := by
  induction fs generalizing b done with
  | nil => simp [defragList]
  | cons f fs ih =>
    simp only [defragList]
    match hs : defragStep b f with
    | (b', .error e) => rfl
    | (b', .ok none) => exact ih b' done
    | (b', .ok (some m)) =>
      simp only []
      rw [ih b' (done ++ [m]), ih b' ([] ++ [m])]
      match defragList b' fs [] with
      | (_, .ok ms) => simp
      | (_, .error e) => rfl

theorem defragList_append (b : InBufs) (fs gs : List Fragment) (done : List Bytes) :
    defragList b (fs ++ gs) done =
      match defragList b fs done with
      | (b', .ok ms) => defragList b' gs ms
      | (b', .error e) => (b', .error e) := by
  induction fs generalizing b done with
  | nil => rfl
  | cons f fs ih =>
    simp only [List.cons_append, defragList]
    match hs : defragStep b f with
    | (b', .error e) => rfl
    | (b', .ok none) => exact ih b' done
    | (b', .ok (some m)) => exact ih b' _

/-- If the whole list is processed without error then any grouping into receives delivers the same
messages and ends in the same buffer. -/
theorem receives_groups (b b' : InBufs) (groups : List (List Fragment)) (ms : List Bytes)
    (hfit : ∀ g ∈ groups, ∀ f ∈ g, f.Fits)
    (h : defragList b groups.flatten [] = (b', .ok ms)) :
    ∃ outs, receives b (groups.map wires) = (b', .ok outs) ∧ outs.flatten = ms := by
  induction groups generalizing b ms with
  | nil =>
    simp only [List.flatten_nil, defragList, Prod.mk.injEq, Except.ok.injEq] at h
    exact ⟨[], by simp [receives, h.1], by simp [h.2]⟩
  | cons g gs ih =>
    have hg : ∀ f ∈ g, f.Fits := hfit g (by simp)
    have hgs : ∀ g' ∈ gs, ∀ f ∈ g', f.Fits := fun g' hg' => hfit g' (by simp [hg'])
    rw [List.flatten_cons, defragList_append] at h
    simp only [List.map_cons, receives, defragment, defragLoop_wires b g [] hg]
    match hd : defragList b g [] with
    | (b1, .error e) => rw [hd] at h; simp at h
    | (b1, .ok m1) =>
      rw [hd] at h
      simp only [] at h
      rw [defragList_done] at h
      match hd2 : defragList b1 gs.flatten [] with
      | (b2, .error e) => rw [hd2] at h; simp at h
      | (b2, .ok m2) =>
        rw [hd2] at h
        simp only [Prod.mk.injEq, Except.ok.injEq] at h
        obtain ⟨rfl, rfl⟩ := h
        obtain ⟨outs, ho, hfl⟩ := ih b1 m2 hgs hd2
        exact ⟨m1 :: outs, by simp [ho], by simp [hfl]⟩

end Verif
