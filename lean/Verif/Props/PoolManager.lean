import Verif.Spec.PoolManager
/-
C61: disabling new connections is scoped.
-/
namespace Verif

/-- The value below an open scope. -/
def belowOf (base : Option Nat) : List Nat → Option Nat
  | [] => base
  | p :: _ => some p

/-- The tokens of an open scope list link each scope to the value below it. -/
def Linked (slot : Nat → Option CtxToken) (c : Nat) (base : Option Nat) : List Nat → Prop
  | [] => True
  | o :: os => slot o = some ⟨c, belowOf base os⟩ ∧ Linked slot c base os

theorem Linked.frame {slot : Nat → Option CtxToken} {c : Nat} {base : Option Nat} {o : Nat} {t : Option CtxToken} :
    ∀ {os : List Nat}, o ∉ os → Linked slot c base os → Linked (update slot o t) c base os := by
  intro os
  induction os with
  | nil => intros; trivial
  | cons p ps ih =>
    intro hn h
    simp only [List.mem_cons, not_or] at hn
    refine ⟨?_, ih hn.2 h.2⟩
    rw [← h.1]; simp [update, Ne.symm hn.1]

/-- The invariant between the state of the code and what the user knows. -/
structure CtxInv (s : CtxState) (k : Scopes) where
  base : Nat → Option Nat
  base_iff : ∀ c, (base c).isSome = k.inherited c
  top : ∀ c, s.var c = belowOf (base c) (k.opened c)
  linked : ∀ c, Linked s.slot c (base c) (k.opened c)
  nodup : ∀ c, (k.opened c).Nodup
  disjoint : ∀ c d o, c ≠ d → o ∈ k.opened c → o ∉ k.opened d

theorem ctxInv_init : Nonempty (CtxInv .init .none) :=
  ⟨⟨fun _ => Option.none, fun _ => rfl, fun _ => rfl, fun _ => trivial, fun _ => List.nodup_nil, fun _ _ _ _ h => nomatch h⟩⟩

theorem CtxInv.disabled {s : CtxState} {k : Scopes} (h : CtxInv s k) (c : Nat) : (s.var c).isSome = k.disabled c := by
  rw [h.top c, Scopes.disabled, ← h.base_iff c]
  cases hk : k.opened c <;> simp [belowOf]

theorem ctxStep_inv {s : CtxState} {k : Scopes} (h : CtxInv s k) (op : CtxOp) (ops : List CtxOp)
    (hp : k.Proper (op :: ops)) :
    Nonempty (CtxInv (ctxStep s op).1 (k.next op)) ∧
      (ctxStep s op).2 = k.outcome op := by
  obtain ⟨hop, -⟩ := hp
  cases op with
  | enter c o =>
    simp only at hop
    refine ⟨⟨h.base, h.base_iff, ?_, ?_, ?_, ?_⟩, rfl⟩
    · intro d
      simp only [ctxStep, Scopes.next, update]
      by_cases hd : d = c
      · simp [hd, belowOf]
      · simp [hd, h.top d]
    · intro d
      simp only [ctxStep, Scopes.next]
      by_cases hd : d = c
      · subst hd
        have e : update k.opened d (o :: k.opened d) d = o :: k.opened d := by simp [update]
        rw [e]
        refine ⟨?_, Linked.frame (hop d) (h.linked d)⟩
        simp only [update, if_true]
        rw [h.top d]
      · have e : update k.opened c (o :: k.opened c) d = k.opened d := by simp [update, hd]
        rw [e]
        exact Linked.frame (hop d) (h.linked d)
    · intro d
      simp only [Scopes.next, update]
      split
      · rename_i hd; subst hd
        exact List.nodup_cons.mpr ⟨hop d, h.nodup d⟩
      · exact h.nodup d
    · intro d e p hde
      simp only [Scopes.next, update]
      split
      · rename_i hd
        rw [if_neg (by omega)]
        intro hm
        rcases List.mem_cons.mp hm with rfl | hm
        · exact hop e
        · exact h.disjoint c e p (by omega) hm
      · intro hm
        split
        · rename_i he
          simp only [List.mem_cons, not_or]
          exact ⟨fun hpo => hop d (hpo ▸ hm), h.disjoint d c p (by omega) hm⟩
        · exact h.disjoint d e p hde hm
  | exit c o =>
    simp only at hop
    obtain ⟨os, hos⟩ : ∃ os, k.opened c = o :: os := by
      cases hk : k.opened c with
      | nil => rw [hk] at hop; simp at hop
      | cons a t => rw [hk] at hop; simp at hop; exact ⟨t, by rw [hop]⟩
    have hl := h.linked c
    rw [hos] at hl
    have hn := h.nodup c
    rw [hos] at hn
    have hno := (List.nodup_cons.mp hn)
    have hstep : ctxStep s (.exit c o) = (⟨update s.var c (belowOf (h.base c) os),
        update s.slot o none⟩, .ok ()) := by
      simp only [ctxStep, hl.1, if_true]
    rw [hstep]
    refine ⟨⟨h.base, h.base_iff, ?_, ?_, ?_, ?_⟩, rfl⟩
    · intro d
      simp only [Scopes.next, update]
      split
      · rename_i hd; subst hd; rw [hos]; rfl
      · exact h.top d
    · intro d
      simp only [Scopes.next]
      by_cases hd : d = c
      · subst hd
        have e : update k.opened d (k.opened d).tail d = os := by simp [update, hos]
        rw [e]
        exact Linked.frame hno.1 hl.2
      · have e : update k.opened c (k.opened c).tail d = k.opened d := by simp [update, hd]
        rw [e]
        exact Linked.frame (h.disjoint c d o (by omega) (by rw [hos]; simp)) (h.linked d)
    · intro d
      simp only [Scopes.next, update]
      split
      · rw [hos]; exact hno.2
      · exact h.nodup d
    · intro d e p hde
      simp only [Scopes.next, update]
      have hsub : ∀ q, q ∈ (k.opened c).tail → q ∈ k.opened c := fun q => List.mem_of_mem_tail
      split
      · rename_i hd; subst hd
        rw [if_neg (by omega)]
        exact fun hm => h.disjoint d e p hde (hsub p hm)
      · split
        · rename_i he; subst he
          exact fun hm hm' => h.disjoint d e p hde hm (hsub p hm')
        · exact h.disjoint d e p hde
  | connect c =>
    have hd := h.disabled c
    simp only [ctxStep, Scopes.next]
    cases hv : s.var c with
    | none => rw [hv] at hd; simp at hd; exact ⟨⟨h⟩, by simp [Scopes.outcome, ← hd]⟩
    | some o => rw [hv] at hd; simp at hd; exact ⟨⟨h⟩, by simp [Scopes.outcome, ← hd]⟩
  | spawn c d =>
    simp only at hop
    refine ⟨⟨update h.base d (s.var c), ?_, ?_, ?_, h.nodup, h.disjoint⟩, rfl⟩
    · intro e
      simp only [Scopes.next, update]
      split
      · exact h.disabled c
      · exact h.base_iff e
    · intro e
      simp only [ctxStep, Scopes.next, update]
      split
      · rename_i he; subst he; rw [hop]; rfl
      · exact h.top e
    · intro e
      simp only [ctxStep, Scopes.next, update]
      by_cases he : e = d
      · subst he; rw [hop]; trivial
      · simpa [he] using h.linked e

theorem ctxRun_inv {s : CtxState} {k : Scopes} (h : CtxInv s k) (ops : List CtxOp) (hp : k.Proper ops) :
    Nonempty (CtxInv (ctxRun s ops).1 (k.after ops)) ∧ (ctxRun s ops).2 = k.outcomes ops := by
  induction ops generalizing s k with
  | nil => exact ⟨⟨h⟩, rfl⟩
  | cons op ops ih =>
    obtain ⟨⟨h1⟩, hr⟩ := ctxStep_inv h op ops hp
    obtain ⟨h2, hrs⟩ := ih h1 hp.2
    exact ⟨h2, by simp only [ctxRun, Scopes.outcomes, hr, hrs]⟩

/-- C61. For any interleaving of any number of contexts that use scopes properly, every action succeeds except a new
connection attempted in a context that has a scope open (or was started with connections disabled), which is refused.
Partial: proper use excludes entering a scope object again while it is open, where the claim is false. -/
theorem C61_scoped_partial (ops : List CtxOp) (hp : Scopes.none.Proper ops) :
    (ctxRun .init ops).2 = Scopes.none.outcomes ops := by
  obtain ⟨h⟩ := ctxInv_init
  exact (ctxRun_inv h ops hp).2

/-- C61. After the outermost scope of a context is left, a connection in it is allowed again; as long as one is open it
is refused. -/
theorem C61_restored_partial (ops : List CtxOp) (hp : Scopes.none.Proper ops) (c : Nat)
    (hi : (Scopes.none.after ops).inherited c = false) :
    (ctxStep (ctxRun .init ops).1 (.connect c)).2 = .ok () ↔ (Scopes.none.after ops).opened c = [] := by
  obtain ⟨h⟩ := ctxInv_init
  obtain ⟨⟨h2⟩, -⟩ := ctxRun_inv h ops hp
  have hd := h2.disabled c
  simp only [Scopes.disabled, hi, Bool.false_or] at hd
  simp only [ctxStep]
  cases hv : (ctxRun .init ops).1.var c <;> rw [hv] at hd <;> simp at hd <;> simp [hd]

/-- A proper use with two contexts interleaved, a nested scope and a started context. -/
example : Scopes.none.Proper [.enter 0 7, .connect 1, .enter 0 8, .connect 0, .spawn 0 2, .exit 0 8, .connect 0, .exit 0 7,
    .connect 0, .connect 2] := by
  refine ⟨fun c => by simp [Scopes.none], trivial, fun c => ?_, trivial, rfl, rfl, trivial, rfl, trivial, trivial, trivial⟩
  simp only [Scopes.next, Scopes.none, update]
  split <;> simp

example : Scopes.none.outcomes [.enter 0 7, .connect 1, .enter 0 8, .connect 0, .spawn 0 2, .exit 0 8, .connect 0,
    .exit 0 7, .connect 0, .connect 2] =
    [.ok (), .ok (), .ok (), .error .newConnectionDisabled, .ok (), .ok (), .error .newConnectionDisabled, .ok (),
     .ok (), .error .newConnectionDisabled] := by decide

/-- C61 is false when the same scope object is entered again while open: leaving the outer scope raises and new
connections stay disabled for good. -/
theorem C61_reentered_false :
    (ctxRun .init [.enter 0 7, .enter 0 7, .exit 0 7, .exit 0 7, .connect 0]).2 =
      [.ok (), .ok (), .ok (), .error .attributeError, .error .newConnectionDisabled] := by decide

end Verif
