import Verif.Lemmas.Utils
import Verif.Model.Flags
/-
C63: flag enumerations as text.
-/
namespace Verif

/-- Names joined with ", " can be told apart when they are not empty and contain no comma. -/
theorem joinComma_inj {a b : List PyStr} (ha : ∀ p ∈ a, p ≠ [] ∧ ',' ∉ p) (hb : ∀ p ∈ b, p ≠ [] ∧ ',' ∉ p)
    (h : joinWith ", ".toList a = joinWith ", ".toList b) : a = b := by
  have hsep : ∀ (p r q s : PyStr), ',' ∉ p → ',' ∉ q → p ++ ',' :: r = q ++ ',' :: s → p = q ∧ r = s := by
    intro p
    induction p with
    | nil =>
      intro r q s _ hq he
      cases q with
      | nil => simpa using he
      | cons y ys => simp at he; exact absurd (by simp [← he.1]) hq
    | cons x xs ih =>
      intro r q s hp hq he
      cases q with
      | nil => simp at he; exact absurd (by simp [he.1]) hp
      | cons y ys =>
        simp only [List.cons_append, List.cons.injEq] at he
        simp only [List.mem_cons, not_or] at hp hq
        obtain ⟨h1, h2⟩ := ih r ys s hp.2 hq.2 he.2
        exact ⟨by rw [he.1, h1], h2⟩
  induction a generalizing b with
  | nil =>
    cases b with
    | nil => rfl
    | cons q qs =>
      have := (hb q (by simp)).1
      cases qs with
      | nil => simp [joinWith] at h; exact absurd h.symm (by simpa using this)
      | cons r rs => simp [joinWith] at h
  | cons p ps ih =>
    have hp := ha p (by simp)
    have hps : ∀ x ∈ ps, x ≠ [] ∧ ',' ∉ x := fun x hx => ha x (by simp [hx])
    cases b with
    | nil =>
      cases ps with
      | nil => simp [joinWith] at h; exact absurd h hp.1
      | cons r rs => simp [joinWith] at h
    | cons q qs =>
      have hq := hb q (by simp)
      have hqs : ∀ x ∈ qs, x ≠ [] ∧ ',' ∉ x := fun x hx => hb x (by simp [hx])
      cases ps with
      | nil =>
        cases qs with
        | nil => simp [joinWith] at h; rw [h]
        | cons r rs =>
          simp [joinWith] at h
          exact absurd (by rw [h]; simp) hp.2
      | cons p' ps' =>
        cases qs with
        | nil =>
          simp [joinWith] at h
          exact absurd (by rw [← h]; simp) hq.2
        | cons q' qs' =>
          have h' : p ++ ',' :: (' ' :: joinWith ", ".toList (p' :: ps')) =
              q ++ ',' :: (' ' :: joinWith ", ".toList (q' :: qs')) := by
            simpa [joinWith] using h
          obtain ⟨h1, h2⟩ := hsep _ _ _ _ hp.2 hq.2 h'
          simp only [List.cons.injEq, true_and] at h2
          rw [h1, ih hps hqs h2]

/-- A table of names for the bits 0, 1, 2, ... -/
def bitTable (names : List PyStr) : Nat → List (PyStr × Nat)
  | i => match names with
    | [] => []
    | n :: ns => (n, 2 ^ i) :: bitTable ns (i + 1)

theorem and_pow_iff (v i : Nat) : (v &&& 2 ^ i == 2 ^ i) = v.testBit i := by
  rw [Bool.eq_iff_iff, beq_iff_eq]
  constructor
  · intro h
    have := congrArg (·.testBit i) h
    simpa [Nat.testBit_and, Nat.testBit_two_pow_self] using this
  · intro h
    apply Nat.eq_of_testBit_eq
    intro j
    rw [Nat.testBit_and, Nat.testBit_two_pow]
    by_cases hj : i = j
    · subst hj; simp [h]
    · simp [hj]

theorem flagNames_mem {names : List PyStr} (hn : names.Nodup) (i v : Nat) (j : Nat) (hj : j < names.length) :
    names[j] ∈ flagNames (bitTable names i) v ↔ v.testBit (i + j) = true := by
  induction names generalizing i j with
  | nil => simp at hj
  | cons n ns ih =>
    have hns := List.nodup_cons.mp hn
    have hsub : ∀ (l : List PyStr) (k : Nat) x, x ∈ flagNames (bitTable l k) v → x ∈ l := by
      intro l
      induction l with
      | nil => intro k x hx; simp [flagNames, bitTable] at hx
      | cons a as ih2 =>
        intro k x hx
        simp only [flagNames, bitTable, List.filter_cons] at hx
        split at hx
        · simp only [List.map_cons, List.mem_cons] at hx
          rcases hx with rfl | hx
          · simp
          · simp [ih2 (k + 1) x hx]
        · simp [ih2 (k + 1) x hx]
    have hstep : ∀ x, x ∈ flagNames (bitTable (n :: ns) i) v ↔
        (x = n ∧ v.testBit i = true) ∨ x ∈ flagNames (bitTable ns (i + 1)) v := by
      intro x
      simp only [flagNames, bitTable, List.filter_cons, and_pow_iff]
      cases v.testBit i <;> simp
    rw [hstep]
    cases j with
    | zero =>
      simp only [List.getElem_cons_zero, true_and, Nat.add_zero]
      constructor
      · rintro (h | h)
        · exact h
        · exact absurd (hsub _ _ _ h) hns.1
      · exact fun h => .inl h
    | succ j =>
      have hj' : j < ns.length := by simpa using hj
      simp only [List.getElem_cons_succ]
      rw [ih hns.2 (i + 1) j hj']
      have e : i + 1 + j = i + (j + 1) := by omega
      rw [e]
      constructor
      · rintro (⟨h, _⟩ | h)
        · exact absurd (h ▸ List.getElem_mem hj') hns.1
        · exact h
      · exact fun h => .inr h

theorem flagNames_sublist (l : List (PyStr × Nat)) (v : Nat) : (flagNames l v).Sublist (l.map (·.1)) :=
  List.Sublist.map _ List.filter_sublist

/-- The flag names in bit order: MS-PSRP 2.2.3.8. -/
def remoteStreamNames : List PyStr :=
  ["AddInvocationInfoToErrorRecord", "AddInvocationInfoToWarningRecord", "AddInvocationInfoToDebugRecord",
   "AddInvocationInfoToVerboseRecord"].map String.toList

/-- The flag names in bit order: MS-PSRP 2.2.3.19. -/
def commandTypeNames : List PyStr :=
  ["Alias", "Function", "Filter", "Cmdlet", "ExternalScript", "Application", "Script", "Workflow",
   "Configuration"].map String.toList

/-- C63. Stream options: the text is a list of names joined by ", ", in the documented order, containing the name of
bit `j` exactly when bit `j` is set. The value with exactly the four flags is abbreviated. -/
theorem C63_stream_options (v : Nat) (h : v ≠ 15) :
    ∃ names : List PyStr, remoteStreamText (some v) = ", ".toList.intercalate names ∧
      names.Sublist remoteStreamNames ∧
      ∀ (j : Nat) (hj : j < remoteStreamNames.length), remoteStreamNames[j] ∈ names ↔ v.testBit j = true := by
  refine ⟨flagNames (bitTable remoteStreamNames 0) v, ?_, ?_, ?_⟩
  · rw [← joinWith_intercalate]; unfold remoteStreamText; rw [if_neg (by simpa using h)]; rfl
  · exact flagNames_sublist _ v
  · intro j hj
    have := flagNames_mem (names := remoteStreamNames) (by decide) 0 v j hj
    rwa [Nat.zero_add] at this

/-- C63. Command types: the same for the nine command type flags. -/
theorem C63_command_types (v : Nat) (h : v ≠ 0x1FF) :
    ∃ names : List PyStr, commandTypeText (some v) = ", ".toList.intercalate names ∧
      names.Sublist commandTypeNames ∧
      ∀ (j : Nat) (hj : j < commandTypeNames.length), commandTypeNames[j] ∈ names ↔ v.testBit j = true := by
  refine ⟨flagNames (bitTable commandTypeNames 0) v, ?_, ?_, ?_⟩
  · rw [← joinWith_intercalate]; unfold commandTypeText; rw [if_neg (by simpa using h)]; rfl
  · exact flagNames_sublist _ v
  · intro j hj
    have := flagNames_mem (names := commandTypeNames) (by decide) 0 v j hj
    rwa [Nat.zero_add] at this

theorem flagNames_ok {names : List PyStr} (h : ∀ p ∈ names, p ≠ [] ∧ ',' ∉ p) (i v : Nat) :
    ∀ p ∈ flagNames (bitTable names i) v, p ≠ [] ∧ ',' ∉ p := by
  intro p hp
  have hs := (flagNames_sublist (bitTable names i) v).subset hp
  have : ∀ (l : List PyStr) i, (bitTable l i).map (·.1) = l := by
    intro l
    induction l with
    | nil => intro i; rfl
    | cons a as ih => intro i; simp [bitTable, ih]
  rw [this] at hs
  exact h p hs

/-- C63. Different sets of stream options have different texts. -/
theorem C63_stream_options_injective (v w : Nat) (h : remoteStreamText (some v) = remoteStreamText (some w)) :
    ∀ j, j < 4 → v.testBit j = w.testBit j := by
  have hok := flagNames_ok (names := remoteStreamNames) (by decide) 0
  have hmem := flagNames_mem (names := remoteStreamNames) (by decide) 0
  have one : ∀ u, u ≠ 15 → remoteStreamText (some u) = joinWith ", ".toList (flagNames (bitTable remoteStreamNames 0) u) := by
    intro u hu; unfold remoteStreamText; rw [if_neg (by simpa using hu)]; rfl
  have special : ∀ u, u ≠ 15 → remoteStreamText (some u) ≠ remoteStreamText (some 15) := by
    intro u hu he
    rw [one u hu] at he
    have h15 : remoteStreamText (some 15) = joinWith ", ".toList ["AddInvocationInfo".toList] := by decide
    rw [h15] at he
    have := joinComma_inj (hok u) (by decide) he
    have hs := (flagNames_sublist (bitTable remoteStreamNames 0) u).subset (a := "AddInvocationInfo".toList)
      (by rw [this]; simp)
    revert hs; decide
  by_cases hv : v = 15
  · by_cases hw : w = 15
    · intro j _; rw [hv, hw]
    · rw [hv] at h; exact absurd h.symm (special w hw)
  · by_cases hw : w = 15
    · rw [hw] at h; exact absurd h (special v hv)
    · rw [one v hv, one w hw] at h
      have e := joinComma_inj (hok v) (hok w) h
      intro j hj
      have h1 := hmem v j hj
      have h2 := hmem w j hj
      rw [e] at h1
      have := h1.symm.trans h2
      simp only [Nat.zero_add] at this
      exact Bool.eq_iff_iff.mpr this

/-- C63. Different sets of command types have different texts. -/
theorem C63_command_types_injective (v w : Nat) (h : commandTypeText (some v) = commandTypeText (some w)) :
    ∀ j, j < 9 → v.testBit j = w.testBit j := by
  have hok := flagNames_ok (names := commandTypeNames) (by decide) 0
  have hmem := flagNames_mem (names := commandTypeNames) (by decide) 0
  have one : ∀ u, u ≠ 0x1FF → commandTypeText (some u) = joinWith ", ".toList (flagNames (bitTable commandTypeNames 0) u) := by
    intro u hu; unfold commandTypeText; rw [if_neg (by simpa using hu)]; rfl
  have special : ∀ u, u ≠ 0x1FF → commandTypeText (some u) ≠ commandTypeText (some 0x1FF) := by
    intro u hu he
    rw [one u hu] at he
    have hall : commandTypeText (some 0x1FF) = joinWith ", ".toList ["All".toList] := by decide
    rw [hall] at he
    have := joinComma_inj (hok u) (by decide) he
    have hs := (flagNames_sublist (bitTable commandTypeNames 0) u).subset (a := "All".toList)
      (by rw [this]; simp)
    revert hs; decide
  by_cases hv : v = 0x1FF
  · by_cases hw : w = 0x1FF
    · intro j _; rw [hv, hw]
    · rw [hv] at h; exact absurd h.symm (special w hw)
  · by_cases hw : w = 0x1FF
    · rw [hw] at h; exact absurd h (special v hv)
    · rw [one v hv, one w hw] at h
      have e := joinComma_inj (hok v) (hok w) h
      intro j hj
      have h1 := hmem v j hj
      have h2 := hmem w j hj
      rw [e] at h1
      have := h1.symm.trans h2
      simp only [Nat.zero_add] at this
      exact Bool.eq_iff_iff.mpr this

/-- Unset values (None) are rendered as no flags. -/
theorem C63_unset : remoteStreamText none = [] ∧ commandTypeText none = [] := by decide

example : remoteStreamText (some 10) = "AddInvocationInfoToWarningRecord, AddInvocationInfoToVerboseRecord".toList := by
  decide

end Verif
