import Verif.Spec.ResponseHeaders
import Verif.Lemmas.Base64
import Verif.Model.Transport
import Verif.Props.Base64Text
import Verif.Spec.Transport
/-
C104: tokens and boundaries in the headers of responses.
-/
namespace Verif

/-- A search is the first place at which there is a match. -/
theorem search_iff {f : PyStr → Option PyStr} {g : PyStr → Option PyStr} (h0 : g [] = none) (hf : f [] = none)
    (hg : ∀ c cs, g (c :: cs) = match f (c :: cs) with
      | some t => some t
      | none => g cs) (t : PyStr) : ∀ s : PyStr,
    g s = some t ↔ ∃ i, f (s.drop i) = some t ∧ ∀ j < i, f (s.drop j) = none := by
  intro s
  induction s with
  | nil => simp [h0, hf]
  | cons c cs ih =>
    rw [hg]
    cases hc : f (c :: cs) with
    | some u =>
      constructor
      · intro h
        exact ⟨0, by rw [List.drop_zero, hc]; exact h, fun j hj => absurd hj (Nat.not_lt_zero j)⟩
      · rintro ⟨i, h1, h2⟩
        cases i with
        | zero => rw [List.drop_zero, hc] at h1; exact h1
        | succ i =>
          have := h2 0 (Nat.succ_pos i)
          rw [List.drop_zero, hc] at this
          cases this
    | none =>
      dsimp only
      rw [ih]
      constructor
      · rintro ⟨i, h1, h2⟩
        refine ⟨i + 1, h1, fun j hj => ?_⟩
        cases j with
        | zero => exact hc
        | succ j => exact h2 j (Nat.lt_of_succ_lt_succ hj)
      · rintro ⟨i, h1, h2⟩
        cases i with
        | zero => rw [List.drop_zero, hc] at h1; cases h1
        | succ i => exact ⟨i, h1, fun j hj => h2 (j + 1) (Nat.succ_lt_succ hj)⟩

theorem prefix_upper (name s : PyStr) : (asciiUpper name).isPrefixOf (asciiUpper s) = true ↔ (s.take name.length).map Char.toUpper = name.map Char.toUpper := by
  rw [List.isPrefixOf_iff_prefix, List.prefix_iff_eq_take]
  unfold asciiUpper
  rw [List.length_map, List.map_take]
  exact eq_comm

/-- The three names, and at most one of them at a place. -/
theorem tokenAt_iff (s t : PyStr) : tokenAt s = some t ↔
    ∃ name, SchemeAt s 0 name ∧ t = ((s.drop name.length).dropWhile isPySpace).takeWhile (· ≠ ',') := by
  have uN : "Negotiate".toList.map Char.toUpper = "NEGOTIATE".toList := by decide +kernel
  have uK : "Kerberos".toList.map Char.toUpper = "KERBEROS".toList := by decide +kernel
  have uT : "NTLM".toList.map Char.toUpper = "NTLM".toList := by decide +kernel
  have lN : "Negotiate".toList.length = 9 := by decide +kernel
  have lK : "Kerberos".toList.length = 8 := by decide +kernel
  have lT : "NTLM".toList.length = 4 := by decide +kernel
  have lN' : "NEGOTIATE".toList.length = 9 := by decide +kernel
  have lK' : "KERBEROS".toList.length = 8 := by decide +kernel
  have hN := prefix_upper "Negotiate".toList s
  have hK := prefix_upper "Kerberos".toList s
  have hT := prefix_upper "NTLM".toList s
  rw [uN, lN] at hN
  rw [uK, lK] at hK
  rw [uT, lT] at hT
  have kn : ¬ ((s.take 8).map Char.toUpper = "KERBEROS".toList ∧ (s.take 9).map Char.toUpper = "NEGOTIATE".toList) := by
    rintro ⟨h1, h2⟩
    have a := congrArg List.head? h1
    have b := congrArg List.head? h2
    rw [List.head?_map, List.head?_take] at a b
    simp at a b
    obtain ⟨c, hc, hc2⟩ := a
    obtain ⟨d, hd, hd2⟩ := b
    rw [hc] at hd
    cases hd
    rw [hc2] at hd2
    exact absurd hd2 (by decide)
  have kt : ¬ ((s.take 8).map Char.toUpper = "KERBEROS".toList ∧ (s.take 4).map Char.toUpper = "NTLM".toList) := by
    rintro ⟨h1, h2⟩
    have a := congrArg List.head? h1
    have b := congrArg List.head? h2
    rw [List.head?_map, List.head?_take] at a b
    simp at a b
    obtain ⟨c, hc, hc2⟩ := a
    obtain ⟨d, hd, hd2⟩ := b
    rw [hc] at hd
    cases hd
    rw [hc2] at hd2
    exact absurd hd2 (by decide)
  have nt : ¬ ((s.take 9).map Char.toUpper = "NEGOTIATE".toList ∧ (s.take 4).map Char.toUpper = "NTLM".toList) := by
    rintro ⟨h1, h2⟩
    have a := congrArg (fun l => l[1]?) h1
    have b := congrArg (fun l => l[1]?) h2
    simp at a b
    obtain ⟨c, hc, hc2⟩ := a
    obtain ⟨d, hd, hd2⟩ := b
    rw [hc] at hd
    cases hd
    rw [hc2] at hd2
    exact absurd hd2 (by decide)
  unfold tokenAt SchemeAt tokenSchemes
  simp only [List.mem_cons, List.not_mem_nil, or_false, List.drop_zero, lN, lK, lT, or_and_right, exists_or, exists_eq_left, lN', lK', and_assoc]
  by_cases h1 : (s.take 8).map Char.toUpper = "KERBEROS".toList
  · rw [if_pos (hK.2 h1)]
    have h2 : ¬ (s.take 9).map Char.toUpper = "NEGOTIATE".toList := fun h => kn ⟨h1, h⟩
    have h3 : ¬ (s.take 4).map Char.toUpper = "NTLM".toList := fun h => kt ⟨h1, h⟩
    simp only [h1, h2, h3, true_and, false_and, or_false, Option.some.injEq]
    exact eq_comm
  · rw [if_neg (fun h => h1 (hK.1 h))]
    by_cases h2 : (s.take 9).map Char.toUpper = "NEGOTIATE".toList
    · rw [if_pos (hN.2 h2)]
      have h3 : ¬ (s.take 4).map Char.toUpper = "NTLM".toList := fun h => nt ⟨h2, h⟩
      simp only [h1, h2, h3, true_and, false_and, or_false, false_or, Option.some.injEq]
      exact eq_comm
    · rw [if_neg (fun h => h2 (hN.1 h))]
      by_cases h3 : (s.take 4).map Char.toUpper = "NTLM".toList
      · rw [if_pos (hT.2 h3)]
        simp only [h1, h2, h3, true_and, false_and, false_or, Option.some.injEq]
        exact eq_comm
      · rw [if_neg (fun h => h3 (hT.1 h))]
        simp only [h1, h2, h3, false_and, or_false]
        simp

/-- The text that follows. -/
theorem after_iff (s t : PyStr) : t = (s.dropWhile isPySpace).takeWhile (· ≠ ',') ↔
    ∃ gap rest, s = gap ++ t ++ rest ∧ (∀ c ∈ gap, isPySpace c = true) ∧ (∀ c, t.head? = some c → isPySpace c = false) ∧ ',' ∉ t ∧
      (rest = [] ∨ rest.head? = some ',') := by
  constructor
  · rintro rfl
    refine ⟨s.takeWhile isPySpace, (s.dropWhile isPySpace).dropWhile (· ≠ ','), ?_, ?_, ?_, ?_, ?_⟩
    · rw [List.append_assoc, List.takeWhile_append_dropWhile, List.takeWhile_append_dropWhile]
    · exact fun c hc => List.all_eq_true.mp List.all_takeWhile c hc
    · intro c hc
      cases hd : s.dropWhile isPySpace with
      | nil => rw [hd] at hc; cases hc
      | cons d ds =>
        have hnot := List.head?_dropWhile_not isPySpace s
        rw [hd] at hc hnot
        rw [List.takeWhile_cons] at hc
        split at hc
        · cases hc; simpa using hnot
        · cases hc
    · intro hc
      have := List.all_eq_true.mp List.all_takeWhile _ hc
      simp at this
    · have hnot := List.head?_dropWhile_not (fun c : Char => decide (c ≠ ',')) (s.dropWhile isPySpace)
      cases hd : (s.dropWhile isPySpace).dropWhile (fun c : Char => decide (c ≠ ',')) with
      | nil => exact .inl rfl
      | cons d ds =>
        rw [hd] at hnot
        simp only [List.head?_cons] at hnot
        right
        simpa using hnot
  · rintro ⟨gap, rest, rfl, h1, h2, h3, h4⟩
    have hg : (gap ++ t ++ rest).dropWhile isPySpace = t ++ rest := by
      rw [List.append_assoc, List.dropWhile_append_of_pos h1]
      cases t with
      | cons c cs => rw [List.cons_append, List.dropWhile_cons_of_neg (by rw [h2 c rfl]; simp)]
      | nil =>
        cases rest with
        | nil => rfl
        | cons d ds =>
          have : d = ',' := by rcases h4 with h | h <;> simpa using h
          subst this
          rfl
    rw [hg, List.takeWhile_append_of_pos (fun c hc => by simpa using fun h : c = ',' => h3 (h ▸ hc))]
    cases rest with
    | nil => simp
    | cons d ds =>
      have : d = ',' := by rcases h4 with h | h <;> simpa using h
      subst this
      simp

theorem schemeAt_drop (s : PyStr) (i : Nat) (name : PyStr) : SchemeAt (s.drop i) 0 name ↔ SchemeAt s i name := by
  unfold SchemeAt
  rw [List.drop_zero]

/-- C104: the token of a response is the text after the first name of a scheme, in base64; without any name there is none. -/
theorem C104_token (header : PyStr) : (∀ text, findToken header = some text ↔ TokenIn header text) ∧
    (getAuthToken header = .ok none ↔ ∀ i name, ¬ SchemeAt header i name) ∧
    (∀ token : Bytes, getAuthToken header = .ok (some token) ↔ ServerToken header token) ∧
    ∀ token : Bytes, TokenIn header (base64Of token) → getAuthToken header = .ok (some token) := by
  have hnone : ∀ s, tokenAt s = none ↔ ∀ name, ¬ SchemeAt s 0 name := by
    intro s
    constructor
    · intro h name hn
      have := (tokenAt_iff s _).2 ⟨name, hn, rfl⟩
      rw [h] at this
      cases this
    · intro h
      cases ht : tokenAt s with
      | none => rfl
      | some t => obtain ⟨name, hn, -⟩ := (tokenAt_iff s t).1 ht; exact absurd hn (h name)
  have hs := fun t => search_iff (f := tokenAt) (g := findToken) rfl (by decide +kernel) (fun c cs => by rw [findToken]; cases tokenAt (c :: cs) <;> rfl) t header
  have h1 : ∀ text, findToken header = some text ↔ TokenIn header text := by
    intro text
    rw [hs]
    unfold TokenIn
    constructor
    · rintro ⟨i, h1, h2⟩
      obtain ⟨name, h3, h4⟩ := (tokenAt_iff _ _).1 h1
      rw [List.drop_drop] at h4
      obtain ⟨gap, rest, h5⟩ := (after_iff _ _).1 h4
      exact ⟨i, name, gap, rest, (schemeAt_drop ..).1 h3, fun j hj m hm => (hnone _).1 (h2 j hj) m ((schemeAt_drop ..).2 hm), h5⟩
    · rintro ⟨i, name, gap, rest, h1, h2, h3⟩
      refine ⟨i, (tokenAt_iff _ _).2 ⟨name, (schemeAt_drop ..).2 h1, ?_⟩, fun j hj => (hnone _).2 fun m hm => h2 j hj m ((schemeAt_drop ..).1 hm)⟩
      rw [List.drop_drop]
      exact (after_iff _ _).2 ⟨gap, rest, h3⟩
  refine ⟨h1, ?_, fun token => ?_, fun token ht => ?_⟩
  · have hfind : getAuthToken header = .ok none ↔ findToken header = none := by
      unfold getAuthToken
      cases findToken header with
      | none => simp
      | some t => cases h : b64DecodeStr t <;> simp [h, Except.map]
    rw [hfind]
    constructor
    · intro h i name hn
      have : ∀ n s, findToken s = none → tokenAt (s.drop n) = none := by
        intro n
        induction n with
        | zero =>
          intro s hs
          cases s with
          | nil => decide +kernel
          | cons c cs =>
            rw [findToken] at hs
            rw [List.drop_zero]
            split at hs
            · cases hs
            · assumption
        | succ n ih =>
          intro s hs
          cases s with
          | nil => rw [List.drop_nil]; decide +kernel
          | cons c cs =>
            rw [findToken] at hs
            split at hs
            · cases hs
            · exact ih cs hs
      exact (hnone _).1 (this i header h) name ((schemeAt_drop ..).2 hn)
    · intro h
      cases hf : findToken header with
      | none => rfl
      | some t => obtain ⟨i, name, _, _, hn, -⟩ := (h1 t).1 hf; exact absurd hn (h i name)
  · unfold getAuthToken ServerToken
    constructor
    · intro h
      cases hf : findToken header with
      | none => rw [hf] at h; cases h
      | some t =>
        rw [hf] at h
        dsimp only at h
        refine ⟨t, (h1 t).1 hf, ((C105_string t).1 token).1 ?_⟩
        cases hd : b64DecodeStr t with
        | error e => rw [hd] at h; cases h
        | ok b => rw [hd] at h; cases h; rfl
    · rintro ⟨t, ht, hb⟩
      rw [(h1 t).2 ht]
      dsimp only
      rw [((C105_string t).1 token).2 hb]
      rfl
  · unfold getAuthToken
    rw [(h1 _).2 ht]
    dsimp only
    rw [← C99_base64, b64DecodeStr_encode]
    rfl

/-- The name of a scheme in lower case, and other challenges. -/
example : TokenIn "Basic realm=\"x\", negotiate  AQI= , NTLM".toList ("AQI= ".toList) := by
  refine (C104_token _).1 _ |>.1 ?_
  decide +kernel

/-- C104 is false of the code: the token of a challenge is not found if the name of a scheme comes before, in another challenge. The exchange then stops. -/
theorem C104_token_false : ∃ before : PyStr, getAuthToken (before ++ ", Negotiate ".toList ++ base64Of [1, 2]) = .ok (some []) ∧
    before = "Basic ".toList ++ parameter "realm" "ntlm" :=
  ⟨_, by decide +kernel, rfl⟩

/-- A boundary at the start of a text. -/
def boundaryHere (s : PyStr) : Option PyStr :=
  if "boundary=".toList.isPrefixOf s then
    match s.drop 9 with
    | q :: rest => if q = '|' ∨ q = '"' then beforeLastQuote rest else none
    | [] => none
  else none

theorem beforeLastQuote_iff (s b : PyStr) : beforeLastQuote s = some b ↔
    ∃ last rest, s = b ++ last :: rest ∧ isQuote last ∧ '\n' ∉ b ∧ ∀ c ∈ rest.takeWhile (· ≠ '\n'), ¬ isQuote c := by
  have hq : ∀ c : Char, (c ≠ '|' && c ≠ '"') = true ↔ ¬ isQuote c := by
    intro c
    unfold isQuote
    simp only [Bool.and_eq_true, decide_eq_true_eq, not_or]
    exact And.comm
  unfold beforeLastQuote
  dsimp only
  have hline : s.takeWhile (· ≠ '\n') ++ s.dropWhile (· ≠ '\n') = s := List.takeWhile_append_dropWhile
  constructor
  · intro h
    cases hd : (s.takeWhile (· ≠ '\n')).reverse.dropWhile fun c => c ≠ '|' && c ≠ '"' with
    | nil => rw [hd] at h; cases h
    | cons d r =>
      rw [hd] at h
      have h : r.reverse = b := by simpa using h
      subst h
      have hsplit := List.takeWhile_append_dropWhile (p := fun c : Char => c ≠ '|' && c ≠ '"') (l := (s.takeWhile (· ≠ '\n')).reverse)
      rw [hd] at hsplit
      have hrev := congrArg List.reverse hsplit
      rw [List.reverse_reverse, List.reverse_append, List.reverse_cons, List.append_assoc, List.singleton_append] at hrev
      have hmem : ∀ c ∈ s.takeWhile (· ≠ '\n'), c ≠ '\n' := fun c hc => by simpa using List.all_eq_true.mp List.all_takeWhile c hc
      refine ⟨d, ((s.takeWhile (· ≠ '\n')).reverse.takeWhile fun c => c ≠ '|' && c ≠ '"').reverse ++ s.dropWhile (· ≠ '\n'), ?_, ?_, ?_, ?_⟩
      · conv => lhs; rw [← hline, ← hrev]
        simp
      · have hnot := List.head?_dropWhile_not (fun c : Char => c ≠ '|' && c ≠ '"') (s.takeWhile (· ≠ '\n')).reverse
        rw [hd] at hnot
        simp only [List.head?_cons] at hnot
        apply Classical.byContradiction
        intro hn
        rw [(hq d).2 hn] at hnot
        cases hnot
      · intro hc
        exact hmem _ (by rw [← hrev]; exact List.mem_append_left _ hc) rfl
      · intro c hc
        have hc' : c ∈ (s.takeWhile (· ≠ '\n')).reverse.takeWhile fun c => c ≠ '|' && c ≠ '"' := by
          rw [List.takeWhile_append_of_pos (by
            intro x hx
            have : x ≠ '\n' := hmem x (by rw [← hrev]; exact List.mem_append_right _ (List.mem_cons_of_mem _ hx))
            simpa using this)] at hc
          rw [List.mem_append] at hc
          rcases hc with hc | hc
          · exact List.mem_reverse.1 hc
          · exfalso
            have hnot := List.head?_dropWhile_not (fun c : Char => decide (c ≠ '\n')) s
            cases hd2 : s.dropWhile (fun c : Char => decide (c ≠ '\n')) with
            | nil => rw [hd2] at hc; cases hc
            | cons x xs =>
              rw [hd2] at hc hnot
              simp only [List.head?_cons] at hnot
              rw [List.takeWhile_cons_of_neg (by simpa using hnot)] at hc
              cases hc
        exact (hq c).1 (List.all_eq_true.mp List.all_takeWhile c hc')
  · rintro ⟨last, rest, rfl, h1, h2, h3⟩
    have hl : last ≠ '\n' := by rcases h1 with rfl | rfl <;> decide
    rw [List.takeWhile_append_of_pos (by intro x hx; simpa using fun h : x = '\n' => h2 (h ▸ hx)), List.takeWhile_cons_of_pos (by simpa using hl)]
    rw [List.reverse_append, List.reverse_cons, List.append_assoc, List.dropWhile_append_of_pos (by
      intro c hc
      exact (hq c).2 (h3 c (List.mem_reverse.1 hc)))]
    rw [List.singleton_append, List.dropWhile_cons_of_neg (by intro h; exact (hq last).1 h h1)]
    simp

theorem boundaryHere_iff (s b : PyStr) : boundaryHere s = some b ↔ BoundaryAt s 0 b := by
  have l9 : "boundary=".toList.length = 9 := by decide +kernel
  unfold boundaryHere BoundaryAt
  rw [List.drop_zero]
  constructor
  · intro h
    split at h
    case isFalse => cases h
    case isTrue hp =>
      obtain ⟨r, hr⟩ := List.isPrefixOf_iff_prefix.mp hp
      rw [← hr, ← l9, List.drop_left] at h
      cases r with
      | nil => cases h
      | cons q r =>
        dsimp only at h
        split at h
        · rename_i hq
          obtain ⟨last, rest, rfl, h1, h2, h3⟩ := (beforeLastQuote_iff r b).1 h
          exact ⟨q, last, rest, hr.symm, hq.symm, h1, h2, h3⟩
        · cases h
  · rintro ⟨q, last, rest, rfl, h0, h1, h2, h3⟩
    rw [if_pos (List.isPrefixOf_iff_prefix.mpr (List.prefix_append _ _)), ← l9, List.drop_left]
    dsimp only
    rw [if_pos h0.symm]
    exact (beforeLastQuote_iff _ b).2 ⟨last, rest, rfl, h1, h2, h3⟩

theorem findBoundary_iff (s b : PyStr) : findBoundary s = some b ↔ BoundaryIn s b := by
  have hd : ∀ i b, boundaryHere (s.drop i) = some b ↔ BoundaryAt s i b := by
    intro i b
    rw [boundaryHere_iff]
    unfold BoundaryAt
    rw [List.drop_zero]
  rw [search_iff (f := boundaryHere) (g := findBoundary) rfl (by decide +kernel) (fun c cs => by rw [findBoundary]; unfold boundaryHere; rfl) b s]
  unfold BoundaryIn
  constructor
  · rintro ⟨i, h1, h2⟩
    exact ⟨i, (hd i b).1 h1, fun j hj b' hb => by have := (hd j b').2 hb; rw [h2 j hj] at this; cases this⟩
  · rintro ⟨i, h1, h2⟩
    refine ⟨i, (hd i b).2 h1, fun j hj => ?_⟩
    cases hb : boundaryHere (s.drop j) with
    | none => rfl
    | some b' => exact absurd ((hd j b').1 hb) (h2 j hj b')

/-- C104, partial: the boundary of a content type is the text in quotes of its first boundary parameter, if no quotes follow it. Missing: parameters that follow
(`C104_boundary_false`), and values without quotes, for which there is no boundary. -/
theorem C104_boundary_partial (contentType boundary : PyStr) : (findBoundary contentType = some boundary ↔ BoundaryIn contentType boundary) ∧
    ∀ before value after : PyStr, contentType = before ++ "boundary=\"".toList ++ value ++ '"' :: after →
      (∀ j b, j < before.length → ¬ BoundaryAt contentType j b) → '\n' ∉ value → (∀ c ∈ after, ¬ isQuote c) → findBoundary contentType = some value := by
  refine ⟨findBoundary_iff _ _, ?_⟩
  rintro before value after rfl h1 h2 h3
  refine (findBoundary_iff _ _).2 ⟨before.length, ⟨'"', '"', after, ?_, .inl rfl, .inl rfl, h2, fun c hc => h3 c ((List.takeWhile_prefix _).subset hc)⟩, fun j hj b => h1 j b hj⟩
  rw [List.append_assoc, List.append_assoc, List.drop_left]
  rfl

/-- The header of Windows servers. -/
example : findBoundary "multipart/encrypted;protocol=\"application/HTTP-SPNEGO-session-encrypted\";boundary=\"Encrypted Boundary\"".toList =
    some "Encrypted Boundary".toList := by
  refine (C104_boundary_partial _ []).2 "multipart/encrypted;protocol=\"application/HTTP-SPNEGO-session-encrypted\";".toList _ [] (by decide +kernel) ?_ (by decide +kernel) (by simp)
  intro j b hj hb
  have : boundaryHere ("multipart/encrypted;protocol=\"application/HTTP-SPNEGO-session-encrypted\";boundary=\"Encrypted Boundary\"".toList.drop j) = some b := by
    rw [boundaryHere_iff]; unfold BoundaryAt at hb ⊢; rw [List.drop_zero]; exact hb
  have hall : ∀ j < "multipart/encrypted;protocol=\"application/HTTP-SPNEGO-session-encrypted\";".toList.length,
      boundaryHere ("multipart/encrypted;protocol=\"application/HTTP-SPNEGO-session-encrypted\";boundary=\"Encrypted Boundary\"".toList.drop j) = none := by decide +kernel
  rw [hall j hj] at this
  cases this

/-- C104 is false of the code: a parameter after the boundary is read as a part of it, and a boundary without quotes is not found. -/
theorem C104_boundary_false :
    findBoundary ("multipart/encrypted;".toList ++ parameter "boundary" "A" ++ ";".toList ++ parameter "charset" "UTF-8") = some "A\";charset=\"UTF-8".toList ∧
    findBoundary "multipart/encrypted;boundary=A".toList = none := by
  decide +kernel

end Verif
