import Verif.Lemmas.Utils
/-
C24, C25: version comparison and bundled scripts.
-/
namespace Verif

/-- C24. On dotted decimal versions the comparison never fails and is the numeric component-wise order. -/
theorem C24_numeric_order (v r : PyStr) (a b : List Nat) (hv : Dotted v a) (hr : Dotted r b) :
    ∃ res, versionEqualOrNewer v r = .ok res ∧ (res = true ↔ VersionGe a b) :=
  version_dotted hv hr

/-- C24. Reflexive. -/
theorem C24_reflexive (v : PyStr) (a : List Nat) (hv : Dotted v a) : versionEqualOrNewer v v = .ok true := by
  obtain ⟨res, h, hiff⟩ := version_dotted hv hv
  rw [h, hiff.mpr (versionGe_refl a)]

/-- C24. Transitive. -/
theorem C24_transitive (u v w : PyStr) (a b c : List Nat) (hu : Dotted u a) (hv : Dotted v b) (hw : Dotted w c)
    (h1 : versionEqualOrNewer u v = .ok true) (h2 : versionEqualOrNewer v w = .ok true) :
    versionEqualOrNewer u w = .ok true := by
  obtain ⟨r1, e1, i1⟩ := version_dotted hu hv
  obtain ⟨r2, e2, i2⟩ := version_dotted hv hw
  obtain ⟨r3, e3, i3⟩ := version_dotted hu hw
  rw [e1] at h1
  rw [e2] at h2
  simp only [Except.ok.injEq] at h1 h2
  rw [e3, i3.mpr (versionGe_trans (i1.mp h1) (i2.mp h2))]

/-- C24. Total. -/
theorem C24_total (u v : PyStr) (a b : List Nat) (hu : Dotted u a) (hv : Dotted v b) :
    versionEqualOrNewer u v = .ok true ∨ versionEqualOrNewer v u = .ok true := by
  obtain ⟨r1, e1, i1⟩ := version_dotted hu hv
  obtain ⟨r2, e2, i2⟩ := version_dotted hv hu
  rcases versionGe_total a b with h | h
  · left; rw [e1, i1.mpr h]
  · right; rw [e2, i2.mpr h]

/-- C24. Antisymmetric up to trailing zero components. -/
theorem C24_antisymmetric (u v : PyStr) (a b : List Nat) (hu : Dotted u a) (hv : Dotted v b)
    (h1 : versionEqualOrNewer u v = .ok true) (h2 : versionEqualOrNewer v u = .ok true) :
    ∀ i, component a i = component b i := by
  obtain ⟨r1, e1, i1⟩ := version_dotted hu hv
  obtain ⟨r2, e2, i2⟩ := version_dotted hv hu
  rw [e1] at h1
  rw [e2] at h2
  simp only [Except.ok.injEq] at h1 h2
  exact versionGe_antisymm (i1.mp h1) (i2.mp h2)

/-- C24. The empty string, used by the library when no protocol version is known yet, is not a version. -/
theorem C24_empty_rejected (r : PyStr) (b : List Nat) (hr : Dotted r b) :
    versionEqualOrNewer [] r = .error .valueError := by
  obtain ⟨rp, hrne, rfl, hrd, rfl⟩ := hr
  unfold versionEqualOrNewer
  rw [← joinWith_intercalate, splitChar_join hrne (fun p hp hm => digit_ne_dot ((hrd p hp).2 _ hm) rfl)]
  cases rp with
  | nil => exact absurd rfl hrne
  | cons p ps =>
    have hp := pyInt_decimal (hrd p (by simp))
    simp [splitChar, padZero, versionLoop, hp, bind, Except.bind]
    rfl

example : Dotted "2.10".toList [2, 10] :=
  ⟨["2".toList, "10".toList], by decide, by decide, by
    intro p hp
    simp only [List.mem_cons, List.not_mem_nil, or_false] at hp
    rcases hp with rfl | rfl <;> exact ⟨by decide, by decide⟩, by decide⟩
example : versionEqualOrNewer "2.10".toList "2.9.1".toList = .ok true := by decide
example : versionEqualOrNewer "2.1".toList "2.2".toList = .ok false := by decide
example : versionEqualOrNewer "2.2".toList "2.2.0".toList = .ok true := by decide

/-- C25, partial: the text returned is the code lines in order, for every script in which no line is a block comment
that opens and closes on the same line. Missing: such lines, where the claim is false. -/
theorem C25_code_lines_partial {script : PyStr} {ts : List PyStr} (ht : TrimmedLines script ts)
    (h : ∀ t ∈ ts, ¬ (['<', '#'] <+: t ∧ ['#', '>'] <:+ t)) :
    getPwshScript script = ['\n'].intercalate (codeLines ts) := by
  have hs := trimmed_split ht
  unfold getPwshScript codeLines
  rw [joinWith_intercalate, ← hs, codeLines_go_of_le _ _ (by simp)]
  intro l hl
  have := h (pyStrip l) (by rw [← hs]; exact List.mem_map_of_mem hl)
  simpa using this

/-- C25: every script has its lines, and only these. -/
theorem C25_lines (script : PyStr) : ∃ ts, TrimmedLines script ts ∧ ∀ ts', TrimmedLines script ts' → ts' = ts := by
  obtain ⟨ts, h⟩ := trimmed_exist script
  exact ⟨ts, h, fun ts' h' => by rw [← trimmed_split h, ← trimmed_split h']⟩

/-- C25 in general is false: after a one-line block comment the code that follows is dropped. -/
theorem C25_one_line_block_false :
    ∃ (script : PyStr) (ts : List PyStr), TrimmedLines script ts ∧ getPwshScript script = [] ∧
      ['\n'].intercalate (codeLines ts) = "Get-Item".toList := by
  obtain ⟨ts, h⟩ := trimmed_exist "<# note #>\nGet-Item\n".toList
  refine ⟨_, ts, h, by decide, ?_⟩
  rw [← trimmed_split h]
  decide

/-- C25. For every script: each line returned is the trimmed form of some line of the script, is not empty and does
not start with `#`. -/
theorem C25_only_code {script : PyStr} {ts : List PyStr} (ht : TrimmedLines script ts) :
    ∃ ls : List PyStr, getPwshScript script = ['\n'].intercalate ls ∧ List.Sublist ls ts ∧
      ∀ l ∈ ls, l ≠ [] ∧ ¬ ['#'] <+: l ∧ ¬ ['<', '#'] <+: l := by
  refine ⟨scriptLoop false (pySplitLines script), by rw [← joinWith_intercalate]; rfl, ?_⟩
  rw [← trimmed_split ht]
  simp only [← List.isPrefixOf_iff_prefix]
  generalize pySplitLines script = ls
  generalize false = b
  induction ls generalizing b with
  | nil => simp [scriptLoop]
  | cons l ls ih =>
    rw [scriptLoop, List.map_cons]
    split
    · exact ⟨(ih _).1.cons _, (ih _).2⟩
    · split
      · exact ⟨(ih _).1.cons _, (ih _).2⟩
      · rename_i hp
        split
        · rename_i hq
          refine ⟨(ih _).1.cons_cons _, ?_⟩
          intro m hm
          simp only [List.mem_cons] at hm
          rcases hm with rfl | hm
          · exact ⟨hq.1, hq.2, hp⟩
          · exact (ih _).2 m hm
        · exact ⟨(ih _).1.cons _, (ih _).2⟩

example : getPwshScript "# head\r\nbegin {\n  <#\n  text\n  #>\n\n  $a = 1 # x\n}".toList =
    "begin {\n$a = 1 # x\n}".toList := by decide
example : ∃ ts, TrimmedLines "# head\r\nbegin {\n  <#\n  text\n  #>\n\n  $a = 1 # x\n}".toList ts ∧
    ∀ t ∈ ts, ¬ (['<', '#'] <+: t ∧ ['#', '>'] <:+ t) := by
  obtain ⟨ts, h, -⟩ := C25_lines "# head\r\nbegin {\n  <#\n  text\n  #>\n\n  $a = 1 # x\n}".toList
  refine ⟨ts, h, ?_⟩
  rw [← trimmed_split h]
  decide

end Verif
