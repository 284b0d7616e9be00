import Verif.Model.Clixml
import Verif.Props.Strings
/-
C73: sanitise_clixml.
-/
namespace Verif

/-- The error records of a CLIXML document with this namespace, in order. -/
def errorElems (ns : PyStr) (root : Elem) : List Elem :=
  root.kids.filter fun e => e.tag = '{' :: (ns ++ "}S".toList) ∧ e.attr "S".toList = some "Error".toList

/-- At no place does one line end with an underscore and the text go on with an x. -/
def Separate (lines : List PyStr) : Prop :=
  ∀ a b, lines = a ++ b → ¬ (a.flatten.getLast? = some '_' ∧ (b.flatten.head? = some 'x' ∨ b.flatten.head? = some 'X'))

theorem serialize_append (s t : PyStr) (h : ¬ (s.getLast? = some '_' ∧ (t.head? = some 'x' ∨ t.head? = some 'X'))) :
    serializeString (s ++ t) = serializeString s ++ serializeString t := by
  induction s with
  | nil => simp [serialize_nil]
  | cons c cs ih =>
    rw [List.cons_append, serialize_cons, serialize_cons]
    cases cs with
    | nil =>
      simp only [List.nil_append, serialize_nil, List.append_nil, List.head?_nil]
      congr 1
      rw [escapedChar_eq, escapedChar_eq]
      by_cases hc : c = '_'
      · subst hc
        have : ¬ (t.head? = some 'x' ∨ t.head? = some 'X') := fun hx => h ⟨rfl, hx⟩
        simp [this]
      · simp [hc]
    | cons d ds =>
      rw [ih (by rwa [List.getLast?_cons_cons] at h)]
      simp

theorem serialize_lines (lines : List PyStr) (h : Separate lines) :
    (lines.map serializeString).flatten = serializeString lines.flatten := by
  induction lines with
  | nil => rfl
  | cons l ls ih =>
    rw [List.map_cons, List.flatten_cons, List.flatten_cons, serialize_append l ls.flatten, ih]
    · intro a b hab hn
      refine h (l :: a) b (by rw [hab]; rfl) ⟨?_, hn.2⟩
      rw [List.flatten_cons, List.getLast?_append, hn.1]; rfl
    · have := h [l] ls rfl
      simpa using this

theorem removeText_clean (p rest : PyStr) (hp : 'O' ∉ p) : removeText "Objs".toList (by decide) (p ++ rest) = p ++ removeText "Objs".toList (by decide) rest := by
  induction p with
  | nil => rfl
  | cons c cs ih =>
    rw [List.cons_append, removeText]
    have hc : 'O' ≠ c := fun h => hp (h ▸ List.mem_cons_self)
    have : ("Objs".toList).isPrefixOf (c :: (cs ++ rest)) = false := by
      show List.isPrefixOf ['O', 'b', 'j', 's'] _ = false
      simp [List.isPrefixOf, hc]
    rw [dif_neg (by rw [this]; simp)]
    exact congrArg (c :: ·) (ih fun h => hp (List.mem_cons_of_mem _ h))

theorem namespace_of (ns : PyStr) (h : 'O' ∉ ns) : clixmlNamespace ('{' :: (ns ++ "}Objs".toList)) = ns := by
  have : '{' :: (ns ++ "}Objs".toList) = ('{' :: (ns ++ ['}'])) ++ "Objs".toList := by simp
  unfold clixmlNamespace
  rw [this, removeText_clean _ _ (by simp [h])]
  have : removeText "Objs".toList (by decide) "Objs".toList = [] := by decide +kernel
  rw [this]
  simp

theorem sanitise_document (parse : PyStr → Except PyErr Elem) (gap doc : PyStr) (root : Elem) (hg : '<' ∉ gap) (hp : parse ('<' :: doc) = .ok root) :
    sanitiseClixml parse ("#< CLIXML".toList ++ gap ++ '<' :: doc) =
      deserializeString (some (clixmlErrors (clixmlNamespace root.tag) root).flatten) := by
  unfold sanitiseClixml
  rw [if_pos (by rw [List.isPrefixOf_iff_prefix, List.append_assoc]; exact List.prefix_append _ _)]
  have hd : (("#< CLIXML".toList ++ gap ++ '<' :: doc).drop 2).dropWhile (· ≠ '<') = '<' :: doc := by
    show ((" CLIXML".toList ++ gap) ++ '<' :: doc).dropWhile (· ≠ '<') = '<' :: doc
    rw [List.dropWhile_append_of_pos]
    · simp
    · intro c hc
      have : c ≠ '<' := by
        rintro rfl
        rcases List.mem_append.1 hc with h | h
        · exact absurd h (by decide)
        · exact hg h
      simpa using this
  rw [hd]
  show (do let e ← parse ('<' :: doc); deserializeString (some (clixmlErrors (clixmlNamespace e.tag) e).flatten)) = _
  rw [hp]; rfl

/-- C73: a text without the mark of CLIXML is returned as it is. -/
theorem C73_plain (parse : PyStr → Except PyErr Elem) (s : PyStr) (h : ¬ "#< CLIXML".toList <+: s) : sanitiseClixml parse s = .ok s := by
  unfold sanitiseClixml
  rw [if_neg (by rwa [List.isPrefixOf_iff_prefix])]

example : ¬ "#< CLIXML".toList <+: "<S>#< CLIXML".toList := by decide +kernel

/-- C73, partial: for every document whose error records are the escaped lines of a text, in any number and with any other records between
them, the text comes back. Missing: lines where an escape is only made by joining them (`C73_joined_false`), and texts with the
pattern of C13. -/
theorem C73_lines_partial (parse : PyStr → Except PyErr Elem) (gap doc ns : PyStr) (root : Elem) (lines : List PyStr) (hg : '<' ∉ gap)
    (hp : parse ('<' :: doc) = .ok root) (ht : root.tag = '{' :: (ns ++ "}Objs".toList)) (hn : 'O' ∉ ns)
    (hl : (errorElems ns root).map (fun e => e.text.getD []) = lines.map serializeString) (hj : Separate lines)
    (hs : ¬ HasShiftedPattern lines.flatten) :
    sanitiseClixml parse ("#< CLIXML".toList ++ gap ++ '<' :: doc) = .ok lines.flatten := by
  rw [sanitise_document parse gap doc root hg hp, ht, namespace_of ns hn]
  have : clixmlErrors ns root = lines.map serializeString := hl
  rw [this, serialize_lines lines hj, C13_roundtrip_partial _ hs]

/-- C73: an error of the parser is raised, and so is a mark without a document. -/
theorem C73_malformed (parse : PyStr → Except PyErr Elem) (gap : PyStr) (hg : '<' ∉ gap) :
    sanitiseClixml parse ("#< CLIXML".toList ++ gap) = .error .valueError ∧
    ∀ doc e, parse ('<' :: doc) = .error e → sanitiseClixml parse ("#< CLIXML".toList ++ gap ++ '<' :: doc) = .error e := by
  have hc : ∀ c ∈ " CLIXML".toList ++ gap, decide (c ≠ '<') = true := by
    intro c hc
    have : c ≠ '<' := by
      rintro rfl
      rcases List.mem_append.1 hc with h | h
      · exact absurd h (by decide)
      · exact hg h
    simpa using this
  refine ⟨?_, fun doc e he => ?_⟩
  · unfold sanitiseClixml
    rw [if_pos (by rw [List.isPrefixOf_iff_prefix]; exact List.prefix_append _ _)]
    have hd : (("#< CLIXML".toList ++ gap).drop 2).dropWhile (· ≠ '<') = [] := by
      show (" CLIXML".toList ++ gap).dropWhile (· ≠ '<') = []
      have := List.dropWhile_append_of_pos (l₂ := []) hc
      simpa using this
    rw [hd]
  · unfold sanitiseClixml
    rw [if_pos (by rw [List.isPrefixOf_iff_prefix, List.append_assoc]; exact List.prefix_append _ _)]
    have hd : (("#< CLIXML".toList ++ gap ++ '<' :: doc).drop 2).dropWhile (· ≠ '<') = '<' :: doc := by
      show ((" CLIXML".toList ++ gap) ++ '<' :: doc).dropWhile (· ≠ '<') = '<' :: doc
      rw [List.dropWhile_append_of_pos hc]
      simp
    rw [hd]
    show (do let e ← parse ('<' :: doc); deserializeString (some (clixmlErrors (clixmlNamespace e.tag) e).flatten)) = _
    rw [he]; rfl

/-- A document for the examples. -/
def demoClixml (records : List (String × String)) : Elem :=
  .node "{u}Objs".toList [] none (records.map fun r => .node "{u}S".toList [("S".toList, r.1.toList)] (some r.2.toList) [])

example : sanitiseClixml (fun _ => .ok (demoClixml [("Error", "a_x000D_"), ("Verbose", "b"), ("Error", "_x005F_x")])) "#< CLIXML\r\n<x".toList =
    .ok "a\r_x".toList := by decide +kernel

/-- The hypotheses of the theorem are met by this document. -/
example : (errorElems ['u'] (demoClixml [("Error", "a_x000D_"), ("Verbose", "b"), ("Error", "_x005F_x")])).map (fun e => e.text.getD []) =
    ["a\r".toList, "_x".toList].map serializeString := by decide +kernel

/-- C73 is false of the code: the lines are joined before they are decoded, so that a line that ends with an underscore and one that goes
on with an x and four digits become an escape. -/
theorem C73_joined_false : ∃ (root : Elem) (lines : List PyStr), (errorElems ['u'] root).map (fun e => e.text.getD []) = lines.map serializeString ∧
    sanitiseClixml (fun _ => .ok root) "#< CLIXML\r\n<x".toList ≠ .ok lines.flatten :=
  ⟨demoClixml [("Error", "a_"), ("Error", "x0041_")], ["a_".toList, "x0041_".toList], by decide +kernel⟩

end Verif
