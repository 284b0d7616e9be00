import Verif.Spec.XmlRead
/-
Reading what was printed.
-/
namespace Verif

theorem afterText_append (p r : PyStr) : afterText p (p ++ r) = some r := by
  rw [afterText, if_pos (List.prefix_append p r), List.drop_left]

theorem afterText_cons {a b : Char} (h : a ≠ b) (p r : PyStr) : afterText (a :: p) (b :: r) = none := by
  rw [afterText, if_neg]
  rw [List.cons_prefix_cons]
  exact fun hh => h hh.1

theorem span_stop {p : Char → Bool} {a r : PyStr} {d : Char} (ha : ∀ c ∈ a, p c = true) (hd : p d = false) :
    (a ++ d :: r).takeWhile p = a ∧ (a ++ d :: r).dropWhile p = d :: r := by
  induction a with
  | nil => exact ⟨by rw [List.nil_append, List.takeWhile_cons_of_neg (by simp [hd])], by rw [List.nil_append, List.dropWhile_cons_of_neg (by simp [hd])]⟩
  | cons c a ih =>
    have hc := ha c (List.mem_cons_self ..)
    obtain ⟨h1, h2⟩ := ih fun x hx => ha x (List.mem_cons_of_mem _ hx)
    exact ⟨by rw [List.cons_append, List.takeWhile_cons_of_pos hc, h1], by rw [List.cons_append, List.dropWhile_cons_of_pos hc, h2]⟩

/-! ### Texts -/

theorem expand_plain {f : Char → Char} {c : Char} (h1 : c ≠ '&') (h2 : legalXmlChar c = true) (s : PyStr) :
    expand f none (c :: s) = (expand f none s).map (f c :: ·) := by
  rw [expand, if_neg h1, if_pos h2]

theorem expand_amp (f : Char → Char) (s : PyStr) : expand f none ("&amp;".toList ++ s) = (expand f none s).map ('&' :: ·) := rfl
theorem expand_lt (f : Char → Char) (s : PyStr) : expand f none ("&lt;".toList ++ s) = (expand f none s).map ('<' :: ·) := rfl
theorem expand_gt (f : Char → Char) (s : PyStr) : expand f none ("&gt;".toList ++ s) = (expand f none s).map ('>' :: ·) := rfl
theorem expand_quot (f : Char → Char) (s : PyStr) : expand f none ("&quot;".toList ++ s) = (expand f none s).map ('"' :: ·) := rfl
theorem expand_cr (f : Char → Char) (s : PyStr) : expand f none ("&#13;".toList ++ s) = (expand f none s).map ('\r' :: ·) := rfl
theorem expand_lf (f : Char → Char) (s : PyStr) : expand f none ("&#10;".toList ++ s) = (expand f none s).map ('\n' :: ·) := rfl
theorem expand_tab (f : Char → Char) (s : PyStr) : expand f none ("&#09;".toList ++ s) = (expand f none s).map ('\t' :: ·) := rfl

theorem escapeText_cons (c : Char) (t : PyStr) : escapeText (c :: t) = escapeTextChar c ++ escapeText t := rfl
theorem escapeAttr_cons (c : Char) (t : PyStr) : escapeAttr (c :: t) = escapeAttrChar c ++ escapeAttr t := rfl

theorem expand_text {t : PyStr} (h : ∀ c ∈ t, legalXmlChar c = true) : expandText (escapeText t) = some t := by
  unfold expandText
  induction t with
  | nil => rfl
  | cons c t ih =>
    have ih := ih fun x hx => h x (List.mem_cons_of_mem _ hx)
    rw [escapeText_cons, escapeTextChar]
    by_cases h1 : c = '&'
    · rw [if_pos h1, expand_amp, ih, h1]; rfl
    · by_cases h2 : c = '<'
      · rw [if_neg h1, if_pos h2, expand_lt, ih, h2]; rfl
      · by_cases h3 : c = '>'
        · rw [if_neg h1, if_neg h2, if_pos h3, expand_gt, ih, h3]; rfl
        · rw [if_neg h1, if_neg h2, if_neg h3, List.singleton_append, expand_plain h1 (h c (List.mem_cons_self ..)), ih]; rfl

theorem text_chars {t : PyStr} {x : Char} (hx : x ∈ escapeText t) : x ≠ '<' ∧ (x = '\r' → '\r' ∈ t) := by
  unfold escapeText at hx
  obtain ⟨c, hc, hx⟩ := List.mem_flatMap.1 hx
  unfold escapeTextChar at hx
  split at hx
  · have : ∀ y ∈ "&amp;".toList, y ≠ '<' ∧ y ≠ '\r' := by decide
    exact ⟨(this x hx).1, fun e => absurd e (this x hx).2⟩
  · split at hx
    · have : ∀ y ∈ "&lt;".toList, y ≠ '<' ∧ y ≠ '\r' := by decide
      exact ⟨(this x hx).1, fun e => absurd e (this x hx).2⟩
    · split at hx
      · have : ∀ y ∈ "&gt;".toList, y ≠ '<' ∧ y ≠ '\r' := by decide
        exact ⟨(this x hx).1, fun e => absurd e (this x hx).2⟩
      · rw [List.mem_singleton] at hx
        subst hx
        exact ⟨by assumption, fun e => e ▸ hc⟩

theorem attr_chars {t : PyStr} {x : Char} (hx : x ∈ escapeAttr t) : x ≠ '<' ∧ x ≠ '"' ∧ x ≠ '\r' := by
  unfold escapeAttr at hx
  obtain ⟨c, hc, hy⟩ := List.mem_flatMap.1 hx
  clear hx
  unfold escapeAttrChar at hy
  split at hy
  · revert x; decide
  · split at hy
    · revert x; decide
    · split at hy
      · revert x; decide
      · split at hy
        · revert x; decide
        · split at hy
          · revert x; decide
          · split at hy
            · revert x; decide
            · split at hy
              · revert x; decide
              · rw [List.mem_singleton] at hy
                subst hy
                exact ⟨by assumption, by assumption, by assumption⟩

theorem expand_value {t : PyStr} (h : ∀ c ∈ t, legalXmlChar c = true) : expandValue (escapeAttr t) = some t := by
  rw [expandValue, if_neg (fun hc => (attr_chars hc).1 rfl)]
  induction t with
  | nil => rfl
  | cons c t ih =>
    have ih := ih fun x hx => h x (List.mem_cons_of_mem _ hx)
    rw [escapeAttr_cons, escapeAttrChar]
    by_cases h1 : c = '&'
    · rw [if_pos h1, expand_amp, ih, h1]; rfl
    · rw [if_neg h1]
      by_cases h2 : c = '<'
      · rw [if_pos h2, expand_lt, ih, h2]; rfl
      · rw [if_neg h2]
        by_cases h3 : c = '>'
        · rw [if_pos h3, expand_gt, ih, h3]; rfl
        · rw [if_neg h3]
          by_cases h4 : c = '"'
          · rw [if_pos h4, expand_quot, ih, h4]; rfl
          · rw [if_neg h4]
            by_cases h5 : c = '\r'
            · rw [if_pos h5, expand_cr, ih, h5]; rfl
            · rw [if_neg h5]
              by_cases h6 : c = '\n'
              · rw [if_pos h6, expand_lf, ih, h6]; rfl
              · rw [if_neg h6]
                by_cases h7 : c = '\t'
                · rw [if_pos h7, expand_tab, ih, h7]; rfl
                · rw [if_neg h7, List.singleton_append, expand_plain h1 (h c (List.mem_cons_self ..)), ih, if_neg (by simp [h5, h6, h7])]; rfl

/-! ### Tags -/

theorem readAttrs_end (n : Nat) (r : PyStr) : readAttrs (n + 1) ('>' :: r) = some ([], false, r) := by
  have h : afterText ">".toList ('>' :: r) = some r := afterText_append ['>'] r
  rw [readAttrs, h]

theorem readAttrs_short (n : Nat) (r : PyStr) : readAttrs (n + 1) (" />".toList ++ r) = some ([], true, r) := by
  have h : afterText ">".toList (" />".toList ++ r) = none := afterText_cons (by decide) _ _
  rw [readAttrs, h, afterText_append]
  rfl

theorem readAttrs_cons {a : PyStr × PyStr} (h1 : GoodName a.1) (h2 : ∀ c ∈ a.2, legalXmlChar c = true) (n : Nat) (r : PyStr) :
    readAttrs (n + 1) (printAttr a ++ r) = (readAttrs n r).bind fun x =>
      if a.1 ∈ x.1.map (·.1) then none else some (a :: x.1, x.2.1, x.2.2) := by
  obtain ⟨name, value⟩ := a
  obtain ⟨hne, hall⟩ := h1
  obtain ⟨c, cs, rfl⟩ := List.exists_cons_of_ne_nil hne
  have hc := hall c (List.mem_cons_self ..)
  have e : printAttr (c :: cs, value) ++ r = ' ' :: ((c :: cs) ++ '=' :: '"' :: (escapeAttr value ++ '"' :: r)) := by
    simp [printAttr]
  have k1 : afterText ">".toList (' ' :: ((c :: cs) ++ '=' :: '"' :: (escapeAttr value ++ '"' :: r))) = none := afterText_cons (by decide) _ _
  have k2 : afterText " />".toList (' ' :: ((c :: cs) ++ '=' :: '"' :: (escapeAttr value ++ '"' :: r))) = none := by
    rw [afterText, if_neg]
    intro hp
    rw [show " />".toList = [' ', '/', '>'] from rfl, List.cons_prefix_cons, List.cons_append, List.cons_prefix_cons] at hp
    obtain ⟨_, rfl, _⟩ := hp
    revert hc; decide
  have k3 : afterText " ".toList (' ' :: ((c :: cs) ++ '=' :: '"' :: (escapeAttr value ++ '"' :: r))) =
      some ((c :: cs) ++ '=' :: '"' :: (escapeAttr value ++ '"' :: r)) := afterText_append [' '] _
  obtain ⟨t1, t2⟩ := span_stop (r := '"' :: (escapeAttr value ++ '"' :: r)) hall (show nameChar '=' = false by decide)
  have k4 : afterText "=\"".toList ('=' :: '"' :: (escapeAttr value ++ '"' :: r)) = some (escapeAttr value ++ '"' :: r) :=
    afterText_append ['=', '"'] _
  obtain ⟨t3, t4⟩ := span_stop (p := fun x => decide (x ≠ '"')) (a := escapeAttr value) (r := r) (d := '"')
    (fun x hx => by rw [decide_eq_true_eq]; exact (attr_chars hx).2.1) (by decide)
  have k5 : afterText "\"".toList ('"' :: r) = some r := afterText_append ['"'] r
  have k6 : afterText "/>".toList (' ' :: ((c :: cs) ++ '=' :: '"' :: (escapeAttr value ++ '"' :: r))) = none := afterText_cons (by decide) _ _
  rw [e, readAttrs, k1, k2, k6, k3, Option.or_none]
  simp only [bind, Option.bind, t1, t2, if_neg hne, k4, t3, t4, expand_value h2, k5]

theorem readAttrs_print {as : List (PyStr × PyStr)} (hd : (as.map (·.1)).Nodup)
    (h : ∀ a ∈ as, GoodName a.1 ∧ ∀ c ∈ a.2, legalXmlChar c = true) (n : Nat) (r r' : PyStr) (short : Bool)
    (hr : ∀ m, readAttrs (m + 1) r = some ([], short, r')) :
    readAttrs (as.length + n + 1) (printAttrs as ++ r) = some (as, short, r') := by
  induction as with
  | nil => rw [List.length_nil, Nat.zero_add]; exact hr n
  | cons a as ih =>
    rw [List.map_cons, List.nodup_cons] at hd
    have ha := h a (List.mem_cons_self ..)
    have e : printAttrs (a :: as) ++ r = printAttr a ++ (printAttrs as ++ r) := by
      show (printAttr a ++ printAttrs as) ++ r = _
      rw [List.append_assoc]
    rw [e, show (a :: as).length + n + 1 = (as.length + n + 1) + 1 by rw [List.length_cons]; omega, readAttrs_cons ha.1 ha.2,
      ih hd.2 fun x hx => h x (List.mem_cons_of_mem _ hx)]
    simp only [Option.bind, if_neg hd.1]

/-! ### Elements -/

mutual
/-- The depth of the recursion of the reader. -/
def Elem.weight : Elem → Nat
  | .node _ _ _ kids => 1 + weightKids kids

def weightKids : List Elem → Nat
  | [] => 1
  | k :: ks => 1 + k.weight + weightKids ks
end

theorem attrs_length (as : List (PyStr × PyStr)) : as.length ≤ (printAttrs as).length := by
  induction as with
  | nil => exact Nat.le_refl _
  | cons a as ih =>
    have e : printAttrs (a :: as) = printAttr a ++ printAttrs as := rfl
    rw [e, List.length_append, List.length_cons]
    have : 1 ≤ (printAttr a).length := by rw [printAttr, List.length_cons]; omega
    omega

mutual
theorem weight_le : ∀ e : Elem, e.weight + 1 ≤ e.print.length
  | .node tag attrs text kids => by
    have hk := weightKids_le kids
    rw [Elem.weight, Elem.print]
    by_cases hc : hasContent text kids = true
    · rw [if_pos hc]
      simp only [List.length_cons, List.length_append]
      omega
    · rw [if_neg hc]
      have : kids = [] := by
        cases kids with
        | nil => rfl
        | cons k ks => simp [hasContent] at hc
      subst this
      simp only [List.length_cons, List.length_append, weightKids]
      have : " />".toList.length = 3 := by decide
      omega

theorem weightKids_le : ∀ ks : List Elem, weightKids ks ≤ 1 + (printKids ks).length
  | [] => by simp [weightKids]
  | k :: ks => by
    have h1 := weight_le k
    have h2 := weightKids_le ks
    rw [weightKids, printKids, List.length_append]
    omega
end

theorem hasContent_false {text : Option PyStr} {kids : List Elem} (h : ¬ hasContent text kids = true) : text.getD [] = [] ∧ kids = [] := by
  simp only [hasContent, Bool.or_eq_true, Bool.not_eq_true', not_or, Bool.not_eq_false, List.isEmpty_iff] at h
  exact h

mutual
theorem read_elem : ∀ (e : Elem), e.Readable → ∀ (n : Nat) (r : PyStr), readElem (e.weight + n) (e.print ++ r) = some (e.normal, r)
  | .node tag attrs text kids, h, n, r => by
    obtain ⟨⟨hne, ht⟩, hnd, ha, hx, hk⟩ := h
    have hlen := attrs_length attrs
    rw [Elem.weight, Elem.print, show 1 + weightKids kids + n = (weightKids kids + n) + 1 by omega, readElem, Elem.normal]
    have k0 : ∀ s : PyStr, afterText "<".toList ('<' :: s) = some s := fun s => afterText_append ['<'] s
    by_cases hc : hasContent text kids = true
    · rw [if_pos hc]
      have e1 : '<' :: (tag ++ printAttrs attrs ++ '>' :: (escapeText (text.getD []) ++ printKids kids ++ '<' :: '/' :: (tag ++ ['>']))) ++ r =
          '<' :: (tag ++ (printAttrs attrs ++ '>' :: (escapeText (text.getD []) ++ (printKids kids ++ ("</".toList ++ (tag ++ (">".toList ++ r))))))) := by
        simp
      rw [e1, k0]
      generalize hrest : printKids kids ++ ("</".toList ++ (tag ++ (">".toList ++ r))) = rest
      have hhead : ∃ r', rest = '<' :: r' := by
        rw [← hrest]
        cases kids with
        | nil => exact ⟨_, rfl⟩
        | cons k ks => cases k with | node a b c d => exact ⟨_, by rw [printKids, Elem.print]; rfl⟩
      have hkr : readKids (weightKids kids + n) rest = some (normalKids kids, "</".toList ++ (tag ++ (">".toList ++ r))) := by
        rw [← hrest]
        exact read_kids kids hk n (tag ++ (">".toList ++ r))
      obtain ⟨r', rfl⟩ := hhead
      have hat : ∀ s : PyStr, ∃ d s', printAttrs attrs ++ '>' :: s = d :: s' ∧ nameChar d = false := by
        intro s
        cases attrs with
        | nil => exact ⟨'>', s, rfl, by decide⟩
        | cons a as => exact ⟨' ', _, rfl, by decide⟩
      obtain ⟨d, s', hds, hd⟩ := hat (escapeText (text.getD []) ++ '<' :: r')
      obtain ⟨t1, t2⟩ := span_stop (r := s') ht hd
      rw [hds]
      simp only [bind, Option.bind, t1, t2, if_neg hne]
      have hra : readAttrs ((tag ++ d :: s').length + 1) (d :: s') = some (attrs, false, escapeText (text.getD []) ++ '<' :: r') := by
        rw [← hds]
        have hl : (tag ++ (printAttrs attrs ++ '>' :: (escapeText (text.getD []) ++ '<' :: r'))).length + 1 =
            attrs.length + ((tag ++ (printAttrs attrs ++ '>' :: (escapeText (text.getD []) ++ '<' :: r'))).length - attrs.length) + 1 := by
          simp only [List.length_append]; omega
        rw [hl]
        exact readAttrs_print hnd ha _ _ _ false fun m => readAttrs_end m _
      obtain ⟨t3, t4⟩ := span_stop (p := fun x => decide (x ≠ '<')) (a := escapeText (text.getD [])) (r := r') (d := '<')
        (fun x hx => by rw [decide_eq_true_eq]; exact (text_chars hx).1) (by decide)
      rw [hra]
      simp only [Bool.false_eq_true, if_false, t3, t4, expand_text (fun c hc => (hx c hc).1), hkr]
      have k5 : afterText ("</".toList ++ tag ++ ">".toList) ("</".toList ++ (tag ++ (">".toList ++ r))) = some r := by
        rw [← List.append_assoc, ← List.append_assoc]; exact afterText_append _ r
      rw [k5]
      rfl
    · rw [if_neg hc]
      obtain ⟨c1, rfl⟩ := hasContent_false hc
      have e1 : '<' :: (tag ++ printAttrs attrs ++ " />".toList) ++ r = '<' :: (tag ++ (printAttrs attrs ++ (" />".toList ++ r))) := by simp
      rw [e1, k0]
      have hat : ∃ d s', printAttrs attrs ++ (" />".toList ++ r) = d :: s' ∧ nameChar d = false := by
        cases attrs with
        | nil => exact ⟨' ', _, rfl, by decide⟩
        | cons a as => exact ⟨' ', _, rfl, by decide⟩
      obtain ⟨d, s', hds, hd⟩ := hat
      obtain ⟨t1, t2⟩ := span_stop (r := s') ht hd
      rw [hds]
      simp only [bind, Option.bind, t1, t2, if_neg hne]
      have hra : readAttrs ((tag ++ d :: s').length + 1) (d :: s') = some (attrs, true, r) := by
        rw [← hds]
        have hl : (tag ++ (printAttrs attrs ++ (" />".toList ++ r))).length + 1 =
            attrs.length + ((tag ++ (printAttrs attrs ++ (" />".toList ++ r))).length - attrs.length) + 1 := by
          simp only [List.length_append]; omega
        rw [hl]
        exact readAttrs_print hnd ha _ _ _ true fun m => readAttrs_short m _
      rw [hra]
      simp only [if_true, c1]
      rfl

theorem read_kids : ∀ (ks : List Elem), ReadableKids ks → ∀ (n : Nat) (r : PyStr),
    readKids (weightKids ks + n) (printKids ks ++ ("</".toList ++ r)) = some (normalKids ks, "</".toList ++ r)
  | [], _, n, r => by
    rw [weightKids, printKids, Nat.add_comm, readKids, List.nil_append, if_pos (List.prefix_append _ r), normalKids]
  | k :: ks, h, n, r => by
    rw [weightKids, printKids, show 1 + k.weight + weightKids ks + n = (k.weight + (weightKids ks + n)) + 1 by omega, readKids, if_neg]
    · rw [List.append_assoc, read_elem k h.1]
      simp only [bind, Option.bind]
      rw [show k.weight + (weightKids ks + n) = weightKids ks + (k.weight + n) by omega, read_kids ks h.2, normalKids]
      rfl
    · intro hp
      cases k with
      | node tag attrs text kids =>
        obtain ⟨⟨⟨hne, ht⟩, _⟩, _⟩ := h
        obtain ⟨c, cs, rfl⟩ := List.exists_cons_of_ne_nil hne
        have hc := ht c (List.mem_cons_self ..)
        rw [Elem.print, show "</".toList = ['<', '/'] from rfl] at hp
        simp only [List.cons_append, List.cons_prefix_cons] at hp
        obtain ⟨_, rfl, _⟩ := hp
        revert hc; decide
end

/-! ### Lines -/

theorem normaliseLines_id {s : PyStr} (h : '\r' ∉ s) : normaliseLines false s = s := by
  induction s with
  | nil => rfl
  | cons c s ih =>
    rw [List.mem_cons, not_or] at h
    rw [normaliseLines, if_neg (fun e => h.1 e.symm), Bool.and_false, if_neg (by decide), ih h.2]

theorem name_no_cr {s : PyStr} (h : GoodName s) : '\r' ∉ s := fun hc => by have := h.2 _ hc; revert this; decide

theorem attrs_no_cr {as : List (PyStr × PyStr)} (h : ∀ a ∈ as, GoodName a.1) : '\r' ∉ printAttrs as := by
  intro hc
  obtain ⟨a, ha, hc⟩ := List.mem_flatMap.1 hc
  simp only [printAttr, List.mem_cons, List.mem_append, List.not_mem_nil, or_false] at hc
  rcases hc with hc | hc | hc | hc | hc | hc
  · revert hc; decide
  · exact name_no_cr (h a ha) hc
  · revert hc; decide
  · revert hc; decide
  · exact (attr_chars hc).2.2 rfl
  · revert hc; decide

mutual
theorem print_no_cr : ∀ (e : Elem), e.Readable → '\r' ∉ e.print
  | .node tag attrs text kids, h => by
    obtain ⟨ht, _, ha, hx, hk⟩ := h
    intro hc
    have hks := kids_no_cr kids hk
    have hn := name_no_cr ht
    have has := attrs_no_cr fun a h => (ha a h).1
    have htx : '\r' ∉ escapeText (text.getD []) := fun h => (hx _ ((text_chars h).2 rfl)).2 rfl
    rw [Elem.print] at hc
    split at hc
    · simp only [List.mem_cons, List.mem_append, List.not_mem_nil, or_false, hks, hn, has, htx, false_or] at hc
      rcases hc with hc | hc | hc | hc | hc <;> (revert hc; decide)
    · simp only [List.mem_cons, List.mem_append, hn, has, false_or] at hc
      rcases hc with hc | hc <;> (revert hc; decide)

theorem kids_no_cr : ∀ (ks : List Elem), ReadableKids ks → '\r' ∉ printKids ks
  | [], _ => by rw [printKids]; exact List.not_mem_nil
  | k :: ks, h => by
    rw [printKids, List.mem_append, not_or]
    exact ⟨print_no_cr k h.1, kids_no_cr ks h.2⟩
end

theorem read_print {e : Elem} (h : e.Readable) : readDocument e.print = some e.normal := by
  have hw := weight_le e
  rw [readDocument, normaliseLines_id (print_no_cr e h)]
  have := read_elem e h (e.print.length + 1 - e.weight) []
  rw [List.append_nil, show e.weight + (e.print.length + 1 - e.weight) = e.print.length + 1 by omega] at this
  rw [this]

theorem decode_utf8 (s : PyStr) : decodeUtf8 (utf8 s) = some s := by
  have h : (utf8 s).toByteArray = s.utf8Encode := rfl
  rw [decodeUtf8, h, List.utf8Decode?_utf8Encode]
  rfl

end Verif
