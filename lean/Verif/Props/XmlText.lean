import Verif.Lemmas.XmlRead
import Verif.Lemmas.Envelope
import Verif.Lemmas.Namespaces
/-
C77: a request is read as the elements that were sent.
-/
namespace Verif

/-- C77, partial: the bytes of a document decode and read as the elements of the request, with the namespace declarations on the
root. This holds for all elements with good names, distinct attributes and texts of legal characters without carriage returns.
Missing: carriage returns, see `C77_carriage_return_false`, and characters that XML does not have, see `C77_control_false`. -/
theorem C77_read_partial (e : Elem) (h : (Elem.node e.tag (declarations e ++ e.attrs) e.text e.kids).Readable) :
    (decodeUtf8 (utf8 (printDocument e))).bind readDocument =
      some (Elem.node e.tag (declarations e ++ e.attrs) e.text e.kids).normal := by
  rw [decode_utf8]
  exact read_print h

/-! ### The requests of shells -/

/-- Texts that XML can carry. -/
def CleanText (t : PyStr) : Prop := ∀ c ∈ t, legalXmlChar c = true ∧ c ≠ '\r'

/-- The same for the values of attributes, in which carriage returns are written as references. -/
def LegalText (t : PyStr) : Prop := ∀ c ∈ t, legalXmlChar c = true

instance (t : PyStr) : Decidable (CleanText t) := by unfold CleanText; infer_instance
instance (t : PyStr) : Decidable (LegalText t) := by unfold LegalText; infer_instance

/-- The texts of a connection. -/
structure Conn.Clean (c : Conn) : Prop where
  endpoint : CleanText c.endpoint
  locale : LegalText c.locale
  dataLocale : LegalText c.dataLocale

def CleanSelectors (s : Selectors) : Prop := ∀ l, s = some l → ∀ v ∈ l, LegalText v.1 ∧ CleanText v.2

/-- The texts of a shell. -/
structure WinRS.Clean (s : WinRS) : Prop where
  id : ∀ t ∈ s.id, LegalText t
  environment : ∀ env ∈ s.environment, ∀ v ∈ env, LegalText v.1 ∧ CleanText v.2
  input : CleanText s.inputStreams
  output : ∀ t ∈ s.outputStreams, CleanText t
  codepage : ∀ t ∈ s.codepage, CleanText t
  lifetime : ∀ t ∈ s.lifetime, CleanText t
  name : ∀ t ∈ s.name, CleanText t
  directory : ∀ t ∈ s.workingDirectory, CleanText t
  idle : ∀ t ∈ s.idleTimeOut, CleanText t

/-- The texts of a request. -/
def ShellReq.Clean : ShellReq → Prop
  | .create uri s => (∀ t ∈ uri, CleanText t) ∧ s.Clean
  | .delete uri sel => (∀ t ∈ uri, CleanText t) ∧ CleanSelectors sel
  | .command uri sel x args _ id => (∀ t ∈ uri, CleanText t) ∧ CleanSelectors sel ∧ CleanText x ∧ (∀ a ∈ args, CleanText a) ∧ ∀ t ∈ id, LegalText t
  | .receive uri sel st id => (∀ t ∈ uri, CleanText t) ∧ CleanSelectors sel ∧ CleanText st ∧ ∀ t ∈ id, LegalText t
  | .send uri sel st t id _ => (∀ t ∈ uri, CleanText t) ∧ CleanSelectors sel ∧ LegalText st ∧ CleanText t ∧ ∀ t ∈ id, LegalText t
  | .signal uri sel code id => (∀ t ∈ uri, CleanText t) ∧ CleanSelectors sel ∧ CleanText code ∧ LegalText id

/-- The prefix of a name has a namespace, or there is none. `xml` always has. -/
def knownName (n : PyStr) : Bool :=
  match prefixOf n with
  | none => true
  | some p => p = "xml".toList || registeredNamespaces.any fun e => e.1 = p

/-- A name with at most one colon, and no declaration of a namespace. -/
def shapedName (n : PyStr) : Bool :=
  '{' ∉ n && '}' ∉ n && n ≠ "xmlns".toList && (':' ∉ n || (((n.dropWhile (· ≠ ':')).drop 1) ≠ [] && ':' ∉ (n.dropWhile (· ≠ ':')).drop 1))

def goodTag (n : PyStr) : Bool := !n.isEmpty && n.all nameChar && knownName n && shapedName n

theorem goodTag_name {n : PyStr} (h : goodTag n = true) : GoodName n := by
  simp only [goodTag, Bool.and_eq_true, Bool.not_eq_true', List.all_eq_true] at h
  exact ⟨by intro e; rw [e] at h; simp at h, h.1.1.2⟩

theorem readableKids_iff (ks : List Elem) : ReadableKids ks ↔ ∀ k ∈ ks, k.Readable := by
  induction ks with
  | nil => simp [ReadableKids]
  | cons k ks ih => rw [ReadableKids, ih]; simp

theorem prefixesKids_eq (ks : List Elem) : prefixesKids ks = ks.flatMap Elem.prefixes := by
  induction ks with
  | nil => rfl
  | cons k ks ih => rw [prefixesKids, ih]; rfl

/-- Every prefix is `xml` or has a namespace. -/
def Elem.Known (e : Elem) : Prop := ∀ p ∈ e.prefixes, p = "xml".toList ∨ ∃ n ∈ registeredNamespaces, n.1 = p

/-- The element reads back, its prefixes have namespaces, and its names stand for what they stand for in the library. -/
def Elem.Fine (e : Elem) : Prop := e.Readable ∧ e.Known ∧ WrittenAs libraryScope e e

theorem known_of {n p : PyStr} (h : knownName n = true) (hp : p ∈ (prefixOf n).toList) : p = "xml".toList ∨ ∃ n ∈ registeredNamespaces, n.1 = p := by
  unfold knownName at h
  cases hn : prefixOf n with
  | none => rw [hn] at hp; cases hp
  | some q =>
    rw [hn] at hp h
    rw [Option.toList_some, List.mem_singleton] at hp
    subst hp
    simp only [Bool.or_eq_true, decide_eq_true_eq, List.any_eq_true] at h
    exact h

theorem split_colon {n : PyStr} (h : ':' ∈ n) : n = n.takeWhile (· ≠ ':') ++ ':' :: (n.dropWhile (· ≠ ':')).drop 1 := by
  have h1 := List.takeWhile_append_dropWhile (p := fun c => decide (c ≠ ':')) (l := n)
  cases hd : n.dropWhile (· ≠ ':') with
  | nil =>
    rw [hd, List.append_nil] at h1
    have h2 := List.all_takeWhile (p := fun c => decide (c ≠ ':')) (l := n)
    rw [h1, List.all_eq_true] at h2
    exact absurd rfl (of_decide_eq_true (h2 _ h))
  | cons c r =>
    have hc' : c = ':' := by
      have h3 := List.head?_dropWhile_not (p := fun c => decide (c ≠ ':')) (l := n)
      rw [hd] at h3
      simpa using h3
    rw [hd, hc'] at h1
    rw [List.drop_succ_cons, List.drop_zero]
    exact h1.symm

/-- A good name stands for what it stands for in the library. -/
theorem goodTag_stands {n : PyStr} (h : goodTag n = true) (element : Bool) :
    ∃ uri name, StandsFor libraryScope element n uri name ∧ CalledInLibrary uri name n := by
  simp only [goodTag, shapedName, Bool.and_eq_true, Bool.or_eq_true, decide_eq_true_eq, Bool.not_eq_true', knownName] at h
  obtain ⟨⟨⟨h0, _⟩, hk⟩, ⟨⟨h1, h2⟩, _⟩, h4⟩ := h
  have hne : n ≠ [] := by rintro rfl; cases h0
  by_cases hc : ':' ∈ n
  · have hsp := split_colon hc
    obtain ⟨h5, h6⟩ := h4.resolve_left (fun h => h hc)
    have hpre : prefixOf n = some (n.takeWhile (· ≠ ':')) := by unfold prefixOf; rw [if_pos hc]
    rw [hpre] at hk
    simp only [Bool.or_eq_true, decide_eq_true_eq, List.any_eq_true] at hk
    have hm : ∃ uri, (n.takeWhile (· ≠ ':'), uri) ∈ wsmanNamespaces := by
      rcases hk with hk | ⟨d, hd, hk⟩
      · exact ⟨xmlUri, by rw [hk]; exact List.mem_cons_self ..⟩
      · exact ⟨d.2, by rw [← hk]; exact List.mem_cons_of_mem _ hd⟩
    obtain ⟨uri, hm⟩ := hm
    have hp := namespaces_plain _ hm
    have hl : ∀ c ∈ (n.dropWhile (· ≠ ':')).drop 1, c ∈ n := fun c hm => (List.dropWhile_sublist _).subset (List.mem_of_mem_drop hm)
    refine ⟨uri, (n.dropWhile (· ≠ ':')).drop 1, ⟨⟨h5, h6, fun h => h1 (hl _ h), fun h => h2 (hl _ h)⟩, .inl ⟨_, hp.2.2, hsp, ?_, hp.1⟩⟩, .inr (.inl ⟨_, hm, hsp⟩)⟩
    exact namespaces_lookup _ hm
  · have hnone : wsmanNamespaces.lookup [] = none := by decide +kernel
    refine ⟨[], n, ⟨⟨hne, hc, h1, h2⟩, .inr ⟨rfl, ?_⟩⟩, .inl ⟨rfl, rfl⟩⟩
    cases element
    · rfl
    · rw [if_pos rfl, libraryScope, hnone]; rfl

theorem goodTag_not_declaration {n : PyStr} (h : goodTag n = true) (p : PyStr) : n ≠ declaring p := by
  rintro rfl
  simp only [goodTag, shapedName, Bool.and_eq_true, decide_eq_true_eq, knownName] at h
  unfold declaring at h
  split at h
  · exact h.2.1.2 rfl
  · have : prefixOf ("xmlns:".toList ++ p) = some "xmlns".toList := rfl
    rw [this] at h
    exact absurd h.1.2 (by decide +kernel)

theorem written_good_attrs {attrs : List (PyStr × PyStr)} (ha : ∀ a ∈ attrs, goodTag a.1 = true) : WrittenAttrs libraryScope attrs attrs := by
  induction attrs with
  | nil => exact .nil
  | cons a as ih =>
    obtain ⟨n, v⟩ := a
    have hn := ha (n, v) (List.mem_cons_self ..)
    obtain ⟨uri, name, h1, h2⟩ := goodTag_stands hn false
    exact .attr (goodTag_not_declaration hn) h1 h2 (ih fun x hx => ha x (List.mem_cons_of_mem _ hx))

theorem inside_good_attrs {attrs : List (PyStr × PyStr)} (ha : ∀ a ∈ attrs, goodTag a.1 = true) (sc : NsScope) : sc.inside attrs = sc := by
  funext p
  unfold NsScope.inside
  rw [lookup_none_of, Option.none_or]
  intro hm
  obtain ⟨a, hm, he⟩ := List.mem_map.1 hm
  exact goodTag_not_declaration (ha a hm) p he

theorem writtenKids_of {sc : NsScope} {ks : List Elem} (h : ∀ k ∈ ks, WrittenAs sc k k) : WrittenKids sc ks ks := by
  induction ks with
  | nil => exact .nil
  | cons k ks ih => exact .cons (h k (List.mem_cons_self ..)) (ih fun x hx => h x (List.mem_cons_of_mem _ hx))

/-- A node with good names. -/
theorem written_node {tag : PyStr} {attrs : List (PyStr × PyStr)} {text : Option PyStr} {kids kids' : List Elem} (ht : goodTag tag = true)
    (hd : (attrs.map (·.1)).Nodup) (ha : ∀ a ∈ attrs, goodTag a.1 = true) (hk : WrittenKids libraryScope kids kids') :
    WrittenAs libraryScope (.node tag attrs text kids) (.node tag attrs text kids') := by
  obtain ⟨uri, name, h1, h2⟩ := goodTag_stands ht true
  have hin := inside_good_attrs ha libraryScope
  refine .node (uri := uri) (name := name) ?_ (by rw [hin]; exact h1) h2 (by rw [hin]; exact written_good_attrs ha) hd (by rw [hin]; exact hk)
  intro p uri hm
  exact absurd rfl (goodTag_not_declaration (ha _ hm) p)

theorem fine_node {tag : PyStr} {attrs : List (PyStr × PyStr)} {text : Option PyStr} {kids : List Elem} (ht : goodTag tag = true)
    (hd : (attrs.map (·.1)).Nodup) (ha : ∀ a ∈ attrs, goodTag a.1 = true ∧ LegalText a.2) (hx : CleanText (text.getD []))
    (hk : ∀ k ∈ kids, k.Fine) : (Elem.node tag attrs text kids).Fine := by
  refine ⟨⟨goodTag_name ht, hd, fun a h => ⟨goodTag_name (ha a h).1, (ha a h).2⟩, hx, (readableKids_iff _).2 fun k h => (hk k h).1⟩, ?_,
    written_node ht hd (fun a h => (ha a h).1) (writtenKids_of fun k h => (hk k h).2.2)⟩
  intro p hp
  rw [Elem.prefixes, List.mem_append, List.mem_append, prefixesKids_eq] at hp
  have hkn : ∀ n, goodTag n = true → knownName n = true := by
    intro n h; simp only [goodTag, Bool.and_eq_true] at h; exact h.1.2
  rcases hp with (hp | hp) | hp
  · exact known_of (hkn _ ht) hp
  · obtain ⟨a, h1, h2⟩ := List.mem_filterMap.1 hp
    exact known_of (hkn _ (ha a h1).1) (by rw [h2]; simp)
  · obtain ⟨k, h1, h2⟩ := List.mem_flatMap.1 hp
    exact (hk k h1).2.1 p h2

/-- A leaf with one or no attribute. -/
theorem fine_leaf {tag : PyStr} {text : Option PyStr} (ht : goodTag tag = true) (hx : CleanText (text.getD [])) :
    (Elem.node tag [] text []).Fine :=
  fine_node ht List.nodup_nil (fun _ h => absurd h List.not_mem_nil) hx (fun _ h => absurd h List.not_mem_nil)

theorem fine_leaf1 {tag name value : PyStr} {text : Option PyStr} (ht : goodTag tag = true) (hn : goodTag name = true) (hv : LegalText value)
    (hx : CleanText (text.getD [])) : (Elem.node tag [(name, value)] text []).Fine :=
  fine_node ht (by simp) (by intro a h; rw [List.mem_singleton] at h; subst h; exact ⟨hn, hv⟩) hx (fun _ h => absurd h List.not_mem_nil)

theorem clean_append {a b : PyStr} (ha : CleanText a) (hb : CleanText b) : CleanText (a ++ b) := by
  intro c hc
  rcases List.mem_append.1 hc with h | h
  · exact ha c h
  · exact hb c h

theorem clean_nil : CleanText [] := fun _ h => absurd h List.not_mem_nil

theorem clean_option {o : Option PyStr} (h : ∀ t ∈ o, CleanText t) : CleanText (o.getD []) := by
  cases o with
  | none => exact clean_nil
  | some t => exact h t rfl

theorem clean_of_plain {t : PyStr} (h : Plain t) : CleanText t := by
  intro c hc
  obtain ⟨h1, h2, _⟩ := h c hc
  refine ⟨?_, ?_⟩
  · have a2 : decide (c.toNat ≤ 0xD7FF) = true := by rw [decide_eq_true_eq]; omega
    simp [legalXmlChar, a2, h1]
  · rintro rfl
    revert h1; decide

theorem legal_of_clean {t : PyStr} (h : CleanText t) : LegalText t := fun c hc => (h c hc).1

theorem fine_set (element child : String) (must : Bool) (values : List WSManValue) (he : goodTag element.toList = true)
    (hc : goodTag child.toList = true)
    (hv : ∀ v ∈ values, LegalText v.name ∧ CleanText v.value ∧ (v.attributes = [] ∨ v.attributes = [("MustComply".toList, "true".toList)])) :
    (setPack element child must values).Fine := by
  have hn : goodTag "Name".toList = true := by decide +kernel
  have hmc : goodTag "MustComply".toList = true := by decide +kernel
  have hmu : goodTag "s:mustUnderstand".toList = true := by decide +kernel
  have ht : LegalText "true".toList := by decide +kernel
  refine fine_node he ?_ ?_ clean_nil ?_
  · cases must <;> simp
  · cases must
    · intro a h; cases h
    · intro a h
      rw [if_pos rfl, List.mem_singleton] at h
      subst h; exact ⟨hmu, ht⟩
  · intro k hk
    obtain ⟨v, hv1, rfl⟩ := List.mem_map.1 hk
    obtain ⟨h1, h2, h3⟩ := hv v hv1
    rcases h3 with h3 | h3
    · rw [h3]
      exact fine_leaf1 hc hn h1 h2
    · rw [h3]
      refine fine_node hc ?_ ?_ h2 (fun _ h => absurd h List.not_mem_nil)
      · show ["MustComply".toList, "Name".toList].Nodup
        decide
      · intro a ha
        have : a = ("MustComply".toList, "true".toList) ∨ a = ("Name".toList, v.name) := by
          simpa using ha
        rcases this with rfl | rfl
        · exact ⟨hmc, ht⟩
        · exact ⟨hn, h1⟩

def CleanOptions (options : Option (List WSManValue)) : Prop := ∀ l, options = some l →
  ∀ v ∈ l, LegalText v.name ∧ CleanText v.value ∧ (v.attributes = [] ∨ v.attributes = [("MustComply".toList, "true".toList)])

theorem fine_header (c : Conn) (hc : c.Clean) (u v : UUID) (hs : c.sessionId = v.toStr) (action : WSManAction) (uri : Option PyStr)
    (hu : ∀ t ∈ uri, CleanText t) (options : Option (List WSManValue)) (ho : CleanOptions options) (selectors : Selectors)
    (hsel : CleanSelectors selectors) (timeout : Option Int) : (createHeader c u.toStr action uri options selectors timeout).Fine := by
  have hmu : goodTag "s:mustUnderstand".toList = true := by decide +kernel
  have hxl : goodTag "xml:lang".toList = true := by decide +kernel
  have ht : LegalText "true".toList := by decide +kernel
  have hf : LegalText "false".toList := by decide +kernel
  have hto : CleanText (timeoutText c timeout) := by
    unfold timeoutText
    cases timeout with
    | none => exact clean_of_plain (plain_int _)
    | some t => dsimp only; split <;> exact clean_of_plain (plain_int _)
  have huu : CleanText "uuid:".toList := by decide +kernel
  have lang : ∀ (tag l : PyStr), goodTag tag = true → LegalText l → (Elem.node tag [mustUnderstand false, ("xml:lang".toList, l)] none []).Fine := by
    intro tag l h1 h2
    refine fine_node h1 ?_ ?_ clean_nil (fun _ h => absurd h List.not_mem_nil)
    · show ["s:mustUnderstand".toList, "xml:lang".toList].Nodup
      decide
    · intro a ha
      rw [List.mem_cons, List.mem_singleton] at ha
      rcases ha with rfl | rfl
      · exact ⟨hmu, hf⟩
      · exact ⟨hxl, h2⟩
  refine fine_node (by decide +kernel) List.nodup_nil (fun _ h => absurd h List.not_mem_nil) clean_nil ?_
  intro k hk
  simp only [List.mem_append, List.mem_cons, List.not_mem_nil, or_false] at hk
  rcases hk with ((hk | hk | hk | hk | hk | hk | hk | hk | hk | hk) | hk) | hk
  · subst hk
    exact fine_leaf1 (by decide +kernel) hmu ht (clean_of_plain (action_plain action).1)
  · subst hk; exact lang _ _ (by decide +kernel) hc.dataLocale
  · subst hk; exact lang _ _ (by decide +kernel) hc.locale
  · subst hk; exact fine_leaf1 (by decide +kernel) hmu ht (clean_of_plain (plain_int _))
  · subst hk; exact fine_leaf (by decide +kernel) (clean_append huu (clean_of_plain (plain_upper_uuid u).1))
  · subst hk
    exact fine_leaf (by decide +kernel) (clean_append (clean_append (by decide +kernel) hto) (by decide +kernel))
  · subst hk
    refine fine_node (by decide +kernel) List.nodup_nil (fun _ h => absurd h List.not_mem_nil) clean_nil ?_
    intro k hk
    rw [List.mem_singleton] at hk
    subst hk
    exact fine_leaf1 (by decide +kernel) hmu ht (by decide +kernel)
  · subst hk; exact fine_leaf1 (by decide +kernel) hmu ht (clean_option hu)
  · subst hk
    rw [hs]
    exact fine_leaf1 (by decide +kernel) hmu hf (clean_append huu (clean_of_plain (plain_upper_uuid v).1))
  · subst hk; exact fine_leaf (by decide +kernel) hc.endpoint
  · cases options with
    | none => cases hk
    | some l =>
      rw [Option.map_some, Option.toList_some, List.mem_singleton] at hk
      subst hk
      exact fine_set _ _ _ _ (by decide +kernel) (by decide +kernel) (ho l rfl)
  · cases selectors with
    | none => cases hk
    | some l =>
      rw [Option.map_some, Option.toList_some, List.mem_singleton] at hk
      subst hk
      refine fine_set _ _ _ _ (by decide +kernel) (by decide +kernel) ?_
      intro v hv
      obtain ⟨w, hw, rfl⟩ := List.mem_map.1 hv
      exact ⟨(hsel l rfl w hw).1, (hsel l rfl w hw).2, .inl rfl⟩

theorem fine_envelope (c : Conn) (hc : c.Clean) (u v : UUID) (hs : c.sessionId = v.toStr) (action : WSManAction) (uri : Option PyStr)
    (hu : ∀ t ∈ uri, CleanText t) (options : Option (List WSManValue)) (ho : CleanOptions options) (selectors : Selectors)
    (hsel : CleanSelectors selectors) (timeout : Option Int) (resource : Option Elem) (hr : ∀ e ∈ resource, e.Fine) :
    (envelope c u.toStr action uri resource options selectors timeout).Fine := by
  refine fine_node (by decide +kernel) List.nodup_nil (fun _ h => absurd h List.not_mem_nil) clean_nil ?_
  intro k hk
  rw [List.mem_cons, List.mem_singleton] at hk
  rcases hk with rfl | rfl
  · exact fine_header c hc u v hs action uri hu options ho selectors hsel timeout
  · refine fine_node (by decide +kernel) List.nodup_nil (fun _ h => absurd h List.not_mem_nil) clean_nil ?_
    intro k hk
    rw [Option.mem_toList] at hk
    exact hr k hk

theorem fine_text (tag : String) (ht : goodTag tag.toList = true) (v : Option PyStr) (hv : ∀ t ∈ v, CleanText t) : (textElem tag v).Fine :=
  fine_leaf ht (clean_option hv)

theorem fine_opt (tag : String) (ht : goodTag tag.toList = true) (v : Option PyStr) (hv : ∀ t ∈ v, CleanText t) : ∀ k ∈ optElem tag v, k.Fine := by
  cases v with
  | none => intro k hk; cases hk
  | some t => intro k hk; rw [optElem, List.mem_singleton] at hk; subst hk; exact fine_text tag ht _ hv

theorem clean_seconds {v : Option PyStr} (h : ∀ t ∈ v, CleanText t) : ∀ t ∈ v.map seconds, CleanText t := by
  cases v with
  | none => intro t ht; cases ht
  | some x =>
    intro t ht
    rw [Option.map_some, Option.mem_some_iff] at ht
    subst ht
    exact clean_append (clean_append (by decide +kernel) (h x rfl)) (by decide +kernel)

theorem fine_create_kids (s : WinRS) (h : s.Clean) : ∀ k ∈ (createBody s).kids, k.Fine := by
  unfold createBody
  simp only [Elem.kids]
  intro k hk
  simp only [List.mem_append, List.mem_cons, List.not_mem_nil, or_false] at hk
  rcases hk with (((((hk | hk) | hk) | hk) | hk) | hk) | hk
  · subst hk; exact fine_text _ (by decide +kernel) _ (by intro t ht; cases ht; exact h.input)
  · subst hk; exact fine_text _ (by decide +kernel) _ h.output
  · have he := h.environment
    cases hs : s.environment with
    | none => rw [hs] at hk; cases hk
    | some env =>
      rw [hs, environmentElem, List.mem_singleton] at hk
      subst hk
      refine fine_node (by decide +kernel) List.nodup_nil (fun _ h => absurd h List.not_mem_nil) clean_nil ?_
      intro k hk
      obtain ⟨v, hv, rfl⟩ := List.mem_map.1 hk
      exact fine_leaf1 (by decide +kernel) (by decide +kernel) (he env hs v hv).1 (he env hs v hv).2
  · exact fine_opt _ (by decide +kernel) _ (clean_seconds h.idle) k hk
  · exact fine_opt _ (by decide +kernel) _ (clean_seconds h.lifetime) k hk
  · exact fine_opt _ (by decide +kernel) _ h.name k hk
  · exact fine_opt _ (by decide +kernel) _ h.directory k hk

theorem fine_create (s : WinRS) (h : s.Clean) : (createBody s).Fine := by
  refine fine_node (by decide +kernel) ?_ ?_ clean_nil ?_
  · cases s.id <;> simp [optAttr]
  · intro a ha
    have hid := h.id
    cases hs : s.id with
    | none => rw [hs] at ha; cases ha
    | some t =>
      rw [hs, optAttr, List.mem_singleton] at ha
      subst ha
      exact ⟨by show goodTag "ShellId".toList = true; decide +kernel, hid t hs⟩
  · exact fine_create_kids s h

theorem clean_bool (b : Bool) : CleanText (pyStrBool b) := by cases b <;> decide +kernel

/-- Attributes that may be missing. -/
theorem opt_attr (name : String) (v : Option PyStr) (hn : goodTag name.toList = true) (hv : ∀ t ∈ v, LegalText t) :
    ∀ a ∈ optAttr name v, goodTag a.1 = true ∧ LegalText a.2 := by
  cases v with
  | none => intro a ha; cases ha
  | some t => intro a ha; rw [optAttr, List.mem_singleton] at ha; subst ha; exact ⟨hn, hv t rfl⟩

theorem fine_body (r : ShellReq) (h : r.Clean) : ∀ e ∈ r.body, e.Fine := by
  intro e he
  cases r with
  | create uri s => cases he; exact fine_create s h.2
  | delete uri sel => cases he
  | command uri sel x args noShell id =>
    cases he
    obtain ⟨_, _, hx, ha, hi⟩ := h
    refine fine_node (by decide +kernel) (by cases id <;> simp [optAttr]) (opt_attr _ _ (by decide +kernel) hi) clean_nil ?_
    intro k hk
    rcases List.mem_cons.1 hk with rfl | hk
    · exact fine_text _ (by decide +kernel) _ (by intro t ht; cases ht; exact hx)
    · obtain ⟨a, h1, rfl⟩ := List.mem_map.1 hk
      exact fine_text _ (by decide +kernel) _ (by intro t ht; cases ht; exact ha a h1)
  | receive uri sel st id =>
    cases he
    obtain ⟨_, _, hx, hi⟩ := h
    refine fine_node (by decide +kernel) List.nodup_nil (fun _ h => absurd h List.not_mem_nil) clean_nil ?_
    intro k hk
    rw [List.mem_singleton] at hk
    subst hk
    exact fine_node (by decide +kernel) (by cases id <;> simp [optAttr]) (opt_attr _ _ (by decide +kernel) hi) hx
      (fun _ h => absurd h List.not_mem_nil)
  | send uri sel st t id last =>
    cases he
    obtain ⟨_, _, hst, hx, hi⟩ := h
    refine fine_node (by decide +kernel) List.nodup_nil (fun _ h => absurd h List.not_mem_nil) clean_nil ?_
    intro k hk
    rw [List.mem_singleton] at hk
    subst hk
    refine fine_node (by decide +kernel) ?_ ?_ hx (fun _ h => absurd h List.not_mem_nil)
    · cases id <;> cases last
      · show ["Name".toList].Nodup; decide
      · show ["Name".toList, "End".toList].Nodup; decide
      · show ["Name".toList, "CommandId".toList].Nodup; decide
      · show ["Name".toList, "End".toList, "CommandId".toList].Nodup; decide
    · intro a ha
      rw [List.mem_cons, List.mem_append] at ha
      rcases ha with rfl | ha | ha
      · exact ⟨by show goodTag "Name".toList = true; decide +kernel, hst⟩
      · refine opt_attr _ _ (by decide +kernel) ?_ a ha
        cases last with
        | none => intro t ht; cases ht
        | some b => intro t ht; cases ht; exact legal_of_clean (clean_bool b)
      · exact opt_attr _ _ (by decide +kernel) hi a ha
  | signal uri sel code id =>
    cases he
    obtain ⟨_, _, hc, hi⟩ := h
    refine fine_node (by decide +kernel) (by simp) ?_ clean_nil ?_
    · intro a ha; rw [List.mem_singleton] at ha; subst ha; exact ⟨by show goodTag "CommandId".toList = true; decide +kernel, hi⟩
    · intro k hk; rw [List.mem_singleton] at hk; subst hk
      exact fine_text _ (by decide +kernel) _ (by intro t ht; cases ht; exact hc)

theorem fine_request (c : Conn) (hc : c.Clean) (u v : UUID) (hs : c.sessionId = v.toStr) (r : ShellReq) (h : r.Clean) :
    (r.envelope c u.toStr).Fine := by
  have none_ok : CleanOptions none := fun l h => by cases h
  have nosel : CleanSelectors none := fun l h => by cases h
  have one : ∀ n b, LegalText n → CleanOptions (some [⟨n, pyStrBool b, []⟩]) := by
    intro n b hn l hl v hv
    cases hl
    rw [List.mem_singleton] at hv
    subst hv
    exact ⟨hn, clean_bool b, .inl rfl⟩
  have hb := fine_body r h
  cases r with
  | create uri s =>
    refine fine_envelope c hc u v hs _ _ h.1 _ ?_ _ nosel _ _ hb
    intro l hl v hv
    split at hl
    · cases hl
    · cases hl
      unfold createOptions at hv
      have hcp := h.2.codepage
      rw [List.mem_append] at hv
      rcases hv with hv | hv
      · split at hv
        · rw [List.mem_singleton] at hv; subst hv; exact ⟨by decide +kernel, by decide +kernel, .inr rfl⟩
        · cases hv
      · cases hp : s.codepage with
        | none => rw [hp] at hv; cases hv
        | some t =>
          rw [hp] at hv
          dsimp only at hv
          rw [List.mem_singleton] at hv
          subst hv
          exact ⟨by show LegalText "WINRS_CODEPAGE".toList; decide +kernel, hcp t hp, .inl rfl⟩
  | delete uri sel => exact fine_envelope c hc u v hs _ _ h.1 _ none_ok _ h.2 _ _ (fun _ h => by cases h)
  | command uri sel x args noShell id => exact fine_envelope c hc u v hs _ _ h.1 _ (one _ _ (by decide +kernel)) _ h.2.1 _ _ hb
  | receive uri sel st id => exact fine_envelope c hc u v hs _ _ h.1 _ (one _ _ (by decide +kernel)) _ h.2.1 _ _ hb
  | send uri sel st t id last => exact fine_envelope c hc u v hs _ _ h.1 _ none_ok _ h.2.1 _ _ hb
  | signal uri sel code id => exact fine_envelope c hc u v hs _ _ h.1 _ none_ok _ h.2.1 _ _ hb

/-- The declarations are attributes that read back. -/
theorem declarations_good (e : Elem) : ((declarations e).map (·.1)).Nodup ∧ ∀ a ∈ declarations e, GoodName a.1 ∧ LegalText a.2 := by
  have hall : (registeredNamespaces.map fun n => ("xmlns:".toList ++ n.1)).Nodup ∧
      ∀ n ∈ registeredNamespaces, goodTag ("xmlns:".toList ++ n.1) = false ∧ ("xmlns:".toList ++ n.1).all nameChar = true ∧ LegalText n.2 := by
    decide +kernel
  constructor
  · unfold declarations
    rw [List.map_map]
    exact (List.Sublist.map _ List.filter_sublist).nodup hall.1
  · intro a ha
    obtain ⟨n, hn, rfl⟩ := List.mem_map.1 ha
    have := hall.2 n (List.mem_filter.1 hn).1
    exact ⟨⟨List.append_ne_nil_of_left_ne_nil (by decide) _, List.all_eq_true.1 this.2.1⟩, this.2.2⟩

/-- The namespace that the root declares for a prefix. -/
def declared (root : Elem) (p : PyStr) : Option PyStr := root.attr ("xmlns:".toList ++ p)

/-- C77, partial: the bytes of every request of a shell decode and read as an envelope with the header and body that were built,
and every prefix in it is `xml` or declared on the root as the namespace that the library uses for it.
Missing: as for `C77_read_partial`. -/
theorem C77_request_partial (c : Conn) (hc : c.Clean) (u v : UUID) (hs : c.sessionId = v.toStr) (r : ShellReq) (h : r.Clean) :
    ∃ root, (decodeUtf8 (utf8 (printDocument (r.envelope c u.toStr)))).bind readDocument = some root ∧
      root.tag = "s:Envelope".toList ∧ root.kids = normalKids (r.envelope c u.toStr).kids ∧
      ∀ p ∈ (r.envelope c u.toStr).prefixes, p = "xml".toList ∨ ∃ ns, (p, ns) ∈ registeredNamespaces ∧ declared root p = some ns := by
  have hf := fine_request c hc u v hs r h
  have htag : (r.envelope c u.toStr).tag = "s:Envelope".toList := by cases r <;> rfl
  have hattrs : (r.envelope c u.toStr).attrs = [] := by cases r <;> rfl
  generalize r.envelope c u.toStr = e at *
  have hd := declarations_good e
  refine ⟨_, C77_read_partial e ?_, ?_, ?_, ?_⟩
  · rw [hattrs, List.append_nil]
    cases e with
    | node tag attrs text kids =>
      obtain ⟨h1, _, _, h2, h3⟩ := hf.1
      exact ⟨h1, hd.1, hd.2, h2, h3⟩
  · rw [Elem.normal, Elem.tag]; exact htag
  · rw [Elem.normal, Elem.kids]
  · intro p hp
    rcases hf.2.1 p hp with hx | ⟨n, hn, rfl⟩
    · exact .inl hx
    · refine .inr ⟨n.2, hn, ?_⟩
      rw [declared, Elem.normal, Elem.attr, Elem.attrs, hattrs, List.append_nil, declarations]
      have huniq : registeredNamespaces.Pairwise fun a b => a.1 ≠ b.1 := by decide +kernel
      have hmem : n ∈ registeredNamespaces.filter fun n => n.1 ∈ e.prefixes := List.mem_filter.2 ⟨hn, by simpa using hp⟩
      have hu2 : (registeredNamespaces.filter fun n => n.1 ∈ e.prefixes).Pairwise fun a b => a.1 ≠ b.1 :=
        huniq.sublist List.filter_sublist
      generalize registeredNamespaces.filter (fun n => n.1 ∈ e.prefixes) = l at hmem hu2
      clear hd hf hp hn huniq
      induction l with
      | nil => cases hmem
      | cons a l ih =>
        rw [List.pairwise_cons] at hu2
        rw [List.map_cons]
        by_cases ha : a.1 = n.1
        · rw [List.find?_cons_of_pos (by simp [ha])]
          rcases List.mem_cons.1 hmem with rfl | hm
          · rfl
          · exact absurd ha (hu2.1 n hm)
        · rw [List.find?_cons_of_neg (by simpa using ha)]
          rcases List.mem_cons.1 hmem with rfl | hm
          · exact absurd rfl ha
          · exact ih hm hu2.2

/-- C77 is false for carriage returns: an argument with one is read as one with a line feed. -/
theorem C77_carriage_return_false : ∃ root, (decodeUtf8 (utf8 (printDocument (textElem "rsp:Arguments" (some "a\rb".toList))))).bind readDocument = some root ∧
    root.text = some "a\nb".toList := by
  rw [decode_utf8]
  cases h : (some (printDocument (textElem "rsp:Arguments" (some "a\rb".toList)))).bind readDocument with
  | none =>
    have : ((some (printDocument (textElem "rsp:Arguments" (some "a\rb".toList)))).bind readDocument).isSome = true := by decide +kernel
    rw [h] at this; cases this
  | some root =>
    refine ⟨root, rfl, ?_⟩
    have : ((some (printDocument (textElem "rsp:Arguments" (some "a\rb".toList)))).bind readDocument).bind Elem.text = some "a\nb".toList := by
      decide +kernel
    rw [h] at this; exact this

/-- C77 is false for control characters: the library writes them as they are, and the document cannot be read. -/
theorem C77_control_false :
    ((decodeUtf8 (utf8 (printDocument (textElem "rsp:Arguments" (some "a\x00b".toList))))).bind readDocument).isNone = true := by
  rw [decode_utf8]
  decide +kernel

/-- A request with texts that have to be escaped. -/
example : ∃ root, (decodeUtf8 (utf8 (printDocument ((ShellReq.command (some "u".toList) (some [("ShellId".toList, "1".toList)]) "dir \"<a&b>\"".toList
      ["\t\nü".toList, []] false (some "7".toList)).envelope { endpoint := "http://h/wsman".toList, sessionId := UUID.toStr ⟨List.replicate 16 1, rfl⟩ }
        (UUID.toStr ⟨List.replicate 16 2, rfl⟩))))).bind readDocument = some root ∧ root.tag = "s:Envelope".toList := by
  obtain ⟨root, h1, h2, _⟩ := C77_request_partial { endpoint := "http://h/wsman".toList, sessionId := UUID.toStr ⟨List.replicate 16 1, rfl⟩ }
    ⟨by decide +kernel, by decide +kernel, by decide +kernel⟩ ⟨List.replicate 16 2, rfl⟩ ⟨List.replicate 16 1, rfl⟩ rfl
    (.command (some "u".toList) (some [("ShellId".toList, "1".toList)]) "dir \"<a&b>\"".toList ["\t\nü".toList, []] false (some "7".toList))
    ⟨by decide +kernel, by intro l h; cases h; decide +kernel, by decide +kernel, by decide +kernel, by decide +kernel⟩
  exact ⟨root, h1, h2⟩

end Verif
