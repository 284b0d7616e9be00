import Verif.Model.Envelope
import Verif.Lemmas.Numbers
import Verif.Lemmas.Base64
import Verif.Lemmas.Serializer
/-
Sizes of printed documents.
-/
namespace Verif

/-- The number of bytes of a text. -/
def textSize (s : PyStr) : Nat := (s.map Char.utf8Size).sum

theorem utf8_length (s : PyStr) : (utf8 s).length = textSize s := by
  unfold utf8 textSize
  rw [List.length_flatMap]
  simp

theorem textSize_append (a b : PyStr) : textSize (a ++ b) = textSize a + textSize b := by
  simp [textSize]

theorem textSize_cons (c : Char) (s : PyStr) : textSize (c :: s) = c.utf8Size + textSize s := by
  simp [textSize]

theorem textSize_nil : textSize [] = 0 := rfl

/-- Characters that are written as they are, in one byte. -/
def PlainChar (c : Char) : Prop := 32 ≤ c.toNat ∧ c.toNat < 127 ∧ c ≠ '&' ∧ c ≠ '<' ∧ c ≠ '>' ∧ c ≠ '"'

instance (c : Char) : Decidable (PlainChar c) := by unfold PlainChar; infer_instance

def Plain (s : PyStr) : Prop := ∀ c ∈ s, PlainChar c

instance (s : PyStr) : Decidable (Plain s) := by unfold Plain; infer_instance

theorem plain_size {s : PyStr} (h : Plain s) : textSize s = s.length := by
  induction s with
  | nil => rfl
  | cons c cs ih =>
    rw [textSize_cons, ih fun d hd => h d (List.mem_cons_of_mem _ hd)]
    have hc := (h c List.mem_cons_self).2.1
    have : c.utf8Size = 1 := by
      unfold Char.utf8Size
      have : c.val ≤ 127 := by
        rw [UInt32.le_iff_toNat_le]
        have : c.val.toNat = c.toNat := rfl
        simp only [this]
        have : (127 : UInt32).toNat = 127 := rfl
        omega
      simp [this]
    simp only [List.length_cons, this]; omega

theorem plain_escape {s : PyStr} (h : Plain s) : escapeText s = s := by
  induction s with
  | nil => rfl
  | cons c cs ih =>
    obtain ⟨_, _, h1, h2, h3, _⟩ := h c List.mem_cons_self
    show escapeTextChar c ++ escapeText cs = _
    rw [ih fun d hd => h d (List.mem_cons_of_mem _ hd)]
    simp [escapeTextChar, h1, h2, h3]

theorem plain_escapeAttr {s : PyStr} (h : Plain s) : escapeAttr s = s := by
  induction s with
  | nil => rfl
  | cons c cs ih =>
    obtain ⟨h0, _, h1, h2, h3, h4⟩ := h c List.mem_cons_self
    show escapeAttrChar c ++ escapeAttr cs = _
    rw [ih fun d hd => h d (List.mem_cons_of_mem _ hd)]
    have h5 : c ≠ '\r' := by rintro rfl; revert h0; decide
    have h6 : c ≠ '\n' := by rintro rfl; revert h0; decide
    have h7 : c ≠ '\t' := by rintro rfl; revert h0; decide
    simp [escapeAttrChar, h1, h2, h3, h4, h5, h6, h7]

theorem plain_b64 (b : Bytes) : Plain (b64Encode b) := by
  intro c hc
  rcases b64Encode_chars b c hc with rfl | ⟨n, hn, rfl⟩
  · decide
  · have : ∀ m : Fin 64, PlainChar (b64Char m.val) := by decide +kernel
    exact this ⟨n, hn⟩

theorem plain_append {a b : PyStr} (ha : Plain a) (hb : Plain b) : Plain (a ++ b) := by
  intro c hc
  rcases List.mem_append.1 hc with h | h
  · exact ha c h
  · exact hb c h

/-- Upper case ids are plain and have 36 characters. -/
theorem plain_upper_uuid (u : UUID) : Plain (asciiUpper u.toStr) ∧ (asciiUpper u.toStr).length = 36 := by
  constructor
  · intro c hc
    obtain ⟨d, hd, rfl⟩ := List.mem_map.1 hc
    rcases uuid_text_mem u d hd with rfl | hm
    · decide
    · obtain ⟨b, _, hb⟩ := List.mem_flatMap.1 hm
      have key : ∀ n : Fin 16, PlainChar (hexDigitLower n.val).toUpper := by decide +kernel
      simp only [hexByte, List.mem_cons, List.not_mem_nil, or_false] at hb
      rcases hb with rfl | rfl
      · exact key ⟨b.toNat / 16, by have := b.toNat_lt; omega⟩
      · exact key ⟨b.toNat % 16, by omega⟩
  · have hl : (u.bytes.flatMap hexByte).length = 32 := by
      rw [List.length_flatMap]
      have : (u.bytes.map fun b => (hexByte b).length) = List.replicate 16 2 := by
        rw [← u.len, List.eq_replicate_iff]
        simp [hexByte]
      rw [this]; rfl
    simp only [asciiUpper, List.length_map, UUID.toStr, List.length_append, List.length_cons, List.length_take, List.length_drop, hl]
    rfl

theorem escapeText_append (a b : PyStr) : escapeText (a ++ b) = escapeText a ++ escapeText b := by
  simp [escapeText]

theorem escapeAttr_append (a b : PyStr) : escapeAttr (a ++ b) = escapeAttr a ++ escapeAttr b := by
  simp [escapeAttr]

theorem printKids_append (a b : List Elem) : printKids (a ++ b) = printKids a ++ printKids b := by
  induction a with
  | nil => simp [printKids]
  | cons k ks ih => simp [printKids, ih]

/-- The size of an element with content. -/
theorem size_print (tag : PyStr) (attrs : List (PyStr × PyStr)) (text : Option PyStr) (kids : List Elem) (h : hasContent text kids = true) :
    textSize (Elem.print (.node tag attrs text kids)) =
      2 * textSize tag + 5 + textSize (printAttrs attrs) + textSize (escapeText (text.getD [])) + textSize (printKids kids) := by
  rw [Elem.print, if_pos h]
  simp only [textSize_cons, textSize_append, textSize_nil]
  have h1 : ('<' : Char).utf8Size = 1 := rfl
  have h2 : ('>' : Char).utf8Size = 1 := rfl
  have h3 : ('/' : Char).utf8Size = 1 := rfl
  omega

theorem size_kids (k : Elem) (ks : List Elem) : textSize (printKids (k :: ks)) = textSize k.print + textSize (printKids ks) := by
  rw [printKids, textSize_append]


/-! ### Headers -/

/-- The part of the header that is the same for all requests of a connection with a given limit. -/
def headerRest (c : Conn) : Nat :=
  textSize (Elem.print (.node "wsmv:DataLocale".toList [mustUnderstand false, ("xml:lang".toList, c.dataLocale)] none [])) +
  textSize (Elem.print (.node "wsman:Locale".toList [mustUnderstand false, ("xml:lang".toList, c.locale)] none [])) +
  textSize (Elem.print (.node "wsman:OperationTimeout".toList [] (some (seconds (timeoutText c none))) [])) +
  textSize (Elem.print (.node "wsmv:SessionId".toList [mustUnderstand false] (some ("uuid:".toList ++ asciiUpper c.sessionId)) [])) +
  textSize (Elem.print (.node "wsa:To".toList [] (some c.endpoint) []))

theorem action_plain (a : WSManAction) : Plain a.uri ∧ a.uri ≠ [] := by
  cases a <;> decide +kernel

theorem size_leaf (tag : PyStr) (attrs : List (PyStr × PyStr)) (text : PyStr) (h : text ≠ []) :
    textSize (Elem.print (.node tag attrs (some text) [])) = 2 * textSize tag + 5 + textSize (printAttrs attrs) + textSize (escapeText text) := by
  have hc : hasContent (some text) [] = true := by
    cases text with
    | nil => exact absurd rfl h
    | cons => rfl
  rw [size_print _ _ _ _ hc]
  simp [printKids, textSize_nil]

theorem size_header (c : Conn) (u : UUID) (action : WSManAction) (uri : PyStr) (hu : uri ≠ []) (options : Option (List WSManValue))
    (selectors : Selectors) :
    textSize (Elem.print (createHeader c u.toStr action (some uri) options selectors none)) =
      417 + headerRest c + textSize (escapeText (pyStrInt c.maxEnvelope)) + action.uri.length + textSize (escapeText uri) +
        textSize (printKids (options.map optionSet).toList) + textSize (printKids (selectors.map selectorSet).toList) := by
  obtain ⟨hp, ha⟩ := action_plain action
  obtain ⟨hup, hul⟩ := plain_upper_uuid u
  have e1 : textSize (escapeText action.uri) = action.uri.length := by rw [plain_escape hp, plain_size hp]
  have e2 : textSize (escapeText ("uuid:".toList ++ asciiUpper u.toStr)) = 41 := by
    have := plain_append (a := "uuid:".toList) (by decide) hup
    rw [plain_escape this, plain_size this, List.length_append, hul]; rfl
  rw [createHeader, size_print _ _ _ _ rfl, printKids_append, printKids_append, textSize_append, textSize_append]
  rw [size_kids, size_kids, size_kids, size_kids, size_kids, size_kids, size_kids, size_kids, size_kids, size_kids]
  rw [size_leaf _ _ _ ha, size_leaf _ _ _ (pyStrInt_ne_nil _), size_leaf "wsa:MessageID".toList _ _ (by simp), size_leaf _ _ _ hu, e1, e2]
  unfold headerRest
  have k0 : textSize (printKids []) = 0 := rfl
  have k1 : textSize "s:Header".toList = 8 := by decide +kernel
  have k2 : textSize "wsa:Action".toList = 10 := by decide +kernel
  have k3 : textSize "wsman:MaxEnvelopeSize".toList = 21 := by decide +kernel
  have k4 : textSize "wsa:MessageID".toList = 13 := by decide +kernel
  have k5 : textSize "wsman:ResourceURI".toList = 17 := by decide +kernel
  have k6 : textSize (printAttrs [mustUnderstand true]) = 24 := by decide +kernel
  have k7 : textSize (printAttrs []) = 0 := rfl
  have k8 : textSize (Elem.print (.node "wsa:ReplyTo".toList [] none
        [.node "wsa:Address".toList [mustUnderstand true] (some "http://schemas.xmlsoap.org/ws/2004/08/addressing/role/anonymous".toList) []])) = 141 := by
    decide +kernel
  have k9 : textSize (escapeText ((none : Option PyStr).getD [])) = 0 := rfl
  rw [k0, k1, k2, k3, k4, k5, k6, k7, k8, k9]
  omega


/-! ### Documents -/

theorem declarations_congr {e f : Elem} (h : e.prefixes = f.prefixes) : declarations e = declarations f := by
  unfold declarations; rw [h]

/-- The declarations in all requests here. -/
theorem size_declarations (e : Elem) (h : e.prefixes = (skeletonEnvelope ⟨[], [], [], [], 0, 0⟩ []).prefixes) :
    textSize (printAttrs (declarations e)) = 305 := by
  rw [declarations_congr h]
  decide +kernel

theorem size_document (e1 e2 : Elem)
    (h : textSize (printAttrs (declarations (.node "s:Envelope".toList [] none [e1, e2]))) = 305) :
    textSize (printDocument (.node "s:Envelope".toList [] none [e1, e2])) = 330 + textSize e1.print + textSize e2.print := by
  have hd : printDocument (.node "s:Envelope".toList [] none [e1, e2]) =
    Elem.print (.node "s:Envelope".toList (declarations (.node "s:Envelope".toList [] none [e1, e2])) none [e1, e2]) := by
    show Elem.print (.node _ (_ ++ []) _ _) = _
    rw [List.append_nil]; rfl
  rw [hd, size_print _ _ _ _ rfl, h, size_kids, size_kids]
  have k0 : textSize (printKids []) = 0 := rfl
  have k1 : textSize "s:Envelope".toList = 10 := by decide +kernel
  have k2 : textSize (escapeText ((none : Option PyStr).getD [])) = 0 := rfl
  rw [k0, k1, k2]; omega

theorem size_attr (n v : PyStr) : textSize (printAttr (n, v)) = 4 + textSize n + textSize (escapeAttr v) := by
  simp only [printAttr, textSize_cons, textSize_append, textSize_nil]
  have h1 : (' ' : Char).utf8Size = 1 := rfl
  have h2 : ('=' : Char).utf8Size = 1 := rfl
  have h3 : ('"' : Char).utf8Size = 1 := rfl
  omega

theorem size_attrs (a : PyStr × PyStr) (as : List (PyStr × PyStr)) :
    textSize (printAttrs (a :: as)) = textSize (printAttr a) + textSize (printAttrs as) := by
  show textSize (printAttr a ++ printAttrs as) = _
  rw [textSize_append]

/-- The selector of a shell. -/
theorem size_selector (id : PyStr) (h : id ≠ []) :
    textSize (printKids ((some [("ShellId".toList, id)] : Selectors).map selectorSet).toList) = 87 + textSize (escapeText id) := by
  show textSize (printKids [selectorSet [("ShellId".toList, id)]]) = _
  rw [size_kids, selectorSet, setPack, size_print _ _ _ _ rfl]
  show _ + textSize (printKids [.node "wsman:Selector".toList [("Name".toList, "ShellId".toList)] (some id) []]) + _ = _
  rw [size_kids, size_leaf _ _ _ h]
  have k0 : textSize (printKids []) = 0 := rfl
  have k1 : textSize "wsman:SelectorSet".toList = 17 := by decide +kernel
  have k2 : textSize "wsman:Selector".toList = 14 := by decide +kernel
  have k3 : textSize (printAttrs [("Name".toList, "ShellId".toList)]) = 15 := by decide +kernel
  have k4 : textSize (printAttrs (if false = true then [("s:mustUnderstand".toList, "true".toList)] else [])) = 0 := rfl
  have k5 : textSize (escapeText ((none : Option PyStr).getD [])) = 0 := rfl
  rw [k0, k1, k2, k3, k4, k5]; omega

/-- The size of the envelope that the calculation uses. -/
theorem size_skeleton (c : Conn) (u : UUID) :
    textSize (printDocument (skeletonEnvelope c u.toStr)) = 1086 + headerRest c + textSize (escapeText (pyStrInt c.maxEnvelope)) := by
  have hd : textSize (printAttrs (declarations (skeletonEnvelope c u.toStr))) = 305 := size_declarations _ rfl
  rw [skeletonEnvelope] at hd
  rw [skeletonEnvelope, size_document _ _ hd, size_header _ _ _ _ (by decide), size_selector _ (by decide)]
  have k1 : WSManAction.send.uri.length = 60 := by decide +kernel
  have k2 : textSize (escapeText "http://schemas.microsoft.com/wbem/wsman/1/windows/shell/cmd".toList) = 59 := by decide +kernel
  have k3 : textSize (escapeText emptyUuid) = 36 := by decide +kernel
  have k4 : textSize (printKids ((none : Option (List WSManValue)).map optionSet).toList) = 0 := rfl
  have k5 : textSize (Elem.print (.node "rsp:Send".toList [] none
        [.node "rsp:Stream".toList [("Name".toList, "stdin".toList), ("CommandId".toList, emptyUuid)] (some []) []])) = 97 := by decide +kernel
  rw [k1, k2, k3, k4, k5]; omega

theorem plain_int (n : Int) : Plain (pyStrInt n) := by
  have hd : ∀ m : Nat, Plain (pyStrNat m) := by
    intro m c hc
    have h := (pyStrNat_decimal m).2 c hc
    have key : ∀ d : Char, 48 ≤ d.toNat → d.toNat ≤ 57 → PlainChar d := by
      intro d h1 h2
      refine ⟨by omega, by omega, ?_, ?_, ?_, ?_⟩ <;> (rintro rfl; revert h1 h2; decide)
    simp only [Char.isDigit, Bool.and_eq_true, decide_eq_true_eq] at h
    exact key c (by simpa using UInt32.le_iff_toNat_le.mp h.1) (by simpa using UInt32.le_iff_toNat_le.mp h.2)
  unfold pyStrInt
  split
  · intro c hc
    rcases List.mem_cons.1 hc with rfl | hc
    · decide
    · exact hd _ c hc
  · exact hd _

end Verif
