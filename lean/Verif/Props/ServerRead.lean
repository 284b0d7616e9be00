import Verif.Lemmas.ServerRead
import Verif.Props.PoolDocs
/-
C96: what a server writes is read.
-/
namespace Verif

theorem knows_clear : Knows {} .clear := ⟨fun _ => rfl, fun _ _ h => by simp at h⟩

/-- C96, partial: every document that a server may write for a value is read as that value.
Missing: containers in lists of objects (`C96_nested_false`), enumerables (`C96_enumerable_false`), primitive values with properties
(`C96_number_false`, `C96_mixed_false`), escapes in names (`C96_name_false`), and numbers with fractions, which are not modelled. -/
theorem C96_read_partial {v : SVal} {x : Xml} {s : SrvState} (h : Written {} .property v none x s) : deserialize x = .ok v.value := by
  obtain ⟨d, hd, -⟩ := written_read h (.plain .star) .clear (.inl rfl) knows_clear
  unfold deserialize
  rw [hd]
  rfl

theorem output_read {rd : Reader} {text : PyStr} {bytes : Bytes} {v : PyVal} (hm : MessageText .pipelineOutput text bytes)
    (h : readData .pipelineOutput text = .ok (some v)) : srvMsg rd bytes = .ok (.output (rd.name v)) := by
  obtain ⟨d, rpid, pid, body, h1, h2⟩ := unpack_text hm
  unfold srvMsg unpackMessage
  simp only [bind, Except.bind, h1, h2, h]
  rfl

theorem text_value {m : DMeta} {text : PyStr} {bytes : Bytes} (hm : MessageText .pipelineOutput text bytes) {x : Xml} (hx : xmlOfText text = some x) :
    deserializeText m text = (deser m x .clear).map (·.1) := by
  unfold deserializeText
  rw [if_neg (utf8_lt hm.xml).2, hx]
  cases hd : deser m x .clear with
  | error e => simp only [hd, bind, Except.bind, Except.map]
  | ok r => simp only [hd, bind, Except.bind, Except.map]; rfl

/-- C96, partial: the bytes of a message with an object that a script wrote. Missing: as for `C96_read_partial`. -/
theorem C96_output_partial (rd : Reader) {text : PyStr} {bytes : Bytes} (hm : MessageText .pipelineOutput text bytes) {x : Xml} (hx : xmlOfText text = some x)
    {v : SVal} {s : SrvState} (h : Written {} .property v none x s) : srvMsg rd bytes = .ok (.output (rd.name v.value)) := by
  obtain ⟨d, hd, -⟩ := written_read h (.plain .star) .clear (.inl rfl) knows_clear
  refine output_read hm ?_
  simp only [readData, text_value hm hx, hd, Except.map, bind, Except.bind]
  rfl

/-- C96: an object that claims to be of a class of the library but does not have its properties is read like any other object. -/
theorem C96_fallback (rd : Reader) {text : PyStr} {bytes : Bytes} (hm : MessageText .pipelineOutput text bytes) {x : Xml} (hx : xmlOfText text = some x)
    (hf : deserialize x = .error .serializationError) {v : SVal} {s : SrvState} (h : Written {} .objects v none x s) :
    srvMsg rd bytes = .ok (.output (rd.name v.value)) := by
  obtain ⟨d, hd, -⟩ := written_read h .dynamic .clear rfl knows_clear
  refine output_read hm ?_
  have he : deser (.plain .star) x .clear = .error .serializationError := by
    unfold deserialize at hf
    cases hr : deser (.plain .star) x .clear with
    | error e => rw [hr] at hf; simpa [bind, Except.bind] using hf
    | ok r => rw [hr] at hf; simp [bind, Except.bind, pure, Except.pure] at hf
  simp only [readData, text_value hm hx, he, hd, Except.map, bind, Except.bind]
  rfl

/-! ### a document -/

theorem plain_text {s : PyStr} (h : ∀ u ∈ utf16 s, u ≠ 0x5F ∧ u ≠ 0x5F00) : TextMeans (some s) s := by
  refine .inr ⟨s, (utf16 s).map .lit, rfl, ?_, ?_, ?_, ?_⟩
  · rw [List.flatMap_map]
    show utf16 s = (utf16 s).flatMap fun u => [u]
    simp
  · rw [List.map_map]
    conv => lhs; rw [← List.map_id (utf16 s)]
    rfl
  · intro p hp
    obtain ⟨u, -, rfl⟩ := List.mem_map.mp hp
    trivial
  · generalize utf16 s = us at h
    have hw : ∀ us : List UInt16, (us.map Piece.lit).flatMap Piece.written = us := by
      intro us
      rw [List.flatMap_map]
      show us.flatMap (fun u => [u]) = us
      simp
    induction us with
    | nil => trivial
    | cons u us ih =>
      rw [List.map_cons]
      refine ⟨?_, ?_, ih fun v hv => h v (by simp [hv])⟩
      · rw [hw]
        rintro ⟨a, b, c, d, rest, he, -⟩
        injection he with h1 _
        exact (h u (by simp)).1 h1
      · rw [hw]
        rintro ⟨u0, u2, u3, u4, u5, u6, u7, rest, he, -⟩
        exact (h 0x5F00 (by rw [he]; simp)).2 rfl

instance (names : List String) (t : PyStr) : Decidable (OneOf names t) := by unfold OneOf; infer_instance

theorem foreign_of {t : PyStr} (h1 : ¬ OneOf knownNames (plainType t)) (h2 : ¬ "[]".toList <:+ plainType t)
    (h3 : (listPrefixes ++ [dictPrefix]).all (fun p => !p.toList.isPrefixOf (plainType t)) = true) : Foreign t := by
  have h := List.all_eq_true.mp h3
  refine ⟨h1, fun e he => absurd ⟨e, he.symm⟩ h2, fun p hp hc => ?_, fun hc => ?_⟩
  · have := h p (by simp [hp])
    rw [List.isPrefixOf_iff_prefix.mpr hc] at this
    simp at this
  · have := h dictPrefix (by simp)
    rw [List.isPrefixOf_iff_prefix.mpr hc] at this
    simp at this

def customTypes : List PyStr := ["System.Management.Automation.PSCustomObject".toList, "System.Object".toList]
def hashTypes : List PyStr := ["System.Collections.Hashtable".toList, "System.Object".toList]
def arrayTypes : List PyStr := ["System.Object[]".toList, "System.Array".toList, "System.Object".toList]

theorem custom_generic : GenericTypes customTypes :=
  .inr ⟨["System.Management.Automation.PSCustomObject".toList], "System.Object".toList, [], rfl,
    by
      intro u hu
      simp only [List.mem_cons, List.not_mem_nil, or_false] at hu
      subst hu
      exact foreign_of (by decide +kernel) (by decide +kernel) (by decide +kernel), by decide +kernel⟩

theorem hash_dict : DictTypes hashTypes := ⟨[], "System.Collections.Hashtable".toList, _, rfl, by simp, .inl (by decide +kernel)⟩

theorem array_objects : ObjectListTypes arrayTypes :=
  ⟨[], "System.Object[]".toList, _, rfl, by simp, "System.Object", by decide +kernel, .inl (by decide +kernel)⟩

def tnElem (r : String) (types : List PyStr) : Xml := .node .TN (some r.toList) none none (types.map fun t => .node .T none none (some t) [])

/-- A list with an object, in which there is a table, another object of the same types, and a reference to the first. -/
def demoServer : Xml :=
  .node .Obj (some "0".toList) none none [
    tnElem "0" arrayTypes,
    .node .LST none none none [
      .node .Obj (some "1".toList) none none [
        tnElem "1" customTypes,
        .node .ToString none none (some "@{Name=web1}".toList) [],
        .node .MS none none none [
          .node .S none (some "Name".toList) (some "web1".toList) [],
          .node .Obj (some "2".toList) (some "Tags".toList) none [
            tnElem "2" hashTypes,
            .node .DCT none none none [
              .node .En none none none [.node .S none (some "Key".toList) (some "port".toList) [], .node .I32 none (some "Value".toList) (some "80".toList) []]]]]],
      .node .Obj (some "3".toList) none none [.node .TNRef (some "1".toList) none none []],
      .node .Ref (some "1".toList) none none []]]

def demoObject : SVal := .obj customTypes none (some "@{Name=web1}".toList) []
  [("Name".toList, .prim (.str "web1".toList)), ("Tags".toList, .dict [(.str "port".toList, .prim (.int 80))])]

theorem demo_written : ∃ s, Written {} .property (.list [demoObject, .obj customTypes none none [] [], demoObject]) none demoServer s :=
  ⟨_, .list (tx := [tnElem "0" arrayTypes]) (rest := []) (types := arrayTypes) trivial (.inl ⟨rfl, array_objects⟩) (.new (by decide +kernel))
    (.cons
      (.obj (tx := [tnElem "1" customTypes]) (bx := []) (sx := [.node .ToString none none (some "@{Name=web1}".toList) []])
        (mid := [.node .ToString none none (some "@{Name=web1}".toList) []]) (ax := []) (ag := []) trivial (.inr custom_generic) (.new (by decide +kernel)) rfl
        ⟨_, rfl, plain_text (by decide +kernel)⟩ (.inl rfl) (by decide +kernel) (by decide +kernel) .nil
        (.cons (.prim (.text (by decide) (plain_text (by decide +kernel))))
          (.cons (.dict (tx := [tnElem "2" hashTypes]) (rest := []) trivial hash_dict (.new (by decide +kernel)) (by simp)
            (.cons (.text (by decide) (plain_text (by decide +kernel)))
              (.prim (.whole (s := "80".toList) (by decide) ⟨by decide +kernel, by decide +kernel⟩)) .nil) (by intro x hx; simp at hx)) .nil))
        (.inr ⟨rfl, rfl⟩) (.inl rfl))
      (.cons
        (.obj (tx := [.node .TNRef (some "1".toList) none none []]) (bx := []) (sx := []) (mid := []) (ax := []) (ag := []) (ex := []) (eg := [])
          trivial (.inr custom_generic) (.again (by decide +kernel) (by decide +kernel)) rfl rfl (.inl rfl) (by decide +kernel) (by decide +kernel) .nil .nil
          (.inr ⟨rfl, rfl⟩) (.inr ⟨rfl, rfl⟩))
        (.cons (.ref (by rfl)) .nil)))
    (by intro x hx; simp at hx)⟩

example : deserialize demoServer = .ok (.list [
    .generic 0 customTypes (some "@{Name=web1}".toList) [] [("Name".toList, .sc (.str "web1".toList)),
      ("Tags".toList, .dict [(.sc (.str "port".toList), .sc (.int 80))])] [],
    .generic 0 customTypes none [] [] [],
    .generic 0 customTypes (some "@{Name=web1}".toList) [] [("Name".toList, .sc (.str "web1".toList)),
      ("Tags".toList, .dict [(.sc (.str "port".toList), .sc (.int 80))])] []]) := by
  obtain ⟨s, h⟩ := demo_written
  exact C96_read_partial h

/-- A message with the same kind of list. -/
example (rd : Reader) : srvMsg rd (demoMessage [0x04, 0x10, 0x04, 0]
    "<Obj RefId=\"0\"><TN RefId=\"0\"><T>System.Object[]</T><T>System.Array</T><T>System.Object</T></TN><LST><S>a</S><I32>-3</I32></LST></Obj>") =
    .ok (.output (rd.name (.list [.sc (.str "a".toList), .sc (.int (-3))]))) :=
  C96_output_partial rd (demo_text rfl (by decide +kernel) (by decide +kernel))
    (x := .node .Obj (some "0".toList) none none [tnElem "0" arrayTypes,
      .node .LST none none none [.node .S none none (some "a".toList) [], .node .I32 none none (some "-3".toList) []]])
    (by decide +kernel) (v := .list [.prim (.str "a".toList), .prim (.int (-3))])
    (.list (tx := [tnElem "0" arrayTypes]) (rest := []) (types := arrayTypes) trivial (.inl ⟨rfl, array_objects⟩) (.new (by decide +kernel))
      (.cons (.prim (.text (by decide) (plain_text (by decide +kernel))))
        (.cons (.prim (.negative (s := "3".toList) (by decide) ⟨by decide +kernel, by decide +kernel⟩)) .nil))
      (by intro x hx; simp at hx))

/-- An object of the type of a size without a height. -/
def wideDoc : Xml := .node .Obj (some "0".toList) none none [tnElem "0" ["System.Management.Automation.Host.Size".toList],
  .node .Props none none none [.node .I32 none (some "width".toList) (some "80".toList) []]]

example (rd : Reader) : srvMsg rd (demoMessage [0x04, 0x10, 0x04, 0]
    "<Obj RefId=\"0\"><TN RefId=\"0\"><T>System.Management.Automation.Host.Size</T></TN><Props><I32 N=\"width\">80</I32></Props></Obj>") =
    .ok (.output (rd.name (.generic 0 ["System.Management.Automation.Host.Size".toList] none [] [] [("width".toList, .sc (.int 80))]))) :=
  C96_fallback rd (demo_text rfl (by decide +kernel) (by decide +kernel)) (x := wideDoc) (by decide +kernel)
    (by
      have h : (match deserialize wideDoc with | .error .serializationError => true | _ => false) = true := by decide +kernel
      split at h
      · assumption
      · cases h)
    (v := .obj ["System.Management.Automation.Host.Size".toList] none none [("width".toList, .prim (.int 80))] [])
    (.obj (tx := [tnElem "0" ["System.Management.Automation.Host.Size".toList]]) (bx := []) (sx := []) (mid := []) (ex := []) (eg := [])
      (show Place.Fits .objects (.obj _ none none _ []) from trivial) (.inl rfl) (.new (by decide +kernel)) rfl rfl (.inl rfl) (by decide +kernel) (by decide +kernel)
      (.cons (.prim (.whole (s := "80".toList) (by decide) ⟨by decide +kernel, by decide +kernel⟩)) .nil) .nil (.inl rfl) (.inr ⟨rfl, rfl⟩))

/-! ### what is not read -/

def alTypes : List PyStr := ["System.Collections.ArrayList".toList, "System.Object".toList]

/-- `,@(@{a = 1})`: an array with a table. -/
def nestedDoc : Xml :=
  .node .Obj (some "0".toList) none none [
    tnElem "0" arrayTypes,
    .node .LST none none none [
      .node .Obj (some "1".toList) none none [
        tnElem "1" hashTypes,
        .node .DCT none none none [
          .node .En none none none [.node .S none (some "Key".toList) (some "a".toList) [], .node .I32 none (some "Value".toList) (some "1".toList) []]]]]]

/-- What a value is, as far as it matters here. -/
inductive ReadKind where
  | raw
  | table
  | object (sets : Nat)
  | text (s : PyStr)
  | other
  deriving DecidableEq

def PyVal.kind : PyVal → ReadKind
  | .raw _ => .raw
  | .dict _ => .table
  | .generic _ _ _ sets _ _ => .object sets.length
  | .sc (.str s) => .text s
  | _ => .other

/-- The items of a list that was read. -/
def itemKinds : Except PyErr PyVal → List ReadKind
  | .ok (.list vs) => vs.map PyVal.kind
  | _ => []

/-- The extended properties of an object that was read. -/
def propertyKinds : Except PyErr PyVal → List (PyStr × ReadKind)
  | .ok (.generic _ _ _ _ ps _) => ps.map fun p => (p.1, p.2.kind)
  | _ => []

theorem item_kind {r : Except PyErr PyVal} {k : ReadKind} (h : itemKinds r = [k]) : ∃ v, r = .ok (.list [v]) ∧ v.kind = k := by
  unfold itemKinds at h
  split at h
  · next vs =>
    match vs, h with
    | [v], h => exact ⟨v, rfl, by simpa using h⟩
  · cases h

/-- C96: a table in an array is not read as a table, but as an object with the document of its entries. -/
theorem C96_nested_false : ∃ v, deserialize nestedDoc = .ok (.list [v]) ∧ ∀ es, v ≠ .dict es := by
  obtain ⟨v, h1, h2⟩ := item_kind (k := .object 1) (r := deserialize nestedDoc) (by decide +kernel)
  exact ⟨v, h1, fun es he => by subst he; cases h2⟩

/-- A property with an enumerable of a type that the library does not know. -/
def enumerableDoc : Xml :=
  .node .Obj (some "0".toList) none none [tnElem "0" customTypes, .node .MS none none none [
    .node .Obj (some "1".toList) (some "Items".toList) none [
      tnElem "1" ["System.Linq.Enumerable+RangeIterator".toList, "System.Object".toList], .node .IE none none none [.node .I32 none none (some "1".toList) []]]]]

/-- C96: the items of an enumerable are not read. -/
theorem C96_enumerable_false : propertyKinds (deserialize enumerableDoc) = [("Items".toList, .object 1)] := by decide +kernel

/-- `5 | Add-Member Note n -PassThru`. -/
def typedPrimDoc : Xml := .node .Obj (some "0".toList) none none [tnElem "0" ["System.Int32".toList, "System.ValueType".toList, "System.Object".toList],
  .node .I32 none none (some "5".toList) [], .node .MS none none none [.node .S none (some "Note".toList) (some "n".toList) []]]

/-- C96: an object that is a number is read as its document. -/
theorem C96_number_false : ∃ x, deserialize typedPrimDoc = .ok (.raw x) := by
  have h : (match deserialize typedPrimDoc with | .ok v => decide (v.kind = .raw) | _ => false) = true := by decide +kernel
  cases hv : deserialize typedPrimDoc with
  | error e => rw [hv] at h; cases h
  | ok v =>
    rw [hv] at h
    have hk := of_decide_eq_true h
    unfold PyVal.kind at hk
    split at hk <;> first | exact ⟨_, rfl⟩ | cases hk

/-- A property with a line feed in its name. -/
def nameDoc : Xml := .node .Obj (some "0".toList) none none [tnElem "0" customTypes, .node .MS none none none [.node .S none (some "a_x000A_b".toList) (some "n_x000A_".toList) []]]

/-- C96: escapes in the names of properties are not read, those in the values are. -/
theorem C96_name_false : propertyKinds (deserialize nameDoc) = [("a_x000A_b".toList, .text "n\n".toList)] := by decide +kernel

/-- A list with a string and a string that has a property. -/
def mixedDoc : Xml := .node .Obj (some "0".toList) none none [tnElem "0" alTypes, .node .LST none none none [.node .S none none (some "a".toList) [],
 .node .Obj (some "1".toList) none none [.node .S none none (some "b".toList) [], .node .MS none none none [.node .S none (some "Note".toList) (some "n".toList) []]]]]

/-- C96: after an item that is a string, an object without type names is read as its document. -/
theorem C96_mixed_false : itemKinds (deserialize mixedDoc) = [.text "a".toList, .raw] := by decide +kernel

/-- Capitals in a truth value. -/
example : PrimWritten .B (some "True".toList) (.bool true) :=
  .bool (.capital (show ('T', 't') ∈ letterPairs by decide +kernel) (.same (.same (.same .nil))))

end Verif
