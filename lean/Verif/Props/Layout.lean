import Verif.Lemmas.Layout
import Verif.Props.ClassRead
/-
C95: the documents of the classes have the documented form.
-/
namespace Verif

/-- C95: the table is about all classes and no others. -/
theorem C95_classes (name : String) : (findClass name.toList).isSome = (layouts.lookup name).isSome := class_layout

theorem class_text_is {c : ClassDef} {l : Layout} (hs : SameClass c l) {attrs : List (PyStr × PyVal)} {text : Option PyStr}
    (ht : classText c attrs = .ok text) : l.TextIs attrs (toStringKids text) := by
  have ht2 := hs.text
  unfold classText at ht
  unfold Layout.TextIs
  cases hk : c.text with
  | attr d =>
    rw [hk] at ht ht2
    simp only [Prod.mk.injEq] at ht2
    simp only [Except.ok.injEq] at ht
    obtain ⟨hn, hd, -⟩ := ht2
    rw [← hn, if_neg (by simp), ← ht, hd]
    cases hx : l.text with
    | none => rfl
    | some t =>
      simp only [Option.map_some, toStringKids, sayElem, hs.plain t (by simp [hx])]
  | enum m =>
    rw [hk] at ht ht2
    simp only [Prod.mk.injEq] at ht2
    obtain ⟨hn, -, hm⟩ := ht2
    rw [← hn, if_pos rfl]
    intro i hi hne
    have hv : (enumValue attrs).getD 0 = i := by
      unfold enumValue
      rcases hi with hi | ⟨hi, rfl⟩ <;> rw [hi] <;> rfl
    dsimp only at ht
    rw [hv, hm] at ht
    have hlook : ∀ t : List (Int × String), (t.map fun e => (e.1, e.2.toList)).lookup i = (t.lookup i).map String.toList := by
      intro t
      induction t with
      | nil => rfl
      | cons e t ih =>
        rw [List.map_cons, List.lookup_cons, List.lookup_cons, ih]
        split <;> rfl
    rw [hlook] at ht
    cases hx : l.texts.lookup i with
    | none => rw [hx] at ht; simp at ht
    | some t =>
      rw [hx] at ht
      simp only [Option.map_some, Except.ok.injEq] at ht
      refine ⟨t, rfl, ?_⟩
      rw [← ht]
      simp only [toStringKids, sayElem, hs.plain t (List.mem_append_left _ (List.mem_map_of_mem (lookup_pair hx)))]
  | flags f =>
    rw [hk] at ht2
    simp only [Prod.mk.injEq] at ht2
    obtain ⟨hn, -, hm⟩ := ht2
    rw [← hn, if_pos rfl]
    intro i _ hne
    exact absurd (by cases hx : l.texts with | nil => rfl | cons a b => rw [hx] at hm; simp at hm) hne

theorem fields_nil {fs : List Field} {ps : List PropDoc} {attrs : List (PyStr × PyVal)} {vs : List (Meta × PyVal)}
    (h : fs.map (fun f => (f.attr, f.write)) = ps.map (fun p => (p.attr.toList, p.meta))) (hg : getFields attrs fs = .ok vs) :
    vs = [] ↔ ps = [] := by
  have := (getFields_declared hg).1
  constructor
  · rintro rfl
    simp only [Declared, List.map_nil] at this
    cases fs with
    | nil => simpa using h.symm
    | cons => simp at this
  · rintro rfl
    cases fs with
    | nil => simpa [Declared] using this
    | cons => simp at h

/-- C95: what is written. For every object of every class, the document has the type names of the table, the text, the number of an enumeration,
and the properties in their groups: one element of the right name and kind for each, in the order of the table, null for None or nothing if the
property is optional, and no other elements. -/
theorem C95_written {name : String} {l : Layout} (hl : layouts.lookup name = some l) {c : ClassDef} (hc : findClass name.toList = some c)
    {oid : Nat} {attrs : List (PyStr × PyVal)} {v : PyVal} (hv : instanceOf c oid attrs = .ok v) {x : Xml} (hx : serialize .star v = .ok (some x)) :
    ∃ text number es as, x = .node .Obj (some ['0']) none none (typesElem l.types ++ text ++ number ++ groupElem .MS l.extended es ++ groupElem .Props l.adapted as) ∧
      l.TextIs attrs text ∧ WroteProps attrs (if l.number then [valueProp] else []) number ∧ WroteProps attrs l.extended es ∧ WroteProps attrs l.adapted as := by
  have hs := same_class hc hl
  unfold instanceOf at hv
  cases h0 : classText c attrs with
  | error e => simp [h0, bind, Except.bind] at hv
  | ok text =>
  cases h1 : getFields attrs c.sets with
  | error e => simp [h0, h1, bind, Except.bind] at hv
  | ok sets =>
  cases h2 : getFields attrs c.extended with
  | error e => simp [h0, h1, h2, bind, Except.bind] at hv
  | ok ext =>
  cases h3 : getFields attrs c.adapted with
  | error e => simp [h0, h1, h2, h3, bind, Except.bind] at hv
  | ok adp =>
  simp only [h0, h1, h2, h3, bind, Except.bind, pure, Except.pure, Except.ok.injEq] at hv
  subst hv
  unfold serialize at hx
  rw [ser, if_pos (by rfl)] at hx
  simp only [bind, Except.bind, pure, Except.pure, newObjId] at hx
  split at hx
  · simp at hx
  rename_i w hw
  split at hw
  · simp at hw
  rename_i tn htn
  split at hw
  · simp at hw
  rename_i ks hks
  split at hw
  · simp at hw
  rename_i es hes
  split at hw
  · simp at hw
  rename_i as has
  simp only [Except.ok.injEq] at hw hx
  subst hw
  simp only [Option.some.injEq] at hx
  refine ⟨toStringKids text, ks.1, es.1, as.1, ?_, class_text_is hs h0, ?_, ?_, ?_⟩
  · rw [← hx]
    have ht : tn.1 = typesElem l.types := by
      rw [hs.types] at htn
      unfold typesElem
      cases hty : l.types with
      | nil =>
        rw [hty] at htn
        simp only [List.map_nil, createTnOpt, Except.ok.injEq] at htn
        rw [← htn]; rfl
      | cons a b =>
        rw [hty] at htn
        simp only [List.map_cons, createTnOpt, createTn, SerState.clear, List.lookup_nil, bind, Except.bind, pure, Except.pure, Except.ok.injEq] at htn
        rw [← htn, if_neg (by simp), show pyStrNat 0 = ['0'] from by decide +kernel]
        simp
    have h0' : pyStrNat SerState.clear.objId = ['0'] := by decide +kernel
    rw [h0', ht]
    have hmeta : (Meta.star.settle (PyVal.typed oid c.types text sets ext adp)).name = none := settle_name _ _
    rw [hmeta]
    have ge := fields_nil hs.extended h2
    have ga := fields_nil hs.adapted h3
    simp only [ge, ga, Xml.setName, groupElem, List.isEmpty_iff]
  · exact serProps_wrote hs.sets (by
      split
      · intro p hp
        simp only [List.mem_cons, List.not_mem_nil, or_false] at hp
        subst hp
        decide
      · simp) h1 hks
  · exact serProps_wrote hs.extended (fun p hp => hs.fine p (by simp [hp])) h2 hes
  · exact serProps_wrote hs.adapted (fun p hp => hs.fine p (by simp [hp])) h3 has

/-- C95: what is read. A property of the table that is not optional must be there: without an element of its name nothing is read. -/
theorem C95_mandatory {name : String} {l : Layout} (hl : layouts.lookup name = some l) {p : PropDoc} (hp : p ∈ l.extended) (ho : p.optional = false)
    {n : String} (hn : p.name = some n) {r m tx : Option PyStr} {kids : List Xml} {d : DeState}
    (hk : ∀ x ∈ membersIn (some .MS) kids, x.name ≠ some n.toList) :
    ∃ e, deser (.cls name.toList) (.node .Obj r m tx kids) d = .error e := by
  have hsome := C95_classes name
  rw [hl] at hsome
  obtain ⟨c, hc⟩ := Option.isSome_iff_exists.mp hsome
  have hs := same_class hc hl
  have hmem : (p.attr.toList, p.meta) ∈ c.extended.map fun f => (f.attr, f.write) := by
    rw [hs.extended]; exact List.mem_map_of_mem hp
  obtain ⟨f, hf, he⟩ := List.mem_map.mp hmem
  simp only [Prod.mk.injEq] at he
  have hm : p.meta.name = p.name.map String.toList ∧ p.meta.optional = p.optional := by
    unfold PropDoc.meta
    split <;> exact ⟨rfl, rfl⟩
  refine C80_missing hc hf (by rw [he.2, hm.2, ho]) ?_
  intro x hx hfor
  rw [he.2, hm.1, hn] at hfor
  rcases hfor.2 with h | h
  · simp at h
  · exact hk x hx h

/-- C95: an optional property that is not there is None. -/
theorem C95_optional {name : String} {l : Layout} (hl : layouts.lookup name = some l) {i : Nat} {p : PropDoc} (hp : l.extended[i]? = some p)
    {n : String} (hn : p.name = some n) {r m tx : Option PyStr} {kids : List Xml} {d d' : DeState} {v : PyVal}
    (hk : ∀ x ∈ membersIn (some .MS) kids, x.name ≠ some n.toList)
    (h : deser (.cls name.toList) (.node .Obj r m tx kids) d = .ok (v, d')) :
    p.optional = true ∧ ∃ oid types text sets ext adp, v = .typed oid types text sets ext adp ∧ (ext[i]?).map (·.2) = some (.sc .none) := by
  have hsome := C95_classes name
  rw [hl] at hsome
  obtain ⟨c, hc⟩ := Option.isSome_iff_exists.mp hsome
  have hs := same_class hc hl
  obtain ⟨text, sets, ext, adp, hv, -, l2, -, -, he, -⟩ := C80_read hc h
  have hi : c.extended.length = l.extended.length := by simpa using congrArg List.length hs.extended
  obtain ⟨hlt, hpe⟩ := List.getElem?_eq_some_iff.mp hp
  have hc1 : i < c.extended.length := by omega
  have hc2 : i < ext.length := by omega
  have hf : (c.extended[i].attr, c.extended[i].write) = (p.attr.toList, p.meta) := by
    have := congrArg (·[i]?) hs.extended
    simp only [List.getElem?_map, List.getElem?_eq_getElem hc1, hp, Option.map_some, Option.some.injEq] at this
    exact this
  simp only [Prod.mk.injEq] at hf
  have hm : p.meta.name = p.name.map String.toList ∧ p.meta.optional = p.optional := by
    unfold PropDoc.meta
    split <;> exact ⟨rfl, rfl⟩
  have hz : (c.extended[i], ext[i]) ∈ c.extended.zip ext := by
    rw [List.mem_iff_getElem]
    exact ⟨i, by rw [List.length_zip]; omega, by simp⟩
  have no : ∀ x ∈ membersIn (some .MS) kids, ∀ ts, ¬ IsFor ts c.extended[i].write.name x := by
    intro x hx ts hfor
    rw [hf.2, hm.1, hn] at hfor
    rcases hfor.2 with h | h
    · simp at h
    · exact hk x hx h
  rcases he _ hz with ⟨x, -, -, ⟨pre, post, hx, hfor, -⟩, -⟩ | ⟨-, hw, ho⟩
  · exact (no x (by simp [hx]) _ hfor).elim
  · refine ⟨?_, 0, c.types, text, sets, ext, adp, hv, ?_⟩
    · rcases ho with ho | ⟨x, hx, hfor⟩
      · rw [hf.2, hm.2] at ho; exact ho
      · exact (no x hx _ hfor).elim
    · rw [List.getElem?_eq_getElem hc2, Option.map_some]
      exact congrArg some hw

/-- The size of a window, as it is written. -/
example : ∃ l c v x, layouts.lookup "Size" = some l ∧ findClass "Size".toList = some c ∧
    instanceOf c 0 [("width".toList, .sc (.int 80)), ("height".toList, .sc (.int 25))] = .ok v ∧ serialize .star v = .ok (some x) ∧
    x = .node .Obj (some ['0']) none none [
      .node .TN (some ['0']) none none [
        .node .T none none (some "System.Management.Automation.Host.Size".toList) [],
        .node .T none none (some "System.ValueType".toList) [],
        .node .T none none (some "System.Object".toList) []],
      .node .Props none none none [
        .node .I32 none (some "Width".toList) (some "80".toList) [],
        .node .I32 none (some "Height".toList) (some "25".toList) []]] :=
  ⟨_, _, _, _, rfl, rfl, rfl, rfl, by decide +kernel⟩

/-- A host answer without an error, as it is written: the optional property is left out. -/
example : ∃ l c m v x, layouts.lookup "PipelineHostResponse" = some l ∧ findClass "PipelineHostResponse".toList = some c ∧
    findClass "HostMethodIdentifier".toList = some m ∧
    instanceOf c 0 [("ci".toList, .sc (.int 7)),
      ("mi".toList, .typed 1 m.types (some "ReadLine".toList) [(.plain .I32 none false, .sc (.int 11))] [] []),
      ("mr".toList, .sc (.str "yes".toList)), ("me".toList, .sc .none)] = .ok v ∧ serialize .star v = .ok (some x) ∧
    (membersIn (some .MS) x.kids).map Xml.name = [some "ci".toList, some "mi".toList, some "mr".toList] :=
  ⟨_, _, _, _, _, rfl, rfl, rfl, rfl, rfl, by decide +kernel⟩

/-- A host answer without an error, as it is read, meets the hypotheses of `C95_optional`. -/
example : ∃ l, ∃ i : Nat, ∃ p : PropDoc, layouts.lookup "PipelineHostResponse" = some l ∧ l.extended[i]? = some p ∧ p.name = some "me" ∧
    let kids := [Xml.node .MS none none none [
      .node .I64 none (some "ci".toList) (some ['7']) [],
      .node .Obj (some ['1']) (some "mi".toList) none [.node .I32 none none (some "11".toList) []],
      .node .S none (some "mr".toList) (some "yes".toList) []]]
    (∀ x ∈ membersIn (some .MS) kids, x.name ≠ some "me".toList) ∧
      (deser (.cls "PipelineHostResponse".toList) (.node .Obj (some ['0']) none none kids) .clear).isOk = true := by
  refine ⟨_, 3, _, rfl, rfl, rfl, ?_, by decide +kernel⟩
  intro x hx
  simp only [membersIn, List.filter_cons, tag_node, decide_true, if_true, List.filter_nil, List.flatMap_cons, List.flatMap_nil,
    List.append_nil, kids_node, List.mem_cons, List.not_mem_nil, or_false] at hx
  rcases hx with rfl | rfl | rfl <;> decide +kernel

/-- The number of the call is missing in this answer. -/
example : ∃ l, ∃ p : PropDoc, layouts.lookup "PipelineHostResponse" = some l ∧ p ∈ l.extended ∧ p.optional = false ∧ p.name = some "ci" ∧
    ∀ x ∈ membersIn (some .MS) [.node .MS none none none [.node .S none (some "mr".toList) (some "yes".toList) []]], x.name ≠ some "ci".toList := by
  refine ⟨_, ⟨"ci", some "ci", .value .I64, false⟩, rfl, by simp [hostResponseProps], rfl, rfl, ?_⟩
  intro x hx
  simp only [membersIn, List.filter_cons, tag_node, decide_true, if_true, List.filter_nil, List.flatMap_cons, List.flatMap_nil,
    List.append_nil, kids_node, List.mem_cons, List.not_mem_nil, or_false] at hx
  subst hx
  decide +kernel

end Verif
