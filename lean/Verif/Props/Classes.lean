import Verif.Lemmas.ClassBuild
/-
C79, C81: objects of the message and record classes, built, written and read back.
-/
namespace Verif

/-! ### C79 -/

/-- C79, partial. An object of one of the 46 readable classes whose attributes are of the declared kinds is written as a document
that XML can carry. Reading it as an object of that class gives an object with the same type names, text and attributes, also in
nested objects. Missing: the other four classes (`C79_host_false`, `C79_error_false`), bound parameters (`C79_parameters_false`), and
values outside `Fits`, such as the DateTimes of events (`C79_time_false`) and secure strings. -/
theorem C79_roundtrip_partial {name : PyStr} {c : ClassDef} (hc : findClass name = some c) (hr : c.readable = true) {oid : Nat}
    {attrs : List (PyStr × PyVal)} {v : PyVal} (hv : instanceOf c oid attrs = .ok v)
    (fit : ∀ f ∈ c.fields, ∀ w, attrs.lookup f.attr = some w → Fits f.write f.read w)
    (pos : ∀ i, attrs.lookup "value".toList = some (.sc (.int i)) → 0 ≤ i) :
    ∃ x v' d', serialize .star v = .ok (some x) ∧ x.Sendable ∧ deser (.cls name) x.reparse .clear = .ok (v', d') ∧
      v'.forget = v.forget ∧ ∀ f ∈ c.fields, (attrOf c v' f.attr).map PyVal.forget = (attrs.lookup f.attr).map PyVal.forget := by
  obtain ⟨text, sets, ext, adp, hve, ht, s1, e1, a1, all, hattr⟩ := instance_attrs hv
  have htext : TextFits c.text sets text := class_text_fits hc ht s1 (fun p hp => all p (by simp [hp])) pos
  have hfit : Fits .star (.cls name) v := by
    subst hve
    have mem : ∀ {l : List Field} {vs : List (Meta × PyVal)} {p : Field × (Meta × PyVal)}, p ∈ l.zip vs → p.1 ∈ l :=
      fun h => (List.of_mem_zip h).1
    exact .obj (.inr rfl) hc hr s1 e1 a1 htext (fun p hp => fit _ (by simp [ClassDef.fields, mem hp]) _ (all p (by simp [hp])))
      (fun p hp => fit _ (by simp [ClassDef.fields, mem hp]) _ (all p (by simp [hp])))
      (fun p hp => fit _ (by simp [ClassDef.fields, mem hp]) _ (all p (by simp [hp])))
  obtain ⟨ox, st', h1, -, h2⟩ := fits_rounds hfit star_fine .clear .clear known_clear rfl
  cases ox with
  | none => subst hve; simp at h2
  | some x =>
    obtain ⟨-, h3, h4⟩ := h2
    rcases h4 with ⟨h5, -⟩ | ⟨-, v', d', h5, h6, -⟩
    · subst hve
      simp at h5
    · refine ⟨x, v', d', ?_, h3, h5, h6, ?_⟩
      · simp only [serialize, h1, bind, Except.bind, pure, Except.pure]
      · intro f hf
        rw [attrOf_forget, h6, ← attrOf_forget, hattr f hf]

/-- The classes that C79 leaves out. -/
theorem C79_classes : ∀ e ∈ classes, e.2.readable = false ↔
    e.1 ∈ ["_HostDefaultData", "HostInfo", "ErrorRecord", "ErrorRecordMessage"] := by
  have h : classes.all (fun e => e.2.readable ==
      !(["_HostDefaultData", "HostInfo", "ErrorRecord", "ErrorRecordMessage"].contains e.1)) = true := by decide +kernel
  intro e he
  have := List.all_eq_true.mp h e he
  simp only [beq_iff_eq] at this
  rw [this, Bool.not_eq_false', List.contains_iff_mem]

/-- Attributes of a class, None unless given. -/
def withAttrs (c : ClassDef) (given : List (PyStr × PyVal)) : List (PyStr × PyVal) :=
  given ++ c.fields.map (fun f => (f.attr, .sc .none))

/-- Builds an object with the attributes, writes it, and reads it as one of that class. -/
def sendObject (name : PyStr) (given : List (PyStr × PyVal)) : Except PyErr (Except PyErr PyVal) :=
  match findClass name with
  | none => .error .notModelled
  | some c => do
    let v ← instanceOf c 0 (withAttrs c given)
    let x ← serialize .star v
    match x with
    | none => .error .notModelled
    | some x => return (deser (.cls name) x.reparse .clear).map (·.1)

/-- The scalars in a value, for comparing. -/
def scalarsIn : PyVal → List Scalar
  | .sc s => [s]
  | .dict es => es.flatMap (fun e => (match e.1 with | .sc s => [s] | _ => []) ++ (match e.2 with | .sc s => [s] | _ => []))
  | _ => []

/-- `sendObject`, then the scalars in an attribute of what was read. -/
def sentAttr (name : PyStr) (given : List (PyStr × PyVal)) (attr : String) : Except PyErr (Except PyErr (List Scalar)) :=
  match findClass name with
  | none => .error .notModelled
  | some c => (sendObject name given).map (fun r => r.map (fun v => ((attrOf c v attr.toList).map scalarsIn).getD []))

/-- A host call that meets the hypotheses: call 7 asks for method 11 with the arguments 5 and True. -/
example : ∃ c m v, findClass "RunspacePoolHostCall".toList = some c ∧ c.readable = true ∧
    findClass "HostMethodIdentifier".toList = some m ∧
    let mi := PyVal.typed 1 m.types (some "ReadLine".toList) [(.plain .I32 none false, .sc (.int 11))] [] []
    let attrs := [("ci".toList, .sc (.int 7)), ("mi".toList, mi), ("mp".toList, .list [.sc (.int 5), .sc (.bool true)])]
    instanceOf c 0 attrs = .ok v ∧ (∀ f ∈ c.fields, ∀ w, attrs.lookup f.attr = some w → Fits f.write f.read w) ∧
      ∀ i, attrs.lookup "value".toList = some (.sc (.int i)) → 0 ≤ i := by
  refine ⟨hostCall, enumClass _ _, _, rfl, by decide +kernel, rfl, rfl, ?_, ?_⟩
  · intro f hf w hw
    simp only [hostCall, ClassDef.fields, List.nil_append, List.append_nil, List.mem_cons, List.not_mem_nil, or_false] at hf
    rcases hf with rfl | rfl | rfl
    · cases hw
      exact .scalar (by simp [TagFits])
    · cases hw
      refine .obj (.inl rfl) rfl (by decide +kernel) rfl rfl rfl ⟨?_, rfl⟩ ?_ (by simp [enumClass]) (by simp [enumClass])
      · decide +kernel
      · intro p hp
        simp only [enumClass, List.zip_cons_cons, List.zip_nil_left, List.mem_cons, List.not_mem_nil, or_false] at hp
        subst hp
        exact .scalar (by simp [TagFits])
    · cases hw
      refine .anyList ?_
      simp only [List.mem_cons, List.not_mem_nil, or_false]
      rintro x (rfl | rfl)
      · exact .sc trivial
      · exact .sc trivial
  · intro i hi
    have : ([("ci".toList, PyVal.sc (.int 7))].lookup "value".toList).isNone := by decide +kernel
    revert hi
    simp [List.lookup]

/-- C79 is false of host information, which has no setters: it cannot be read by the class that wrote it. -/
theorem C79_host_false : sentAttr "HostInfo".toList [("_is_host_null".toList, .sc (.bool true)),
    ("_is_host_ui_null".toList, .sc (.bool true)), ("_is_host_raw_ui_null".toList, .sc (.bool true)),
    ("_use_runspace_host".toList, .sc (.bool true))] "_is_host_null" = .ok (.error .attributeError) := by decide +kernel

/-- C79 is false of error records, which have two properties of one name: `invocation`, here None, comes back as the value of
`extended_info_present`. -/
theorem C79_error_false : sentAttr "ErrorRecord".toList [("fq_error".toList, .sc (.str ['f'])),
    ("category".toList, .sc (.int 1)), ("extended_info_present".toList, .sc (.bool true))] "invocation" =
      .ok (.ok [.bool true]) := by decide +kernel

/-- C79 is false of bound parameters: their names are written without the name "Key", so that all are read as the empty name. -/
theorem C79_parameters_false : sentAttr "VerboseRecord".toList [("invocation_bound_parameters".toList,
    .dict [(.sc (.str ['a']), .sc (.int 1)), (.sc (.str ['b']), .sc (.int 2))])] "invocation_bound_parameters" =
      .ok (.ok [.str [], .int 2]) := by decide +kernel

/-- C79 is false of events with a time: DateTimes are read but not written. -/
theorem C79_time_false : sentAttr "UserEvent".toList [("time".toList, .sc (.str "2024-01-01T00:00:00".toList))] "time" =
    .error .attributeError := by decide +kernel

/-! ### C81 -/

theorem construct_lookup (c : ClassDef) (kwargs : PyStr → PyVal) (a : PyStr) :
    (construct c kwargs).lookup a = (c.init.lookup a).map (fun i => match i with
      | .kw n => kwargs n
      | .const s => .sc s
      | .given n => .sc (.bool (match kwargs n with | .sc .none => false | _ => true))) := by
  unfold construct
  induction c.init with
  | nil => rfl
  | cons e l ih =>
    rw [List.map_cons, List.lookup_cons, List.lookup_cons, ih]
    cases a == e.1 <;> rfl

/-- The elements for whole numbers. -/
def wholeTags : List Tag := [.By, .SB, .U16, .I16, .U32, .I32, .U64, .I64]

/-- C79, a limit: a truth value in a property for a whole number is written as its Python name, which is not a number for any reader. -/
theorem C79_bool_false (t : Tag) (ht : t ∈ wholeTags) (n : Option PyStr) (b : Bool) (st : SerState) (m : DMeta) (d : DeState) :
    ∃ x, ser (.plain t n false) (.sc (.bool b)) st = .ok (some x, st) ∧ x.text = some (if b then "True".toList else "False".toList) ∧
      deser m x d = .error .valueError := by
  simp only [wholeTags, List.mem_cons, List.not_mem_nil, or_false] at ht
  rcases ht with rfl | rfl | rfl | rfl | rfl | rfl | rfl | rfl <;> cases b <;> refine ⟨_, rfl, rfl, ?_⟩ <;>
    · rw [deser]
      rfl

/-- Classes whose constructors assign no argument to some property. -/
def forgetful : List String := ["_HostDefaultData", "HostInfo", "ErrorRecord", "ErrorRecordMessage", "CultureInfo"]
/-- Records that start without information about the invocation. -/
def informational : List String := ["InformationalRecord", "DebugRecord", "VerboseRecord", "WarningRecord"]

/-- What a property of a new object must be. -/
def expectedAttr (name : PyStr) (kwargs : PyStr → PyVal) (a : PyStr) : PyVal :=
  if name ∈ informational.map String.toList ∧ a = "invocation".toList then .sc (.bool false) else kwargs a

theorem table_init : classes.all (fun e => forgetful.contains e.1 || e.2.fields.all (fun f => e.2.init.lookup f.attr ==
    some (if informational.contains e.1 && f.attr == "invocation".toList then .const (.bool false) else .kw f.attr))) = true := by
  decide +kernel

theorem table_value : classes.all (fun e => e.2.init.lookup "value".toList == none ||
    e.2.init.lookup "value".toList == some (.kw "value".toList)) = true := by decide +kernel

theorem findClass_entry {name : PyStr} {c : ClassDef} (h : findClass name = some c) : ∃ s, (s, c) ∈ classes ∧ s.toList = name := by
  unfold findClass at h
  cases hf : classes.find? (fun e => e.1.toList == name) with
  | none => simp [hf] at h
  | some e =>
    simp only [hf, Option.map_some, Option.some.injEq] at h
    have h1 := List.mem_of_find?_eq_some hf
    have h2 := List.find?_some hf
    refine ⟨e.1, ?_, by simpa using h2⟩
    subst h
    exact h1

theorem mem_names {l : List String} {s : String} : s.toList ∈ l.map String.toList ↔ s ∈ l := by
  simp only [List.mem_map]
  constructor
  · rintro ⟨t, ht, h⟩
    rwa [← String.toList_inj.mp h]
  · exact fun h => ⟨s, h, rfl⟩

theorem constructed {name : PyStr} {c : ClassDef} (hc : findClass name = some c) (hn : name ∉ forgetful.map String.toList)
    (kwargs : PyStr → PyVal) {f : Field} (hf : f ∈ c.fields) :
    (construct c kwargs).lookup f.attr = some (expectedAttr name kwargs f.attr) := by
  obtain ⟨s, hs, rfl⟩ := findClass_entry hc
  have h := List.all_eq_true.mp table_init _ hs
  have hs' : s ∉ forgetful := fun h => hn (mem_names.mpr h)
  simp only [Bool.or_eq_true, List.contains_iff_mem, hs', false_or] at h
  have := List.all_eq_true.mp h f hf
  rw [beq_iff_eq] at this
  rw [construct_lookup, this]
  unfold expectedAttr
  simp only [mem_names, Bool.and_eq_true, List.contains_iff_mem, beq_iff_eq]
  split <;> rfl

/-- A number that the class has a name for. -/
def NamedNumber (c : ClassDef) (v : PyVal) : Prop :=
  ∀ m, c.text = .enum m → ∃ s, m.lookup (match v with | .sc (.int i) => i | _ => 0) = some s

/-- C81, partial. An object constructed with keyword arguments has each argument as the property of that name, and None
where none was given; only records start with `invocation` false. Missing: the classes in `forgetful`
(`C81_error_false`, `C81_culture_false`; host information is computed, see C82). -/
theorem C81_constructed_partial {name : PyStr} {c : ClassDef} (hc : findClass name = some c)
    (hn : name ∉ forgetful.map String.toList) (oid : Nat) (kwargs : PyStr → PyVal) (he : NamedNumber c (kwargs "value".toList)) :
    ∃ v, instanceOf c oid (construct c kwargs) = .ok v ∧
      ∀ f ∈ c.fields, attrOf c v f.attr = some (expectedAttr name kwargs f.attr) := by
  have hall := fun f hf => constructed hc hn kwargs (f := f) hf
  have some_of : ∀ {l : List Field}, (∀ f ∈ l, f ∈ c.fields) → ∃ vs, getFields (construct c kwargs) l = .ok vs := by
    intro l hl
    exact getFields_ok fun f hf => by rw [hall f (hl f hf)]; rfl
  obtain ⟨ss, h1⟩ := some_of (l := c.sets) fun f hf => by simp [ClassDef.fields, hf]
  obtain ⟨es, h2⟩ := some_of (l := c.extended) fun f hf => by simp [ClassDef.fields, hf]
  obtain ⟨as, h3⟩ := some_of (l := c.adapted) fun f hf => by simp [ClassDef.fields, hf]
  have ht : ∃ t, classText c (construct c kwargs) = .ok t := by
    unfold classText
    cases hx : c.text with
    | attr d => exact ⟨_, rfl⟩
    | flags f => exact ⟨_, rfl⟩
    | enum m =>
      obtain ⟨s, hs⟩ := he m hx
      have hsets : c.sets = [⟨"value".toList, .plain .I32 none false, .plain .I32⟩] := by
        obtain ⟨e, hm, rfl⟩ := findClass_mem hc
        have := List.all_eq_true.mp table_computed e hm
        rw [hx] at this
        simpa using this
      have hv : (construct c kwargs).lookup "value".toList = some (kwargs "value".toList) := by
        have := hall ⟨"value".toList, .plain .I32 none false, .plain .I32⟩ (by simp [ClassDef.fields, hsets])
        rw [this, expectedAttr, if_neg]
        rintro ⟨-, h⟩
        revert h
        decide +kernel
      have : (enumValue (construct c kwargs)).getD 0 = (match kwargs "value".toList with | .sc (.int i) => i | _ => 0) := by
        unfold enumValue
        rw [hv]
        cases kwargs "value".toList with
        | sc s => cases s <;> rfl
        | _ => rfl
      exact ⟨some s, by simp only [this, hs]⟩
  obtain ⟨t, ht⟩ := ht
  refine ⟨.typed oid c.types t ss es as, by simp [instanceOf, ht, h1, h2, h3, bind, Except.bind, pure, Except.pure], ?_⟩
  intro f hf
  have hi : instanceOf c oid (construct c kwargs) = .ok (.typed oid c.types t ss es as) := by
    simp [instanceOf, ht, h1, h2, h3, bind, Except.bind, pure, Except.pure]
  obtain ⟨-, -, -, -, -, -, -, -, -, -, h⟩ := instance_attrs hi
  rw [h f hf, hall f hf]

/-- C81 and C79 together: from the arguments of the constructor to the attributes of what the other side reads. -/
theorem C81_received_partial {name : PyStr} {c : ClassDef} (hc : findClass name = some c) (hr : c.readable = true)
    (hn : name ∉ forgetful.map String.toList) (oid : Nat) (kwargs : PyStr → PyVal) (he : NamedNumber c (kwargs "value".toList))
    (fit : ∀ f ∈ c.fields, Fits f.write f.read (expectedAttr name kwargs f.attr))
    (pos : ∀ i, kwargs "value".toList = .sc (.int i) → 0 ≤ i) :
    ∃ v x v' d', instanceOf c oid (construct c kwargs) = .ok v ∧ serialize .star v = .ok (some x) ∧ x.Sendable ∧
      deser (.cls name) x.reparse .clear = .ok (v', d') ∧
      ∀ f ∈ c.fields, (attrOf c v' f.attr).map PyVal.forget = some (expectedAttr name kwargs f.attr).forget := by
  obtain ⟨v, hv, -⟩ := C81_constructed_partial hc hn oid kwargs he
  have hall := fun f hf => constructed hc hn kwargs (f := f) hf
  obtain ⟨x, v', d', h1, h2, h3, -, h4⟩ := C79_roundtrip_partial hc hr hv
    (fun f hf w hw => by
      rw [hall f hf, Option.some.injEq] at hw
      exact hw ▸ fit f hf)
    (fun i hi => by
      obtain ⟨e, hm, rfl⟩ := findClass_mem hc
      have := List.all_eq_true.mp table_value e hm
      rw [construct_lookup] at hi
      simp only [Bool.or_eq_true, beq_iff_eq] at this
      rcases this with h | h
      · rw [h] at hi
        cases hi
      · simp only [h, Option.map_some, Option.some.injEq] at hi
        exact pos i hi)
  refine ⟨v, x, v', d', hv, h1, h2, h3, fun f hf => ?_⟩
  rw [h4 f hf, hall f hf]
  rfl

/-- Arguments that meet the hypotheses: a warning with a message. -/
example : ∃ c, findClass "WarningRecord".toList = some c ∧ c.readable = true ∧
    "WarningRecord".toList ∉ forgetful.map String.toList ∧
    let kwargs : PyStr → PyVal := fun a => if a = "message".toList then .sc (.str ['h', 'i']) else .sc .none
    NamedNumber c (kwargs "value".toList) ∧ (∀ f ∈ c.fields, Fits f.write f.read (expectedAttr "WarningRecord".toList kwargs f.attr)) ∧
      ∀ i, kwargs "value".toList = .sc (.int i) → 0 ≤ i := by
  refine ⟨_, rfl, by decide +kernel, by decide +kernel, ?_, ?_, ?_⟩
  · intro m hm
    exact absurd hm (by simp [informationalRecord])
  · intro f hf
    have hs : PlainScalar (.str ['h', 'i']) := ⟨fun ⟨n, _, _, _, _, _, _, _, _, _, _, hu, _⟩ => by
      have := congrArg List.length hu
      have hle : (utf16 ((['h', 'i'].drop n).take 8)).length ≤ 2 := by
        match n with
        | 0 => decide
        | 1 => decide
        | n + 2 => simp [utf16]
      simp at this
      omega, by decide⟩
    unfold expectedAttr
    split
    · rename_i h
      have key : (informationalRecord ["System.Management.Automation.WarningRecord".toList]).fields.all (fun f =>
          f.attr != "invocation".toList || f == prim "invocation" .B "InformationalRecord_SerializeInvocationInfo") = true := by
        decide +kernel
      have := List.all_eq_true.mp key f hf
      simp only [Bool.or_eq_true, bne_iff_ne, ne_eq, h.2, not_true, false_or, beq_iff_eq] at this
      subst this
      exact .scalar rfl
    · have key : (informationalRecord ["System.Management.Automation.WarningRecord".toList]).fields.all (fun f =>
          f.attr != "message".toList || f == prim "message" .S "InformationalRecord_Message") = true := by
        decide +kernel
      have := List.all_eq_true.mp key f hf
      dsimp only
      split
      · rename_i h
        simp only [Bool.or_eq_true, bne_iff_ne, ne_eq, h, not_true, false_or, beq_iff_eq] at this
        subst this
        exact .scalar (.inl ⟨by decide, hs⟩)
      · exact .none
  · intro i hi
    have : "value".toList ≠ "message".toList := by decide +kernel
    dsimp only at hi
    rw [if_neg this] at hi
    cases hi

theorem getFields_missing {attrs : List (PyStr × PyVal)} : ∀ {fs : List Field} {f : Field}, f ∈ fs → attrs.lookup f.attr = none →
    getFields attrs fs = .error .attributeError
  | [], _, hf, _ => by simp at hf
  | g :: fs, f, hf, h => by
    unfold getFields
    rcases List.mem_cons.mp hf with rfl | hf
    · rw [h]
    · cases hg : attrs.lookup g.attr with
      | none => rfl
      | some v => simp [getFields_missing hf h, bind, Except.bind]

/-- C81 is false of error records: whatever the arguments are, a new one has no `target_object` and cannot be sent. -/
theorem C81_error_false (oid : Nat) (kwargs : PyStr → PyVal) :
    instanceOf errorRecord oid (construct errorRecord kwargs) = .error .attributeError := by
  have h0 : classText errorRecord (construct errorRecord kwargs) = .ok none := rfl
  have h1 : getFields (construct errorRecord kwargs) errorRecord.sets = .ok [] := rfl
  have h2 : getFields (construct errorRecord kwargs) errorRecord.extended = .error .attributeError := by
    refine getFields_missing (f := anyOf "target_object" "TargetObject" true) (by decide +kernel) ?_
    rw [construct_lookup, show errorRecord.init.lookup (anyOf "target_object" "TargetObject" true).attr = none by decide +kernel]
    rfl
  simp [instanceOf, h0, h1, h2, bind, Except.bind]

/-- C81 is false of cultures: the language tag goes to a misspelt attribute. -/
theorem C81_culture_false : ∃ c, findClass "CultureInfo".toList = some c ∧ ∀ (oid : Nat) (kwargs : PyStr → PyVal),
    instanceOf c oid (construct c kwargs) = .error .attributeError := by
  refine ⟨_, rfl, fun oid kwargs => ?_⟩
  rfl

end Verif
