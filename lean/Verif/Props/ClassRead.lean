import Verif.Lemmas.ClassBuild
import Verif.Spec.Classes
/-
C80: reading an object of a class from a document of the server.
-/
namespace Verif

theorem carriers_eq (t : Tag) : carriers t = fieldTags t := by
  unfold carriers fieldTags
  split <;> simp_all

theorem members_eq (inside : Option Tag) (t : Tag) (n : Option PyStr) (kids : List Xml) :
    findField inside t n kids = (membersIn inside kids).find? (fieldMatch t n) := by
  cases inside with
  | none => rfl
  | some g =>
    have : ∀ l : List Xml, l.flatMap (fun k => if k.tag = g then k.kids else []) =
        (l.filter (fun k => decide (k.tag = g))).flatMap Xml.kids := by
      intro l
      induction l with
      | nil => rfl
      | cons a l ih =>
        rw [List.flatMap_cons, List.filter_cons, ih]
        by_cases h : a.tag = g <;> simp [h]
    unfold findField membersIn
    dsimp only
    rw [this]

theorem match_isFor {tags : List Tag} {n : Option PyStr} {x : Xml} : IsFor tags n x ↔ ∃ t ∈ tags, fieldMatch t n x = true := by
  unfold IsFor fieldMatch
  simp only [Bool.and_eq_true, Bool.or_eq_true, beq_iff_eq]
  constructor
  · rintro ⟨h | h, hn⟩
    · exact ⟨_, h, .inl rfl, hn⟩
    · exact ⟨_, h, .inr rfl, hn⟩
  · rintro ⟨t, ht, h | h, hn⟩
    · exact ⟨.inl (h ▸ ht), hn⟩
    · exact ⟨.inr (h ▸ ht), hn⟩

/-- An element is found exactly if there is one. -/
theorem fieldElem_none {inside : Option Tag} {f : Field} {kids : List Xml} (h : fieldElem inside f kids = none) :
    ∀ x ∈ membersIn inside kids, ¬ IsFor (carriers f.write.tag) f.write.name x := by
  intro x hx hf
  rw [carriers_eq] at hf
  obtain ⟨t, ht, hm⟩ := match_isFor.mp hf
  unfold fieldElem at h
  rw [List.findSome?_eq_none_iff] at h
  have := h t ht
  rw [members_eq, List.find?_eq_none] at this
  exact this x hx hm

theorem find_split {p : Xml → Bool} : ∀ {l : List Xml} {x : Xml}, l.find? p = some x →
    ∃ pre post, l = pre ++ x :: post ∧ p x = true ∧ ∀ y ∈ pre, p y = false
  | [], x, h => by simp at h
  | a :: l, x, h => by
    rw [List.find?_cons] at h
    cases ha : p a with
    | true =>
      simp only [ha, Option.some.injEq] at h
      exact ⟨[], l, by simp [h], h ▸ ha, by simp⟩
    | false =>
      simp only [ha] at h
      obtain ⟨pre, post, rfl, h2, h3⟩ := find_split h
      refine ⟨a :: pre, post, rfl, h2, ?_⟩
      intro y hy
      rcases List.mem_cons.mp hy with rfl | hy
      · exact ha
      · exact h3 y hy

theorem fieldElem_some {inside : Option Tag} {f : Field} {kids : List Xml} {x : Xml} (h : fieldElem inside f kids = some x) :
    FirstFor (carriers f.write.tag) f.write.name (membersIn inside kids) x := by
  unfold fieldElem at h
  rw [carriers_eq]
  have single : ∀ t, fieldTags f.write.tag = [t] → FirstFor (fieldTags f.write.tag) f.write.name (membersIn inside kids) x := by
    intro t ht
    rw [ht] at h ⊢
    simp only [List.findSome?_cons, List.findSome?_nil, members_eq] at h
    cases hf : (membersIn inside kids).find? (fieldMatch t f.write.name) with
    | none => simp [hf] at h
    | some y =>
      simp only [hf, Option.some.injEq] at h
      subst h
      obtain ⟨pre, post, h1, h2, h3⟩ := find_split hf
      refine ⟨pre, post, h1, match_isFor.mpr ⟨t, by simp, h2⟩, fun y hy hm => ?_⟩
      obtain ⟨t', ht', hm'⟩ := match_isFor.mp hm
      simp only [List.mem_cons, List.not_mem_nil, or_false] at ht'
      subst ht'
      rw [h3 y hy] at hm'
      cases hm'
  by_cases hc : f.write.tag ∈ [Tag.DCT, .LST, .IE, .QUE, .STK, .ObjDynamic]
  · have hft : fieldTags f.write.tag = [.Obj, .Ref] := by unfold fieldTags; rw [if_pos hc]
    rw [hft] at h ⊢
    have hobj : ∀ y : Xml, fieldMatch .Obj f.write.name y = true → y.tag = .Obj := by
      intro y hy
      unfold fieldMatch at hy
      simp only [Bool.and_eq_true, Bool.or_eq_true, beq_iff_eq] at hy
      exact hy.1.resolve_left (by decide)
    have href : ∀ y : Xml, fieldMatch .Ref f.write.name y = true → y.tag = .Ref := by
      intro y hy
      unfold fieldMatch at hy
      simp only [Bool.and_eq_true, Bool.or_eq_true, beq_iff_eq] at hy
      exact hy.1.resolve_left (by decide)
    simp only [List.findSome?_cons, List.findSome?_nil, members_eq] at h
    cases hf : (membersIn inside kids).find? (fieldMatch .Obj f.write.name) with
    | some y =>
      simp only [hf, Option.some.injEq] at h
      subst h
      obtain ⟨pre, post, h1, h2, h3⟩ := find_split hf
      refine ⟨pre, post, h1, match_isFor.mpr ⟨.Obj, by simp, h2⟩, fun y hy hm => ⟨hobj _ h2, ?_⟩⟩
      obtain ⟨t', ht', hm⟩ := match_isFor.mp hm
      simp only [List.mem_cons, List.not_mem_nil, or_false] at ht'
      rcases ht' with rfl | rfl
      · rw [h3 y hy] at hm
        cases hm
      · exact href y hm
    | none =>
      rw [hf] at h
      cases hr : (membersIn inside kids).find? (fieldMatch .Ref f.write.name) with
      | none => simp [hr] at h
      | some y =>
        simp only [hr, Option.some.injEq] at h
        subst h
        obtain ⟨pre, post, h1, h2, h3⟩ := find_split hr
        refine ⟨pre, post, h1, match_isFor.mpr ⟨.Ref, by simp, h2⟩, fun y hy hm => ?_⟩
        exfalso
        obtain ⟨t', ht', hm⟩ := match_isFor.mp hm
        simp only [List.mem_cons, List.not_mem_nil, or_false] at ht'
        rcases ht' with rfl | rfl
        · rw [List.find?_eq_none] at hf
          exact hf y (by simp [h1, hy]) hm
        · rw [h3 y hy] at hm
          cases hm
  · exact single f.write.tag (by unfold fieldTags; rw [if_neg hc])

/-! ### C80 -/

/-- A property of an object that was read: the value of its element, or None if there is no such element and it is optional
or explicitly null. -/
def ReadFrom (es : List Xml) (f : Field) (w : PyVal) : Prop :=
  (∃ x s s', FirstFor (carriers f.write.tag) f.write.name es x ∧ deser f.read x s = .ok (w, s')) ∨
    ((∀ x ∈ es, ¬ IsFor (carriers f.write.tag) f.write.name x) ∧ w = .sc .none ∧
      (f.write.optional = true ∨ ∃ x ∈ es, IsFor [.Nil] f.write.name x))

theorem readProp_from {c : ClassDef} {f : Field} {inside : Option Tag} {kids : List Xml} {st st' : DeState} {m : Meta} {w : PyVal}
    (h : readProp c f (fun t st => deLook inside t f.write.name f.read kids st) (fun t => findField inside t f.write.name kids) st =
      .ok ((m, w), st')) : ReadFrom (membersIn inside kids) f w := by
  rw [readProp_eq] at h
  cases hf : fieldElem inside f kids with
  | some x =>
    simp only [hf] at h
    cases hd : deser f.read x st with
    | error e => simp [hd, Except.map] at h
    | ok r =>
      simp only [hd, Except.map, Except.ok.injEq, Prod.mk.injEq] at h
      exact .inl ⟨x, st, r.2, fieldElem_some hf, by rw [hd, ← h.1.2]⟩
  | none =>
    simp only [hf] at h
    refine .inr ⟨fieldElem_none hf, ?_⟩
    split at h
    · rename_i ho
      simp only [Except.ok.injEq, Prod.mk.injEq] at h
      exact ⟨h.1.2.symm, .inl ho⟩
    · split at h
      · rename_i hn
        simp only [Except.ok.injEq, Prod.mk.injEq] at h
        refine ⟨h.1.2.symm, .inr ?_⟩
        obtain ⟨x, hx⟩ := Option.isSome_iff_exists.mp hn
        rw [members_eq] at hx
        exact ⟨x, List.mem_of_find?_eq_some hx, match_isFor.mpr ⟨.Nil, by simp, List.find?_some hx⟩⟩
      · simp at h

theorem readProps_from {c : ClassDef} {inside : Option Tag} {kids : List Xml} : ∀ {fs : List Field} {st st' : DeState}
    {vs : List (Meta × PyVal)}, readProps c (fun f t st => deLook inside t f.write.name f.read kids st)
      (fun f t => findField inside t f.write.name kids) fs st = .ok (vs, st') →
    vs.length = fs.length ∧ ∀ p ∈ fs.zip vs, ReadFrom (membersIn inside kids) p.1 p.2.2
  | [], st, st', vs, h => by
    cases h
    simp
  | f :: fs, st, st', vs, h => by
    unfold readProps at h
    obtain ⟨⟨⟨m, w⟩, st1⟩, h1, h⟩ := except_bind_ok h
    dsimp only at h
    split at h
    · simp at h
    · obtain ⟨⟨r, st2⟩, h2, h⟩ := except_bind_ok h
      simp only [Except.ok.injEq, Prod.mk.injEq] at h
      obtain ⟨rfl, rfl⟩ := h
      obtain ⟨h3, h4⟩ := readProps_from h2
      refine ⟨by simp [h3], ?_⟩
      intro p hp
      rw [List.zip_cons_cons, List.mem_cons] at hp
      rcases hp with rfl | hp
      · exact readProp_from h1
      · exact h4 p hp

/-- C80: whatever document the server sends, an object of a class that is read from it has each property from the first element of
that name and kind, and None only where that element is missing and the property is optional or null. -/
theorem C80_read {name : PyStr} {c : ClassDef} (hc : findClass name = some c) {r n tx : Option PyStr} {kids : List Xml}
    {d d' : DeState} {v : PyVal} (h : deser (.cls name) (.node .Obj r n tx kids) d = .ok (v, d')) :
    ∃ text sets ext adp, v = .typed 0 c.types text sets ext adp ∧ sets.length = c.sets.length ∧ ext.length = c.extended.length ∧
      adp.length = c.adapted.length ∧ (∀ p ∈ c.sets.zip sets, ReadFrom (membersIn none kids) p.1 p.2.2) ∧
      (∀ p ∈ c.extended.zip ext, ReadFrom (membersIn (some .MS) kids) p.1 p.2.2) ∧
      ∀ p ∈ c.adapted.zip adp, ReadFrom (membersIn (some .Props) kids) p.1 p.2.2 := by
  rw [deser] at h
  obtain ⟨⟨types, st⟩, -, h⟩ := except_bind_ok h
  have hset : (DMeta.cls name).settle .Obj = .cls name := by simp [DMeta.settle]
  simp only [unpackPrim, hset, chooseMeta, hc, if_true] at h
  cases r with
  | none =>
    obtain ⟨x, hx, -⟩ := except_bind_ok h
    simp at hx
  | some r =>
    obtain ⟨t, -, h⟩ := except_bind_ok h
    obtain ⟨⟨ss, s1⟩, h1, h⟩ := except_bind_ok h
    obtain ⟨⟨as, s2⟩, h2, h⟩ := except_bind_ok h
    obtain ⟨⟨es, s3⟩, h3, h⟩ := except_bind_ok h
    simp only [bind, pure, Except.pure, Except.bind, Except.ok.injEq, Prod.mk.injEq] at h
    obtain ⟨l1, p1⟩ := readProps_from h1
    obtain ⟨l2, p2⟩ := readProps_from h2
    obtain ⟨l3, p3⟩ := readProps_from h3
    exact ⟨_, ss, es, as, h.1.symm, l1, l3, l2, p1, p3, p2⟩

/-- C80: if a mandatory property is missing, nothing is read. -/
theorem C80_missing {name : PyStr} {c : ClassDef} (hc : findClass name = some c) {f : Field} (hf : f ∈ c.extended)
    (ho : f.write.optional = false) {r n tx : Option PyStr} {kids : List Xml} {d : DeState}
    (hk : ∀ x ∈ membersIn (some .MS) kids, ¬ IsFor (.Nil :: carriers f.write.tag) f.write.name x) :
    ∃ e, deser (.cls name) (.node .Obj r n tx kids) d = .error e := by
  cases h : deser (.cls name) (.node .Obj r n tx kids) d with
  | error e => exact ⟨e, rfl⟩
  | ok v =>
    exfalso
    obtain ⟨-, -, ext, -, -, -, hl, -, -, he, -⟩ := C80_read hc h
    obtain ⟨i, hi, rfl⟩ := List.mem_iff_getElem.mp hf
    have hz : (c.extended[i], ext[i]) ∈ c.extended.zip ext := by
      rw [List.mem_iff_getElem]
      exact ⟨i, by simp [hl, hi], by simp⟩
    have weak : ∀ x, IsFor (carriers c.extended[i].write.tag) c.extended[i].write.name x →
        IsFor (.Nil :: carriers c.extended[i].write.tag) c.extended[i].write.name x := fun x h =>
      ⟨h.1.imp (List.mem_cons_of_mem _) (List.mem_cons_of_mem _), h.2⟩
    rcases he _ hz with ⟨x, -, -, ⟨pre, post, hx, hm, -⟩, -⟩ | ⟨-, -, h | ⟨x, hx, hm⟩⟩
    · exact hk x (by simp [hx]) (weak x hm)
    · rw [ho] at h
      cases h
    · refine hk x hx ⟨.inr ?_, hm.2⟩
      rcases hm.1 with h | h
      · simp at h
      · simp only [List.mem_cons, List.not_mem_nil, or_false] at h
        simp [h]

theorem readProps_congr {c : ClassDef} {look look' : Field → Tag → DeState → Option (Except PyErr (PyVal × DeState))}
    {find find' : Field → Tag → Option Xml} : ∀ {fs : List Field} {st : DeState},
    (∀ f ∈ fs, readProp c f (look f) (find f) = readProp c f (look' f) (find' f)) →
      readProps c look find fs st = readProps c look' find' fs st
  | [], _, _ => rfl
  | f :: fs, st, h => by
    unfold readProps
    rw [h f (by simp)]
    congr 1
    funext r
    obtain ⟨v, st'⟩ := r
    dsimp only
    rw [readProps_congr fun g hg => h g (List.mem_cons_of_mem _ hg)]

theorem same_prop {c : ClassDef} {f : Field} {inside : Option Tag} {kids kids' : List Xml}
    (h : ∀ t ∈ .Nil :: fieldTags f.write.tag, findField inside t f.write.name kids = findField inside t f.write.name kids') :
    readProp c f (fun t st => deLook inside t f.write.name f.read kids st) (fun t => findField inside t f.write.name kids) =
      readProp c f (fun t st => deLook inside t f.write.name f.read kids' st) (fun t => findField inside t f.write.name kids') := by
  funext st
  rw [readProp_eq, readProp_eq, h .Nil (by simp)]
  have : fieldElem inside f kids = fieldElem inside f kids' := by
    unfold fieldElem
    have key : ∀ l : List Tag, (∀ t ∈ l, t ∈ fieldTags f.write.tag) →
        l.findSome? (fun t => findField inside t f.write.name kids) = l.findSome? (fun t => findField inside t f.write.name kids') := by
      intro l
      induction l with
      | nil => simp
      | cons a l ih =>
        intro hl
        rw [List.findSome?_cons, List.findSome?_cons, h a (List.mem_cons_of_mem _ (hl a (by simp))),
          ih fun t ht => hl t (List.mem_cons_of_mem _ ht)]
    exact key _ fun t ht => ht
  rw [this]

theorem table_sets : classes.all (fun e => e.2.sets.all (fun f => f.write.tag == .I32)) = true := by decide +kernel

/-- C80: properties that the class does not know are ignored: with or without them, anywhere among the extended properties, the
object that is read is the same. -/
theorem C80_unknown {name : PyStr} {c : ClassDef} (hc : findClass name = some c) {r n tx gr gn gt : Option PyStr}
    {A B es es' : List Xml} {y : Xml} {d : DeState}
    (hy : ∀ f ∈ c.extended, ¬ IsFor (.Nil :: carriers f.write.tag) f.write.name y) :
    deser (.cls name) (.node .Obj r n tx (A ++ .node .MS gr gn gt (es ++ y :: es') :: B)) d =
      deser (.cls name) (.node .Obj r n tx (A ++ .node .MS gr gn gt (es ++ es') :: B)) d := by
  generalize hK : A ++ .node .MS gr gn gt (es ++ y :: es') :: B = K
  generalize hK' : A ++ .node .MS gr gn gt (es ++ es') :: B = K'
  have htypes : getTypes K d = getTypes K' d := by
    subst hK hK'
    unfold getTypes tnTexts
    simp [List.flatMap_append, List.find?_append, tag_node]
  have htext : readText K = readText K' := by
    subst hK hK'
    unfold readText
    simp [List.find?_append, tag_node]
  have hsets : ∀ f ∈ c.sets, ∀ t ∈ .Nil :: fieldTags f.write.tag, findField none t f.write.name K = findField none t f.write.name K' := by
    intro f hf t ht
    obtain ⟨e, he, rfl⟩ := findClass_mem hc
    have := List.all_eq_true.mp (List.all_eq_true.mp table_sets e he) f hf
    rw [beq_iff_eq] at this
    rw [this] at ht
    subst hK hK'
    have hno : ∀ ks : List Xml, fieldMatch t f.write.name (.node .MS gr gn gt ks) = false := by
      intro ks
      simp only [fieldTags, List.mem_cons, List.not_mem_nil, or_false] at ht
      unfold fieldMatch
      rcases ht with rfl | ht
      · rfl
      · simp at ht
        subst ht
        rfl
    unfold findField
    simp [List.find?_append, hno]
  have hprops : ∀ (t : Tag) (m : Option PyStr), findField (some .Props) t m K = findField (some .Props) t m K' := by
    intro t m
    subst hK hK'
    unfold findField
    simp [List.flatMap_append, tag_node]
  have hms : ∀ f ∈ c.extended, ∀ t ∈ .Nil :: fieldTags f.write.tag,
      findField (some .MS) t f.write.name K = findField (some .MS) t f.write.name K' := by
    intro f hf t ht
    have hno : fieldMatch t f.write.name y = false := by
      cases hm : fieldMatch t f.write.name y with
      | false => rfl
      | true =>
        refine absurd (match_isFor.mpr ⟨t, ?_, hm⟩) (hy f hf)
        rwa [carriers_eq]
    subst hK hK'
    unfold findField
    simp [List.flatMap_append, tag_node, kids_node, List.find?_append, hno]
  rw [deser, deser, htypes]
  congr 1
  funext p
  have hset : (DMeta.cls name).settle .Obj = .cls name := by simp [DMeta.settle]
  simp only [unpackPrim, hset, chooseMeta, hc, if_true, htext]
  cases r with
  | none => rfl
  | some r =>
    simp only [readProps_congr (c := c) fun f hf => same_prop (c := c) (hsets f hf),
      readProps_congr (c := c) (fs := c.adapted) fun f hf => same_prop (c := c) fun t _ => hprops t f.write.name,
      readProps_congr (c := c) fun f hf => same_prop (c := c) (hms f hf)]

/-- A list of parameters, with the type names given or referred to. -/
def paramList (tn : Xml) : Xml := .node .Obj (some ['9']) (some "mp".toList) none [tn, .node .LST none none none
  [.node .S none none (some ['a']) []]]
/-- The number of a call and the method. -/
def callParts : List Xml := [.node .I64 none (some "ci".toList) (some ['7']) [], .node .Obj (some ['1']) (some "mi".toList) none
  [.node .I32 none none (some "11".toList) []]]
/-- The type names of a list. -/
def tnDef : Xml := .node .TN (some ['5']) none none (listTypes.map (fun t => .node .T none none (some t) []))
/-- A property that no call has, an empty list. -/
def extraProp (tn : Xml) : Xml := .node .Obj (some ['8']) (some "zz".toList) none [tn, .node .LST none none none []]
/-- A call with the properties. -/
def callWith (es : List Xml) : Xml := .node .Obj (some ['0']) none none [.node .MS none none none es]

/-- The number and the parameters of the call that is read. -/
def readCall (x : Xml) : Except PyErr (List (Option Scalar) × Nat) :=
  (deser (.cls "PipelineHostCall".toList) x .clear).map (fun r => match r.1 with
    | .typed _ _ _ _ ext _ => (ext.map (fun p => match p.2 with | .sc s => some s | _ => none),
        (ext.map (fun p => match p.2 with | .list l => l.length | _ => 0)).sum)
    | _ => ([], 0))

/-- A call that is read, with and without the unknown property. -/
example : readCall (callWith (callParts ++ [paramList tnDef])) = .ok ([some (.int 7), none, none], 1) ∧
    readCall (callWith (callParts ++ [extraProp (.node .TN (some ['4']) none none [])] ++ [paramList tnDef])) =
      .ok ([some (.int 7), none, none], 1) := by decide +kernel

/-- The unknown property meets the hypothesis of `C80_unknown`. -/
example (tn : Xml) : ∀ f ∈ hostCall.extended, ¬ IsFor (.Nil :: carriers f.write.tag) f.write.name (extraProp tn) := by
  intro f hf
  simp only [hostCall, List.mem_cons, List.not_mem_nil, or_false] at hf
  rintro ⟨-, h⟩
  rw [show (extraProp tn).name = some "zz".toList from rfl] at h
  rcases hf with rfl | rfl | rfl <;> rcases h with h | h <;> revert h <;> decide +kernel

/-- Without its method a call meets the hypotheses of `C80_missing`. -/
example : ∀ x ∈ membersIn (some .MS) [.node .MS none none none [.node .I64 none (some "ci".toList) (some ['7']) []]],
    ¬ IsFor (.Nil :: carriers (objOf "mi" "mi" "HostMethodIdentifier").write.tag) (objOf "mi" "mi" "HostMethodIdentifier").write.name x := by
  intro x hx
  simp only [membersIn, List.filter_cons, tag_node, decide_true, if_true, List.filter_nil, List.flatMap_cons, List.flatMap_nil,
    List.append_nil, kids_node, List.mem_cons, List.not_mem_nil, or_false] at hx
  subst hx
  rintro ⟨-, h⟩
  rcases h with h | h <;> revert h <;> decide +kernel

/-- C80, a limit: type names that are written out in a property that is ignored are not learnt, so that a later reference to
them cannot be resolved and the message is lost. -/
theorem C80_types_false : readCall (callWith (callParts ++ [extraProp tnDef] ++ [paramList (.node .TNRef (some ['5']) none none [])])) =
    .error .keyError := by decide +kernel

/-- The same document without the reference is read. -/
theorem C80_types_defined : readCall (callWith (callParts ++ [extraProp tnDef] ++ [paramList tnDef])) =
    .ok ([some (.int 7), none, none], 1) := by decide +kernel

/-- C80, a limit: the same happens if the element with the type names belongs to the class but is read later than the reference,
because properties are read in the order of the class. -/
theorem C80_order_false : (deser (.cls "GetCommandMetadata".toList) (callWith [
      .node .Obj (some ['1']) (some "ArgumentList".toList) none [tnDef, .node .LST none none none []],
      .node .Obj (some ['2']) (some "Name".toList) none [.node .TNRef (some ['5']) none none [], .node .LST none none none []],
      .node .Nil none (some "CommandType".toList) none [], .node .Nil none (some "Namespace".toList) none []]) .clear).map (fun _ => ()) =
    .error .keyError := by decide +kernel

/-- C80, a limit: a mandatory object that is given by reference to an earlier one is not found. -/
theorem C80_reference_false : readCall (callWith [.node .I64 none (some "ci".toList) (some ['7']) [],
    .node .Ref (some ['0']) (some "mi".toList) none [], paramList tnDef]) = .error .serializationError := by decide +kernel

end Verif
