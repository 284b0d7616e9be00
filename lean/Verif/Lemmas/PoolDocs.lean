import Verif.Lemmas.PoolWire
import Verif.Props.ClassRead
import Verif.Props.Message
import Verif.Props.Wire
/-
Reading the messages that a pool is driven by.
-/
namespace Verif

theorem utf8_lt {s : PyStr} (h : s.head? = some '<') : (utf8 s).take 3 ≠ bom ∧ s ≠ [] := by
  cases s with
  | nil => simp at h
  | cons c s =>
    simp only [List.head?_cons, Option.some.injEq] at h
    subst h
    have : utf8 ('<' :: s) = 60 :: utf8 s := by
      rw [utf8, List.flatMap_cons]
      rfl
    rw [this]
    refine ⟨fun h => ?_, by simp⟩
    rw [List.take_succ_cons, bom] at h
    injection h with h _
    revert h; decide

/-- The header and the text of a message. -/
theorem unpack_text {kind : MsgKind} {text : PyStr} {bytes : Bytes} (h : MessageText kind text bytes) :
    ∃ d rpid pid body, Msg.unpack bytes = .ok { destination := d, kind, rpid, pid, body } ∧ decodeUtf8 body = some text := by
  have hlen := h.header
  have l1 : (bytes.take 4).length = 4 := by simp; omega
  have l2 : ((bytes.drop 4).take 4).length = 4 := by simp; omega
  have l3 : ((bytes.drop 8).take 16).length = 16 := by simp; omega
  have l4 : ((bytes.drop 24).take 16).length = 16 := by simp; omega
  have hk := h.type
  rw [leValue_eq_leDec] at hk
  unfold Msg.unpack unpackLE UUID.ofBytesLe
  simp only [l1, l2, l3, l4, if_true, dif_pos, bind, Except.bind, pure, Except.pure, hk, lookupKind_number]
  refine ⟨_, _, _, _, rfl, ?_⟩
  rcases h.body with ht | ht
  · rw [ht, if_neg (utf8_lt h.xml).1, decode_utf8]
  · have h43 : bytes.drop 43 = utf8 text := by
      have : bytes.drop 43 = (bytes.drop 40).drop 3 := by rw [List.drop_drop]
      rw [this, ht]; rfl
    rw [ht, if_pos (show List.take 3 ([0xEF, 0xBB, 0xBF] ++ utf8 text) = bom from rfl), h43, decode_utf8]

/-- A message of a class of its own. -/
theorem srvMsg_class {rd : Reader} {kind : MsgKind} {text : PyStr} {bytes : Bytes} {x : Xml} {st : DeState} {o : Nat} {ts : List PyStr}
    {t : Option PyStr} {a b c : List (Meta × PyVal)} (hk : kind ≠ .pipelineOutput ∧ kind ≠ .pipelineInput ∧ kind ≠ .publicKeyRequest)
    (hm : MessageText kind text bytes) (hx : xmlOfText text = some x) (hd : deser (.cls kind.className) x .clear = .ok (.typed o ts t a b c, st)) :
    srvMsg rd bytes = readMessage rd kind (.typed o ts t a b c) := by
  obtain ⟨d, rpid, pid, body, h1, h2⟩ := unpack_text hm
  have hread : readData kind text = .ok (some (.typed o ts t a b c)) := by
    have hdt : deserializeText (.cls kind.className) text = .ok (.typed o ts t a b c) := by
      unfold deserializeText
      rw [if_neg (utf8_lt hm.xml).2, hx]
      simp only [bind, Except.bind, hd]
      rfl
    revert hk hdt
    cases kind <;> intro hk hdt <;> simp at hk <;> simp only [readData, bind, Except.bind, hdt] <;> rfl
  unfold srvMsg unpackMessage
  simp only [bind, Except.bind, h1, h2, hread]
  rfl

/-- An object with extended properties only. -/
theorem deser_props {name : PyStr} {c : ClassDef} (hc : findClass name = some c) (hs : c.sets = []) (ha : c.adapted = []) {r : PyStr}
    {es : List Xml} {ext : List (Meta × PyVal)} {st : DeState}
    (he : readProps c (fun f t st => deLook (some .MS) t f.write.name f.read [.node .MS none none none es] st)
      (fun f t => findField (some .MS) t f.write.name [.node .MS none none none es]) c.extended .clear = .ok (ext, st)) :
    ∃ o ts t a b st', deser (.cls name) (.node .Obj (some r) none none [.node .MS none none none es]) .clear = .ok (.typed o ts t a ext b, st') := by
  have hty : getTypes [.node .MS none none none es] .clear = .ok ([], .clear) := by
    exact getTypes_rest _ _ (by simp [Xml.tag])
  have hset : (DMeta.cls name).settle .Obj = .cls name := by simp [DMeta.settle]
  have htext : readText [.node .MS none none none es] = .ok none := by
    unfold readText
    simp [Xml.tag]
  refine ⟨0, c.types, objText c none [], [], [], ?_, ?_⟩
  rotate_left
  · rw [deser]
    simp only [bind, Except.bind, hty, unpackPrim, hset, chooseMeta, hc, htext, hs, ha, readProps, he, if_true]
    rfl

theorem findField_ms (t : Tag) (n : Option PyStr) (es : List Xml) :
    findField (some .MS) t n [.node .MS none none none es] = es.find? (fieldMatch t n) := by
  unfold findField
  simp [Xml.tag, Xml.kids]

theorem says_find {es : List Xml} {t : Tag} {name : String} {s : PyStr} (ht : t ≠ .star) (h : Says es t name s) :
    ∃ r, es.find? (fieldMatch t (some name.toList)) = some (.node t r (some name.toList) (some s) []) := by
  obtain ⟨pre, post, r, rfl, hpre⟩ := h
  refine ⟨r, ?_⟩
  rw [List.find?_append, List.find?_eq_none.2, Option.none_or, List.find?_cons]
  · simp [fieldMatch, Xml.tag, Xml.name]
  · intro y hy hc
    unfold fieldMatch at hc
    simp only [Bool.and_eq_true, Bool.or_eq_true, beq_iff_eq, ht, false_or, reduceCtorEq] at hc
    exact hpre y hy hc

theorem lacks_find {es : List Xml} {t : Tag} {name : String} (ht : t ≠ .star) (h : Lacks es t name) :
    es.find? (fieldMatch t (some name.toList)) = none := by
  rw [List.find?_eq_none]
  intro y hy hc
  unfold fieldMatch at hc
  simp only [Bool.and_eq_true, Bool.or_eq_true, beq_iff_eq, ht, false_or, reduceCtorEq] at hc
  exact h y hy hc

/-- One property, if it is there. -/
theorem readProp_says {c : ClassDef} {attr : PyStr} {t : Tag} {name : String} {opt : Bool} {m : DMeta} {es : List Xml} {s : PyStr} {v : PyVal} (st : DeState)
    (ht : t ≠ .star ∧ fieldTags t = [t]) (h : Says es t name s) (hv : ∀ r st, unpackPrim t r (some s) st = some (.ok v)) :
    readProp c ⟨attr, .plain t (some name.toList) opt, m⟩
      (fun t' st => deLook (some .MS) t' (Meta.plain t (some name.toList) opt).name m [.node .MS none none none es] st)
      (fun t' => findField (some .MS) t' (Meta.plain t (some name.toList) opt).name [.node .MS none none none es]) st =
      .ok ((.plain t (some name.toList) opt, v), st) := by
  obtain ⟨r, hf⟩ := says_find ht.1 h
  have := readProp_eq c ⟨attr, .plain t (some name.toList) opt, m⟩ (some .MS) [.node .MS none none none es] st
  refine this.trans ?_
  have hfe : fieldElem (some .MS) ⟨attr, .plain t (some name.toList) opt, m⟩ [.node .MS none none none es] =
      some (.node t r (some name.toList) (some s) []) := by
    unfold fieldElem
    show (fieldTags t).findSome? _ = _
    rw [ht.2]
    simp only [List.findSome?_cons, findField_ms, Meta.name, hf]
  rw [hfe]
  dsimp only
  rw [deser_leaf _ (hv r st)]
  have : (Meta.plain t (some name.toList) opt).readWith (.node t r (some name.toList) (some s) []) = .plain t (some name.toList) opt := by
    cases t <;> simp_all [Meta.readWith]
  simp [Except.map, this]

/-- An optional property that is not there. -/
theorem readProp_lacks {c : ClassDef} {attr : PyStr} {t : Tag} {name : String} {m : DMeta} {es : List Xml} (st : DeState)
    (ht : t ≠ .star ∧ fieldTags t = [t]) (h : Lacks es t name) :
    readProp c ⟨attr, .plain t (some name.toList) true, m⟩
      (fun t' st => deLook (some .MS) t' (Meta.plain t (some name.toList) true).name m [.node .MS none none none es] st)
      (fun t' => findField (some .MS) t' (Meta.plain t (some name.toList) true).name [.node .MS none none none es]) st =
      .ok ((.plain t (some name.toList) true, .sc .none), st) := by
  have := readProp_eq c ⟨attr, .plain t (some name.toList) true, m⟩ (some .MS) [.node .MS none none none es] st
  refine this.trans ?_
  have hfe : fieldElem (some .MS) ⟨attr, .plain t (some name.toList) true, m⟩ [.node .MS none none none es] = none := by
    unfold fieldElem
    show (fieldTags t).findSome? _ = _
    rw [ht.2]
    simp only [List.findSome?_cons, findField_ms, Meta.name, lacks_find ht.1 h, List.findSome?_nil]
  rw [hfe]
  rfl

/-- A property that is null. -/
theorem readProp_nil {c : ClassDef} {attr : PyStr} {t : Tag} {name : String} {opt : Bool} {m : DMeta} {es : List Xml} (st : DeState)
    (ht : t ≠ .star ∧ fieldTags t = [t]) (h : Lacks es t name) (hn : ∃ y ∈ es, y.tag = .Nil ∧ y.name = some name.toList) :
    readProp c ⟨attr, .plain t (some name.toList) opt, m⟩
      (fun t' st => deLook (some .MS) t' (Meta.plain t (some name.toList) opt).name m [.node .MS none none none es] st)
      (fun t' => findField (some .MS) t' (Meta.plain t (some name.toList) opt).name [.node .MS none none none es]) st =
      .ok ((.plain t (some name.toList) opt, .sc .none), st) := by
  have := readProp_eq c ⟨attr, .plain t (some name.toList) opt, m⟩ (some .MS) [.node .MS none none none es] st
  refine this.trans ?_
  have hfe : fieldElem (some .MS) ⟨attr, .plain t (some name.toList) opt, m⟩ [.node .MS none none none es] = none := by
    unfold fieldElem
    show (fieldTags t).findSome? _ = _
    rw [ht.2]
    simp only [List.findSome?_cons, findField_ms, Meta.name, lacks_find ht.1 h, List.findSome?_nil]
  have hnil : (findField (some .MS) .Nil (some name.toList) [.node .MS none none none es]).isSome = true := by
    rw [findField_ms, List.find?_isSome]
    obtain ⟨y, hy, h1, h2⟩ := hn
    exact ⟨y, hy, by simp [fieldMatch, h1, h2]⟩
  rw [hfe]
  simp only [Meta.name, hnil, if_true]
  split <;> rfl

/-- An optional property without a name. -/
theorem readProp_noObj {c : ClassDef} {attr : PyStr} {m : DMeta} {es : List Xml} (st : DeState) (h : ∀ y ∈ es, y.tag ≠ .Obj) :
    readProp c ⟨attr, .plain .Obj none true, m⟩
      (fun t' st => deLook (some .MS) t' (Meta.plain .Obj none true).name m [.node .MS none none none es] st)
      (fun t' => findField (some .MS) t' (Meta.plain .Obj none true).name [.node .MS none none none es]) st =
      .ok ((.plain .Obj none true, .sc .none), st) := by
  have := readProp_eq c ⟨attr, .plain .Obj none true, m⟩ (some .MS) [.node .MS none none none es] st
  refine this.trans ?_
  have hf : es.find? (fieldMatch .Obj none) = none := by
    rw [List.find?_eq_none]
    intro y hy hc
    have := h y hy
    simp [fieldMatch, this] at hc
  have hfe : fieldElem (some .MS) ⟨attr, .plain .Obj none true, m⟩ [.node .MS none none none es] = none := by
    unfold fieldElem
    show (fieldTags .Obj).findSome? _ = _
    rw [show fieldTags .Obj = [.Obj] by decide]
    simp only [List.findSome?_cons, findField_ms, Meta.name, hf, List.findSome?_nil]
  rw [hfe]
  rfl

/-- A property of any type. -/
theorem readProp_any {c : ClassDef} {attr : PyStr} {name : String} {m : DMeta} {es : List Xml} {x : Xml} {v : PyVal} (st st' : DeState)
    (hf : es.find? (fieldMatch .star (some name.toList)) = some x) (hd : deser m x st = .ok (v, st')) :
    readProp c ⟨attr, .plain .star (some name.toList) false, m⟩
      (fun t' st => deLook (some .MS) t' (Meta.plain .star (some name.toList) false).name m [.node .MS none none none es] st)
      (fun t' => findField (some .MS) t' (Meta.plain .star (some name.toList) false).name [.node .MS none none none es]) st =
      .ok (((Meta.plain .star (some name.toList) false).readWith x, v), st') := by
  have := readProp_eq c ⟨attr, .plain .star (some name.toList) false, m⟩ (some .MS) [.node .MS none none none es] st
  refine this.trans ?_
  have hfe : fieldElem (some .MS) ⟨attr, .plain .star (some name.toList) false, m⟩ [.node .MS none none none es] = some x := by
    unfold fieldElem
    show (fieldTags .star).findSome? _ = _
    rw [show fieldTags .star = [.star] by decide]
    simp only [List.findSome?_cons, findField_ms, Meta.name, hf]
  rw [hfe]
  dsimp only
  rw [hd]
  rfl

/-- An optional object that is there. -/
theorem readProp_obj {c : ClassDef} {attr : PyStr} {name : String} {m : DMeta} {es : List Xml} {x : Xml} {v : PyVal} (st st' : DeState)
    (hf : es.find? (fieldMatch .Obj (some name.toList)) = some x) (hd : deser m x st = .ok (v, st')) :
    readProp c ⟨attr, .plain .Obj (some name.toList) true, m⟩
      (fun t' st => deLook (some .MS) t' (Meta.plain .Obj (some name.toList) true).name m [.node .MS none none none es] st)
      (fun t' => findField (some .MS) t' (Meta.plain .Obj (some name.toList) true).name [.node .MS none none none es]) st =
      .ok (((Meta.plain .Obj (some name.toList) true).readWith x, v), st') := by
  have := readProp_eq c ⟨attr, .plain .Obj (some name.toList) true, m⟩ (some .MS) [.node .MS none none none es] st
  refine this.trans ?_
  have hfe : fieldElem (some .MS) ⟨attr, .plain .Obj (some name.toList) true, m⟩ [.node .MS none none none es] = some x := by
    unfold fieldElem
    show (fieldTags .Obj).findSome? _ = _
    rw [show fieldTags .Obj = [.Obj] by decide]
    simp only [List.findSome?_cons, findField_ms, Meta.name, hf]
  rw [hfe]
  dsimp only
  rw [hd]
  rfl

/-- The values of the properties, one after the other. -/
def ReadAll (es : List Xml) : DeState → List Field → List PyVal → Prop
  | _, [], [] => True
  | st, f :: fs, v :: vs => ∃ m st', (∀ c, readProp c f (fun t st => deLook (some .MS) t f.write.name f.read [.node .MS none none none es] st)
      (fun t => findField (some .MS) t f.write.name [.node .MS none none none es]) st = .ok ((m, v), st')) ∧ ReadAll es st' fs vs
  | _, _, _ => False

theorem readProps_all {c : ClassDef} (hr : c.readOnly = []) {es : List Xml} : ∀ {fs : List Field} {vs : List PyVal} {st : DeState}, ReadAll es st fs vs →
    ∃ ms st', readProps c (fun f t st => deLook (some .MS) t f.write.name f.read [.node .MS none none none es] st)
      (fun f t => findField (some .MS) t f.write.name [.node .MS none none none es]) fs st = .ok (ms, st') ∧ ms.map (·.2) = vs
  | [], [], st, _ => ⟨[], st, rfl, rfl⟩
  | f :: fs, v :: vs, st, ⟨m, st1, h1, h2⟩ => by
    obtain ⟨ms, st', h3, h4⟩ := readProps_all hr h2
    refine ⟨(m, v) :: ms, st', ?_, by simp [h4]⟩
    unfold readProps
    rw [h1 c]
    simp only [bind, Except.bind, hr, List.not_mem_nil, if_false, h3]
  | [], _ :: _, _, h => h.elim
  | _ :: _, [], _, h => h.elim

/-- The parts of a class that a message needs. -/
def ClassDef.parts (c : ClassDef) : List Field × List Field × List Field × List PyStr := (c.sets, c.adapted, c.extended, c.readOnly)

/-- The attributes of a message. -/
theorem srvMsg_values {rd : Reader} {kind : MsgKind} {e : List Field} {es : List Xml} {bytes : Bytes} {vals : List PyVal}
    (hk : kind ≠ .pipelineOutput ∧ kind ≠ .pipelineInput ∧ kind ≠ .publicKeyRequest)
    (hc : (findClass kind.className).map ClassDef.parts = some ([], [], e, [])) (h : MessageProps kind es bytes) (hv : ReadAll es .clear e vals) :
    ∃ v, srvMsg rd bytes = readMessage rd kind v ∧ ∀ attr, dataAttr kind v attr = ((e.zip vals).map fun p => (p.1.attr, p.2)).lookup attr.toList := by
  obtain ⟨text, r, hm, hx⟩ := h
  cases hf : findClass kind.className with
  | none => rw [hf] at hc; simp at hc
  | some c =>
    rw [hf] at hc
    simp only [Option.map_some, ClassDef.parts, Option.some.injEq, Prod.mk.injEq] at hc
    obtain ⟨c1, c2, rfl, c4⟩ := hc
    obtain ⟨ms, st, h1, h2⟩ := readProps_all c4 hv
    obtain ⟨o, ts, t, a, b, st', hd⟩ := deser_props (r := r) hf c1 c2 h1
    refine ⟨_, srvMsg_class hk hm hx hd, fun attr => ?_⟩
    unfold dataAttr
    rw [hf]
    subst h2
    dsimp only
    congr 1
    rw [List.zip_map_right, List.map_map]
    rfl

end Verif
