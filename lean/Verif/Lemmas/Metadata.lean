import Verif.Spec.Metadata
import Verif.Props.PoolDocs
import Verif.Props.PoolWire
/-
Asking for the metadata of commands, and reading it.
-/
namespace Verif

/-! ### The request -/

/-- Strings in a list. -/
theorem serList_S (l : List PyStr) (m : Meta) (hm : m = .plain .S none false ∨ m = .star) (st : SerState) : serList m (l.map fun s => .sc (.str s)) st = .ok (l.map stringElem, st) := by
  induction l with
  | nil => rfl
  | cons s l ih =>
    have hs : ser m (.sc (.str s)) st = .ok (some (stringElem s), st) := by rcases hm with rfl | rfl <;> rw [ser] <;> rfl
    rw [List.map_cons, serList]
    simp only [bind, Except.bind, hs, ih]
    rfl

/-- The parts of a class that an instance needs besides. -/
def ClassDef.rest (c : ClassDef) : List PyStr × List (PyStr × Init) × Bool := (c.types, c.init, (match c.text with | .attr none => true | _ => false))

def requestFields : List Field :=  [listOf "names" "Name" .S ["System.String[]".toList, "System.Array".toList, "System.Object".toList],
      ⟨"command_type".toList, .plain .star (some "CommandType".toList) false, .cls "CommandType".toList⟩,
      anyOf "namespace" "Namespace", listOf "argument_list" "ArgumentList" .star]

theorem request_class : ∃ c, findClass "GetCommandMetadata".toList = some c ∧ c.types = [] ∧ c.sets = [] ∧ c.adapted = [] ∧ c.extended = requestFields ∧ c.text = .attr none ∧ c.init = [same "names", same "command_type", same "namespace", same "argument_list"] := by
  have h : (findClass "GetCommandMetadata".toList).map ClassDef.parts = some ([], [], requestFields, []) := by decide +kernel
  have h' : (findClass "GetCommandMetadata".toList).map ClassDef.rest =
      some ([], [same "names", same "command_type", same "namespace", same "argument_list"], true) := by decide +kernel
  cases hf : findClass "GetCommandMetadata".toList with
  | none => rw [hf] at h; simp at h
  | some c =>
    rw [hf] at h h'
    simp only [Option.map_some, ClassDef.parts, ClassDef.rest, Option.some.injEq, Prod.mk.injEq] at h h'
    obtain ⟨h1, h2, h3⟩ := h'
    refine ⟨c, rfl, h1, h.1, h.2.1, h.2.2.1, ?_, h2⟩
    split at h3
    · assumption
    · simp at h3

/-- A list of strings whose types have not been named before. -/
theorem ser_texts {m0 m : Meta} {l : List PyStr} (hm : m0.settle (.list (l.map fun s => .sc (.str s))) = m) (ht : m.tag = .LST) {main : PyStr} {more : List PyStr}
    (hl : listTypesOf m = main :: more) (he : listElem m = .plain .S none false ∨ listElem m = .star) (st : SerState) (hst : st.tn.lookup main = none) :
    ser m0 (.list (l.map fun s => .sc (.str s))) st =
      .ok (some ((Xml.node .Obj (some (pyStrNat st.objId)) none none [.node .TN (some (pyStrNat st.tnId)) none none ((main :: more).map (fun t => .node .T none none (some t) [])),
        .node .LST none none none (l.map stringElem)]).setName m.name),
      { st with objId := st.objId + 1, tnId := st.tnId + 1, tn := st.tn ++ [(main, st.tnId)] }) := by
  rw [ser]
  simp only [hm, ht, true_or, if_true, newObjId, hl, createTn, hst, bind, Except.bind, serList_S l _ he]
  rfl

/-! ### The pipeline -/

/-- A pipeline is started with a message. -/
theorem invokeMsg_starts {i : Nat} {msg : OutMsg} {w : World} {r : Reply} {rest : List Reply} (hid : (w.pipes i).commandId = none)
    (hw : w.replies = r :: rest) (he : r.error = none) :
    ∃ w', invokeMsg i msg w = (.ok (), w') ∧ w'.replies = rest ∧ requests w'.sent = requests w.sent ++ [.command i msg] ∧
      i ∈ w'.pool.registry ∧ w'.host = w.host ∧ w'.pool.state = w.pool.state ∧
      w'.pipes i = { w.pipes i with commandId := r.command.map CmdId.server, state := PipeState.running } := by
  have hrep : (w.registering i).replies = w.replies := rfl
  have hpipe : ∀ i', (w.registering i).pipes i' = w.pipes i' := fun _ => rfl
  have hreg : i ∈ (w.registering i).pool.registry := by
    unfold World.registering World.withPool
    dsimp only
    split
    · rename_i h; simpa using h
    · simp
  unfold invokeMsg
  rw [bind_run, startCommand_eq]
  simp only [request, hrep, hw, he]
  cases hcm : r.command with
  | none =>
    refine ⟨_, rfl, rfl, ?_, hreg, rfl, rfl, ?_⟩
    · simp [requests, World.setPipe, World.registering, World.withPool]
    · rw [setPipe_self, hpipe, Option.map_none, ← hid]
  | some c =>
    refine ⟨_, rfl, rfl, ?_, hreg, rfl, rfl, ?_⟩
    · simp [requests, World.setPipe, World.registering, World.withPool]
    · rw [setPipe_self, setPipe_self, hpipe]; rfl

/-- A running pipeline is waited for. -/
theorem endInvoke_ends {i : Nat} {w : World} {running rest : List Reply} {body : List SrvMsg} {s : PipeState} {e : Option Obj}
    (hh : w.host = none) (hi : i ∈ w.pool.registry) (hst : (w.pipes i).state = 1) (hw : w.replies = running ++ rest)
    (hr : ∀ r ∈ running, r.error = none ∨ TimedOut r) (hrd : Deliver running (body ++ [.pipelineState s e]))
    (hbody : ∀ m ∈ body, m.Routine) (hs : s ≠ 1) :
    ∃ w', endInvoke i w = (.ok ((w.pipes i).output ++ body.filterMap SrvMsg.outputObj), w') ∧ w'.replies = rest ∧ w'.pool.state = w.pool.state ∧
      requests w'.sent = requests w.sent ++ List.replicate running.length (.receive (w.pipes i).commandId) := by
  obtain ⟨w5, hpoll, q1, q2⟩ := pollWhile_ends hs (w.replies.length + 1) hh hi hst hw hr hrd hbody (by rw [hw]; simp; omega)
  obtain ⟨b, hpolls, _⟩ := pollWhile_polls hpoll
  obtain ⟨c1, c2, c3, c4⟩ := C36_polls b hi (.inl hh) hpolls
  obtain ⟨d1, d2, d3⟩ := polls_silent b hi hh hpolls
  have hb : b = running.length := by
    have hl := congrArg List.length c2
    rw [q2, hw] at hl
    rw [hw] at c1
    simp only [List.length_drop, List.length_append] at hl c1
    omega
  subst hb
  have hdur : received (w.replies.take running.length) = body ++ [.pipelineState s e] := by
    rw [hw, List.take_left', hrd.1]; rfl
  rw [hdur] at c3
  refine ⟨w5, ?_, q2, q1, d1⟩
  unfold endInvoke
  rw [bind_run]
  simp only [getW]
  rw [bind_run, hpoll]
  simp only [bind_run, getW, pure_run, c3]
  simp [SrvMsg.outputObj]

/-! ### The objects -/

theorem getTypes_named (k : PyStr) {ts : List PyStr} (h : ts ≠ []) (rest : List Xml) (hr : ∀ y ∈ rest, y.tag ≠ .TN ∧ y.tag ≠ .TNRef) (st : DeState) :
    getTypes (typeNames k ts :: rest) st = .ok (ts, { st with tn := assign st.tn k ts }) := by
  have ht : tnTexts (typeNames k ts :: rest) = ts := by
    rw [tnTexts_cons _ _ fun y hy => (hr y hy).1]
    simp only [tnTexts, typeNames, Xml.tag, Xml.kids, if_true, List.flatMap_cons, List.flatMap_nil, List.append_nil]
    rw [List.filter_eq_self.2 (by intro x hx; obtain ⟨t, _, rfl⟩ := List.mem_map.1 hx; rfl), List.map_map]
    conv => rhs; rw [← List.map_id ts]
    rfl
  unfold getTypes
  rw [ht]
  have hf : (typeNames k ts :: rest).find? (fun k => k.tag = .TNRef) = none := by
    rw [List.find?_cons]
    exact find_none rest .TNRef fun y hy => (hr y hy).2
  rw [hf]
  simp only [ne_eq, h, not_false_eq_true, if_true, List.find?_cons]
  rfl

/-- A first child that is not MS does not matter to the extended properties. -/
theorem findField_skip {x : Xml} (hx : x.tag ≠ .MS) (t : Tag) (n : Option PyStr) (kids : List Xml) :
    findField (some .MS) t n (x :: kids) = findField (some .MS) t n kids := by
  unfold findField
  simp [hx]

theorem deLook_skip {x : Xml} (hx : x.tag ≠ .MS) (t : Tag) (n : Option PyStr) (m : DMeta) (kids : List Xml) (st : DeState) :
    deLook (some .MS) t n m (x :: kids) st = deLook (some .MS) t n m kids st := by
  cases x with
  | node tg r nm tx ks =>
    rw [deLook]
    exact if_neg hx

/-- An object with type names and extended properties. -/
theorem deser_named {name : PyStr} {c : ClassDef} (hc : findClass name = some c) (hs : c.sets = []) (ha : c.adapted = []) (hr : c.readOnly = [])
    {r k : PyStr} {ts : List PyStr} (hne : ts ≠ []) {es : List Xml} {vals : List PyVal} (st : DeState)
    (hv : ReadAll es { st with tn := assign st.tn k ts } c.extended vals) :
    ∃ ext st', deser (.cls name) (.node .Obj (some r) none none [typeNames k ts, .node .MS none none none es]) st =
      .ok (.typed 0 c.types (objText c none []) [] ext [], st') ∧ ext.map (·.2) = vals := by
  have hty := getTypes_named k hne [.node .MS none none none es] (by simp [Xml.tag]) st
  have hset : (DMeta.cls name).settle .Obj = .cls name := by simp [DMeta.settle]
  have htext : readText [typeNames k ts, .node .MS none none none es] = .ok none := by
    unfold readText
    simp [Xml.tag, typeNames]
  obtain ⟨ext, st1, h1, h2⟩ := readProps_all hr hv
  have htn : (typeNames k ts).tag ≠ .MS := by simp [typeNames, Xml.tag]
  refine ⟨ext, { st1 with objs := assign st1.objs r (.typed 0 c.types (objText c none []) [] ext []) }, ?_, h2⟩
  rw [deser]
  simp only [bind, Except.bind, hty, unpackPrim, hset, chooseMeta, hc, htext, hs, ha, readProps, deLook_skip htn, findField_skip htn, h1, if_true]
  rfl

theorem saysText_find {es : List Xml} {t : Tag} {name : String} {s : Option PyStr} (ht : t ≠ .star) (h : SaysText es t name s) :
    ∃ r, es.find? (fieldMatch t (some name.toList)) = some (.node t r (some name.toList) s []) := by
  obtain ⟨pre, post, r, rfl, hpre⟩ := h
  refine ⟨r, ?_⟩
  rw [List.find?_append, List.find?_eq_none.2, Option.none_or, List.find?_cons]
  · simp [fieldMatch, Xml.tag, Xml.name]
  · intro y hy hc
    unfold fieldMatch at hc
    simp only [Bool.and_eq_true, Bool.or_eq_true, beq_iff_eq, ht, false_or, reduceCtorEq] at hc
    exact hpre y hy hc

/-- A property that is there. -/
theorem readProp_found {c : ClassDef} {attr : PyStr} {w : Meta} {name : String} {m : DMeta} {es : List Xml} {x : Xml} {v : PyVal} {t : Tag} {more : List Tag}
    (st st' : DeState) (hw : w.name = some name.toList) (ht : fieldTags w.tag = t :: more)
    (hf : es.find? (fieldMatch t (some name.toList)) = some x) (hd : deser m x st = .ok (v, st')) :
    readProp c ⟨attr, w, m⟩
      (fun t' st => deLook (some .MS) t' w.name m [.node .MS none none none es] st)
      (fun t' => findField (some .MS) t' w.name [.node .MS none none none es]) st =
      .ok ((w.readWith x, v), st') := by
  have := readProp_eq c ⟨attr, w, m⟩ (some .MS) [.node .MS none none none es] st
  refine this.trans ?_
  have hfe : fieldElem (some .MS) ⟨attr, w, m⟩ [.node .MS none none none es] = some x := by
    unfold fieldElem
    show (fieldTags w.tag).findSome? _ = _
    rw [ht]
    simp only [List.findSome?_cons, findField_ms, hw, hf]
  rw [hfe]
  dsimp only
  rw [hd]
  rfl

theorem readProp_string {c : ClassDef} {attr name : String} {es : List Xml} {s : PyStr} (st : DeState) (h : SaysString es name s) :
    readProp c (prim attr .S name)
      (fun t' st => deLook (some .MS) t' (prim attr .S name).write.name (prim attr .S name).read [.node .MS none none none es] st)
      (fun t' => findField (some .MS) t' (prim attr .S name).write.name [.node .MS none none none es]) st =
      .ok (((prim attr .S name).write, .sc (.str s)), st) := by
  obtain ⟨text, h1, h2⟩ := h
  obtain ⟨r, h3⟩ := saysText_find (by decide) h1
  exact readProp_found st st (name := name) (t := .S) (more := []) rfl rfl h3 (deser_leaf _ (by simp only [unpackPrim, h2]; rfl))

def metadataFields : List Field := [prim "name" .S "Name", prim "namespace" .S "Namespace", prim "help_uri" .S "HelpUri",
  objOf "command_type" "CommandType" "CommandType",
  listOf "output_type" "OutputType" .S [("System.Collections.ObjectModel.ReadOnlyCollection`1[[System.Management.Automation.PSTypeName, " ++
    "System.Management.Automation, Version=3.0.0.0, Culture=neutral, PublicKeyToken=31bf3856ad364e35]]").toList],
  ⟨"parameters".toList, .dict .DCT (some "Parameters".toList) false (.plain .S none false) (.plain .Obj none false) dictTypes, .dict⟩]

theorem metadata_class : ∃ c, findClass "CommandMetadata".toList = some c ∧ c.sets = [] ∧ c.adapted = [] ∧ c.extended = metadataFields ∧ c.readOnly = [] := by
  have h : (findClass "CommandMetadata".toList).map ClassDef.parts = some ([], [], metadataFields, []) := by decide +kernel
  cases hf : findClass "CommandMetadata".toList with
  | none => rw [hf] at h; simp at h
  | some c =>
    rw [hf] at h
    simp only [Option.map_some, ClassDef.parts, Option.some.injEq, Prod.mk.injEq] at h
    exact ⟨c, rfl, h.1, h.2.1, h.2.2.1, h.2.2.2⟩

end Verif
