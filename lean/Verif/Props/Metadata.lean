import Verif.Lemmas.Metadata
/-
C93: the metadata of commands.
-/
namespace Verif

/-- C93: the request, without arguments for the server: for all names, types and namespaces the document is that of [MS-PSRP] 2.2.2.14. A single
name is a list of one. -/
theorem C93_request (oid : Nat) (names : NamesArg) (types : Int) (namespaces : Option (List PyStr)) :
    ∃ v, metadataRequest oid names types namespaces (.sc .none) = .ok v ∧ serialize .star v = .ok (some (metadataDoc names.list types namespaces)) := by
  obtain ⟨c, hc, h1, h2, h3, h4, h5, h6⟩ := request_class
  refine ⟨.typed oid [] none [] [((listOf "names" "Name" .S ["System.String[]".toList, "System.Array".toList, "System.Object".toList]).write, textsVal (some names.list)),
    (.plain .star (some "CommandType".toList) false, .sc (.int types)), ((anyOf "namespace" "Namespace").write, textsVal namespaces),
    ((listOf "argument_list" "ArgumentList" .star).write, .sc .none)] [], ?_, ?_⟩
  · unfold metadataRequest
    rw [hc]
    simp only [instanceOf, classText, h1, h2, h3, h4, h5, bind, Except.bind, getFields]
    have hattrs : construct c (metadataArgs names types namespaces (.sc .none)) = [("names".toList, textsVal (some names.list)), ("command_type".toList, .sc (.int types)), ("namespace".toList, textsVal namespaces), ("argument_list".toList, .sc .none)] := by
      unfold construct
      rw [h6]
      rfl
    rw [hattrs]
    rfl
  · have hn := fun st h => ser_texts (m0 := (listOf "names" "Name" .S ["System.String[]".toList, "System.Array".toList, "System.Object".toList]).write)
      (l := names.list) rfl rfl rfl (.inl rfl) st h
    have hi : ∀ st, ser (.plain .star (some "CommandType".toList) false) (.sc (.int types)) st =
        .ok (some (.node .I32 none (some "CommandType".toList) (some (pyStrInt types)) []), st) := fun st => by rw [ser]; rfl
    have ha : ∀ st, ser (listOf "argument_list" "ArgumentList" .star).write (.sc .none) st =
        .ok (some (.node .Nil none (some "ArgumentList".toList) none []), st) := fun st => by rw [ser]; rfl
    have n0 : pyStrNat SerState.clear.objId = ['0'] := by decide +kernel
    have n1 : pyStrNat (SerState.clear.objId + 1) = ['1'] := by decide +kernel
    have n2 : pyStrNat (SerState.clear.objId + 1 + 1) = ['2'] := by decide +kernel
    have t0 : pyStrNat SerState.clear.tnId = ['0'] := by decide +kernel
    have t1 : pyStrNat (SerState.clear.tnId + 1) = ['1'] := by decide +kernel
    unfold serialize
    rw [ser, if_pos (by rfl)]
    simp only [bind, Except.bind, newObjId, createTnOpt, serProps, refFor, PyVal.oid?]
    rw [show textsVal (some names.list) = .list (names.list.map fun s => .sc (.str s)) from rfl, hn _ (by rfl)]
    simp only [hi]
    cases namespaces with
    | none =>
      have hs : ∀ st, ser (anyOf "namespace" "Namespace").write (.sc .none) st =
          .ok (some (.node .Nil none (some "Namespace".toList) none []), st) := fun st => by rw [ser]; rfl
      rw [show textsVal none = .sc .none from rfl]
      simp only [hs, ha, pure, Except.pure, reduceCtorEq, if_false, if_true, n0, n1, t0]
      rfl
    | some l =>
      have hs := fun st h => ser_texts (m0 := (anyOf "namespace" "Namespace").write) (l := l) rfl rfl rfl (.inr rfl) st h
      rw [show textsVal (some l) = .list (l.map fun s => .sc (.str s)) from rfl, hs _ (by decide +kernel)]
      simp only [ha, pure, Except.pure, reduceCtorEq, if_false, if_true, n0, n1, n2, t0, t1]
      rfl

example : metadataDoc (NamesArg.one "Get-*".toList).list 383 (some ["m".toList, "n".toList]) =
    .node .Obj (some ['0']) none none [.node .MS none none none [
      .node .Obj (some ['1']) (some "Name".toList) none [typeNames ['0'] ["System.String[]".toList, "System.Array".toList, "System.Object".toList],
        .node .LST none none none [.node .S none none (some "Get-*".toList) []]],
      .node .I32 none (some "CommandType".toList) (some "383".toList) [],
      .node .Obj (some ['2']) (some "Namespace".toList) none [typeNames ['1'] ["System.Object[]".toList, "System.Array".toList, "System.Object".toList],
        .node .LST none none none [.node .S none none (some ['m']) [], .node .S none none (some ['n']) []]],
      .node .Nil none (some "ArgumentList".toList) none []]] := by decide +kernel

/-- C93 is false of the arguments: 2.2.2.14 has the types of the commands as an object, 2.2.3.19, and this library reads them as one, but writes
them as a number. Its own reader does not see the number as the object. -/
theorem C93_type_false : ∃ v, metadataRequest 0 (.one ['a']) 383 none (.sc .none) = .ok v ∧
    ∃ x, serialize .star v = .ok (some x) ∧ (findField (some .MS) .I32 (some "CommandType".toList) x.kids).isSome = true ∧
      findField (some .MS) .Obj (some "CommandType".toList) x.kids = none := by
  obtain ⟨v, h1, h2⟩ := C93_request 0 (.one ['a']) 383 none
  exact ⟨v, h1, _, h2, by decide +kernel, by decide +kernel⟩

/-- C93: the run. On an open pool without a host, one pipeline is started with the request, and there is one receive for every answer until the
server says that the pipeline is over; the results are what was written after the first object, in order, however the messages are
distributed over the answers and however often a receive times out in between. -/
theorem C93_returns {w : World} {rc : Reply} {running rest : List Reply} {body : List SrvMsg} {s : PipeState} {e : Option Obj} {count : Obj} {objs : List Obj}
    (ho : w.pool.state = 2) (hh : w.host = none) (hw : w.replies = rc :: (running ++ rest)) (hc : rc.error = none)
    (hr : ∀ r ∈ running, r.error = none ∨ r.error = some (.wsManFault (some 2150858793)))
    (hrd : Deliver running (body ++ [.pipelineState s e])) (hbody : ∀ m ∈ body, m.Routine) (hs : s ≠ 1)
    (hout : body.filterMap SrvMsg.outputObj = count :: objs) :
    ∃ w', getMetadata w = (.ok objs, w') ∧ w'.replies = rest ∧ w'.pool.state = 2 ∧
      requests w'.sent = requests w.sent ++ .command w.created .getMetadata :: List.replicate running.length (.receive (rc.command.map .server)) := by
  have hnew : newPipe false w = (.ok w.created, ({ w with created := w.created + 1 } : World).setPipe w.created { isNested := false }) := rfl
  generalize hw0 : ({ w with created := w.created + 1 } : World).setPipe w.created { isNested := false } = w0 at hnew
  have p0 : w0.pipes w.created = { isNested := false } := by rw [← hw0, setPipe_self]
  obtain ⟨w1, a1, a2, a3, a4, a5, a6, a7⟩ := invokeMsg_starts (i := w.created) (msg := .getMetadata) (w := w0) (r := rc) (rest := running ++ rest)
    (by rw [p0]) (by rw [← hw0]; exact hw) hc
  obtain ⟨w2, b1, b2, b3, b4⟩ := endInvoke_ends (i := w.created) (w := w1) (by rw [a5, ← hw0]; exact hh) a4 (by rw [a7]; rfl) a2 hr hrd hbody hs
  rw [a7, p0] at b1 b4
  rw [show (_ : List Obj) ++ body.filterMap SrvMsg.outputObj = body.filterMap SrvMsg.outputObj from rfl, hout] at b1
  refine ⟨w2.setPipe w.created { w2.pipes w.created with output := objs }, ?_, b2, ?_, ?_⟩
  · unfold getMetadata
    rw [bind_run]
    simp only [getW]
    rw [if_neg (fun hn => hn ho), bind_run, hnew]
    dsimp only
    rw [bind_run, a1]
    dsimp only
    rw [bind_run, b1]
    rfl
  · show w2.pool.state = 2
    rw [b3, a6, ← hw0]; exact ho
  · show requests w2.sent = _
    rw [b4, a3, ← hw0]
    simp [World.setPipe]

/-- The hypotheses on the answers are met: the count and two commands in two answers. -/
example : Deliver [{ msgs := [.output 7, .output 8] }, { error := some (.wsManFault (some 2150858793)) }, { msgs := [.output 9, .pipelineState 4 none] }]
    ([.output 7, .output 8, .output 9] ++ [.pipelineState 4 none]) ∧
    [SrvMsg.output 7, .output 8, .output 9].filterMap SrvMsg.outputObj = 7 :: [8, 9] ∧ ∀ m ∈ [SrvMsg.output 7, .output 8, .output 9], m.Routine :=
  ⟨⟨by decide +kernel, _, rfl, rfl, by simp⟩, rfl, by
    intro m hm
    simp only [List.mem_cons, List.not_mem_nil, or_false] at hm
    rcases hm with rfl | rfl | rfl <;> trivial⟩

/-- C93: a pipeline that fails is not reported: whatever the state at the end and the error that comes with it are, the call returns what was
written before. The theorem is `C93_returns`, for `s` = 5 (Failed) and an error. -/
theorem C93_failed_false : ∃ w : World, w.pool.state = 2 ∧ ∃ r1 r2, w.replies = [r1, r2] ∧ SrvMsg.pipelineState 5 (some 9) ∈ r2.msgs ∧
    (getMetadata w).1 = .ok [8] :=
  ⟨{ World.start 1 1 none [] [{ command := some 3 }, { msgs := [.output 7, .output 8, .pipelineState 5 (some 9)] }] with
      pool := { (World.start 1 1 none [] []).pool with state := 2 } }, rfl, _, _, rfl, by decide +kernel, by decide +kernel⟩

/-- C93: without any output, also if the pipeline fails at once, the call raises an IndexError. -/
theorem C93_empty_false {w : World} {rc : Reply} {running rest : List Reply} {body : List SrvMsg} {s : PipeState} {e : Option Obj}
    (ho : w.pool.state = 2) (hh : w.host = none) (hw : w.replies = rc :: (running ++ rest)) (hc : rc.error = none)
    (hr : ∀ r ∈ running, r.error = none ∨ r.error = some (.wsManFault (some 2150858793)))
    (hrd : Deliver running (body ++ [.pipelineState s e])) (hbody : ∀ m ∈ body, m.Routine) (hs : s ≠ 1)
    (hout : body.filterMap SrvMsg.outputObj = []) : (getMetadata w).1 = .raised .indexError := by
  have hnew : newPipe false w = (.ok w.created, ({ w with created := w.created + 1 } : World).setPipe w.created { isNested := false }) := rfl
  generalize hw0 : ({ w with created := w.created + 1 } : World).setPipe w.created { isNested := false } = w0 at hnew
  have p0 : w0.pipes w.created = { isNested := false } := by rw [← hw0, setPipe_self]
  obtain ⟨w1, a1, a2, a3, a4, a5, a6, a7⟩ := invokeMsg_starts (i := w.created) (msg := .getMetadata) (w := w0) (r := rc) (rest := running ++ rest)
    (by rw [p0]) (by rw [← hw0]; exact hw) hc
  obtain ⟨w2, b1, b2, b3, b4⟩ := endInvoke_ends (i := w.created) (w := w1) (by rw [a5, ← hw0]; exact hh) a4 (by rw [a7]; rfl) a2 hr hrd hbody hs
  rw [a7, p0] at b1
  rw [show (_ : List Obj) ++ body.filterMap SrvMsg.outputObj = body.filterMap SrvMsg.outputObj from rfl, hout] at b1
  unfold getMetadata
  rw [bind_run]
  simp only [getW]
  rw [if_neg (fun hn => hn ho), bind_run, hnew]
  dsimp only
  rw [bind_run, a1]
  dsimp only
  rw [bind_run, b1]
  rfl

example : ∃ w : World, w.pool.state = 2 ∧ (getMetadata w).1 = .raised .indexError :=
  ⟨{ World.start 1 1 none [] [{ command := some 3 }, { msgs := [.pipelineState 4 none] }] with
      pool := { (World.start 1 1 none [] []).pool with state := 2 } }, rfl, by decide +kernel⟩

/-- C93: the objects. The text of a command is that of an object with type names and these properties in any order and among others; then it is
read as a CommandMetadata with the strings and with the objects that its other properties are read as. -/
theorem C93_object {text r k : PyStr} {ts : List PyStr} (hts : ts ≠ []) {es : List Xml} {name namespace_ help : PyStr} {x1 x2 x3 : Xml} {v1 v2 v3 : PyVal}
    {st1 st2 st3 : DeState} (hx : xmlOfText text = some (.node .Obj (some r) none none [typeNames k ts, .node .MS none none none es]))
    (hne : text ≠ []) (h1 : SaysString es "Name" name) (h2 : SaysString es "Namespace" namespace_) (h3 : SaysString es "HelpUri" help)
    (s1 : SaysObj es "CommandType" x1) (d1 : deser (.cls "CommandType".toList) x1 ⟨[(k, ts)], []⟩ = .ok (v1, st1))
    (s2 : SaysObj es "OutputType" x2) (d2 : deser (.list (.plain .S)) x2 st1 = .ok (v2, st2))
    (s3 : SaysObj es "Parameters" x3) (d3 : deser .dict x3 st2 = .ok (v3, st3)) :
    ∃ v c, deserializeText (.cls "CommandMetadata".toList) text = .ok v ∧ findClass "CommandMetadata".toList = some c ∧
      attrOf c v "name".toList = some (.sc (.str name)) ∧ attrOf c v "namespace".toList = some (.sc (.str namespace_)) ∧
      attrOf c v "help_uri".toList = some (.sc (.str help)) ∧ attrOf c v "command_type".toList = some v1 ∧
      attrOf c v "output_type".toList = some v2 ∧ attrOf c v "parameters".toList = some v3 := by
  obtain ⟨c, hc, c1, c2, c3, c4⟩ := metadata_class
  have hall : ReadAll es ⟨[(k, ts)], []⟩ c.extended [.sc (.str name), .sc (.str namespace_), .sc (.str help), v1, v2, v3] := by
    rw [c3]
    refine ⟨_, _, fun c => readProp_string _ h1, _, _, fun c => readProp_string _ h2, _, _, fun c => readProp_string _ h3,
      _, _, fun c => readProp_found _ _ (t := .Obj) (more := []) rfl rfl (find_obj s1) d1,
      _, _, fun c => readProp_found _ _ (t := .Obj) (more := [.Ref]) rfl rfl (find_obj s2) d2,
      _, _, fun c => readProp_found _ _ (t := .Obj) (more := [.Ref]) rfl rfl (find_obj s3) d3, trivial⟩
  obtain ⟨ext, st', e1, e2⟩ := deser_named (r := r) hc c1 c2 c4 hts .clear hall
  refine ⟨.typed 0 c.types (objText c none []) [] ext [], c, ?_, hc, ?_⟩
  · unfold deserializeText
    rw [if_neg hne, hx]
    simp only [bind, Except.bind, e1]
    rfl
  · have hattr : ∀ a, attrOf c (.typed 0 c.types (objText c none []) [] ext []) a =
        ((metadataFields.zip [PyVal.sc (.str name), .sc (.str namespace_), .sc (.str help), v1, v2, v3]).map fun p => (p.1.attr, p.2)).lookup a := by
      intro a
      unfold attrOf
      simp only [c1, c2, c3, List.zip_nil_left, List.nil_append, List.append_nil]
      rw [← e2, List.zip_map_right, List.map_map]
      rfl
    simp only [hattr]
    exact ⟨rfl, rfl, rfl, rfl, rfl, rfl⟩

/-- A command for the examples, with an empty help address and one parameter. -/
def demoCommand : PyStr := "<Obj RefId=\"0\"><TN RefId=\"0\"><T>Selected</T><T>System.Object</T></TN>".toList ++
  "<MS><S N=\"Name\">Get-It</S><S N=\"Namespace\">Mod</S><S N=\"HelpUri\"></S>".toList ++
  "<Obj N=\"CommandType\" RefId=\"1\"><TN RefId=\"1\"><T>System.Enum</T></TN><ToString>Cmdlet</ToString><I32>8</I32></Obj>".toList ++
  "<Obj N=\"OutputType\" RefId=\"2\"><TN RefId=\"2\"><T>List</T></TN><LST><S>a</S></LST></Obj>".toList ++
  "<Obj N=\"Parameters\" RefId=\"3\"><TN RefId=\"3\"><T>Hash</T></TN><DCT><En><S N=\"Key\">p</S>".toList ++
  "<Obj N=\"Value\" RefId=\"4\"><TN RefId=\"4\"><T>System.Management.Automation.ParameterMetadata</T></TN>".toList ++
  "<Props><S N=\"Name\">p</S><S N=\"ParameterType\">t</S>".toList ++
  "<Obj N=\"Aliases\" RefId=\"5\"><TNRef RefId=\"2\" /><LST /></Obj><B N=\"SwitchParameter\">true</B><B N=\"IsDynamic\">false</B></Props></Obj></En></DCT></Obj></MS></Obj>".toList

def demoStr (n t : String) : Xml := .node .S none (some n.toList) (some t.toList) []
def demoTypes (k t : String) : Xml := typeNames k.toList [t.toList]

/-- Its properties. -/
def demoProps : List Xml := [demoStr "Name" "Get-It", demoStr "Namespace" "Mod", .node .S none (some "HelpUri".toList) none [],
  .node .Obj (some ['1']) (some "CommandType".toList) none [demoTypes "1" "System.Enum", .node .ToString none none (some "Cmdlet".toList) [],
    .node .I32 none none (some ['8']) []],
  .node .Obj (some ['2']) (some "OutputType".toList) none [demoTypes "2" "List", .node .LST none none none [.node .S none none (some ['a']) []]],
  .node .Obj (some ['3']) (some "Parameters".toList) none [demoTypes "3" "Hash", .node .DCT none none none [.node .En none none none [demoStr "Key" "p",
    .node .Obj (some ['4']) (some "Value".toList) none [demoTypes "4" "System.Management.Automation.ParameterMetadata", .node .Props none none none [
      demoStr "Name" "p", demoStr "ParameterType" "t",
      .node .Obj (some ['5']) (some "Aliases".toList) none [.node .TNRef (some ['2']) none none [], .node .LST none none none []],
      .node .B none (some "SwitchParameter".toList) (some "true".toList) [], .node .B none (some "IsDynamic".toList) (some "false".toList) []]]]]]]

def demoTree : Xml := .node .Obj (some ['0']) none none [typeNames ['0'] ["Selected".toList, "System.Object".toList], .node .MS none none none demoProps]

theorem demo_tree : xmlOfText demoCommand = some demoTree := by decide +kernel

theorem demo_nonempty : demoCommand ≠ [] := fun h => absurd demo_tree (by rw [h]; decide +kernel)

theorem demo_deserialize (m : DMeta) : deserializeText m demoCommand = (deser m demoTree .clear).map (·.1) := by
  unfold deserializeText
  rw [if_neg demo_nonempty, demo_tree]
  simp only [bind, Except.bind]
  cases deser m demoTree .clear <;> rfl

/-- The parts of a value that the examples look at. -/
def PyVal.texts : PyVal → List PyStr
  | .sc (.str s) => [s]
  | .sc (.int i) => [pyStrInt i]
  | .list l => l.filterMap fun v => match v with | .sc (.str s) => some s | _ => none
  | .dict d => d.filterMap fun e => match e with | (.sc (.str s), .typed ..) => some s | _ => none
  | .typed _ _ _ ((_, .sc (.int i)) :: _) _ _ => [pyStrInt i]
  | _ => []

def PyVal.attrTexts : PyVal → List (List PyStr)
  | .typed _ _ _ _ ext _ => ext.map fun e => e.2.texts
  | _ => []

theorem demo_attrs : (deserializeText (.cls "CommandMetadata".toList) demoCommand).toOption.map PyVal.attrTexts =
    some [["Get-It".toList], ["Mod".toList], [[]], [['8']], [['a']], [['p']]] := by
  rw [demo_deserialize]
  decide +kernel

/-- The hypotheses of `C93_object` are met by it. -/
example : SaysString demoProps "Name" "Get-It".toList ∧ SaysString demoProps "HelpUri" [] ∧ ∃ x, SaysObj demoProps "OutputType" x :=
  ⟨⟨some "Get-It".toList, ⟨[], demoProps.drop 1, none, rfl, by simp⟩, by decide +kernel⟩,
   ⟨none, ⟨demoProps.take 2, demoProps.drop 3, none, rfl, by decide +kernel⟩, by decide +kernel⟩,
   ⟨_, demoProps.take 4, demoProps.drop 5, rfl, rfl, rfl, by decide +kernel⟩⟩

/-- C93: the conversion. What was written after the first object is read again from its text, in order, if it is made of objects. -/
theorem C93_convert (first : PyStr × PyVal) (docs : List (PyStr × PyVal)) (read : PyStr → PyVal)
    (h : ∀ d ∈ docs, hasXml d.2 = true ∧ deserializeText (.cls "CommandMetadata".toList) d.1 = .ok (read d.1)) :
    convertMetadata (first :: docs) = .ok (docs.map fun d => read d.1) := by
  unfold convertMetadata
  dsimp only
  induction docs with
  | nil => rfl
  | cons d docs ih =>
    obtain ⟨h1, h2⟩ := h d (by simp)
    obtain ⟨t, v⟩ := d
    unfold convertAll
    rw [if_pos h1]
    simp only [bind, Except.bind, h2, ih fun d hd => h d (by simp [hd])]
    rfl

/-- A class of the table. -/
def classOf (name : String) : ClassDef := (findClass name.toList).getD {}

/-- A text and what the pipeline's output is before the conversion. -/
def outputOf (text : PyStr) : Except PyErr (PyStr × PyVal) := (deserializeText (.plain .star) text).map fun v => (text, v)

theorem outputOf_ok {text : PyStr} (h : (outputOf text).toOption.map (fun p => hasXml p.2) = some true) :
    ∃ v, outputOf text = .ok (text, v) ∧ hasXml v = true := by
  unfold outputOf at h ⊢
  cases hd : deserializeText (.plain .star) text with
  | error e => rw [hd] at h; simp [Except.map, Except.toOption] at h
  | ok v => rw [hd] at h; simp [Except.map, Except.toOption] at h; exact ⟨v, rfl, h⟩

def demoCount : PyStr :=
  "<Obj RefId=\"0\"><TN RefId=\"0\"><T>Selected.Microsoft.PowerShell.Commands.GenericMeasureInfo</T></TN><MS><I32 N=\"Count\">2</I32></MS></Obj>".toList

theorem demo_command : ∃ v v', outputOf demoCommand = .ok (demoCommand, v) ∧ hasXml v = true ∧
    deserializeText (.cls "CommandMetadata".toList) demoCommand = .ok v' ∧ v'.attrTexts.head? = some ["Get-It".toList] := by
  obtain ⟨v, h1, h2⟩ := outputOf_ok (text := demoCommand) (by unfold outputOf; rw [demo_deserialize]; decide +kernel)
  cases hd : deserializeText (.cls "CommandMetadata".toList) demoCommand with
  | error e => have := demo_attrs; rw [hd] at this; simp [Except.toOption] at this
  | ok v' =>
    have := demo_attrs
    rw [hd] at this
    simp only [Except.toOption, Option.map_some, Option.some.injEq] at this
    exact ⟨v, v', h1, h2, rfl, by rw [this]; rfl⟩

/-- C93 is false of the count: the number of commands that the server announces is not compared with that of the commands. Here two commands are
announced, and one comes. The first object is not looked at: a server that does not announce anything loses its first command. -/
theorem C93_count_false : (∃ count v v', outputOf demoCount = .ok (demoCount, count) ∧ attrOf (classOf "CommandMetadataCount") count "count".toList = some (.sc (.int 2)) ∧
      outputOf demoCommand = .ok (demoCommand, v) ∧ convertMetadata [(demoCount, count), (demoCommand, v)] = .ok [v']) ∧
    ∃ v, outputOf demoCommand = .ok (demoCommand, v) ∧ convertMetadata [(demoCommand, v)] = .ok [] := by
  obtain ⟨v, v', h1, h2, h3, _⟩ := demo_command
  refine ⟨?_, v, h1, rfl⟩
  have hc : ((outputOf demoCount).toOption.bind fun p => match attrOf (classOf "CommandMetadataCount") p.2 "count".toList with | some (.sc (.int 2)) => some () | _ => none) = some () := by
    decide +kernel
  cases ho : outputOf demoCount with
  | error e => rw [ho] at hc; simp [Except.toOption] at hc
  | ok p =>
    rw [ho] at hc
    obtain ⟨count, h4, _⟩ := outputOf_ok (text := demoCount) (by decide +kernel)
    rw [h4, Except.ok.injEq] at ho
    subst ho
    simp only [Except.toOption, Option.bind_some] at hc
    refine ⟨count, v, v', rfl, ?_, h1, ?_⟩
    · split at hc
      · assumption
      · simp at hc
    · exact C93_convert (demoCount, count) [(demoCommand, v)] (fun _ => v') (by simpa using ⟨h2, h3⟩)

/-- C93 is false of other output: a string between the objects raises an AttributeError. -/
theorem C93_string_false : ∃ text, outputOf text = .ok (text, .sc (.str ['a'])) ∧
    ∀ count, convertMetadata [count, (text, .sc (.str ['a']))] = .error .attributeError :=
  ⟨"<S>a</S>".toList, by
    have h : xmlOfText "<S>a</S>".toList = some (.node .S none none (some ['a']) []) := by decide +kernel
    have hd : deser (.plain .star) (.node .S none none (some ['a']) []) .clear = .ok (.sc (.str ['a']), .clear) := deser_leaf _ (by
      have : deserializeString (some ['a']) = .ok ['a'] := by decide +kernel
      simp only [unpackPrim, this]; rfl)
    unfold outputOf deserializeText
    rw [if_neg (by decide), h]
    simp only [bind, Except.bind, hd]
    rfl, fun _ => rfl⟩

end Verif
