import Verif.Lemmas.PoolDocs
import Verif.Lemmas.XmlEq
/-
C92: the messages that drive a pool, from their bytes.
-/
namespace Verif

/-- Texts of numbers. -/
theorem unpack_number {t : Tag} (ht : t = .I32 ∨ t = .I64) (n : Int) (r : Option PyStr) (st : DeState) :
    unpackPrim t r (some (pyStrInt n)) st = some (.ok (.sc (.int n))) := by
  rcases ht with rfl | rfl <;> simp only [unpackPrim, intOf, pyInt_pyStrInt] <;> rfl

/-- A message for the examples: destination 1, the type, and pool and pipeline ids of sevens. -/
def demoMessage (type : Bytes) (text : String) : Bytes := [1, 0, 0, 0] ++ type ++ List.replicate 32 7 ++ utf8 text.toList

theorem demo_text {kind : MsgKind} {type : Bytes} {text : String} (h : type.length = 4) (hk : leValue type = kind.number)
    (ht : text.toList.head? = some '<') : MessageText kind text.toList (demoMessage type text) where
  header := by simp [demoMessage, h]; omega
  type := by
    rw [← hk]
    unfold demoMessage
    simp [h, List.take_left']
  body := .inl (by unfold demoMessage; rw [List.drop_append_of_le_length (by simp [h])]; simp [h])
  xml := ht

theorem demo_props {kind : MsgKind} {type : Bytes} {text : String} {es : List Xml} (h : type.length = 4) (hk : leValue type = kind.number)
    (ht : text.toList.head? = some '<')
    (hx : xmlOfText text.toList = some (.node .Obj (some "0".toList) none none [.node .MS none none none es])) :
    MessageProps kind es (demoMessage type text) := ⟨_, _, demo_text h hk ht, hx⟩

/-- A property for the examples. -/
def demoProp (tag : Tag) (name text : String) : Xml := .node tag none (some name.toList) (some text.toList) []

/-- C92: the state of the pool, RUNSPACEPOOL_STATE: the number in the property RunspaceState, wherever it stands. -/
theorem C92_pool_state (rd : Reader) {es : List Xml} {bytes : Bytes} {n : Int} (h : MessageProps .runspacePoolStateMessage es bytes)
    (hn : Says es .I32 "RunspaceState" (pyStrInt n)) (ho : ∀ y ∈ es, y.tag ≠ .Obj) : srvMsg rd bytes = .ok (.poolState n) := by
  obtain ⟨v, h1, h2⟩ := srvMsg_values (rd := rd) (e := [prim "state" .I32 "RunspaceState", ⟨"error_record".toList, .plain .Obj none true, .cls "ErrorRecord".toList⟩])
    (vals := [.sc (.int n), .sc .none]) (by decide) (by decide +kernel) h
    ⟨_, _, fun c => readProp_says .clear ⟨by decide, by decide⟩ hn (unpack_number (.inl rfl) n), _, _, fun c => readProp_noObj .clear ho, trivial⟩
  rw [h1]
  simp only [readMessage, numberAttr, h2]
  rfl

/-- With another property before it. -/
def demoOpened : Bytes := demoMessage [0x05, 0x10, 0x02, 0] "<Obj RefId=\"0\"><MS><S N=\"RunspaceState\">9</S><I32 N=\"RunspaceState\">2</I32></MS></Obj>"

theorem demo_opened (rd : Reader) : srvMsg rd demoOpened = .ok (.poolState 2) :=
  C92_pool_state rd (es := [demoProp .S "RunspaceState" "9", demoProp .I32 "RunspaceState" "2"]) (n := 2)
    (demo_props rfl (by decide +kernel) (by decide +kernel) (by decide +kernel))
    ⟨[demoProp .S "RunspaceState" "9"], [], none, by decide +kernel, by decide +kernel⟩ (by decide +kernel)

/-- C92: the limits of the pool, RUNSPACEPOOL_INIT_DATA. -/
theorem C92_limits (rd : Reader) {es : List Xml} {bytes : Bytes} {mn mx : Int} (h : MessageProps .runspacePoolInitData es bytes)
    (hmn : Says es .I32 "MinRunspaces" (pyStrInt mn)) (hmx : Says es .I32 "MaxRunspaces" (pyStrInt mx)) :
    srvMsg rd bytes = .ok (.initData mn mx) := by
  obtain ⟨v, h1, h2⟩ := srvMsg_values (rd := rd) (e := [prim "min_runspaces" .I32 "MinRunspaces", prim "max_runspaces" .I32 "MaxRunspaces"])
    (vals := [.sc (.int mn), .sc (.int mx)]) (by decide) (by decide +kernel) h
    ⟨_, _, fun c => readProp_says .clear ⟨by decide, by decide⟩ hmn (unpack_number (.inl rfl) mn), _, _,
      fun c => readProp_says .clear ⟨by decide, by decide⟩ hmx (unpack_number (.inl rfl) mx), trivial⟩
  rw [h1]
  simp only [readMessage, numberAttr, h2]
  rfl

example (rd : Reader) : srvMsg rd (demoMessage [0x0B, 0x10, 0x02, 0]
    "<Obj RefId=\"0\"><MS><I32 N=\"MaxRunspaces\">5</I32><I32 N=\"MinRunspaces\">-1</I32></MS></Obj>") = .ok (.initData (-1) 5) :=
  C92_limits rd (es := [demoProp .I32 "MaxRunspaces" "5", demoProp .I32 "MinRunspaces" "-1"])
    (demo_props rfl (by decide +kernel) (by decide +kernel) (by decide +kernel))
    ⟨[demoProp .I32 "MaxRunspaces" "5"], [], none, by decide +kernel, by decide +kernel⟩
    ⟨[], [demoProp .I32 "MinRunspaces" "-1"], none, by decide +kernel, by decide +kernel⟩

/-- C92: the versions of the server, SESSION_CAPABILITY. -/
theorem C92_capability (rd : Reader) {es : List Xml} {bytes : Bytes} {protocol ps ser : PyStr} (h : MessageProps .sessionCapability es bytes)
    (h1 : Says es .Version "protocolversion" protocol) (h2 : Says es .Version "PSVersion" ps) (h3 : Says es .Version "SerializationVersion" ser)
    (h4 : Lacks es .BA "TimeZone") : srvMsg rd bytes = .ok (.sessionCapability (some protocol)) := by
  obtain ⟨v, e1, e2⟩ := srvMsg_values (rd := rd) (e := [prim "protocol_version" .Version "protocolversion", prim "ps_version" .Version "PSVersion",
      prim "serialization_version" .Version "SerializationVersion", prim "time_zone" .BA "TimeZone" true])
    (vals := [.sc (.str protocol), .sc (.str ps), .sc (.str ser), .sc .none]) (by decide) (by decide +kernel) h
    ⟨_, _, fun c => readProp_says .clear ⟨by decide, by decide⟩ h1 (fun _ _ => rfl), _, _,
      fun c => readProp_says .clear ⟨by decide, by decide⟩ h2 (fun _ _ => rfl), _, _,
      fun c => readProp_says .clear ⟨by decide, by decide⟩ h3 (fun _ _ => rfl), _, _,
      fun c => readProp_lacks .clear ⟨by decide, by decide⟩ h4, trivial⟩
  rw [e1]
  simp only [readMessage, e2]
  rfl

/-- C92: a server that sends null for its protocol version. -/
theorem C92_capability_unnamed (rd : Reader) {es : List Xml} {bytes : Bytes} {ps ser : PyStr} (h : MessageProps .sessionCapability es bytes)
    (h1 : Lacks es .Version "protocolversion") (hn : ∃ y ∈ es, y.tag = .Nil ∧ y.name = some "protocolversion".toList)
    (h2 : Says es .Version "PSVersion" ps) (h3 : Says es .Version "SerializationVersion" ser)
    (h4 : Lacks es .BA "TimeZone") : srvMsg rd bytes = .ok (.sessionCapability none) := by
  obtain ⟨v, e1, e2⟩ := srvMsg_values (rd := rd) (e := [prim "protocol_version" .Version "protocolversion", prim "ps_version" .Version "PSVersion",
      prim "serialization_version" .Version "SerializationVersion", prim "time_zone" .BA "TimeZone" true])
    (vals := [.sc .none, .sc (.str ps), .sc (.str ser), .sc .none]) (by decide) (by decide +kernel) h
    ⟨_, _, fun c => readProp_nil .clear ⟨by decide, by decide⟩ h1 hn, _, _,
      fun c => readProp_says .clear ⟨by decide, by decide⟩ h2 (fun _ _ => rfl), _, _,
      fun c => readProp_says .clear ⟨by decide, by decide⟩ h3 (fun _ _ => rfl), _, _,
      fun c => readProp_lacks .clear ⟨by decide, by decide⟩ h4, trivial⟩
  rw [e1]
  simp only [readMessage, e2]
  rfl

example (rd : Reader) : srvMsg rd (demoMessage [0x02, 0x00, 0x01, 0]
    "<Obj RefId=\"0\"><MS><Nil N=\"protocolversion\" /><Version N=\"PSVersion\">2.0</Version><Version N=\"SerializationVersion\">1.1.0.1</Version></MS></Obj>") =
    .ok (.sessionCapability none) :=
  C92_capability_unnamed rd (es := [.node .Nil none (some "protocolversion".toList) none [], demoProp .Version "PSVersion" "2.0",
      demoProp .Version "SerializationVersion" "1.1.0.1"]) (ps := "2.0".toList) (ser := "1.1.0.1".toList)
    (demo_props rfl (by decide +kernel) (by decide +kernel) (by decide +kernel))
    (by unfold Lacks; decide +kernel) ⟨_, List.mem_cons_self, rfl, rfl⟩
    ⟨[.node .Nil none (some "protocolversion".toList) none []], [demoProp .Version "SerializationVersion" "1.1.0.1"], none, rfl, by decide +kernel⟩
    ⟨[.node .Nil none (some "protocolversion".toList) none [], demoProp .Version "PSVersion" "2.0"], [], none, rfl, by decide +kernel⟩
    (by unfold Lacks; decide +kernel)

def demoCapability : Bytes := demoMessage [0x02, 0x00, 0x01, 0]
  "<Obj RefId=\"0\"><MS><Version N=\"protocolversion\">2.3</Version><Version N=\"PSVersion\">2.0</Version><Version N=\"SerializationVersion\">1.1.0.1</Version></MS></Obj>"

theorem demo_capability (rd : Reader) : srvMsg rd demoCapability = .ok (.sessionCapability (some "2.3".toList)) :=
  C92_capability rd (es := [demoProp .Version "protocolversion" "2.3", demoProp .Version "PSVersion" "2.0", demoProp .Version "SerializationVersion" "1.1.0.1"])
    (ps := "2.0".toList) (ser := "1.1.0.1".toList)
    (demo_props rfl (by decide +kernel) (by decide +kernel) (by decide +kernel))
    ⟨[], _, none, rfl, by decide +kernel⟩
    ⟨[demoProp .Version "protocolversion" "2.3"], _, none, rfl, by decide +kernel⟩
    ⟨[demoProp .Version "protocolversion" "2.3", demoProp .Version "PSVersion" "2.0"], _, none, rfl, by decide +kernel⟩
    (by unfold Lacks; decide +kernel)

/-- C92: the state of a pipeline without an error, PIPELINE_STATE. -/
theorem C92_pipeline_state (rd : Reader) {es : List Xml} {bytes : Bytes} {n : Int} (h : MessageProps .pipelineState es bytes)
    (hn : Says es .I32 "PipelineState" (pyStrInt n)) (ho : Lacks es .Obj "ExceptionAsErrorRecord") :
    srvMsg rd bytes = .ok (.pipelineState n none) := by
  obtain ⟨v, h1, h2⟩ := srvMsg_values (rd := rd) (e := [prim "state" .I32 "PipelineState", prim "error_record" .Obj "ExceptionAsErrorRecord" true])
    (vals := [.sc (.int n), .sc .none]) (by decide) (by decide +kernel) h
    ⟨_, _, fun c => readProp_says .clear ⟨by decide, by decide⟩ hn (unpack_number (.inl rfl) n), _, _,
      fun c => readProp_lacks .clear ⟨by decide, by decide⟩ ho, trivial⟩
  rw [h1]
  simp only [readMessage, numberAttr, h2]
  rfl

def demoCompleted : Bytes := demoMessage [0x06, 0x10, 0x04, 0] "<Obj RefId=\"0\"><MS><I32 N=\"PipelineState\">4</I32></MS></Obj>"

theorem demo_completed (rd : Reader) : srvMsg rd demoCompleted = .ok (.pipelineState 4 none) :=
  C92_pipeline_state rd (es := [demoProp .I32 "PipelineState" "4"]) (n := 4)
    (demo_props rfl (by decide +kernel) (by decide +kernel) (by decide +kernel))
    ⟨[], [], none, by decide +kernel, by decide +kernel⟩ (by unfold Lacks; decide +kernel)

theorem find_any {es : List Xml} {name : String} {x : Xml} (h : SaysAny es name x) :
    es.find? (fieldMatch .star (some name.toList)) = some x := by
  obtain ⟨pre, post, rfl, hx, hpre⟩ := h
  rw [List.find?_append, List.find?_eq_none.2, Option.none_or, List.find?_cons]
  · simp [fieldMatch, hx]
  · intro y hy hc
    simp only [fieldMatch, Bool.and_eq_true, Bool.or_eq_true, beq_iff_eq, reduceCtorEq, false_or] at hc
    exact hpre y hy hc.2

theorem find_obj {es : List Xml} {name : String} {x : Xml} (h : SaysObj es name x) :
    es.find? (fieldMatch .Obj (some name.toList)) = some x := by
  obtain ⟨pre, post, rfl, ht, hx, hpre⟩ := h
  rw [List.find?_append, List.find?_eq_none.2, Option.none_or, List.find?_cons]
  · simp [fieldMatch, hx, ht]
  · intro y hy hc
    simp only [fieldMatch, Bool.and_eq_true, Bool.or_eq_true, beq_iff_eq, reduceCtorEq, false_or] at hc
    exact hpre y hy hc

/-- C92: the state of a pipeline with an error. -/
theorem C92_pipeline_error (rd : Reader) {es : List Xml} {bytes : Bytes} {n : Int} {x : Xml} {v : PyVal} {st : DeState}
    (h : MessageProps .pipelineState es bytes)
    (hn : Says es .I32 "PipelineState" (pyStrInt n)) (ho : SaysObj es "ExceptionAsErrorRecord" x) (hv : deser (.plain .Obj) x .clear = .ok (v, st))
    (hnn : v ≠ .sc .none) : srvMsg rd bytes = .ok (.pipelineState n (some (rd.name v))) := by
  obtain ⟨u, h1, h2⟩ := srvMsg_values (rd := rd) (e := [prim "state" .I32 "PipelineState", prim "error_record" .Obj "ExceptionAsErrorRecord" true])
    (vals := [.sc (.int n), v]) (by decide) (by decide +kernel) h
    ⟨_, _, fun c => readProp_says .clear ⟨by decide, by decide⟩ hn (unpack_number (.inl rfl) n), _, _,
      fun c => readProp_obj .clear st (find_obj ho) hv, trivial⟩
  rw [h1]
  have ha : dataAttr .pipelineState u "error_record" = some v := by rw [h2]; rfl
  have hb : dataAttr .pipelineState u "state" = some (.sc (.int n)) := by rw [h2]; rfl
  simp only [readMessage, numberAttr, ha, hb, bind, Except.bind]
  rfl

/-- The record is an object with a value. -/
def demoRecord : Xml := .node .Obj (some "1".toList) (some "ExceptionAsErrorRecord".toList) none [.node .I32 none none (some "7".toList) []]

theorem demo_record : ∃ st, deser (.plain .Obj) demoRecord .clear = .ok (.generic 0 [] none [.sc (.int 7)] [] [], st) := by
  have h : ∀ d, deser (.plain .star) (.node .I32 none none (some "7".toList) []) d = .ok (.sc (.int 7), d) := fun d => deser_leaf _ (by rfl)
  have ht : ∀ d, getTypes [.node .I32 none none (some "7".toList) []] d = .ok ([], d) := fun d => by rfl
  have hm : chooseMeta ((DMeta.plain .Obj).settle .Obj) [] = some .dynamic := by decide +kernel
  unfold demoRecord
  rw [deser]
  simp only [bind, Except.bind, ht, hm, deDyn, h, unpackPrim, pure, Except.pure, DynObj.val]
  exact ⟨_, rfl⟩

example (rd : Reader) : srvMsg rd (demoMessage [0x06, 0x10, 0x04, 0]
    "<Obj RefId=\"0\"><MS><I32 N=\"PipelineState\">5</I32><Obj RefId=\"1\" N=\"ExceptionAsErrorRecord\"><I32>7</I32></Obj></MS></Obj>") =
    .ok (.pipelineState 5 (some (rd.name (.generic 0 [] none [.sc (.int 7)] [] [])))) := by
  obtain ⟨st, hst⟩ := demo_record
  exact C92_pipeline_error rd (n := 5) (es := [demoProp .I32 "PipelineState" "5", demoRecord])
    (demo_props rfl (by decide +kernel) (by decide +kernel) (by decide +kernel))
    ⟨[], [demoRecord], none, by decide +kernel, by simp⟩ ⟨[demoProp .I32 "PipelineState" "5"], [], rfl, rfl, rfl, by decide +kernel⟩ hst (by simp)

/-- C92: the answer to a request of the pool, RUNSPACE_AVAILABILITY: the number of the request, and a truth value or a number. -/
theorem C92_availability (rd : Reader) {es : List Xml} {bytes : Bytes} {ci n : Int} {b : Bool} {r : Option PyStr} (h : MessageProps .runspaceAvailability es bytes)
    (hci : Says es .I64 "ci" (pyStrInt ci)) :
    (SaysAny es "SetMinMaxRunspacesResponse" (.node .B r (some "SetMinMaxRunspacesResponse".toList) (some (if b then "true" else "false").toList) []) →
      srvMsg rd bytes = .ok (.availability ci (.bool b))) ∧
    (SaysAny es "SetMinMaxRunspacesResponse" (.node .I64 r (some "SetMinMaxRunspacesResponse".toList) (some (pyStrInt n)) []) →
      srvMsg rd bytes = .ok (.availability ci (.int n))) := by
  have key : ∀ {x : Xml} {v : PyVal}, SaysAny es "SetMinMaxRunspacesResponse" x → (deser (.plain .star) x .clear = .ok (v, .clear)) →
      ∃ u, srvMsg rd bytes = readMessage rd .runspaceAvailability u ∧ dataAttr .runspaceAvailability u "ci" = some (.sc (.int ci)) ∧
        dataAttr .runspaceAvailability u "response" = some v := by
    intro x v hx hd
    obtain ⟨u, h1, h2⟩ := srvMsg_values (rd := rd) (e := [anyOf "response" "SetMinMaxRunspacesResponse", prim "ci" .I64 "ci"])
      (vals := [v, .sc (.int ci)]) (by decide) (by decide +kernel) h
      ⟨_, _, fun c => readProp_any .clear .clear (find_any hx) hd, _, _,
        fun c => readProp_says .clear ⟨by decide, by decide⟩ hci (unpack_number (.inr rfl) ci), trivial⟩
    exact ⟨u, h1, by rw [h2]; rfl, by rw [h2]; rfl⟩
  refine ⟨fun hx => ?_, fun hx => ?_⟩
  · obtain ⟨u, h1, h2, h3⟩ := key hx (v := .sc (.bool b)) (deser_leaf _ (by cases b <;> rfl))
    rw [h1]
    simp only [readMessage, numberAttr, h2, h3]
    rfl
  · obtain ⟨u, h1, h2, h3⟩ := key hx (deser_leaf _ (unpack_number (.inr rfl) n _ _))
    rw [h1]
    simp only [readMessage, numberAttr, h2, h3]
    rfl

example (rd : Reader) : srvMsg rd (demoMessage [0x04, 0x10, 0x02, 0]
    "<Obj RefId=\"0\"><MS><B N=\"SetMinMaxRunspacesResponse\">true</B><I64 N=\"ci\">3</I64></MS></Obj>") = .ok (.availability 3 (.bool true)) :=
  (C92_availability rd (es := [demoProp .B "SetMinMaxRunspacesResponse" "true", demoProp .I64 "ci" "3"]) (ci := 3) (n := 0) (b := true) (r := none)
    (demo_props rfl (by decide +kernel) (by decide +kernel) (by decide +kernel))
    ⟨[demoProp .B "SetMinMaxRunspacesResponse" "true"], [], none, by decide +kernel, by decide +kernel⟩).1
    ⟨[], [demoProp .I64 "ci" "3"], by decide +kernel, by decide +kernel, by simp⟩

example (rd : Reader) : srvMsg rd (demoMessage [0x04, 0x10, 0x02, 0]
    "<Obj RefId=\"0\"><MS><I64 N=\"SetMinMaxRunspacesResponse\">-2</I64><I64 N=\"ci\">3</I64></MS></Obj>") = .ok (.availability 3 (.int (-2))) :=
  (C92_availability rd (es := [demoProp .I64 "SetMinMaxRunspacesResponse" "-2", demoProp .I64 "ci" "3"]) (ci := 3) (n := -2) (b := true) (r := none)
    (demo_props rfl (by decide +kernel) (by decide +kernel) (by decide +kernel))
    ⟨[demoProp .I64 "SetMinMaxRunspacesResponse" "-2"], [], none, by decide +kernel, by decide +kernel⟩).2
    ⟨[], [demoProp .I64 "ci" "3"], by decide +kernel, by decide +kernel, by simp⟩

/-- C92: the session key. -/
theorem C92_session_key (rd : Reader) {es : List Xml} {bytes : Bytes} {s : PyStr} {k : PyStr} (h : MessageProps .encryptedSessionKey es bytes)
    (hs : Says es .S "EncryptedSessionKey" s) (hk : deserializeString (some s) = .ok k) :
    srvMsg rd bytes = .ok (.encryptedSessionKey (rd.key (.sc (.str k)))) := by
  obtain ⟨v, h1, h2⟩ := srvMsg_values (rd := rd) (e := [prim "session_key" .S "EncryptedSessionKey"])
    (vals := [.sc (.str k)]) (by decide) (by decide +kernel) h
    ⟨_, _, fun c => readProp_says .clear ⟨by decide, by decide⟩ hs (fun r st => by simp only [unpackPrim, hk]; rfl), trivial⟩
  rw [h1]
  simp only [readMessage, h2]
  rfl

example (rd : Reader) : srvMsg rd (demoMessage [0x06, 0x00, 0x01, 0]
    "<Obj RefId=\"0\"><MS><S N=\"EncryptedSessionKey\">AQI=</S></MS></Obj>") = .ok (.encryptedSessionKey (rd.key (.sc (.str "AQI=".toList)))) :=
  C92_session_key rd (es := [demoProp .S "EncryptedSessionKey" "AQI="]) (s := "AQI=".toList)
    (demo_props rfl (by decide +kernel) (by decide +kernel) (by decide +kernel))
    ⟨[], [], none, by decide +kernel, by decide +kernel⟩ (by decide +kernel)

/-- C92, partial: an object that a script writes, if the server writes objects like this library does.
Missing: values that do not survive the serializer, see C15, and other ways to write a value. -/
theorem C92_output_partial (rd : Reader) {d : Nat} (hd : d < 2 ^ 32) (rpid pid : Option UUID) {v : PyVal} (hv : PlainValue v) :
    ∃ bytes, packMessage d rpid pid .pipelineOutput false v = .ok bytes ∧ srvMsg rd bytes = .ok (.output (rd.name v)) := by
  obtain ⟨x, h1, h2, h3⟩ := C15_roundtrip_partial v hv
  obtain ⟨bytes, p1, _, p3⟩ := C84_output hd rpid pid h1 h2 h3
  refine ⟨bytes, p1, ?_⟩
  unfold srvMsg
  rw [p3]
  rfl

example (rd : Reader) : ∃ bytes, packMessage 1 none none .pipelineOutput false (.list [.sc (.int 1), .sc (.bool true)]) = .ok bytes ∧
    srvMsg rd bytes = .ok (.output (rd.name (.list [.sc (.int 1), .sc (.bool true)]))) :=
  C92_output_partial rd (by decide) none none (.list fun x hx => by
    simp only [List.mem_cons, List.not_mem_nil, or_false] at hx
    rcases hx with rfl | rfl
    · exact ⟨_, rfl, trivial⟩
    · exact ⟨_, rfl, trivial⟩)

/-- An output. Numbers for objects: those of texts are their lengths. -/
def demoOutput : Bytes := demoMessage [0x04, 0x10, 0x04, 0] "<S N=\"x\">hi</S>"

def demoReader : Reader where
  name := fun v => match v with
    | .sc (.str s) => s.length
    | _ => 0
  key := fun _ => none

theorem demo_output : srvMsg demoReader demoOutput = .ok (.output 2) := by decide +kernel

end Verif
