import Verif.Lemmas.Wire
import Verif.Props.Message
import Verif.Props.Fragment
import Verif.Props.Serializer
import Verif.Props.Classes
import Verif.Props.CreatePipeline
/-
C84: the whole way of a message, from the object of the sender over XML text, header and fragments to the object of the receiver.
-/
namespace Verif
open Seen

/-- Cut into fragments by any sender, the bytes come out whole at any receiver that has nothing under that number, however the blocks are
grouped on the way. -/
def Arrives (msg : Bytes) : Prop :=
  ∀ (o : OutState) (b : InBufs), 0 < o.maxSize → o.counter < 2 ^ 64 → msg.length < 2 ^ 32 → b o.counter = none →
    ∃ blocks o', fragment o msg none = .ok (blocks, o') ∧ ∀ groups : List (List Bytes), groups.flatten = blocks →
      ∃ outs, receives b (groups.map List.flatten) = (b, .ok outs) ∧ outs.flatten = [msg]

/-- Kinds whose body is not the object. -/
def MsgKind.Special (kind : MsgKind) (noLimits : Bool) : Prop :=
  kind = .publicKeyRequest ∨ kind = .endOfPipelineInput ∨ (kind = .connectRunspacePool ∧ noLimits = true)

/-- C84. Every document that the serializer writes is, as UTF-8 text, read as the same document. -/
theorem C84_document {m : Meta} {v : PyVal} {x : Xml} (h : serialize m v = .ok (some x)) (hs : x.Sendable) :
    (decodeUtf8 (xmlBytes x)).bind xmlOfText = some x.reparse := by
  obtain ⟨h1, h2⟩ := document_text (known_serialize h) hs
  rw [h1, Option.bind_some, h2]

/-! ### The text on the wire -/

/-- The names of the elements in [MS-PSRP] 2.2.5. -/
def elementName : Tag → String
  | .S => "S" | .ToString => "ToString" | .C => "C" | .B => "B" | .DT => "DT" | .TS => "TS" | .By => "By" | .SB => "SB"
  | .U16 => "U16" | .I16 => "I16" | .U32 => "U32" | .I32 => "I32" | .U64 => "U64" | .I64 => "I64" | .Sg => "Sg" | .Db => "Db"
  | .D => "D" | .BA => "BA" | .G => "G" | .URI => "URI" | .Version => "Version" | .XD => "XD" | .SBK => "SBK" | .SS => "SS"
  | .Obj => "Obj" | .ObjDynamic => "ObjDynamic" | .LST => "LST" | .IE => "IE" | .QUE => "QUE" | .STK => "STK" | .DCT => "DCT"
  | .Nil => "Nil" | .Ref => "Ref" | .En => "En" | .TN => "TN" | .T => "T" | .TNRef => "TNRef" | .MS => "MS" | .Props => "Props"
  | .star | .other _ => ""

/-- A text with the characters of a table replaced. -/
def replaced (table : List (Char × String)) (s : PyStr) : PyStr := s.flatMap fun c => ((table.lookup c).getD c.toString).toList

/-- What has to be replaced in the text of an element, and in an attribute. -/
def inText : List (Char × String) := [('&', "&amp;"), ('<', "&lt;"), ('>', "&gt;")]
def inAttr : List (Char × String) := inText ++ [('"', "&quot;"), ('\r', "&#13;"), ('\n', "&#10;"), ('\t', "&#09;")]

/-- An attribute, if it is there. -/
def attrText (name : String) : Option PyStr → PyStr
  | none => []
  | some v => " ".toList ++ name.toList ++ "=\"".toList ++ replaced inAttr v ++ ['"']

mutual
/-- The document as it is to be written. -/
def Xml.wireText : Xml → PyStr
  | .node t r n x ks =>
    let inner := replaced inText (x.getD []) ++ wireTexts ks
    "<".toList ++ (elementName t).toList ++ attrText "RefId" r ++ attrText "N" n ++
      (if inner = [] then " />".toList else ">".toList ++ inner ++ "</".toList ++ (elementName t).toList ++ ">".toList)
def wireTexts : List Xml → PyStr
  | [] => []
  | x :: xs => x.wireText ++ wireTexts xs
end

theorem elementName_text {t : Tag} (h : t.known = true) : t.text = (elementName t).toList := by
  cases t with
  | star => exact absurd h (by decide)
  | other s =>
    have h' : (Tag.other s).known = false := rfl
    rw [h'] at h
    cases h
  | _ => rfl

theorem replaced_text (s : PyStr) : escapeText s = replaced inText s := by
  unfold escapeText replaced
  congr 1
  funext c
  unfold escapeTextChar inText
  simp only [List.lookup_cons, List.lookup_nil]
  by_cases h1 : c = '&'
  · subst h1; rfl
  by_cases h2 : c = '<'
  · subst h2; rfl
  by_cases h3 : c = '>'
  · subst h3; rfl
  simp [h1, h2, h3, beq_eq_false_iff_ne.mpr h1, beq_eq_false_iff_ne.mpr h2, beq_eq_false_iff_ne.mpr h3, Char.toString]

theorem replaced_attr (s : PyStr) : escapeAttr s = replaced inAttr s := by
  unfold escapeAttr replaced
  congr 1
  funext c
  unfold escapeAttrChar inAttr inText
  simp only [List.lookup_cons, List.lookup_nil, List.cons_append, List.nil_append]
  by_cases h1 : c = '&'
  · subst h1; rfl
  by_cases h2 : c = '<'
  · subst h2; rfl
  by_cases h3 : c = '>'
  · subst h3; rfl
  by_cases h4 : c = '"'
  · subst h4; rfl
  by_cases h5 : c = '\r'
  · subst h5; rfl
  by_cases h6 : c = '\n'
  · subst h6; rfl
  by_cases h7 : c = '\t'
  · subst h7; rfl
  simp [h1, h2, h3, h4, h5, h6, h7, beq_eq_false_iff_ne.mpr h1, beq_eq_false_iff_ne.mpr h2, beq_eq_false_iff_ne.mpr h3,
    beq_eq_false_iff_ne.mpr h4, beq_eq_false_iff_ne.mpr h5, beq_eq_false_iff_ne.mpr h6, beq_eq_false_iff_ne.mpr h7, Char.toString]

theorem escapeText_nil_iff (s : PyStr) : escapeText s = [] ↔ s = [] := by
  constructor
  · intro h
    cases s with
    | nil => rfl
    | cons c s =>
      rw [escapeText, List.flatMap_cons, List.append_eq_nil_iff] at h
      exfalso
      revert h
      unfold escapeTextChar
      split
      · simp
      split
      · simp
      split
      · simp
      simp
  · rintro rfl; rfl

mutual
theorem print_wire : ∀ {x : Xml}, AllKnown [x] → x.elem.print = x.wireText
  | .node t r n x ks, hk => by
    have ht : t.known = true := hk (.node t r n x ks) (by simp [elemsAll, Xml.elems])
    have hks : AllKnown ks := fun e he => hk e (by simp [elemsAll, Xml.elems, he])
    have hp := prints_wire hks
    rw [Xml.elem, Elem.print, Xml.wireText, hp, elementName_text ht, replaced_text]
    have hc : hasContent x (elemAll ks) = true ↔ ¬ (replaced inText (x.getD []) ++ wireTexts ks = []) := by
      rw [List.append_eq_nil_iff, ← replaced_text, escapeText_nil_iff, ← hp]
      cases ks with
      | nil => simp [hasContent, elemAll, printKids]
      | cons k ks =>
        obtain ⟨q, hq⟩ := print_cons k.elem
        simp [hasContent, elemAll, printKids, hq]
    have ha : printAttrs ((r.map fun v => ("RefId".toList, v)).toList ++ (n.map fun v => ("N".toList, v)).toList) =
        attrText "RefId" r ++ attrText "N" n := by
      cases r <;> cases n <;> simp [printAttrs, printAttr, attrText, replaced_attr]
    rw [ha]
    by_cases h : replaced inText (x.getD []) ++ wireTexts ks = []
    · rw [if_pos h, if_neg (fun h' => (hc.mp h') h)]
      simp
    · rw [if_neg h, if_pos (hc.mpr h)]
      simp
theorem prints_wire : ∀ {xs : List Xml}, AllKnown xs → printKids (elemAll xs) = wireTexts xs
  | [], _ => rfl
  | x :: xs, hk => by
    rw [elemAll, printKids, wireTexts, print_wire (fun e he => hk e (by simp [elemsAll] at he ⊢; exact .inl he)),
      prints_wire (fun e he => hk e (by simp [elemsAll, he]))]
end

/-- C84. The bytes of a document are the UTF-8 form of its elements with the names that the protocol gives them. -/
theorem C84_text {m : Meta} {v : PyVal} {x : Xml} (h : serialize m v = .ok (some x)) (hs : x.Sendable) :
    decodeUtf8 (xmlBytes x) = some x.wireText := by
  rw [(document_text (known_serialize h) hs).1, print_wire (known_serialize h)]

/-- The text of a document. -/
def writtenText (m : Meta) (v : PyVal) : Option PyStr := match serialize m v with
  | .ok (some x) => decodeUtf8 (xmlBytes x)
  | _ => none

/-- A list with a number, a text and None. -/
example : writtenText .star (.list [.sc (.int (-5)), .sc (.str "a<b".toList), .sc .none]) =
    some ("<Obj RefId=\"0\"><TN RefId=\"0\"><T>System.Object[]</T><T>System.Array</T><T>System.Object</T></TN>" ++
      "<LST><I32>-5</I32><S>a&lt;b</S><Nil /></LST></Obj>").toList := by decide +kernel

/-- A property of an unsigned type and one that is an enumerable. -/
example : writtenText .star (.typed 0 [] none [] [(.plain .U32 (some "a&b".toList) false, .sc (.int 5)),
      (.list .lst .IE (some "l".toList) false .star ["T".toList], .list [.sc (.bool true)])] []) =
    some ("<Obj RefId=\"0\"><MS><U32 N=\"a&amp;b\">5</U32><Obj RefId=\"1\" N=\"l\"><TN RefId=\"0\"><T>T</T></TN>" ++
      "<IE><B>true</B></IE></Obj></MS></Obj>").toList := by decide +kernel

/-- The classes of messages.py 231-930 with their `MESSAGE_TYPE`. -/
def declaredTypes : List (String × Nat) := [
  ("SessionCapability", 0x00010002), ("InitRunspacePool", 0x00010004), ("PublicKey", 0x00010005), ("EncryptedSessionKey", 0x00010006),
  ("PublicKeyRequest", 0x00010007), ("SetMaxRunspaces", 0x00021002), ("SetMinRunspaces", 0x00021003), ("RunspaceAvailability", 0x00021004),
  ("RunspacePoolStateMessage", 0x00021005), ("CreatePipeline", 0x00021006), ("GetAvailableRunspaces", 0x00021007),
  ("UserEvent", 0x00021008), ("ApplicationPrivateData", 0x00021009), ("GetCommandMetadata", 0x0002100A),
  ("RunspacePoolHostCall", 0x00021100), ("RunspacePoolHostResponse", 0x00021101), ("PipelineInput", 0x00041002),
  ("EndOfPipelineInput", 0x00041003), ("PipelineOutput", 0x00041004), ("ErrorRecordMessage", 0x00041005), ("PipelineState", 0x00041006),
  ("DebugRecord", 0x00041007), ("VerboseRecord", 0x00041008), ("WarningRecord", 0x00041009), ("ProgressRecord", 0x00041010),
  ("InformationRecord", 0x00041011), ("PipelineHostCall", 0x00041100), ("PipelineHostResponse", 0x00041101),
  ("ConnectRunspacePool", 0x00010008), ("RunspacePoolInitData", 0x0002100B), ("ResetRunspaceState", 0x0002100C)]

/-- C84. The data of a message is read with the class that is declared for its number, and with no other one. -/
theorem C84_class (kind : MsgKind) (name : String) (n : Nat) (h : (name, n) ∈ declaredTypes) :
    kind.className = name.toList ↔ kind.number = n := by
  have all : ∀ e ∈ declaredTypes, ∀ k ∈ unpackTable.map (·.2), (k.className = e.1.toList ↔ k.number = e.2) := by decide +kernel
  exact all _ h kind (by cases kind <;> decide)

example : ("VerboseRecord", 0x00041008) ∈ declaredTypes := by decide

theorem pack_ne_nil {m : Msg} {bytes : Bytes} (h : m.pack = .ok bytes) : bytes ≠ [] := by
  unfold Msg.pack at h
  obtain ⟨a, h1, h⟩ := bind_ok h
  obtain ⟨b, h2, h⟩ := bind_ok h
  have h := pure_ok h
  subst h
  have := m.rpid.len
  intro h0
  have := congrArg List.length h0
  simp [UUID.bytesLe_length] at this

theorem arrives {msg : Bytes} (h : msg ≠ []) : Arrives msg := fun o b h1 h2 h3 h4 => C02_fragment_reassemble o msg b h1 h h2 h3 h4

theorem packBody_plain {kind : MsgKind} {noLimits : Bool} (hk : ¬ kind.Special noLimits) (b : Bytes) : packBody kind noLimits (some b) = b := by
  unfold packBody
  unfold MsgKind.Special at hk
  cases kind <;> simp [MsgKind.messageType] at hk ⊢
  intro h
  simp [h] at hk

/-- C84. A message with any object that the serializer can write for XML is packed, arrives, and has the same header and document there. -/
theorem C84_message {d : Nat} {rpid pid : Option UUID} {kind : MsgKind} {noLimits : Bool} {v : PyVal} {x : Xml} (hd : d < 2 ^ 32)
    (hk : ¬ kind.Special noLimits) (hx : serialize .star v = .ok (some x)) (hs : x.Sendable) :
    ∃ bytes, packMessage d rpid pid kind noLimits v = .ok bytes ∧ Arrives bytes ∧
      ∃ body text, Msg.unpack bytes = .ok { destination := d, kind, rpid := rpid.getD .zero, pid := pid.getD .zero, body } ∧
        decodeUtf8 body = some text ∧ text ≠ [] ∧ xmlOfText text = some x.reparse := by
  obtain ⟨bytes, h1, h2⟩ := C10_roundtrip d rpid pid kind (xmlBytes x) hd xmlBytes_start.1
  obtain ⟨h3, h4⟩ := document_text (known_serialize hx) hs
  refine ⟨bytes, ?_, arrives (pack_ne_nil h1), _, _, h2, h3, ?_, h4⟩
  · unfold packMessage
    unfold MsgKind.Special at hk
    rw [if_neg hk]
    simp only [hx, bind, Except.bind, Option.map_some, packBody_plain hk]
    exact h1
  · obtain ⟨r, hr⟩ := print_cons x.elem
    rw [hr]; simp

/-- C84, partial: input for a pipeline arrives as the value that was sent.
Missing: values that do not survive the serializer, see C15. -/
theorem C84_input_partial {d : Nat} (hd : d < 2 ^ 32) (rpid pid : Option UUID) {v : PyVal} (hv : PlainValue v) :
    ∃ bytes, packMessage d rpid pid .pipelineInput false v = .ok bytes ∧ Arrives bytes ∧
      unpackMessage bytes = .ok { destination := d, kind := .pipelineInput, rpid := rpid.getD .zero, pid := pid.getD .zero, data := some v } := by
  obtain ⟨x, h1, h2, h3⟩ := C15_roundtrip_partial v hv
  obtain ⟨bytes, p1, p2, body, text, p3, p4, p5, p6⟩ := C84_message (rpid := rpid) (pid := pid) (kind := .pipelineInput) (noLimits := false) hd
    (by simp [MsgKind.Special]) h1 h2
  refine ⟨bytes, p1, p2, ?_⟩
  unfold deserialize at h3
  obtain ⟨⟨w, st⟩, e1, e2⟩ := bind_ok h3
  have e2 := pure_ok e2
  subst e2
  simp only [unpackMessage, p3, bind, Except.bind, p4, readData, deserializeText, if_neg p5, p6, e1, pure, Except.pure]

/-- Output comes back in the same way, whatever the other side sends as CLIXML text that reads as this value. -/
theorem C84_output {d : Nat} (hd : d < 2 ^ 32) (rpid pid : Option UUID) {v : PyVal} {x : Xml} (hx : serialize .star v = .ok (some x))
    (hs : x.Sendable) {w : PyVal} (hw : deserialize x.reparse = .ok w) :
    ∃ bytes, packMessage d rpid pid .pipelineOutput false v = .ok bytes ∧ Arrives bytes ∧
      unpackMessage bytes = .ok { destination := d, kind := .pipelineOutput, rpid := rpid.getD .zero, pid := pid.getD .zero, data := some w } := by
  obtain ⟨bytes, p1, p2, body, text, p3, p4, p5, p6⟩ := C84_message (rpid := rpid) (pid := pid) (kind := .pipelineOutput) (noLimits := false) hd
    (by simp [MsgKind.Special]) hx hs
  refine ⟨bytes, p1, p2, ?_⟩
  unfold deserialize at hw
  obtain ⟨⟨w, st⟩, e1, e2⟩ := bind_ok hw
  have e2 := pure_ok e2
  subst e2
  simp only [unpackMessage, p3, bind, Except.bind, p4, readData, deserializeText, if_neg p5, p6, e1, pure, Except.pure]

/-- C84, partial: a message with an object of its class arrives with the attributes of the object.
Missing: as for C79, and the kinds of `C84_end_false` and `C84_connect_false`. -/
theorem C84_object_partial {d : Nat} (hd : d < 2 ^ 32) (rpid pid : Option UUID) {kind : MsgKind} {noLimits : Bool} (hk : ¬ kind.Special noLimits)
    {c : ClassDef} (hc : findClass kind.className = some c) (hr : c.readable = true) {oid : Nat} {attrs : List (PyStr × PyVal)} {v : PyVal}
    (hv : instanceOf c oid attrs = .ok v) (fit : ∀ f ∈ c.fields, ∀ w, attrs.lookup f.attr = some w → Fits f.write f.read w)
    (pos : ∀ i, attrs.lookup "value".toList = some (.sc (.int i)) → 0 ≤ i) :
    ∃ bytes v', packMessage d rpid pid kind noLimits v = .ok bytes ∧ Arrives bytes ∧
      unpackMessage bytes = .ok { destination := d, kind, rpid := rpid.getD .zero, pid := pid.getD .zero, data := some v' } ∧
      ∀ f ∈ c.fields, (attrOf c v' f.attr).map PyVal.forget = (attrs.lookup f.attr).map PyVal.forget := by
  obtain ⟨x, v', d', h1, h2, h3, h5, h4⟩ := C79_roundtrip_partial hc hr hv fit pos
  obtain ⟨bytes, p1, p2, body, text, p3, p4, p5, p6⟩ := C84_message (rpid := rpid) (pid := pid) (kind := kind) (noLimits := noLimits) hd hk h1 h2
  refine ⟨bytes, v', p1, p2, ?_, h4⟩
  have hr : readData kind text = .ok (some v') := by
    obtain ⟨_, _, _, _, _, _, rfl⟩ : ∃ a b c d e f, v' = .typed a b c d e f := by
      obtain ⟨_, _, _, _, hve, _⟩ := instance_attrs hv
      subst hve
      cases v' <;> simp [PyVal.forget] at h5
      exact ⟨_, _, _, _, _, _, rfl⟩
    have none_of : (findClass kind.className).isNone ≠ true := by rw [hc]; exact Bool.false_ne_true
    cases kind with
    | pipelineInput => exact absurd (by decide +kernel) none_of
    | pipelineOutput => exact absurd (by decide +kernel) none_of
    | publicKeyRequest => exact absurd (by decide +kernel) none_of
    | _ => simp only [readData, deserializeText, if_neg p5, p6, h3, bind, Except.bind, pure, Except.pure]
  simp only [unpackMessage, p3, p4, hr, bind, Except.bind, pure, Except.pure]

/-- C84. A request for the public key arrives as one. -/
theorem C84_key_request {d : Nat} (hd : d < 2 ^ 32) (rpid pid : Option UUID) (noLimits : Bool) (v : PyVal) :
    ∃ bytes, packMessage d rpid pid .publicKeyRequest noLimits v = .ok bytes ∧ Arrives bytes ∧
      unpackMessage bytes = .ok { destination := d, kind := .publicKeyRequest, rpid := rpid.getD .zero, pid := pid.getD .zero, data := none } := by
  obtain ⟨bytes, h1, h2⟩ := C10_roundtrip d rpid pid .publicKeyRequest (utf8 "<S />".toList) hd (by decide)
  refine ⟨bytes, ?_, arrives (pack_ne_nil h1), ?_⟩
  · unfold packMessage
    rw [if_pos (.inl rfl)]
    exact h1
  · simp only [unpackMessage, h2, bind, Except.bind, decode_utf8, readData, pure, Except.pure]

/-- C84. The message that opens a pool is read by the other side as its settings, host and arguments. -/
theorem C84_open {p : PoolSettings} {facts : Option HostFacts} (hh : ShowsHost p.host facts) {thread apartment : Nat}
    (ht : p.threadOptions = thread) (ht' : thread ≤ 3) (ha : p.apartmentState = apartment) (ha' : apartment ≤ 2)
    {arguments : Option (List (PyVal × PyVal))} (hargs : ∀ es, arguments = some es → PlainValue (.dict es)) (rpid : UUID) :
    ∃ v bytes body text x, initRunspacePoolVal p arguments = .ok v ∧ packMessage 2 (some rpid) none .initRunspacePool false v = .ok bytes ∧
      Arrives bytes ∧ Msg.unpack bytes = .ok { destination := 2, kind := .initRunspacePool, rpid, pid := .zero, body } ∧
      decodeUtf8 body = some text ∧ xmlOfText text = some x ∧
      deserialize x = .ok (record [("MinRunspaces", number p.minRunspaces), ("MaxRunspaces", number p.maxRunspaces),
        ("PSThreadOptions", threadSeen thread), ("ApartmentState", apartmentSeen apartment), ("HostInfo", hostSeen facts),
        ("ApplicationArguments", orNull PyVal.dict arguments)]) := by
  obtain ⟨v, x, h1, h2, h3, h4⟩ := C82_arrives hh ht ht' ha ha' hargs
  obtain ⟨bytes, p1, p2, body, text, p3, p4, -, p6⟩ := C84_message (d := 2) (rpid := some rpid) (pid := none) (kind := .initRunspacePool)
    (noLimits := false) (by decide) (by simp [MsgKind.Special]) h2 h3
  exact ⟨v, bytes, body, text, _, h1, p1, p2, p3, p4, p6, h4⟩

/-- C84, partial: the message that starts a pipeline is read by the other side as the commands that were built.
Missing: as for `C83_built_partial`. -/
theorem C84_start_partial {env : Nat → PyVal} {p : PoolSettings} {protocol : PyStr} {version : List Nat} (hv : Dotted protocol version)
    {ops : List BuildOp} (hops : ∀ op ∈ ops, op.Clean env) (hne : build protocol ops ≠ []) {inv : Invocation}
    {facts : Option HostFacts} (hh : ShowsHost p.host facts) {apartment : Nat}
    (ha : inv.apartmentState.getD p.apartmentState = apartment) (ha' : apartment ≤ 2)
    (hsta : inv.apartmentState = some 0 → p.apartmentState = 0) (rpid pid : UUID) :
    ∃ v bytes body text x new22 new23 flags, createPipelineVal env p { commands := build protocol ops } inv = .ok v ∧
      packMessage 2 (some rpid) (some pid) .createPipeline false v = .ok bytes ∧ Arrives bytes ∧
      Msg.unpack bytes = .ok { destination := 2, kind := .createPipeline, rpid, pid, body } ∧
      decodeUtf8 body = some text ∧ xmlOfText text = some x ∧
      (new22 = true ↔ VersionGe version [2, 2]) ∧ (new23 = true ↔ VersionGe version [2, 3]) ∧
      deserialize x = .ok (record [("NoInput", boolean inv.noInput), ("ApartmentState", apartmentSeen apartment),
        ("RemoteStreamOptions", enumerated "System.Management.Automation.Runspaces.RemoteStreamOptions" flags inv.remoteStreamOptions),
        ("AddToHistory", boolean inv.addToHistory), ("HostInfo", hostSeen facts),
        ("PowerShell", pipelineSeen env new22 new23 false (build protocol ops) none inv.redirectShellError),
        ("IsNested", boolean false)]) := by
  obtain ⟨v, x, new22, new23, flags, h1, h2, h3, h4, h5, h6⟩ := C83_built_partial hv hops hne hh ha ha' hsta
  obtain ⟨bytes, p1, p2, body, text, p3, p4, -, p6⟩ := C84_message (d := 2) (rpid := some rpid) (pid := some pid) (kind := .createPipeline)
    (noLimits := false) (by decide) (by simp [MsgKind.Special]) h2 h3
  exact ⟨v, bytes, body, text, _, new22, new23, flags, h1, p1, p2, p3, p4, p6, h4, h5, h6⟩

/-- C84 is false of the end of the input: its body is empty, which the deserializer returns as a string, and a string is no message. -/
theorem C84_end_false {d : Nat} (hd : d < 2 ^ 32) (rpid pid : Option UUID) (noLimits : Bool) (v : PyVal) :
    ∃ bytes, packMessage d rpid pid .endOfPipelineInput noLimits v = .ok bytes ∧ unpackMessage bytes = .error .attributeError := by
  obtain ⟨bytes, h1, h2⟩ := C10_roundtrip d rpid pid .endOfPipelineInput (utf8 []) hd (by decide)
  refine ⟨bytes, ?_, ?_⟩
  · unfold packMessage
    rw [if_pos (.inr (.inl rfl))]
    exact h1
  · simp only [unpackMessage, h2, bind, Except.bind, decode_utf8, readData, deserializeText, if_true]

/-- C84 is false of a connection without limits: its body is an empty string element, which is no message either. -/
theorem C84_connect_false {d : Nat} (hd : d < 2 ^ 32) (rpid pid : Option UUID) (v : PyVal) :
    ∃ bytes, packMessage d rpid pid .connectRunspacePool true v = .ok bytes ∧ unpackMessage bytes = .error .attributeError := by
  obtain ⟨bytes, h1, h2⟩ := C10_roundtrip d rpid pid .connectRunspacePool (utf8 "<S />".toList) hd (by decide)
  refine ⟨bytes, ?_, ?_⟩
  · unfold packMessage
    rw [if_pos (.inr (.inr ⟨rfl, rfl⟩))]
    exact h1
  · have h0 : xmlOfText "<S />".toList = some (.node .S none none none []) := by
      have h1 : ("<S />".toList) = (Xml.elem (.node .S none none none [])).print := by decide +kernel
      rw [h1]
      exact (document_text (x := .node .S none none none []) (known_leaf _ _ _ _ (by decide)) (by simp [Xml.Sendable])).2
    have h3 : readData .connectRunspacePool "<S />".toList = .error .attributeError := by
      have hne : "<S />".toList ≠ [] := by decide
      simp only [readData, deserializeText, if_neg hne, h0]
      rfl
    simp only [unpackMessage, h2, bind, Except.bind, decode_utf8, h3]

/-- A value sent as input in fragments of one byte. -/
example : ∃ bytes, packMessage 2 none none .pipelineInput false (.dict [(.sc (.str "<a&b>".toList), .list [.sc (.int 1), .sc .none])]) = .ok bytes ∧
    Arrives bytes := by
  obtain ⟨bytes, h1, h2, -⟩ := C84_input_partial (d := 2) (by decide) none none (v := .dict [(.sc (.str "<a&b>".toList), .list [.sc (.int 1), .sc .none])])
    (.dict (fun e he => by
        simp only [List.mem_cons, List.not_mem_nil, or_false] at he
        subst he
        exact ⟨_, rfl, clean_ascii (by decide +kernel)⟩)
      (by simp)
      (fun e he => by
        simp only [List.mem_cons, List.not_mem_nil, or_false] at he
        subst he
        refine .list fun x hx => ?_
        simp only [List.mem_cons, List.not_mem_nil, or_false] at hx
        rcases hx with rfl | rfl <;> exact ⟨_, rfl, trivial⟩))
  exact ⟨bytes, h1, h2⟩

/-- A message with an object of its class. -/
example : ∃ bytes v', packMessage 2 none none .getAvailableRunspaces false
      (.typed 0 [] none [] [(.plain .I64 (some "ci".toList) false, .sc (.int 5))] []) = .ok bytes ∧ Arrives bytes ∧
    unpackMessage bytes = .ok { destination := 2, kind := .getAvailableRunspaces, rpid := .zero, pid := .zero, data := some v' } := by
  obtain ⟨bytes, v', h1, h2, h3, -⟩ := C84_object_partial (d := 2) (by decide) none none (kind := .getAvailableRunspaces) (noLimits := false)
    (by simp [MsgKind.Special]) (c := { extended := [prim "ci" .I64 "ci"], init := [same "ci"] }) rfl (by decide +kernel) (oid := 0)
    (attrs := [("ci".toList, .sc (.int 5))]) rfl
    (by
      intro f hf w hw
      simp only [ClassDef.fields, List.nil_append, List.append_nil, List.mem_cons, List.not_mem_nil, or_false] at hf
      subst hf
      cases hw
      exact .scalar (by simp [TagFits]))
    (by intro i hi; cases hi)
  exact ⟨bytes, v', h1, h2, h3⟩

/-- The kinds to which `C84_object_partial` applies. -/
example : (unpackTable.filter (fun e => ((findClass e.2.className).map ClassDef.readable).getD false)).length = 26 := by decide +kernel

/-! ### Output that does not fit its class -/

/-- Whether the data is a generic object, for comparing. -/
def readGeneric (r : Except PyErr (Option PyVal)) : Except PyErr Bool :=
  r.map fun v => match v with | some (.generic ..) => true | _ => false

/-- An output object of a known class without its properties is read as a generic object. -/
example : readGeneric (readData .pipelineOutput ("<Obj RefId=\"0\"><TN RefId=\"0\"><T>System.Management.Automation.Host.Size</T>" ++
    "</TN></Obj>").toList) = .ok true := by decide +kernel

/-- C84 is false of such an object inside another one: it cannot be read in the second attempt either, and the whole message is lost. -/
theorem C84_nested_false : readGeneric (readData .pipelineOutput ("<Obj RefId=\"0\"><MS><Obj RefId=\"1\" N=\"a\"><TN RefId=\"0\">" ++
    "<T>System.Management.Automation.Host.Size</T></TN></Obj></MS></Obj>").toList) = .error .serializationError := by decide +kernel

end Verif
