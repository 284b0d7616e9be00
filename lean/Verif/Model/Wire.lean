import Verif.Model.Deserializer
import Verif.Model.XmlText
import Verif.Spec.XmlRead
/-
From objects to the bytes of PSRP messages and back: src/pypsrp/messages.py 84-229 together with the two ends of
src/pypsrp/serializer.py that meet XML text (`ET.tostring`, `ET.fromstring`).

`ET.fromstring` is taken to be the reader of `Spec.XmlRead`. What that reader refuses is not modelled, except for the empty text.
-/
namespace Verif

/-- The names of the tags, serializer.py 111-144, 196-225, 414-562, 833-864. -/
def tagNames : List (Tag × PyStr) := [
  (.S, "S"), (.ToString, "ToString"), (.C, "C"), (.B, "B"), (.DT, "DT"), (.TS, "TS"), (.By, "By"), (.SB, "SB"), (.U16, "U16"),
  (.I16, "I16"), (.U32, "U32"), (.I32, "I32"), (.U64, "U64"), (.I64, "I64"), (.Sg, "Sg"), (.Db, "Db"), (.D, "D"), (.BA, "BA"),
  (.G, "G"), (.URI, "URI"), (.Version, "Version"), (.XD, "XD"), (.SBK, "SBK"), (.SS, "SS"), (.Obj, "Obj"), (.ObjDynamic, "ObjDynamic"),
  (.LST, "LST"), (.IE, "IE"), (.QUE, "QUE"), (.STK, "STK"), (.DCT, "DCT"), (.Nil, "Nil"), (.Ref, "Ref"), (.En, "En"), (.TN, "TN"),
  (.T, "T"), (.TNRef, "TNRef"), (.MS, "MS"), (.Props, "Props")].map fun (e : Tag × String) => (e.1, e.2.toList)

/-- The name of a tag. -/
def Tag.text : Tag → PyStr
  | .other s => s
  | .star => ['*']
  | t => (tagNames.lookup t).getD []

/-- The tag with a name. -/
def Tag.ofText (s : PyStr) : Tag := match tagNames.find? (fun e => e.2 == s) with
  | some e => e.1
  | none => .other s

mutual
/-- The element as the XML library has it. RefId is set when the element is made, N afterwards (serializer.py 161, 861-863). -/
def Xml.elem : Xml → Elem
  | .node t r n x ks => .node t.text ((r.map fun v => ("RefId".toList, v)).toList ++ (n.map fun v => ("N".toList, v)).toList) x (elemAll ks)

def elemAll : List Xml → List Elem
  | [] => []
  | x :: xs => x.elem :: elemAll xs
end

mutual
/-- What the deserializer uses of an element: `element.tag`, `element.attrib["RefId"]`, `element.attrib["N"]`, `element.text` and the
children. -/
def Elem.xml : Elem → Xml
  | .node tag attrs text kids => .node (Tag.ofText tag) (attrs.lookup "RefId".toList) (attrs.lookup "N".toList) text (xmlAll kids)

def xmlAll : List Elem → List Xml
  | [] => []
  | e :: es => e.xml :: xmlAll es
end

/-- `ET.tostring(msg, encoding="utf-8", method="xml")`, messages.py 132. -/
def xmlBytes (x : Xml) : Bytes := utf8 (printDocument x.elem)

/-- `ET.fromstring(element)`, serializer.py 180. -/
def xmlOfText (s : PyStr) : Option Xml := (readDocument s).map Elem.xml

/-- messages.py 115-147 `Message.pack` of a message with this data. `data` is the object to be written: `self.data.data` for
PIPELINE_INPUT, otherwise `self.data`; it is not looked at for PUBLIC_KEY_REQUEST and END_OF_PIPELINE_INPUT. `noLimits` as in `packBody`. -/
def packMessage (destination : Nat) (rpid pid : Option UUID) (kind : MsgKind) (noLimits : Bool) (data : PyVal) : Except PyErr Bytes :=
  if kind = .publicKeyRequest ∨ kind = .endOfPipelineInput ∨ (kind = .connectRunspacePool ∧ noLimits = true) then
    (Msg.make destination rpid pid kind (packBody kind noLimits none)).pack
  else do
    let x ← serialize .star data
    (Msg.make destination rpid pid kind (packBody kind noLimits (x.map xmlBytes))).pack

/-- The class of the dictionary at messages.py 167-199, by name. -/
def MsgKind.className : MsgKind → PyStr
  | .sessionCapability => "SessionCapability".toList
  | .initRunspacePool => "InitRunspacePool".toList
  | .publicKey => "PublicKey".toList
  | .encryptedSessionKey => "EncryptedSessionKey".toList
  | .publicKeyRequest => "PublicKeyRequest".toList
  | .setMaxRunspaces => "SetMaxRunspaces".toList
  | .setMinRunspaces => "SetMinRunspaces".toList
  | .runspaceAvailability => "RunspaceAvailability".toList
  | .runspacePoolStateMessage => "RunspacePoolStateMessage".toList
  | .createPipeline => "CreatePipeline".toList
  | .getAvailableRunspaces => "GetAvailableRunspaces".toList
  | .userEvent => "UserEvent".toList
  | .applicationPrivateData => "ApplicationPrivateData".toList
  | .getCommandMetadata => "GetCommandMetadata".toList
  | .runspacePoolHostCall => "RunspacePoolHostCall".toList
  | .runspacePoolHostResponse => "RunspacePoolHostResponse".toList
  | .pipelineInput => "PipelineInput".toList
  | .endOfPipelineInput => "EndOfPipelineInput".toList
  | .pipelineOutput => "PipelineOutput".toList
  | .errorRecordMessage => "ErrorRecordMessage".toList
  | .pipelineState => "PipelineState".toList
  | .debugRecord => "DebugRecord".toList
  | .verboseRecord => "VerboseRecord".toList
  | .warningRecord => "WarningRecord".toList
  | .progressRecord => "ProgressRecord".toList
  | .informationRecord => "InformationRecord".toList
  | .pipelineHostCall => "PipelineHostCall".toList
  | .pipelineHostResponse => "PipelineHostResponse".toList
  | .connectRunspacePool => "ConnectRunspacePool".toList
  | .runspacePoolInitData => "RunspacePoolInitData".toList
  | .resetRunspaceState => "ResetRunspaceState".toList

/-- serializer.py 174-188 `deserialize(text, metadata)` with clear=True: a text that is not XML is returned as it is. -/
def deserializeText (m : DMeta) (s : PyStr) : Except PyErr PyVal :=
  if s = [] then .ok (.sc (.str []))
  else match xmlOfText s with
    | none => .error .notModelled
    | some x => do
      let (v, _) ← deser m x .clear
      return v

/-- A received message. `data` is `message.data` for PIPELINE_OUTPUT and PIPELINE_INPUT, `none` for PUBLIC_KEY_REQUEST. -/
structure Unpacked where
  destination : Nat
  kind : MsgKind
  rpid : UUID
  pid : UUID
  data : Option PyVal

/-- messages.py 201-227. -/
def readData (kind : MsgKind) (text : PyStr) : Except PyErr (Option PyVal) :=
  match kind with
  | .pipelineOutput => do
    let v ← match deserializeText (.plain .star) text with
      | .error .serializationError => deserializeText .dynamic text
      | r => r
    return some v
  | .pipelineInput => do
    let v ← deserializeText (.plain .star) text
    return some v
  | .publicKeyRequest => .ok none
  | kind => do
    let v ← deserializeText (.cls kind.className) text
    match v with
    -- 229, 105: only objects of the classes of messages have a MESSAGE_TYPE
    | .typed .. => return some v
    | _ => .error .attributeError

/-- messages.py 149-229 `Message.unpack`. When the body is not UTF-8 and the type is unknown as well, Python raises UnicodeDecodeError
and not KeyError. -/
def unpackMessage (data : Bytes) : Except PyErr Unpacked := do
  let m ← Msg.unpack data
  match decodeUtf8 m.body with
  | none => .error .unicodeError
  | some text =>
    let v ← readData m.kind text
    return { destination := m.destination, kind := m.kind, rpid := m.rpid, pid := m.pid, data := v }

end Verif
