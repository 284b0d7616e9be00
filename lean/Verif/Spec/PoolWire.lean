import Verif.Model.PoolWire
import Verif.Spec.Fragment
import Verif.Spec.Message
import Verif.Spec.Pool
import Verif.Spec.Shell
import Verif.Spec.Utils
/-
Specifications for what arrives at a pool: [MS-PSRP] 2.2.1 (messages), 2.2.4 (fragments), 3.1.5.3.9 (receive responses).
-/
namespace Verif

/-- The bytes of a number, most significant first. -/
def bigEndian : Nat → Nat → Bytes
  | 0, _ => []
  | w + 1, n => bigEndian w (n / 256) ++ [UInt8.ofNat n]

/-- 2.2.4: object id, fragment id, flags (1 is start, 2 is end), length and data. -/
def fragmentBytes (f : Fragment) : Bytes :=
  bigEndian 8 f.objectId ++ bigEndian 8 f.fragmentId ++
    bigEndian 1 ((if f.start then 1 else 0) + (if f.end_ then 2 else 0)) ++ bigEndian 4 f.data.length ++ f.data

/-- A receive response with these fragments: every stream has some of them in base64, all are for stdout; if it has a state
and an exit code, they are well formed. -/
structure Brings (body : Elem) (fs : List Fragment) : Prop where
  streams : ∃ gs : List (List Fragment), gs.flatten = fs ∧
    Carries (elemsAt ["rsp:ReceiveResponse".toList, "rsp:Stream".toList] body) (gs.map fun g => (.stdout, g.flatMap fragmentBytes))
  state : ∀ e, (elemsAt ["rsp:ReceiveResponse".toList, "rsp:CommandState".toList] body).head? = some e → (e.attr "State".toList).isSome = true
  code : ∀ e, (elemsAt ["rsp:ReceiveResponse".toList, "rsp:CommandState".toList, "rsp:ExitCode".toList] body).head? = some e →
    ∃ c, e.text = some (pyStrInt c)

/-- The fragments that each of some answers brings: a receive response its own, an error or another answer none. -/
inductive Bring : List WireReply → List (List Fragment) → Prop
  | nil : Bring [] []
  | data {r body fs rs gs} : r.error = none → r.body = some body → Brings body fs → Bring rs gs → Bring (r :: rs) (fs :: gs)
  | other {r rs gs} : r.error.isSome = true ∨ r.body = none → Bring rs gs → Bring (r :: rs) ([] :: gs)

/-- The messages completed by some fragments, when `msg` is the message of each object id. -/
def completes (msg : Nat → SrvMsg) (fs : List Fragment) : List SrvMsg := (fs.filter (·.end_)).map fun f => msg f.objectId

/-- What an answer tells the pool: its error, or the messages that it completes, or what belongs to the request. -/
def WireReply.tells (msg : Nat → SrvMsg) (r : WireReply) (fs : List Fragment) : Reply :=
  match r.error, r.body with
  | some e, _ => { error := some e }
  | none, some _ => { msgs := completes msg fs }
  | none, none => { command := r.command, shellState := r.shellState }

/-- The fragments of a server: they fit the format, and those of each object are, in order, the fragments of one message. -/
structure Sends (rd : Reader) (msg : Nat → SrvMsg) (fs : List Fragment) : Prop where
  fits : ∀ f ∈ fs, f.Fits
  objects : ∀ o, ofObject o fs = [] ∨ ∃ data, Fragmentation o data (ofObject o fs) ∧ srvMsg rd data = .ok (msg o)

/-- A message on the wire, 2.2.1: a header of 40 bytes with the type at byte 4, and a text in UTF-8, with or without a byte order mark. -/
structure MessageText (kind : MsgKind) (text : PyStr) (bytes : Bytes) : Prop where
  header : 40 ≤ bytes.length
  type : leValue ((bytes.drop 4).take 4) = kind.number
  body : bytes.drop 40 = utf8 text ∨ bytes.drop 40 = [0xEF, 0xBB, 0xBF] ++ utf8 text
  xml : text.head? = some '<'

/-- A message with an object that has these extended properties, 2.2.2: the text of it is read as the element Obj with an element MS. -/
def MessageProps (kind : MsgKind) (es : List Xml) (bytes : Bytes) : Prop :=
  ∃ text r, MessageText kind text bytes ∧ xmlOfText text = some (.node .Obj (some r) none none [.node .MS none none none es])

/-- The first property of this name and type has this text. -/
def Says (es : List Xml) (tag : Tag) (name : String) (text : PyStr) : Prop :=
  ∃ pre post r, es = pre ++ .node tag r (some name.toList) (some text) [] :: post ∧ ∀ y ∈ pre, ¬ (y.tag = tag ∧ y.name = some name.toList)

/-- The first property of this name is this element. -/
def SaysAny (es : List Xml) (name : String) (x : Xml) : Prop :=
  ∃ pre post, es = pre ++ x :: post ∧ x.name = some name.toList ∧ ∀ y ∈ pre, y.name ≠ some name.toList

/-- The first object of this name is this element. -/
def SaysObj (es : List Xml) (name : String) (x : Xml) : Prop :=
  ∃ pre post, es = pre ++ x :: post ∧ x.tag = .Obj ∧ x.name = some name.toList ∧ ∀ y ∈ pre, ¬ (y.tag = .Obj ∧ y.name = some name.toList)

/-- There is no property of this name and type. -/
def Lacks (es : List Xml) (tag : Tag) (name : String) : Prop := ∀ y ∈ es, ¬ (y.tag = tag ∧ y.name = some name.toList)

/-- The last answer has the end of a message. -/
def EndsMessage (gs : List (List Fragment)) : Prop := ∃ g, gs.getLast? = some g ∧ ∃ f ∈ g, f.end_ = true

/-- A message that a server may send at any time to a pool without a host: everything but a state of the pool and the answers to what only
the pool asks for. The version of a session capability is dotted numbers, a host call is for one of the 56 methods of 2.2.3.17, and a
pipeline only goes on (state 1, Running, of 2.2.3.5). -/
def SrvMsg.Routine : SrvMsg → Prop
  | .sessionCapability v => ∃ s ns, v = some s ∧ Dotted s ns
  | .encryptedSessionKey _ => False
  | .availability _ _ => False
  | .poolState _ => False
  | .poolHostCall c => 1 ≤ c.mi ∧ c.mi ≤ 56
  | .pipelineHostCall c => 1 ≤ c.mi ∧ c.mi ≤ 56
  | .pipelineState s _ => s = 1
  | _ => True

/-- Answers that bring exactly these messages, the last of them with the last answer. -/
def Deliver (rs : List Reply) (ms : List SrvMsg) : Prop :=
  received rs = ms ∧ ∃ r, rs.getLast? = some r ∧ r.error = none ∧ r.msgs ≠ []

end Verif
