import Verif.Spec.ResponseHeaders
import Verif.Spec.Base64Text
import Verif.Model.Transport
import Verif.Spec.Encryption
/-
Specifications for the transport, authentication and WSMan calls.
-/
namespace Verif

/-- The exception for an attempt that failed. -/
def NetOutcome.failure : NetOutcome → Option PyErr
  | .connectTimeout => some .connectTimeout
  | .connectFailed => some .connectionError
  | .readTimeout => some .readTimeout
  | .aborted => some .connectionError
  | .response _ => none

/-- The attempt never reached the server. -/
def NetOutcome.notConnected : NetOutcome → Bool
  | .connectTimeout => true
  | .connectFailed => true
  | _ => false

def NetEntry.notConnected (e : NetEntry) : Bool := e.outcome.any NetOutcome.notConnected

/-- The response has a status for which the request is sent again. -/
def NetEntry.retried (retryStatus : Nat → Bool) (e : NetEntry) : Bool :=
  match e.outcome with
  | some (.response r) => retryStatus r.status
  | _ => false

def NetEntry.readTimeout (e : NetEntry) : Bool := e.outcome = some .readTimeout

/-- The attempts made for one request with a budget of `n` retries: the same request again and again while there was no
connection (or a status to be retried), `n + 1` times at most, and fewer only if the last one had a connection. -/
structure Attempts (retryStatus : Nat → Bool) (n : Nat) (g : List NetEntry) : Prop where
  nonempty : g ≠ []
  same : ∀ e ∈ g, ∀ f ∈ g, e.body = f.body ∧ e.auth = f.auth
  bound : g.length ≤ n + 1
  again : ∀ e ∈ g.dropLast, e.notConnected = true ∨ e.retried retryStatus = true
  usedUp : ∀ e, g.getLast? = some e → e.notConnected = true → g.length = n + 1

/-- The exception the attempts for a request ended with, `none` if a response arrived. -/
def groupFailure (g : List NetEntry) : Option PyErr := g.getLast?.bind fun e => e.outcome.bind NetOutcome.failure

/-- The documented meaning of the encryption setting. -/
def encryptionUsed (ssl : Bool) (setting : PyStr) : Prop := setting = "always".toList ∨ (setting = "auto".toList ∧ ssl = false)

/-- A body in sealed form: it depends on the message only through what the security context made of its pieces. -/
def SealedBy (env : TransportEnv) (message body : Bytes) : Prop :=
  ∃ c k p pieces, pieces.flatten = message ∧ body = multipart p (sealedParts (env.sealing c k) 0 pieces)

/-- The body of a request made for a message: none, or the message, sealed if required. -/
def BodyFor (env : TransportEnv) (wrap : Bool) (message : Bytes) (e : NetEntry) : Prop :=
  e.body = none ∨ ∃ b, e.body = some b ∧ (if wrap then SealedBy env message b else b = message)

/-- Sending messages one after the other over a transport, whatever happens to each. -/
def sendAll (env : TransportEnv) (cfg : TransportCfg) (messages : List (Bytes × Nat)) (w : TWorld) : TWorld :=
  messages.foldl (fun w m => (sendLoop env cfg m.1 m.2 w).2) w

/-- All elements at a path below an element, in document order. -/
def elemsAt : List PyStr → Elem → List Elem
  | [], e => [e]
  | t :: ts, e => (e.kids.filter fun k => k.tag = t).flatMap (elemsAt ts)

/-- The element with the id of the request that a response answers. -/
def RelatesTo (x : Elem) (id : PyStr) : Prop :=
  ∃ r, (elemsAt ["s:Header".toList, "wsa:RelatesTo".toList] x).head? = some r ∧ r.text = some ("uuid:".toList ++ id)

/-- The content type says that the content is sealed. -/
def HttpResponse.sealed (r : HttpResponse) : Prop :=
  ∃ rest, r.contentType = "multipart/encrypted;".toList ++ rest ∨ r.contentType = "multipart/x-multi-encrypted;".toList ++ rest

/-- The bytes a response stands for. -/
def ContentOf (env : TransportEnv) (r : HttpResponse) (content : Bytes) : Prop :=
  (¬ r.sealed ∧ content = r.content) ∨
  (r.sealed ∧ ∃ c k boundary, BoundaryIn r.contentType boundary ∧ unwrapMessage (env.sealing c k) r.content (ascii boundary) = .ok content ∧ env.decodable content = true)

/-- The response to the last request of a log. -/
def LastResponse (w : TWorld) (r : HttpResponse) : Prop := ∃ e, w.log.getLast? = some e ∧ e.outcome = some (.response r)

/-- The transport is ready to send a message: no encryption is required, or there is one and it can seal the message. -/
def ReadyFor (env : TransportEnv) (cfg : TransportCfg) (message : Bytes) (w : TWorld) : Prop :=
  cfg.wrapRequired = false ∨ ∃ c p r, w.encryption = some (c, p) ∧ wrapMessage (env.sealing c w.sealCalls) p message = .ok r

/-- The next thing that happens on the network is this response, and the text is its content, unsealed by the next call of the context. -/
structure Receives (env : TransportEnv) (cfg : TransportCfg) (w : TWorld) (r : HttpResponse) (text : Bytes) : Prop where
  arrives : ∃ rest, w.outcomes = .response r :: rest
  final : env.retryStatus r.status = false
  content : (¬ r.sealed ∧ text = r.content) ∨ (r.sealed ∧ cfg.wrapRequired = true ∧ ∃ c p b, w.encryption = some (c, p) ∧
    BoundaryIn r.contentType b ∧ unwrapMessage (env.sealing c (w.sealCalls + 1)) r.content (ascii b) = .ok text ∧ env.decodable text = true)

/-- The parts of a fault document [MS-WSMV] 2.2.4.43; most may be absent. -/
structure FaultParts where
  value : PyStr
  subcode : Option PyStr
  reason : Option PyStr
  machine : Option PyStr
  message : Option PyStr
  provider : PyStr
  path : PyStr
  providerFault : Option PyStr

def named (tag : String) (kids : List Elem) : Elem := .node tag.toList [] none kids
def valued (tag : String) (text : Option PyStr) : Elem := .node tag.toList [] text []

/-- A fault document: the fault has a value, maybe a subcode, a reason, and details. -/
def soapFault (header : List Elem) (p : FaultParts) (detail : List Elem) : Elem :=
  named "s:Envelope" [named "s:Header" header, named "s:Body" [named "s:Fault" ([
    named "s:Code" ([valued "s:Value" (some p.value)] ++ (p.subcode.map fun c => named "s:Subcode" [valued "s:Value" (some c)]).toList),
    named "s:Reason" [valued "s:Text" p.reason]] ++ detail)]]

/-- The detail of a WSMan fault with a code. -/
def wsmanDetail (p : FaultParts) (code : PyStr) : Elem :=
  named "s:Detail" [.node "wsmanfault:WSManFault".toList ([("Code".toList, code)] ++ (p.machine.map fun m => ("Machine".toList, m)).toList) none
    [.node "wsmanfault:Message".toList [] p.message
      [.node "wsmanfault:ProviderFault".toList [("provider".toList, p.provider), ("path".toList, p.path)] p.providerFault []]]]

/-! ### Authentication -/

/-- The header mentions the name, in upper or lower case. -/
def Mentions (header name : PyStr) : Prop := ∃ before after, asciiUpper header = before ++ asciiUpper name ++ after

/-- The schemes a provider can work with. -/
def usable (provider : PyStr) : List PyStr :=
  if provider = "negotiate".toList then ["Negotiate".toList, "Kerberos".toList, "NTLM".toList]
  else if provider = "kerberos".toList then ["Negotiate".toList, "Kerberos".toList]
  else ["Negotiate".toList, "NTLM".toList]

/-- The scheme is the first usable one that is offered. -/
def BestScheme (header provider scheme : PyStr) : Prop :=
  ∃ before after, usable provider = before ++ scheme :: after ∧ Mentions header scheme ∧ ∀ s ∈ before, ¬ Mentions header s

/-- The token in a header, in base64 and ASCII. -/
def ServerToken (header : PyStr) (token : Bytes) : Prop :=
  ∃ text, TokenIn header text ∧ Base64Ascii text token

/-- The requests of an exchange and the tokens of the server that were given to the context. The `i`th request carries what the context returned for
the first `i` tokens, and the `i`th token is the one of the `i`th response. -/
structure Relayed (step : List (Option Bytes) → Except PyErr (Option Bytes × Bool)) (scheme : PyStr) (body : Option Bytes)
    (groups : List (List NetEntry)) (tokens : List Bytes) : Prop where
  sent : ∀ (i : Nat) (g : List NetEntry), groups[i]? = some g → ∃ out complete,
    step (none :: (tokens.take i).map some) = .ok (some out, complete) ∧ ∀ e ∈ g, e.body = body ∧ e.auth = some (scheme ++ " ".toList ++ base64Of out)
  fed : ∀ (i : Nat) (t : Bytes), tokens[i]? = some t → t ≠ [] ∧ ∃ g e r, groups[i]? = some g ∧ g.getLast? = some e ∧
    e.outcome = some (.response r) ∧ ServerToken r.authenticate t
  count : groups.length = tokens.length ∨ groups.length = tokens.length + 1

/-- Why an exchange returned a response: the context was complete and had nothing more to send, or the server sent no token. -/
def ExchangeEnds (step : List (Option Bytes) → Except PyErr (Option Bytes × Bool)) (groups : List (List NetEntry)) (tokens : List Bytes)
    (first r : HttpResponse) : Prop :=
  (groups.length = tokens.length ∧ step (none :: tokens.map some) = .ok (none, true) ∧ (groups = [] → r = first)) ∨
  (groups.length = tokens.length + 1 ∧ ∃ g e, groups.getLast? = some g ∧ g.getLast? = some e ∧ e.outcome = some (.response r) ∧
    ((∀ i name, ¬ SchemeAt r.authenticate i name) ∨ ServerToken r.authenticate []))

end Verif
