import Verif.Model.Encryption
import Verif.Model.Base64
/-
The HTTP transport (src/pypsrp/wsman.py 732-933), the negotiate authentication (src/pypsrp/negotiate.py 84-205) and the WSMan
call on top of them (wsman.py 444-520, 620-674).

Outside of the library, and therefore given by parameters: the network (a list of outcomes of the requests), the security
contexts of pyspnego (`TransportEnv.step`, `TransportEnv.sealing`), the XML parser and the text decoder. The retries of urllib3,
which the library configures, are modelled from its documentation (`adapterLoop`). Not modelled here:
redirects, proxies and building the session (Model/HttpSession), channel bindings (Model/Context). Not modelled: CredSSP (package
requests-credssp), logging and sleeping.
-/
namespace Verif

/-- The response of a server, as far as the library looks at it. `authenticate` is the header "www-authenticate", empty if absent. -/
structure HttpResponse where
  status : Nat
  contentType : PyStr := []
  authenticate : PyStr := []
  content : Bytes := []
  deriving DecidableEq, Repr

/-- How one attempt to send a request ends: no connection in time, no connection, no reply in time, connection lost after
sending, or a response. -/
inductive NetOutcome where
  | connectTimeout
  | connectFailed
  | readTimeout
  | aborted
  | response (r : HttpResponse)
  deriving DecidableEq, Repr

/-- One attempt: the body, the Authorization header made from a token, and the outcome, `none` while there is none. -/
structure NetEntry where
  body : Option Bytes
  auth : Option PyStr
  outcome : Option NetOutcome
  deriving DecidableEq, Repr

/-- An exception: one that is known by its class, a `WinRMTransportError` with code and text, or a `WSManFaultError`. -/
inductive TErr where
  | py (e : PyErr)
  | http (code : Nat) (text : Bytes)
  | fault (code : Option (PyStr ⊕ Int)) (machine reason provider providerPath providerFault : Option PyStr)
  deriving DecidableEq, Repr

/-- How a call ends, see `Res`. -/
inductive TRes (α : Type) where
  | ok (a : α)
  | raised (e : TErr)
  | waiting
  deriving DecidableEq, Repr

/-- An element of a WSMan message; tags contain their namespace. -/
inductive Elem where
  | node (tag : PyStr) (attrs : List (PyStr × PyStr)) (text : Option PyStr) (kids : List Elem)

/-- What surrounds the library. `step c inputs` is the result of `context.step` of the `c`th context after these inputs, the
last one being the current: the token and whether the context is complete. `sealing c k` is the sealing of that
context for the `k`th message. `decodable` says whether bytes are valid UTF-8. `retryStatus` says for which responses urllib3
tries again. -/
structure TransportEnv where
  step : Nat → List (Option Bytes) → Except PyErr (Option Bytes × Bool)
  sealing : Nat → Nat → SealContext
  decodable : Bytes → Bool
  retryStatus : Nat → Bool
  parse : Bytes → Option Elem

/-- The settings of a transport that matter for sending. `provider` is the provider of the negotiate authentication, `none` for
basic and certificate authentication. -/
structure TransportCfg where
  wrapRequired : Bool
  provider : Option PyStr
  reconnectionRetries : Nat
  deriving DecidableEq, Repr

/-- The state of a transport and what happened so far. `encryption` is the context number and protocol of `self.encryption`.
`context` is `session.auth.contexts[hostname]`, with its attribute `response_auth_header`. `clients` are the contexts made, with
the protocol asked for. `fed` are the tokens given to contexts. -/
structure TWorld where
  outcomes : List NetOutcome
  log : List NetEntry := []
  encryption : Option (Nat × SealProtocol) := none
  context : Option (Nat × Option PyStr) := none
  clients : List PyStr := []
  fed : List (Nat × Option Bytes) := []
  sealCalls : Nat := 0
  deriving DecidableEq, Repr

abbrev TM (α : Type) := TWorld → TRes α × TWorld

def TM.pure (a : α) : TM α := fun w => (.ok a, w)
def TM.bind (x : TM α) (f : α → TM β) : TM β := fun w =>
  match x w with
  | (.ok a, w) => f a w
  | (.raised e, w) => (.raised e, w)
  | (.waiting, w) => (.waiting, w)

instance : Monad TM where
  pure := TM.pure
  bind := TM.bind

def traise (e : PyErr) : TM α := fun w => (.raised (.py e), w)
def tget : TM TWorld := fun w => (.ok w, w)
def tmodify (f : TWorld → TWorld) : TM Unit := fun w => (.ok (), f w)
def tlift (x : Except PyErr α) : TM α := fun w =>
  match x with
  | .ok a => (.ok a, w)
  | .error e => (.raised (.py e), w)

/-! ### One request: urllib3 -/

/-- The counters of `urllib3.Retry`. -/
structure Retry where
  total : Int
  connect : Int
  status : Int
  deriving DecidableEq, Repr

/-- wsman.py 969-977: all budgets are `reconnection_retries`; `read` is 0, so that a request that may have reached the server is
never sent again. -/
def Retry.initial (n : Nat) : Retry := ⟨n, n, n⟩

/-- `Retry.is_exhausted`. -/
def Retry.exhausted (r : Retry) : Bool := r.total < 0 || r.connect < 0 || r.status < 0

def Retry.onConnect (r : Retry) : Retry := { r with total := r.total - 1, connect := r.connect - 1 }
def Retry.onStatus (r : Retry) : Retry := { r with total := r.total - 1, status := r.status - 1 }

/-- `HTTPAdapter.send` with retries: attempts until one is final. Returns the result, `none` when still waiting, the attempts
made and the outcomes left. -/
def adapterLoop (retryStatus : Nat → Bool) (body : Option Bytes) (auth : Option PyStr) :
    Retry → List NetOutcome → TRes HttpResponse × List NetEntry × List NetOutcome
  | _, [] => (.waiting, [⟨body, auth, none⟩], [])
  | retry, o :: os =>
    let entry : NetEntry := ⟨body, auth, some o⟩
    let again (retry : Retry) (e : PyErr) :=
      if retry.exhausted then (.raised (.py e), [entry], os)
      else
        let (r, entries, os) := adapterLoop retryStatus body auth retry os
        (r, entry :: entries, os)
    match o with
    | .connectTimeout => again retry.onConnect .connectTimeout
    | .connectFailed => again retry.onConnect .connectionError
    | .readTimeout => (.raised (.py .readTimeout), [entry], os)
    | .aborted => (.raised (.py .connectionError), [entry], os)
    | .response r => if retryStatus r.status then again retry.onStatus .retryError else (.ok r, [entry], os)

def adapterSend (env : TransportEnv) (cfg : TransportCfg) (body : Option Bytes) (auth : Option PyStr) : TM HttpResponse := fun w =>
  let (r, entries, os) := adapterLoop env.retryStatus body auth (.initial cfg.reconnectionRetries) w.outcomes
  (r, { w with outcomes := os, log := w.log ++ entries })

/-! ### Negotiate authentication -/

/-- `str.upper` and `str.lower` for ASCII text. -/
def asciiUpper (s : PyStr) : PyStr := s.map Char.toUpper
def asciiLower (s : PyStr) : PyStr := s.map Char.toLower

/-- `needle in s`. -/
def hasSub (needle : PyStr) : PyStr → Bool
  | [] => needle.isPrefixOf []
  | c :: cs => needle.isPrefixOf (c :: cs) || hasSub needle cs

/-- negotiate.py 171-181 `_check_auth_supported`, for ASCII headers. -/
def checkAuthSupported (authenticate : PyStr) (providers : List PyStr) : Except PyErr PyStr :=
  match providers.filter fun p => hasSub (asciiUpper p) (asciiUpper authenticate) with
  | [] => .error .authenticationError
  | p :: _ => .ok p

/-- negotiate.py 92. -/
def authProviders : List PyStr := ["Negotiate".toList, "Kerberos".toList, "NTLM".toList]

/-- negotiate.py 100-113: the protocol of the security context, from the configured provider and the scheme of the server. -/
def chooseProtocol (provider scheme : PyStr) : Except PyErr PyStr :=
  if asciiLower scheme ≠ provider then
    if provider = "negotiate".toList then .ok (asciiLower scheme)
    else if asciiLower scheme ≠ "negotiate".toList then .error .valueError
    else .ok provider
  else .ok provider

/-- negotiate.py 183-187 `_set_auth_token`: the header. `base64.b64encode(None)` is a TypeError. -/
def authHeader (scheme : PyStr) : Option Bytes → Except PyErr PyStr
  | none => .error .typeError
  | some token => .ok (scheme ++ " ".toList ++ b64Encode token)

/-- The pattern `(Kerberos|Negotiate|NTLM)\s*([^,]*),?` without case at the start of a text: group 2.
Headers are Latin-1 (`http.client`), so that the other characters that Python takes for a `k` or an `s` do not occur. -/
def tokenAt (s : PyStr) : Option PyStr :=
  let after (name : PyStr) : Option PyStr :=
    if (asciiUpper name).isPrefixOf (asciiUpper s) then
      some (((s.drop name.length).dropWhile isPySpace).takeWhile (· ≠ ','))
    else none
  match after "Kerberos".toList with
  | some t => some t
  | none => match after "Negotiate".toList with
    | some t => some t
    | none => after "NTLM".toList

/-- `pattern.search`. -/
def findToken : PyStr → Option PyStr
  | [] => none
  | c :: cs => match tokenAt (c :: cs) with
    | some t => some t
    | none => findToken cs

/-- negotiate.py 189-198 `_get_auth_token`. -/
def getAuthToken (authenticate : PyStr) : Except PyErr (Option Bytes) :=
  match findToken authenticate with
  | none => .ok none
  | some t => (b64DecodeStr t).map some

/-- `context.step(in_token)`. -/
def stepContext (env : TransportEnv) (c : Nat) (input : Option Bytes) : TM (Option Bytes × Bool) := fun w =>
  let w := { w with fed := w.fed ++ [(c, input)] }
  tlift (env.step c ((w.fed.filter (·.1 = c)).map (·.2))) w

/-- negotiate.py 142-166: the loop. `out` is the token to send, `complete` the state of the context. Every round uses up an
outcome, so `fuel` is no limit if it is more than the number of outcomes. -/
def authLoop (env : TransportEnv) (cfg : TransportCfg) (c : Nat) (scheme : PyStr) (body : Option Bytes) :
    Nat → Option Bytes → Bool → HttpResponse → TM HttpResponse
  | 0, _, _, _ => fun w => (.waiting, w)
  | fuel + 1, out, complete, response =>
    if complete ∧ out = none then TM.pure response
    else do
      let header ← tlift (authHeader scheme out)
      let response ← adapterSend env cfg body (some header)
      let token ← tlift (getAuthToken response.authenticate)
      match token with
      | none => TM.pure response
      | some [] => TM.pure response
      | some token =>
        let (out, complete) ← stepContext env c (some token)
        authLoop env cfg c scheme body fuel out complete response

/-- negotiate.py 99-169 `handle_401`. -/
def handle401 (env : TransportEnv) (cfg : TransportCfg) (provider : PyStr) (body : Option Bytes) (response : HttpResponse) :
    TM HttpResponse := do
  let scheme ← tlift (checkAuthSupported response.authenticate authProviders)
  let protocol ← tlift (chooseProtocol provider scheme)
  let w ← tget
  let c := w.clients.length
  tmodify fun w => { w with clients := w.clients ++ [protocol], context := some (c, none) }
  let (out, complete) ← stepContext env c none
  let w ← tget
  let response ← authLoop env cfg c scheme body (w.outcomes.length + 1) out complete response
  tmodify fun w => { w with context := some (c, some (asciiLower scheme)) }
  TM.pure response

/-- `session.send` with the hook of the authentication (negotiate.py 84-97). -/
def sessionSend (env : TransportEnv) (cfg : TransportCfg) (body : Option Bytes) : TM HttpResponse := do
  let response ← adapterSend env cfg body none
  match cfg.provider with
  | none => TM.pure response
  | some provider => if response.status = 401 then handle401 env cfg provider body response else TM.pure response

/-! ### The transport -/

/-- wsman.py 41. -/
def supportedAuths : List PyStr :=
  ["basic".toList, "certificate".toList, "credssp".toList, "kerberos".toList, "negotiate".toList, "ntlm".toList]

/-- wsman.py 775. -/
def encProviders : List PyStr := ["credssp".toList, "kerberos".toList, "negotiate".toList, "ntlm".toList]

/-- wsman.py 760-797, from `_TransportHTTP.__init__`: `wrap_required`. -/
def configure (ssl : Bool) (encryption auth : PyStr) : Except PyErr Bool :=
  if auth ∉ supportedAuths then .error .valueError
  else if encryption ∉ ["auto".toList, "always".toList, "never".toList] then .error .valueError
  else if ssl then
    let wrap : Bool := encryption = "always".toList
    if wrap ∧ auth ∉ encProviders then .error .valueError else .ok wrap
  else
    let wrap : Bool := ¬ encryption = "never".toList
    if wrap ∧ auth ∉ encProviders then .error .valueError else .ok wrap

/-- The greedy `(.*)[|"]` on the rest of a line: the part before the last quote. -/
def beforeLastQuote (s : PyStr) : Option PyStr :=
  let line := s.takeWhile (· ≠ '\n')
  match (line.reverse.dropWhile fun c => c ≠ '|' && c ≠ '"') with
  | [] => none
  | _ :: r => some r.reverse

/-- wsman.py 914: `re.search("boundary=[|\"](.*)[|\"]", content_type).group(1)`. -/
def findBoundary : PyStr → Option PyStr
  | [] => none
  | c :: cs =>
    let here :=
      if "boundary=".toList.isPrefixOf (c :: cs) then
        match (c :: cs).drop 9 with
        | q :: rest => if q = '|' ∨ q = '"' then beforeLastQuote rest else none
        | [] => none
      else none
    match here with
    | some b => some b
    | none => findBoundary cs

/-- wsman.py 912-920: the content, unsealed if it says so. `self.encryption` may be `None`, then it is an AttributeError. -/
def responseContent (env : TransportEnv) (r : HttpResponse) : TM Bytes := do
  if "multipart/encrypted;".toList.isPrefixOf r.contentType || "multipart/x-multi-encrypted;".toList.isPrefixOf r.contentType then
    match findBoundary r.contentType with
    | none => traise .attributeError
    | some boundary =>
      let w ← tget
      match w.encryption with
      | none => traise .attributeError
      | some (c, _) =>
        tmodify fun w => { w with sealCalls := w.sealCalls + 1 }
        let plain ← tlift (unwrapMessage (env.sealing c w.sealCalls) r.content (ascii boundary))
        if env.decodable plain then TM.pure plain else traise .unicodeError
  else TM.pure r.content

/-- wsman.py 901-933 `_send_request`. -/
def sendRequest (env : TransportEnv) (cfg : TransportCfg) (body : Option Bytes) : TM Bytes := do
  let r ← sessionSend env cfg body
  let content ← responseContent env r
  if 400 ≤ r.status ∧ r.status < 600 then
    if r.status = 401 then traise .authenticationError
    else fun w => (.raised (.http r.status content), w)
  else TM.pure content

/-- `except (requests.ReadTimeout, requests.ConnectTimeout)`. -/
def isTimeout (e : TErr) : Bool := e = .py .readTimeout || e = .py .connectTimeout

/-- wsman.py 858-867: the encryption after the blank request. KeyError if there was no authentication. -/
def startEncryption : TM Unit := do
  let w ← tget
  match w.context with
  | none => traise .keyError
  | some (_, none) => traise .attributeError
  | some (c, some scheme) =>
    tmodify fun w => { w with encryption := some (c, if scheme = "kerberos".toList then .kerberos else .spnego) }

/-- `except (ReadTimeout, ConnectTimeout)` around a request: raised again by the last attempt, otherwise `none`. -/
def unlessTimeout (last : Bool) (x : TM α) : TM (Option α) := fun w =>
  match x w with
  | (.ok a, w) => (.ok (some a), w)
  | (.raised e, w) => if isTimeout e = true ∧ last = false then (.ok none, w) else (.raised e, w)
  | (.waiting, w) => (.waiting, w)

/-- wsman.py 842-867: the blank request that sets up the security context, if needed. `false` stands for `continue`. -/
def authenticate (env : TransportEnv) (cfg : TransportCfg) (last : Bool) : TM Bool := do
  let w ← tget
  if cfg.wrapRequired = true ∧ w.encryption = none then
    match ← unlessTimeout last (sendRequest env cfg none) with
    | none => TM.pure false
    | some _ => do
      startEncryption
      TM.pure true
  else TM.pure true

/-- wsman.py 875-889: the payload. -/
def requestPayload (env : TransportEnv) (cfg : TransportCfg) (message : Bytes) : TM Bytes := do
  if cfg.wrapRequired then
    let w ← tget
    match w.encryption with
    | none => traise .attributeError
    | some (c, p) =>
      tmodify fun w => { w with sealCalls := w.sealCalls + 1 }
      let (_, sealed) ← tlift (wrapMessage (env.sealing c w.sealCalls) p message)
      TM.pure sealed
  else TM.pure message

/-- wsman.py 839-899: the body of the loop; `none` stands for another attempt. `last` is `attempt == retries_on_read_timeout`. -/
def sendRound (env : TransportEnv) (cfg : TransportCfg) (message : Bytes) (last : Bool) : TM (Option Bytes) := do
  if ← authenticate env cfg last then
    let body ← requestPayload env cfg message
    match ← unlessTimeout last (sendRequest env cfg (some body)) with
    | none => do
      tmodify fun w => { w with encryption := none }
      TM.pure none
    | some content => TM.pure (some content)
  else TM.pure none

/-- wsman.py 822-899 `send`. `left` is `retries_on_read_timeout - attempt`. -/
def sendLoop (env : TransportEnv) (cfg : TransportCfg) (message : Bytes) : Nat → TM Bytes
  | 0 => do
    match ← sendRound env cfg message true with
    | none => fun w => (.waiting, w) -- does not happen
    | some content => TM.pure content
  | left + 1 => do
    match ← sendRound env cfg message false with
    | none => sendLoop env cfg message left
    | some content => TM.pure content

/-! ### WSMan -/

def Elem.tag : Elem → PyStr | .node t _ _ _ => t
def Elem.attrs : Elem → List (PyStr × PyStr) | .node _ a _ _ => a
def Elem.text : Elem → Option PyStr | .node _ _ t _ => t
def Elem.kids : Elem → List Elem | .node _ _ _ k => k

/-- `element.find("a/b/c")`: the first match in document order. -/
def Elem.find (e : Elem) : List PyStr → Option Elem
  | [] => some e
  | t :: ts => go t (fun k => k.find ts) e.kids
where
  /-- the first child with the tag for which the rest of the path is found -/
  go (t : PyStr) (rest : Elem → Option Elem) : List Elem → Option Elem
    | [] => none
    | k :: ks => if k.tag = t then
        match rest k with
        | some r => some r
        | none => go t rest ks
      else go t rest ks

def Elem.attr (e : Elem) (name : PyStr) : Option PyStr := (e.attrs.find? (·.1 = name)).map (·.2)

/-- `x.strip() if x else None`. -/
def stripText : Option PyStr → Option PyStr
  | none => none
  | some [] => none
  | some s => some (pyStrip s)

/-- wsman.py 620-674 `_parse_wsman_fault`. Tags are written with their prefix. -/
def parseFault (x : Elem) : TErr :=
  let fault := x.find ["s:Body".toList, "s:Fault".toList]
  let code : Option PyStr := match fault with
    | none => none
    | some f => match f.find ["s:Code".toList, "s:Subcode".toList, "s:Value".toList] with
      | some v => v.text
      | none => match f.find ["s:Code".toList, "s:Value".toList] with
        | some v => v.text
        | none => none
  let reason : Option PyStr := match fault with
    | none => none
    | some f => match f.find ["s:Reason".toList, "s:Text".toList] with
      | some t => t.text
      | none => none
  let detail := match fault with
    | none => none
    | some f => f.find ["s:Detail".toList, "wsmanfault:WSManFault".toList]
  let code := match detail with
    | none => code
    | some d => match d.attr "Code".toList with
      | some c => some c
      | none => code
  let machine := match detail with
    | none => none
    | some d => d.attr "Machine".toList
  let reason := match detail with
    | none => reason
    | some d => match d.find ["wsmanfault:Message".toList] with
      | none => reason
      | some m => match m.text with
        | none => reason
        | some [] => reason
        | some t => some t
  let info := match detail with
    | none => none
    | some d => d.find ["wsmanfault:Message".toList, "wsmanfault:ProviderFault".toList]
  let provider := info.bind (·.attr "provider".toList)
  let path := info.bind (·.attr "path".toList)
  let providerFault := info.bind (·.text)
  let code : Option (PyStr ⊕ Int) := match code with
    | none => none
    | some c => match pyInt c with
      | .ok n => some (.inr n)
      | .error _ => some (.inl c)
  .fault code machine (stripText reason) provider path (stripText providerFault)

/-- The actions of `WSMan` (wsman.py 74-96, the methods 258-413). -/
inductive WSManAction where
  | command | connect | create | disconnect | delete | enumerate | get | pull | put | receive | reconnect | send | signal
  deriving DecidableEq, Repr

/-- The argument `retries_on_read_timeout` of the methods (wsman.py 258-413, 371-379). -/
def WSManAction.readRetries : WSManAction → Nat
  | .receive => 5
  | _ => 0

/-- wsman.py 508-512: the id the response relates to; `relates_to_et.text` may be `None`. -/
def relatesTo (x : Elem) : Option PyStr :=
  match x.find ["s:Header".toList, "wsa:RelatesTo".toList] with
  | none => some []
  | some e => e.text

/-- wsman.py 444-520 `invoke`. `messageId` is the new id and `message` the serialized envelope, which contains it. -/
def wsmanInvoke (env : TransportEnv) (cfg : TransportCfg) (action : WSManAction) (messageId : PyStr) (message : Bytes) : TM Elem := fun w =>
  match sendLoop env cfg message action.readRetries w with
  | (.waiting, w) => (.waiting, w)
  | (.raised (.http code text), w) =>
    match env.parse text with
    | none => (.raised (.http code text), w)
    | some x => (.raised (parseFault x), w)
  | (.raised e, w) => (.raised e, w)
  | (.ok content, w) =>
    match env.parse content with
    | none => (.raised (.py .parseError), w)
    | some x =>
      if some ("uuid:".toList ++ messageId) ≠ relatesTo x then (.raised (.py .winRMError), w) else (.ok x, w)

end Verif
