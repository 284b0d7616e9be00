import Verif.Model.Transport
import Verif.Model.PoolManager
/-
Building the HTTP session (src/pypsrp/wsman.py 41-47, 799-806, 935-1077, src/pypsrp/_pool_manager.py 53-148) and what package
requests makes of it. The latter is outside of the library; it is taken from the source of requests 2.32: `merge_environment_settings`,
`prepare_request` and `send` of `Session`, `resolve_proxies`, `select_proxy`, `cert_verify` and `proxy_manager_for` of `HTTPAdapter`,
`_basic_auth_str`. Not modelled: warnings, cookies, reading of environment variables and of the netrc file (`Environ`).
-/
namespace Verif

/-- A value of an option, or None. -/
inductive OptVal where
  | none
  | bool (b : Bool)
  | int (n : Int)
  | text (s : PyStr)
  deriving DecidableEq, Repr

/-- `bool(value)`. -/
def OptVal.truthy : OptVal → Bool
  | .none => false
  | .bool b => b
  | .int n => n ≠ 0
  | .text s => s ≠ []

/-- The process: variables REQUESTS_CA_BUNDLE and CURL_CA_BUNDLE, the proxies of `urllib.request.getproxies`, whether the environment
says that the host is reached directly (`should_bypass_proxies`), and the credentials for the host in the netrc file. -/
structure Environ where
  requestsBundle : Option PyStr := none
  curlBundle : Option PyStr := none
  proxies : List (PyStr × PyStr) := []
  bypass : Bool := false
  netrc : Option (PyStr × PyStr) := none
  deriving DecidableEq, Repr

/-- `mapping.get(key)`. -/
def lookupKey (key : PyStr) (m : List (PyStr × α)) : Option α := (m.find? (·.1 = key)).map (·.2)

/-- wsman.py 43-47 `AUTH_KWARGS`. -/
def authKwargsTable : List (PyStr × List PyStr) :=
  [("certificate".toList, ["certificate_key_pem".toList, "certificate_pem".toList, "certificate_key_password".toList]),
    ("credssp".toList, ["credssp_auth_mechanism".toList, "credssp_disable_tlsv1_2".toList, "credssp_minimum_version".toList]),
    ("negotiate".toList,
      ["negotiate_delegate".toList, "negotiate_hostname_override".toList, "negotiate_send_cbt".toList, "negotiate_service".toList])]

/-- The attributes of a transport that its session depends on (wsman.py 753-806). `kwargs` are the further arguments of the caller,
`wrapRequired` is `configure` in Model/Transport. -/
structure HttpSettings where
  ssl : Bool := true
  username : Option PyStr := none
  password : Option PyStr := none
  auth : PyStr
  certValidation : OptVal := .bool true
  wrapRequired : Bool := false
  proxy : Option PyStr := none
  noProxy : Bool := false
  retries : Nat := 0
  kwargs : List (PyStr × OptVal) := []
  deriving DecidableEq, Repr

/-- wsman.py 804-806: the attribute made from an argument. Names that are not in the table get no attribute and are ignored. -/
def HttpSettings.attribute (s : HttpSettings) (name : PyStr) : OptVal :=
  if authKwargsTable.any (fun e => e.2.contains name) then (lookupKey name s.kwargs).getD .none else .none

/-- wsman.py 1068-1077 `_get_auth_kwargs`. -/
def HttpSettings.authKwargs (s : HttpSettings) (provider : PyStr) : Except PyErr (List (PyStr × OptVal)) :=
  match lookupKey provider authKwargsTable with
  | none => .error .keyError
  | some names => .ok (names.filterMap fun name =>
      if s.attribute name ≠ .none then some (name.drop (provider.length + 1), s.attribute name) else none)

/-- The attributes of `HTTPNegotiateAuth` (negotiate.py 33-80). -/
structure NegotiateAuth where
  username : Option PyStr
  password : Option PyStr
  provider : PyStr
  sendCbt : OptVal
  service : OptVal
  delegate : OptVal
  hostnameOverride : OptVal
  wrapRequired : Bool
  deriving DecidableEq, Repr

/-- negotiate.py 33-43: the arguments with their defaults. The names of `_get_auth_kwargs` are all among them. -/
def negotiateAuth (username password : Option PyStr) (provider : PyStr) (wrap : Bool) (kwargs : List (PyStr × OptVal)) : NegotiateAuth where
  username := username
  password := password
  provider := provider
  sendCbt := (lookupKey "send_cbt".toList kwargs).getD (.bool true)
  service := (lookupKey "service".toList kwargs).getD (.text "host".toList)
  delegate := (lookupKey "delegate".toList kwargs).getD (.bool false)
  hostnameOverride := (lookupKey "hostname_override".toList kwargs).getD .none
  wrapRequired := wrap

/-- `session.auth`. CredSSP is another package, its arguments are kept. -/
inductive SessionAuth where
  | none
  | basic (username password : PyStr)
  | credssp (username password : PyStr) (kwargs : List (PyStr × OptVal))
  | negotiate (a : NegotiateAuth)
  deriving DecidableEq, Repr

/-- `create_request_adapter` (_pool_manager.py 118-148): the retries, the password for the key file, and whether the connections of its
pool manager are wrapped, see `ctxStep`. -/
structure HttpAdapter where
  retries : Retry
  keyPassword : OptVal
  deriving DecidableEq, Repr

/-- A value in a dict of proxies: an url or False. -/
inductive ProxyVal where
  | url (s : PyStr)
  | no
  deriving DecidableEq, Repr

/-- A `requests.Session`. -/
structure HttpSession where
  headers : List (PyStr × PyStr)
  proxies : List (PyStr × ProxyVal)
  verify : OptVal
  cert : Option (OptVal × OptVal)
  auth : SessionAuth
  httpAdapter : HttpAdapter
  httpsAdapter : HttpAdapter
  deriving DecidableEq, Repr

/-- `a or b` for texts. -/
def orText (a b : Option PyStr) : Option PyStr :=
  match a with
  | none => b
  | some [] => b
  | some s => some s

/-- wsman.py 949-951, `Session.merge_environment_settings` with `verify=None` in a session whose `verify` is True: `settings["verify"]`. -/
def environVerify (env : Environ) : OptVal :=
  match orText env.requestsBundle env.curlBundle with
  | none => .bool true
  | some [] => .bool true
  | some s => .text s

/-- wsman.py 949-951: `settings["proxies"]`. -/
def environProxies (env : Environ) : List (PyStr × ProxyVal) :=
  if env.bypass then [] else env.proxies.map fun e => (e.1, .url e.2)

/-- wsman.py 1010-1012: the attribute `auth` or the first missing credential. -/
def needCredentials (s : HttpSettings) : Except PyErr (PyStr × PyStr) :=
  match s.username, s.password with
  | none, _ => .error .valueError
  | some _, none => .error .valueError
  | some u, some p => .ok (u, p)

/-- wsman.py 1051-1063 `_build_auth_kerberos`, `_build_auth_negotiate`, `_build_auth_ntlm`. -/
def buildNegotiate (s : HttpSettings) (provider : PyStr) (session : HttpSession) : Except PyErr HttpSession := do
  let kwargs ← s.authKwargs "negotiate".toList
  return { session with auth := .negotiate (negotiateAuth s.username s.password provider s.wrapRequired kwargs) }

/-- wsman.py 1009-1066: `getattr(self, "_build_auth_%s" % self.auth)(session)`. -/
def buildAuth (s : HttpSettings) (session : HttpSession) : Except PyErr HttpSession :=
  if s.auth = "basic".toList then do
    let (u, p) ← needCredentials s
    return { session with auth := .basic u p }
  else if s.auth = "certificate".toList then
    if s.attribute "certificate_key_pem".toList = .none then .error .valueError
    else if s.attribute "certificate_pem".toList = .none then .error .valueError
    else if s.ssl = false then .error .valueError
    else .ok { session with
      cert := some (s.attribute "certificate_pem".toList, s.attribute "certificate_key_pem".toList)
      headers := session.headers ++ [("Authorization".toList, "http://schemas.dmtf.org/wbem/wsman/1/wsman/secprofile/https/mutual".toList)] }
  else if s.auth = "credssp".toList then do
    let (u, p) ← needCredentials s
    let kwargs ← s.authKwargs "credssp".toList
    return { session with auth := .credssp u p kwargs }
  else if s.auth = "kerberos".toList then buildNegotiate s "kerberos".toList session
  else if s.auth = "negotiate".toList then buildNegotiate s "negotiate".toList session
  else if s.auth = "ntlm".toList then buildNegotiate s "ntlm".toList session
  else .error .attributeError

/-- wsman.py 935-1007 `_build_session`. -/
def buildSession (env : Environ) (s : HttpSettings) : Except PyErr HttpSession :=
  let key := if s.ssl then "https".toList else "http".toList
  let proxies := match s.proxy with
    | some p => [(key, .url p)]
    | none => if s.noProxy then [(key, .no)] else environProxies env
  let verify := match s.certValidation with
    | .bool true => environVerify env
    | v => v
  buildAuth s {
    headers := [("User-Agent".toList, "Python PSRP Client".toList), ("Accept-Encoding".toList, "identity".toList)]
    proxies, verify
    cert := none
    auth := .none
    httpAdapter := { retries := .initial s.retries, keyPassword := .none }
    httpsAdapter := { retries := .initial s.retries, keyPassword := s.attribute "certificate_key_password".toList } }

/-! ### What requests makes of it -/

/-- An address: scheme and host. -/
structure Target where
  https : Bool
  host : PyStr
  deriving DecidableEq, Repr

def Target.scheme (t : Target) : PyStr := if t.https then "https".toList else "http".toList

/-- `resolve_proxies`: the dict of the session, with the entry of the environment for the scheme if there is none. -/
def resolveProxies (env : Environ) (session : HttpSession) (t : Target) : List (PyStr × ProxyVal) :=
  if env.bypass then session.proxies
  else match (match lookupKey t.scheme env.proxies with
      | some p => some p
      | none => lookupKey "all".toList env.proxies) with
    | none => session.proxies
    | some [] => session.proxies
    | some p => match lookupKey t.scheme session.proxies with
      | some _ => session.proxies
      | none => session.proxies ++ [(t.scheme, .url p)]

/-- `select_proxy`. -/
def selectProxy (t : Target) (proxies : List (PyStr × ProxyVal)) : Option ProxyVal :=
  [t.scheme ++ "://".toList ++ t.host, t.scheme, "all://".toList ++ t.host, "all".toList].findSome? fun k => lookupKey k proxies

/-- The proxy of a request: `if proxy` in `get_connection_with_tls_context`. -/
def proxyOf (env : Environ) (session : HttpSession) (t : Target) : Option PyStr :=
  match selectProxy t (resolveProxies env session t) with
  | some (.url (c :: cs)) => some (c :: cs)
  | _ => none

/-- How the certificate of the server is checked. -/
inductive TlsCheck where
  | off
  | system
  | bundle (path : PyStr)
  deriving DecidableEq, Repr

/-- `cert_verify` for an https address. A number would be taken as a path, it is not modelled. -/
def tlsCheck (session : HttpSession) : TlsCheck :=
  match session.verify with
  | .bool true => .system
  | .text (c :: cs) => .bundle (c :: cs)
  | _ => .off

/-- Latin-1. -/
def latin1Char (c : Char) : Except PyErr UInt8 := if c.toNat < 256 then .ok (UInt8.ofNat c.toNat) else .error .unicodeError

def latin1 : PyStr → Except PyErr Bytes
  | [] => .ok []
  | c :: cs => do
    let b ← latin1Char c
    let bs ← latin1 cs
    return b :: bs

/-- `_basic_auth_str`. -/
def basicHeader (username password : PyStr) : Except PyErr PyStr := do
  let u ← latin1 username
  let p ← latin1 password
  return "Basic ".toList ++ b64Encode (u ++ ascii ":".toList ++ p)

/-- `prepare_request`: the header Authorization of a request before any answer. The authentications other than basic set it when the server
asks for it. Without one, the netrc file is used. -/
def firstAuthorization (env : Environ) (session : HttpSession) : Except PyErr (Option PyStr) :=
  match session.auth with
  | .basic u p => (basicHeader u p).map some
  | .credssp .. => .ok (lookupKey "Authorization".toList session.headers)
  | .negotiate _ => .ok (lookupKey "Authorization".toList session.headers)
  | .none => match env.netrc with
    | some (u, p) => (basicHeader u p).map some
    | none => .ok (lookupKey "Authorization".toList session.headers)

/-- A pool manager of urllib3: the password for the key file, and whether its connections are wrapped. -/
structure Manager where
  keyPassword : OptVal
  wrapped : Bool
  deriving DecidableEq, Repr

/-- `HTTPAdapter.send`: the manager that makes the connections of a request. That of a proxy is a new one (`proxy_manager_for`), which neither
_pool_manager.py 62-76 nor 140-146 change. -/
def HttpAdapter.manager (a : HttpAdapter) (proxy : Option PyStr) : Manager :=
  match proxy with
  | none => { keyPassword := a.keyPassword, wrapped := true }
  | some _ => { keyPassword := .none, wrapped := false }

def HttpSession.adapter (session : HttpSession) (t : Target) : HttpAdapter := if t.https then session.httpsAdapter else session.httpAdapter

/-- A new connection to an address, made in an execution context: the call of `connect` with the scopes as they are. -/
def openConnection (env : Environ) (session : HttpSession) (t : Target) (ctx : Nat) (s : CtxState) : Except PyErr Manager :=
  let m := (session.adapter t).manager (proxyOf env session t)
  if m.wrapped then (ctxStep s (.connect ctx)).2.map fun _ => m else .ok m

/-- A request as it leaves: its address and body. -/
structure Departed where
  url : PyStr
  body : Option Bytes
  deriving DecidableEq, Repr

/-- An answer: the status and the header Location. -/
structure Answer where
  status : Nat
  location : Option PyStr := none
  deriving DecidableEq, Repr

/-- `Session.send` with its argument `allow_redirects` left out (wsman.py 906-909): the requests for these answers. `is_redirect` holds for
301, 302, 303, 307 and 308 with a header Location; the body stays with the last two. Not modelled: addresses without host, the limit
of 30 redirects. -/
def follow (url : PyStr) (body : Option Bytes) : List Answer → List Departed
  | [] => [⟨url, body⟩]
  | a :: rest =>
    match a.location with
    | none => [⟨url, body⟩]
    | some next =>
      if a.status ∈ [301, 302, 303, 307, 308] then
        ⟨url, body⟩ :: follow next (if a.status = 307 ∨ a.status = 308 then body else none) rest
      else [⟨url, body⟩]

end Verif
