import Verif.Model.HttpSession
import Verif.Model.Endpoint
/-
The security context of the negotiate authentication (src/pypsrp/negotiate.py 99-141, 200-274), the host it is made for and the place where it
is looked up (wsman.py 829, 852-859). Outside of the library: certificates (package cryptography), hash functions, IDNA, and what requests 2.32 and
urllib3 make of an address.
-/
namespace Verif

/-- `s.partition(c)`: what is before and behind the first `c`, if there is one. -/
def partitionAt (c : Char) (s : PyStr) : PyStr × Option PyStr :=
  (s.takeWhile (· ≠ c), match s.dropWhile (· ≠ c) with | [] => none | _ :: r => some r)

/-- `s.rpartition(c)[2]`. -/
def afterLast (c : Char) (s : PyStr) : PyStr := (s.reverse.takeWhile (· ≠ c)).reverse

/-- `urllib.parse.urlsplit` of an address with a scheme: the part behind `//` up to the path, query or fragment. Not modelled: removal of control
characters, addresses without a scheme, checks of characters. -/
def urlNetloc (url : PyStr) : PyStr :=
  match url.dropWhile (· ≠ ':') with
  | ':' :: '/' :: '/' :: rest => rest.takeWhile fun c => c ∉ ['/', '?', '#']
  | _ => []

/-- _utils.py 93-94 `get_hostname`: `urlparse(url).hostname`. Letters outside ASCII stay as they are here; Python takes their lower case too. A bracketed
host that is no address raises in Python. -/
def getHostname (url : PyStr) : Except PyErr (Option PyStr) :=
  let netloc := urlNetloc url
  if ('[' ∈ netloc ∧ ']' ∉ netloc) ∨ (']' ∈ netloc ∧ '[' ∉ netloc) then .error .valueError
  else
    let host := match partitionAt '[' (afterLast '@' netloc) with
      | (_, some b) => (partitionAt ']' b).1
      | (h, none) => (partitionAt ':' h).1
    match host with
    | [] => .ok none
    | host => match partitionAt '%' host with
      | (h, none) => .ok (some (asciiLower h))
      | (h, some zone) => .ok (some (asciiLower h ++ '%' :: zone))

def isAscii (s : PyStr) : Bool := s.all fun c => c.toNat < 128

/-- The labels of a name, `name.split(".")`. -/
def splitLabels : PyStr → List PyStr
  | [] => [[]]
  | c :: cs =>
    if c = '.' then [] :: splitLabels cs
    else match splitLabels cs with
      | [] => [[c]]
      | l :: ls => (c :: l) :: ls

def joinLabels : List PyStr → PyStr
  | [] => []
  | [l] => l
  | l :: ls => l ++ '.' :: joinLabels ls

def prepareLabels (idna : PyStr → Option PyStr) : List PyStr → Except PyErr (List PyStr)
  | [] => .ok []
  | l :: ls => do
    let l' ← if isAscii l then .ok (asciiLower l) else match idna l with
      | some x => .ok x
      | none => .error .valueError
    let ls' ← prepareLabels idna ls
    return l' :: ls'

/-- urllib3's `_normalize_host`: addresses in brackets in lower case, of names each label, those outside ASCII by IDNA. -/
def prepareHost (idna : PyStr → Option PyStr) (host : PyStr) : Except PyErr PyStr :=
  match host with
  | '[' :: _ => .ok (asciiLower host)
  | _ => (prepareLabels idna (splitLabels host)).map joinLabels

/-- requests' `prepare_url` of an endpoint with this scheme, host, port and path. Not modelled: credentials and zones in the address, quoting and
simplification of the path. -/
def preparedEndpoint (idna : PyStr → Option PyStr) (ipv6 : PyStr → Option PyStr) (ssl : Bool) (server : PyStr) (port : Nat) (path : PyStr) :
    Except PyErr PyStr := do
  let scheme := if ssl then "https".toList else "http".toList
  let host ← prepareHost idna (match ipv6 server with
    | none => server
    | some c => "[".toList ++ c ++ "]".toList)
  return scheme ++ "://".toList ++ host ++ ":".toList ++ pyStrNat port ++ "/".toList ++ path

/-- A certificate: its encoding and `signature_hash_algorithm`, where `none` stands for the exception UnsupportedAlgorithm. -/
structure Certificate where
  der : Bytes
  signatureHash : Option (Option PyStr)
  deriving DecidableEq, Repr

/-- negotiate.py 241-274 `_get_certificate_hash`. `digest` are the hash functions. -/
def certificateHash (digest : PyStr → Bytes → Bytes) (c : Certificate) : Bytes :=
  let algorithm := c.signatureHash.getD none
  match algorithm with
  | none => digest "sha256".toList c.der
  | some name => if name ∈ ["md5".toList, "sha1".toList] then digest "sha256".toList c.der else digest name c.der

/-- What the connection of a response shows: whether its raw response is one of urllib3 whose socket can be reached, and the certificate of the
server if the socket has `getpeercert`. -/
structure Connection where
  socket : Bool := true
  certificate : Option Certificate := none
  deriving DecidableEq, Repr

/-- negotiate.py 200-238 `_get_cbt_data`, without its warnings. -/
def cbtData (digest : PyStr → Bytes → Bytes) (c : Connection) : Option Bytes :=
  if c.socket then c.certificate.map fun cert => ascii "tls-server-end-point:".toList ++ certificateHash digest cert else none

/-- The arguments of `spnego.client`. -/
structure ContextArgs where
  username : Option PyStr
  password : Option PyStr
  hostname : OptVal
  service : OptVal
  bindings : Option Bytes
  delegate : Bool
  protocol : PyStr
  wrapping : Bool
  deriving DecidableEq, Repr

/-- negotiate.py 99-141: the key in `contexts` and the arguments of the context for the scheme, the address and the connection of a response. -/
def newContext (digest : PyStr → Bytes → Bytes) (a : NegotiateAuth) (scheme url : PyStr) (c : Connection) :
    Except PyErr (Option PyStr × ContextArgs) := do
  let protocol ← chooseProtocol a.provider scheme
  let host ← getHostname url
  return (host, {
    username := a.username, password := a.password
    hostname := if a.hostnameOverride.truthy then a.hostnameOverride else match host with | some h => .text h | none => .none
    service := a.service
    bindings := if a.sendCbt.truthy then (match cbtData digest c with | some [] => none | x => x) else none
    delegate := a.delegate.truthy
    protocol := protocol
    wrapping := a.wrapRequired })

/-- wsman.py 829, 855, 859: `contexts[hostname]`, with the hostname of the endpoint. -/
def lookupContext (contexts : List (Option PyStr × ContextArgs)) (endpoint : PyStr) : Except PyErr ContextArgs := do
  let host ← getHostname endpoint
  match contexts.find? (·.1 = host) with
  | some e => .ok e.2
  | none => .error .keyError

/-- The contexts made while a request goes through these answers (`follow`): requests keeps the hook of the authentication when it is redirected.
`scheme` is the one that the servers ask for. -/
def contextsMade (digest : PyStr → Bytes → Bytes) (a : NegotiateAuth) (scheme : PyStr) (c : Connection) (url : PyStr) (body : Option Bytes)
    (answers : List Answer) : Except PyErr (List (Option PyStr × ContextArgs)) :=
  (((follow url body answers).zip answers).filter fun e => e.2.status = 401).mapM fun e => newContext digest a scheme e.1.url c

end Verif
