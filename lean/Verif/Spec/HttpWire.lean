import Verif.Model.HttpWire
import Verif.Spec.Namespaces
import Verif.Spec.PoolWire
import Verif.Spec.Transport
/-
Specification of receive requests over HTTP.
-/
namespace Verif

/-- The state of a connection between requests: the encryption and the number of messages that its context has sealed and unsealed, and what
is going to happen on the network. -/
def between (enc : Option (Nat × SealProtocol)) (k : Nat) (os : List NetOutcome) : TWorld := { outcomes := os, encryption := enc, sealCalls := k }

/-- How often the context is used: once for a sealed request, once for a sealed response. -/
def Uses (cfg : TransportCfg) (r : HttpResponse) (n : Nat) : Prop :=
  ∃ s, n = (if cfg.wrapRequired then 1 else 0) + s ∧ ((r.sealed ∧ s = 1) ∨ (¬ r.sealed ∧ s = 0))

/-- Requests that are all answered. Every answer is a document, sealed or not, with any prefixes, that relates to its request and brings
fragments; or it is a fault with a code. -/
inductive Exchanges (env : TransportEnv) (cfg : TransportCfg) (enc : Option (Nat × SealProtocol)) :
    Nat → List NetOutcome → List (PyStr × Bytes) → List (List Fragment) → List (Option Int) → Prop
  | nil {k os} : Exchanges env cfg enc k os [] [] []
  | data {k os id message r text x body fs n qs gs cs} : ReadyFor env cfg message (between enc k (.response r :: os)) →
      Receives env cfg (between enc k (.response r :: os)) r (utf8 text) → ¬ (400 ≤ r.status ∧ r.status < 600) → DocumentOf text x → RelatesTo x id →
      (elemsAt ["s:Body".toList] x).head? = some body → Brings body fs → Uses cfg r n → Exchanges env cfg enc (k + n) os qs gs cs →
      Exchanges env cfg enc k (.response r :: os) ((id, message) :: qs) (fs :: gs) (none :: cs)
  | fault {k os id message r text header p code n qs gs cs} : ReadyFor env cfg message (between enc k (.response r :: os)) →
      Receives env cfg (between enc k (.response r :: os)) r (utf8 text) → 400 ≤ r.status → r.status < 600 → r.status ≠ 401 →
      DocumentOf text (soapFault header p [wsmanDetail p (pyStrInt code)]) → Uses cfg r n → Exchanges env cfg enc (k + n) os qs gs cs →
      Exchanges env cfg enc k (.response r :: os) ((id, message) :: qs) ([] :: gs) (some code :: cs)

/-- What the pool sees of an answer: the code of its fault, or the messages that it completes. -/
def seenOf (msg : Nat → SrvMsg) (code : Option Int) (fs : List Fragment) : Reply :=
  match code with
  | some c => { error := some (.wsManFault (some c)) }
  | none => { msgs := completes msg fs }

end Verif
