import Verif.Model.Pool
/-
Specifications for the runspace pool and its pipelines.
-/
namespace Verif

/-- What the documentation says about a call in some state: it does nothing, it raises, or it makes a request. -/
inductive Verdict where
  | ignored
  | refused (e : PyErr)
  | performed (first : Request)

/-- A call does what the verdict says: an ignored or refused call sends nothing and changes nothing. -/
def Obeys (call : PoolM α) (w : World) : Verdict → Prop
  | .ignored => ∃ a, call w = (.ok a, w)
  | .refused e => call w = (.raised e, w)
  | .performed first => ∃ outcome rest, (call w).2.sent = w.sent ++ (first, outcome) :: rest

/-- MS-PSRP 2.2.3.4: 0 before open, 2 opened, 3 closed, 4 closing, 5 broken, 9 disconnected. "Opens the runspace pool", only
before it was opened. -/
def openVerdict (state : Int) (first : Request) : Verdict :=
  if state = 2 then .ignored else if state = 0 then .performed first else .refused .invalidPoolState

/-- "If the pool is already closed or broken or closing, this will just return." -/
def closeVerdict (state : Int) : Verdict :=
  if state = 3 ∨ state = 4 ∨ state = 5 then .ignored else .performed .delete

/-- "Runspace pool must be in a disconnected state." -/
def connectVerdict (state : Int) (first : Request) : Verdict :=
  if state = 2 then .ignored else if state = 9 then .performed first else .refused .invalidPoolState

/-- "Must be in the Opened state." -/
def disconnectVerdict (state : Int) : Verdict :=
  if state = 9 then .ignored else if state = 2 then .performed .disconnect else .refused .invalidPoolState

/-- "Only supported for the protocol version 2.3 and above"; nothing to reset before the pool is open. -/
def resetVerdict (state : Int) (supported : Prop) [Decidable supported] (first : Request) : Verdict :=
  if state = 0 then .ignored
  else if state = 2 then (if supported then .performed first else .refused .invalidPSRPOperation)
  else .refused .invalidPoolState

/-- MS-PSRP 2.2.3.5: 0 not started, 1 running, 2 stopping, 3 stopped, 4 completed, 5 failed, 6 disconnected. A pipeline starts if
it does not run and has commands. -/
def invokeVerdict (state : Int) (commands : Nat) (first : Request) : Verdict :=
  if state = 0 ∨ state = 3 ∨ state = 4 ∨ state = 5 then
    (if commands = 0 then .refused .invalidPSRPOperation else .performed first)
  else .refused .invalidPipelineState

/-- Only a running pipeline is stopped; nothing happens if that was already asked for. -/
def stopVerdict (state : Int) (first : Request) : Verdict :=
  if state = 2 ∨ state = 3 then .ignored else if state = 1 then .performed first else .refused .invalidPipelineState

/-- Only a finished pipeline is closed; one that was not started needs no closing. -/
def closePipeVerdict (state : Int) (first : Request) : Verdict :=
  if state = 0 then .ignored
  else if state = 3 ∨ state = 4 ∨ state = 5 then .performed first
  else .refused .invalidPipelineState

def connectPipeVerdict (state : Int) (first : Request) : Verdict :=
  if state = 6 then .performed first else .refused .invalidPipelineState

/-- The requests of a log, and those that succeeded. -/
def requests (log : List (Request × Res Unit)) : List Request := log.map (·.1)
def succeeded (log : List (Request × Res Unit)) : List Request := (log.filter fun e => e.2 = .ok ()).map (·.1)

def Request.isCreate : Request → Bool
  | .create _ => true
  | _ => false

/-- A server message that says that the pool is in a state from which it could be used again. -/
def Reopens (m : SrvMsg) : Prop := ∃ s, m = .poolState s ∧ s ≠ 3 ∧ s ≠ 4 ∧ s ≠ 5

/-- The call ids of the requests, in order. -/
def OutMsg.callId : OutMsg → Option Nat
  | .setMin _ ci => some ci
  | .setMax _ ci => some ci
  | .getAvailable ci => some ci
  | .reset ci => some ci
  | _ => none

def Request.outMsgs : Request → List OutMsg
  | .create msgs => msgs
  | .connectShell msgs => msgs
  | .command _ msg => [msg]
  | .send _ _ _ msgs => msgs
  | _ => []

def callIds (log : List (Request × Res Unit)) : List Nat := (requests log).flatMap fun r => r.outMsgs.filterMap OutMsg.callId

/-- The public keys sent. -/
def publicKeys (log : List (Request × Res Unit)) : List Nat :=
  (requests log).flatMap fun r => r.outMsgs.filterMap fun
    | .publicKey k => some k
    | _ => none

/-- The answers with a call id among the messages. -/
def answers (ci : Int) (log : List Handled) : List CiVal :=
  log.filterMap fun h => match h.msg with
    | .availability c r => if c = ci then some r else none
    | _ => none

def IsInitData (m : SrvMsg) : Prop := ∃ a b, m = .initData a b

/-- How a shell query ends. -/
inductive ShellQuery where
  | state (s : Option PyStr)
  | error (e : PyErr)

/-- The reply that makes the query end like that. -/
def ShellQuery.reply : ShellQuery → Reply
  | .state s => { shellState := s }
  | .error e => { error := some e }

/-- The query shows that the pool is dead. -/
def ShellQuery.Dead : ShellQuery → Prop
  | .state s => s = some "Disconnected".toList
  | .error e => e = .wsManFault (some 0x80338029) ∨ e = .wsManFault (some 0x8033805B) ∨ e = .newConnectionDisabled ∨
      e = .timeoutError ∨ e = .connectionError ∨ e = .connectTimeout

/-- A world as after creating a pool, with any replies of the server, host and clock. -/
def World.start (min max : Int) (host : Option (Nat → HostCall → HostResult)) (clock : List Bool) (replies : List Reply) : World :=
  { pool := { min, max }, host, clock, replies }

/-- Whether a pipeline is registered after the requests of a log: a command registers it, a signal that succeeded removes it. -/
def registeredBy (i : Nat) (log : List (Request × Res Unit)) : Bool :=
  log.foldl (fun b e => match e with
    | (.command j _, _) => if j = i then true else b
    | (.signal _ j _, .ok ()) => if j = i then false else b
    | _ => b) false

/-- The host call of a handled message, and the pipeline it is for. -/
def Handled.hostCall (h : Handled) : Option (Option Nat × HostCall) :=
  match h.msg with
  | .poolHostCall c => some (none, c)
  | .pipelineHostCall c => if h.found then h.asked.map fun i => (some i, c) else none
  | _ => none

/-- The answer to a host call: on the stream `pr`, with the ids of the call, for the pipeline or for the pool. -/
def hostAnswer (pid : Option Nat) (call : HostCall) (result : Obj) : Request :=
  .send .pr none pid [match pid with
    | none => .poolHostResponse call.ci call.mi result
    | some _ => .pipelineHostResponse call.ci call.mi result]

/-- The answers to the host calls among some messages, when `n` calls were made before. -/
def hostAnswers (host : Nat → HostCall → HostResult) : Nat → List Handled → List Request
  | _, [] => []
  | n, h :: hs =>
    match h.hostCall with
    | none => hostAnswers host n hs
    | some (pid, call) =>
      match host n call with
      | .value o => hostAnswer pid call o :: hostAnswers host (n + 1) hs
      | _ => hostAnswers host (n + 1) hs

/-- Without a host there are no answers. -/
def allAnswers (host : Option (Nat → HostCall → HostResult)) (hs : List Handled) : List Request :=
  match host with
  | none => []
  | some h => hostAnswers h 0 hs

def Request.isHostAnswer (r : Request) : Bool :=
  r.outMsgs.any fun
    | .poolHostResponse .. => true
    | .pipelineHostResponse .. => true
    | _ => false

/-- The message says that the pipeline for which it was received failed. -/
def Handled.failed (h : Handled) (i : Nat) : Bool :=
  h.asked == some i && h.found && match h.msg with
    | .pipelineState s _ => s == 5
    | _ => false

inductive StreamKind where
  | debug | error | information | progress | verbose | warning
  deriving DecidableEq, Repr

def Streams.get (s : Streams) : StreamKind → List Obj
  | .debug => s.debug
  | .error => s.error
  | .information => s.information
  | .progress => s.progress
  | .verbose => s.verbose
  | .warning => s.warning

/-- The record of a message for a stream. A pipeline state message may carry an error record. -/
def SrvMsg.record : StreamKind → SrvMsg → Option Obj
  | .debug, .debugRecord o => some o
  | .error, .errorRecord o => some o
  | .error, .pipelineState _ e => e
  | .information, .informationRecord o => some o
  | .progress, .progressRecord o => some o
  | .verbose, .verboseRecord o => some o
  | .warning, .warningRecord o => some o
  | _, _ => none

def SrvMsg.outputObj : SrvMsg → Option Obj
  | .output o => some o
  | _ => none

/-- A message that says that the pipeline failed. -/
def SrvMsg.fails : SrvMsg → Bool
  | .pipelineState s _ => s == 5
  | _ => false

/-- The records for a pipeline and a stream among handled messages. -/
def recordsFor (i : Nat) (k : StreamKind) (hs : List Handled) : List Obj :=
  hs.filterMap fun h => if h.asked = some i ∧ h.found = true then h.msg.record k else none

/-- The messages of the replies that are not errors: what was received, however it was grouped. -/
def received (rs : List Reply) : List SrvMsg := rs.flatMap fun r => if r.error = none then r.msgs else []

def SrvMsg.isHostCall : SrvMsg → Bool
  | .poolHostCall _ => true
  | .pipelineHostCall _ => true
  | _ => false

/-- The objects of an input. -/
def GenItem.objects : GenItem → List Obj
  | .one o => [o]
  | .many l => l
  | .none => []

def InputArg.objects : InputArg → List Obj
  | .none => []
  | .single o => [o]
  | .list l => l
  | .generator items => items.flatMap GenItem.objects

/-- The messages sent as input of a pipeline. -/
def inputSent (i : Nat) (log : List (Request × Res Unit)) : List OutMsg :=
  (requests log).flatMap fun
    | .send .stdin _ (some j) msgs => if j = i then msgs else []
    | _ => []

/-- A number of polls. -/
def polls (i : Nat) : Nat → PoolM Unit
  | 0 => pure ()
  | n + 1 => do
    pollInvoke i
    polls i n

/-- MS-PSRP 2.2.3.4: closed, closing or broken: the pool is over. -/
def OverState (s : Int) : Prop := s = 3 ∨ s = 4 ∨ s = 5

instance (s : Int) : Decidable (OverState s) := by unfold OverState; infer_instance

/-- Something told the client that the pool is over: a message of the server, or a look at the shell. -/
def ToldOver (w : World) : Prop :=
  (∃ h ∈ w.handled, ∃ s, h.msg = .poolState s ∧ OverState s) ∨ ∃ e ∈ w.sent, e.1 = .getShell

end Verif
