import Verif.Model.Utils
import Verif.Model.Host
/-
The runspace pool and its pipelines as a state machine (src/pypsrp/powershell.py, and the parts of src/pypsrp/shell.py that
decide whether a request is sent).

The model is at the level of PSRP messages: fragmentation, reassembly and (de)serialization are modelled in Model/Fragment,
Model/Message and Model/Serializer, so a receive returns the messages that it completed and a message is sent by one request.
Every request is answered by the next entry of a list of replies; the list is arbitrary, and when it is used up the
program waits. Objects (records, output, results of host calls) are opaque and represented by numbers; 0 stands for an object
that is false in a condition.
-/
namespace Verif

/-- How a call ends: with a value, with an exception, or not (yet): it waits for a reply. -/
inductive Res (α : Type) where
  | ok (a : α)
  | raised (e : PyErr)
  | waiting
  deriving DecidableEq, Repr

/-- A Python object whose structure does not matter here. -/
abbrev Obj := Nat

/-- complex_objects.py 246-256 `RunspacePoolState`. The server may send any number. -/
abbrev PoolState := Int
namespace PoolState
def beforeOpen : PoolState := 0
def opened : PoolState := 2
def closed : PoolState := 3
def closing : PoolState := 4
def broken : PoolState := 5
def negotiationSent : PoolState := 6
def disconnected : PoolState := 9
end PoolState

/-- complex_objects.py 284-291 `PSInvocationState`. The server may send any number. -/
abbrev PipeState := Int
namespace PipeState
def notStarted : PipeState := 0
def running : PipeState := 1
def stopping : PipeState := 2
def stopped : PipeState := 3
def completed : PipeState := 4
def failed : PipeState := 5
def disconnected : PipeState := 6
end PipeState

/-- messages.py 410-427: the `response` of a runspace availability message has no fixed type. -/
inductive CiVal where
  | bool (b : Bool)
  | int (n : Int)
  | none
  deriving DecidableEq, Repr

/-- Python truth value. -/
def CiVal.truthy : CiVal → Bool
  | .bool b => b
  | .int n => n ≠ 0
  | .none => false

/-- Which closure a `ci_table` entry is: powershell.py 214-217, 255-258, 393-395, 636-639. -/
inductive CiKind where
  | setMin | setMax | avail | reset
  deriving DecidableEq, Repr

/-- An entry of `ci_table`: a handler, or the answer that replaced it. -/
inductive CiEntry where
  | handler (k : CiKind)
  | value (v : CiVal)
  deriving DecidableEq, Repr

/-- messages.py `RunspacePoolHostCall`, `PipelineHostCall`: call id, method id, parameters. -/
structure HostCall where
  ci : Int
  mi : Int
  mp : List Obj
  deriving DecidableEq, Repr

/-- What `PSHost.run_method` does with a call. -/
inductive HostResult where
  | nothing
  | value (o : Obj)
  | raises (e : PyErr)
  deriving DecidableEq, Repr

/-- Messages from the server. `encryptedSessionKey key`: `key` is what the client's RSA key makes of the message, `none` if it
cannot be decrypted. -/
inductive SrvMsg where
  | sessionCapability (protocol : Option PyStr)
  | encryptedSessionKey (key : Option Obj)
  | publicKeyRequest
  | initData (min max : Int)
  | availability (ci : Int) (response : CiVal)
  | poolState (state : PoolState)
  | userEvent (o : Obj)
  | privateData (o : Obj)
  | poolHostCall (call : HostCall)
  | output (o : Obj)
  | errorRecord (o : Obj)
  | pipelineState (state : PipeState) (error : Option Obj)
  | debugRecord (o : Obj)
  | verboseRecord (o : Obj)
  | warningRecord (o : Obj)
  | progressRecord (o : Obj)
  | informationRecord (o : Obj)
  | pipelineHostCall (call : HostCall)
  | other (type : Nat)
  deriving DecidableEq, Repr

/-- Messages to the server. -/
inductive OutMsg where
  | sessionCapability
  | initPool (min max : Int)
  | connectPool
  | publicKey (key : Nat)
  | setMin (value : Int) (ci : Nat)
  | setMax (value : Int) (ci : Nat)
  | getAvailable (ci : Nat)
  | reset (ci : Nat)
  | createPipeline (noInput : Bool)
  | getMetadata
  | input (o : Obj)
  | endOfInput
  | poolHostResponse (ci mi : Int) (mr : Obj)
  | pipelineHostResponse (ci mi : Int) (mr : Obj)
  deriving DecidableEq, Repr

inductive StreamName where
  | stdin | pr
  deriving DecidableEq, Repr

/-- shell.py 17-24 `SignalCode`. -/
inductive SignalCode where
  | terminate | psCtrlC
  deriving DecidableEq, Repr

/-- A WSMan command id: the pipeline's own id, or the one that the server gave. -/
inductive CmdId where
  | own (pipe : Nat)
  | server (n : Nat)
  deriving DecidableEq, Repr

/-- WSMan requests. `pipe` in a signal only tells which object sent it, on the wire is the command id. `pid` is the pipeline id
in the header of the PSRP messages. -/
inductive Request where
  | create (msgs : List OutMsg)
  | delete
  | connectShell (msgs : List OutMsg)
  | reconnect
  | disconnect
  | connectCommand (pipe : Nat)
  | command (pipe : Nat) (msg : OutMsg)
  | send (stream : StreamName) (cmd : Option CmdId) (pid : Option Nat) (msgs : List OutMsg)
  | receive (cmd : Option CmdId)
  | signal (code : SignalCode) (pipe : Nat) (cmd : CmdId)
  | getShell
  deriving DecidableEq, Repr

/-- The reply to a request; each request uses the fields that belong to it. -/
structure Reply where
  /-- the request raises -/
  error : Option PyErr := none
  /-- receive, connect: the messages completed by the response -/
  msgs : List SrvMsg := []
  /-- command: the command id in the response -/
  command : Option Nat := none
  /-- get: the state field of the shell -/
  shellState : Option PyStr := none
  deriving DecidableEq, Repr

/-- powershell.py 1619-1633 `PSDataStreams`. -/
structure Streams where
  debug : List Obj := []
  error : List Obj := []
  information : List Obj := []
  progress : List Obj := []
  verbose : List Obj := []
  warning : List Obj := []
  deriving DecidableEq, Repr

/-- powershell.py 936-965: a `PowerShell` object. Its `id` is its number; only the number of commands is kept here. -/
structure PShell where
  state : PipeState := PipeState.notStarted
  commands : Nat := 0
  hadErrors : Bool := false
  isNested : Bool := false
  streams : Streams := {}
  output : List Obj := []
  fromDisconnect : Bool := false
  commandId : Option CmdId := none
  deriving DecidableEq, Repr

/-- powershell.py 139-182: a `RunspacePool`, and `opened` of its shell. The sizes are modelled in Model/Session. -/
structure Pool where
  state : PoolState := PoolState.beforeOpen
  shellOpened : Bool := false
  min : Int := 1
  max : Int := 1
  protocol : Option PyStr := none
  userEvents : List Obj := []
  privateData : Option Obj := none
  cipher : Option Obj := none
  exchangeKey : Option Nat := none
  keyExchanged : Bool := false
  newClient : Bool := false
  ciCounter : Nat := 0
  ciTable : Int → Option CiEntry := fun _ => none
  /-- `pipelines`: ids in insertion order -/
  registry : List Nat := []

/-- For observation: a message on which a handler was called (or which had none), the id for which the receive was
made, and whether that pipeline was registered. -/
structure Handled where
  asked : Option Nat
  found : Bool
  msg : SrvMsg
  deriving DecidableEq, Repr

/-- Everything: the pool, its pipeline objects, the environment, and logs for observation. -/
structure World where
  pool : Pool := {}
  pipes : Nat → PShell := fun _ => {}
  /-- number of pipeline objects created -/
  created : Nat := 0
  /-- number of RSA keys generated -/
  keys : Nat := 0
  /-- the host: for the number of the call and the call what `run_method` does -/
  host : Option (Nat → HostCall → HostResult) := none
  hostCalls : Nat := 0
  /-- for each look at the clock in `exchange_keys`, whether the time is over; none when the list is used up -/
  clock : List Bool := []
  replies : List Reply := []
  /-- log: every request and how it ended -/
  sent : List (Request × Res Unit) := []
  /-- log: every message handled -/
  handled : List Handled := []

/-- Programs over the world; the world after an exception is the one the program left. -/
def PoolM (α : Type) := World → Res α × World

instance : Monad PoolM where
  pure a := fun w => (.ok a, w)
  bind m f := fun w =>
    match m w with
    | (.ok a, w') => f a w'
    | (.raised e, w') => (.raised e, w')
    | (.waiting, w') => (.waiting, w')

def getW : PoolM World := fun w => (.ok w, w)
def modifyW (f : World → World) : PoolM Unit := fun w => (.ok (), f w)
def raise (e : PyErr) : PoolM α := fun w => (.raised e, w)
def wait : PoolM α := fun w => (.waiting, w)

def modifyPool (f : Pool → Pool) : PoolM Unit := modifyW fun w => { w with pool := f w.pool }

def World.setPipe (w : World) (i : Nat) (p : PShell) : World := { w with pipes := fun j => if j = i then p else w.pipes j }

def modifyPipe (i : Nat) (f : PShell → PShell) : PoolM Unit := modifyW fun w => w.setPipe i (f (w.pipes i))

/-- A WSMan request and its reply. -/
def request (r : Request) : PoolM Reply := fun w =>
  match w.replies with
  | [] => (.waiting, { w with sent := w.sent ++ [(r, .waiting)] })
  | reply :: rest =>
    match reply.error with
    | some e => (.raised e, { w with replies := rest, sent := w.sent ++ [(r, .raised e)] })
    | none => (.ok reply, { w with replies := rest, sent := w.sent ++ [(r, .ok ())] })

def Pool.setCi (p : Pool) (ci : Int) (e : Option CiEntry) : Pool :=
  { p with ciTable := fun c => if c = ci then e else p.ciTable c }

def World.countHostCall (w : World) : World := { w with hostCalls := w.hostCalls + 1 }

/-- powershell.py 797-825 `_process_host_call`. Without a host, the name of the method is still needed for the warning (805-808).
A host that itself uses the pool is not modelled. -/
def processHostCall (pipe : Option Nat) (call : HostCall) : PoolM Unit := do
  let w ← getW
  match w.host with
  | none =>
    match methodName (some call.mi) with
    | .ok _ => pure ()
    | .error e => raise e
  | some host =>
    modifyW World.countHostCall
    match host w.hostCalls call with
    | .nothing => pure ()
    | .raises e => raise e
    | .value o =>
      let msg := match pipe with
        | none => OutMsg.poolHostResponse call.ci call.mi o
        | some _ => .pipelineHostResponse call.ci call.mi o
      let _ ← request (.send .pr none pipe [msg])

/-- powershell.py 827-846 `_process_session_capability`; the sizes are in Model/Session. -/
def processCapability (protocol : Option PyStr) : PoolM Unit := do
  modifyPool fun p => { p with protocol }
  match versionEqualOrNewer (protocol.getD []) "2.2".toList with
  | .error e => raise e
  | .ok _ => pure ()

/-- powershell.py 214-217, 255-258, 393-395, 636-639: the handlers in `ci_table`. -/
def ciHandler (k : CiKind) (response : CiVal) : PoolM Unit :=
  match k with
  | .avail =>
    match response with
    | .int n => modifyPool fun p => { p with max := n }
    | .bool b => modifyPool fun p => { p with max := if b then 1 else 0 }
    -- Python stores None; in the model the maximum is a number
    | .none => raise .notModelled
  | _ => if response.truthy then pure () else raise .invalidPSRPOperation

/-- powershell.py 861-872 `_process_runspacepool_availability`. An unknown id is a KeyError, a second answer a TypeError (the
entry is no longer callable). -/
def processAvailability (ci : Int) (response : CiVal) : PoolM Unit := do
  let w ← getW
  match w.pool.ciTable ci with
  | none => raise .keyError
  | some (.value _) => raise .typeError
  | some (.handler k) =>
    ciHandler k response
    modifyPool fun p => p.setCi ci (some (.value response))

/-- powershell.py 880-890 `_process_runspacepool_state`. -/
def processPoolState (state : PoolState) : PoolM Unit := do
  modifyPool fun p => { p with state }
  if state = PoolState.broken then raise .invalidPSRPOperation else pure ()

/-- powershell.py 904-925 `_process_encrypted_session_key`. -/
def processSessionKey (key : Option Obj) : PoolM Unit := do
  let w ← getW
  match w.pool.exchangeKey with
  | none => raise .attributeError
  | some _ =>
    match key with
    | none => raise .valueError
    | some k => modifyPool fun p => { p with cipher := some k, keyExchanged := true, exchangeKey := none }

/-- powershell.py 1574-1588 `_process_pipeline_state`. -/
def processPipelineState (i : Nat) (state : PipeState) (error : Option Obj) : PoolM Unit := do
  modifyPipe i fun p => { p with state }
  match error with
  | some e => modifyPipe i fun p => { p with streams := { p.streams with error := p.streams.error ++ [e] } }
  | none => pure ()
  if state = PipeState.failed then modifyPipe i fun p => { p with hadErrors := true } else pure ()

/-- powershell.py 749-793: the handler tables and the call of the handler. `pipe` is the pipeline of the receive. The value is
what `poll_invoke` looks for: the object of a pipeline output message. `PUBLIC_KEY_REQUEST` has a handler that returns the
method `exchange_keys` without calling it (line 754). -/
def handle (pipe : Option Nat) (msg : SrvMsg) : PoolM (Option Obj) :=
  match msg with
  | .sessionCapability v => do processCapability v; pure none
  | .encryptedSessionKey k => do processSessionKey k; pure none
  | .publicKeyRequest => pure none
  | .initData min max => do modifyPool (fun p => { p with min, max }); pure none
  | .availability ci r => do processAvailability ci r; pure none
  | .poolState s => do processPoolState s; pure none
  | .userEvent o => do modifyPool (fun p => { p with userEvents := p.userEvents ++ [o] }); pure none
  | .privateData o => do modifyPool (fun p => { p with privateData := some o }); pure none
  | .poolHostCall c => do processHostCall none c; pure none
  | .output o => pure (some o)
  | .other _ => pure none
  | .errorRecord o => match pipe with
    | none => pure none
    | some i => do modifyPipe i (fun p => { p with streams := { p.streams with error := p.streams.error ++ [o] } }); pure none
  | .pipelineState s e => match pipe with
    | none => pure none
    | some i => do processPipelineState i s e; pure none
  | .debugRecord o => match pipe with
    | none => pure none
    | some i => do modifyPipe i (fun p => { p with streams := { p.streams with debug := p.streams.debug ++ [o] } }); pure none
  | .verboseRecord o => match pipe with
    | none => pure none
    | some i => do modifyPipe i (fun p => { p with streams := { p.streams with verbose := p.streams.verbose ++ [o] } }); pure none
  -- without a pipeline: `warnings.warn`
  | .warningRecord o => match pipe with
    | none => pure none
    | some i => do modifyPipe i (fun p => { p with streams := { p.streams with warning := p.streams.warning ++ [o] } }); pure none
  | .progressRecord o => match pipe with
    | none => pure none
    | some i => do modifyPipe i (fun p => { p with streams := { p.streams with progress := p.streams.progress ++ [o] } }); pure none
  | .informationRecord o => match pipe with
    | none => pure none
    | some i =>
      do modifyPipe i (fun p => { p with streams := { p.streams with information := p.streams.information ++ [o] } }); pure none
  | .pipelineHostCall c => match pipe with
    | none => pure none
    | some i => do processHostCall (some i) c; pure none

/-- One round of the loop of `_parse_responses`, with an entry in the log. -/
def handleLogged (asked pipe : Option Nat) (m : SrvMsg) : PoolM (Option Obj) := do
  modifyW fun w => { w with handled := w.handled ++ [⟨asked, pipe.isSome, m⟩] }
  handle pipe m

/-- powershell.py 780-795: the loop of `_parse_responses` over the messages. `asked` is only for the log. -/
def parseResponses (asked pipe : Option Nat) : List SrvMsg → PoolM (List Obj)
  | [] => pure []
  | m :: ms => do
    let o ← handleLogged asked pipe m
    let os ← parseResponses asked pipe ms
    pure (o.toList ++ os)

/-- powershell.py 712-740 `_receive`. -/
def receive (id : Option Nat) : PoolM (List Obj) := do
  let w ← getW
  let pipe := id.filter (fun i => w.pool.registry.contains i)
  let cmd := pipe.bind fun i => (w.pipes i).commandId
  let reply ← request (.receive cmd)
  parseResponses id pipe reply.msgs

/-- `while not done: self._receive()`. Every receive uses a reply, so the replies bound the number of rounds. -/
def receiveUntil (done : World → Bool) : Nat → PoolM Unit
  | 0 => wait
  | n + 1 => do
    let w ← getW
    if done w then pure ()
    else do
      let _ ← receive none
      receiveUntil done n

def loopUntil (done : World → Bool) : PoolM Unit := do
  let w ← getW
  receiveUntil done (w.replies.length + 1)

/-- powershell.py 219-226, 260-267, 397-403, 641-647: a new call id from the counter, its handler, and the request. -/
def ask (k : CiKind) (msg : Nat → OutMsg) : PoolM Nat := do
  let w ← getW
  let ci := w.pool.ciCounter
  modifyPool fun p => { p with ciCounter := p.ciCounter + 1 }
  modifyPool fun p => p.setCi ci (some (.handler k))
  let _ ← request (.send .stdin none none [msg ci])
  pure ci

/-- `isinstance(self.ci_table[ci], bool)`. -/
def gotBool (ci : Nat) (w : World) : Bool :=
  match w.pool.ciTable ci with
  | some (.value (.bool _)) => true
  | _ => false

/-- powershell.py 197-231 the setter of `min_runspaces`. -/
def setMin (value : Int) : PoolM Unit := do
  let w ← getW
  if w.pool.state ≠ PoolState.opened then modifyPool fun p => { p with min := value }
  else if value = w.pool.min then pure ()
  else do
    let ci ← ask .setMin (.setMin value)
    loopUntil (gotBool ci)
    modifyPool fun p => { p.setCi ci none with min := value }

/-- powershell.py 238-272 the setter of `max_runspaces`. -/
def setMax (value : Int) : PoolM Unit := do
  let w ← getW
  if w.pool.state ≠ PoolState.opened then modifyPool fun p => { p with max := value }
  else if value = w.pool.max then pure ()
  else do
    let ci ← ask .setMax (.setMax value)
    loopUntil (gotBool ci)
    modifyPool fun p => { p.setCi ci none with max := value }

/-- `isinstance(self.ci_table[ci], int)`; `bool` is a subclass of `int`. -/
def gotInt (ci : Nat) (w : World) : Option Int :=
  match w.pool.ciTable ci with
  | some (.value (.int n)) => some n
  | some (.value (.bool b)) => some (if b then 1 else 0)
  | _ => none

/-- powershell.py 385-412 `get_available_runspaces`. -/
def getAvailable : PoolM Int := do
  let ci ← ask .avail OutMsg.getAvailable
  loopUntil (fun w => (gotInt ci w).isSome)
  let w ← getW
  modifyPool fun p => p.setCi ci none
  pure ((gotInt ci w).getD 0)

/-- powershell.py 613-650 `reset_runspace_state`. -/
def resetState : PoolM Unit := do
  let w ← getW
  if w.pool.state = PoolState.beforeOpen then pure ()
  else if w.pool.state ≠ PoolState.opened then raise .invalidPoolState
  else
    match versionEqualOrNewer (w.pool.protocol.getD []) "2.3".toList with
    | .error e => raise e
    | .ok false => raise .invalidPSRPOperation
    | .ok true => do
      let ci ← ask .reset OutMsg.reset
      loopUntil (gotBool ci)
      modifyPool fun p => p.setCi ci none

/-- shell.py 109-117 `WinRS.close`. -/
def shellClose : PoolM Unit := do
  let w ← getW
  if w.pool.shellOpened then do
    let _ ← request .delete
    modifyPool fun p => { p with shellOpened := false }
  else pure ()

/-- powershell.py 286-298 `close`. -/
def closePool : PoolM Unit := do
  let w ← getW
  if w.pool.state = PoolState.closed ∨ w.pool.state = PoolState.closing ∨ w.pool.state = PoolState.broken then pure ()
  else do
    shellClose
    modifyPool fun p => { p with state := PoolState.closed }

/-- shell.py 155-211 `WinRS.open`: no request if it is already open. -/
def shellOpen (msgs : List OutMsg) : PoolM Unit := do
  let w ← getW
  if w.pool.shellOpened then pure ()
  else do
    let _ ← request (.create msgs)
    modifyPool fun p => { p with shellOpened := true }

/-- powershell.py 551-566: the shell is opened and the negotiation starts. -/
def startOpening (msgs : List OutMsg) : PoolM Unit := do
  shellOpen msgs
  modifyPool fun p => { p with state := PoolState.negotiationSent }

/-- powershell.py 530-570 `open`. What does not fit in the first block is not sent (Model/Session); not repeated here. -/
def openPool : PoolM Unit := do
  let w ← getW
  if w.pool.state = PoolState.opened then pure ()
  else if w.pool.state ≠ PoolState.beforeOpen then raise .invalidPoolState
  else do
    startOpening [.sessionCapability, .initPool w.pool.min w.pool.max]
    loopUntil (fun w => w.pool.state ≠ PoolState.negotiationSent)

/-- powershell.py 300-353 `connect`, `_connect_existing_client`, `_connect_new_client`. -/
def connectPool : PoolM Unit := do
  let w ← getW
  if w.pool.state = PoolState.opened then pure ()
  else if w.pool.state ≠ PoolState.disconnected then raise .invalidPoolState
  else if w.pool.newClient then do
    let reply ← request (.connectShell [.sessionCapability, .connectPool])
    let _ ← parseResponses none none reply.msgs
    let _ ← receive none
    modifyPool fun p => { p with newClient := false }
  else do
    let _ ← request .reconnect
    modifyPool fun p => { p with state := PoolState.opened }

/-- powershell.py 366-383 `disconnect`. -/
def disconnectPool : PoolM Unit := do
  let w ← getW
  if w.pool.state = PoolState.disconnected then pure ()
  else if w.pool.state ≠ PoolState.opened then raise .invalidPoolState
  else do
    let _ ← request .disconnect
    modifyPool fun p => { p with state := PoolState.disconnected }
    modifyW fun w => { w with pipes := fun j =>
      if w.pool.registry.contains j then { w.pipes j with state := PipeState.disconnected } else w.pipes j }

/-- One look at the clock, powershell.py 607-610. -/
def timeIsOver : PoolM Bool := do
  let w ← getW
  modifyW fun w => { w with clock := w.clock.tail }
  pure (w.clock.headD false)

/-- powershell.py 606-611: the loop of `exchange_keys`. -/
def awaitKey : Nat → PoolM Unit
  | 0 => wait
  | n + 1 => do
    let w ← getW
    if w.pool.keyExchanged then pure ()
    else do
      let over ← timeIsOver
      if over then raise .invalidPSRPOperation
      else do
        let _ ← receive none
        awaitKey n

/-- powershell.py 584-604: a new key pair, and the public key is sent. -/
def sendKey : PoolM Unit := do
  let w ← getW
  modifyW fun w => { w with keys := w.keys + 1, pool := { w.pool with exchangeKey := some w.keys } }
  let _ ← request (.send .stdin none none [.publicKey w.keys])

/-- powershell.py 572-611 `exchange_keys`. -/
def exchangeKeys : PoolM Unit := do
  let w ← getW
  if w.pool.keyExchanged ∨ w.pool.exchangeKey.isSome then pure ()
  else do
    sendKey
    let w' ← getW
    awaitKey (w'.replies.length + 1)

/-- powershell.py 671-710 `is_alive`. -/
def isAlive : PoolM Bool := fun w =>
  match request .getShell w with
  | (.waiting, w1) => (.waiting, w1)
  | (.ok reply, w1) =>
    if reply.shellState = some "Disconnected".toList then
      (.ok false, { w1 with pool := { w1.pool with state := PoolState.closed } })
    else (.ok true, w1)
  | (.raised (.wsManFault code), w1) =>
    if code = some 0x80338029 ∨ code = some 0x8033805B then
      (.ok false, { w1 with pool := { w1.pool with state := PoolState.closed } })
    else (.raised (.wsManFault code), w1)
  | (.raised e, w1) =>
    if e = .newConnectionDisabled ∨ e = .timeoutError ∨ e = .connectionError ∨ e = .connectTimeout then
      (.ok false, { w1 with pool := { w1.pool with state := PoolState.closed } })
    else (.raised e, w1)

/-- powershell.py 936-965 `PowerShell(pool)`: the number of the new object. -/
def newPipe (nested : Bool) : PoolM Nat := do
  let w ← getW
  modifyW fun w => { w with created := w.created + 1 }
  modifyPipe w.created fun _ => { isNested := nested }
  pure w.created

/-- powershell.py 1066-1101 and the like: a command is added. -/
def addCommand (i : Nat) : PoolM Unit := modifyPipe i fun p => { p with commands := p.commands + 1 }

/-- powershell.py 1103-1109. -/
def clearCommands (i : Nat) : PoolM Unit := modifyPipe i fun p => { p with commands := 0 }

/-- powershell.py 1111-1116. -/
def clearStreams (i : Nat) : PoolM Unit := modifyPipe i fun p => { p with streams := {}, output := [] }

/-- powershell.py 1525-1529: the pipeline is registered and the command request is sent. -/
def startCommand (i : Nat) (msg : OutMsg) : PoolM Reply := do
  modifyPool fun p => { p with registry := if p.registry.contains i then p.registry else p.registry ++ [i] }
  request (.command i msg)

/-- powershell.py 1518-1536 `_invoke`. -/
def invokeMsg (i : Nat) (msg : OutMsg) : PoolM Unit := do
  let reply ← startCommand i msg
  match reply.command with
  | some c => modifyPipe i fun p => { p with commandId := some (.server c) }
  | none => pure ()
  modifyPipe i fun p => { p with state := PipeState.running }

/-- What a generator yields: an object, a list of objects, or None. -/
inductive GenItem where
  | one (o : Obj)
  | many (l : List Obj)
  | none
  deriving DecidableEq, Repr

/-- The `input` argument: None, an object, a list, or a generator. -/
inductive InputArg where
  | none
  | single (o : Obj)
  | list (l : List Obj)
  | generator (items : List GenItem)
  deriving DecidableEq, Repr

/-- powershell.py 1234 `input is None or not input`. A generator object is true. -/
def InputArg.noInput : InputArg → Bool
  | .none => true
  | .single o => o = 0
  | .list l => l.isEmpty
  | .generator _ => false

/-- powershell.py 1258-1265: the items of the generator that is iterated. -/
def InputArg.items : InputArg → List GenItem
  | .none => []
  | .single o => [.one o]
  | .list l => [.many l]
  | .generator items => items

/-- powershell.py 1276-1279: the messages of one item; `fragment_multiple` of no messages gives no block. -/
def sendBatch (i : Nat) (msgs : List OutMsg) : PoolM Unit := do
  let w ← getW
  if msgs = [] then pure ()
  else do
    let _ ← request (.send .stdin (w.pipes i).commandId (some i) msgs)

/-- powershell.py 1266-1279: the loop, after `next` gave the first item. One list of messages for every item; the batching into
blocks is `fragment_multiple` (Model/Fragment). -/
def sendInput (i : Nat) : GenItem → List GenItem → PoolM Unit
  | .none, _ => pure ()
  | item, rest => do
    let objs := match item with
      | .one o => [o]
      | .many l => l
      | .none => []
    let msgs := objs.map OutMsg.input
    match rest with
    | [] => sendBatch i (msgs ++ [.endOfInput])
    | next :: rest => do
      sendBatch i msgs
      sendInput i next rest

/-- powershell.py 1196-1279 `begin_invoke`. -/
def beginInvoke (i : Nat) (input : InputArg) : PoolM Unit := do
  let w ← getW
  let s := (w.pipes i).state
  if ¬ (s = PipeState.notStarted ∨ s = PipeState.stopped ∨ s = PipeState.completed ∨ s = PipeState.failed) then
    raise .invalidPipelineState
  else if (w.pipes i).commands = 0 then raise .invalidPSRPOperation
  else do
    invokeMsg i (.createPipeline input.noInput)
    match input with
    | .none => pure ()
    | _ =>
      match input.items with
      | [] => raise .stopIteration
      | item :: rest => sendInput i item rest

/-- powershell.py 1479-1501 `poll_invoke`: the fault "operation timed out" is ignored. -/
def pollInvoke (i : Nat) : PoolM Unit := fun w =>
  match receive (some i) w with
  | (.ok os, w1) => (.ok (), w1.setPipe i { w1.pipes i with output := (w1.pipes i).output ++ os })
  | (.raised e, w1) => if e = .wsManFault (some 2150858793) then (.ok (), w1) else (.raised e, w1)
  | (.waiting, w1) => (.waiting, w1)

/-- powershell.py 1281-1291: the loop of `end_invoke`; every poll uses a reply. -/
def pollWhile (i : Nat) : Nat → PoolM Unit
  | 0 => wait
  | n + 1 => do
    let w ← getW
    if (w.pipes i).state ≠ PipeState.running then pure ()
    else do
      pollInvoke i
      pollWhile i n

/-- powershell.py 1281-1291 `end_invoke`. -/
def endInvoke (i : Nat) : PoolM (List Obj) := do
  let w ← getW
  pollWhile i (w.replies.length + 1)
  let w ← getW
  pure (w.pipes i).output

/-- powershell.py 1293-1317 `invoke`. -/
def invoke (i : Nat) (input : InputArg) : PoolM (List Obj) := do
  beginInvoke i input
  endInvoke i

/-- A signal, and afterwards the registry without the pipeline: powershell.py 1135-1136, 1514-1516. -/
def signalAndDrop (code : SignalCode) (i : Nat) (cmd : CmdId) : PoolM Unit := do
  let _ ← request (.signal code i cmd)
  modifyPool fun p => { p with registry := p.registry.filter (· ≠ i) }

/-- powershell.py 1503-1516 `stop`; lines 1515 and 1516 in the other order. -/
def stopPipe (i : Nat) : PoolM Unit := do
  let w ← getW
  let s := (w.pipes i).state
  if s = PipeState.stopping ∨ s = PipeState.stopped then pure ()
  else if s ≠ PipeState.running then raise .invalidPipelineState
  else do
    modifyPipe i fun p => { p with state := PipeState.stopping }
    signalAndDrop .psCtrlC i (.own i)
    modifyPipe i fun p => { p with state := PipeState.stopped }

/-- powershell.py 1118-1136 `close`. -/
def closePipe (i : Nat) : PoolM Unit := do
  let w ← getW
  let s := (w.pipes i).state
  if s = PipeState.notStarted then pure ()
  else if ¬ (s = PipeState.completed ∨ s = PipeState.stopped ∨ s = PipeState.failed) then raise .invalidPipelineState
  else do
    signalAndDrop .terminate i ((w.pipes i).commandId.getD (.own i))

/-- powershell.py 1148-1166 `connect_async`. -/
def connectPipe (i : Nat) : PoolM Unit := do
  let w ← getW
  if (w.pipes i).state ≠ PipeState.disconnected then raise .invalidPipelineState
  else do
    let _ ← request (.connectCommand i)
    modifyPipe i fun p => { p with state := PipeState.running, fromDisconnect := true }

/-- powershell.py 1168-1194 `create_nested_power_shell`. -/
def createNested (i : Nat) : PoolM Nat := do
  let w ← getW
  if (w.pipes i).state ≠ PipeState.running then raise .invalidPipelineState
  else if (w.pipes i).fromDisconnect then raise .invalidPSRPOperation
  else newPipe true

/-- powershell.py 414-460 `get_command_metadata`: the objects after the first. The command that is sent and the conversion of the objects are in Model/Metadata. -/
def getMetadata : PoolM (List Obj) := do
  let w ← getW
  if w.pool.state ≠ PoolState.opened then raise .invalidPoolState
  else do
    let i ← newPipe false
    invokeMsg i .getMetadata
    let out ← endInvoke i
    match out with
    | [] => raise .indexError
    | _ :: rest => do
      modifyPipe i fun p => { p with output := rest }
      pure rest

/-- powershell.py 355-364 `create_disconnected_power_shells`. -/
def disconnectedPipes (w : World) : List Nat :=
  w.pool.registry.filter fun i => (w.pipes i).state = PipeState.disconnected

/-- The calls a user can make. -/
inductive Op where
  | openPool | closePool | connectPool | disconnectPool | resetState | getMetadata
  | setMin (v : Int) | setMax (v : Int) | getAvailable | exchangeKeys | isAlive
  | newPipe | addCommand (i : Nat) | clearCommands (i : Nat) | clearStreams (i : Nat)
  | beginInvoke (i : Nat) (input : InputArg) | pollInvoke (i : Nat) | endInvoke (i : Nat) | invoke (i : Nat) (input : InputArg)
  | stopPipe (i : Nat) | closePipe (i : Nat) | connectPipe (i : Nat) | createNested (i : Nat)
  deriving DecidableEq, Repr

def discard' (m : PoolM α) : PoolM Unit := do
  let _ ← m
  pure ()

def runOp : Op → PoolM Unit
  | .openPool => openPool
  | .closePool => closePool
  | .connectPool => connectPool
  | .disconnectPool => disconnectPool
  | .resetState => resetState
  | .getMetadata => discard' getMetadata
  | .setMin v => setMin v
  | .setMax v => setMax v
  | .getAvailable => discard' getAvailable
  | .exchangeKeys => exchangeKeys
  | .isAlive => discard' isAlive
  | .newPipe => discard' (newPipe false)
  | .addCommand i => addCommand i
  | .clearCommands i => clearCommands i
  | .clearStreams i => clearStreams i
  | .beginInvoke i input => beginInvoke i input
  | .pollInvoke i => pollInvoke i
  | .endInvoke i => discard' (endInvoke i)
  | .invoke i input => discard' (invoke i input)
  | .stopPipe i => stopPipe i
  | .closePipe i => closePipe i
  | .connectPipe i => connectPipe i
  | .createNested i => discard' (createNested i)

/-- A history: the user makes the calls one after the other and goes on after an exception. A call that waits is the last. -/
def runOps (w : World) : List Op → World
  | [] => w
  | op :: ops =>
    match runOp op w with
    | (.waiting, w') => w'
    | (_, w') => runOps w' ops

end Verif
