import Verif.Model.Pool
/-
Every history of the pool model is a sequence of small steps. Invariants are proved step by step.
-/
namespace Verif

/-- The messages of the first request of a pool. -/
def OutMsg.isFirst : OutMsg → Bool
  | .sessionCapability => true
  | .initPool _ _ => true
  | _ => false

/-- The small steps, with what is known when they are taken. `C`: the pipelines whose streams may be cleared. -/
inductive Step (C : Nat → Prop) : World → World → Prop
  | message {w} (asked pipe : Option Nat) (m : SrvMsg) (hp : pipe = asked.filter (fun i => w.pool.registry.contains i)) :
    Step C w (handleLogged asked pipe m w).2
  | receive {w} (cmd : Option CmdId) : Step C w (request (.receive cmd) w).2
  | getShell {w} : Step C w (request .getShell w).2
  | dead {w} (h : ∃ e ∈ w.sent, e.1 = .getShell) : Step C w { w with pool := { w.pool with state := PoolState.closed } }
  | setMin {w} (v : Int) (h : w.pool.state ≠ PoolState.opened) : Step C w { w with pool := { w.pool with min := v } }
  | askMin {w} (v : Int) (h : w.pool.state = PoolState.opened) : Step C w (ask .setMin (.setMin v) w).2
  | gotMin {w} (v : Int) (ci : Nat) (h : gotBool ci w = true) :
    Step C w { w with pool := { w.pool.setCi ci none with min := v } }
  | setMax {w} (v : Int) (h : w.pool.state ≠ PoolState.opened) : Step C w { w with pool := { w.pool with max := v } }
  | askMax {w} (v : Int) (h : w.pool.state = PoolState.opened) : Step C w (ask .setMax (.setMax v) w).2
  | gotMax {w} (v : Int) (ci : Nat) (h : gotBool ci w = true) :
    Step C w { w with pool := { w.pool.setCi ci none with max := v } }
  | askAvail {w} : Step C w (ask .avail OutMsg.getAvailable w).2
  | askReset {w} (h : w.pool.state = PoolState.opened) : Step C w (ask .reset OutMsg.reset w).2
  | forget {w} (ci : Nat) : Step C w { w with pool := w.pool.setCi ci none }
  | shellClose {w} (h : w.pool.state ≠ PoolState.closed ∧ w.pool.state ≠ PoolState.closing ∧ w.pool.state ≠ PoolState.broken) :
    Step C w (shellClose w).2
  | closed {w} (h : w.pool.shellOpened = false) : Step C w { w with pool := { w.pool with state := PoolState.closed } }
  | startOpening {w} (msgs : List OutMsg) (h : w.pool.state = PoolState.beforeOpen) (hm : msgs.all (fun m => m.isFirst)) :
    Step C w (startOpening msgs w).2
  | connectShell {w} (h : w.pool.state = PoolState.disconnected) :
    Step C w (request (.connectShell [.sessionCapability, .connectPool]) w).2
  | oldClient {w} : Step C w { w with pool := { w.pool with newClient := false } }
  | reconnect {w} (h : w.pool.state = PoolState.disconnected) : Step C w (request .reconnect w).2
  | reconnected {w} (h : w.pool.state = PoolState.disconnected) :
    Step C w { w with pool := { w.pool with state := PoolState.opened } }
  | disconnect {w} (h : w.pool.state = PoolState.opened) : Step C w (request .disconnect w).2
  | disconnected {w} (h : w.pool.state = PoolState.opened) :
    Step C w { w with pool := { w.pool with state := PoolState.disconnected } }
  | pipesDisconnected {w} : Step C w { w with pipes := fun j =>
      (if w.pool.registry.contains j then { w.pipes j with state := PipeState.disconnected } else w.pipes j) }
  | tick {w} : Step C w { w with clock := w.clock.tail }
  | sendKey {w} (h : ¬ (w.pool.keyExchanged = true ∨ w.pool.exchangeKey.isSome = true)) : Step C w (sendKey w).2
  | create {w} (nested : Bool) : Step C w (newPipe nested w).2
  | setCommands {w} (i n : Nat) : Step C w (w.setPipe i { w.pipes i with commands := n })
  | clearStreams {w} (i : Nat) (h : C i) : Step C w (w.setPipe i { w.pipes i with streams := {}, output := [] })
  | startCommand {w} (i : Nat) (msg : OutMsg) (h : msg = .getMetadata ∨ ∃ b, msg = .createPipeline b) :
    Step C w (startCommand i msg w).2
  | setCommandId {w} (i c : Nat) : Step C w (w.setPipe i { w.pipes i with commandId := some (.server c) })
  | running {w} (i : Nat) : Step C w (w.setPipe i { w.pipes i with state := PipeState.running })
  | sendBatch {w} (i : Nat) (msgs : List OutMsg) (h : ∀ m ∈ msgs, m = .endOfInput ∨ ∃ o, m = .input o) :
    Step C w (sendBatch i msgs w).2
  | setOutput {w} (i : Nat) (os : List Obj) : Step C w (w.setPipe i { w.pipes i with output := os })
  | stopping {w} (i : Nat) (h : (w.pipes i).state = PipeState.running) :
    Step C w (w.setPipe i { w.pipes i with state := PipeState.stopping })
  | signalAndDrop {w} (code : SignalCode) (i : Nat) (cmd : CmdId) : Step C w (signalAndDrop code i cmd w).2
  | stopped {w} (i : Nat) : Step C w (w.setPipe i { w.pipes i with state := PipeState.stopped })
  | connectCommand {w} (i : Nat) (h : (w.pipes i).state = PipeState.disconnected) : Step C w (request (.connectCommand i) w).2
  | connected {w} (i : Nat) : Step C w (w.setPipe i { w.pipes i with state := PipeState.running, fromDisconnect := true })

/-- Any number of steps. -/
inductive Steps (C : Nat → Prop) : World → World → Prop
  | refl (w) : Steps C w w
  | tail {a b c} (h : Steps C a b) (s : Step C b c) : Steps C a c

theorem Steps.trans {a b c : World} (h : Steps C a b) (h' : Steps C b c) : Steps C a c := by
  induction h' with
  | refl => exact h
  | tail _ s ih => exact .tail ih s

theorem Step.steps {a b : World} (s : Step C a b) : Steps C a b := .tail (.refl a) s

/-- A program takes steps from a world. -/
def Runs (C : Nat → Prop) (m : PoolM α) (w : World) : Prop := Steps C w (m w).2

theorem bind_run (m : PoolM α) (f : α → PoolM β) (w : World) : (m >>= f) w =
    match m w with
    | (.ok a, w') => f a w'
    | (.raised e, w') => (.raised e, w')
    | (.waiting, w') => (.waiting, w') := rfl

theorem pure_run (a : α) (w : World) : (pure a : PoolM α) w = (.ok a, w) := rfl

theorem runs_bind {m : PoolM α} {f : α → PoolM β} {w : World} (hm : Runs C m w)
    (hf : ∀ a w', m w = (.ok a, w') → Runs C (f a) w') : Runs C (m >>= f) w := by
  unfold Runs at *
  rw [bind_run]
  split
  · rename_i a w' h
    rw [h] at hm
    exact hm.trans (hf a w' h)
  · rename_i e w' h
    rw [h] at hm; exact hm
  · rename_i w' h
    rw [h] at hm; exact hm

theorem runs_pure (a : α) (w : World) : Runs C (pure a : PoolM α) w := .refl w
theorem runs_raise (e : PyErr) (w : World) : Runs C (raise e : PoolM α) w := .refl w
theorem runs_wait (w : World) : Runs C (wait : PoolM α) w := .refl w

theorem runs_get {f : World → PoolM β} {w : World} (h : Runs C (f w) w) : Runs C (getW >>= f) w := h

/-- A change followed by more. -/
theorem runs_modify {g : World → World} {f : Unit → PoolM β} {w : World} (s : Step C w (g w)) (h : Runs C (f ()) (g w)) :
    Runs C (modifyW g >>= f) w := Steps.trans s.steps h

theorem runs_modify_last {g : World → World} {w : World} (s : Step C w (g w)) : Runs C (modifyW g) w := s.steps

theorem request_pool (r : Request) (w : World) : (request r w).2.pool = w.pool := by
  unfold request
  split
  · rfl
  · split <;> rfl

theorem request_pipes (r : Request) (w : World) : (request r w).2.pipes = w.pipes := by
  unfold request
  split
  · rfl
  · split <;> rfl

theorem snd_bind_pure (m : PoolM α) (b : β) (w : World) : ((m >>= fun _ => (pure b : PoolM β)) w).2 = (m w).2 := by
  rw [bind_run]
  split <;> rename_i h <;> rw [h]
  rfl

def World.withPool (w : World) (p : Pool) : World := { w with pool := p }

/-- The world after a host call. -/
def hostEffect (pipe : Option Nat) (c : HostCall) (w : World) : World :=
  match w.host with
  | none => w
  | some host =>
    match host w.hostCalls c with
    | .nothing | .raises _ => w.countHostCall
    | .value o => (request (.send .pr none pipe [match pipe with
        | none => OutMsg.poolHostResponse c.ci c.mi o
        | some _ => .pipelineHostResponse c.ci c.mi o]) w.countHostCall).2

/-- The world after a handler. -/
def handleEffect (pipe : Option Nat) (m : SrvMsg) (w : World) : World :=
  match m with
  | .sessionCapability v => w.withPool { w.pool with protocol := v }
  | .encryptedSessionKey k =>
    match w.pool.exchangeKey, k with
    | some _, some k => w.withPool { w.pool with cipher := some k, keyExchanged := true, exchangeKey := none }
    | _, _ => w
  | .publicKeyRequest => w
  | .initData min max => w.withPool { w.pool with min, max }
  | .availability ci r =>
    match w.pool.ciTable ci with
    | some (.handler .avail) =>
      match r with
      | .int n => w.withPool ({ w.pool with max := n }.setCi ci (some (.value r)))
      | .bool b => w.withPool ({ w.pool with max := if b then 1 else 0 }.setCi ci (some (.value r)))
      | .none => w
    | some (.handler _) => if r.truthy then w.withPool (w.pool.setCi ci (some (.value r))) else w
    | _ => w
  | .poolState s => w.withPool { w.pool with state := s }
  | .userEvent o => w.withPool { w.pool with userEvents := w.pool.userEvents ++ [o] }
  | .privateData o => w.withPool { w.pool with privateData := some o }
  | .poolHostCall c => hostEffect none c w
  | .output _ => w
  | .other _ => w
  | .pipelineHostCall c =>
    match pipe with
    | none => w
    | some i => hostEffect (some i) c w
  | .pipelineState s e =>
    match pipe with
    | none => w
    | some i => w.setPipe i { w.pipes i with
        state := s
        streams := { (w.pipes i).streams with error := (w.pipes i).streams.error ++ e.toList }
        hadErrors := (w.pipes i).hadErrors || (s == PipeState.failed) }
  | .errorRecord o =>
    match pipe with
    | none => w
    | some i => w.setPipe i { w.pipes i with streams := { (w.pipes i).streams with error := (w.pipes i).streams.error ++ [o] } }
  | .debugRecord o =>
    match pipe with
    | none => w
    | some i => w.setPipe i { w.pipes i with streams := { (w.pipes i).streams with debug := (w.pipes i).streams.debug ++ [o] } }
  | .verboseRecord o =>
    match pipe with
    | none => w
    | some i => w.setPipe i { w.pipes i with streams := { (w.pipes i).streams with verbose := (w.pipes i).streams.verbose ++ [o] } }
  | .warningRecord o =>
    match pipe with
    | none => w
    | some i => w.setPipe i { w.pipes i with streams := { (w.pipes i).streams with warning := (w.pipes i).streams.warning ++ [o] } }
  | .progressRecord o =>
    match pipe with
    | none => w
    | some i =>
      w.setPipe i { w.pipes i with streams := { (w.pipes i).streams with progress := (w.pipes i).streams.progress ++ [o] } }
  | .informationRecord o =>
    match pipe with
    | none => w
    | some i =>
      w.setPipe i { w.pipes i with streams := { (w.pipes i).streams with information := (w.pipes i).streams.information ++ [o] } }

theorem hostEffect_eq (pipe : Option Nat) (c : HostCall) (w : World) : (processHostCall pipe c w).2 = hostEffect pipe c w := by
  unfold processHostCall hostEffect
  simp only [bind_run, getW]
  cases w.host with
  | none => dsimp only; cases methodName (some c.mi) <;> rfl
  | some host =>
    simp only [bind_run, modifyW]
    cases host w.hostCalls c with
    | nothing => rfl
    | raises e => rfl
    | value o =>
      dsimp only
      rw [snd_bind_pure]
      cases pipe <;> rfl

theorem setPipe_setPipe (w : World) (i : Nat) (p q : PShell) : (w.setPipe i p).setPipe i q = w.setPipe i q := by
  unfold World.setPipe
  congr 1
  funext j
  by_cases h : j = i <;> simp [h]

theorem setPipe_self (w : World) (i : Nat) (p : PShell) : (w.setPipe i p).pipes i = p := by simp [World.setPipe]

theorem handle_world (pipe : Option Nat) (m : SrvMsg) (w : World) : (handle pipe m w).2 = handleEffect pipe m w := by
  cases m with
  | sessionCapability v =>
    simp only [handle, processCapability, bind_run, modifyPool, modifyW]
    cases versionEqualOrNewer (v.getD []) "2.2".toList <;> rfl
  | encryptedSessionKey k =>
    simp only [handle, processSessionKey, bind_run, getW, handleEffect]
    cases w.pool.exchangeKey with
    | none => rfl
    | some x => cases k <;> rfl
  | availability ci r =>
    simp only [handle, processAvailability, bind_run, getW, handleEffect]
    cases w.pool.ciTable ci with
    | none => rfl
    | some e =>
      cases e with
      | value v => rfl
      | handler k =>
        cases k with
        | avail => cases r <;> rfl
        | _ => simp only [ciHandler, bind_run]; cases r.truthy <;> rfl
  | poolState s =>
    simp only [handle, snd_bind_pure]
    simp only [processPoolState, bind_run, modifyPool, modifyW]
    by_cases h : s = PoolState.broken
    · rw [if_pos h]; rfl
    · rw [if_neg h]; rfl
  | poolHostCall c => simp only [handle, snd_bind_pure, hostEffect_eq, handleEffect]
  | pipelineHostCall c =>
    cases pipe with
    | none => rfl
    | some i => simp only [handle, snd_bind_pure, hostEffect_eq, handleEffect]
  | pipelineState s e =>
    cases pipe with
    | none => rfl
    | some i =>
      simp only [handle, processPipelineState, bind_run, modifyPipe, modifyW]
      have hb : s ≠ PipeState.failed → (s == PipeState.failed) = false := fun h => by simpa using h
      cases e <;> by_cases h : s = PipeState.failed <;>
        simp [h, hb, pure_run, handleEffect, setPipe_setPipe, setPipe_self, modifyW, bind_run]
  | errorRecord o => cases pipe <;> rfl
  | debugRecord o => cases pipe <;> rfl
  | verboseRecord o => cases pipe <;> rfl
  | warningRecord o => cases pipe <;> rfl
  | progressRecord o => cases pipe <;> rfl
  | informationRecord o => cases pipe <;> rfl
  | _ => rfl

/-- The log entry of a handled message. -/
def World.note (w : World) (asked pipe : Option Nat) (m : SrvMsg) : World :=
  { w with handled := w.handled ++ [⟨asked, pipe.isSome, m⟩] }

theorem handleLogged_world (asked pipe : Option Nat) (m : SrvMsg) (w : World) :
    (handleLogged asked pipe m w).2 = handleEffect pipe m (w.note asked pipe m) := by
  rw [← handle_world]
  rfl

theorem hostEffect_pool (pipe : Option Nat) (c : HostCall) (w : World) : (hostEffect pipe c w).pool = w.pool := by
  unfold hostEffect
  split
  · rfl
  · split <;> first | rfl | simp only [request_pool, World.countHostCall]

/-- A handler does not change the registry. -/
theorem handleEffect_registry (pipe : Option Nat) (m : SrvMsg) (w : World) :
    (handleEffect pipe m w).pool.registry = w.pool.registry := by
  unfold handleEffect
  repeat' split
  all_goals first | rfl | simp only [hostEffect_pool]

theorem handle_registry (pipe : Option Nat) (m : SrvMsg) (w : World) :
    (handle pipe m w).2.pool.registry = w.pool.registry := by
  rw [handle_world, handleEffect_registry]

theorem runs_parse (asked : Option Nat) (ms : List SrvMsg) : ∀ (w : World) (pipe : Option Nat),
    pipe = asked.filter (fun i => w.pool.registry.contains i) → Runs C (parseResponses asked pipe ms) w := by
  induction ms with
  | nil => intro w pipe _; exact .refl w
  | cons m ms ih =>
    intro w pipe hp
    refine runs_bind (Step.message asked pipe m hp).steps fun o w' hw => ?_
    refine runs_bind (ih w' pipe ?_) fun os w'' _ => runs_pure _ _
    have : w'.pool.registry = w.pool.registry := by
      have h := handle_registry pipe m { w with handled := w.handled ++ [⟨asked, pipe.isSome, m⟩] }
      have h2 := congrArg Prod.snd hw
      simp only [handleLogged, bind_run, modifyW] at h2
      rw [h2] at h
      exact h
    rw [this]; exact hp

theorem runs_receive (id : Option Nat) (w : World) : Runs C (receive id) w := by
  unfold receive
  refine runs_get (runs_bind (Step.receive _).steps fun reply w' hw => runs_parse id _ w' _ ?_)
  have h := request_pool (.receive ((id.filter (fun i => w.pool.registry.contains i)).bind fun i => (w.pipes i).commandId)) w
  rw [hw] at h
  rw [h]

theorem runs_receiveUntil (done : World → Bool) (n : Nat) : ∀ w, Runs C (receiveUntil done n) w := by
  induction n with
  | zero => intro w; exact runs_wait w
  | succ n ih =>
    intro w
    unfold receiveUntil
    refine runs_get ?_
    split
    · exact runs_pure _ _
    · exact runs_bind (runs_receive none w) fun _ w' _ => ih w'

theorem receiveUntil_done (done : World → Bool) (n : Nat) : ∀ w w', receiveUntil done n w = (.ok (), w') → done w' = true := by
  induction n with
  | zero => intro w w' h; simp [receiveUntil, wait] at h
  | succ n ih =>
    intro w w' h
    simp only [receiveUntil, bind_run, getW] at h
    by_cases hd : done w = true
    · rw [if_pos hd, pure_run] at h
      simp only [Prod.mk.injEq, true_and] at h
      rw [← h]; exact hd
    · rw [if_neg hd] at h
      simp only [bind_run] at h
      split at h
      · exact ih _ _ h
      · simp at h
      · simp at h

theorem loopUntil_done {done : World → Bool} {w w' : World} (h : loopUntil done w = (.ok (), w')) : done w' = true :=
  receiveUntil_done done _ w w' h

theorem runs_loopUntil (done : World → Bool) (w : World) : Runs C (loopUntil done) w :=
  runs_get (runs_receiveUntil done _ w)

theorem runs_setMin (v : Int) (w : World) : Runs C (setMin v) w := by
  unfold setMin
  refine runs_get ?_
  split
  · rename_i h
    exact (Step.setMin v h).steps
  · rename_i h
    split
    · exact runs_pure _ _
    · refine runs_bind (Step.askMin v (Classical.not_not.mp h)).steps fun ci w1 _ => ?_
      refine runs_bind (runs_loopUntil _ w1) fun _ w2 h2 => ?_
      exact (Step.gotMin v ci (loopUntil_done h2)).steps

theorem runs_setMax (v : Int) (w : World) : Runs C (setMax v) w := by
  unfold setMax
  refine runs_get ?_
  split
  · rename_i h
    exact (Step.setMax v h).steps
  · rename_i h
    split
    · exact runs_pure _ _
    · refine runs_bind (Step.askMax v (Classical.not_not.mp h)).steps fun ci w1 _ => ?_
      refine runs_bind (runs_loopUntil _ w1) fun _ w2 h2 => ?_
      exact (Step.gotMax v ci (loopUntil_done h2)).steps

theorem runs_getAvailable (w : World) : Runs C getAvailable w := by
  unfold getAvailable
  refine runs_bind Step.askAvail.steps fun ci w1 _ => ?_
  refine runs_bind (runs_loopUntil _ w1) fun _ w2 _ => ?_
  exact runs_get (runs_modify (Step.forget ci) (runs_pure _ _))

theorem runs_resetState (w : World) : Runs C resetState w := by
  unfold resetState
  refine runs_get ?_
  split
  · exact runs_pure _ _
  · split
    · exact runs_raise _ _
    · rename_i h
      split
      · exact runs_raise _ _
      · exact runs_raise _ _
      · refine runs_bind (Step.askReset (Classical.not_not.mp h)).steps fun ci w1 _ => ?_
        refine runs_bind (runs_loopUntil _ w1) fun _ w2 _ => (Step.forget ci).steps

theorem shellClose_closed {w w' : World} (h : shellClose w = (.ok (), w')) : w'.pool.shellOpened = false := by
  simp only [shellClose, bind_run, getW] at h
  by_cases hs : w.pool.shellOpened = true
  · rw [if_pos hs] at h
    simp only [bind_run] at h
    split at h
    · simp only [modifyPool, modifyW, Prod.mk.injEq, true_and] at h
      rw [← h]
    · simp at h
    · simp at h
  · rw [if_neg hs, pure_run] at h
    simp only [Prod.mk.injEq, true_and] at h
    rw [← h]; simpa using hs

theorem runs_closePool (w : World) : Runs C closePool w := by
  unfold closePool
  refine runs_get ?_
  split
  · exact runs_pure _ _
  · rename_i h
    refine runs_bind (Step.shellClose ⟨fun h1 => h (.inl h1), fun h1 => h (.inr (.inl h1)), fun h1 => h (.inr (.inr h1))⟩).steps
      fun _ w1 h1 => ?_
    exact (Step.closed (shellClose_closed h1)).steps

theorem shellOpen_state {msgs : List OutMsg} {w w' : World} (h : shellOpen msgs w = (.ok (), w')) :
    w'.pool.state = w.pool.state := by
  simp only [shellOpen, bind_run, getW] at h
  by_cases hs : w.pool.shellOpened = true
  · rw [if_pos hs, pure_run] at h
    simp only [Prod.mk.injEq, true_and] at h
    rw [← h]
  · rw [if_neg hs] at h
    simp only [bind_run] at h
    split at h
    · rename_i a w2 hw
      have := congrArg (fun x => x.2.pool.state) hw
      simp only [request_pool] at this
      simp only [modifyPool, modifyW, Prod.mk.injEq, true_and] at h
      rw [← h]; exact this.symm
    · simp at h
    · simp at h

theorem runs_openPool (w : World) : Runs C openPool w := by
  unfold openPool
  refine runs_get ?_
  split
  · exact runs_pure _ _
  · split
    · exact runs_raise _ _
    · rename_i h
      have h := Classical.not_not.mp h
      exact runs_bind (Step.startOpening _ h (by rfl)).steps fun _ w1 h1 => runs_loopUntil _ _

theorem request_ok_pool {r : Request} {w w' : World} {reply : Reply} (h : request r w = (.ok reply, w')) : w'.pool = w.pool := by
  have := request_pool r w
  rw [h] at this; exact this

theorem runs_connectPool (w : World) : Runs C connectPool w := by
  unfold connectPool
  refine runs_get ?_
  split
  · exact runs_pure _ _
  · split
    · exact runs_raise _ _
    · rename_i h
      have h := Classical.not_not.mp h
      split
      · refine runs_bind (Step.connectShell h).steps fun reply w1 h1 => ?_
        refine runs_bind (runs_parse none _ w1 none rfl) fun _ w2 _ => ?_
        refine runs_bind (runs_receive none w2) fun _ w3 _ => Step.oldClient.steps
      · refine runs_bind (Step.reconnect h).steps fun reply w1 h1 => ?_
        exact (Step.reconnected (by rw [request_ok_pool h1, h])).steps

theorem runs_disconnectPool (w : World) : Runs C disconnectPool w := by
  unfold disconnectPool
  refine runs_get ?_
  split
  · exact runs_pure _ _
  · split
    · exact runs_raise _ _
    · rename_i h
      have h := Classical.not_not.mp h
      refine runs_bind (Step.disconnect h).steps fun reply w1 h1 => ?_
      exact runs_modify (Step.disconnected (by rw [request_ok_pool h1, h])) Step.pipesDisconnected.steps

theorem runs_awaitKey (n : Nat) : ∀ w, Runs C (awaitKey n) w := by
  induction n with
  | zero => intro w; exact runs_wait w
  | succ n ih =>
    intro w
    unfold awaitKey
    refine runs_get ?_
    split
    · exact runs_pure _ _
    · refine runs_bind (runs_get (runs_modify Step.tick (runs_pure _ _))) fun over w1 _ => ?_
      split
      · exact runs_raise _ _
      · exact runs_bind (runs_receive none w1) fun _ w2 _ => ih w2

theorem runs_exchangeKeys (w : World) : Runs C exchangeKeys w := by
  unfold exchangeKeys
  refine runs_get ?_
  split
  · exact runs_pure _ _
  · rename_i h
    exact runs_bind (Step.sendKey h).steps fun _ w1 _ => runs_get (runs_awaitKey _ _)

theorem runs_isAlive (w : World) : Runs C isAlive w := by
  have hs : Steps C w (request .getShell w).2 := Step.getShell.steps
  have hg : ∃ e ∈ (request .getShell w).2.sent, e.1 = .getShell := by
    unfold request
    split
    · exact ⟨(.getShell, .waiting), by simp, rfl⟩
    · split
      · exact ⟨(.getShell, .raised _), List.mem_append_right _ (List.mem_singleton.mpr rfl), rfl⟩
      · exact ⟨(.getShell, .ok ()), by simp, rfl⟩
  unfold Runs isAlive
  split <;> rename_i h <;> rw [h] at hs hg
  · exact hs
  · split
    · exact .tail hs (.dead hg)
    · exact hs
  · split
    · exact .tail hs (.dead hg)
    · exact hs
  · split
    · exact .tail hs (.dead hg)
    · exact hs

theorem runs_newPipe (nested : Bool) (w : World) : Runs C (newPipe nested) w :=
  (Step.create nested).steps

theorem runs_invokeMsg (i : Nat) (msg : OutMsg) (h : msg = .getMetadata ∨ ∃ b, msg = .createPipeline b) (w : World) : Runs C (invokeMsg i msg) w := by
  unfold invokeMsg
  refine runs_bind (Step.startCommand i msg h).steps fun reply w1 _ => ?_
  split
  · exact runs_modify (Step.setCommandId i _) (Step.running i).steps
  · exact Step.steps (Step.running i)

theorem runs_sendInput (i : Nat) (rest : List GenItem) : ∀ item w, Runs C (sendInput i item rest) w := by
  induction rest with
  | nil =>
    intro item w
    cases item with
    | none => exact runs_pure _ _
    | one o => exact Step.steps (Step.sendBatch i _ (by simp))
    | many l => exact Step.steps (Step.sendBatch i _ (by simp; intro m; rintro (⟨o, -, rfl⟩ | rfl) <;> simp))
  | cons next rest ih =>
    intro item w
    cases item with
    | none => exact runs_pure _ _
    | one o => exact runs_bind (Step.sendBatch i _ (by simp)).steps fun _ w1 _ => ih next w1
    | many l => exact runs_bind (Step.sendBatch i _ (by simp)).steps fun _ w1 _ => ih next w1

theorem runs_beginInvoke (i : Nat) (input : InputArg) (w : World) : Runs C (beginInvoke i input) w := by
  unfold beginInvoke
  refine runs_get ?_
  dsimp only
  split
  · exact runs_raise _ _
  · split
    · exact runs_raise _ _
    · refine runs_bind (runs_invokeMsg i _ (.inr ⟨_, rfl⟩) w) fun _ w1 _ => ?_
      split
      · exact runs_pure _ _
      · split
        · exact runs_raise _ _
        · exact runs_sendInput i _ _ w1

theorem runs_pollInvoke (i : Nat) (w : World) : Runs C (pollInvoke i) w := by
  have hs : Runs C _ _ := runs_receive (some i) w
  unfold Runs pollInvoke at *
  split <;> rename_i h <;> rw [h] at hs
  · exact .tail hs (.setOutput i _)
  · split <;> exact hs
  · exact hs

theorem runs_pollWhile (i n : Nat) : ∀ w, Runs C (pollWhile i n) w := by
  induction n with
  | zero => intro w; exact runs_wait w
  | succ n ih =>
    intro w
    unfold pollWhile
    refine runs_get ?_
    split
    · exact runs_pure _ _
    · exact runs_bind (runs_pollInvoke i w) fun _ w1 _ => ih w1

theorem runs_endInvoke (i : Nat) (w : World) : Runs C (endInvoke i) w :=
  runs_get (runs_bind (runs_pollWhile i _ w) fun _ w1 _ => runs_get (runs_pure _ _))

theorem runs_invoke (i : Nat) (input : InputArg) (w : World) : Runs C (invoke i input) w :=
  runs_bind (runs_beginInvoke i input w) fun _ w1 _ => runs_endInvoke i w1

theorem runs_stopPipe (i : Nat) (w : World) : Runs C (stopPipe i) w := by
  unfold stopPipe
  refine runs_get ?_
  dsimp only
  split
  · exact runs_pure _ _
  · split
    · exact runs_raise _ _
    · rename_i h
      refine runs_modify (Step.stopping i (Classical.not_not.mp h)) ?_
      exact runs_bind (Step.signalAndDrop _ i _).steps fun _ w1 _ => (Step.stopped i).steps

theorem runs_closePipe (i : Nat) (w : World) : Runs C (closePipe i) w := by
  unfold closePipe
  refine runs_get ?_
  dsimp only
  split
  · exact runs_pure _ _
  · split
    · exact runs_raise _ _
    · exact (Step.signalAndDrop _ i _).steps

theorem runs_connectPipe (i : Nat) (w : World) : Runs C (connectPipe i) w := by
  unfold connectPipe
  refine runs_get ?_
  split
  · exact runs_raise _ _
  · rename_i h
    exact runs_bind (Step.connectCommand i (Classical.not_not.mp h)).steps fun _ w1 _ => (Step.connected i).steps

theorem runs_createNested (i : Nat) (w : World) : Runs C (createNested i) w := by
  unfold createNested
  refine runs_get ?_
  split
  · exact runs_raise _ _
  · split
    · exact runs_raise _ _
    · exact runs_newPipe true w

theorem runs_getMetadata (w : World) : Runs C getMetadata w := by
  unfold getMetadata
  refine runs_get ?_
  split
  · exact runs_raise _ _
  · refine runs_bind (runs_newPipe false w) fun i w1 _ => ?_
    refine runs_bind (runs_invokeMsg i _ (.inl rfl) w1) fun _ w2 _ => ?_
    refine runs_bind (runs_endInvoke i w2) fun out w3 _ => ?_
    split
    · exact runs_raise _ _
    · exact runs_modify (Step.setOutput i _) (runs_pure _ _)

theorem runs_discard {m : PoolM α} {w : World} (h : Runs C m w) : Runs C (discard' m) w :=
  runs_bind h fun _ _ _ => runs_pure _ _

/-- The pipelines whose streams a call clears. -/
def Op.clears (op : Op) (i : Nat) : Prop := op = .clearStreams i

/-- Every call takes small steps. -/
theorem runOp_steps (op : Op) (hC : ∀ i, op.clears i → C i) (w : World) : Steps C w (runOp op w).2 := by
  show Runs C (runOp op) w
  cases op with
  | openPool => exact runs_openPool w
  | closePool => exact runs_closePool w
  | connectPool => exact runs_connectPool w
  | disconnectPool => exact runs_disconnectPool w
  | resetState => exact runs_resetState w
  | getMetadata => exact runs_discard (runs_getMetadata w)
  | setMin v => exact runs_setMin v w
  | setMax v => exact runs_setMax v w
  | getAvailable => exact runs_discard (runs_getAvailable w)
  | exchangeKeys => exact runs_exchangeKeys w
  | isAlive => exact runs_discard (runs_isAlive w)
  | newPipe => exact runs_discard (runs_newPipe false w)
  | addCommand i => exact (Step.setCommands i _).steps
  | clearCommands i => exact (Step.setCommands i 0).steps
  | clearStreams i => exact (Step.clearStreams i (hC i rfl)).steps
  | beginInvoke i input => exact runs_beginInvoke i input w
  | pollInvoke i => exact runs_pollInvoke i w
  | endInvoke i => exact runs_discard (runs_endInvoke i w)
  | invoke i input => exact runs_discard (runs_invoke i input w)
  | stopPipe i => exact runs_stopPipe i w
  | closePipe i => exact runs_closePipe i w
  | connectPipe i => exact runs_connectPipe i w
  | createNested i => exact runs_discard (runs_createNested i w)

/-- Every history takes small steps. -/
theorem runOps_steps (ops : List Op) (hC : ∀ op ∈ ops, ∀ i, op.clears i → C i) : ∀ w, Steps C w (runOps w ops) := by
  induction ops with
  | nil => intro w; exact .refl w
  | cons op ops ih =>
    intro w
    have h := runOp_steps op (hC op (by simp)) w
    have ih := ih fun o ho => hC o (by simp [ho])
    unfold runOps
    split <;> rename_i hx
    · rw [hx] at h; exact h
    · rw [hx] at h; exact h.trans (ih _)

theorem steps_invariant {I : World → Prop} (hstep : ∀ w w', I w → Step C w w' → I w') {w w' : World} (h0 : I w)
    (hs : Steps C w w') : I w' := by
  induction hs with
  | refl => exact h0
  | tail _ s ih => exact hstep _ _ ih s

/-- An invariant of the steps holds in every history. -/
theorem history_invariant {I : World → Prop} (hstep : ∀ w w', I w → Step (fun _ => True) w w' → I w') {w : World} (h0 : I w)
    (ops : List Op) : I (runOps w ops) :=
  steps_invariant hstep h0 (runOps_steps ops (fun _ _ _ _ => trivial) w)

end Verif
