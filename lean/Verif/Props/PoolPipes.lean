import Verif.Props.PoolStates
/-
C31, C38, C40, C41, C42: pipelines and their pool.
-/
namespace Verif

/-- C31: disconnecting an open pool marks the pool and exactly the registered pipelines disconnected. -/
theorem C31_disconnect {w w' : World} (ho : w.pool.state = 2) (h : disconnectPool w = (.ok (), w')) :
    w'.pool.state = 9 ∧ w'.pool.registry = w.pool.registry ∧
      (∀ i ∈ w.pool.registry, w'.pipes i = { w.pipes i with state := 6 }) ∧
      ∀ i, i ∉ w.pool.registry → w'.pipes i = w.pipes i := by
  unfold disconnectPool at h
  rw [bind_run] at h
  simp only [getW] at h
  rw [if_neg (show ¬ w.pool.state = PoolState.disconnected by rw [ho]; decide),
    if_neg (show ¬ w.pool.state ≠ PoolState.opened by rw [ho]; decide), bind_run] at h
  have hp := request_pool .disconnect w
  have hq := request_pipes .disconnect w
  split at h
  · rename_i a w1 hr
    rw [hr] at hp hq
    dsimp only at hp hq
    simp only [bind_run, modifyPool, modifyW, Prod.mk.injEq, true_and] at h
    rw [← h]
    refine ⟨rfl, by simp only [hp], fun i hi => ?_, fun i hi => ?_⟩
    · simp [hp, hq, hi, PipeState.disconnected]
    · simp [hp, hq, hi]
  · simp at h
  · simp at h

/-- C31: reconnecting a pool changes no pipeline. -/
theorem C31_reconnect {w w' : World} (hs : w.pool.state = 9) (hn : w.pool.newClient = false) (h : connectPool w = (.ok (), w')) :
    w'.pool.state = 2 ∧ w'.pool.registry = w.pool.registry ∧ w'.pipes = w.pipes := by
  unfold connectPool at h
  rw [bind_run] at h
  simp only [getW] at h
  rw [if_neg (show ¬ w.pool.state = PoolState.opened by rw [hs]; decide),
    if_neg (show ¬ w.pool.state ≠ PoolState.disconnected by rw [hs]; decide), if_neg (by simp [hn]), bind_run] at h
  have hp := request_pool .reconnect w
  have hq := request_pipes .reconnect w
  split at h
  · rename_i a w1 hr
    rw [hr] at hp hq
    dsimp only at hp hq
    simp only [modifyPool, modifyW, Prod.mk.injEq, true_and] at h
    rw [← h]
    exact ⟨rfl, by simp only [hp], by simp only [hq]⟩
  · simp at h
  · simp at h

theorem disconnect_newClient {w w' : World} (ho : w.pool.state = 2) (h : disconnectPool w = (.ok (), w')) :
    w'.pool.newClient = w.pool.newClient := by
  unfold disconnectPool at h
  rw [bind_run] at h
  simp only [getW] at h
  rw [if_neg (show ¬ w.pool.state = PoolState.disconnected by rw [ho]; decide),
    if_neg (show ¬ w.pool.state ≠ PoolState.opened by rw [ho]; decide), bind_run] at h
  have hp := request_pool .disconnect w
  split at h
  · rename_i a w1 hr
    rw [hr] at hp
    dsimp only at hp
    simp only [bind_run, modifyPool, modifyW, Prod.mk.injEq, true_and] at h
    rw [← h]
    simp only [hp]
  · simp at h
  · simp at h

/-- C31, partial: after disconnecting and reconnecting, each registered pipeline is offered as disconnected, can be connected, and
then runs; the other pipelines are left alone. Missing: that pipelines that had finished keep their state (`C31_finished_false`). -/
theorem C31_round_partial {w w1 w2 : World} (ho : w.pool.state = 2) (hn : w.pool.newClient = false)
    (hd : disconnectPool w = (.ok (), w1)) (hc : connectPool w1 = (.ok (), w2)) :
    w2.pool.state = 2 ∧ disconnectedPipes w2 = w.pool.registry ∧
      ∀ i ∈ w.pool.registry, Obeys (connectPipe i) w2 (.performed (.connectCommand i)) ∧
        ∀ w3, connectPipe i w2 = (.ok (), w3) → w3.pipes i = { w.pipes i with state := 1, fromDisconnect := true } ∧
          ∀ j, j ≠ i → w3.pipes j = w2.pipes j := by
  obtain ⟨h1, h2, h3, h4⟩ := C31_disconnect ho hd
  obtain ⟨g1, g2, g3⟩ := C31_reconnect h1 (by rw [disconnect_newClient ho hd, hn]) hc
  refine ⟨g1, ?_, fun i hi => ?_⟩
  · unfold disconnectedPipes
    rw [g2, h2, List.filter_eq_self.mpr]
    intro i hi
    rw [g3, h3 i hi]
    rfl
  · have hst : (w2.pipes i).state = 6 := by rw [g3, h3 i hi]
    refine ⟨?_, fun w3 h => ?_⟩
    · have := C35_connect i w2
      unfold connectPipeVerdict at this
      rw [if_pos hst] at this
      exact this
    · unfold connectPipe at h
      rw [bind_run] at h
      simp only [getW] at h
      rw [if_neg (show ¬ (w2.pipes i).state ≠ PipeState.disconnected by rw [hst]; decide), bind_run] at h
      have hq := request_pipes (.connectCommand i) w2
      split at h
      · rename_i a w4 hr
        rw [hr] at hq
        dsimp only at hq
        simp only [modifyPipe, modifyW, Prod.mk.injEq, true_and] at h
        rw [← h]
        refine ⟨?_, fun j hj => ?_⟩
        · rw [setPipe_self, hq, g3, h3 i hi]
          rfl
        · simp [World.setPipe, hj, hq]
      · simp at h
      · simp at h

/-- C31 is false of the code: every registered pipeline, also one that had finished, loses its state. -/
theorem C31_finished_false {w w' : World} (ho : w.pool.state = 2) (h : disconnectPool w = (.ok (), w')) (i : Nat)
    (hi : i ∈ w.pool.registry) (hf : (w.pipes i).state = 4 ∨ (w.pipes i).state = 5) : (w'.pipes i).state ≠ (w.pipes i).state := by
  rw [(C31_disconnect ho h).2.2.1 i hi]
  rcases hf with hf | hf <;> rw [hf] <;> simp

/-- C31: and this happens in a history: the pipeline completed, and after disconnect and reconnect it cannot be closed. -/
theorem C31_history_false : ∃ replies ops, ∃ w, runOps (.start 1 1 none [] replies) ops = w ∧ (w.pipes 0).state = 4 ∧
    0 ∈ w.pool.registry ∧ ((runOps w [.disconnectPool, .connectPool]).pipes 0).state = 6 ∧
    closePipe 0 (runOps w [.disconnectPool, .connectPool]) = (.raised .invalidPipelineState, runOps w [.disconnectPool, .connectPool]) := by
  refine ⟨[{}, { msgs := [.poolState 2] }, {}, { msgs := [.pipelineState 4 none] }, {}, {}],
    [.openPool, .newPipe, .addCommand 0, .invoke 0 .none], _, rfl, ?_, ?_, ?_, rfl⟩ <;> decide +kernel

example : (disconnectPool { pool := { state := 2, registry := [0, 3] }, replies := [{}] }).1 = .ok () := by decide +kernel

theorem registeredBy_append (i : Nat) (l : List (Request × Res Unit)) (e : Request × Res Unit) :
    registeredBy i (l ++ [e]) = match e with
      | (.command j _, _) => if j = i then true else registeredBy i l
      | (.signal _ j _, .ok ()) => if j = i then false else registeredBy i l
      | _ => registeredBy i l := by
  unfold registeredBy
  rw [List.foldl_append]
  rfl

/-- Requests that do not change the registry. -/
def Request.keepsRegistry : Request → Bool
  | .command _ _ => false
  | .signal _ _ _ => false
  | _ => true

theorem registeredBy_keep (i : Nat) (l l' : List (Request × Res Unit)) (h : ∀ e ∈ l', e.1.keepsRegistry = true) :
    registeredBy i (l ++ l') = registeredBy i l := by
  induction l' generalizing l with
  | nil => simp
  | cons e l' ih =>
    rw [show l ++ e :: l' = (l ++ [e]) ++ l' by simp, ih (l ++ [e]) fun e' he => h e' (by simp [he]), registeredBy_append]
    have := h e (by simp)
    obtain ⟨r, o⟩ := e
    cases r <;> first | rfl | simp [Request.keepsRegistry] at this

def RegistryOk (w : World) : Prop := w.pool.registry.Nodup ∧ ∀ i, i ∈ w.pool.registry ↔ registeredBy i w.sent = true

theorem registryOk_keep {w w' : World} {l : List (Request × Res Unit)} (h : RegistryOk w) (hr : w'.pool.registry = w.pool.registry)
    (hs : w'.sent = w.sent ++ l) (hl : ∀ e ∈ l, e.1.keepsRegistry = true) : RegistryOk w' := by
  unfold RegistryOk
  rw [hr, hs]
  refine ⟨h.1, fun i => ?_⟩
  rw [registeredBy_keep i _ _ hl]
  exact h.2 i

theorem registryOk_request {w w1 : World} (r : Request) (h : RegistryOk w) (h1 : w1.sent = w.sent)
    (h2 : w1.pool.registry = w.pool.registry) (hr : r.keepsRegistry = true) : RegistryOk (request r w1).2 := by
  refine registryOk_keep h (l := [(r, w1.outcome)]) (by rw [request_pool, h2]) (by rw [request_sent, h1]) ?_
  simpa using hr

theorem registryOk_same {w w' : World} (h : RegistryOk w) (hr : w'.pool.registry = w.pool.registry) (hs : w'.sent = w.sent) :
    RegistryOk w' :=
  registryOk_keep h (l := []) hr (by simp [hs]) (by simp)

theorem step_registry {C : Nat → Prop} {w w' : World} (h : RegistryOk w) (s : Step C w w') : RegistryOk w' := by
  cases s
  case message asked pipe m hp =>
    refine registryOk_keep h (by rw [message_pool, handleEffect_registry]) (message_sent asked pipe m w) fun e he => ?_
    obtain ⟨p, m', hp, a, b, o, h | h⟩ := messageRequests_send _ _ _ e he <;> rw [hp] <;> rfl
  case sendKey hst => rw [sendKey_world]; exact registryOk_request _ h rfl rfl rfl
  case askMin v hst => rw [ask_world]; exact registryOk_request _ h rfl rfl rfl
  case askMax v hst => rw [ask_world]; exact registryOk_request _ h rfl rfl rfl
  case askAvail => rw [ask_world]; exact registryOk_request _ h rfl rfl rfl
  case askReset hst => rw [ask_world]; exact registryOk_request _ h rfl rfl rfl
  case startCommand i msg hm =>
    rw [startCommand_eq]
    unfold RegistryOk
    rw [request_pool, request_sent]
    simp only [World.registering, World.withPool]
    obtain ⟨hn, hi⟩ := h
    by_cases hc : i ∈ w.pool.registry
    · rw [if_pos (by simpa using hc)]
      refine ⟨hn, fun j => ?_⟩
      rw [registeredBy_append]
      dsimp only
      split
      · rename_i hj; subst hj; simp [hc]
      · exact hi j
    · rw [if_neg (by simpa using hc)]
      refine ⟨List.nodup_append.mpr ⟨hn, by simp, ?_⟩, fun j => ?_⟩
      · intro a ha b hb
        simp only [List.mem_singleton] at hb
        rw [hb]
        intro hab
        exact hc (hab ▸ ha)
      · rw [registeredBy_append]
        dsimp only
        split
        · rename_i hj; subst hj; simp
        · rename_i hj
          simp only [List.mem_append, List.mem_singleton]
          rw [← hi j]
          exact ⟨fun h => h.resolve_right fun h => hj h.symm, .inl⟩
  case sendBatch i msgs hm =>
    rw [sendBatch_world]
    split
    · exact h
    · exact registryOk_request _ h rfl rfl rfl
  case signalAndDrop code i cmd =>
    rw [signalAndDrop_world]
    dsimp only
    obtain ⟨hn, hi⟩ := h
    by_cases ho : w.outcome = .ok ()
    · rw [if_pos ho]
      unfold RegistryOk
      simp only [World.withPool, request_sent, request_pool, ho]
      refine ⟨hn.filter _, fun j => ?_⟩
      rw [registeredBy_append]
      simp only [List.mem_filter, decide_eq_true_eq, hi j]
      split
      · rename_i hj; subst hj; simp
      · rename_i hj
        exact ⟨fun h => h.1, fun h => ⟨h, fun h => hj h.symm⟩⟩
    · rw [if_neg ho]
      unfold RegistryOk
      rw [request_pool, request_sent]
      refine ⟨hn, fun j => ?_⟩
      rw [registeredBy_append]
      cases hw : w.outcome with
      | ok a => exact absurd hw ho
      | raised e => exact hi j
      | waiting => exact hi j
  case shellClose hst =>
    rw [shellClose_world]
    dsimp only
    have := registryOk_request (w1 := w) .delete h rfl rfl rfl
    split
    · split
      · exact registryOk_same this rfl rfl
      · exact this
    · exact h
  case startOpening msgs hst hm =>
    rw [startOpening_world]
    dsimp only
    have := registryOk_request (w1 := w) (.create msgs) h rfl rfl rfl
    split
    · exact registryOk_same h rfl rfl
    · split
      · exact registryOk_same this rfl rfl
      · exact this
  all_goals first
    | exact registryOk_same h rfl rfl
    | exact registryOk_request _ h rfl rfl rfl

/-- C41: in every history, the registry holds, once each, exactly the pipelines of which the last of all command requests and
successful signals was a command. -/
theorem C41_registry (min max : Int) (host) (clock : List Bool) (replies : List Reply) (ops : List Op) (w : World)
    (hw : runOps (.start min max host clock replies) ops = w) :
    w.pool.registry.Nodup ∧ ∀ i, i ∈ w.pool.registry ↔ registeredBy i w.sent = true := by
  rw [← hw]
  exact history_invariant (I := RegistryOk) (fun w w' h s => step_registry h s) (w := .start min max host clock replies)
    ⟨List.nodup_nil, fun i => by simp [World.start, registeredBy]⟩ ops

/-- C41: one invocation: registered when it started, and not any more after a stop or close that returned normally. -/
theorem C41_invoke (i : Nat) (msg : OutMsg) (w : World) : i ∈ (invokeMsg i msg w).2.pool.registry := by
  have h0 : i ∈ (startCommand i msg w).2.pool.registry := by
    rw [startCommand_eq, request_pool]
    simp only [World.registering, World.withPool]
    split
    · rename_i h; simpa using h
    · simp
  unfold invokeMsg
  rw [bind_run]
  split <;> rename_i h <;> rw [h] at h0
  · rename_i reply w1
    cases reply.command <;> exact h0
  · exact h0
  · exact h0

/-- C41: a stop or close that does something and returns normally removes the pipeline and nothing else. -/
theorem C41_dropped (i : Nat) {w w' : World} (h : (stopPipe i w = (.ok (), w') ∧ (w.pipes i).state = 1) ∨
    (closePipe i w = (.ok (), w') ∧ (w.pipes i).state ≠ 0)) (j : Nat) :
    j ∈ w'.pool.registry ↔ j ∈ w.pool.registry ∧ j ≠ i := by
  have key : ∀ code cmd (w1 w2 : World), w1.pool.registry = w.pool.registry → signalAndDrop code i cmd w1 = (.ok (), w2) →
      (j ∈ w2.pool.registry ↔ j ∈ w.pool.registry ∧ j ≠ i) := by
    intro code cmd w1 w2 hw hs
    unfold signalAndDrop at hs
    rw [bind_run] at hs
    have hp := request_pool (.signal code i cmd) w1
    split at hs
    · rename_i a w3 hr
      rw [hr] at hp
      dsimp only at hp
      simp only [modifyPool, modifyW, Prod.mk.injEq, true_and] at hs
      rw [← hs]
      simp [hp, hw]
    · simp at hs
    · simp at hs
  rcases h with ⟨h, hst⟩ | ⟨h, hst⟩
  · unfold stopPipe at h
    rw [bind_run] at h
    simp only [getW] at h
    rw [if_neg (show ¬ ((w.pipes i).state = PipeState.stopping ∨ (w.pipes i).state = PipeState.stopped) by rw [hst]; decide),
      if_neg (show ¬ (w.pipes i).state ≠ PipeState.running by rw [hst]; decide), bind_run] at h
    simp only [modifyPipe, modifyW] at h
    rw [bind_run] at h
    split at h
    · rename_i a w2 hr
      have h2 : w2.pool.registry = w'.pool.registry := congrArg (fun x => x.2.pool.registry) h
      rw [← h2]
      refine key _ _ _ w2 ?_ hr
      rfl
    · simp at h
    · simp at h
  · unfold closePipe at h
    rw [bind_run] at h
    simp only [getW] at h
    rw [if_neg (show ¬ (w.pipes i).state = PipeState.notStarted from hst)] at h
    split at h
    · simp [raise] at h
    · exact key _ _ _ _ rfl h

/-- C41: what is left over: a pipeline whose command request failed stays registered, closing it does nothing. -/
theorem C41_failed_start : ∃ replies ops, ∃ w, runOps (.start 1 1 none [] replies) ops = w ∧ 0 ∈ w.pool.registry ∧
    closePipe 0 w = (.ok (), w) := by
  refine ⟨[{}, { msgs := [.poolState 2] }, { error := some .connectionError }],
    [.openPool, .newPipe, .addCommand 0, .invoke 0 .none], _, rfl, ?_, rfl⟩
  decide +kernel

/-- Two pipelines, one closed. -/
example : (runOps (.start 1 1 none [] [{}, { msgs := [.poolState 2] }, {}, { msgs := [.pipelineState 4 none] }, {}, {}])
    [.openPool, .newPipe, .newPipe, .addCommand 0, .addCommand 1, .invoke 0 .none, .beginInvoke 1 .none, .closePipe 0]).pool.registry
    = [1] := by decide +kernel

/-- C42 is false of the code: after a stop whose signal failed, another stop does nothing, and the pipeline can neither be closed
nor started again. -/
theorem C42_stuck_false (i : Nat) (e : PyErr) (w : World) (rest : List Reply) (hr : (w.pipes i).state = 1)
    (hw : w.replies = { error := some e } :: rest) : ∃ w', stopPipe i w = (.raised e, w') ∧ stopPipe i w' = (.ok (), w') ∧
      closePipe i w' = (.raised .invalidPipelineState, w') ∧
      ∀ input, beginInvoke i input w' = (.raised .invalidPipelineState, w') := by
  have hs : stopPipe i w = (.raised e, { w.setPipe i { w.pipes i with state := PipeState.stopping } with
      replies := rest, sent := w.sent ++ [(.signal .psCtrlC i (.own i), .raised e)] }) := by
    unfold stopPipe
    rw [bind_run]
    simp only [getW]
    rw [if_neg (show ¬ ((w.pipes i).state = PipeState.stopping ∨ (w.pipes i).state = PipeState.stopped) by rw [hr]; decide),
      if_neg (show ¬ (w.pipes i).state ≠ PipeState.running by rw [hr]; decide), bind_run]
    simp only [modifyPipe, modifyW, bind_run, signalAndDrop, request, World.setPipe, hw]
  refine ⟨_, hs, ?_, ?_, fun input => ?_⟩
  · unfold stopPipe
    rw [bind_run]
    simp only [getW]
    rw [if_pos (.inl (by simp [World.setPipe]))]
    rfl
  · unfold closePipe
    rw [bind_run]
    simp only [getW]
    rw [if_neg (by simp [World.setPipe, PipeState.stopping, PipeState.notStarted]),
      if_pos (by simp [World.setPipe, PipeState.stopping, PipeState.completed, PipeState.stopped, PipeState.failed])]
    rfl
  · unfold beginInvoke
    rw [bind_run]
    simp only [getW]
    rw [if_pos (by simp [World.setPipe, PipeState.stopping, PipeState.completed, PipeState.stopped, PipeState.failed,
      PipeState.notStarted])]
    rfl

/-- C42, partial: a failed stop leaves the pipeline registered, and if the server says that it runs, it can be stopped again.
Missing: that it can be stopped without that (`C42_stuck_false`). -/
theorem C42_retry_partial (i : Nat) (e : PyErr) (w : World) (rest : List Reply) (err : Option Obj) (hr : (w.pipes i).state = 1)
    (hi : i ∈ w.pool.registry) (hw : w.replies = { error := some e } :: { msgs := [.pipelineState 1 err] } :: rest) :
    ∃ w' w2, stopPipe i w = (.raised e, w') ∧ i ∈ w'.pool.registry ∧ pollInvoke i w' = (.ok (), w2) ∧
      Obeys (stopPipe i) w2 (.performed (.signal .psCtrlC i (.own i))) := by
  have hs : stopPipe i w = (.raised e, { w.setPipe i { w.pipes i with state := PipeState.stopping } with
      replies := { msgs := [.pipelineState 1 err] } :: rest, sent := w.sent ++ [(.signal .psCtrlC i (.own i), .raised e)] }) := by
    unfold stopPipe
    rw [bind_run]
    simp only [getW]
    rw [if_neg (show ¬ ((w.pipes i).state = PipeState.stopping ∨ (w.pipes i).state = PipeState.stopped) by rw [hr]; decide),
      if_neg (show ¬ (w.pipes i).state ≠ PipeState.running by rw [hr]; decide), bind_run]
    simp only [modifyPipe, modifyW, bind_run, signalAndDrop, request, World.setPipe, hw]
  have hw' : ∀ w' : World, w'.replies = { msgs := [.pipelineState 1 err] } :: rest → i ∈ w'.pool.registry →
      ∃ w2, pollInvoke i w' = (.ok (), w2) ∧ (w2.pipes i).state = 1 := by
    intro w' h1 h2
    refine ⟨(pollInvoke i w').2, ?_, ?_⟩
    · unfold pollInvoke receive
      rw [bind_run]
      simp only [getW, bind_run, request, h1, Option.filter, List.contains_iff_mem, h2, if_true, parseResponses, handleLogged, modifyW,
        handle, processPipelineState, modifyPipe, pure_run]
      cases err <;> rfl
    · unfold pollInvoke receive
      rw [bind_run]
      simp only [getW, bind_run, request, h1, Option.filter, List.contains_iff_mem, h2, if_true, parseResponses, handleLogged, modifyW,
        handle, processPipelineState, modifyPipe, pure_run]
      cases err <;> simp [PipeState.failed, pure_run, World.setPipe, modifyW, bind_run]
  obtain ⟨w2, h2, h3⟩ := hw' _ (by rfl) (show i ∈ ({ w.setPipe i { w.pipes i with state := PipeState.stopping } with
      replies := { msgs := [.pipelineState 1 err] } :: rest, sent := w.sent ++ [(.signal .psCtrlC i (.own i), .raised e)] } : World).pool.registry
      from hi)
  refine ⟨_, w2, hs, hi, h2, ?_⟩
  have := C35_stop i w2
  unfold stopVerdict at this
  rw [if_neg (by rw [h3]; decide), if_pos h3] at this
  exact this

example : (stopPipe 0 ⟨{ registry := [0] }, fun _ => { state := 1 }, 1, 0, none, 0, [],
    [{ error := some .connectionError }, { msgs := [.pipelineState 1 none] }], [], []⟩).1 = .raised .connectionError := by decide +kernel

end Verif
