import Verif.Props.PoolStreams
/-
C38: host calls. C39: pipeline input.
-/
namespace Verif

/-- The number of host calls among messages. -/
def hostCallCount (hs : List Handled) : Nat := (hs.filterMap Handled.hostCall).length

theorem hostAnswers_append (host : Nat → HostCall → HostResult) (a b : List Handled) (n : Nat) :
    hostAnswers host n (a ++ b) = hostAnswers host n a ++ hostAnswers host (n + hostCallCount a) b := by
  induction a generalizing n with
  | nil => simp [hostAnswers, hostCallCount]
  | cons h a ih =>
    rw [List.cons_append]
    have hcons : ∀ n l, hostAnswers host n (h :: l) = match h.hostCall with
      | none => hostAnswers host n l
      | some (pid, call) =>
        match host n call with
        | .value o => hostAnswer pid call o :: hostAnswers host (n + 1) l
        | _ => hostAnswers host (n + 1) l := fun _ _ => rfl
    rw [hcons, hcons]
    cases hc : h.hostCall with
    | none =>
      dsimp only
      rw [ih, show hostCallCount (h :: a) = hostCallCount a by simp [hostCallCount, hc]]
    | some pc =>
      obtain ⟨pid, call⟩ := pc
      have hn : n + hostCallCount (h :: a) = n + 1 + hostCallCount a := by simp [hostCallCount, hc]; omega
      rw [hn]
      dsimp only
      split
      · rw [ih]; rfl
      · rw [ih]

theorem hostEffect_hostCalls (pipe : Option Nat) (c : HostCall) (w : World) :
    (hostEffect pipe c w).hostCalls = if w.host.isSome then w.hostCalls + 1 else w.hostCalls := by
  unfold hostEffect
  split <;> rename_i h <;> rw [h]
  · rfl
  · split <;> first | rfl | (rw [request_hostCalls]; rfl)

/-- The host call of a log entry is the one that the handler makes. -/
theorem hostCall_pipe {w : World} (asked pipe : Option Nat) (c : HostCall)
    (hp : pipe = asked.filter (fun i => w.pool.registry.contains i)) :
    Handled.hostCall ⟨asked, pipe.isSome, .pipelineHostCall c⟩ = pipe.map fun i => (some i, c) := by
  unfold Handled.hostCall
  cases asked with
  | none => rw [hp]; rfl
  | some j =>
    by_cases hc : j ∈ w.pool.registry
    · have : pipe = some j := by rw [hp]; simp [Option.filter, hc]
      rw [this]; rfl
    · have : pipe = none := by rw [hp]; simp [Option.filter, hc]
      rw [this]; rfl

/-- What has been answered so far. -/
structure HostOk (host : Option (Nat → HostCall → HostResult)) (w : World) : Prop where
  hostEq : w.host = host
  count : ∀ h, host = some h → w.hostCalls = hostCallCount w.handled
  answers : (requests w.sent).filter Request.isHostAnswer = allAnswers host w.handled

theorem hostOk_sent {host} {w w' : World} {l : List (Request × Res Unit)} (h : HostOk host w) (h1 : w'.host = w.host)
    (h2 : w'.hostCalls = w.hostCalls) (h3 : w'.handled = w.handled) (h4 : w'.sent = w.sent ++ l)
    (h5 : ∀ e ∈ l, e.1.isHostAnswer = false) : HostOk host w' := by
  refine ⟨by rw [h1, h.hostEq], fun x hx => by rw [h2, h3]; exact h.count x hx, ?_⟩
  rw [h3, h4, ← h.answers]
  unfold requests
  rw [List.map_append, List.filter_append, show (l.map (·.1)).filter Request.isHostAnswer = [] from List.filter_eq_nil_iff.mpr ?_, List.append_nil]
  intro r hr
  obtain ⟨e, he, rfl⟩ := List.mem_map.mp hr
  simp [h5 e he]

theorem hostOk_request {host} {w w1 : World} (r : Request) (h : HostOk host w) (h1 : w1.host = w.host)
    (h2 : w1.hostCalls = w.hostCalls) (h3 : w1.handled = w.handled) (h4 : w1.sent = w.sent) (h5 : r.isHostAnswer = false) :
    HostOk host (request r w1).2 :=
  hostOk_sent (l := [(r, w1.outcome)]) h (by rw [request_host, h1]) (by rw [request_hostCalls, h2]) (by rw [request_handled, h3])
    (by rw [request_sent, h4]) (by simpa using h5)

theorem hostOk_same {host} {w w' : World} (h : HostOk host w) (h1 : w'.host = w.host)
    (h2 : w'.hostCalls = w.hostCalls) (h3 : w'.handled = w.handled) (h4 : w'.sent = w.sent) : HostOk host w' :=
  hostOk_sent (l := []) h h1 h2 h3 (by simp [h4]) (by simp)

theorem isHostAnswer_none {msgs : List OutMsg} (h : ∀ m ∈ msgs, (∀ a b o, m ≠ .poolHostResponse a b o) ∧
    ∀ a b o, m ≠ .pipelineHostResponse a b o) (st : StreamName) (cmd : Option CmdId) (pid : Option Nat) :
    (Request.send st cmd pid msgs).isHostAnswer = false := by
  unfold Request.isHostAnswer
  rw [List.any_eq_false]
  intro m hm
  have := h m hm
  cases m <;> simp at * 

theorem handleEffect_hostCalls (pipe : Option Nat) (m : SrvMsg) (w : World) (h : m.isHostCall = false) :
    (handleEffect pipe m w).hostCalls = w.hostCalls := by
  cases m <;> simp only [handleEffect]
  case poolHostCall => simp [SrvMsg.isHostCall] at h
  case pipelineHostCall => simp [SrvMsg.isHostCall] at h
  all_goals (repeat' split) <;> rfl

/-- A host call. -/
theorem hostOk_call {host} {w : World} (h : HostOk host w) (asked pipe : Option Nat) (m : SrvMsg) (c : HostCall)
    (hm : handleEffect pipe m = hostEffect pipe c) (hr : messageRequests pipe m = hostRequests pipe c)
    (hc : Handled.hostCall ⟨asked, pipe.isSome, m⟩ = some (pipe, c)) :
    HostOk host (handleLogged asked pipe m w).2 := by
  refine ⟨?_, fun x hx => ?_, ?_⟩
  · rw [handleLogged_world, hm, hostEffect_host]; exact h.hostEq
  · rw [message_handled, handleLogged_world, hm, hostEffect_hostCalls]
    have : (w.note asked pipe m).host.isSome = true := by show w.host.isSome = true; rw [h.hostEq, hx]; rfl
    rw [if_pos this]
    show w.hostCalls + 1 = _
    rw [h.count x hx]
    simp [hostCallCount, hc]
  · rw [message_handled, message_sent, hr]
    unfold requests
    rw [List.map_append, List.filter_append]
    have ha : (w.sent.map (·.1)).filter Request.isHostAnswer = _ := h.answers
    rw [ha]
    cases hx : host with
    | none =>
      have hh : w.host = none := by rw [h.hostEq, hx]
      simp [allAnswers, hostRequests, hh]
    | some x =>
      have hh : w.host = some x := by rw [h.hostEq, hx]
      dsimp only [allAnswers]
      rw [hostAnswers_append, Nat.zero_add, ← h.count x hx]
      congr 1
      simp only [hostRequests, hh, hostAnswers, hc]
      cases x w.hostCalls c with
      | nothing => rfl
      | raises e => rfl
      | value o =>
        dsimp only [hostAnswer]
        cases pipe <;> rfl

theorem step_host {C : Nat → Prop} {host} {w w' : World} (h : HostOk host w) (s : Step C w w') : HostOk host w' := by
  cases s
  case message asked pipe m hp =>
    have other : m.isHostCall = false → HostOk host (handleLogged asked pipe m w).2 := by
      intro hm
      have hc : Handled.hostCall ⟨asked, pipe.isSome, m⟩ = none := by
        cases m <;> first | rfl | simp [SrvMsg.isHostCall] at hm
      refine ⟨?_, fun x hx => ?_, ?_⟩
      · rw [handleLogged_world, handleEffect_host]; exact h.hostEq
      · rw [message_handled, handleLogged_world, handleEffect_hostCalls _ _ _ hm]
        show w.hostCalls = _
        rw [h.count x hx]
        simp [hostCallCount, hc]
      · rw [message_handled, message_sent]
        have : messageRequests pipe m w = [] := by cases m <;> first | rfl | simp [SrvMsg.isHostCall] at hm
        rw [this, List.append_nil, h.answers]
        cases host with
        | none => rfl
        | some x => dsimp only [allAnswers]; rw [hostAnswers_append]; simp [hostAnswers, hc]
    cases m
    case poolHostCall c =>
      -- the pool's handler is called without the pipeline
      refine ⟨?_, fun x hx => ?_, ?_⟩
      · rw [handleLogged_world, handleEffect_host]; exact h.hostEq
      · rw [message_handled, handleLogged_world]
        simp only [handleEffect, hostEffect_hostCalls]
        have : (w.note asked pipe (.poolHostCall c)).host.isSome = true := by show w.host.isSome = true; rw [h.hostEq, hx]; rfl
        rw [if_pos this]
        show w.hostCalls + 1 = _
        rw [h.count x hx]
        simp [hostCallCount, Handled.hostCall]
      · rw [message_handled, message_sent]
        unfold requests
        rw [List.map_append, List.filter_append]
        have ha : (w.sent.map (·.1)).filter Request.isHostAnswer = _ := h.answers
        rw [ha]
        cases hx : host with
        | none =>
          have hh : w.host = none := by rw [h.hostEq, hx]
          simp [allAnswers, messageRequests, hostRequests, hh]
        | some x =>
          have hh : w.host = some x := by rw [h.hostEq, hx]
          dsimp only [allAnswers]
          rw [hostAnswers_append, Nat.zero_add, ← h.count x hx]
          congr 1
          simp only [messageRequests, hostRequests, hh, hostAnswers, Handled.hostCall]
          cases x w.hostCalls c <;> rfl
    case pipelineHostCall c =>
      cases hpipe : pipe with
      | none =>
        have hc := hostCall_pipe asked pipe c hp
        rw [hpipe] at hc
        simp only [Option.map_none, Option.isSome_none] at hc
        refine ⟨h.hostEq, fun x hx => ?_, ?_⟩
        · rw [message_handled]
          show w.hostCalls = _
          rw [h.count x hx]
          unfold hostCallCount
          rw [List.filterMap_append]
          simp [hc]
        · rw [message_handled, message_sent]
          simp only [messageRequests, List.append_nil]
          rw [h.answers]
          cases host with
          | none => rfl
          | some x => dsimp only [allAnswers]; rw [hostAnswers_append]; simp [hostAnswers, hc]
      | some i =>
        have hc := hostCall_pipe asked pipe c hp
        rw [hpipe] at hc
        exact hostOk_call h asked (some i) _ c rfl rfl hc
    all_goals exact other rfl
  case sendKey hst => rw [sendKey_world]; exact hostOk_request _ h rfl rfl rfl rfl rfl
  case askMin v hst => rw [ask_world]; exact hostOk_request _ h rfl rfl rfl rfl rfl
  case askMax v hst => rw [ask_world]; exact hostOk_request _ h rfl rfl rfl rfl rfl
  case askAvail => rw [ask_world]; exact hostOk_request _ h rfl rfl rfl rfl rfl
  case askReset hst => rw [ask_world]; exact hostOk_request _ h rfl rfl rfl rfl rfl
  case startCommand j msg hm =>
    rw [startCommand_eq]
    refine hostOk_request _ h rfl rfl rfl rfl ?_
    rcases hm with rfl | ⟨b, rfl⟩ <;> rfl
  case sendBatch j msgs hm =>
    rw [sendBatch_world]
    split
    · exact h
    · refine hostOk_request _ h rfl rfl rfl rfl (isHostAnswer_none (fun m hx => ?_) _ _ _)
      rcases hm m hx with rfl | ⟨o, rfl⟩ <;> simp
  case signalAndDrop code j cmd =>
    rw [signalAndDrop_world]
    dsimp only
    have := hostOk_request (w1 := w) (.signal code j cmd) h rfl rfl rfl rfl rfl
    split
    · exact hostOk_same this rfl rfl rfl rfl
    · exact this
  case shellClose hst =>
    rw [shellClose_world]
    dsimp only
    have := hostOk_request (w1 := w) .delete h rfl rfl rfl rfl rfl
    split
    · split
      · exact hostOk_same this rfl rfl rfl rfl
      · exact this
    · exact h
  case startOpening msgs hst hm =>
    rw [startOpening_world]
    dsimp only
    have hq : (Request.create msgs).isHostAnswer = false := by
      unfold Request.isHostAnswer
      rw [List.any_eq_false]
      intro m hx
      have := List.all_eq_true.mp hm m hx
      cases m <;> simp [OutMsg.isFirst] at *
    have := hostOk_request (w1 := w) (.create msgs) h rfl rfl rfl rfl hq
    split
    · exact hostOk_same h rfl rfl rfl rfl
    · split
      · exact hostOk_same this rfl rfl rfl rfl
      · exact this
  all_goals first
    | exact hostOk_same h rfl rfl rfl rfl
    | exact hostOk_request _ h rfl rfl rfl rfl rfl

/-- C38: in every history the host responses sent are exactly the answers to the host calls handled so far, in order: one for each
call for which the host returned a value, on the stream pr, with the ids of that call, for the pipeline or pool it came from. -/
theorem C38_answers (min max : Int) (host : Option (Nat → HostCall → HostResult)) (clock : List Bool) (replies : List Reply)
    (ops : List Op) (w : World) (hw : runOps (.start min max host clock replies) ops = w) :
    (requests w.sent).filter Request.isHostAnswer = allAnswers host w.handled := by
  rw [← hw]
  exact (history_invariant (I := HostOk host) (fun w w' h s => step_host h s) (w := .start min max host clock replies)
    ⟨rfl, fun _ _ => rfl, by cases host <;> rfl⟩ ops).answers

/-- A pool call and two pipeline calls, of which the host answers the first and the last. -/
example : (runOps (.start 1 1 (some fun n _ => if n = 1 then .nothing else .value n) []
      [{}, { msgs := [.poolHostCall ⟨7, 11, []⟩, .poolState 2] }, {}, {},
        { msgs := [.pipelineHostCall ⟨8, 12, []⟩, .pipelineHostCall ⟨9, 13, []⟩, .pipelineState 4 none] }, {}])
    [.openPool, .newPipe, .addCommand 0, .invoke 0 .none]).sent.filterMap (fun e => if e.1.isHostAnswer then some e.1 else none)
    = [.send .pr none none [.poolHostResponse 7 11 0], .send .pr none (some 0) [.pipelineHostResponse 9 13 2]] := by decide +kernel

/-- C62: without a host, a call is only logged, but the log line needs the name: an id that has none fails the receive. -/
theorem C62_no_host (i : Nat) (w : World) (c : HostCall) (rest : List Reply) (hi : i ∈ w.pool.registry) (hh : w.host = none)
    (hw : w.replies = { msgs := [.pipelineHostCall c] } :: rest) (hc : c.mi < 1 ∨ 56 < c.mi) :
    (pollInvoke i w).1 = .raised .keyError := by
  have hf : (some i).filter (fun i => w.pool.registry.contains i) = some i := by simp [Option.filter, hi]
  have hm : methodName (some c.mi) = .error .keyError := by
    unfold methodName
    dsimp only [Option.getD_some]
    split
    · rfl
    · rw [List.getElem?_eq_none (by simp only [methodNames, List.length_cons, List.length_nil]; omega)]
  unfold pollInvoke receive
  rw [bind_run]
  simp only [getW, hf, bind_run, request, hw, parseResponses, handleLogged, modifyW, handle, processHostCall, hh, hm, raise]
  rfl

end Verif
