import Verif.Lemmas.PoolLoops
import Verif.Props.PoolStates
/-
C28, C29, C30: calls with a call id.
-/
namespace Verif

theorem callIds_append (a b : List (Request × Res Unit)) : callIds (a ++ b) = callIds a ++ callIds b := by
  simp [callIds, requests]

theorem callIds_none (l : List (Request × Res Unit)) (h : ∀ e ∈ l, ∀ m ∈ e.1.outMsgs, m.callId = none) : callIds l = [] := by
  induction l with
  | nil => rfl
  | cons e l ih =>
    have h1 : callIds [e] = [] := by
      simp only [callIds, requests, List.map_cons, List.map_nil, List.flatMap_cons, List.flatMap_nil, List.append_nil,
        List.filterMap_eq_nil_iff]
      exact h e (by simp)
    rw [show e :: l = [e] ++ l from rfl, callIds_append, h1, ih fun e' he => h e' (by simp [he])]
    rfl

theorem handleEffect_counter (pipe : Option Nat) (m : SrvMsg) (w : World) :
    (handleEffect pipe m w).pool.ciCounter = w.pool.ciCounter := by
  cases m <;> simp only [handleEffect]
  all_goals (repeat' split) <;> first | rfl | simp only [hostEffect_pool]

/-- The messages that a step sends: a call, or messages without a call id. -/
theorem step_calls {C : Nat → Prop} {w w' : World} (s : Step C w w') :
    (callIds w'.sent = callIds w.sent ++ [w.pool.ciCounter] ∧ w'.pool.ciCounter = w.pool.ciCounter + 1) ∨
    (callIds w'.sent = callIds w.sent ∧ w'.pool.ciCounter = w.pool.ciCounter) := by
  have hreq : ∀ (r : Request) (w1 : World), w1.sent = w.sent → w1.pool.ciCounter = w.pool.ciCounter →
      (∀ m ∈ r.outMsgs, m.callId = none) → callIds (request r w1).2.sent = callIds w.sent ∧
        (request r w1).2.pool.ciCounter = w.pool.ciCounter := by
    intro r w1 h1 h2 h3
    refine ⟨?_, by rw [request_pool, h2]⟩
    rw [request_sent, h1, callIds_append, callIds_none [(r, w1.outcome)] (by simpa using h3), List.append_nil]
  have hask : ∀ (k : CiKind) (msg : Nat → OutMsg) (_ : ∀ n, (msg n).callId = some n),
      callIds (ask k msg w).2.sent = callIds w.sent ++ [w.pool.ciCounter] ∧
        (ask k msg w).2.pool.ciCounter = w.pool.ciCounter + 1 := by
    intro k msg hm
    rw [ask_world]
    refine ⟨?_, by rw [request_pool]; rfl⟩
    rw [request_sent, callIds_append]
    simp [callIds, requests, Request.outMsgs, hm, World.asking, World.withPool]
  cases s
  case message asked pipe m hp =>
    refine .inr ⟨?_, by rw [message_pool, handleEffect_counter]⟩
    rw [message_sent, callIds_append, callIds_none (messageRequests pipe m w), List.append_nil]
    intro e he
    obtain ⟨p, m', hp, a, b, o, h | h⟩ := messageRequests_send _ _ _ e he <;> rw [hp] <;> simp [Request.outMsgs, h, OutMsg.callId]
  case askMin v hst => exact .inl (hask _ _ fun _ => rfl)
  case askMax v hst => exact .inl (hask _ _ fun _ => rfl)
  case askAvail => exact .inl (hask _ _ fun _ => rfl)
  case askReset hst => exact .inl (hask _ _ fun _ => rfl)
  case sendKey hst => rw [sendKey_world]; exact .inr (hreq _ _ rfl rfl (by simp [Request.outMsgs, OutMsg.callId]))
  case startCommand i msg hm =>
    rw [startCommand_eq]
    refine .inr (hreq _ _ rfl rfl ?_)
    simp only [Request.outMsgs, List.mem_singleton, forall_eq]
    rcases hm with rfl | ⟨b, rfl⟩ <;> rfl
  case sendBatch i msgs hm =>
    rw [sendBatch_world]
    split
    · exact .inr ⟨rfl, rfl⟩
    · refine .inr (hreq _ _ rfl rfl fun m hx => ?_)
      rcases hm m hx with rfl | ⟨o, rfl⟩ <;> rfl
  case signalAndDrop code i cmd =>
    rw [signalAndDrop_world]
    dsimp only
    have := hreq (.signal code i cmd) w rfl rfl (by simp [Request.outMsgs])
    split
    · exact .inr this
    · exact .inr this
  case shellClose hst =>
    rw [shellClose_world]
    dsimp only
    have := hreq .delete w rfl rfl (by simp [Request.outMsgs])
    split
    · split
      · exact .inr this
      · exact .inr this
    · exact .inr ⟨rfl, rfl⟩
  case startOpening msgs hst hm =>
    rw [startOpening_world]
    dsimp only
    have := hreq (.create msgs) w rfl rfl fun m hx => by
      have := List.all_eq_true.mp hm m hx
      cases m <;> first | rfl | simp [OutMsg.isFirst] at this
    split
    · exact .inr ⟨rfl, rfl⟩
    · split
      · exact .inr this
      · exact .inr this
  case connectShell hst => exact .inr (hreq _ _ rfl rfl (by simp [Request.outMsgs, OutMsg.callId]))
  all_goals first
    | exact .inr ⟨rfl, rfl⟩
    | exact .inr (hreq _ _ rfl rfl (by simp [Request.outMsgs]))

/-- C28: in every history the call ids of a pool's requests are 0, 1, 2, ...: every request has a new one. -/
theorem C28_fresh (min max : Int) (host) (clock : List Bool) (replies : List Reply) (ops : List Op) :
    (callIds (runOps (.start min max host clock replies) ops).sent).Nodup ∧
    callIds (runOps (.start min max host clock replies) ops).sent =
      List.range (runOps (.start min max host clock replies) ops).pool.ciCounter := by
  have h := history_invariant (I := fun w => callIds w.sent = List.range w.pool.ciCounter) (fun w w' h s => ?_)
    (w := .start min max host clock replies) rfl ops
  · exact ⟨h ▸ List.nodup_range, h⟩
  · rcases step_calls s with ⟨h1, h2⟩ | ⟨h1, h2⟩
    · rw [h1, h2, h, List.range_succ]
    · rw [h1, h2, h]

/-- C28: a response changes no entry but the one with its call id. A response to no known call is an error and changes nothing, and
so is a second response to the same call. -/
theorem C28_response (pipe : Option Nat) (ci : Int) (r : CiVal) (w : World) :
    (∀ c, c ≠ ci → (handle pipe (.availability ci r) w).2.pool.ciTable c = w.pool.ciTable c) ∧
    (w.pool.ciTable ci = none → handle pipe (.availability ci r) w = (.raised .keyError, w)) ∧
    (∀ v, w.pool.ciTable ci = some (.value v) → handle pipe (.availability ci r) w = (.raised .typeError, w)) := by
  refine ⟨fun c hc => ?_, fun h => ?_, fun v h => ?_⟩
  · rw [handle_world, handleEffect_table]
    intro r' h; simp only [SrvMsg.availability.injEq] at h; exact hc h.1.symm
  · simp only [handle, processAvailability, bind_run, getW, h, raise]
  · simp only [handle, processAvailability, bind_run, getW, h, raise]

/-- The answers handled since a world. -/
def Answered (ci : Int) (w0 w : World) : Prop :=
  ∃ hs, w.handled = w0.handled ++ hs ∧ ∀ v, w.pool.ciTable ci = some (.value v) → v ∈ answers ci hs

theorem answered_same {ci : Int} {w0 w w' : World} (h : Answered ci w0 w) (h1 : w'.handled = w.handled)
    (h2 : ∀ v, w'.pool.ciTable ci = some (.value v) → w.pool.ciTable ci = some (.value v)) : Answered ci w0 w' := by
  obtain ⟨hs, hh, hv⟩ := h
  exact ⟨hs, by rw [h1, hh], fun v hx => hv v (h2 v hx)⟩

theorem handleEffect_answer (pipe : Option Nat) (ci : Int) (r v : CiVal) (w : World)
    (h : (handleEffect pipe (.availability ci r) w).pool.ciTable ci = some (.value v)) :
    w.pool.ciTable ci = some (.value v) ∨ v = r := by
  simp only [handleEffect] at h
  (repeat' split at h)
  all_goals first
    | exact .inl h
    | (simp only [World.withPool, Pool.setCi, if_true, Option.some.injEq, CiEntry.value.injEq] at h; exact .inr h.symm)

theorem step_answered {C : Nat → Prop} {ci : Int} {w0 w w' : World} (h : Answered ci w0 w) (s : Step C w w') :
    Answered ci w0 w' := by
  have hreq : ∀ (r : Request) (w1 : World), w1.handled = w.handled →
      (∀ v, w1.pool.ciTable ci = some (.value v) → w.pool.ciTable ci = some (.value v)) →
      Answered ci w0 (request r w1).2 := by
    intro r w1 h1 h2
    exact answered_same h (by rw [request_handled, h1]) (by rw [request_pool]; exact h2)
  have hset : ∀ (p : Pool) (c : Int) (e : Option CiEntry), p.ciTable = w.pool.ciTable → (∀ v, e ≠ some (.value v)) →
      ∀ v, (p.setCi c e).ciTable ci = some (.value v) → w.pool.ciTable ci = some (.value v) := by
    intro p c e hp he v hv
    simp only [Pool.setCi] at hv
    split at hv
    · exact absurd hv (he v)
    · rw [← hp]; exact hv
  have hask : ∀ (k : CiKind) (msg : Nat → OutMsg), Answered ci w0 (ask k msg w).2 := by
    intro k msg
    rw [ask_world]
    exact hreq _ _ rfl (hset { w.pool with ciCounter := w.pool.ciCounter + 1 } _ _ rfl (by simp))
  cases s
  case message asked pipe m hp =>
    obtain ⟨hs, hh, hv⟩ := h
    refine ⟨hs ++ [⟨asked, pipe.isSome, m⟩], by rw [message_handled, hh]; simp, fun v hx => ?_⟩
    rw [message_pool] at hx
    rw [answers_append]
    by_cases hm : ∃ r, m = .availability ci r
    · obtain ⟨r, rfl⟩ := hm
      rcases handleEffect_answer pipe ci r v w hx with h' | rfl
      · exact List.mem_append_left _ (hv v h')
      · rw [answers_self]; simp
    · rw [handleEffect_table pipe m w ci fun r h => hm ⟨r, h⟩] at hx
      exact List.mem_append_left _ (hv v hx)
  case askMin => exact hask _ _
  case askMax => exact hask _ _
  case askAvail => exact hask _ _
  case askReset => exact hask _ _
  case gotMin v c hg => exact answered_same h rfl (hset w.pool c none rfl (by simp))
  case gotMax v c hg => exact answered_same h rfl (hset w.pool c none rfl (by simp))
  case forget c => exact answered_same h rfl (hset w.pool c none rfl (by simp))
  case sendKey hst => rw [sendKey_world]; exact hreq _ _ rfl fun _ h => h
  case startCommand i msg hm => rw [startCommand_eq]; exact hreq _ _ rfl fun _ h => h
  case sendBatch i msgs hm =>
    rw [sendBatch_world]
    split
    · exact h
    · exact hreq _ _ rfl fun _ h => h
  case signalAndDrop code i cmd =>
    rw [signalAndDrop_world]
    dsimp only
    have := hreq (.signal code i cmd) w rfl fun _ h => h
    split
    · exact answered_same this rfl fun _ h => h
    · exact this
  case shellClose hst =>
    rw [shellClose_world]
    dsimp only
    have := hreq .delete w rfl fun _ h => h
    split
    · split
      · exact answered_same this rfl fun _ h => h
      · exact this
    · exact h
  case startOpening msgs hst hm =>
    rw [startOpening_world]
    dsimp only
    have := hreq (.create msgs) w rfl fun _ h => h
    split
    · exact answered_same h rfl fun _ h => h
    · split
      · exact answered_same this rfl fun _ h => h
      · exact this
  all_goals first
    | exact answered_same h rfl fun _ h => h
    | exact hreq _ _ rfl fun _ h => h

/-- The number that an answer is. -/
def CiVal.number : CiVal → Option Int
  | .int n => some n
  | .bool b => some (if b then 1 else 0)
  | .none => Option.none

theorem getAvailable_ok {w w' : World} {n : Int} (h : getAvailable w = (.ok n, w')) :
    ∃ w1 w2, ask .avail OutMsg.getAvailable w = (.ok w.pool.ciCounter, w1) ∧
      loopUntil (fun w' => (gotInt w.pool.ciCounter w').isSome) w1 = (.ok (), w2) ∧
      w' = { w2 with pool := w2.pool.setCi w.pool.ciCounter none } ∧ n = (gotInt w.pool.ciCounter w2).getD 0 := by
  unfold getAvailable at h
  rw [bind_run] at h
  split at h
  · rename_i ci w1 ha
    obtain ⟨rfl, _, _⟩ := ask_ok ha
    rw [bind_run] at h
    split at h
    · rename_i u w2 hl
      simp only [bind_run, getW, modifyPool, modifyW, pure_run, Prod.mk.injEq, Res.ok.injEq] at h
      exact ⟨w1, w2, ha, hl, h.2.symm, h.1.symm⟩
    · simp at h
    · simp at h
  · simp at h
  · simp at h

/-- C28: the number that get_available_runspaces returns was the answer with the id of its own request, which is new, and it arrived
after the request. -/
theorem C28_own_answer {w w' : World} {n : Int} (h : getAvailable w = (.ok n, w')) :
    ∃ hs sent, w'.handled = w.handled ++ hs ∧
      w'.sent = w.sent ++ (.send .stdin none none [.getAvailable w.pool.ciCounter], .ok ()) :: sent ∧
      ∃ r ∈ answers w.pool.ciCounter hs, r.number = some n := by
  obtain ⟨w1, w2, ha, hl, hw', hn⟩ := getAvailable_ok h
  obtain ⟨_, h1, ho⟩ := ask_ok ha
  have h0 : Answered w.pool.ciCounter w w1 := by
    refine ⟨[], by rw [h1, request_handled]; simp [World.asking, World.withPool], fun v hv => ?_⟩
    rw [h1, request_pool] at hv
    simp [World.asking, World.withPool, Pool.setCi] at hv
  have hst : Steps (fun _ => True) w1 w2 := by
    have := runs_loopUntil (C := fun _ => True) (fun w' => (gotInt w.pool.ciCounter w').isSome) w1
    unfold Runs at this
    rw [hl] at this
    exact this
  obtain ⟨hs, hh, hv⟩ := steps_invariant (fun _ _ h s => step_answered h s) h0 hst
  obtain ⟨l, hl'⟩ := hst.grows.sent
  refine ⟨hs, l, by rw [hw']; exact hh, ?_, ?_⟩
  · rw [hw']
    show w2.sent = _
    rw [hl', h1, request_sent]
    have hx : (w.asking .avail).outcome = .ok () := ho
    rw [hx]
    simp [World.asking, World.withPool]
  · have hd := loopUntil_done hl
    unfold gotInt at hd hn
    split at hd
    · rename_i m hm
      rw [hm] at hn
      exact ⟨_, hv _ hm, by rw [hn]; rfl⟩
    · rename_i b hm
      rw [hm] at hn
      exact ⟨_, hv _ hm, by rw [hn]; rfl⟩
    · simp at hd

/-- Two queries, answered in the other order by the server. -/
example : (getAvailable { pool := { ciCounter := 1, ciTable := fun c => if c = 0 then some (.handler .avail) else none },
                          replies := [{}, { msgs := [.availability 1 (.int 7), .availability 0 (.int 4)] }] }).1 = .ok 7 := by
  decide +kernel

theorem refusal {r : CiVal} (h : r ∈ [CiVal.bool false, .int 0, .none]) : r.truthy = false := by
  simp only [List.mem_cons, List.not_mem_nil, or_false] at h
  rcases h with rfl | rfl | rfl <;> rfl

/-- C29, minimum: on an open pool a new minimum is set exactly when the server's answer to the request with its call id was True; in every other case the
minimum stays (unless the server sent new initialisation data), and a refusal raises. -/
theorem C29_min (v : Int) (w : World) (ho : w.pool.state = 2) (hv : v ≠ w.pool.min) :
    ∃ hs, (setMin v w).2.handled = w.handled ++ hs ∧
      Obeys (setMin v) w (.performed (.send .stdin none none [.setMin v w.pool.ciCounter])) ∧
      ((setMin v w).1 = .ok () → (setMin v w).2.pool.min = v ∧ answers w.pool.ciCounter hs = [.bool true]) ∧
      ((setMin v w).1 ≠ .ok () → (∀ h ∈ hs, ¬ IsInitData h.msg) → (setMin v w).2.pool.min = w.pool.min) ∧
      (∀ r, (answers w.pool.ciCounter hs).head? = some r → r ∈ [CiVal.bool false, .int 0, .none] →
        (setMin v w).1 = .raised .invalidPSRPOperation) := by
  have hrun : setMin v w = (do
      let ci ← ask .setMin (.setMin v)
      loopUntil (gotBool ci)
      modifyPool fun p => { p.setCi ci none with min := v } : PoolM Unit) w := by
    unfold setMin
    rw [bind_run]
    simp only [getW]
    rw [if_neg (show ¬ w.pool.state ≠ PoolState.opened from fun hn => hn ho), if_neg hv]
  obtain ⟨w2, hs, hh, hlim, h⟩ := asked_loop (k := .setMin) (by decide) (.setMin v)
    (fun ci p => { p.setCi ci none with min := v }) w
  have hfirst : First (setMin v) w (.send .stdin none none [.setMin v w.pool.ciCounter]) := by
    unfold First
    rw [hrun]
    refine first_bind (first_ask .setMin (.setMin v) w) fun ci w1 _ => ?_
    exact grows_bind (runs_grows (C := fun _ => True) (runs_loopUntil _ _)) fun _ w2 _ => grows_same rfl rfl
  rw [← hrun] at h
  rcases h with ⟨h1, h2⟩ | ⟨h1, h2, h3⟩
  · refine ⟨hs, by rw [h1]; exact hh, hfirst, fun _ => ⟨by rw [h1], h2⟩, fun hn => ?_, fun r hr hf => ?_⟩
    · exact absurd (by rw [h1]) hn
    · rw [h2] at hr
      simp only [List.head?_cons, Option.some.injEq] at hr
      rw [← hr] at hf; simp at hf
  · refine ⟨hs, by rw [h2]; exact hh, hfirst, fun hk => absurd hk h1, fun _ hi => ?_, fun r hr hf => h3 r hr (refusal hf)⟩
    rw [h2]; exact (hlim hi).1

/-- C29, maximum. Answers to other calls are excluded because an answer to get_available_runspaces sets the maximum, too (C30). -/
theorem C29_max (v : Int) (w : World) (ho : w.pool.state = 2) (hv : v ≠ w.pool.max) :
    ∃ hs, (setMax v w).2.handled = w.handled ++ hs ∧
      Obeys (setMax v) w (.performed (.send .stdin none none [.setMax v w.pool.ciCounter])) ∧
      ((setMax v w).1 = .ok () → (setMax v w).2.pool.max = v ∧ answers w.pool.ciCounter hs = [.bool true]) ∧
      ((setMax v w).1 ≠ .ok () → (∀ h ∈ hs, ¬ IsInitData h.msg) →
        (∀ h ∈ hs, ∀ c r, h.msg = .availability c r → c = w.pool.ciCounter) → (setMax v w).2.pool.max = w.pool.max) ∧
      (∀ r, (answers w.pool.ciCounter hs).head? = some r → r ∈ [CiVal.bool false, .int 0, .none] →
        (setMax v w).1 = .raised .invalidPSRPOperation) := by
  have hrun : setMax v w = (do
      let ci ← ask .setMax (.setMax v)
      loopUntil (gotBool ci)
      modifyPool fun p => { p.setCi ci none with max := v } : PoolM Unit) w := by
    unfold setMax
    rw [bind_run]
    simp only [getW]
    rw [if_neg (show ¬ w.pool.state ≠ PoolState.opened from fun hn => hn ho), if_neg hv]
  obtain ⟨w2, hs, hh, hlim, h⟩ := asked_loop (k := .setMax) (by decide) (.setMax v)
    (fun ci p => { p.setCi ci none with max := v }) w
  have hfirst : First (setMax v) w (.send .stdin none none [.setMax v w.pool.ciCounter]) := by
    unfold First
    rw [hrun]
    refine first_bind (first_ask .setMax (.setMax v) w) fun ci w1 _ => ?_
    exact grows_bind (runs_grows (C := fun _ => True) (runs_loopUntil _ _)) fun _ w2 _ => grows_same rfl rfl
  rw [← hrun] at h
  rcases h with ⟨h1, h2⟩ | ⟨h1, h2, h3⟩
  · refine ⟨hs, by rw [h1]; exact hh, hfirst, fun _ => ⟨by rw [h1], h2⟩, fun hn => ?_, fun r hr hf => ?_⟩
    · exact absurd (by rw [h1]) hn
    · rw [h2] at hr
      simp only [List.head?_cons, Option.some.injEq] at hr
      rw [← hr] at hf; simp at hf
  · refine ⟨hs, by rw [h2]; exact hh, hfirst, fun hk => absurd hk h1, fun _ hi ha => ?_, fun r hr hf => h3 r hr (refusal hf)⟩
    rw [h2]; exact (hlim hi).2 ha

/-- C28 for reset_runspace_state: it returns only after the answer True with its own call id. -/
theorem C28_reset_answer {w w' : World} (ho : w.pool.state = 2) (h : resetState w = (.ok (), w')) :
    ∃ hs, w'.handled = w.handled ++ hs ∧ answers w.pool.ciCounter hs = [.bool true] := by
  unfold resetState at h
  rw [bind_run] at h
  simp only [getW] at h
  rw [if_neg (show ¬ w.pool.state = PoolState.beforeOpen by rw [ho]; decide),
    if_neg (show ¬ w.pool.state ≠ PoolState.opened from fun hn => hn ho)] at h
  cases hv : versionEqualOrNewer (w.pool.protocol.getD []) "2.3".toList with
  | error e => rw [hv] at h; simp [raise] at h
  | ok b =>
    rw [hv] at h
    cases b with
    | false => simp [raise] at h
    | true =>
    have h : (do
      let ci ← ask .reset OutMsg.reset
      loopUntil (gotBool ci)
      modifyPool fun p => p.setCi ci none : PoolM Unit) w = (.ok (), w') := h
    obtain ⟨w2, hs, hh, hlim, hx⟩ := asked_loop (k := .reset) (by decide) OutMsg.reset (fun ci p => p.setCi ci none) w
    rcases hx with ⟨h1, h2⟩ | ⟨h1, _⟩
    · rw [h1] at h
      simp only [Prod.mk.injEq, true_and] at h
      exact ⟨hs, by rw [← h]; exact hh, h2⟩
    · rw [h] at h1; simp at h1

/-- Confirmed after another message, and refused. -/
example : ((setMin 3 { pool := { state := 2 }, replies := [{}, { msgs := [.userEvent 9, .availability 0 (.bool true)] }] }).1,
    (setMin 3 { pool := { state := 2 }, replies := [{}, { msgs := [.userEvent 9, .availability 0 (.bool true)] }] }).2.pool.min,
    (setMin 3 { pool := { state := 2 }, replies := [{}, { msgs := [.availability 0 (.bool false)] }] }).1,
    (setMin 3 { pool := { state := 2 }, replies := [{}, { msgs := [.availability 0 (.bool false)] }] }).2.pool.min) =
    (.ok (), 3, .raised .invalidPSRPOperation, 1) := by decide +kernel

/-- C30 is false of the code: get_available_runspaces makes the number of available runspaces the maximum. -/
theorem C30_max_false : ∃ w : World, w.pool.state = 2 ∧ (getAvailable w).1 = .ok 3 ∧ (getAvailable w).2.pool.max ≠ w.pool.max := by
  let replies : List Reply := [{}, { msgs := [.availability 0 (.int 3)] }]
  exact ⟨{ pool := { state := 2, max := 5 }, replies := replies }, by decide +kernel⟩

theorem handleEffect_max (pipe : Option Nat) (m : SrvMsg) (w : World) (hm : ¬ IsInitData m) :
    (handleEffect pipe m w).pool.max = w.pool.max ∨
      ∃ c r, m = .availability c r ∧ r.number = some (handleEffect pipe m w).pool.max := by
  by_cases hc : ∃ c r, m = .availability c r
  · obtain ⟨c, r, rfl⟩ := hc
    rcases r with (_ | _) | n | _ <;> simp only [handleEffect] <;> (repeat' split) <;>
      first | exact .inl rfl | exact .inr ⟨c, _, rfl, rfl⟩ | simp_all
  · exact .inl ((handleEffect_limits pipe m w hm).2 fun c r h => hc ⟨c, r, h⟩)

/-- The limits during get_available_runspaces. -/
def AvailLimits (w0 w : World) : Prop :=
  ∃ hs, w.handled = w0.handled ++ hs ∧ ((∀ h ∈ hs, ¬ IsInitData h.msg) → w.pool.min = w0.pool.min ∧
    (w.pool.max = w0.pool.max ∨ ∃ h ∈ hs, ∃ c r, h.msg = .availability c r ∧ r.number = some w.pool.max))

/-- C30, partial: get_available_runspaces leaves the minimum (unless the server sends new initialisation data), and the maximum
is the old one or a number that the server sent as an answer. Missing: that the maximum stays (`C30_max_false`). -/
theorem C30_limits_partial (w : World) : ∃ hs, (getAvailable w).2.handled = w.handled ++ hs ∧
    ((∀ h ∈ hs, ¬ IsInitData h.msg) → (getAvailable w).2.pool.min = w.pool.min ∧
      ((getAvailable w).2.pool.max = w.pool.max ∨
        ∃ h ∈ hs, ∃ c r, h.msg = .availability c r ∧ r.number = some (getAvailable w).2.pool.max)) := by
  have hreq : ∀ w1 c, AvailLimits w w1 → AvailLimits w (request c w1).2 := by
    rintro w1 c ⟨hs, hh, hx⟩
    exact ⟨hs, by rw [request_handled, hh], fun hi => by rw [request_pool]; exact hx hi⟩
  have hmsg : ∀ w1 m, AvailLimits w w1 → AvailLimits w (handleLogged none none m w1).2 := by
    rintro w1 m ⟨hs, hh, hx⟩
    refine ⟨hs ++ [⟨none, false, m⟩], by rw [message_handled, hh]; simp, fun hi => ?_⟩
    obtain ⟨h1, h2⟩ := hx fun h hm => hi h (by simp [hm])
    obtain ⟨e1, e2⟩ := handleEffect_limits none m w1 (hi ⟨none, false, m⟩ (by simp))
    rw [message_pool]
    refine ⟨by rw [e1, h1], ?_⟩
    rcases handleEffect_max none m w1 (hi ⟨none, false, m⟩ (by simp)) with he | ⟨c, r, hm, he⟩
    · rw [he]
      rcases h2 with h2 | ⟨h, hm, c, r, h2⟩
      · exact .inl h2
      · exact .inr ⟨h, by simp [hm], c, r, h2⟩
    · exact .inr ⟨⟨none, false, m⟩, by simp, c, r, hm, he⟩
  have h0 : AvailLimits w (ask .avail OutMsg.getAvailable w).2 := by
    rw [ask_world]
    exact hreq _ _ ⟨[], by simp [World.asking, World.withPool], fun _ => ⟨rfl, .inl rfl⟩⟩
  have hends : ∀ {α : Type} {m : PoolM α} {w1 : World}, Ends (AvailLimits w) (fun _ => AvailLimits w) m w1 → AvailLimits w (m w1).2 := by
    intro α m w1 h
    unfold Ends at h
    split at h <;> rename_i hm <;> rw [hm]
    · exact h
    · exact h.elim id id
    · exact h.elim id id
  have hfin : AvailLimits w (getAvailable w).2 := by
    unfold getAvailable
    rw [bind_run]
    split
    · rename_i ci w1 ha
      rw [ha] at h0
      have hl := ends_loopUntil (I := AvailLimits w) (E := fun _ => AvailLimits w) (fun w1 c h => hreq w1 _ h)
        (fun w1 m h => by
          unfold Ends
          have := hmsg w1 m h
          split <;> rename_i hx <;> rw [hx] at this
          · exact this
          · exact .inl this
          · exact .inl this) (fun w => (gotInt ci w).isSome) w1 h0
      have hl := hends hl
      rw [bind_run]
      split <;> rename_i hx <;> rw [hx] at hl
      · exact hl
      · exact hl
      · exact hl
    · rename_i e w1 ha
      rw [ha] at h0; exact h0
    · rename_i w1 ha
      rw [ha] at h0; exact h0
  exact hfin

end Verif
