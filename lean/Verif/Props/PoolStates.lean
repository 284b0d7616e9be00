import Verif.Lemmas.PoolFacts
import Verif.Lemmas.Utils
import Verif.Spec.Pool
import Verif.Spec.Utils
/-
C26, C27, C34 and C35: the states of the pool and of the pipelines.
-/
namespace Verif

/-- C26, open. -/
theorem C26_open (w : World) (hs : w.pool.state = 0 → w.pool.shellOpened = false) :
    Obeys openPool w (openVerdict w.pool.state (.create [.sessionCapability, .initPool w.pool.min w.pool.max])) := by
  unfold openVerdict openPool
  split
  · rename_i h
    exact ⟨(), by simp [bind_run, getW, h, PoolState.opened, pure_run]⟩
  · rename_i h
    split
    · rename_i h0
      refine first_get ?_
      rw [if_neg (show ¬ w.pool.state = PoolState.opened from h), if_neg (show ¬ w.pool.state ≠ PoolState.beforeOpen from fun hn => hn h0)]
      refine first_bind ?_ fun a w' _ => ?_
      · refine ⟨w.outcome, [], ?_⟩
        rw [startOpening_world, hs h0]
        simp only [Bool.false_eq_true, if_false]
        split <;> simp [World.withPool, request_sent]
      · exact runs_grows (C := fun _ => True) (runs_loopUntil _ _)
    · rename_i h0
      simp [Obeys, bind_run, getW, h, h0, PoolState.opened, PoolState.beforeOpen, raise]

/-- C26, close. -/
theorem C26_close (w : World) (hs : w.pool.shellOpened = true) : Obeys closePool w (closeVerdict w.pool.state) := by
  unfold closeVerdict closePool
  split
  · rename_i h
    exact ⟨(), by simp [bind_run, getW, h, PoolState.closed, PoolState.closing, PoolState.broken, pure_run]⟩
  · rename_i h
    refine first_get ?_
    rw [if_neg (show ¬ (w.pool.state = PoolState.closed ∨ w.pool.state = PoolState.closing ∨ w.pool.state = PoolState.broken) from h)]
    refine first_bind ⟨w.outcome, [], ?_⟩ fun a w' _ => grows_same rfl rfl
    rw [shellClose_world, hs]
    simp only [if_true]
    split <;> simp [World.withPool, request_sent]

/-- C26: closing a pool that was never opened sends nothing. -/
theorem C26_close_unopened (w : World) (hs : w.pool.shellOpened = false)
    (h : w.pool.state ≠ 3 ∧ w.pool.state ≠ 4 ∧ w.pool.state ≠ 5) :
    closePool w = (.ok (), { w with pool := { w.pool with state := 3 } }) := by
  unfold closePool
  simp only [bind_run, getW]
  rw [if_neg (show ¬ (w.pool.state = PoolState.closed ∨ w.pool.state = PoolState.closing ∨ w.pool.state = PoolState.broken) from by
    rintro (h' | h' | h')
    · exact h.1 h'
    · exact h.2.1 h'
    · exact h.2.2 h')]
  simp [bind_run, shellClose, getW, hs, pure_run, modifyPool, modifyW, PoolState.closed]

/-- C26, connect. -/
theorem C26_connect (w : World) : Obeys connectPool w (connectVerdict w.pool.state
    (if w.pool.newClient then .connectShell [.sessionCapability, .connectPool] else .reconnect)) := by
  unfold connectVerdict connectPool
  split
  · rename_i h
    exact ⟨(), by simp [bind_run, getW, h, PoolState.opened, pure_run]⟩
  · rename_i h
    split
    · rename_i h0
      refine first_get ?_
      rw [if_neg (show ¬ w.pool.state = PoolState.opened from h), if_neg (show ¬ w.pool.state ≠ PoolState.disconnected from fun hn => hn h0)]
      by_cases hn : w.pool.newClient = true
      · rw [if_pos hn, if_pos hn]
        refine first_bind (first_request _ _) fun a w' _ => ?_
        refine grows_bind (runs_grows (C := fun _ => True) (runs_parse none _ w' none rfl)) fun _ w2 _ => ?_
        exact grows_bind (runs_grows (C := fun _ => True) (runs_receive none w2)) fun _ w3 _ => grows_same rfl rfl
      · rw [if_neg hn, if_neg hn]
        exact first_bind (first_request _ _) fun a w' _ => grows_same rfl rfl
    · rename_i h0
      simp [Obeys, bind_run, getW, h, h0, PoolState.opened, PoolState.disconnected, raise]

/-- C26, disconnect. -/
theorem C26_disconnect (w : World) : Obeys disconnectPool w (disconnectVerdict w.pool.state) := by
  unfold disconnectVerdict disconnectPool
  split
  · rename_i h
    exact ⟨(), by simp [bind_run, getW, h, PoolState.disconnected, pure_run]⟩
  · rename_i h
    split
    · rename_i h0
      refine first_get ?_
      rw [if_neg (show ¬ w.pool.state = PoolState.disconnected from h), if_neg (show ¬ w.pool.state ≠ PoolState.opened from fun hn => hn h0)]
      refine first_bind (first_request _ _) fun a w' _ => ?_
      exact grows_bind (grows_same rfl rfl) fun _ w2 _ => grows_same rfl rfl
    · rename_i h0
      simp [Obeys, bind_run, getW, h, h0, PoolState.opened, PoolState.disconnected, raise]

/-- C26, reset; the protocol version is the one that the server sent. -/
theorem C26_reset (w : World) (v : PyStr) (a : List Nat) (hp : w.pool.protocol = some v) (hv : Dotted v a)
    [Decidable (VersionGe a [2, 3])] :
    Obeys resetState w (resetVerdict w.pool.state (VersionGe a [2, 3]) (.send .stdin none none [.reset w.pool.ciCounter])) := by
  unfold resetVerdict resetState
  split
  · rename_i h
    exact ⟨(), by simp [bind_run, getW, h, PoolState.beforeOpen, pure_run]⟩
  · rename_i h
    split
    · rename_i h0
      have h23 : Dotted "2.3".toList [2, 3] :=
        ⟨["2".toList, "3".toList], by simp, by decide, by simp [IsDecimal], by decide⟩
      obtain ⟨res, hver, hiff⟩ := version_dotted hv h23
      have hx : versionEqualOrNewer (w.pool.protocol.getD []) "2.3".toList = .ok res := by rw [hp]; exact hver
      split
      · rename_i hs
        refine first_get ?_
        rw [if_neg (show ¬ w.pool.state = PoolState.beforeOpen from h), if_neg (show ¬ w.pool.state ≠ PoolState.opened from fun hn => hn h0), hx, hiff.mpr hs]
        refine first_bind (first_ask _ _ _) fun ci w1 _ => ?_
        exact grows_bind (runs_grows (C := fun _ => True) (runs_loopUntil _ _)) fun _ w2 _ => grows_same rfl rfl
      · rename_i hs
        show (getW >>= _) w = _
        rw [bind_run]
        simp only [getW]
        rw [if_neg (show ¬ w.pool.state = PoolState.beforeOpen from h), if_neg (show ¬ w.pool.state ≠ PoolState.opened from fun hn => hn h0), hx]
        cases res
        · rfl
        · exact absurd (hiff.mp rfl) hs
    · rename_i h0
      simp [Obeys, bind_run, getW, h, h0, PoolState.opened, PoolState.beforeOpen, raise]

/-- C26, get_command_metadata. -/
theorem C26_metadata (w : World) : Obeys getMetadata w
    (if w.pool.state = 2 then .performed (.command w.created .getMetadata) else .refused .invalidPoolState) := by
  unfold getMetadata
  split
  · rename_i h
    refine first_get ?_
    rw [if_neg (show ¬ w.pool.state ≠ PoolState.opened from fun hn => hn h)]
    show First (invokeMsg w.created .getMetadata >>= _) (newPipe false w).2 _
    unfold invokeMsg
    refine first_bind (first_bind ?_ fun a w1 _ => ?_) fun _ w1 _ => ?_
    · exact first_request _ _
    · cases a.command <;> exact grows_same rfl rfl
    · refine grows_bind (runs_grows (C := fun _ => True) (runs_endInvoke _ _)) fun out w2 _ => ?_
      cases out <;> exact grows_same rfl rfl
  · rename_i h
    simp [Obeys, bind_run, getW, h, PoolState.opened, raise]

/-- C26: the state after a call that returned. -/
theorem C26_open_state {w w' : World} (h : openPool w = (.ok (), w')) : w'.pool.state ≠ 6 := by
  unfold openPool at h
  simp only [bind_run, getW] at h
  by_cases h2 : w.pool.state = PoolState.opened
  · rw [if_pos h2, pure_run] at h
    simp only [Prod.mk.injEq, true_and] at h
    rw [← h, h2]; decide
  · rw [if_neg h2] at h
    by_cases h0 : w.pool.state ≠ PoolState.beforeOpen
    · rw [if_pos h0] at h; simp [raise] at h
    · rw [if_neg h0] at h
      simp only [bind_run] at h
      split at h
      · have := loopUntil_done h
        exact of_decide_eq_true this
      · simp at h
      · simp at h

theorem C26_close_state {w w' : World} (h : closePool w = (.ok (), w')) :
    w'.pool.state = 3 ∨ w'.pool.state = 4 ∨ w'.pool.state = 5 := by
  unfold closePool at h
  simp only [bind_run, getW] at h
  split at h
  · rename_i h2
    simp only [pure_run, Prod.mk.injEq, true_and] at h
    rw [← h]; exact h2
  · simp only [bind_run] at h
    split at h
    · simp only [modifyPool, modifyW, Prod.mk.injEq, true_and] at h
      rw [← h]; exact .inl rfl
    · simp at h
    · simp at h

theorem C26_disconnect_state {w w' : World} (h : disconnectPool w = (.ok (), w')) : w'.pool.state = 9 := by
  unfold disconnectPool at h
  simp only [bind_run, getW] at h
  split at h
  · rename_i h2
    simp only [pure_run, Prod.mk.injEq, true_and] at h
    rw [← h]; exact h2
  · split at h
    · simp [raise] at h
    · simp only [bind_run] at h
      split at h
      · simp only [modifyPool, modifyW, Prod.mk.injEq, true_and] at h
        rw [← h]; rfl
      · simp at h
      · simp at h

theorem C26_connect_state {w w' : World} (hn : w.pool.newClient = false) (h : connectPool w = (.ok (), w')) :
    w'.pool.state = 2 := by
  unfold connectPool at h
  simp only [bind_run, getW] at h
  split at h
  · rename_i h2
    simp only [pure_run, Prod.mk.injEq, true_and] at h
    rw [← h]; exact h2
  · split at h
    · simp [raise] at h
    · rw [if_neg (by simp [hn])] at h
      simp only [bind_run] at h
      split at h
      · simp only [modifyPool, modifyW, Prod.mk.injEq, true_and] at h
        rw [← h]; rfl
      · simp at h
      · simp at h

/-- A pool that the server opened, and one that is disconnected. -/
example : Obeys closePool { pool := { state := 2, shellOpened := true }, replies := [{}] } (.performed .delete) :=
  C26_close _ rfl
example : (closePool { pool := { state := 2, shellOpened := true }, replies := [{}] }).1 = .ok () := by decide +kernel
example : connectPool { pool := { state := 9 }, replies := [{}] } =
    (.ok (), { pool := { state := 2 }, replies := [], sent := [(.reconnect, .ok ())] }) := rfl
example : Obeys resetState { pool := { state := 2, protocol := some "2.2".toList } } (.refused .invalidPSRPOperation) := by
  have : ¬ VersionGe [2, 2] [2, 3] := by
    rintro (h | ⟨i, h1, h2⟩)
    · exact absurd (h 1) (by decide)
    · match i with
      | 0 => exact absurd h2 (by decide)
      | 1 => exact absurd h2 (by decide)
      | n + 2 => exact absurd h2 (by simp [component])
  have := @C26_reset { pool := { state := 2, protocol := some "2.2".toList } } "2.2".toList [2, 2] rfl
    ⟨["2".toList, "2".toList], by simp, by decide, by simp [IsDecimal], by decide⟩ (.isFalse this)
  exact this

/-- C35, begin_invoke. -/
theorem C35_begin_invoke (i : Nat) (input : InputArg) (w : World) : Obeys (beginInvoke i input) w
    (invokeVerdict (w.pipes i).state (w.pipes i).commands (.command i (.createPipeline input.noInput))) := by
  unfold invokeVerdict
  split
  · rename_i h
    have hs : ¬ ¬ ((w.pipes i).state = PipeState.notStarted ∨ (w.pipes i).state = PipeState.stopped ∨
      (w.pipes i).state = PipeState.completed ∨ (w.pipes i).state = PipeState.failed) := fun hn => hn h
    split
    · rename_i h0
      unfold beginInvoke
      show (getW >>= _) w = _
      rw [bind_run]
      simp only [getW]
      rw [if_neg hs, if_pos h0]
      rfl
    · rename_i h0
      unfold beginInvoke
      refine first_get ?_
      dsimp only
      rw [if_neg hs, if_neg h0]
      unfold invokeMsg
      refine first_bind (first_bind ?_ fun a w1 _ => ?_) fun _ w1 _ => ?_
      · exact first_request _ _
      · cases a.command <;> exact grows_same rfl rfl
      · split
        · exact .refl _
        · generalize input.items = items
          cases items
          · exact .refl _
          · exact runs_grows (C := fun _ => True) (runs_sendInput i _ _ w1)
  · rename_i h
    unfold beginInvoke
    show (getW >>= _) w = _
    rw [bind_run]
    simp only [getW]
    rw [if_pos (show ¬ ((w.pipes i).state = PipeState.notStarted ∨ (w.pipes i).state = PipeState.stopped ∨
      (w.pipes i).state = PipeState.completed ∨ (w.pipes i).state = PipeState.failed) from h)]
    rfl

/-- C35, stop. -/
theorem C35_stop (i : Nat) (w : World) :
    Obeys (stopPipe i) w (stopVerdict (w.pipes i).state (.signal .psCtrlC i (.own i))) := by
  unfold stopVerdict stopPipe
  split
  · rename_i h
    refine ⟨(), ?_⟩
    rw [bind_run]
    simp only [getW]
    rw [if_pos (show (w.pipes i).state = PipeState.stopping ∨ (w.pipes i).state = PipeState.stopped from h)]
    rfl
  · rename_i h
    split
    · rename_i h0
      refine first_get ?_
      dsimp only
      rw [if_neg (show ¬ ((w.pipes i).state = PipeState.stopping ∨ (w.pipes i).state = PipeState.stopped) from h),
        if_neg (show ¬ (w.pipes i).state ≠ PipeState.running from fun hn => hn h0)]
      show First (signalAndDrop _ _ _ >>= _) (w.setPipe i _) _
      refine first_bind ?_ fun _ w1 _ => grows_same rfl rfl
      exact first_bind (first_request _ _) fun _ w1 _ => grows_same rfl rfl
    · rename_i h0
      show (getW >>= _) w = _
      rw [bind_run]
      simp only [getW]
      rw [if_neg (show ¬ ((w.pipes i).state = PipeState.stopping ∨ (w.pipes i).state = PipeState.stopped) from h),
        if_pos (show (w.pipes i).state ≠ PipeState.running from h0)]
      rfl

/-- C35, close. -/
theorem C35_close (i : Nat) (w : World) : Obeys (closePipe i) w
    (closePipeVerdict (w.pipes i).state (.signal .terminate i ((w.pipes i).commandId.getD (.own i)))) := by
  unfold closePipeVerdict closePipe
  split
  · rename_i h
    refine ⟨(), ?_⟩
    rw [bind_run]
    simp only [getW]
    rw [if_pos (show (w.pipes i).state = PipeState.notStarted from h)]
    rfl
  · rename_i h
    have h1 : ¬ (w.pipes i).state = PipeState.notStarted := h
    split
    · rename_i h0
      refine first_get ?_
      dsimp only
      rw [if_neg h1, if_neg (show ¬ ¬ ((w.pipes i).state = PipeState.completed ∨ (w.pipes i).state = PipeState.stopped ∨
        (w.pipes i).state = PipeState.failed) from fun hn => hn (by
          rcases h0 with h0 | h0 | h0
          · exact .inr (.inl h0)
          · exact .inl h0
          · exact .inr (.inr h0)))]
      exact first_bind (first_request _ _) fun _ w1 _ => grows_same rfl rfl
    · rename_i h0
      show (getW >>= _) w = _
      rw [bind_run]
      simp only [getW]
      rw [if_neg h1, if_pos (show ¬ ((w.pipes i).state = PipeState.completed ∨ (w.pipes i).state = PipeState.stopped ∨
        (w.pipes i).state = PipeState.failed) from fun hn => h0 (by
          rcases hn with h0 | h0 | h0
          · exact .inr (.inl h0)
          · exact .inl h0
          · exact .inr (.inr h0)))]
      rfl

/-- C35, connect. -/
theorem C35_connect (i : Nat) (w : World) :
    Obeys (connectPipe i) w (connectPipeVerdict (w.pipes i).state (.connectCommand i)) := by
  unfold connectPipeVerdict connectPipe
  split
  · rename_i h
    refine first_get ?_
    rw [if_neg (show ¬ (w.pipes i).state ≠ PipeState.disconnected from fun hn => hn h)]
    exact first_bind (first_request _ _) fun _ w1 _ => grows_same rfl rfl
  · rename_i h
    show (getW >>= _) w = _
    rw [bind_run]
    simp only [getW]
    rw [if_pos (show (w.pipes i).state ≠ PipeState.disconnected from h)]
    rfl

/-- C35, create_nested_power_shell: a nested pipeline object with a new id from a running pipeline that this client started,
otherwise the documented error and nothing changes. -/
theorem C35_nested (i : Nat) (w : World) : createNested i w =
    if (w.pipes i).state = 1 then
      if (w.pipes i).fromDisconnect then (.raised .invalidPSRPOperation, w)
      else (.ok w.created, { w with
        created := w.created + 1
        pipes := fun j => if j = w.created then { isNested := true } else w.pipes j })
    else (.raised .invalidPipelineState, w) := by
  unfold createNested
  rw [bind_run]
  simp only [getW]
  by_cases h : (w.pipes i).state = PipeState.running
  · rw [if_neg (fun hn => hn h), if_pos (show (w.pipes i).state = 1 from h)]
    split <;> rfl
  · rw [if_pos h, if_neg (show ¬ (w.pipes i).state = 1 from h)]
    rfl

/-- C35: the states after calls that returned. -/
theorem C35_stop_state {i : Nat} {w w' : World} (h : stopPipe i w = (.ok (), w')) :
    (w'.pipes i).state = 2 ∨ (w'.pipes i).state = 3 := by
  unfold stopPipe at h
  simp only [bind_run, getW] at h
  split at h
  · rename_i h2
    simp only [pure_run, Prod.mk.injEq, true_and] at h
    rw [← h]; exact h2
  · split at h
    · simp [raise] at h
    · simp only [bind_run, modifyPipe, modifyW] at h
      split at h
      · simp only [Prod.mk.injEq, true_and] at h
        rw [← h, setPipe_self]; exact .inr rfl
      · simp at h
      · simp at h

theorem C35_connect_state {i : Nat} {w w' : World} (h : connectPipe i w = (.ok (), w')) : (w'.pipes i).state = 1 := by
  unfold connectPipe at h
  simp only [bind_run, getW] at h
  split at h
  · simp [raise] at h
  · simp only [bind_run, modifyPipe, modifyW] at h
    split at h
    · simp only [Prod.mk.injEq, true_and] at h
      rw [← h, setPipe_self]; rfl
    · simp at h
    · simp at h

/-- A running pipeline with a command is not started a second time, but can be stopped. -/
example : Obeys (beginInvoke 0 .none) { pipes := fun _ => { state := 1, commands := 1 } } (.refused .invalidPipelineState) :=
  C35_begin_invoke 0 .none _
example : (stopPipe 0 { pipes := fun _ => { state := 1, commands := 1 }, replies := [{}] }).1 = .ok () := by decide +kernel
example : (connectPipe 0 { pipes := fun _ => { state := 6 }, replies := [{}] }).1 = .ok () := by decide +kernel

/-- The pool is closed, closing or broken. -/
def Terminal (w : World) : Prop := w.pool.state = 3 ∨ w.pool.state = 4 ∨ w.pool.state = 5

theorem handleEffect_state (pipe : Option Nat) (m : SrvMsg) (w : World) :
    (handleEffect pipe m w).pool.state = match m with | .poolState s => s | _ => w.pool.state := by
  cases m <;> simp only [handleEffect]
  all_goals (repeat' split) <;> first | rfl | simp only [hostEffect_pool]

theorem handleEffect_shellOpened (pipe : Option Nat) (m : SrvMsg) (w : World) :
    (handleEffect pipe m w).pool.shellOpened = w.pool.shellOpened := by
  cases m <;> simp only [handleEffect]
  all_goals (repeat' split) <;> first | rfl | simp only [hostEffect_pool]

theorem hostRequests_send (pipe : Option Nat) (c : HostCall) (w : World) :
    ∀ e ∈ hostRequests pipe c w, ∃ p m, e.1 = .send .pr none p [m] ∧ (∃ a b o, m = .poolHostResponse a b o ∨ m = .pipelineHostResponse a b o) := by
  intro e he
  unfold hostRequests at he
  split at he
  · simp at he
  · split at he
    · simp at he
    · simp at he
    · simp only [List.mem_singleton] at he
      subst he
      cases pipe
      · exact ⟨_, _, rfl, _, _, _, .inl rfl⟩
      · exact ⟨_, _, rfl, _, _, _, .inr rfl⟩

theorem messageRequests_send (pipe : Option Nat) (m : SrvMsg) (w : World) :
    ∀ e ∈ messageRequests pipe m w, ∃ p m, e.1 = .send .pr none p [m] ∧ (∃ a b o, m = .poolHostResponse a b o ∨ m = .pipelineHostResponse a b o) := by
  intro e he
  unfold messageRequests at he
  split at he
  · exact hostRequests_send _ _ _ e he
  · split at he
    · simp at he
    · exact hostRequests_send _ _ _ e he
  · simp at he

/-- What holds after the pool was closed. -/
def StaysClosed (w0 w : World) : Prop :=
  ∃ hs l, w.handled = w0.handled ++ hs ∧ w.sent = w0.sent ++ l ∧
    ((∀ h ∈ hs, ¬ Reopens h.msg) → Terminal w ∧ ∀ e ∈ l, e.1 ≠ .delete ∧ e.1.isCreate = false)

theorem staysClosed_same {w0 w w' : World} (h : StaysClosed w0 w) (h1 : w'.handled = w.handled) (h2 : w'.sent = w.sent)
    (h3 : Terminal w → Terminal w') : StaysClosed w0 w' := by
  obtain ⟨hs, l, hh, hl, hi⟩ := h
  exact ⟨hs, l, by rw [h1, hh], by rw [h2, hl], fun hr => ⟨h3 (hi hr).1, (hi hr).2⟩⟩

theorem staysClosed_request {w0 w w' : World} {e : Request × Res Unit} (h : StaysClosed w0 w) (h1 : w'.handled = w.handled)
    (h2 : w'.sent = w.sent ++ [e]) (h3 : Terminal w → Terminal w') (he : e.1 ≠ .delete ∧ e.1.isCreate = false) :
    StaysClosed w0 w' := by
  obtain ⟨hs, l, hh, hl, hi⟩ := h
  refine ⟨hs, l ++ [e], by rw [h1, hh], by rw [h2, hl]; simp, fun hr => ⟨h3 (hi hr).1, ?_⟩⟩
  intro e' he'
  rcases List.mem_append.mp he' with h' | h'
  · exact (hi hr).2 e' h'
  · rw [List.mem_singleton.mp h']; exact he

theorem step_staysClosed {C : Nat → Prop} {w0 w w' : World} (h : StaysClosed w0 w) (s : Step C w w') : StaysClosed w0 w' := by
  have hcon : ∀ {P : Prop}, w.pool.state = 0 ∨ w.pool.state = 2 ∨ w.pool.state = 9 → Terminal w → P := by
    rintro P (h | h | h) (h' | h' | h') <;> rw [h] at h' <;> exact absurd h' (by decide)
  have hso : (w.pool.state ≠ 3 ∧ w.pool.state ≠ 4 ∧ w.pool.state ≠ 5) → ∀ {P : Prop}, Terminal w → P := by
    rintro ⟨h3, h4, h5⟩ P (h' | h' | h')
    · exact absurd h' h3
    · exact absurd h' h4
    · exact absurd h' h5
  cases s
  case message asked pipe m hp =>
    obtain ⟨hs, l, hh, hl, hi⟩ := h
    refine ⟨hs ++ [⟨asked, pipe.isSome, m⟩], l ++ messageRequests pipe m w, ?_, ?_, ?_⟩
    · rw [message_handled, hh]; simp
    · rw [message_sent, hl]; simp
    · intro hr
      have hold := hi fun x hx => hr x (by simp [hx])
      have hm : ¬ Reopens m := hr ⟨asked, pipe.isSome, m⟩ (by simp)
      refine ⟨?_, ?_⟩
      · unfold Terminal
        rw [message_pool, handleEffect_state]
        cases m
        case poolState st =>
          dsimp only
          refine Classical.byContradiction fun hc => hm ⟨st, rfl, fun h => hc (.inl h), fun h => hc (.inr (.inl h)),
            fun h => hc (.inr (.inr h))⟩
        all_goals exact hold.1
      · intro e he
        rcases List.mem_append.mp he with h' | h'
        · exact hold.2 e h'
        · obtain ⟨p, m', hp, _⟩ := messageRequests_send _ _ _ e h'
          rw [hp]; exact ⟨by simp, rfl⟩
  case askMin v hst =>
    rw [ask_world]
    refine staysClosed_request h (by rw [request_handled]; rfl) (by rw [request_sent]; rfl) (fun ht => ?_) ⟨by simp, rfl⟩
    unfold Terminal; rw [request_pool]; exact ht
  case askMax v hst =>
    rw [ask_world]
    refine staysClosed_request h (by rw [request_handled]; rfl) (by rw [request_sent]; rfl) (fun ht => ?_) ⟨by simp, rfl⟩
    unfold Terminal; rw [request_pool]; exact ht
  case askAvail =>
    rw [ask_world]
    refine staysClosed_request h (by rw [request_handled]; rfl) (by rw [request_sent]; rfl) (fun ht => ?_) ⟨by simp, rfl⟩
    unfold Terminal; rw [request_pool]; exact ht
  case askReset hst =>
    rw [ask_world]
    refine staysClosed_request h (by rw [request_handled]; rfl) (by rw [request_sent]; rfl) (fun ht => ?_) ⟨by simp, rfl⟩
    unfold Terminal; rw [request_pool]; exact ht
  case shellClose hst =>
    obtain ⟨hs, l, hh, hl, hi⟩ := h
    have hg := (Step.shellClose (C := C) hst).grows
    obtain ⟨l1, hl1⟩ := hg.sent
    obtain ⟨l2, hl2⟩ := hg.handled
    refine ⟨hs ++ l2, l ++ l1, by rw [hl2, hh]; simp, by rw [hl1, hl]; simp, fun hr => ?_⟩
    exact hso hst (hi fun x hx => hr x (by simp [hx])).1
  case startOpening msgs hst hm =>
    obtain ⟨hs, l, hh, hl, hi⟩ := h
    have hg := (Step.startOpening (C := C) msgs hst hm).grows
    obtain ⟨l1, hl1⟩ := hg.sent
    obtain ⟨l2, hl2⟩ := hg.handled
    refine ⟨hs ++ l2, l ++ l1, by rw [hl2, hh]; simp, by rw [hl1, hl]; simp, fun hr => ?_⟩
    exact hcon (.inl hst) (hi fun x hx => hr x (by simp [hx])).1
  case reconnected hst => exact staysClosed_same h rfl rfl (hcon (.inr (.inr hst)))
  case disconnected hst => exact staysClosed_same h rfl rfl (hcon (.inr (.inl hst)))
  case dead => exact staysClosed_same h rfl rfl fun _ => .inl rfl
  case closed hst => exact staysClosed_same h rfl rfl fun _ => .inl rfl
  case sendKey hst =>
    rw [sendKey_world]
    refine staysClosed_request h (by rw [request_handled]; rfl) (by rw [request_sent]; rfl) (fun ht => ?_) ⟨by simp, rfl⟩
    unfold Terminal; rw [request_pool]; exact ht
  case startCommand i msg hm =>
    rw [startCommand_eq]
    refine staysClosed_request h (by rw [request_handled]; rfl) (by rw [request_sent]; rfl) (fun ht => ?_) ⟨by simp, rfl⟩
    unfold Terminal; rw [request_pool]; exact ht
  case sendBatch i msgs hm =>
    rw [sendBatch_world]
    split
    · exact h
    · refine staysClosed_request h (by rw [request_handled]) (by rw [request_sent]) (fun ht => ?_) ⟨by simp, rfl⟩
      unfold Terminal; rw [request_pool]; exact ht
  case signalAndDrop code i cmd =>
    rw [signalAndDrop_world]
    dsimp only
    have h1 : StaysClosed w0 (request (.signal code i cmd) w).2 := by
      refine staysClosed_request h (by rw [request_handled]) (by rw [request_sent]) (fun ht => ?_) ⟨by simp, rfl⟩
      unfold Terminal; rw [request_pool]; exact ht
    split
    · exact staysClosed_same h1 rfl rfl fun ht => ht
    · exact h1
  all_goals first
    | exact staysClosed_same h rfl rfl fun ht => ht
    | (refine staysClosed_request h (by rw [request_handled]) (by rw [request_sent]) (fun ht => ?_) ⟨by simp, rfl⟩
       unfold Terminal; rw [request_pool]; exact ht)

theorem terminal_obeys {w : World} (h : Terminal w) : Obeys closePool w .ignored ∧ Obeys openPool w (.refused .invalidPoolState) ∧
    Obeys connectPool w (.refused .invalidPoolState) ∧ Obeys disconnectPool w (.refused .invalidPoolState) := by
  have h0 : w.pool.state ≠ 0 ∧ w.pool.state ≠ 2 ∧ w.pool.state ≠ 9 := by
    rcases h with h | h | h <;> rw [h] <;> decide
  refine ⟨⟨(), ?_⟩, ?_, ?_, ?_⟩
  · unfold closePool
    rw [bind_run]
    simp only [getW]
    rw [if_pos (show w.pool.state = PoolState.closed ∨ w.pool.state = PoolState.closing ∨ w.pool.state = PoolState.broken from h)]
    rfl
  · have := C26_open w fun h => absurd h h0.1
    rwa [openVerdict, if_neg h0.2.1, if_neg h0.1] at this
  · have := C26_connect w
    rwa [connectVerdict, if_neg h0.2.1, if_neg h0.2.2] at this
  · have := C26_disconnect w
    rwa [disconnectVerdict, if_neg h0.2.2, if_neg h0.2.1] at this

/-- C27, partial: after a close that returned, as long as no server message gives the pool a state that is not closed, closing or
broken, every further close does nothing, open, connect and disconnect raise, and no delete or create request is sent. Missing: such messages
(see `C27_reopened_false`). -/
theorem C27_stays_closed_partial {w w0 : World} (hc : closePool w = (.ok (), w0)) (ops : List Op) (hs : List Handled)
    (hh : (runOps w0 ops).handled = w0.handled ++ hs) (hr : ∀ h ∈ hs, ¬ Reopens h.msg) :
    Obeys closePool (runOps w0 ops) .ignored ∧ Obeys openPool (runOps w0 ops) (.refused .invalidPoolState) ∧
    Obeys connectPool (runOps w0 ops) (.refused .invalidPoolState) ∧
    Obeys disconnectPool (runOps w0 ops) (.refused .invalidPoolState) ∧
    ∃ l, (runOps w0 ops).sent = w0.sent ++ l ∧ ∀ e ∈ l, e.1 ≠ .delete ∧ e.1.isCreate = false := by
  have h0 : StaysClosed w0 w0 := ⟨[], [], by simp, by simp, fun _ => ⟨C26_close_state hc, by simp⟩⟩
  obtain ⟨hs', l, hh', hl, hi⟩ := history_invariant (fun _ _ h s => step_staysClosed h s) h0 ops
  have : hs' = hs := by rw [hh] at hh'; exact (List.append_cancel_left hh').symm
  obtain ⟨ht, hd⟩ := hi (this ▸ hr)
  obtain ⟨h1, h2, h3, h4⟩ := terminal_obeys ht
  exact ⟨h1, h2, h3, h4, l, hl, hd⟩

/-- A closed pool on which runspaces are counted: the server answers. -/
example : (runOps (closePool
    ({ pool := { state := 2, shellOpened := true }, replies := [{}, {}, { msgs := [.availability 0 (.int 3)] }] } : World)).2
    [.getAvailable, .closePool]).handled =
    [⟨none, false, .availability 0 (.int 3)⟩] := by decide +kernel

/-- C27 is false of the code: a state message that arrives after close makes the pool usable again. -/
theorem C27_reopened_false : ∃ w ops, (closePool w).1 = .ok () ∧ w.pool.shellOpened = true ∧
    (disconnectPool (runOps (closePool w).2 ops)).1 = .ok () := by
  let replies : List Reply := [{}, {}, { msgs := [.availability 0 (.int 3), .poolState 2] }, {}]
  refine ⟨{ pool := { state := 2, shellOpened := true }, replies := replies }, [.getAvailable], ?_⟩
  decide +kernel

/-- Shells created and deleted. -/
def creates (w : World) : Nat := (succeeded w.sent).countP Request.isCreate
def deletes (w : World) : Nat := (succeeded w.sent).count .delete

theorem succeeded_append (a b : List (Request × Res Unit)) : succeeded (a ++ b) = succeeded a ++ succeeded b := by
  simp [succeeded]

theorem counts_request {w w' : World} {e : Request × Res Unit} (h : w'.sent = w.sent ++ [e])
    (he : e.1 ≠ .delete ∧ e.1.isCreate = false) : creates w' = creates w ∧ deletes w' = deletes w := by
  unfold creates deletes
  rw [h, succeeded_append]
  simp only [succeeded, List.countP_append, List.count_append]
  by_cases hk : e.2 = .ok ()
  · simp [hk, he.2, he.1]
  · simp [hk]

theorem counts_same {w w' : World} (h : w'.sent = w.sent) : creates w' = creates w ∧ deletes w' = deletes w := by
  unfold creates deletes
  rw [h]; exact ⟨rfl, rfl⟩

theorem counts_list {w w' : World} {l : List (Request × Res Unit)} (h : w'.sent = w.sent ++ l)
    (he : ∀ e ∈ l, e.1 ≠ .delete ∧ e.1.isCreate = false) : creates w' = creates w ∧ deletes w' = deletes w := by
  unfold creates deletes
  rw [h, succeeded_append, List.countP_append, List.count_append]
  have h1 : (succeeded l).countP Request.isCreate = 0 := by
    rw [List.countP_eq_zero]
    intro r hr
    simp only [succeeded, List.mem_map, List.mem_filter] at hr
    obtain ⟨e, ⟨hm, _⟩, rfl⟩ := hr
    simp [(he e hm).2]
  have h2 : (succeeded l).count .delete = 0 := by
    rw [List.count_eq_zero]
    intro hr
    simp only [succeeded, List.mem_map, List.mem_filter] at hr
    obtain ⟨e, ⟨hm, _⟩, hd⟩ := hr
    exact (he e hm).1 hd
  omega

/-- Every step but those of open and close leaves the numbers and the shell. -/
theorem step_counts {C : Nat → Prop} {w w' : World} (s : Step C w w') :
    (creates w' = creates w ∧ deletes w' = deletes w ∧ w'.pool.shellOpened = w.pool.shellOpened) ∨
    (w' = (shellClose w).2) ∨
    (∃ msgs, w' = (startOpening msgs w).2 ∧ w.pool.state = 0) := by
  have hreq : ∀ (r : Request) (w1 : World), w1.sent = w.sent → w1.pool.shellOpened = w.pool.shellOpened →
      (r ≠ .delete ∧ r.isCreate = false) → creates (request r w1).2 = creates w ∧ deletes (request r w1).2 = deletes w ∧
        (request r w1).2.pool.shellOpened = w.pool.shellOpened := by
    intro r w1 h1 h2 h3
    have := counts_request (w := w) (w' := (request r w1).2) (e := (r, w1.outcome)) (by rw [request_sent, h1]) h3
    exact ⟨this.1, this.2, by rw [request_pool, h2]⟩
  have hsame : ∀ w1 : World, w1.sent = w.sent → w1.pool.shellOpened = w.pool.shellOpened →
      creates w1 = creates w ∧ deletes w1 = deletes w ∧ w1.pool.shellOpened = w.pool.shellOpened :=
    fun w1 h1 h2 => ⟨(counts_same h1).1, (counts_same h1).2, h2⟩
  cases s
  case shellClose => exact .inr (.inl rfl)
  case startOpening msgs h hm => exact .inr (.inr ⟨msgs, rfl, h⟩)
  case message asked pipe m hp =>
    refine .inl ?_
    have := counts_list (message_sent asked pipe m w) fun e he => by
      obtain ⟨p, m', hp, _⟩ := messageRequests_send _ _ _ e he
      rw [hp]; exact ⟨by simp, rfl⟩
    exact ⟨this.1, this.2, by rw [message_pool, handleEffect_shellOpened]⟩
  case askMin v hst => rw [ask_world]; exact .inl (hreq _ _ rfl rfl ⟨by simp, rfl⟩)
  case askMax v hst => rw [ask_world]; exact .inl (hreq _ _ rfl rfl ⟨by simp, rfl⟩)
  case askAvail => rw [ask_world]; exact .inl (hreq _ _ rfl rfl ⟨by simp, rfl⟩)
  case askReset hst => rw [ask_world]; exact .inl (hreq _ _ rfl rfl ⟨by simp, rfl⟩)
  case sendKey hst => rw [sendKey_world]; exact .inl (hreq _ _ rfl rfl ⟨by simp, rfl⟩)
  case startCommand i msg hm => rw [startCommand_eq]; exact .inl (hreq _ _ rfl rfl ⟨by simp, rfl⟩)
  case sendBatch i msgs hm =>
    rw [sendBatch_world]
    split
    · exact .inl ⟨rfl, rfl, rfl⟩
    · exact .inl (hreq _ _ rfl rfl ⟨by simp, rfl⟩)
  case signalAndDrop code i cmd =>
    rw [signalAndDrop_world]
    dsimp only
    have := hreq (.signal code i cmd) w rfl rfl ⟨by simp, rfl⟩
    split
    · exact .inl this
    · exact .inl this
  all_goals first
    | exact .inl (hsame _ rfl rfl)
    | exact .inl (hreq _ _ rfl rfl ⟨by simp, rfl⟩)

theorem shellClose_counts (w : World) :
    creates (shellClose w).2 = creates w ∧
    deletes (shellClose w).2 + (shellClose w).2.pool.shellOpened.toNat = deletes w + w.pool.shellOpened.toNat := by
  rw [shellClose_world]
  dsimp only
  have hs := request_sent .delete w
  have hp := request_pool .delete w
  split
  · rename_i ho
    split
    · rename_i hk
      rw [hk] at hs
      simp only [creates, deletes, World.withPool, hs, succeeded_append]
      simp [succeeded, ho, Request.isCreate]
    · rename_i hk
      simp only [creates, deletes, hs, hp, succeeded_append]
      simp [succeeded, hk]
  · exact ⟨rfl, rfl⟩

theorem startOpening_counts (msgs : List OutMsg) (w : World) :
    deletes (startOpening msgs w).2 = deletes w ∧
    creates (startOpening msgs w).2 + w.pool.shellOpened.toNat = creates w + (startOpening msgs w).2.pool.shellOpened.toNat ∧
    ((startOpening msgs w).2.pool.state = 6 ∨
      creates (startOpening msgs w).2 = creates w ∧ (startOpening msgs w).2.pool.state = w.pool.state) := by
  rw [startOpening_world]
  dsimp only
  have hs := request_sent (.create msgs) w
  have hp := request_pool (.create msgs) w
  split
  · rename_i ho
    exact ⟨rfl, by simp [creates, World.withPool], .inl rfl⟩
  · rename_i ho
    have ho : w.pool.shellOpened = false := by simpa using ho
    split
    · rename_i hk
      rw [hk] at hs
      simp only [creates, deletes, World.withPool, hs, succeeded_append]
      refine ⟨by simp [succeeded], by simp [succeeded, ho, Request.isCreate], .inl rfl⟩
    · rename_i hk
      simp only [creates, deletes, hs, hp, succeeded_append]
      simp [succeeded, hk]

/-- C27: in every history, every created shell is deleted at most once: there are as many successful deletes as successful creates,
less one if a shell is open. -/
theorem C27_deletes (min max : Int) (host) (clock : List Bool) (replies : List Reply) (ops : List Op) :
    deletes (runOps (.start min max host clock replies) ops) + (runOps (.start min max host clock replies) ops).pool.shellOpened.toNat =
    creates (runOps (.start min max host clock replies) ops) := by
  refine history_invariant (I := fun w => deletes w + w.pool.shellOpened.toNat = creates w) (fun w w' h s => ?_) rfl ops
  rcases step_counts s with ⟨h1, h2, h3⟩ | hw | ⟨msgs, hw, _⟩
  · rw [h1, h2, h3]; exact h
  · have := shellClose_counts w
    rw [hw]; omega
  · have := startOpening_counts msgs w
    rw [hw]; omega

/-- C27: in every history in which no server message says that the pool was not opened yet, at most one delete succeeds. -/
theorem C27_delete_once (min max : Int) (host) (clock : List Bool) (replies : List Reply) (ops : List Op)
    (hr : ∀ h ∈ (runOps (.start min max host clock replies) ops).handled, h.msg ≠ .poolState 0) :
    deletes (runOps (.start min max host clock replies) ops) ≤ 1 := by
  have hd := C27_deletes min max host clock replies ops
  have key : creates (runOps (.start min max host clock replies) ops) ≤ 1 := by
    have := history_invariant (I := fun w => (∀ h ∈ w.handled, h.msg ≠ .poolState 0) →
      creates w ≤ 1 ∧ (w.pool.state = 0 → creates w = 0)) (fun w w' h s hr => ?_)
      (w := .start min max host clock replies) (fun _ => ⟨Nat.zero_le 1, fun _ => rfl⟩) ops
    · exact (this hr).1
    · obtain ⟨l, hl⟩ := s.grows.handled
      obtain ⟨h1, h2⟩ := h fun x hx => hr x (by rw [hl]; simp [hx])
      have hst : w'.pool.state = 0 → w.pool.state = 0 ∨ w' = (shellClose w).2 ∨ ∃ msgs, w' = (startOpening msgs w).2 := by
        intro h0
        cases s
        case message asked pipe m hp =>
          rw [message_pool, handleEffect_state] at h0
          cases m
          case poolState st =>
            refine absurd ?_ (hr ⟨asked, pipe.isSome, .poolState st⟩ (by rw [message_handled]; simp))
            exact congrArg SrvMsg.poolState h0
          all_goals exact .inl h0
        case shellClose => exact .inr (.inl rfl)
        case startOpening msgs h hm => exact .inl h
        case askMin => rw [ask_world, request_pool] at h0; exact .inl h0
        case askMax => rw [ask_world, request_pool] at h0; exact .inl h0
        case askAvail => rw [ask_world, request_pool] at h0; exact .inl h0
        case askReset => rw [ask_world, request_pool] at h0; exact .inl h0
        case sendKey => rw [sendKey_world, request_pool] at h0; exact .inl h0
        case startCommand => rw [startCommand_eq, request_pool] at h0; exact .inl h0
        case sendBatch i msgs hm =>
          rw [sendBatch_world] at h0
          split at h0
          · exact .inl h0
          · rw [request_pool] at h0; exact .inl h0
        case signalAndDrop code i cmd =>
          rw [signalAndDrop_world] at h0
          dsimp only at h0
          split at h0
          · simp only [World.withPool, request_pool] at h0; exact .inl h0
          · rw [request_pool] at h0; exact .inl h0
        case dead => exact absurd (show PoolState.closed = 0 from h0) (by decide)
        case closed => exact absurd (show PoolState.closed = 0 from h0) (by decide)
        case reconnected => exact absurd (show PoolState.opened = 0 from h0) (by decide)
        case disconnected => exact absurd (show PoolState.disconnected = 0 from h0) (by decide)
        all_goals first | exact .inl h0 | (rw [request_pool] at h0; exact .inl h0)
      have hsc : (shellClose w).2.pool.state = w.pool.state := by
        rw [shellClose_world]
        dsimp only
        split
        · split
          · simp [World.withPool, request_pool]
          · rw [request_pool]
        · rfl
      rcases step_counts s with ⟨h1', h2', h3'⟩ | hw | ⟨msgs, hw, h0⟩
      · rw [h1']
        refine ⟨h1, fun h0 => ?_⟩
        rcases hst h0 with h | hw | ⟨msgs, hw⟩
        · exact h2 h
        · rw [hw, hsc] at h0; exact h2 h0
        · have hc := startOpening_counts msgs w
          rw [hw] at h0
          rcases hc.2.2 with h6 | ⟨_, h6⟩
          · rw [h6] at h0; exact absurd h0 (by decide)
          · rw [h6] at h0; exact h2 h0
      · have := shellClose_counts w
        rw [hw, this.1, hsc]
        exact ⟨h1, h2⟩
      · have hc := startOpening_counts msgs w
        have hz := h2 h0
        rw [hw]
        refine ⟨?_, ?_⟩
        · have : (startOpening msgs w).2.pool.shellOpened.toNat ≤ 1 := by cases (startOpening msgs w).2.pool.shellOpened <;> decide
          omega
        · intro h6
          rcases hc.2.2 with h | ⟨h, _⟩
          · rw [h] at h6; exact absurd h6 (by decide)
          · rw [h, hz]
  omega

/-- C27: with such a message there can be a second delete. -/
theorem C27_deleted_twice_false : ∃ replies ops, deletes (runOps (.start 1 1 none [] replies) ops) = 2 := by
  refine ⟨[{}, { msgs := [.poolState 2] }, {}, {}, { msgs := [.availability 0 (.int 3), .poolState 0] }, {},
    { msgs := [.poolState 2] }, {}], [.openPool, .closePool, .getAvailable, .openPool, .closePool], ?_⟩
  decide +kernel

/-- Open, close, close again; the first delete fails. -/
example : (runOps (.start 1 1 none [] [{}, { msgs := [.poolState 2] }, { error := some .connectionError }, {}])
    [.openPool, .closePool, .closePool, .closePool]).sent =
    [(.create [.sessionCapability, .initPool 1 1], .ok ()), (.receive none, .ok ()), (.delete, .raised .connectionError),
      (.delete, .ok ())] := by decide +kernel

/-- C34, partial: for every outcome of the shell query but an HTTP read timeout, is_alive is False exactly for a dead pool, which it moves to closed;
otherwise the state is left, and it is True or the error of the query. Missing: the read timeout (`C34_read_timeout_false`). -/
theorem C34_is_alive_partial (q : ShellQuery) (w : World) (rest : List Reply) (hw : w.replies = q.reply :: rest) :
    (q.Dead → (isAlive w).1 = .ok false ∧ (isAlive w).2.pool = { w.pool with state := 3 }) ∧
    (¬ q.Dead → (isAlive w).1 = (match q with
      | .state _ => .ok true
      | .error e => .raised e) ∧ (isAlive w).2.pool = w.pool) := by
  cases q with
  | state st =>
    have hr : request .getShell w = (.ok { shellState := st }, { w with replies := rest, sent := w.sent ++ [(.getShell, .ok ())] }) := by
      unfold request; rw [hw]; rfl
    unfold isAlive
    rw [hr]
    dsimp only [ShellQuery.Dead]
    refine ⟨fun h => ?_, fun h => ?_⟩
    · rw [if_pos h]; exact ⟨rfl, rfl⟩
    · rw [if_neg h]; exact ⟨rfl, rfl⟩
  | error e =>
    have hr : request .getShell w = (.raised e, { w with replies := rest, sent := w.sent ++ [(.getShell, .raised e)] }) := by
      unfold request; rw [hw]; rfl
    unfold isAlive
    rw [hr]
    dsimp only [ShellQuery.Dead]
    refine ⟨fun h => ?_, fun h => ?_⟩
    · rcases h with rfl | rfl | h
      · exact ⟨rfl, rfl⟩
      · exact ⟨rfl, rfl⟩
      · cases e
        case wsManFault => simp at h
        all_goals
          dsimp only
          rw [if_pos h]
          exact ⟨rfl, rfl⟩
    · cases e
      case wsManFault code =>
        dsimp only
        rw [if_neg (by simp only [PyErr.wsManFault.injEq] at h; exact fun hc => h (hc.elim .inl (fun h => .inr (.inl h))))]
        exact ⟨rfl, rfl⟩
      all_goals
        dsimp only
        rw [if_neg (fun hc => h (.inr (.inr hc)))]
        exact ⟨rfl, rfl⟩

/-- C34: after is_alive returned False, close sends nothing. -/
theorem C34_close_after_dead {w w' : World} (h : isAlive w = (.ok false, w')) : closePool w' = (.ok (), w') := by
  have hst : w'.pool.state = 3 := by
    unfold isAlive at h
    split at h
    · simp at h
    · split at h
      · simp only [Prod.mk.injEq, true_and] at h; rw [← h]; rfl
      · simp at h
    · split at h
      · simp only [Prod.mk.injEq, true_and] at h; rw [← h]; rfl
      · simp at h
    · split at h
      · simp only [Prod.mk.injEq, true_and] at h; rw [← h]; rfl
      · simp at h
  obtain ⟨⟨a, ha⟩, _⟩ := terminal_obeys (w := w') (.inl hst)
  exact ha

/-- C34 is false of the code: a timeout of the HTTP read (`requests.ReadTimeout`) of the shell query is raised instead of being reported as a dead
pool, and the pool stays open. -/
theorem C34_read_timeout_false (w : World) (rest : List Reply) (hw : w.replies = { error := some .readTimeout } :: rest) :
    (isAlive w).1 = .raised .readTimeout ∧ (isAlive w).2.pool.state = w.pool.state := by
  have hr : request .getShell w =
      (.raised .readTimeout, { w with replies := rest, sent := w.sent ++ [(.getShell, .raised .readTimeout)] }) := by
    unfold request; rw [hw]
  unfold isAlive
  rw [hr]
  exact ⟨rfl, rfl⟩

/-- A shell that is gone, and an access denied. -/
example : ShellQuery.Dead (.error (.wsManFault (some 0x8033805B))) := .inr (.inl rfl)
example : ¬ ShellQuery.Dead (.error (.wsManFault (some 5))) := by simp [ShellQuery.Dead]
example : (isAlive { replies := [{ error := some (.wsManFault (some 5)) }] }).1 = .raised (.wsManFault (some 5)) := by decide +kernel

end Verif
