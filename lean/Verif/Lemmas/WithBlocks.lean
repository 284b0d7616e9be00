import Verif.Model.With
import Verif.Props.PoolStates
import Verif.Props.PoolOutput
/-
Lemmas on `with` statements: their steps, and what a pool that is over says about its shell.
-/
namespace Verif

theorem leaving_run (exit : PoolM Unit) (body : PoolM α) (w : World) : leaving exit body w =
    match body w with
    | (.waiting, w1) => (.waiting, w1)
    | (r, w1) =>
      match exit w1 with
      | (.ok _, w2) => (r, w2)
      | (.raised e, w2) => (.raised e, w2)
      | (.waiting, w2) => (.waiting, w2) := rfl

theorem runs_leaving {C : Nat → Prop} {exit : PoolM Unit} {body : PoolM α} {w : World} (hb : Runs C body w)
    (he : ∀ w, Runs C exit w) : Runs C (leaving exit body) w := by
  unfold Runs at *
  rw [leaving_run]
  have key : ∀ (r : Res α) (w1 : World), Steps C w w1 → Steps C w (match exit w1 with
      | (.ok _, w2) => (r, w2)
      | (.raised e, w2) => (.raised e, w2)
      | (.waiting, w2) => (.waiting, w2)).2 := by
    intro r w1 h
    have := he w1
    split <;> rename_i h2 <;> rw [h2] at this <;> exact h.trans this
  split
  · rename_i w1 h
    rw [h] at hb; exact hb
  · rename_i r w1 _ h
    rw [h] at hb
    exact key r w1 hb

theorem runs_withPool {C : Nat → Prop} {body : PoolM α} (hb : ∀ w, Runs C body w) (w : World) : Runs C (withPool body) w :=
  runs_bind (runs_openPool w) fun _ w1 _ => runs_leaving (hb w1) runs_closePool

theorem runs_withPipe {C : Nat → Prop} {body : PoolM α} (i : Nat) (hb : ∀ w, Runs C body w) (w : World) :
    Runs C (withPipe i body) w :=
  runs_leaving (hb w) (runs_closePipe i)

/-- A user's program takes small steps. -/
theorem runs_prog (p : Prog) : ∀ w, Runs (fun _ => True) p.run w := by
  induction p with
  | done => exact fun w => runs_pure _ w
  | raise e => exact fun w => runs_raise _ w
  | call op next ih =>
    intro w
    refine runs_bind ?_ fun _ w1 _ => ih w1
    exact runOp_steps op (fun _ _ => trivial) w
  | branch cond yes no ih1 ih2 =>
    intro w
    refine runs_get ?_
    split
    · exact ih1 w
    · exact ih2 w
  | attempt body handler next ih1 ih2 ih3 =>
    intro w
    refine runs_bind ?_ fun _ w1 _ => ih3 w1
    unfold Runs attempt
    have h1 : Steps _ _ _ := ih1 w
    split <;> rename_i h <;> rw [h] at h1
    · exact h1.trans (ih2 _)
    · exact h1
  | inPool body next ih1 ih2 => exact fun w => runs_bind (runs_withPool ih1 w) fun _ w1 _ => ih2 w1
  | inPipe i body next ih1 ih2 => exact fun w => runs_bind (runs_withPipe i ih1 w) fun _ w1 _ => ih2 w1

theorem ToldOver.grows {w w' : World} (h : ToldOver w) (g : Grows w w') : ToldOver w' := by
  obtain ⟨⟨l, hl⟩, ⟨m, hm⟩⟩ := g
  rcases h with ⟨x, hx, h⟩ | ⟨x, hx, h⟩
  · exact .inl ⟨x, by rw [hm]; exact List.mem_append_left _ hx, h⟩
  · exact .inr ⟨x, by rw [hl]; exact List.mem_append_left _ hx, h⟩

theorem shellClose_state (w : World) : (shellClose w).2.pool.state = w.pool.state := by
  rw [shellClose_world]
  dsimp only
  split
  · split
    · simp [World.withPool, request_pool]
    · rw [request_pool]
  · rfl

/-- A pool gets over by being told so or after its shell was closed. -/
theorem step_over {C : Nat → Prop} {w w' : World} (s : Step C w w') (h : OverState w'.pool.state) :
    OverState w.pool.state ∧ w'.pool.shellOpened = w.pool.shellOpened ∨ w'.pool.shellOpened = false ∨ ToldOver w' := by
  have hn : ∀ s : PoolState, s = PoolState.opened ∨ s = PoolState.disconnected ∨ s = PoolState.negotiationSent ∨ s = PoolState.beforeOpen →
      ¬ OverState s := by
    rintro s (rfl | rfl | rfl | rfl) <;> decide
  cases s
  case message asked pipe m hp =>
    rw [message_pool, handleEffect_state] at h
    rw [message_pool, handleEffect_shellOpened]
    cases m
    case poolState st =>
      exact .inr (.inr (.inl ⟨⟨asked, pipe.isSome, .poolState st⟩, by rw [message_handled]; simp, st, rfl, h⟩))
    all_goals exact .inl ⟨h, rfl⟩
  case dead hd => exact .inr (.inr (.inr hd))
  case closed hc => exact .inr (.inl hc)
  case shellClose hc =>
    rw [shellClose_state] at h
    exact absurd h fun h => h.elim hc.1 fun h => h.elim hc.2.1 hc.2.2
  case startOpening msgs h0 hm =>
    rcases (startOpening_counts msgs w).2.2 with h6 | ⟨_, h6⟩
    · rw [h6] at h; exact absurd h (by decide)
    · rw [h6] at h; exact absurd h (hn _ (.inr (.inr (.inr h0))))
  case reconnected h0 => exact absurd h (hn _ (.inl rfl))
  case disconnected h0 => exact absurd h (hn _ (.inr (.inl rfl)))
  case askMin => rw [ask_world, request_pool] at h ⊢; exact .inl ⟨h, rfl⟩
  case askMax => rw [ask_world, request_pool] at h ⊢; exact .inl ⟨h, rfl⟩
  case askAvail => rw [ask_world, request_pool] at h ⊢; exact .inl ⟨h, rfl⟩
  case askReset => rw [ask_world, request_pool] at h ⊢; exact .inl ⟨h, rfl⟩
  case sendKey => rw [sendKey_world, request_pool] at h ⊢; exact .inl ⟨h, rfl⟩
  case startCommand => rw [startCommand_eq, request_pool] at h ⊢; exact .inl ⟨h, rfl⟩
  case sendBatch i msgs hm =>
    rw [sendBatch_world] at h ⊢
    split at h
    · rename_i hm; rw [if_pos hm]; exact .inl ⟨h, rfl⟩
    · rename_i hm; rw [if_neg hm]; rw [request_pool] at h ⊢; exact .inl ⟨h, rfl⟩
  case signalAndDrop code i cmd =>
    rw [signalAndDrop_world] at h ⊢
    dsimp only at h ⊢
    split at h
    · rename_i hm; rw [if_pos hm]; simp only [World.withPool, request_pool] at h ⊢; exact .inl ⟨h, trivial⟩
    · rename_i hm; rw [if_neg hm]; rw [request_pool] at h ⊢; exact .inl ⟨h, rfl⟩
  all_goals first | exact .inl ⟨h, rfl⟩ | (rw [request_pool] at h ⊢; exact .inl ⟨h, rfl⟩)

/-- What holds of the shell in every program: one delete for every create but for an open shell, and a pool that is over without
being told so has no shell. -/
def ShellKept (w : World) : Prop :=
  deletes w + w.pool.shellOpened.toNat = creates w ∧ (OverState w.pool.state → w.pool.shellOpened = false ∨ ToldOver w)

theorem shellKept_steps {C : Nat → Prop} {w w' : World} (h0 : ShellKept w) (hs : Steps C w w') : ShellKept w' := by
  refine steps_invariant (I := ShellKept) (fun w w' h s => ⟨?_, fun ho => ?_⟩) h0 hs
  · have h := h.1
    rcases step_counts s with ⟨h1, h2, h3⟩ | hw | ⟨msgs, hw, _⟩
    · rw [h1, h2, h3]; exact h
    · have := shellClose_counts w
      rw [hw]; omega
    · have := startOpening_counts msgs w
      rw [hw]; omega
  · rcases step_over s ho with ⟨h1, h2⟩ | h1
    · rw [h2]
      exact (h.2 h1).imp_right fun t => t.grows s.grows
    · exact h1

theorem shellKept_start (min max : Int) (host) (clock : List Bool) (replies : List Reply) :
    ShellKept (.start min max host clock replies) := by
  refine ⟨rfl, fun h => absurd h ?_⟩
  show ¬ OverState PoolState.beforeOpen
  decide

/-- What closing a pool does. -/
theorem closePool_run (w : World) : closePool w =
    if OverState w.pool.state then (.ok (), w)
    else if w.pool.shellOpened then
      match w.outcome with
      | .ok _ => (.ok (), { (request .delete w).2 with pool := { w.pool with shellOpened := false, state := PoolState.closed } })
      | .raised e => (.raised e, (request .delete w).2)
      | .waiting => (.waiting, (request .delete w).2)
    else (.ok (), { w with pool := { w.pool with state := PoolState.closed } }) := by
  unfold closePool
  rw [bind_run]
  simp only [getW]
  by_cases ho : OverState w.pool.state
  · rw [if_pos ho, if_pos (show w.pool.state = PoolState.closed ∨ w.pool.state = PoolState.closing ∨ w.pool.state = PoolState.broken from ho)]
    rfl
  · rw [if_neg ho, if_neg (show ¬ (w.pool.state = PoolState.closed ∨ w.pool.state = PoolState.closing ∨ w.pool.state = PoolState.broken) from ho)]
    simp only [bind_run, shellClose, getW]
    cases hs : w.pool.shellOpened with
    | false => simp [pure_run, modifyPool, modifyW, hs]
    | true =>
      simp only [if_true, bind_run]
      unfold request World.outcome
      cases hr : w.replies with
      | nil => simp
      | cons r rest =>
        cases he : r.error with
        | some e => simp [he]
        | none => simp [he, modifyPool, modifyW]

/-! ### A pool without a host -/

/-- Without a host no message makes a request. -/
theorem message_silent (asked pipe : Option Nat) (m : SrvMsg) (w : World) (hh : w.host = none) :
    (handleLogged asked pipe m w).2.sent = w.sent := by
  rw [message_sent]
  unfold messageRequests hostRequests
  rw [hh]
  cases m <;> simp
  cases pipe <;> rfl

theorem handleEffect_commandId (pipe : Option Nat) (m : SrvMsg) (w : World) (i : Nat) :
    ((handleEffect pipe m w).pipes i).commandId = (w.pipes i).commandId := by
  have same : ∀ w' : World, w'.pipes = w.pipes → (w'.pipes i).commandId = (w.pipes i).commandId := fun w' h => by rw [h]
  have set : ∀ (j : Nat) (p : PShell), p.commandId = (w.pipes j).commandId → ((w.setPipe j p).pipes i).commandId = (w.pipes i).commandId := by
    intro j p h
    by_cases hj : i = j
    · subst hj; rw [setPipe_self, h]
    · simp [World.setPipe, hj]
  cases m <;> simp only [handleEffect]
  all_goals (repeat' split) <;> first
    | rfl
    | exact same _ (hostEffect_pipes _ _ _)
    | exact set _ _ rfl
    | skip

theorem parse_shellOpened (asked pipe : Option Nat) (ms : List SrvMsg) : ∀ w,
    (parseResponses asked pipe ms w).2.pool.shellOpened = w.pool.shellOpened := by
  induction ms with
  | nil => exact fun w => rfl
  | cons m ms ih =>
    intro w
    have h1 : (handleLogged asked pipe m w).2.pool.shellOpened = w.pool.shellOpened := by rw [message_pool, handleEffect_shellOpened]
    unfold parseResponses
    rw [bind_run]
    split <;> rename_i hm <;> rw [hm] at h1
    · rw [snd_bind_ask _ _ id (fun _ _ => rfl)]
      have := ih (by assumption)
      split <;> exact this.trans h1
    · exact h1
    · exact h1

/-- The messages of one receive: what is sent, logged and kept. -/
theorem parse_silent (asked pipe : Option Nat) (ms : List SrvMsg) : ∀ w, w.host = none →
    (parseResponses asked pipe ms w).2.sent = w.sent ∧
    (parseResponses asked pipe ms w).2.replies = w.replies ∧
    (parseResponses asked pipe ms w).2.host = none ∧
    (parseResponses asked pipe ms w).2.created = w.created ∧
    (parseResponses asked pipe ms w).2.pool.registry = w.pool.registry ∧
    (∀ i, ((parseResponses asked pipe ms w).2.pipes i).commandId = (w.pipes i).commandId) ∧
    (∀ i, pipe = some i → ∀ os w', parseResponses asked pipe ms w = (.ok os, w') →
      (w'.pipes i).hadErrors = ((w.pipes i).hadErrors || ms.any SrvMsg.fails)) := by
  induction ms with
  | nil =>
    intro w hh
    refine ⟨rfl, rfl, hh, rfl, rfl, fun _ => rfl, fun i _ os w' h => ?_⟩
    simp only [parseResponses, pure_run, Prod.mk.injEq] at h
    rw [← h.2]; simp
  | cons m ms ih =>
    intro w hh
    have h1 := message_silent asked pipe m w hh
    obtain ⟨h2, h3⟩ := message_replies asked pipe m w (.inl hh)
    have h4 : (handleLogged asked pipe m w).2.created = w.created := by rw [handleLogged_world, handleEffect_created]; rfl
    have h5 : (handleLogged asked pipe m w).2.pool.registry = w.pool.registry := by rw [message_pool, handleEffect_registry]
    have h6 : ∀ i, ((handleLogged asked pipe m w).2.pipes i).commandId = (w.pipes i).commandId := fun i => by
      rw [message_pipes, handleEffect_commandId]
    have h7 : ∀ i, pipe = some i → ((handleLogged asked pipe m w).2.pipes i).hadErrors = ((w.pipes i).hadErrors || m.fails) := by
      intro i hi
      rw [message_pipes, (handleEffect_pipe pipe m w i).2.2, hi]
      simp only [BEq.rfl, Bool.true_and]
      cases m <;> rfl
    unfold parseResponses
    rw [bind_run]
    cases hm : handleLogged asked pipe m w with
    | mk res w1 =>
      rw [hm] at h1 h2 h3 h4 h5 h6 h7
      dsimp only at h1 h2 h3 h4 h5 h6 h7
      cases res with
      | raised e => exact ⟨h1, h2, h3.trans hh, h4, h5, h6, fun i _ os w' h => by simp at h⟩
      | waiting => exact ⟨h1, h2, h3.trans hh, h4, h5, h6, fun i _ os w' h => by simp at h⟩
      | ok o =>
        obtain ⟨i1, i2, i3, i4, i5, i6, i7⟩ := ih w1 (h3.trans hh)
        dsimp only
        rw [bind_run]
        cases hps : parseResponses asked pipe ms w1 with
        | mk res w2 =>
          rw [hps] at i1 i2 i3 i4 i5 i6 i7
          dsimp only at i1 i2 i3 i4 i5 i6 ⊢
          have all : w2.sent = w.sent ∧ w2.replies = w.replies ∧ w2.host = none ∧ w2.created = w.created ∧
              w2.pool.registry = w.pool.registry ∧ ∀ i, (w2.pipes i).commandId = (w.pipes i).commandId :=
            ⟨i1.trans h1, i2.trans h2, i3, i4.trans h4, i5.trans h5, fun i => (i6 i).trans (h6 i)⟩
          cases res with
          | raised e => exact ⟨all.1, all.2.1, all.2.2.1, all.2.2.2.1, all.2.2.2.2.1, all.2.2.2.2.2, fun i _ os w' h => by simp at h⟩
          | waiting => exact ⟨all.1, all.2.1, all.2.2.1, all.2.2.2.1, all.2.2.2.2.1, all.2.2.2.2.2, fun i _ os w' h => by simp at h⟩
          | ok os2 =>
            refine ⟨all.1, all.2.1, all.2.2.1, all.2.2.2.1, all.2.2.2.2.1, all.2.2.2.2.2, fun i hi os w' h => ?_⟩
            simp only [pure_run, Prod.mk.injEq] at h
            rw [← h.2, i7 i hi os2 w2 rfl, h7 i hi, List.any_cons, Bool.or_assoc]

/-- One poll. -/
theorem poll_silent {i : Nat} {w w' : World} (hi : i ∈ w.pool.registry) (hh : w.host = none) (h : pollInvoke i w = (.ok (), w')) :
    ∃ r rest, w.replies = r :: rest ∧ requests w'.sent = requests w.sent ++ [.receive (w.pipes i).commandId] ∧
      w'.replies = rest ∧ w'.host = none ∧ w'.pool.registry = w.pool.registry ∧
      (w'.pipes i).commandId = (w.pipes i).commandId ∧
      (w'.pipes i).hadErrors = ((w.pipes i).hadErrors || (received [r]).any SrvMsg.fails) := by
  unfold pollInvoke receive at h
  rw [bind_run] at h
  have hf : (some i).filter (fun i => w.pool.registry.contains i) = some i := by simp [Option.filter, hi]
  simp only [getW, hf] at h
  rw [bind_run] at h
  cases hw : w.replies with
  | nil => simp [request, hw] at h
  | cons r rest =>
    refine ⟨r, rest, rfl, ?_⟩
    cases he : r.error with
    | some e =>
      simp only [request, hw, he] at h
      split at h
      · simp only [Prod.mk.injEq, true_and] at h
        rw [← h]
        simp [received, he, requests, hh]
      · simp at h
    | none =>
      simp only [request, hw, he] at h
      obtain ⟨i1, i2, i3, i4, i5, i6, i7⟩ := parse_silent (some i) (some i) r.msgs
        { w with replies := rest, sent := w.sent ++ [(.receive ((some i).bind fun i => (w.pipes i).commandId), .ok ())] } hh
      have loud := (parse_quiet (some i) i r.msgs
        { w with replies := rest, sent := w.sent ++ [(.receive ((some i).bind fun i => (w.pipes i).commandId), .ok ())] }
        (fun m _ => .inl hh)).1
      have hrec : received [r] = r.msgs := by simp [received, he]
      rw [hrec]
      split at h <;> rename_i hps
      · rename_i os w2
        rw [hps] at i1 i2 i3 i4 i5 i6 i7
        simp only [Prod.mk.injEq, true_and] at h
        dsimp only at i1 i2 i3 i5 i6
        rw [← h]
        refine ⟨?_, i2, i3, i5, ?_, ?_⟩
        · show requests w2.sent = _
          rw [i1]; simp [requests]
        · rw [setPipe_self]; exact i6 i
        · rw [setPipe_self]; exact i7 i rfl os w2 rfl
      · rename_i e w2
        rw [hps] at loud
        rw [if_neg (fun hc => loud.2 (by rw [hc]))] at h
        simp at h
      · simp at h

theorem polls_silent {i : Nat} (n : Nat) : ∀ {w w' : World}, i ∈ w.pool.registry → w.host = none → polls i n w = (.ok (), w') →
    requests w'.sent = requests w.sent ++ List.replicate n (.receive (w.pipes i).commandId) ∧ w'.host = none ∧
      (w'.pipes i).hadErrors = ((w.pipes i).hadErrors || (received (w.replies.take n)).any SrvMsg.fails) := by
  induction n with
  | zero =>
    intro w w' _ hh h
    simp only [polls, pure_run, Prod.mk.injEq, true_and] at h
    rw [← h]
    simp [received, hh]
  | succ n ih =>
    intro w w' hi hh h
    unfold polls at h
    rw [bind_run] at h
    split at h
    · rename_i a w1 hp
      obtain ⟨r, rest, e1, e2, e3, e4, e5, e6, e7⟩ := poll_silent hi hh hp
      obtain ⟨f1, f2, f3⟩ := ih (by rw [e5]; exact hi) e4 h
      refine ⟨?_, f2, ?_⟩
      · rw [f1, e2, e6, List.append_assoc, List.replicate_succ]; rfl
      · have hsplit : received (w.replies.take (n + 1)) = received [r] ++ received (rest.take n) := by
          rw [e1, List.take_succ_cons]
          simp [received]
        rw [f3, e7, e3, hsplit, List.any_append, Bool.or_assoc]
    · simp at h
    · simp at h

/-- The requests of the loop that waits for the pool to open. -/
structure Opening (mn mx : Int) (replies : List Reply) (a : Nat) (w : World) : Prop where
  host : w.host = none
  created : w.created = 0
  registry : w.pool.registry = []
  shell : w.pool.shellOpened = true
  sent : requests w.sent = .create [.sessionCapability, .initPool mn mx] :: List.replicate a (.receive none)
  left : w.replies = replies.drop (a + 1)

theorem receiveUntil_opening {mn mx : Int} {replies : List Reply} (done : World → Bool) (n : Nat) :
    ∀ {a : Nat} {w w' : World}, Opening mn mx replies a w → receiveUntil done n w = (.ok (), w') →
    ∃ a, Opening mn mx replies a w' := by
  induction n with
  | zero => intro a w w' _ h; simp [receiveUntil, wait] at h
  | succ n ih =>
    intro a w w' ho h
    unfold receiveUntil at h
    rw [bind_run] at h
    simp only [getW] at h
    split at h
    · simp only [pure_run, Prod.mk.injEq, true_and] at h
      exact ⟨a, h ▸ ho⟩
    · rw [bind_run] at h
      split at h
      · rename_i os w1 hr
        refine ih (a := a + 1) ?_ h
        unfold receive at hr
        rw [bind_run] at hr
        simp only [getW] at hr
        rw [bind_run] at hr
        cases hw : w.replies with
        | nil => simp [request, hw] at hr
        | cons r rest =>
          cases he : r.error with
          | some e => simp [request, hw, he] at hr
          | none =>
            simp only [request, hw, he] at hr
            obtain ⟨i1, i2, i3, i4, i5, _, _⟩ := parse_silent none
              ((none : Option Nat).filter (fun i => w.pool.registry.contains i)) r.msgs
              { w with replies := rest, sent := w.sent ++ [(.receive none, .ok ())] } ho.host
            have hr' := congrArg Prod.snd hr
            dsimp only at hr'
            refine ⟨?_, ?_, ?_, ?_, ?_, ?_⟩
            · rw [← hr']; exact i3
            · rw [← hr']; exact i4.trans ho.created
            · rw [← hr']; exact i5.trans ho.registry
            · rw [← hr']; exact (parse_shellOpened _ _ _ _).trans ho.shell
            · rw [← hr']
              refine (congrArg requests i1).trans ?_
              have := ho.sent
              simp only [requests, List.map_append, List.map_cons, List.map_nil] at this ⊢
              rw [this, List.replicate_succ']
              rfl
            · rw [← hr']
              refine i2.trans ?_
              have h1 := ho.left
              rw [hw] at h1
              show rest = _
              rw [← List.tail_drop, ← h1]
              rfl
      · simp at h
      · simp at h

/-- A shell stays open until it is asked to be deleted. -/
theorem stays_open {C : Nat → Prop} {w w' : World} (h : Steps C w w') (ho : w.pool.shellOpened = true) :
    .delete ∉ requests w'.sent → w'.pool.shellOpened = true := by
  refine steps_invariant (I := fun w => .delete ∉ requests w.sent → w.pool.shellOpened = true) (fun w w' h s hd => ?_) (fun _ => ho) h
  obtain ⟨l, hl⟩ := s.grows.sent
  have hw := h fun hm => hd (by rw [hl]; unfold requests at *; rw [List.map_append]; exact List.mem_append_left _ hm)
  rcases step_counts s with ⟨_, _, h3⟩ | hw' | ⟨msgs, hw', _⟩
  · rw [h3]; exact hw
  · refine absurd ?_ hd
    rw [hw', shellClose_world]
    dsimp only
    rw [if_pos hw]
    have := request_sent .delete w
    split
    · show _ ∈ requests (request .delete w).2.sent
      rw [this]; simp [requests]
    · rw [this]; simp [requests]
  · rw [hw', startOpening_world]
    dsimp only
    rw [if_pos hw]
    exact hw

end Verif
