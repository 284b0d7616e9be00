import Verif.Lemmas.WithBlocks
/-
C91: `with` statements clean up, and `Client.execute_ps` as a whole.
-/
namespace Verif

/-- Any body that takes steps. -/
theorem withPool_cleans (min max : Int) (host) (clock : List Bool) (replies : List Reply) {body : PoolM α}
    (hbody : ∀ w, Runs (fun _ => True) body w) {r : Res α} {w' : World}
    (h : withPool body (.start min max host clock replies) = (r, w')) (hr : r ≠ .waiting) :
    (deletes w' = creates w' ∧ OverState w'.pool.state) ∨
    ToldOver w' ∨
    (∃ e, r = .raised e ∧ openPool (.start min max host clock replies) = (.raised e, w')) ∨
    (∃ e, r = .raised e ∧ w'.sent.getLast? = some (.delete, .raised e)) := by
  unfold withPool at h
  rw [bind_run] at h
  have hs1 := runs_openPool (C := fun _ => True) (.start min max host clock replies)
  unfold Runs at hs1
  split at h
  · rename_i u w1 ho
    rw [ho] at hs1
    rw [leaving_run] at h
    have hs2 := hbody w1
    unfold Runs at hs2
    split at h
    · rename_i w2 hb
      exact absurd (congrArg Prod.fst h).symm hr
    · rename_i r2 w2 _ hb
      rw [hb] at hs2
      have kept := shellKept_steps (shellKept_start min max host clock replies) (hs1.trans hs2)
      rw [closePool_run] at h
      by_cases hov : OverState w2.pool.state
      · rw [if_pos hov] at h
        simp only [Prod.mk.injEq] at h
        obtain ⟨_, rfl⟩ := h
        rcases kept.2 hov with hc | ht
        · have := kept.1
          rw [hc] at this
          exact .inl ⟨by simpa using this, hov⟩
        · exact .inr (.inl ht)
      · rw [if_neg hov] at h
        have hover : OverState PoolState.closed := .inl rfl
        by_cases hsh : w2.pool.shellOpened = true
        · rw [if_pos hsh] at h
          cases hout : w2.outcome with
          | ok u =>
            rw [hout] at h
            simp only [Prod.mk.injEq] at h
            obtain ⟨_, rfl⟩ := h
            refine .inl ⟨?_, hover⟩
            have := kept.1
            rw [hsh] at this
            simp only [creates, deletes, request_sent, succeeded_append, hout] at this ⊢
            simp [succeeded, Request.isCreate] at this ⊢
            omega
          | raised e =>
            rw [hout] at h
            simp only [Prod.mk.injEq] at h
            obtain ⟨rfl, rfl⟩ := h
            exact .inr (.inr (.inr ⟨e, rfl, by rw [request_sent, hout]; simp⟩))
          | waiting =>
            rw [hout] at h
            exact absurd (congrArg Prod.fst h).symm hr
        · rw [if_neg hsh] at h
          simp only [Prod.mk.injEq] at h
          obtain ⟨_, rfl⟩ := h
          refine .inl ⟨?_, hover⟩
          have := kept.1
          have hsh : w2.pool.shellOpened = false := by simpa using hsh
          rw [hsh] at this
          exact this
  · rename_i e w1 ho
    simp only [Prod.mk.injEq] at h
    obtain ⟨rfl, rfl⟩ := h
    exact .inr (.inr (.inl ⟨e, rfl, ho⟩))
  · exact absurd (congrArg Prod.fst h).symm hr

/-- C91, partial: whatever the body of a `with RunspacePool(...)` does, once the statement is left, every shell made was deleted and
the pool is over. Missing: if the pool could not be opened (`C91_open_false`), if the server had said that the pool is over
(`C91_broken_false`), or if the delete itself failed, in which case its exception gets out. -/
theorem C91_pool_partial (min max : Int) (host) (clock : List Bool) (replies : List Reply) (body : Prog) {r : Res Unit} {w' : World}
    (h : withPool body.run (.start min max host clock replies) = (r, w')) (hr : r ≠ .waiting) :
    (deletes w' = creates w' ∧ OverState w'.pool.state) ∨
    ToldOver w' ∨
    (∃ e, r = .raised e ∧ openPool (.start min max host clock replies) = (.raised e, w')) ∨
    (∃ e, r = .raised e ∧ w'.sent.getLast? = some (.delete, .raised e)) :=
  withPool_cleans min max host clock replies (runs_prog body) h hr

/-- How the result of the body and the answer to the request of `__exit__` (none if there is no request) make the result of the
statement: the body's, unless the request fails. -/
def exitResult (r : Res α) : Option (Res Unit) → Res α
  | none => r
  | some (.ok _) => r
  | some (.raised e) => .raised e
  | some .waiting => .waiting

/-- How the next request ends. -/
def nextAnswer (w : World) : Res Unit :=
  match w.replies.head? with
  | none => .waiting
  | some reply => match reply.error with
    | some e => .raised e
    | none => .ok ()

theorem nextAnswer_outcome (w : World) : w.outcome = nextAnswer w := by
  unfold World.outcome nextAnswer
  cases w.replies <;> rfl

/-- C91: leaving a `with` over a pool: at most one request, the delete, and only if the pool is not over and has a shell. The
result is the body's, value or exception, unless that request fails. -/
theorem C91_pool_exit {body : PoolM α} {w w1 w2 : World} {r : Res α} (ho : openPool w = (.ok (), w1)) (hb : body w1 = (r, w2))
    (hr : r ≠ .waiting) :
    let asked := ¬ OverState w2.pool.state ∧ w2.pool.shellOpened = true
    (asked → (withPool body w).1 = exitResult r (some (nextAnswer w2)) ∧
      (withPool body w).2.sent = w2.sent ++ [(.delete, nextAnswer w2)]) ∧
    (¬ asked → (withPool body w).1 = r ∧ (withPool body w).2.sent = w2.sent) := by
  have hrun : withPool body w = match closePool w2 with
      | (.ok _, w3) => (r, w3)
      | (.raised e, w3) => (.raised e, w3)
      | (.waiting, w3) => (.waiting, w3) := by
    unfold withPool
    rw [bind_run, ho]
    show leaving closePool body w1 = _
    rw [leaving_run, hb]
    cases r with
    | waiting => exact absurd rfl hr
    | ok a => rfl
    | raised e => rfl
  rw [hrun, closePool_run, ← nextAnswer_outcome]
  refine ⟨fun ⟨h1, h2⟩ => ?_, fun h => ?_⟩
  · rw [if_neg h1, if_pos h2]
    have hs := request_sent .delete w2
    cases hout : w2.outcome <;> rw [hout] at hs <;> exact ⟨rfl, hs⟩
  · by_cases h1 : OverState w2.pool.state
    · rw [if_pos h1]; exact ⟨rfl, rfl⟩
    · rw [if_neg h1, if_neg fun h2 => h ⟨h1, h2⟩]; exact ⟨rfl, rfl⟩

/-- C91: leaving a `with` over a pipeline: nothing is sent for one that was not started; a finished one (stopped, completed, failed)
is terminated under its command id and forgotten, and the result is the body's unless that fails. Any other (running, stopping,
disconnected) is left as it is, and the result is an error about its state whatever the body did: its own exception is replaced. -/
theorem C91_pipe_exit {i : Nat} {body : PoolM α} {w w2 : World} {r : Res α} (hb : body w = (r, w2)) (hr : r ≠ .waiting) :
    let state := (w2.pipes i).state
    (state = 0 → withPipe i body w = (r, w2)) ∧
    (state = 3 ∨ state = 4 ∨ state = 5 → (withPipe i body w).1 = exitResult r (some (nextAnswer w2)) ∧
      (withPipe i body w).2.sent = w2.sent ++ [(.signal .terminate i ((w2.pipes i).commandId.getD (.own i)), nextAnswer w2)] ∧
      (nextAnswer w2 = .ok () → i ∉ (withPipe i body w).2.pool.registry)) ∧
    (state ≠ 0 ∧ state ≠ 3 ∧ state ≠ 4 ∧ state ≠ 5 → withPipe i body w = (.raised .invalidPipelineState, w2)) := by
  have hrun : withPipe i body w = match closePipe i w2 with
      | (.ok _, w3) => (r, w3)
      | (.raised e, w3) => (.raised e, w3)
      | (.waiting, w3) => (.waiting, w3) := by
    unfold withPipe
    rw [leaving_run, hb]
    cases r with
    | waiting => exact absurd rfl hr
    | ok a => rfl
    | raised e => rfl
  dsimp only
  refine ⟨fun h => ?_, fun h => ?_, fun ⟨h0, h3, h4, h5⟩ => ?_⟩
  · have : closePipe i w2 = (.ok (), w2) := by
      unfold closePipe
      rw [bind_run]
      simp only [getW]
      rw [if_pos (show (w2.pipes i).state = PipeState.notStarted from h)]
      rfl
    rw [hrun, this]
  · have hc : closePipe i w2 = signalAndDrop .terminate i ((w2.pipes i).commandId.getD (.own i)) w2 := by
      unfold closePipe
      rw [bind_run]
      simp only [getW]
      rw [if_neg (show ¬ (w2.pipes i).state = PipeState.notStarted from fun h0 => by
        rw [h0] at h; exact absurd h (by decide)), if_neg]
      intro hn
      refine hn ?_
      rcases h with h | h | h <;> rw [h] <;> decide
    rw [hrun, hc, ← nextAnswer_outcome]
    have hs := request_sent (.signal .terminate i ((w2.pipes i).commandId.getD (.own i))) w2
    have hk := signalAndDrop_world .terminate i ((w2.pipes i).commandId.getD (.own i)) w2
    dsimp only at hk
    cases hw : w2.replies with
    | nil =>
      have ho : w2.outcome = .waiting := by simp [World.outcome, hw]
      have : signalAndDrop .terminate i ((w2.pipes i).commandId.getD (.own i)) w2 =
          (.waiting, (request (.signal .terminate i ((w2.pipes i).commandId.getD (.own i))) w2).2) := by
        simp [signalAndDrop, bind_run, request, hw]
      rw [this, ho]
      rw [ho] at hs
      exact ⟨rfl, hs, by simp⟩
    | cons reply rest =>
      cases he : reply.error with
      | some e =>
        have ho : w2.outcome = .raised e := by simp [World.outcome, hw, he]
        have : signalAndDrop .terminate i ((w2.pipes i).commandId.getD (.own i)) w2 =
            (.raised e, (request (.signal .terminate i ((w2.pipes i).commandId.getD (.own i))) w2).2) := by
          simp [signalAndDrop, bind_run, request, hw, he]
        rw [this, ho]
        rw [ho] at hs
        exact ⟨rfl, hs, by simp⟩
      | none =>
        have ho : w2.outcome = .ok () := by simp [World.outcome, hw, he]
        have : (signalAndDrop .terminate i ((w2.pipes i).commandId.getD (.own i)) w2).1 = .ok () := by
          simp [signalAndDrop, bind_run, request, hw, he, modifyPool, modifyW]
        rw [ho] at hs hk
        rw [if_pos rfl] at hk
        generalize hg : signalAndDrop .terminate i ((w2.pipes i).commandId.getD (.own i)) w2 = p at this hk
        obtain ⟨p1, p2⟩ := p
        dsimp only at this hk
        subst this
        rw [ho]
        refine ⟨rfl, ?_, fun _ => ?_⟩
        · show p2.sent = _
          rw [hk]; exact hs
        · show i ∉ p2.pool.registry
          rw [hk]
          simp [World.withPool]
  · have : closePipe i w2 = (.raised .invalidPipelineState, w2) := by
      unfold closePipe
      rw [bind_run]
      simp only [getW]
      rw [if_neg (show ¬ (w2.pipes i).state = PipeState.notStarted from h0), if_pos]
      · rfl
      · rintro (h | h | h)
        · exact h4 h
        · exact h3 h
        · exact h5 h
    rw [hrun, this]

/-- A pool is used, the body raises an error of its own, and the shell is deleted. -/
example : let body := Prog.call .newPipe (.call (.addCommand 0) (.inPipe 0 (.call (.invoke 0 .none) .done) (.raise .valueError)))
    let p := withPool body.run (.start 1 1 none [] [{}, { msgs := [.poolState 2] }, {}, { msgs := [.output 7, .pipelineState 4 none] }, {}, {}])
    p.1 = .raised .valueError ∧ creates p.2 = 1 ∧ deletes p.2 = 1 ∧ p.2.pool.state = 3 ∧ p.2.pool.registry = [] := by decide +kernel

/-- C91 is false of the code: if opening fails after the shell was made (here: the connection is lost while waiting for the pool),
`__exit__` is not called, `open` does not delete the shell, and it stays on the server. -/
theorem C91_open_false : ∃ replies, ∀ body : Prog,
    (withPool body.run (.start 1 1 none [] replies)).1 = .raised .connectionError ∧
    creates (withPool body.run (.start 1 1 none [] replies)).2 = 1 ∧ deletes (withPool body.run (.start 1 1 none [] replies)).2 = 0 ∧
    (withPool body.run (.start 1 1 none [] replies)).2.pool.shellOpened = true := by
  refine ⟨[{}, { error := some .connectionError }, {}], fun body => ?_⟩
  have : withPool body.run (.start 1 1 none [] [{}, { error := some .connectionError }, {}]) =
      (.raised .connectionError, (openPool (.start 1 1 none [] [{}, { error := some .connectionError }, {}])).2) := by
    have ho : (openPool (.start 1 1 none [] [{}, { error := some .connectionError }, {}])).1 = .raised .connectionError := by
      decide +kernel
    unfold withPool
    rw [bind_run]
    generalize openPool (.start 1 1 none [] [{}, { error := some .connectionError }, {}]) = p at ho
    obtain ⟨p1, p2⟩ := p
    dsimp only at ho
    subst ho
    rfl
  rw [this]
  refine ⟨rfl, ?_⟩
  decide +kernel

/-- C91 is false of the code: the shell of a pool that the server calls broken is not deleted. -/
theorem C91_broken_false : ∃ replies body,
    let p := withPool (Prog.run body) (.start 1 1 none [] replies)
    p.1 = .raised .invalidPSRPOperation ∧ creates p.2 = 1 ∧ deletes p.2 = 0 ∧ p.2.pool.shellOpened = true ∧ p.2.replies = [{}] := by
  refine ⟨[{}, { msgs := [.poolState 2] }, {}, { msgs := [.poolState 5] }, {}], .call .getAvailable .done, ?_⟩
  decide +kernel

/-- C91 is false of the code: a connection error during the body is replaced by an error about the state of the pipeline. -/
theorem C91_masked_false : ∃ replies,
    let w := runOps (.start 1 1 none [] replies) [.openPool, .newPipe, .addCommand 0]
    (Prog.run (.call (.invoke 0 .none) .done) w).1 = .raised .connectionError ∧
    (withPipe 0 (Prog.run (.call (.invoke 0 .none) .done)) w).1 = .raised .invalidPipelineState ∧
    0 ∈ (withPipe 0 (Prog.run (.call (.invoke 0 .none) .done)) w).2.pool.registry := by
  refine ⟨[{}, { msgs := [.poolState 2] }, {}, { error := some .connectionError }, {}], ?_⟩
  decide +kernel

theorem addCommands_world (i : Nat) (n : Nat) : ∀ w, addCommands i n w =
    (.ok (), w.setPipe i { w.pipes i with commands := (w.pipes i).commands + n }) := by
  induction n with
  | zero =>
    intro w
    have : (fun j => if j = i then { w.pipes i with commands := (w.pipes i).commands + 0 } else w.pipes j) = w.pipes := by
      funext j
      split
      · rename_i h; rw [h]; rfl
      · rfl
    unfold World.setPipe
    rw [this]
    rfl
  | succ n ih =>
    intro w
    unfold addCommands
    rw [bind_run]
    show addCommands i n (w.setPipe i { w.pipes i with commands := (w.pipes i).commands + 1 }) = _
    rw [ih, setPipe_self]
    congr 1
    unfold World.setPipe
    congr 1
    funext j
    dsimp only
    split
    · congr 1; omega
    · rfl

/-- The opening of a pool without a host: its requests. -/
theorem openPool_opening {mn mx : Int} {clock : List Bool} {replies : List Reply} {w1 : World}
    (h : openPool (.start mn mx none clock replies) = (.ok (), w1)) : ∃ a, Opening mn mx replies a w1 := by
  have hrun : openPool (.start mn mx none clock replies) =
      ((startOpening [.sessionCapability, .initPool mn mx] >>= fun _ => loopUntil (fun w => w.pool.state ≠ PoolState.negotiationSent))
        (.start mn mx none clock replies)) := rfl
  rw [hrun, bind_run] at h
  split at h
  · rename_i u w0 hs
    refine receiveUntil_opening _ _ (a := 0) ?_ h
    cases hw : replies with
    | nil => rw [hw] at hs; simp [startOpening, shellOpen, bind_run, getW, World.start, request] at hs
    | cons r rest =>
      rw [hw] at hs
      cases he : r.error with
      | some e => simp [startOpening, shellOpen, bind_run, getW, World.start, request, he] at hs
      | none =>
        simp [startOpening, shellOpen, bind_run, getW, World.start, request, he, modifyPool, modifyW] at hs
        subst hs
        exact ⟨rfl, rfl, rfl, rfl, rfl, rfl⟩
  · simp at h
  · simp at h

/-- What `begin_invoke` without input does to a new pipeline, if it returns. -/
theorem beginInvoke_new {i : Nat} {w w' : World} (hs : (w.pipes i).state = 0) (hc : (w.pipes i).commands ≠ 0)
    (h : beginInvoke i .none w = (.ok (), w')) :
    ∃ r rest, w.replies = r :: rest ∧ w'.replies = rest ∧ requests w'.sent = requests w.sent ++ [.command i (.createPipeline true)] ∧
      i ∈ w'.pool.registry ∧ w'.host = w.host ∧ w'.created = w.created ∧
      (w'.pipes i).output = (w.pipes i).output ∧ (w'.pipes i).streams = (w.pipes i).streams ∧
      (w'.pipes i).hadErrors = (w.pipes i).hadErrors := by
  unfold beginInvoke at h
  rw [bind_run] at h
  simp only [getW] at h
  rw [if_neg (fun hn => hn (.inl hs)), if_neg hc, bind_run] at h
  split at h
  · rename_i u w1 hi
    simp only [pure_run, Prod.mk.injEq, true_and] at h
    subst h
    unfold invokeMsg at hi
    rw [bind_run, startCommand_eq] at hi
    have hreg : i ∈ (w.registering i).pool.registry := by
      unfold World.registering World.withPool
      dsimp only
      split
      · rename_i h; simpa using h
      · simp
    have hrep : (w.registering i).replies = w.replies := rfl
    cases hw : w.replies with
    | nil => simp [request, hrep, hw] at hi
    | cons r rest =>
      cases he : r.error with
      | some e => simp [request, hrep, hw, he] at hi
      | none =>
        refine ⟨r, rest, rfl, ?_⟩
        simp only [request, hrep, hw, he] at hi
        cases hcm : r.command with
        | none =>
          simp only [hcm, modifyPipe, modifyW, Prod.mk.injEq, true_and] at hi
          subst hi
          refine ⟨rfl, ?_, hreg, rfl, rfl, ?_, ?_, ?_⟩
          · simp [requests, World.setPipe, World.registering, World.withPool, InputArg.noInput]
          all_goals rw [setPipe_self]; rfl
        | some c =>
          simp only [hcm, bind_run, modifyPipe, modifyW, Prod.mk.injEq, true_and] at hi
          subst hi
          refine ⟨rfl, ?_, hreg, rfl, rfl, ?_, ?_, ?_⟩
          · simp [requests, World.setPipe, World.registering, World.withPool, InputArg.noInput]
          all_goals rw [setPipe_self, setPipe_self]; rfl
  · simp at h
  · simp at h

/-- C91: `execute_ps` as a whole, for every server, if it returns: it creates one shell, receives until the pool is open, starts one
command without input, receives for that command only, and deletes the shell (unless the server said that the pool is over). It returns the
objects, records and failure that the server sent in answer to the receives of the command, in order, and nothing else. -/
theorem C91_execute (mn mx : Int) (clock : List Bool) (replies : List Reply) (environment : Nat) {os : List Obj} {st : Streams}
    {he : Bool} {w' : World} (h : runScript environment (.start mn mx none clock replies) = (.ok (os, st, he), w')) :
    ∃ a b cmd, let during := received ((replies.drop (a + 2)).take b)
      (∃ last, requests w'.sent = [.create [.sessionCapability, .initPool mn mx]] ++ List.replicate a (.receive none) ++
        [.command 0 (.createPipeline true)] ++ List.replicate b (.receive cmd) ++ last ∧
        (last = [.delete] ∨ last = [] ∧ ToldOver w')) ∧
      os = during.filterMap SrvMsg.outputObj ∧ (∀ k, st.get k = during.filterMap (SrvMsg.record k)) ∧
      he = during.any SrvMsg.fails := by
  unfold runScript at h
  rw [bind_run] at h
  split at h
  · rename_i i w3 hrun
    simp only [bind_run, getW, pure_run, Prod.mk.injEq, Res.ok.injEq] at h
    obtain ⟨⟨h1, h2, h3⟩, rfl⟩ := h
    unfold runPs withPool at hrun
    rw [bind_run] at hrun
    split at hrun
    · rename_i u w1 ho
      obtain ⟨a, op⟩ := openPool_opening ho
      rw [leaving_run] at hrun
      split at hrun
      · simp at hrun
      · rename_i r w2 hr hb
        rw [bind_run] at hb
        have hnew : newPipe false w1 = (.ok w1.created, ({ w1 with created := w1.created + 1 } : World).setPipe w1.created { isNested := false }) := rfl
        rw [hnew, op.created] at hb
        dsimp only at hb
        rw [bind_run, addCommands_world] at hb
        dsimp only at hb
        rw [setPipe_self] at hb
        rw [bind_run] at hb
        generalize hw0 : (({ w1 with created := 0 + 1 } : World).setPipe 0 { isNested := false }).setPipe 0
          { ({ isNested := false } : PShell) with commands := ({ isNested := false } : PShell).commands + (2 * environment + 2) } = w0 at hb
        have p0 : w0.pipes 0 = { commands := 0 + (2 * environment + 2) } := by rw [← hw0, setPipe_self]
        have s0 : w0.sent = w1.sent := by rw [← hw0]; rfl
        have r0 : w0.replies = w1.replies := by rw [← hw0]; rfl
        have g0 : w0.host = none := by rw [← hw0]; exact op.host
        have e0 : w0.pool = w1.pool := by rw [← hw0]; rfl
        have hok : ∃ out, invoke 0 .none w0 = (.ok out, w2) ∧ r = .ok 0 := by
          split at hb
          · rename_i out w2' hinv
            simp only [pure_run, Prod.mk.injEq] at hb
            exact ⟨out, by rw [hinv, hb.2], hb.1.symm⟩
          · simp only [Prod.mk.injEq] at hb
            rw [← hb.1] at hrun
            revert hrun
            split <;> simp
          · simp only [Prod.mk.injEq] at hb
            exact absurd hb.1.symm hr
        obtain ⟨out, hinv, rfl⟩ := hok
        unfold invoke at hinv
        rw [bind_run] at hinv
        split at hinv
        · rename_i u w4 hbeg
          obtain ⟨reply, rest, b1, b2, b3, b4, b5, b6, b7, b8, b9⟩ := beginInvoke_new (by rw [p0]; rfl) (by rw [p0]; simp) hbeg
          rw [r0, op.left] at b1
          rw [s0, op.sent] at b3
          rw [g0] at b5
          rw [p0] at b7 b8 b9
          have hend := hinv
          unfold endInvoke at hend
          rw [bind_run] at hend
          simp only [getW] at hend
          rw [bind_run] at hend
          split at hend
          · rename_i u2 w5 hpoll
            have hend := congrArg Prod.snd hend
            obtain rfl : w5 = w2 := hend
            obtain ⟨b, hpolls, _⟩ := pollWhile_polls hpoll
            obtain ⟨c1, c2, c3, c4⟩ := C36_polls b b4 (.inl b5) hpolls
            obtain ⟨d1, d2, d3⟩ := polls_silent b b4 b5 hpolls
            have hrest : rest = replies.drop (a + 2) := by
              rw [show a + 2 = (a + 1) + 1 from rfl, ← List.tail_drop, b1]; rfl
            rw [b2, hrest] at c3 c4 d3
            rw [b7] at c3
            rw [b8] at c4
            rw [b9] at d3
            rw [b3] at d1
            have hnd : .delete ∉ requests w5.sent := by
              rw [d1]
              simp only [List.mem_append, List.mem_cons, List.mem_replicate, List.not_mem_nil]
              simp
            have hsteps : Steps (fun _ => True) w1 w5 := by
              have b1 : Steps (fun _ => True) w1 w0 := by
                rw [← hw0]
                exact .tail (.tail (.refl _) (by have := Step.create (C := fun _ => True) (w := w1) false; rw [newPipe_world, op.created] at this; exact this))
                  (by have := Step.setCommands (C := fun _ => True) (w := ({ w1 with created := 0 + 1 } : World).setPipe 0 { isNested := false }) 0 (0 + (2 * environment + 2)); rw [setPipe_self] at this; exact this)
              have b2 : Runs (fun _ => True) (beginInvoke 0 .none) w0 := runs_beginInvoke _ _ _
              have b3 : Runs (fun _ => True) (endInvoke 0) w4 := runs_endInvoke _ _
              unfold Runs at b2 b3
              rw [hbeg] at b2
              rw [hinv] at b3
              exact (b1.trans b2).trans b3
            have hopen : w5.pool.shellOpened = true := stays_open hsteps op.shell hnd
            have kept2 : ShellKept w5 := by
              have := runs_openPool (C := fun _ => True) (.start mn mx none clock replies)
              unfold Runs at this
              rw [ho] at this
              exact shellKept_steps (shellKept_start mn mx none clock replies) (this.trans hsteps)
            have hpipes : w3.pipes = w5.pipes ∧ i = 0 ∧ (w3.sent = w5.sent ∧ ToldOver w5 ∨ requests w3.sent = requests w5.sent ++ [.delete]) ∧
                w3.handled = w5.handled := by
              rw [closePool_run] at hrun
              by_cases hov : OverState w5.pool.state
              · rw [if_pos hov] at hrun
                simp only [Prod.mk.injEq, Res.ok.injEq] at hrun
                obtain ⟨rfl, rfl⟩ := hrun
                refine ⟨rfl, rfl, .inl ⟨rfl, ?_⟩, rfl⟩
                exact (kept2.2 hov).resolve_left (by simp [hopen])
              · rw [if_neg hov, if_pos hopen] at hrun
                cases hout : w5.outcome with
                | ok x =>
                  rw [hout] at hrun
                  simp only [Prod.mk.injEq, Res.ok.injEq] at hrun
                  obtain ⟨rfl, rfl⟩ := hrun
                  refine ⟨request_pipes _ _, rfl, .inr ?_, request_handled _ _⟩
                  show requests (request .delete w5).2.sent = _
                  rw [request_sent]; simp [requests]
                | raised e => rw [hout] at hrun; simp at hrun
                | waiting => rw [hout] at hrun; simp at hrun
            obtain ⟨e1, rfl, e3, e4⟩ := hpipes
            rw [e1] at h1 h2 h3
            refine ⟨a, b, (w4.pipes 0).commandId, ?_, ?_, fun k => ?_, ?_⟩
            · rcases e3 with ⟨e3, et⟩ | e3
              · refine ⟨[], ?_, .inr ⟨rfl, ?_⟩⟩
                · rw [e3, d1]; simp
                · unfold ToldOver at *
                  rw [e3, e4]; exact et
              · refine ⟨[.delete], ?_, .inl rfl⟩
                rw [e3, d1]; simp
            · rw [← h1, c3]; rfl
            · rw [← h2, c4 k]
              cases k <;> rfl
            · rw [← h3, d3]; rfl
          · simp at hend
          · simp at hend
        · simp at hinv
        · simp at hinv
    · simp at hrun
    · simp at hrun
  · simp at h
  · simp at h

/-- A script with two environment variables that writes one object and one warning. -/
example : let p := runScript 2 (.start 1 1 none [] [{}, { msgs := [.sessionCapability (some "2.3".toList), .poolState 2] }, {},
      { error := some (.wsManFault (some 2150858793)) }, { msgs := [.output 7, .warningRecord 8, .pipelineState 4 none] }, {}])
    p.1 = .ok ([7], { warning := [8] }, false) ∧ (requests p.2.sent).length = 6 ∧ deletes p.2 = 1 := by decide +kernel

/-- C91, partial: however `execute_ps` ends, the shell it made is deleted, with the same exceptions as for `C91_pool_partial`. -/
theorem C91_execute_partial (mn mx : Int) (clock : List Bool) (replies : List Reply) (environment : Nat)
    {r : Res (List Obj × Streams × Bool)} {w' : World} (h : runScript environment (.start mn mx none clock replies) = (r, w'))
    (hr : r ≠ .waiting) :
    (deletes w' = creates w' ∧ OverState w'.pool.state) ∨
    ToldOver w' ∨
    (∃ e, r = .raised e ∧ openPool (.start mn mx none clock replies) = (.raised e, w')) ∨
    (∃ e, r = .raised e ∧ w'.sent.getLast? = some (.delete, .raised e)) := by
  have hbody : ∀ w, Runs (fun _ => True) (do
      let i ← newPipe false
      addCommands i (2 * environment + 2)
      let _ ← invoke i .none
      pure i) w := by
    intro w
    refine runs_bind (runs_newPipe false w) fun i w1 _ => ?_
    refine runs_bind ?_ fun _ w2 _ => ?_
    · unfold Runs
      rw [addCommands_world]
      exact (Step.setCommands i _).steps
    · exact runs_bind (runs_invoke i .none w2) fun _ w3 _ => runs_pure _ _
  unfold runScript at h
  rw [bind_run] at h
  split at h <;> rename_i hrun <;> have := withPool_cleans mn mx none clock replies hbody hrun
  · simp only [bind_run, getW, pure_run, Prod.mk.injEq] at h
    obtain ⟨rfl, rfl⟩ := h
    simpa using this (by simp)
  · simp only [Prod.mk.injEq] at h
    obtain ⟨rfl, rfl⟩ := h
    simpa using this (by simp)
  · simp only [Prod.mk.injEq] at h
    exact absurd h.1.symm hr

end Verif
