import Verif.Lemmas.PoolReturns
import Verif.Props.PoolDocs
import Verif.Props.Shell
import Verif.Lemmas.PoolWire
/-
C92: a script from the bytes that the server sends to the results.
-/
namespace Verif

/-- C92: the replies of Model/Pool are what the bytes say: every answer to a receive gives the messages that it completes, whatever the
fragments of each message are, however those of several messages are mixed, and whatever stream and answer they are in; errors and the
answers to other requests change nothing. -/
theorem C92_replies {rd : Reader} {msg : Nat → SrvMsg} {rs : List WireReply} {gs : List (List Fragment)} (h : Bring rs gs)
    (hs : Sends rd msg gs.flatten) :
    onWire rd noBuffers rs = List.zipWith (WireReply.tells msg) rs gs ∧ received (onWire rd noBuffers rs) = completes msg gs.flatten := by
  have := onWire_sends h hs
  exact ⟨this, by rw [this, received_tells h]⟩

/-- C92: `execute_ps` returns. If the server says at last that the pool is open, and at last that the pipeline is over, however the messages
are distributed over the answers and however often a receive times out in between, then the call returns what was written, in order, whether
the pipeline failed, and nothing else is asked: one receive for every answer, and the shell is deleted. -/
theorem C92_returns (mn mx : Int) (clock : List Bool) (environment : Nat) {r0 rc rx : Reply} {opening running rest : List Reply}
    {pre body : List SrvMsg} {s : PipeState} {e : Option Obj}
    (h0 : r0.error = none) (hc : rc.error = none) (hx : rx.error = none)
    (ho : ∀ r ∈ opening, r.error = none) (hod : Deliver opening (pre ++ [.poolState 2])) (hpre : ∀ m ∈ pre, m.Routine)
    (hr : ∀ r ∈ running, r.error = none ∨ r.error = some (.wsManFault (some 2150858793)))
    (hrd : Deliver running (body ++ [.pipelineState s e])) (hbody : ∀ m ∈ body, m.Routine) (hs : s ≠ 1) :
    ∃ st w', runScript environment (.start mn mx none clock (r0 :: (opening ++ rc :: (running ++ rx :: rest)))) =
        (.ok (body.filterMap SrvMsg.outputObj, st, s == 5), w') ∧
      (∀ k, st.get k = (body ++ [SrvMsg.pipelineState s e]).filterMap (SrvMsg.record k)) ∧
      requests w'.sent = [.create [.sessionCapability, .initPool mn mx]] ++ List.replicate opening.length (.receive none) ++
        [.command 0 (.createPipeline true)] ++ List.replicate running.length (.receive (rc.command.map .server)) ++ [.delete] ∧
      w'.replies = rest ∧ w'.pool.state = PoolState.closed ∧ w'.pool.shellOpened = false := by
  obtain ⟨w1, o1, o2, o3, op⟩ := openPool_opens mn mx clock (r0 := r0) (tail := rc :: (running ++ rx :: rest)) h0 ho hod hpre (by simp)
  have hnew : newPipe false w1 = (.ok w1.created, ({ w1 with created := w1.created + 1 } : World).setPipe w1.created { isNested := false }) := rfl
  rw [op.created] at hnew
  generalize hw0 : (({ w1 with created := 0 + 1 } : World).setPipe 0 { isNested := false }).setPipe 0
    { ({ isNested := false } : PShell) with commands := ({ isNested := false } : PShell).commands + (2 * environment + 2) } = w0
  have hadd : addCommands 0 (2 * environment + 2) (({ w1 with created := 0 + 1 } : World).setPipe 0 { isNested := false }) = (.ok (), w0) := by
    rw [addCommands_world, setPipe_self, hw0]
  have p0 : w0.pipes 0 = { commands := 0 + (2 * environment + 2) } := by rw [← hw0, setPipe_self]
  have s0 : w0.sent = w1.sent := by rw [← hw0]; rfl
  have r0' : w0.replies = w1.replies := by rw [← hw0]; rfl
  have g0 : w0.host = none := by rw [← hw0]; exact op.host
  have e0 : w0.pool = w1.pool := by rw [← hw0]; rfl
  obtain ⟨w4, hbeg, b10, b11, b12⟩ := beginInvoke_starts (i := 0) (w := w0) (r := rc) (rest := running ++ rx :: rest) (by rw [p0]; rfl)
    (by rw [p0]; simp) (by rw [p0]) (by rw [r0', o2]) hc
  obtain ⟨reply, rest', b1, b2, b3, b4, b5, b6, b7, b8, b9⟩ := beginInvoke_new (by rw [p0]; rfl) (by rw [p0]; simp) hbeg
  rw [r0', o2] at b1
  simp only [List.cons.injEq] at b1
  obtain ⟨rfl, rfl⟩ := b1
  rw [s0, op.sent] at b3
  rw [g0] at b5
  rw [p0] at b7 b8 b9
  rw [e0, o3] at b11
  obtain ⟨w5, hpoll, q1, q2⟩ := pollWhile_ends hs (w4.replies.length + 1) b5 b4 b10 b2 hr hrd hbody (by rw [b2]; simp; omega)
  obtain ⟨b, hpolls, _⟩ := pollWhile_polls hpoll
  obtain ⟨c1, c2, c3, c4⟩ := C36_polls b b4 (.inl b5) hpolls
  obtain ⟨d1, d2, d3⟩ := polls_silent b b4 b5 hpolls
  have hb : b = running.length := by
    have hl := congrArg List.length c2
    rw [q2, b2] at hl
    rw [b2] at c1
    simp only [List.length_drop, List.length_append, List.length_cons] at hl c1
    omega
  subst hb
  have hdur : received (w4.replies.take running.length) = body ++ [.pipelineState s e] := by
    rw [b2, List.take_left', hrd.1]; rfl
  rw [hdur] at c3 c4 d3
  rw [b7] at c3
  rw [b8] at c4
  rw [b9] at d3
  rw [b3] at d1
  have hnd : .delete ∉ requests w5.sent := by
    rw [d1]
    simp only [List.mem_append, List.mem_cons, List.mem_replicate, List.not_mem_nil]
    simp
  have hend : endInvoke 0 w4 = (.ok (w5.pipes 0).output, w5) := by
    unfold endInvoke
    rw [bind_run]
    simp only [getW]
    rw [bind_run, hpoll]
    rfl
  have hsteps : Steps (fun _ => True) w1 w5 := by
    have b1 : Steps (fun _ => True) w1 w0 := by
      rw [← hw0]
      exact .tail (.tail (.refl _) (by have := Step.create (C := fun _ => True) (w := w1) false; rw [newPipe_world, op.created] at this; exact this))
        (by have := Step.setCommands (C := fun _ => True) (w := ({ w1 with created := 0 + 1 } : World).setPipe 0 { isNested := false }) 0 (0 + (2 * environment + 2)); rw [setPipe_self] at this; exact this)
    have b2 : Runs (fun _ => True) (beginInvoke 0 .none) w0 := runs_beginInvoke _ _ _
    have b3 : Runs (fun _ => True) (endInvoke 0) w4 := runs_endInvoke _ _
    unfold Runs at b2 b3
    rw [hbeg] at b2
    rw [hend] at b3
    exact (b1.trans b2).trans b3
  have hopen : w5.pool.shellOpened = true := stays_open hsteps op.shell hnd
  have hclose : closePool w5 = (.ok (), { (request .delete w5).2 with pool := { w5.pool with shellOpened := false, state := PoolState.closed } }) := by
    rw [closePool_run, if_neg (by rw [q1, b11]; decide), if_pos hopen]
    have : w5.outcome = .ok () := by unfold World.outcome; rw [q2]; simp [hx]
    rw [this]
  refine ⟨(w5.pipes 0).streams, { (request .delete w5).2 with pool := { w5.pool with shellOpened := false, state := PoolState.closed } }, ?_, ?_, ?_, ?_, rfl, rfl⟩
  · have hinv : invoke 0 .none w0 = (.ok (w5.pipes 0).output, w5) := by
      unfold invoke
      rw [bind_run, hbeg]
      exact hend
    have hps : runPs environment (.start mn mx none clock (r0 :: (opening ++ rc :: (running ++ rx :: rest)))) =
        (.ok 0, { (request .delete w5).2 with pool := { w5.pool with shellOpened := false, state := PoolState.closed } }) := by
      unfold runPs withPool
      rw [bind_run, o1]
      dsimp only
      rw [leaving_run, bind_run, hnew]
      dsimp only
      rw [bind_run, hadd]
      dsimp only
      rw [bind_run, hinv]
      dsimp only
      rw [pure_run]
      dsimp only
      rw [hclose]
    unfold runScript
    rw [bind_run, hps]
    simp only [bind_run, getW, pure_run, request_pipes]
    rw [c3, d3]
    have hf : body.any SrvMsg.fails = false := by
      rw [List.any_eq_false]
      intro m hm hf
      have := hbody m hm
      cases m <;> simp [SrvMsg.fails] at hf
      simp only [SrvMsg.Routine] at this
      rw [this] at hf
      exact absurd hf (by decide)
    simp [SrvMsg.outputObj, SrvMsg.fails, hf]
  · intro k; rw [c4 k]; cases k <;> rfl
  · show requests (request .delete w5).2.sent = _
    rw [request_sent]
    have happ : requests (w5.sent ++ [(.delete, w5.outcome)]) = requests w5.sent ++ [.delete] := by simp [requests]
    rw [happ, d1, b12]
    simp
  · show (request .delete w5).2.replies = _
    unfold request
    rw [q2]
    simp [hx]

/-- The hypotheses on the answers: a pipeline that fails after some output, in three answers with a time-out between them. -/
example : Deliver [{ msgs := [.output 7, .pipelineState 1 none] }, { error := some (.wsManFault (some 2150858793)) },
      { msgs := [.errorRecord 8, .pipelineState 5 (some 9)] }]
    ([.output 7, .pipelineState 1 none, .errorRecord 8] ++ [.pipelineState 5 (some 9)]) ∧
    ∀ m ∈ [SrvMsg.output 7, .pipelineState 1 none, .errorRecord 8], m.Routine :=
  ⟨⟨by decide +kernel, _, rfl, rfl, by simp⟩, by
    intro m hm
    simp only [List.mem_cons, List.not_mem_nil, or_false] at hm
    rcases hm with rfl | rfl | rfl <;> trivial⟩

/-- C92: `execute_ps` on the bytes of a server. The results are the messages of the server, and do not depend on how it cuts them into
fragments, how it mixes the fragments, and how it distributes them over the answers. -/
theorem C92_execute (mn mx : Int) (clock : List Bool) (environment : Nat) {rd : Reader} {msg : Nat → SrvMsg} {r0 rc rx : WireReply}
    {opening running rest : List WireReply} {go gr gx : List (List Fragment)} {pre body : List SrvMsg} {s : PipeState} {e : Option Obj}
    (h0 : r0.error = none ∧ r0.body = none) (hc : rc.error = none ∧ rc.body = none) (hx : rx.error = none ∧ rx.body = none)
    (bo : Bring opening go) (br : Bring running gr) (bx : Bring rest gx) (hs : Sends rd msg (go.flatten ++ (gr.flatten ++ gx.flatten)))
    (ho : ∀ r ∈ opening, r.error = none) (mo : completes msg go.flatten = pre ++ [.poolState 2]) (eo : EndsMessage go)
    (hpre : ∀ m ∈ pre, m.Routine)
    (hr : ∀ r ∈ running, r.error = none ∨ r.error = some (.wsManFault (some 2150858793)))
    (mr : completes msg gr.flatten = body ++ [.pipelineState s e]) (er : EndsMessage gr) (hbody : ∀ m ∈ body, m.Routine) (hs1 : s ≠ 1) :
    ∃ st w', runScript environment (.start mn mx none clock (onWire rd noBuffers (r0 :: (opening ++ rc :: (running ++ rx :: rest))))) =
        (.ok (body.filterMap SrvMsg.outputObj, st, s == 5), w') ∧
      (∀ k, st.get k = (body ++ [SrvMsg.pipelineState s e]).filterMap (SrvMsg.record k)) ∧
      requests w'.sent = [.create [.sessionCapability, .initPool mn mx]] ++ List.replicate opening.length (.receive none) ++
        [.command 0 (.createPipeline true)] ++ List.replicate running.length (.receive (rc.command.map .server)) ++ [.delete] ∧
      w'.pool.state = PoolState.closed ∧ w'.pool.shellOpened = false := by
  have ball : Bring (r0 :: (opening ++ rc :: (running ++ rx :: rest))) ([] :: (go ++ [] :: (gr ++ [] :: gx))) :=
    .other (.inr h0.2) (bo.append (.other (.inr hc.2) (br.append (.other (.inr hx.2) bx))))
  have hw := onWire_sends (rd := rd) (msg := msg) ball (by simpa using hs)
  rw [List.zipWith_cons_cons, List.zipWith_append bo.length, List.zipWith_cons_cons, List.zipWith_append br.length, List.zipWith_cons_cons] at hw
  obtain ⟨st, w', h1, h2, h3, _, h5, h6⟩ := C92_returns mn mx clock environment (r0 := r0.tells msg []) (rc := rc.tells msg []) (rx := rx.tells msg [])
    (rest := List.zipWith (WireReply.tells msg) rest gx)
    (by rw [tells_error]; exact h0.1) (by rw [tells_error]; exact hc.1) (by rw [tells_error]; exact hx.1)
    (zipWith_tells_error (P := fun e => e = none) ho) (deliver_tells bo mo eo) hpre
    (zipWith_tells_error (P := fun e => e = none ∨ e = some (.wsManFault (some 2150858793))) hr) (deliver_tells br mr er) hbody hs1
  refine ⟨st, w', by rw [hw]; exact h1, h2, ?_, h5, h6⟩
  rw [h3]
  have hcmd : (rc.tells msg []).command = rc.command := by unfold WireReply.tells; rw [hc.1, hc.2]
  rw [hcmd, List.length_zipWith, List.length_zipWith, ← bo.length, ← br.length]
  simp

/-- For the examples: an answer with streams of fragments. -/
def demoFragments (g : List Fragment) : Elem :=
  .node "rsp:Stream".toList [("Name".toList, "stdout".toList)] (some (b64Encode (g.flatMap fragmentBytes))) []

def demoAnswer (gs : List (List Fragment)) : WireReply where
  body := some (demoReceive (gs.map demoFragments))

theorem demo_carries : ∀ gs : List (List Fragment), Carries (gs.map demoFragments) (gs.map fun g => (.stdout, g.flatMap fragmentBytes))
  | [] => .nil
  | _ :: gs => .chunk rfl rfl (demo_carries gs)

theorem demo_streams : ∀ (gs : List (List Fragment)) (t : PyStr),
    (gs.map demoFragments).filter (fun k => k.tag = t) = if t = "rsp:Stream".toList then gs.map demoFragments else []
  | [], t => by
    by_cases h : t = "rsp:Stream".toList
    · rw [if_pos h]; rfl
    · rw [if_neg h]; rfl
  | g :: gs, t => by
    have ih := demo_streams gs t
    have ht : (demoFragments g).tag = "rsp:Stream".toList := rfl
    rw [List.map_cons, List.filter_cons, ih, ht]
    by_cases h : t = "rsp:Stream".toList
    · rw [if_pos h, if_pos h, if_pos (by rw [h]; rfl)]
    · rw [if_neg h, if_neg h, if_neg (by rw [decide_eq_true_eq]; exact fun e => h e.symm)]

theorem demo_elems (ks : List Elem) (t : PyStr) (ts : List PyStr) :
    elemsAt ("rsp:ReceiveResponse".toList :: t :: ts) (demoReceive ks) = (ks.filter fun k => k.tag = t).flatMap (elemsAt ts) := by
  show (List.filter (fun k => decide (Elem.tag k = "rsp:ReceiveResponse".toList)) [Elem.node "rsp:ReceiveResponse".toList [] none ks]).flatMap
    (elemsAt (t :: ts)) = _
  rw [List.filter_cons, if_pos (by rfl)]
  show elemsAt (t :: ts) (Elem.node "rsp:ReceiveResponse".toList [] none ks) ++ [] = _
  rw [List.append_nil]
  rfl

theorem demo_brings (gs : List (List Fragment)) {rs : List WireReply} {hs : List (List Fragment)} (h : Bring rs hs) :
    Bring (demoAnswer gs :: rs) (gs.flatten :: hs) := by
  refine .data rfl rfl ⟨⟨gs, rfl, ?_⟩, ?_, ?_⟩ h
  · rw [demo_elems, demo_streams, if_pos rfl]
    have : (gs.map demoFragments).flatMap (elemsAt []) = gs.map demoFragments := List.flatMap_singleton' _
    rw [this]
    exact demo_carries gs
  · intro e he
    rw [demo_elems, demo_streams, if_neg (by decide)] at he
    exact absurd he (by simp)
  · intro e he
    rw [demo_elems, demo_streams, if_neg (by decide)] at he
    exact absurd he (by simp)

/-- A message cut after `n` bytes. -/
def demoCut (o n : Nat) (data : Bytes) : Fragment × Fragment :=
  (⟨o, 0, data.take n, true, false⟩, ⟨o, 1, data.drop n, false, true⟩)

def demoC := demoCut 1 50 demoCapability
def demoS := demoCut 2 43 demoOpened
def demoO := demoCut 3 1 demoOutput
def demoF := demoCut 4 40 demoCompleted

/-- The capability is in two answers, the output and the state of the pipeline are mixed. -/
def demoOpening : List WireReply := [demoAnswer [[demoC.1], []], demoAnswer [[demoC.2, demoS.1], [demoS.2]]]
def demoRunning : List WireReply := [{ error := some (.wsManFault (some 2150858793)) }, demoAnswer [[demoF.1, demoO.1]], demoAnswer [[demoO.2, demoF.2]]]

def demoMsg : Nat → SrvMsg
  | 1 => .sessionCapability (some "2.3".toList)
  | 2 => .poolState 2
  | 3 => .output 2
  | _ => .pipelineState 4 none

theorem demo_cut {rd : Reader} {o n : Nat} {data : Bytes} {m : SrvMsg} (h : srvMsg rd data = .ok m) :
    ∃ d, Fragmentation o d [(demoCut o n data).1, (demoCut o n data).2] ∧ srvMsg rd d = .ok m :=
  ⟨data, ⟨by simp, by simp [demoCut], by simp [demoCut]; decide, by simp [demoCut]; decide, by simp [demoCut]; decide, by simp [demoCut, payload]⟩, h⟩

theorem demo_sends : Sends demoReader demoMsg ([demoC.1, demoC.2, demoS.1, demoS.2] ++ ([demoF.1, demoO.1, demoO.2, demoF.2] ++ [])) where
  fits := by decide +kernel
  objects := by
    intro o
    match o with
    | 1 => exact .inr (demo_cut (demo_capability _))
    | 2 => exact .inr (demo_cut (demo_opened _))
    | 3 => exact .inr (demo_cut demo_output)
    | 4 => exact .inr (demo_cut (demo_completed _))
    | 0 => exact .inl rfl
    | o + 5 => exact .inl (by simp [ofObject, demoC, demoS, demoO, demoF, demoCut])

theorem demo_bring : Bring demoOpening [[demoC.1], [demoC.2, demoS.1, demoS.2]] ∧
    Bring demoRunning [[], [demoF.1, demoO.1], [demoO.2, demoF.2]] :=
  ⟨demo_brings [[demoC.1], []] (demo_brings [[demoC.2, demoS.1], [demoS.2]] .nil),
   .other (.inl rfl) (demo_brings [[demoF.1, demoO.1]] (demo_brings [[demoO.2, demoF.2]] .nil))⟩

/-- What the pool sees of the answers. -/
example : onWire demoReader noBuffers (demoOpening ++ demoRunning) =
    [{}, { msgs := [.sessionCapability (some "2.3".toList), .poolState 2] }, { error := some (.wsManFault (some 2150858793)) }, {},
     { msgs := [.output 2, .pipelineState 4 none] }] :=
  (C92_replies (demo_bring.1.append demo_bring.2) demo_sends).1

/-- The call on these bytes. -/
example : ∃ st w', runScript 2 (.start 1 1 none [] (onWire demoReader noBuffers
      (⟨none, none, none, none⟩ :: (demoOpening ++ { command := some 9 } :: (demoRunning ++ ⟨none, none, none, none⟩ :: []))))) = (.ok ([2], st, false), w') ∧
    (∀ k, st.get k = []) ∧
    requests w'.sent = [.create [.sessionCapability, .initPool 1 1], .receive none, .receive none, .command 0 (.createPipeline true),
      .receive (some (.server 9)), .receive (some (.server 9)), .receive (some (.server 9)), .delete] := by
  obtain ⟨st, w', h1, h2, h3, -⟩ := C92_execute 1 1 [] 2 (rd := demoReader) (msg := demoMsg) (r0 := {}) (rc := { command := some 9 }) (rx := {}) (rest := [])
    (gx := []) (pre := [.sessionCapability (some "2.3".toList)]) (body := [.output 2]) (s := 4) (e := none)
    ⟨rfl, rfl⟩ ⟨rfl, rfl⟩ ⟨rfl, rfl⟩ demo_bring.1 demo_bring.2 .nil demo_sends (by decide +kernel) (by decide +kernel) ⟨_, rfl, demoS.2, by decide +kernel, rfl⟩
    (by intro m hm; rw [List.mem_singleton] at hm; subst hm; exact ⟨_, [2, 3], rfl, ["2".toList, "3".toList], by decide, by decide +kernel, by simp [IsDecimal], by decide +kernel⟩) (by decide +kernel) (by decide +kernel)
    ⟨_, rfl, demoF.2, by decide +kernel, rfl⟩
    (by intro m hm; rw [List.mem_singleton] at hm; subst hm; exact trivial) (by decide)
  refine ⟨st, w', h1, fun k => by rw [h2 k]; cases k <;> rfl, ?_⟩
  rw [h3]
  rfl

end Verif
