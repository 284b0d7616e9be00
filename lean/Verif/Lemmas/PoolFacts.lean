import Verif.Lemmas.PoolSteps
/-
What the steps of the pool model do to the parts of the world.
-/
namespace Verif

/-- How the next request ends. -/
def World.outcome (w : World) : Res Unit :=
  match w.replies with
  | [] => .waiting
  | r :: _ => match r.error with
    | some e => .raised e
    | none => .ok ()

theorem request_sent (r : Request) (w : World) : (request r w).2.sent = w.sent ++ [(r, w.outcome)] := by
  unfold request World.outcome
  split
  · rename_i h; rw [h]
  · rename_i h
    rw [h]
    dsimp only
    split <;> rename_i h2 <;> rw [h2]

theorem request_handled (r : Request) (w : World) : (request r w).2.handled = w.handled := by
  unfold request
  split
  · rfl
  · split <;> rfl

theorem request_created (r : Request) (w : World) : (request r w).2.created = w.created := by
  unfold request
  split
  · rfl
  · split <;> rfl

theorem request_host (r : Request) (w : World) : (request r w).2.host = w.host := by
  unfold request
  split
  · rfl
  · split <;> rfl

theorem request_hostCalls (r : Request) (w : World) : (request r w).2.hostCalls = w.hostCalls := by
  unfold request
  split
  · rfl
  · split <;> rfl

theorem request_keys (r : Request) (w : World) : (request r w).2.keys = w.keys := by
  unfold request
  split
  · rfl
  · split <;> rfl

theorem request_ok_iff (r : Request) (w : World) : (∃ x, (request r w).1 = .ok x) ↔ w.outcome = .ok () := by
  unfold request World.outcome
  split
  · rename_i h; simp [h]
  · split <;> simp_all

theorem snd_bind_ask (m : PoolM α) (f : α → PoolM β) (g : World → World) (hf : ∀ a w, (f a w).2 = g w)
    (w : World) : ((m >>= f) w).2 = match (m w).1 with | .ok _ => g (m w).2 | _ => (m w).2 := by
  rw [bind_run]
  split <;> rename_i h <;> rw [h]
  exact hf _ _

/-- The world in which `ask` makes its request. -/
def World.asking (w : World) (k : CiKind) : World :=
  w.withPool ({ w.pool with ciCounter := w.pool.ciCounter + 1 }.setCi w.pool.ciCounter (some (.handler k)))

theorem ask_world (k : CiKind) (msg : Nat → OutMsg) (w : World) :
    (ask k msg w).2 = (request (.send .stdin none none [msg w.pool.ciCounter]) (w.asking k)).2 := by
  simp only [ask, bind_run, getW, modifyPool, modifyW]
  have h := snd_bind_pure (request (.send .stdin none none [msg w.pool.ciCounter])) w.pool.ciCounter (w.asking k)
  rw [bind_run] at h
  exact h

theorem ask_ok {k : CiKind} {msg : Nat → OutMsg} {w w1 : World} {ci : Nat} (h : ask k msg w = (.ok ci, w1)) :
    ci = w.pool.ciCounter ∧ w1 = (request (.send .stdin none none [msg w.pool.ciCounter]) (w.asking k)).2 ∧
      w.outcome = .ok () := by
  have h2 := congrArg Prod.snd h
  rw [ask_world] at h2
  simp only [ask, bind_run, getW, modifyPool, modifyW] at h
  refine ⟨?_, h2.symm, ?_⟩
  · split at h
    · simp only [pure_run, Prod.mk.injEq, Res.ok.injEq] at h
      exact h.1.symm
    · simp at h
    · simp at h
  · split at h
    · rename_i a w' hr
      have := (request_ok_iff (.send .stdin none none [msg w.pool.ciCounter]) (w.asking k)).mp ⟨a, congrArg Prod.fst hr⟩
      exact this
    · simp at h
    · simp at h

/-- The world in which `sendKey` makes its request. -/
def World.keying (w : World) : World := { w with keys := w.keys + 1, pool := { w.pool with exchangeKey := some w.keys } }

theorem sendKey_world (w : World) : (sendKey w).2 = (request (.send .stdin none none [.publicKey w.keys]) w.keying).2 := by
  simp only [sendKey, bind_run, getW, modifyW]
  have h := snd_bind_pure (request (.send .stdin none none [.publicKey w.keys])) () w.keying
  rw [bind_run] at h
  exact h

/-- The world in which `startCommand` makes its request. -/
def World.registering (w : World) (i : Nat) : World :=
  w.withPool { w.pool with registry := if w.pool.registry.contains i then w.pool.registry else w.pool.registry ++ [i] }

theorem startCommand_eq (i : Nat) (msg : OutMsg) (w : World) :
    startCommand i msg w = request (.command i msg) (w.registering i) := rfl

theorem sendBatch_world (i : Nat) (msgs : List OutMsg) (w : World) : (sendBatch i msgs w).2 =
    if msgs = [] then w else (request (.send .stdin (w.pipes i).commandId (some i) msgs) w).2 := by
  simp only [sendBatch, bind_run, getW]
  split
  · rfl
  · have h := snd_bind_pure (request (.send .stdin (w.pipes i).commandId (some i) msgs)) () w
    exact h

theorem signalAndDrop_world (code : SignalCode) (i : Nat) (cmd : CmdId) (w : World) : (signalAndDrop code i cmd w).2 =
    let w1 := (request (.signal code i cmd) w).2
    if w.outcome = .ok () then w1.withPool { w1.pool with registry := w1.pool.registry.filter (· ≠ i) } else w1 := by
  have hk := request_ok_iff (.signal code i cmd) w
  simp only [signalAndDrop, bind_run, modifyPool, modifyW]
  split
  · rename_i a w1 h
    rw [if_pos (hk.mp ⟨a, congrArg Prod.fst h⟩), h]; rfl
  · rename_i e w1 h
    rw [if_neg (fun hc => by have := hk.mpr hc; rw [h] at this; simp at this), h]
  · rename_i w1 h
    rw [if_neg (fun hc => by have := hk.mpr hc; rw [h] at this; simp at this), h]

theorem shellClose_world (w : World) : (shellClose w).2 =
    let w1 := (request .delete w).2
    if w.pool.shellOpened then
      if w.outcome = .ok () then w1.withPool { w1.pool with shellOpened := false } else w1
    else w := by
  have hk := request_ok_iff .delete w
  simp only [shellClose, bind_run, getW]
  by_cases hs : w.pool.shellOpened = true
  · rw [if_pos hs, if_pos hs]
    simp only [bind_run, modifyPool, modifyW]
    split
    · rename_i a w1 h
      rw [if_pos (hk.mp ⟨a, congrArg Prod.fst h⟩), h]; rfl
    · rename_i e w1 h
      rw [if_neg (fun hc => by have := hk.mpr hc; rw [h] at this; simp at this), h]
    · rename_i w1 h
      rw [if_neg (fun hc => by have := hk.mpr hc; rw [h] at this; simp at this), h]
  · rw [if_neg hs, if_neg hs]; rfl

theorem shellOpen_world (msgs : List OutMsg) (w : World) : (shellOpen msgs w).2 =
    let w1 := (request (.create msgs) w).2
    if w.pool.shellOpened then w
    else if w.outcome = .ok () then w1.withPool { w1.pool with shellOpened := true } else w1 := by
  have hk := request_ok_iff (.create msgs) w
  simp only [shellOpen, bind_run, getW]
  by_cases hs : w.pool.shellOpened = true
  · rw [if_pos hs, if_pos hs]; rfl
  · rw [if_neg hs, if_neg hs]
    simp only [bind_run, modifyPool, modifyW]
    split
    · rename_i a w1 h
      rw [if_pos (hk.mp ⟨a, congrArg Prod.fst h⟩), h]; rfl
    · rename_i e w1 h
      rw [if_neg (fun hc => by have := hk.mpr hc; rw [h] at this; simp at this), h]
    · rename_i w1 h
      rw [if_neg (fun hc => by have := hk.mpr hc; rw [h] at this; simp at this), h]

theorem startOpening_world (msgs : List OutMsg) (w : World) : (startOpening msgs w).2 =
    let w1 := (request (.create msgs) w).2
    if w.pool.shellOpened then w.withPool { w.pool with state := PoolState.negotiationSent }
    else if w.outcome = .ok () then
      w1.withPool { w1.pool with shellOpened := true, state := PoolState.negotiationSent }
    else w1 := by
  have hk := request_ok_iff (.create msgs) w
  simp only [startOpening, bind_run, shellOpen, getW]
  by_cases hs : w.pool.shellOpened = true
  · rw [if_pos hs, if_pos hs]; rfl
  · rw [if_neg hs, if_neg hs]
    simp only [bind_run, modifyPool, modifyW]
    cases hr : request (.create msgs) w with
    | mk res w1 =>
      rw [hr] at hk
      cases res with
      | ok a => rw [if_pos (hk.mp ⟨a, rfl⟩)]; rfl
      | raised e => rw [if_neg (fun hc => by simpa using hk.mpr hc)]
      | waiting => rw [if_neg (fun hc => by simpa using hk.mpr hc)]

theorem newPipe_world (nested : Bool) (w : World) :
    (newPipe nested w).2 = ({ w with created := w.created + 1 } : World).setPipe w.created { isNested := nested } := rfl

/-- What a request other than the steps' own changes is: nothing but the logs and the replies. -/
theorem hostEffect_pipes (pipe : Option Nat) (c : HostCall) (w : World) : (hostEffect pipe c w).pipes = w.pipes := by
  unfold hostEffect
  split
  · rfl
  · split <;> first | rfl | simp only [request_pipes, World.countHostCall]

theorem hostEffect_handled (pipe : Option Nat) (c : HostCall) (w : World) : (hostEffect pipe c w).handled = w.handled := by
  unfold hostEffect
  split
  · rfl
  · split <;> first | rfl | simp only [request_handled, World.countHostCall]

theorem hostEffect_created (pipe : Option Nat) (c : HostCall) (w : World) : (hostEffect pipe c w).created = w.created := by
  unfold hostEffect
  split
  · rfl
  · split <;> first | rfl | simp only [request_created, World.countHostCall]

theorem hostEffect_host (pipe : Option Nat) (c : HostCall) (w : World) : (hostEffect pipe c w).host = w.host := by
  unfold hostEffect
  split
  · rfl
  · split <;> first | rfl | simp only [request_host, World.countHostCall]

/-- The messages of a request. -/
def Request.msgs : Request → List OutMsg
  | .create msgs => msgs
  | .connectShell msgs => msgs
  | .command _ msg => [msg]
  | .send _ _ _ msgs => msgs
  | _ => []

/-- The requests that handling a message makes. -/
def hostRequests (pipe : Option Nat) (c : HostCall) (w : World) : List (Request × Res Unit) :=
  match w.host with
  | none => []
  | some host =>
    match host w.hostCalls c with
    | .nothing | .raises _ => []
    | .value o => [(.send .pr none pipe [match pipe with
        | none => OutMsg.poolHostResponse c.ci c.mi o
        | some _ => .pipelineHostResponse c.ci c.mi o], w.outcome)]

theorem hostEffect_sent (pipe : Option Nat) (c : HostCall) (w : World) :
    (hostEffect pipe c w).sent = w.sent ++ hostRequests pipe c w := by
  unfold hostEffect hostRequests
  split <;> rename_i h <;> rw [h]
  · simp
  · rename_i host
    dsimp only
    split <;> rename_i h2 <;> rw [h2]
    · simp [World.countHostCall]
    · simp [World.countHostCall]
    · rw [request_sent]
      cases pipe <;> rfl

/-- The requests that handling a message makes. -/
def messageRequests (pipe : Option Nat) (m : SrvMsg) (w : World) : List (Request × Res Unit) :=
  match m with
  | .poolHostCall c => hostRequests none c w
  | .pipelineHostCall c =>
    match pipe with
    | none => []
    | some i => hostRequests (some i) c w
  | _ => []

theorem handleEffect_sent (pipe : Option Nat) (m : SrvMsg) (w : World) :
    (handleEffect pipe m w).sent = w.sent ++ messageRequests pipe m w := by
  cases m <;> simp only [handleEffect, messageRequests, List.append_nil]
  case poolHostCall c => exact hostEffect_sent none c w
  case pipelineHostCall c =>
    cases pipe
    · simp
    · exact hostEffect_sent _ c w
  all_goals (repeat' split) <;> rfl

theorem handleEffect_handled (pipe : Option Nat) (m : SrvMsg) (w : World) :
    (handleEffect pipe m w).handled = w.handled := by
  cases m <;> simp only [handleEffect]
  all_goals (repeat' split) <;> first | rfl | exact hostEffect_handled _ _ _

theorem handleEffect_created (pipe : Option Nat) (m : SrvMsg) (w : World) :
    (handleEffect pipe m w).created = w.created := by
  cases m <;> simp only [handleEffect]
  all_goals (repeat' split) <;> first | rfl | exact hostEffect_created _ _ _

theorem handleEffect_host (pipe : Option Nat) (m : SrvMsg) (w : World) :
    (handleEffect pipe m w).host = w.host := by
  cases m <;> simp only [handleEffect]
  all_goals (repeat' split) <;> first | rfl | exact hostEffect_host _ _ _

theorem message_sent (asked pipe : Option Nat) (m : SrvMsg) (w : World) :
    (handleLogged asked pipe m w).2.sent = w.sent ++ messageRequests pipe m w := by
  rw [handleLogged_world, handleEffect_sent]
  rfl

theorem message_handled (asked pipe : Option Nat) (m : SrvMsg) (w : World) :
    (handleLogged asked pipe m w).2.handled = w.handled ++ [⟨asked, pipe.isSome, m⟩] := by
  rw [handleLogged_world, handleEffect_handled]
  rfl

theorem message_pool (asked pipe : Option Nat) (m : SrvMsg) (w : World) :
    (handleLogged asked pipe m w).2.pool = (handleEffect pipe m w).pool := by
  rw [handleLogged_world]
  cases m <;> simp only [handleEffect]
  all_goals first | rfl | skip
  all_goals simp only [World.note]
  all_goals (repeat' split) <;> first | rfl | simp only [hostEffect_pool]

/-- The two logs only grow. -/
structure Grows (w w' : World) : Prop where
  sent : ∃ l, w'.sent = w.sent ++ l
  handled : ∃ l, w'.handled = w.handled ++ l

theorem Grows.refl (w : World) : Grows w w := ⟨⟨[], by simp⟩, ⟨[], by simp⟩⟩

theorem Grows.trans {a b c : World} (h : Grows a b) (h' : Grows b c) : Grows a c := by
  obtain ⟨⟨l1, h1⟩, ⟨l2, h2⟩⟩ := h
  obtain ⟨⟨l3, h3⟩, ⟨l4, h4⟩⟩ := h'
  exact ⟨⟨l1 ++ l3, by rw [h3, h1, List.append_assoc]⟩, ⟨l2 ++ l4, by rw [h4, h2, List.append_assoc]⟩⟩

theorem grows_request (r : Request) (w : World) : Grows w (request r w).2 :=
  ⟨⟨_, request_sent r w⟩, ⟨[], by rw [request_handled]; simp⟩⟩

theorem grows_same {w w' : World} (h1 : w'.sent = w.sent) (h2 : w'.handled = w.handled) : Grows w w' :=
  ⟨⟨[], by rw [h1]; simp⟩, ⟨[], by rw [h2]; simp⟩⟩

theorem Step.grows {C : Nat → Prop} {w w' : World} (s : Step C w w') : Grows w w' := by
  cases s
  case message asked pipe m hp => exact ⟨⟨_, message_sent asked pipe m w⟩, ⟨_, message_handled asked pipe m w⟩⟩
  case askMin v h => rw [ask_world]; exact (grows_same rfl rfl : Grows w (w.asking _)).trans (grows_request _ _)
  case askMax v h => rw [ask_world]; exact (grows_same rfl rfl : Grows w (w.asking _)).trans (grows_request _ _)
  case askAvail => rw [ask_world]; exact (grows_same rfl rfl : Grows w (w.asking _)).trans (grows_request _ _)
  case askReset h => rw [ask_world]; exact (grows_same rfl rfl : Grows w (w.asking _)).trans (grows_request _ _)
  case shellClose h =>
    rw [shellClose_world]
    dsimp only
    split
    · split
      · exact (grows_request _ _).trans (grows_same rfl rfl)
      · exact grows_request _ _
    · exact .refl _
  case startOpening msgs h hm =>
    rw [startOpening_world]
    dsimp only
    split
    · exact grows_same rfl rfl
    · split
      · exact (grows_request _ _).trans (grows_same rfl rfl)
      · exact grows_request _ _
  case sendKey h => rw [sendKey_world]; exact (grows_same rfl rfl : Grows w w.keying).trans (grows_request _ _)
  case startCommand i msg h =>
    rw [startCommand_eq]
    exact (grows_same rfl rfl : Grows w (w.registering i)).trans (grows_request _ _)
  case sendBatch i msgs h =>
    rw [sendBatch_world]
    split
    · exact .refl _
    · exact grows_request _ _
  case signalAndDrop code i cmd =>
    rw [signalAndDrop_world]
    dsimp only
    split
    · exact (grows_request _ _).trans (grows_same rfl rfl)
    · exact grows_request _ _
  all_goals first | exact grows_request _ _ | exact grows_same rfl rfl

theorem Steps.grows {C : Nat → Prop} {w w' : World} (h : Steps C w w') : Grows w w' := by
  induction h with
  | refl => exact .refl _
  | tail _ s ih => exact ih.trans s.grows

/-- The first request that a program makes. -/
def First (m : PoolM α) (w : World) (r : Request) : Prop := ∃ outcome rest, (m w).2.sent = w.sent ++ (r, outcome) :: rest

theorem first_request (r : Request) (w : World) : First (request r) w r := ⟨_, [], request_sent r w⟩

theorem first_bind {m : PoolM α} {f : α → PoolM β} {w : World} {r : Request} (h : First m w r)
    (hf : ∀ a w', m w = (.ok a, w') → Grows w' (f a w').2) : First (m >>= f) w r := by
  obtain ⟨o, rest, hs⟩ := h
  unfold First
  rw [bind_run]
  split
  · rename_i a w' hm
    obtain ⟨l, hl⟩ := (hf a w' hm).sent
    rw [hm] at hs
    exact ⟨o, rest ++ l, by rw [hl, hs]; simp⟩
  · rename_i e w' hm
    rw [hm] at hs
    exact ⟨o, rest, hs⟩
  · rename_i w' hm
    rw [hm] at hs
    exact ⟨o, rest, hs⟩

theorem first_ask (k : CiKind) (msg : Nat → OutMsg) (w : World) :
    First (ask k msg) w (.send .stdin none none [msg w.pool.ciCounter]) :=
  ⟨_, [], by rw [ask_world, request_sent]; rfl⟩

theorem first_get {f : World → PoolM β} {w : World} {r : Request} (h : First (f w) w r) : First (getW >>= f) w r := h

/-- A program that runs lets the logs grow. -/
theorem runs_grows {C : Nat → Prop} {m : PoolM α} {w : World} (h : Runs C m w) : Grows w (m w).2 := Steps.grows h

theorem grows_modify (g : World → World) (w : World) (h1 : (g w).sent = w.sent) (h2 : (g w).handled = w.handled) :
    Grows w (modifyW g w).2 := grows_same h1 h2

theorem grows_bind {m : PoolM α} {f : α → PoolM β} {w : World} (h : Grows w (m w).2)
    (hf : ∀ a w', m w = (.ok a, w') → Grows w' (f a w').2) : Grows w ((m >>= f) w).2 := by
  rw [bind_run]
  split <;> rename_i hm <;> rw [hm] at h
  · exact h.trans (hf _ _ hm)
  · exact h
  · exact h

end Verif
