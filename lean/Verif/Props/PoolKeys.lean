import Verif.Props.PoolCalls
/-
C32, C33: the key exchange.
-/
namespace Verif

theorem publicKeys_append (a b : List (Request × Res Unit)) : publicKeys (a ++ b) = publicKeys a ++ publicKeys b := by
  simp [publicKeys, requests]

def OutMsg.isKey : OutMsg → Bool
  | .publicKey _ => true
  | _ => false

theorem publicKeys_none (l : List (Request × Res Unit)) (h : ∀ e ∈ l, ∀ m ∈ e.1.outMsgs, m.isKey = false) :
    publicKeys l = [] := by
  induction l with
  | nil => rfl
  | cons e l ih =>
    have h1 : publicKeys [e] = [] := by
      simp only [publicKeys, requests, List.map_cons, List.map_nil, List.flatMap_cons, List.flatMap_nil, List.append_nil,
        List.filterMap_eq_nil_iff]
      intro m hm
      have := h e (by simp) m hm
      cases m <;> first | rfl | simp [OutMsg.isKey] at this
    rw [show e :: l = [e] ++ l from rfl, publicKeys_append, h1, ih fun e' he => h e' (by simp [he])]
    rfl

/-- A key exchange is under way or done. -/
def KeyBusy (p : Pool) : Prop := p.keyExchanged = true ∨ p.exchangeKey.isSome = true

theorem handleEffect_keys (pipe : Option Nat) (m : SrvMsg) (w : World) :
    (KeyBusy w.pool → KeyBusy (handleEffect pipe m w).pool) ∧
    ((w.pool.keyExchanged = true → w.pool.cipher.isSome = true) →
      (handleEffect pipe m w).pool.keyExchanged = true → (handleEffect pipe m w).pool.cipher.isSome = true) := by
  cases m <;> simp only [handleEffect]
  case encryptedSessionKey k =>
    split
    · exact ⟨fun _ => .inl rfl, fun _ _ => rfl⟩
    · exact ⟨id, id⟩
  all_goals (repeat' split) <;> first | exact ⟨id, id⟩ | (rw [hostEffect_pool]; exact ⟨id, id⟩)

/-- How a step changes the keys. -/
theorem step_keys {C : Nat → Prop} {w w' : World} (s : Step C w w') :
    ((KeyBusy w.pool → KeyBusy w'.pool) ∧
      ((w.pool.keyExchanged = true → w.pool.cipher.isSome = true) → w'.pool.keyExchanged = true → w'.pool.cipher.isSome = true)) ∧
    (publicKeys w'.sent = publicKeys w.sent ∨
      publicKeys w'.sent = publicKeys w.sent ++ [w.keys] ∧ ¬ KeyBusy w.pool ∧ KeyBusy w'.pool) := by
  have hreq : ∀ (r : Request) (w1 : World), w1.sent = w.sent → w1.pool.keyExchanged = w.pool.keyExchanged →
      w1.pool.exchangeKey = w.pool.exchangeKey → w1.pool.cipher = w.pool.cipher → (∀ m ∈ r.outMsgs, m.isKey = false) →
      ((KeyBusy w.pool → KeyBusy (request r w1).2.pool) ∧
      ((w.pool.keyExchanged = true → w.pool.cipher.isSome = true) → (request r w1).2.pool.keyExchanged = true →
        (request r w1).2.pool.cipher.isSome = true)) ∧
      (publicKeys (request r w1).2.sent = publicKeys w.sent ∨
      publicKeys (request r w1).2.sent = publicKeys w.sent ++ [w.keys] ∧ ¬ KeyBusy w.pool ∧ KeyBusy (request r w1).2.pool) := by
    intro r w1 h1 h2 h3 h4 h5
    rw [request_pool]
    refine ⟨⟨?_, ?_⟩, .inl ?_⟩
    · unfold KeyBusy; rw [h2, h3]; exact id
    · rw [h2, h4]; exact id
    · rw [request_sent, h1, publicKeys_append, publicKeys_none [(r, w1.outcome)] (by simpa using h5), List.append_nil]
  cases s
  case message asked pipe m hp =>
    rw [message_pool]
    refine ⟨handleEffect_keys pipe m w, .inl ?_⟩
    rw [message_sent, publicKeys_append, publicKeys_none (messageRequests pipe m w), List.append_nil]
    intro e he
    obtain ⟨p, m', hp, a, b, o, h | h⟩ := messageRequests_send _ _ _ e he <;> rw [hp] <;> simp [Request.outMsgs, h, OutMsg.isKey]
  case sendKey hst =>
    rw [sendKey_world, request_pool]
    refine ⟨⟨fun _ => .inr rfl, id⟩, .inr ⟨?_, hst, .inr rfl⟩⟩
    rw [request_sent, publicKeys_append]
    simp [publicKeys, requests, Request.outMsgs, World.keying]
  case askMin v hst => rw [ask_world]; exact hreq _ _ rfl rfl rfl rfl (by simp [Request.outMsgs, OutMsg.isKey])
  case askMax v hst => rw [ask_world]; exact hreq _ _ rfl rfl rfl rfl (by simp [Request.outMsgs, OutMsg.isKey])
  case askAvail => rw [ask_world]; exact hreq _ _ rfl rfl rfl rfl (by simp [Request.outMsgs, OutMsg.isKey])
  case askReset hst => rw [ask_world]; exact hreq _ _ rfl rfl rfl rfl (by simp [Request.outMsgs, OutMsg.isKey])
  case startCommand i msg hm =>
    rw [startCommand_eq]
    refine hreq _ _ rfl rfl rfl rfl ?_
    simp only [Request.outMsgs, List.mem_singleton, forall_eq]
    rcases hm with rfl | ⟨b, rfl⟩ <;> rfl
  case sendBatch i msgs hm =>
    rw [sendBatch_world]
    split
    · exact ⟨⟨id, id⟩, .inl rfl⟩
    · refine hreq _ _ rfl rfl rfl rfl fun m hx => ?_
      rcases hm m hx with rfl | ⟨o, rfl⟩ <;> rfl
  case signalAndDrop code i cmd =>
    rw [signalAndDrop_world]
    dsimp only
    have := hreq (.signal code i cmd) w rfl rfl rfl rfl (by simp [Request.outMsgs])
    split
    · exact this
    · exact this
  case shellClose hst =>
    rw [shellClose_world]
    dsimp only
    have := hreq .delete w rfl rfl rfl rfl (by simp [Request.outMsgs])
    split
    · split
      · exact this
      · exact this
    · exact ⟨⟨id, id⟩, .inl rfl⟩
  case startOpening msgs hst hm =>
    rw [startOpening_world]
    dsimp only
    have := hreq (.create msgs) w rfl rfl rfl rfl fun m hx => by
      have := List.all_eq_true.mp hm m hx
      cases m <;> first | rfl | simp [OutMsg.isFirst] at this
    split
    · exact ⟨⟨id, id⟩, .inl rfl⟩
    · split
      · exact this
      · exact this
  case connectShell hst => exact hreq _ _ rfl rfl rfl rfl (by simp [Request.outMsgs, OutMsg.isKey])
  all_goals first
    | exact ⟨⟨id, id⟩, .inl rfl⟩
    | exact hreq _ _ rfl rfl rfl rfl (by simp [Request.outMsgs])

/-- C32: in every history at most one public key is sent. -/
theorem C32_one_key (min max : Int) (host) (clock : List Bool) (replies : List Reply) (ops : List Op) :
    (publicKeys (runOps (.start min max host clock replies) ops).sent).length ≤ 1 := by
  refine (history_invariant (I := fun w => (publicKeys w.sent).length ≤ 1 ∧ (publicKeys w.sent ≠ [] → KeyBusy w.pool))
    (fun w w' h s => ?_) (w := .start min max host clock replies) ⟨Nat.zero_le 1, fun h => absurd rfl h⟩ ops).1
  obtain ⟨⟨hb, _⟩, hp⟩ := step_keys s
  rcases hp with hp | ⟨hp, hn, hb'⟩
  · rw [hp]; exact ⟨h.1, fun hx => hb (h.2 hx)⟩
  · have : publicKeys w.sent = [] := Classical.byContradiction fun hc => hn (h.2 hc)
    rw [hp, this]
    exact ⟨by simp, fun _ => hb'⟩

theorem awaitKey_ok (n : Nat) : ∀ w w', awaitKey n w = (.ok (), w') → w'.pool.keyExchanged = true := by
  induction n with
  | zero => intro w w' h; simp [awaitKey, wait] at h
  | succ n ih =>
    intro w w' h
    simp only [awaitKey, bind_run, getW] at h
    split at h
    · rename_i hk
      simp only [pure_run, Prod.mk.injEq, true_and] at h
      rw [← h]; exact hk
    · simp only [bind_run] at h
      split at h
      · split at h
        · simp [raise] at h
        · simp only [bind_run] at h
          split at h
          · exact ih _ _ h
          · simp at h
          · simp at h
      · simp at h
      · simp at h

/-- C32, partial: in every history, exchange_keys returning normally means that a session key is installed, if no earlier exchange was
left unfinished. Missing: that case (`C32_unfinished_false`). -/
theorem C32_installed_partial (min max : Int) (host) (clock : List Bool) (replies : List Reply) (ops : List Op) (w' : World)
    (hn : (runOps (.start min max host clock replies) ops).pool.exchangeKey = none)
    (h : exchangeKeys (runOps (.start min max host clock replies) ops) = (.ok (), w')) :
    w'.pool.keyExchanged = true ∧ w'.pool.cipher.isSome = true := by
  have hst := (runOps_steps (C := fun _ => True) ops (fun _ _ _ _ => trivial) (.start min max host clock replies)).trans
    (runs_exchangeKeys (runOps (.start min max host clock replies) ops))
  rw [h] at hst
  have hc := steps_invariant (I := fun w => w.pool.keyExchanged = true → w.pool.cipher.isSome = true)
    (fun w w' h s => (step_keys s).1.2 h) (fun h => by simp [World.start] at h) hst
  have hk : w'.pool.keyExchanged = true := by
    unfold exchangeKeys at h
    rw [bind_run] at h
    simp only [getW] at h
    split at h
    · rename_i hb
      simp only [pure_run, Prod.mk.injEq, true_and] at h
      rw [← h]
      rcases hb with hb | hb
      · exact hb
      · rw [hn] at hb; simp at hb
    · rw [bind_run] at h
      split at h
      · exact awaitKey_ok _ _ _ h
      · simp at h
      · simp at h
  exact ⟨hk, hc hk⟩

/-- A normal exchange. -/
example : (exchangeKeys (runOps (.start 1 1 none [] [{}, { msgs := [.poolState 2] }, {}, { msgs := [.encryptedSessionKey (some 7)] }])
    [.openPool])).2.pool.cipher = some 7 := by decide +kernel

/-- C32 is false of the code: after an exchange that timed out, the next exchange_keys returns at once, and no key is installed. -/
theorem C32_unfinished_false : ∃ clock replies ops, ∃ w', exchangeKeys (runOps (.start 1 1 none clock replies) ops) = (.ok (), w') ∧
    w'.pool.cipher = none := by
  refine ⟨[false, true], [{}, { msgs := [.poolState 2] }, {}, {}], [.openPool, .exchangeKeys], _, rfl, ?_⟩
  decide +kernel

/-- C32: and it stays like that: with an unfinished exchange every call does nothing. -/
theorem C32_unfinished_ignored (w : World) (h : w.pool.exchangeKey.isSome = true) : exchangeKeys w = (.ok (), w) := by
  unfold exchangeKeys
  rw [bind_run]
  simp only [getW]
  rw [if_pos (.inr h)]
  rfl

/-- C33 is false of the code: a public key request changes nothing and sends nothing, in whatever state. -/
theorem C33_ignored_false (pipe : Option Nat) (w : World) : handle pipe .publicKeyRequest w = (.ok none, w) := rfl

/-- C33: a history of an open pool, at the end of which the request has been handled and no public key was sent. -/
theorem C33_history_false : ∃ replies ops, (runOps (.start 1 1 none [] replies) ops).handled.map (·.msg) =
      [.poolState 2, .publicKeyRequest, .pipelineState 4 none] ∧
    publicKeys (runOps (.start 1 1 none [] replies) ops).sent = [] := by
  refine ⟨[{}, { msgs := [.poolState 2] }, {}, { msgs := [.publicKeyRequest] }, { msgs := [.pipelineState 4 none] }],
    [.openPool, .newPipe, .addCommand 0, .invoke 0 .none], ?_⟩
  decide +kernel

/-- C33, partial: only the user's call starts the exchange; it sends the public key first. Missing: that the server's request
does (`C33_ignored_false`). -/
theorem C33_explicit_partial (w : World) (h : w.pool.keyExchanged = false) (h' : w.pool.exchangeKey = none) :
    Obeys exchangeKeys w (.performed (.send .stdin none none [.publicKey w.keys])) := by
  refine first_get ?_
  rw [if_neg (by simp [h, h'])]
  refine first_bind ⟨w.keying.outcome, [], ?_⟩ fun _ w1 _ => ?_
  · rw [sendKey_world, request_sent]; rfl
  · exact runs_grows (C := fun _ => True) (runs_get (runs_awaitKey _ _))

end Verif
