import Verif.Props.PoolStreams
/-
C36, C37: the output of a pipeline.
-/
namespace Verif

theorem handleLogged_value {asked pipe : Option Nat} {m : SrvMsg} {w w' : World} {o : Option Obj}
    (h : handleLogged asked pipe m w = (.ok o, w')) : o = m.outputObj := by
  simp only [handleLogged, bind_run, modifyW] at h
  have key : ∀ (p : PoolM Unit) (w : World), (p >>= fun _ => (pure none : PoolM (Option Obj))) w = (.ok o, w') → o = none := by
    intro p w h
    rw [bind_run] at h
    split at h
    · simp only [pure_run, Prod.mk.injEq, Res.ok.injEq] at h; exact h.1.symm
    · simp at h
    · simp at h
  have key2 : ∀ (w : World), (pure none : PoolM (Option Obj)) w = (.ok o, w') → o = none := by
    intro w h
    simp only [pure_run, Prod.mk.injEq, Res.ok.injEq] at h; exact h.1.symm
  cases m <;> simp only [handle] at h
  case output x =>
    simp only [pure_run, Prod.mk.injEq, Res.ok.injEq] at h
    exact h.1.symm
  all_goals first
    | exact key2 _ h
    | exact key _ _ h
    | (split at h
       · exact key2 _ h
       · exact key _ _ h)

theorem pyInt_err {s : PyStr} {e : PyErr} (h : pyInt s = .error e) : e = .valueError := by
  unfold pyInt at h
  repeat' split at h
  all_goals first | (injection h with h; exact h.symm) | simp at h

theorem versionLoop_err (l : List (PyStr × PyStr)) {e : PyErr} (h : versionLoop l = .error e) : e = .valueError := by
  induction l with
  | nil => simp [versionLoop] at h
  | cons p l ih =>
    obtain ⟨v, r⟩ := p
    unfold versionLoop at h
    cases hr : pyInt r with
    | error e1 =>
      rw [hr] at h
      injection h with h
      rw [← h]; exact pyInt_err hr
    | ok cur =>
      cases hv : pyInt v with
      | error e1 =>
        rw [hr, hv] at h
        injection h with h
        rw [← h]; exact pyInt_err hv
      | ok ver =>
        rw [hr, hv] at h
        change (if ver < cur then pure false else if ver > cur then pure true else versionLoop l) = _ at h
        split at h
        · injection h
        · split at h
          · injection h
          · exact ih h

theorem methodName_error {v : Option Int} {e : PyErr} (h : methodName v = .error e) : e = .keyError := by
  unfold methodName at h
  dsimp only at h
  split at h
  · exact (Except.error.inj h).symm
  · split at h
    · cases h
    · exact (Except.error.inj h).symm

/-- No host is called. -/
def Quiet (w : World) (m : SrvMsg) : Prop := w.host = none ∨ m.isHostCall = false

/-- Not waiting, and not the error that a poll ignores. -/
def Loud (r : Res α) : Prop := r ≠ .waiting ∧ r ≠ .raised (.wsManFault (some 2150858793))

theorem loud_unit {p : PoolM Unit} {w : World} {a : α} (h : Loud (p w).1) : Loud ((p >>= fun _ => (pure a : PoolM α)) w).1 := by
  unfold Loud at *
  rw [bind_run]
  split <;> rename_i hp <;> rw [hp] at h
  · simp [pure_run]
  · simpa using h
  · simp at h

theorem handleLogged_loud (asked pipe : Option Nat) (m : SrvMsg) (w : World) (hq : Quiet w m) :
    Loud (handleLogged asked pipe m w).1 := by
  suffices h : ∀ w, Quiet w m → Loud (handle pipe m w).1 from h (w.note asked pipe m) hq
  clear hq w
  intro w hq
  have hcall : ∀ p c, m.isHostCall = true → Loud (processHostCall p c w).1 := by
    intro p c hm
    have hh : w.host = none := hq.resolve_right (by simp [hm])
    simp only [processHostCall, bind_run, getW, hh]
    cases he : methodName (some c.mi) with
    | ok s => simp [pure_run, Loud]
    | error e =>
      rw [methodName_error he]
      simp [raise, Loud]
  cases m <;> simp only [handle]
  case sessionCapability v =>
    refine loud_unit ?_
    simp only [processCapability, bind_run, modifyPool, modifyW]
    cases hv : versionEqualOrNewer (v.getD []) "2.2".toList with
    | error e =>
      have := versionLoop_err _ hv
      simp [raise, Loud, this]
    | ok b => simp [pure_run, Loud]
  case encryptedSessionKey k =>
    refine loud_unit ?_
    simp only [processSessionKey, bind_run, getW]
    cases w.pool.exchangeKey with
    | none => simp [raise, Loud]
    | some x => cases k <;> simp [raise, Loud, modifyPool, modifyW]
  case availability ci r =>
    refine loud_unit ?_
    simp only [processAvailability, bind_run, getW]
    cases w.pool.ciTable ci with
    | none => simp [raise, Loud]
    | some e =>
      cases e with
      | value v => simp [raise, Loud]
      | handler k => cases k <;> cases r <;> simp only [ciHandler] <;> (repeat' split) <;> simp_all [raise, Loud, modifyPool, modifyW, pure_run, bind_run]
  case poolState s =>
    refine loud_unit ?_
    simp only [processPoolState, bind_run, modifyPool, modifyW]
    split <;> simp [raise, Loud, pure_run]
  case poolHostCall c => exact loud_unit (hcall none c rfl)
  case pipelineHostCall c =>
    cases pipe with
    | none => simp [pure_run, Loud]
    | some i => exact loud_unit (hcall (some i) c rfl)
  case pipelineState s e =>
    cases pipe with
    | none => simp [pure_run, Loud]
    | some i =>
      refine loud_unit ?_
      simp only [processPipelineState, bind_run, modifyPipe, modifyW]
      cases e <;> dsimp only [pure_run] <;> split <;> (try split) <;> simp_all [Loud, pure_run, modifyW, bind_run]
  all_goals first
    | (refine loud_unit ?_; simp [Loud, modifyPool, modifyW])
    | (simp [Loud, pure_run]; done)
    | (cases pipe with
       | none => simp [Loud, pure_run]
       | some i => refine loud_unit ?_; simp [Loud, modifyPipe, modifyW])

theorem message_replies (asked pipe : Option Nat) (m : SrvMsg) (w : World) (hq : Quiet w m) :
    (handleLogged asked pipe m w).2.replies = w.replies ∧ (handleLogged asked pipe m w).2.host = w.host := by
  refine ⟨?_, by rw [handleLogged_world, handleEffect_host]; rfl⟩
  rw [handleLogged_world]
  have hcall : ∀ p c, m.isHostCall = true → (hostEffect p c (w.note asked pipe m)).replies = w.replies := by
    intro p c hm
    have hh : w.host = none := hq.resolve_right (by simp [hm])
    have hh' : (w.note asked pipe m).host = none := hh
    unfold hostEffect
    rw [hh']
    rfl
  cases m <;> simp only [handleEffect]
  case poolHostCall c => exact hcall none c rfl
  case pipelineHostCall c =>
    cases pipe with
    | none => rfl
    | some i => exact hcall (some i) c rfl
  all_goals (repeat' split) <;> rfl

/-- What the messages of one receive do to a pipeline. -/
theorem parse_quiet (asked : Option Nat) (i : Nat) (ms : List SrvMsg) : ∀ w, (∀ m ∈ ms, Quiet w m) →
    Loud (parseResponses asked (some i) ms w).1 ∧
    (parseResponses asked (some i) ms w).2.replies = w.replies ∧ (parseResponses asked (some i) ms w).2.host = w.host ∧
    (parseResponses asked (some i) ms w).2.pool.registry = w.pool.registry ∧
    ∀ os w', parseResponses asked (some i) ms w = (.ok os, w') → os = ms.filterMap SrvMsg.outputObj ∧
      (w'.pipes i).output = (w.pipes i).output ∧
      ∀ k, (w'.pipes i).streams.get k = (w.pipes i).streams.get k ++ ms.filterMap (SrvMsg.record k) := by
  induction ms with
  | nil =>
    intro w _
    refine ⟨by simp [parseResponses, pure_run, Loud], rfl, rfl, rfl, fun os w' h => ?_⟩
    simp only [parseResponses, pure_run, Prod.mk.injEq, Res.ok.injEq] at h
    obtain ⟨rfl, rfl⟩ := h
    simp
  | cons m ms ih =>
    intro w hq
    have hl := handleLogged_loud asked (some i) m w (hq m (by simp))
    have hr := message_replies asked (some i) m w (hq m (by simp))
    have hg : (handleLogged asked (some i) m w).2.pool.registry = w.pool.registry := by rw [message_pool, handleEffect_registry]
    have hp := handleEffect_pipe (some i) m w i
    rw [← message_pipes asked] at hp
    have hv : ∀ o w', handleLogged asked (some i) m w = (.ok o, w') → o = m.outputObj := fun o w' h => handleLogged_value h
    unfold parseResponses
    rw [bind_run]
    cases hm : handleLogged asked (some i) m w with
    | mk res w1 =>
      rw [hm] at hl hr hg hp hv
      cases res with
      | raised e => exact ⟨by simpa [Loud] using hl, hr.1, hr.2, hg, fun os w' h => by simp at h⟩
      | waiting => simp [Loud] at hl
      | ok o =>
        have ho := hv o w1 rfl
        dsimp only at hr hg hp ⊢
        obtain ⟨i1, i2, i3, i4, i5⟩ := ih w1 fun m' hm' => by
          have := hq m' (by simp [hm'])
          unfold Quiet at *
          rw [hr.2]; exact this
        rw [bind_run]
        cases hps : parseResponses asked (some i) ms w1 with
        | mk res w2 =>
          rw [hps] at i1 i2 i3 i4 i5
          dsimp only at i2 i3 i4
          cases res with
          | raised e => exact ⟨by simpa [Loud] using i1, by rw [i2, hr.1], by rw [i3, hr.2], by rw [i4, hg], fun os w' h => by simp at h⟩
          | waiting => simp [Loud] at i1
          | ok os2 =>
            obtain ⟨j1, j2, j3⟩ := i5 os2 w2 rfl
            refine ⟨by simp [Loud, pure_run], i2.trans hr.1, i3.trans hr.2, i4.trans hg, fun os w' h => ?_⟩
            simp only [pure_run, Prod.mk.injEq, Res.ok.injEq] at h
            obtain ⟨rfl, rfl⟩ := h
            refine ⟨?_, by rw [j2, hp.2.1], fun k => ?_⟩
            · rw [ho, j1, List.filterMap_cons]
              cases m.outputObj <;> simp
            · rw [j3 k, hp.1 k, if_pos rfl, List.append_assoc, List.filterMap_cons]
              cases m.record k <;> simp

/-- One poll. -/
theorem poll_quiet {i : Nat} {w w' : World} (hi : i ∈ w.pool.registry)
    (hq : ∀ r, w.replies.head? = some r → r.error = none → ∀ m ∈ r.msgs, Quiet w m) (h : pollInvoke i w = (.ok (), w')) :
    ∃ r rest, w.replies = r :: rest ∧ w'.replies = rest ∧ w'.host = w.host ∧ w'.pool.registry = w.pool.registry ∧
      (w'.pipes i).output = (w.pipes i).output ++ (received [r]).filterMap SrvMsg.outputObj ∧
      ∀ k, (w'.pipes i).streams.get k = (w.pipes i).streams.get k ++ (received [r]).filterMap (SrvMsg.record k) := by
  unfold pollInvoke receive at h
  rw [bind_run] at h
  have hf : (some i).filter (fun i => w.pool.registry.contains i) = some i := by simp [Option.filter, hi]
  simp only [getW, hf] at h
  rw [bind_run] at h
  cases hw : w.replies with
  | nil => simp [request, hw] at h
  | cons r rest =>
    refine ⟨r, rest, rfl, ?_⟩
    cases he : r.error with
    | some e =>
      simp only [request, hw, he] at h
      split at h
      · simp only [Prod.mk.injEq, true_and] at h
        rw [← h]
        simp [received, he]
      · simp at h
    | none =>
      have hqm : ∀ m ∈ r.msgs, Quiet w m := hq r (by simp [hw]) he
      simp only [request, hw, he] at h
      have hpq := parse_quiet (some i) i r.msgs { w with replies := rest, sent := w.sent ++ [(.receive ((some i).bind fun i => (w.pipes i).commandId), .ok ())] } hqm
      obtain ⟨i1, i2, i3, i4, i5⟩ := hpq
      split at h <;> rename_i hps
      · rename_i os w2
        rw [hps] at i2 i3 i4 i5
        obtain ⟨j1, j2, j3⟩ := i5 os w2 rfl
        simp only [Prod.mk.injEq, true_and] at h
        rw [← h]
        have hrec : received [r] = r.msgs := by simp [received, he]
        rw [hrec]
        refine ⟨i2, i3, i4, ?_, fun k => ?_⟩
        · rw [setPipe_self, j2, j1]
        · rw [setPipe_self, j3 k]
      · rename_i e w2
        rw [hps] at i1
        rw [if_neg (fun hc => i1.2 (by rw [hc]))] at h
        simp at h
      · simp at h

/-- C36: after any number of polls that returned normally, the output and each stream are what they were and then all objects and
records received, in order. This depends on the messages only, not on how they were grouped into receives or on time outs. -/
theorem C36_polls {i : Nat} (n : Nat) : ∀ {w w' : World}, i ∈ w.pool.registry →
    (w.host = none ∨ ∀ m ∈ received (w.replies.take n), m.isHostCall = false) → polls i n w = (.ok (), w') →
    n ≤ w.replies.length ∧ w'.replies = w.replies.drop n ∧
    (w'.pipes i).output = (w.pipes i).output ++ (received (w.replies.take n)).filterMap SrvMsg.outputObj ∧
    ∀ k, (w'.pipes i).streams.get k = (w.pipes i).streams.get k ++ (received (w.replies.take n)).filterMap (SrvMsg.record k) := by
  induction n with
  | zero =>
    intro w w' _ _ h
    simp only [polls, pure_run, Prod.mk.injEq, true_and] at h
    rw [← h]
    simp [received]
  | succ n ih =>
    intro w w' hi hq h
    unfold polls at h
    rw [bind_run] at h
    split at h
    · rename_i a w1 hp
      have hq1 : ∀ r, w.replies.head? = some r → r.error = none → ∀ m ∈ r.msgs, Quiet w m := by
        intro r hr he m hm
        rcases hq with hq | hq
        · exact .inl hq
        · refine .inr (hq m ?_)
          cases hw : w.replies with
          | nil => rw [hw] at hr; simp at hr
          | cons r' rest =>
            rw [hw] at hr
            simp only [List.head?_cons, Option.some.injEq] at hr
            subst hr
            rw [List.take_succ_cons]
            unfold received
            rw [List.flatMap_cons, if_pos he]
            exact List.mem_append_left _ hm
      obtain ⟨r, rest, e1, e2, e3, e4, e5, e6⟩ := poll_quiet hi hq1 hp
      have hsplit : received (w.replies.take (n + 1)) = received [r] ++ received (rest.take n) := by
        rw [e1, List.take_succ_cons]
        simp [received]
      obtain ⟨f1, f2, f3, f4⟩ := ih (w := w1) (w' := w') (by rw [e4]; exact hi) (by
        rcases hq with hq | hq
        · exact .inl (by rw [e3]; exact hq)
        · refine .inr fun m hm => hq m ?_
          rw [hsplit, List.mem_append, ← e2]
          exact .inr hm) h
      rw [e2] at f1 f2 f3 f4
      refine ⟨by rw [e1]; simpa using f1, by rw [f2, e1]; rfl, ?_, fun k => ?_⟩
      · rw [f3, e5, hsplit, List.filterMap_append, List.append_assoc]
      · rw [f4 k, e6 k, hsplit, List.filterMap_append, List.append_assoc]
    · simp at h
    · simp at h

theorem pollWhile_polls {i n : Nat} : ∀ {w w' : World}, pollWhile i n w = (.ok (), w') →
    ∃ k, polls i k w = (.ok (), w') ∧ (w'.pipes i).state ≠ 1 := by
  induction n with
  | zero => intro w w' h; simp [pollWhile, wait] at h
  | succ n ih =>
    intro w w' h
    unfold pollWhile at h
    rw [bind_run] at h
    simp only [getW] at h
    split at h
    · rename_i hs
      simp only [pure_run, Prod.mk.injEq, true_and] at h
      subst h
      exact ⟨0, rfl, hs⟩
    · rw [bind_run] at h
      split at h
      · rename_i a w1 hp
        obtain ⟨k, h1, h2⟩ := ih h
        refine ⟨k + 1, ?_, h2⟩
        unfold polls
        rw [bind_run, hp]
        exact h1
      · simp at h
      · simp at h

/-- C36: `end_invoke` returns the output so far and then all output objects of the replies that it used, in order. -/
theorem C36_end_invoke {i : Nat} {w w' : World} {out : List Obj} (hi : i ∈ w.pool.registry)
    (hq : w.host = none ∨ ∀ m ∈ received w.replies, m.isHostCall = false) (h : endInvoke i w = (.ok out, w')) :
    ∃ n ≤ w.replies.length, w'.replies = w.replies.drop n ∧ (w'.pipes i).state ≠ 1 ∧ out = (w'.pipes i).output ∧
      out = (w.pipes i).output ++ (received (w.replies.take n)).filterMap SrvMsg.outputObj ∧
      ∀ k, (w'.pipes i).streams.get k = (w.pipes i).streams.get k ++ (received (w.replies.take n)).filterMap (SrvMsg.record k) := by
  unfold endInvoke at h
  rw [bind_run] at h
  simp only [getW] at h
  rw [bind_run] at h
  split at h
  · rename_i a w1 hp
    simp only [bind_run, pure_run] at h
    obtain ⟨rfl, rfl⟩ : (w1.pipes i).output = out ∧ w1 = w' := ⟨Res.ok.inj (congrArg Prod.fst h), congrArg Prod.snd h⟩
    obtain ⟨n, hn, hs⟩ := pollWhile_polls hp
    obtain ⟨e1, e2, e3, e4⟩ := C36_polls n hi (hq.imp_right fun hq m hm => hq m (by
      unfold received at hm ⊢
      rw [List.mem_flatMap] at hm ⊢
      obtain ⟨r, hr, hm⟩ := hm
      exact ⟨r, List.mem_of_mem_take hr, hm⟩)) hn
    exact ⟨n, e1, e2, hs, rfl, e3, e4⟩
  · simp at h
  · simp at h

/-- C36: two groupings of the same messages, with time outs in between, give the same output and streams. -/
theorem C36_grouping {i : Nat} {w1 w2 w1' w2' : World} {n1 n2 : Nat} (h1 : i ∈ w1.pool.registry) (h2 : i ∈ w2.pool.registry)
    (hh1 : w1.host = none) (hh2 : w2.host = none) (hsame : w1.pipes i = w2.pipes i)
    (hm : received (w1.replies.take n1) = received (w2.replies.take n2))
    (e1 : polls i n1 w1 = (.ok (), w1')) (e2 : polls i n2 w2 = (.ok (), w2')) :
    (w1'.pipes i).output = (w2'.pipes i).output ∧ ∀ k, (w1'.pipes i).streams.get k = (w2'.pipes i).streams.get k := by
  obtain ⟨_, _, a1, a2⟩ := C36_polls n1 h1 (.inl hh1) e1
  obtain ⟨_, _, b1, b2⟩ := C36_polls n2 h2 (.inl hh2) e2
  exact ⟨by rw [a1, b1, hsame, hm], fun k => by rw [a2 k, b2 k, hsame, hm]⟩

theorem parse_answers (asked pipe : Option Nat) (ms : List SrvMsg) : ∀ w, ∃ l,
    (parseResponses asked pipe ms w).2.sent = w.sent ++ l ∧ ∀ e ∈ l, e.1.isHostAnswer = true := by
  induction ms with
  | nil => intro w; exact ⟨[], by simp [parseResponses, pure_run], by simp⟩
  | cons m ms ih =>
    intro w
    have hs := message_sent asked pipe m w
    have ha : ∀ e ∈ messageRequests pipe m w, e.1.isHostAnswer = true := by
      intro e he
      obtain ⟨p, m', h, a, b, o, h2 | h2⟩ := messageRequests_send _ _ _ e he <;> rw [h, h2] <;> rfl
    unfold parseResponses
    rw [bind_run]
    cases hm : handleLogged asked pipe m w with
    | mk res w1 =>
      rw [hm] at hs
      cases res with
      | raised e => exact ⟨_, hs, ha⟩
      | waiting => exact ⟨_, hs, ha⟩
      | ok o =>
        obtain ⟨l, h1, h2⟩ := ih w1
        dsimp only at hs ⊢
        refine ⟨messageRequests pipe m w ++ l, ?_, fun e he => (List.mem_append.mp he).elim (ha e) (h2 e)⟩
        rw [bind_run]
        split <;> rename_i hp <;> rw [hp] at h1 <;> dsimp only at h1
        · exact h1.trans (by rw [hs, List.append_assoc])
        · exact h1.trans (by rw [hs, List.append_assoc])
        · exact h1.trans (by rw [hs, List.append_assoc])

/-- The host never raises. -/
def Polite (w : World) : Prop := ∀ h, w.host = some h → ∀ n c e, h n c ≠ .raises e

theorem processHostCall_loud {pipe : Option Nat} {c : HostCall} {w : World} (hp : Polite w)
    (hs : ∀ e ∈ hostRequests pipe c w, e.2 = .ok ()) : Loud (processHostCall pipe c w).1 := by
  unfold processHostCall
  rw [bind_run]
  simp only [getW]
  cases hh : w.host with
  | none =>
    dsimp only
    cases he : methodName (some c.mi) with
    | ok s => simp [pure_run, Loud]
    | error e =>
      rw [methodName_error he]
      simp [raise, Loud]
  | some host =>
    simp only [bind_run, modifyW]
    cases hc : host w.hostCalls c with
    | nothing => simp [pure_run, Loud]
    | raises e => exact absurd hc (hp host hh _ _ _)
    | value o =>
      dsimp only
      have ho : w.countHostCall.outcome = .ok () := by
        simp only [hostRequests, hh, hc] at hs
        exact hs _ (List.mem_singleton.mpr rfl)
      rw [bind_run]
      split <;> rename_i hr
      · simp [pure_run, Loud]
      · obtain ⟨x, hx⟩ := (request_ok_iff _ w.countHostCall).mpr ho
        rw [hr] at hx; simp at hx
      · obtain ⟨x, hx⟩ := (request_ok_iff _ w.countHostCall).mpr ho
        rw [hr] at hx; simp at hx

theorem handleLogged_polite (asked pipe : Option Nat) (m : SrvMsg) (w : World) (hp : Polite w)
    (hs : ∀ e ∈ messageRequests pipe m w, e.2 = .ok ()) : Loud (handleLogged asked pipe m w).1 := by
  by_cases hm : m.isHostCall = false
  · exact handleLogged_loud asked pipe m w (.inr hm)
  · cases m
    case poolHostCall c => exact loud_unit (processHostCall_loud (w := w.note asked pipe (.poolHostCall c)) hp hs)
    case pipelineHostCall c =>
      cases pipe with
      | none => exact ⟨by simp [handleLogged, bind_run, modifyW, handle, pure_run], by simp [handleLogged, bind_run, modifyW, handle, pure_run]⟩
      | some i => exact loud_unit (processHostCall_loud (w := w.note asked (some i) (.pipelineHostCall c)) hp hs)
    all_goals exact absurd rfl hm

/-- The messages of one receive, with a host. -/
theorem parse_polite (asked : Option Nat) (i : Nat) (ms : List SrvMsg) : ∀ w, Polite w → ∃ l,
    (parseResponses asked (some i) ms w).2.sent = w.sent ++ l ∧ (parseResponses asked (some i) ms w).2.host = w.host ∧
    (parseResponses asked (some i) ms w).2.pool.registry = w.pool.registry ∧
    ((∀ e ∈ l, e.2 = .ok ()) → Loud (parseResponses asked (some i) ms w).1) ∧
    ∀ os w', parseResponses asked (some i) ms w = (.ok os, w') → os = ms.filterMap SrvMsg.outputObj ∧
      (w'.pipes i).output = (w.pipes i).output ∧ w'.handled = w.handled ++ ms.map (⟨asked, true, ·⟩) := by
  induction ms with
  | nil =>
    intro w _
    refine ⟨[], by simp [parseResponses, pure_run], rfl, rfl, fun _ => by simp [parseResponses, pure_run, Loud], fun os w' h => ?_⟩
    simp only [parseResponses, pure_run, Prod.mk.injEq, Res.ok.injEq] at h
    obtain ⟨rfl, rfl⟩ := h
    simp
  | cons m ms ih =>
    intro w hpol
    have hl := handleLogged_polite asked (some i) m w hpol
    have hsent := message_sent asked (some i) m w
    have hhost : (handleLogged asked (some i) m w).2.host = w.host := by rw [handleLogged_world, handleEffect_host]; rfl
    have hg : (handleLogged asked (some i) m w).2.pool.registry = w.pool.registry := by rw [message_pool, handleEffect_registry]
    have hp := (handleEffect_pipe (some i) m w i).2.1
    rw [← message_pipes asked] at hp
    have hh := message_handled asked (some i) m w
    have hv : ∀ o w', handleLogged asked (some i) m w = (.ok o, w') → o = m.outputObj := fun o w' h => handleLogged_value h
    unfold parseResponses
    rw [bind_run]
    cases hm : handleLogged asked (some i) m w with
    | mk res w1 =>
      rw [hm] at hl hsent hhost hg hp hh hv
      dsimp only at hsent hhost hg hp hh
      cases res with
      | raised e => exact ⟨_, hsent, hhost, hg, fun h => by simpa [Loud] using hl h, fun os w' h => by simp at h⟩
      | waiting => exact ⟨_, hsent, hhost, hg, fun h => by simpa [Loud] using hl h, fun os w' h => by simp at h⟩
      | ok o =>
        have ho := hv o w1 rfl
        obtain ⟨l, i1, i2, i3, i4, i5⟩ := ih w1 (by intro h hw; rw [hhost] at hw; exact hpol h hw)
        dsimp only
        rw [bind_run]
        refine ⟨messageRequests (some i) m w ++ l, ?_⟩
        cases hps : parseResponses asked (some i) ms w1 with
        | mk res w2 =>
          rw [hps] at i1 i2 i3 i4 i5
          dsimp only at i1 i2 i3
          have hs2 : w2.sent = w.sent ++ (messageRequests (some i) m w ++ l) := by rw [i1, hsent, List.append_assoc]
          cases res with
          | raised e =>
            exact ⟨hs2, i2.trans hhost, i3.trans hg, fun h => by simpa [Loud] using i4 fun e he => h e (by simp [he]), fun os w' h => by simp at h⟩
          | waiting =>
            exact ⟨hs2, i2.trans hhost, i3.trans hg, fun h => by simpa [Loud] using i4 fun e he => h e (by simp [he]), fun os w' h => by simp at h⟩
          | ok os2 =>
            obtain ⟨j1, j2, j3⟩ := i5 os2 w2 rfl
            refine ⟨hs2, i2.trans hhost, i3.trans hg, fun _ => by simp [Loud, pure_run], fun os w' h => ?_⟩
            simp only [pure_run, Prod.mk.injEq, Res.ok.injEq] at h
            obtain ⟨rfl, rfl⟩ := h
            refine ⟨?_, by rw [j2, hp], by rw [j3, hh]; simp⟩
            rw [ho, j1, List.filterMap_cons]
            cases m.outputObj <;> simp

/-- C36: with a host: after any number of polls that returned normally, if the host raised nothing and its answers could be sent,
the output is what it was and then all output objects handled, in order. -/
theorem C36_host {i : Nat} (n : Nat) : ∀ {w w' : World} {l : List (Request × Res Unit)}, i ∈ w.pool.registry →
    (∀ h, w.host = some h → ∀ n c e, h n c ≠ .raises e) → polls i n w = (.ok (), w') → w'.sent = w.sent ++ l →
    (∀ e ∈ l, e.1.isHostAnswer = true → e.2 = .ok ()) →
    ∃ hs, w'.handled = w.handled ++ hs ∧ (∀ h ∈ hs, h.asked = some i ∧ h.found = true) ∧
      (w'.pipes i).output = (w.pipes i).output ++ hs.filterMap fun h => h.msg.outputObj := by
  induction n with
  | zero =>
    intro w w' l _ _ h _ _
    simp only [polls, pure_run, Prod.mk.injEq, true_and] at h
    rw [← h]
    exact ⟨[], by simp⟩
  | succ n ih =>
    intro w w' l hi hpol h hl hok
    unfold polls at h
    rw [bind_run] at h
    cases hpo : pollInvoke i w with
    | mk res w1 =>
      rw [hpo] at h
      cases res with
      | raised e => simp at h
      | waiting => simp at h
      | ok a =>
        dsimp only at h
        obtain ⟨l1, hl1⟩ : ∃ l1, w1.sent = w.sent ++ l1 := by
          have := (runs_grows (C := fun _ => True) (runs_pollInvoke i w)).sent
          rw [hpo] at this; exact this
        have hgrow : ∀ n w, Runs (fun _ => True) (polls i n) w := by
          intro n
          induction n with
          | zero => intro w; exact runs_pure _ _
          | succ n ih => intro w; exact runs_bind (runs_pollInvoke i w) fun _ w1 _ => ih w1
        obtain ⟨l2, hl2⟩ : ∃ l2, w'.sent = w1.sent ++ l2 := by
          have := (runs_grows (hgrow n w1)).sent
          rw [h] at this; exact this
        have hll : l = l1 ++ l2 := by
          rw [hl2, hl1, List.append_assoc] at hl
          exact (List.append_cancel_left hl).symm
        have hone : ∃ hs, w1.handled = w.handled ++ hs ∧ (∀ h ∈ hs, h.asked = some i ∧ h.found = true) ∧
            (w1.pipes i).output = (w.pipes i).output ++ (hs.filterMap fun h => h.msg.outputObj) ∧ w1.host = w.host ∧
            w1.pool.registry = w.pool.registry := by
          unfold pollInvoke receive at hpo
          rw [bind_run] at hpo
          have hf : (some i).filter (fun i => w.pool.registry.contains i) = some i := by simp [Option.filter, hi]
          simp only [getW, hf] at hpo
          rw [bind_run] at hpo
          cases hw : w.replies with
          | nil => simp [request, hw] at hpo
          | cons r rest =>
            cases he : r.error with
            | some e =>
              simp only [request, hw, he] at hpo
              split at hpo
              · simp only [Prod.mk.injEq] at hpo
                rw [← hpo.2]
                exact ⟨[], by simp⟩
              · simp at hpo
            | none =>
              simp only [request, hw, he] at hpo
              obtain ⟨l3, i1, i2, i3, i4, i5⟩ := parse_polite (some i) i r.msgs
                { w with replies := rest, sent := w.sent ++ [(.receive ((some i).bind fun i => (w.pipes i).commandId), .ok ())] } hpol
              have hans : ∀ e ∈ l3, e.1.isHostAnswer = true := by
                have := parse_answers (some i) (some i) r.msgs
                  { w with replies := rest, sent := w.sent ++ [(.receive ((some i).bind fun i => (w.pipes i).commandId), .ok ())] }
                obtain ⟨l4, k1, k2⟩ := this
                rw [i1] at k1
                rw [List.append_cancel_left k1]
                exact k2
              split at hpo <;> rename_i hps
              · rename_i os w2
                rw [hps] at i2 i3 i5
                obtain ⟨j1, j2, j3⟩ := i5 os w2 rfl
                simp only [Prod.mk.injEq] at hpo
                rw [← hpo.2]
                refine ⟨r.msgs.map (⟨some i, true, ·⟩), j3, by simp, ?_, i2, i3⟩
                rw [setPipe_self, j2, j1]
                congr 1
                rw [List.filterMap_map]
                rfl
              · rename_i e w2
                rw [hps] at i1 i4
                split at hpo
                · rename_i hfault
                  exfalso
                  simp only [Prod.mk.injEq] at hpo
                  have : ∀ e ∈ l3, e.2 = .ok () := by
                    intro x hx
                    refine hok x ?_ (hans x hx)
                    have hq : l1 = (.receive ((some i).bind fun i => (w.pipes i).commandId), .ok ()) :: l3 := by
                      rw [← hpo.2] at hl1
                      dsimp only at i1
                      rw [i1, List.append_assoc] at hl1
                      exact (List.append_cancel_left hl1).symm
                    rw [hll, hq]
                    simp [hx]
                  exact (i4 this).2 (by rw [hfault])
                · simp at hpo
              · simp at hpo
        obtain ⟨hs, k1, k2, k3, k4, k5⟩ := hone
        obtain ⟨hs2, m1, m2, m3⟩ := ih (by rw [k5]; exact hi) (by rw [k4]; exact hpol) h hl2 (fun e he => hok e (by rw [hll]; simp [he]))
        refine ⟨hs ++ hs2, by rw [m1, k1, List.append_assoc], fun x hx => ?_, by rw [m3, k3, List.filterMap_append, List.append_assoc]⟩
        rcases List.mem_append.mp hx with hx | hx
        · exact k2 x hx
        · exact m2 x hx

/-- Three polls, the second one timed out. -/
example : ((polls 0 3 ⟨{ registry := [0] }, fun _ => { state := 1 }, 1, 0, none, 0, [],
      [{ msgs := [.output 1, .debugRecord 7, .output 2] }, { error := some (.wsManFault (some 2150858793)) }, { msgs := [.output 3] }], [], []⟩).2.pipes 0).output
    = [1, 2, 3] := by decide +kernel

/-- C37 is false of the code: if the host fails in the same receive, output before it is lost, and the poll raises. -/
theorem C37_lost_false (i : Nat) (w : World) (before : Obj) (c : HostCall) (e : PyErr) (host) (rest : List Reply)
    (hi : i ∈ w.pool.registry) (hh : w.host = some host) (hr : host w.hostCalls c = .raises e)
    (hw : w.replies = { msgs := [.output before, .pipelineHostCall c] } :: rest) (he : e ≠ .wsManFault (some 2150858793)) :
    (pollInvoke i w).1 = .raised e ∧ ((pollInvoke i w).2.pipes i).output = (w.pipes i).output := by
  have hf : (some i).filter (fun i => w.pool.registry.contains i) = some i := by simp [Option.filter, hi]
  unfold pollInvoke receive
  rw [bind_run]
  simp only [getW, hf, bind_run, request, hw, parseResponses, handleLogged, modifyW, handle, processHostCall, hh, hr, pure_run, raise,
    World.countHostCall, he, if_false, and_self]

/-- C37: if the host raises the fault that a poll ignores, the poll even returns normally. -/
theorem C37_silent_false : ∃ w : World, (pollInvoke 0 w).1 = .ok () ∧ w.replies.map (·.msgs) = [[.output 5, .poolHostCall ⟨1, 1, []⟩, .output 6]] ∧
    ((pollInvoke 0 w).2.pipes 0).output = [] ∧ (pollInvoke 0 w).2.replies = [] := by
  refine ⟨⟨{ registry := [0] }, fun _ => { state := 1 }, 1, 0, some fun _ _ => .raises (.wsManFault (some 2150858793)), 0, [],
      [{ msgs := [.output 5, .poolHostCall ⟨1, 1, []⟩, .output 6] }], [], []⟩, ?_⟩
  decide +kernel

/-- C37, partial: a poll that raises leaves the output of earlier polls, and the records received before the failing message are in
their streams. Missing: the output objects of this receive (`C37_lost_false`). -/
theorem C37_raise_partial {i : Nat} {w w' : World} {e : PyErr} (hi : i < w.created) (h : pollInvoke i w = (.raised e, w')) :
    (w'.pipes i).output = (w.pipes i).output ∧ ∃ hs, w'.handled = w.handled ++ hs ∧
      ∀ k, (w'.pipes i).streams.get k = (w.pipes i).streams.get k ++ recordsFor i k hs := by
  refine ⟨?_, ?_⟩
  · have hparse : ∀ ms asked pipe (w : World), ((parseResponses asked pipe ms w).2.pipes i).output = (w.pipes i).output := by
      intro ms
      induction ms with
      | nil => intro asked pipe w; rfl
      | cons m ms ih =>
        intro asked pipe w
        have hm : ((handleLogged asked pipe m w).2.pipes i).output = (w.pipes i).output := by
          rw [message_pipes]; exact (handleEffect_pipe pipe m w i).2.1
        unfold parseResponses
        rw [bind_run]
        split <;> rename_i h <;> rw [h] at hm
        · rename_i o w1
          have := ih asked pipe w1
          rw [bind_run]
          split <;> rename_i h2 <;> rw [h2] at this <;> exact this.trans hm
        · exact hm
        · exact hm
    have hrec : ((receive (some i) w).2.pipes i).output = (w.pipes i).output := by
      unfold receive
      rw [bind_run]
      simp only [getW]
      rw [bind_run]
      have hq := request_pipes (.receive (((some i).filter (fun i => w.pool.registry.contains i)).bind fun i => (w.pipes i).commandId)) w
      split <;> rename_i h <;> rw [h] at hq
      · rw [hparse]; dsimp only at hq; rw [hq]
      · dsimp only at hq ⊢; rw [hq]
      · dsimp only at hq ⊢; rw [hq]
    unfold pollInvoke at h
    split at h <;> rename_i hx <;> rw [hx] at hrec
    · simp at h
    · split at h
      · simp at h
      · simp only [Prod.mk.injEq] at h
        rw [← h.2]; exact hrec
    · simp at h
  · obtain ⟨hs, h1, h2⟩ := C36_streams w i hi [.pollInvoke i] (by simp)
    have : runOps w [.pollInvoke i] = w' := by
      unfold runOps
      rw [show runOp (.pollInvoke i) w = pollInvoke i w from rfl, h]
      rfl
    rw [this] at h1 h2
    exact ⟨hs, h1, h2⟩

end Verif
