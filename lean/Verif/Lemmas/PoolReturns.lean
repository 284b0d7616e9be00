import Verif.Spec.PoolWire
import Verif.Props.Utils
import Verif.Props.With
/-
A pool without a host and a server that says what it should: the loops end.
-/
namespace Verif

theorem methodName_known {mi : Int} (h1 : 1 ≤ mi) (h2 : mi ≤ 56) : ∃ s, methodName (some mi) = .ok s := by
  unfold methodName
  simp only [Option.getD_some]
  rw [if_neg (by omega)]
  have : (mi - 1).toNat < methodNames.length := by
    have : methodNames.length = 56 := by decide +kernel
    omega
  rw [List.getElem?_eq_getElem this]
  exact ⟨_, rfl⟩

theorem capability_ok {s : PyStr} {ns : List Nat} (h : Dotted s ns) : ∃ b, versionEqualOrNewer s "2.2".toList = .ok b := by
  obtain ⟨res, h1, _⟩ := C24_numeric_order s "2.2".toList ns [2, 2] h
    ⟨["2".toList, "2".toList], by decide, rfl, by intro p hp; simp at hp; subst hp; exact ⟨by decide, by decide⟩, rfl⟩
  exact ⟨res, h1⟩

theorem final_handled' (i : Nat) (s : PipeState) (e : Option Obj) (w : World) :
    (handle (some i) (.pipelineState s e) w).1 = .ok none := by
  unfold handle processPipelineState
  by_cases hs : s = PipeState.failed <;> cases e <;> simp only [hs, if_true, if_false] <;> rfl

/-- A message that may come at any time is handled. -/
theorem routine_handled (asked pipe : Option Nat) (m : SrvMsg) (w : World) (hh : w.host = none) (hm : m.Routine) :
    (handleLogged asked pipe m w).1 = .ok m.outputObj := by
  unfold handleLogged
  rw [bind_run]
  simp only [modifyW]
  cases m with
  | sessionCapability v =>
    obtain ⟨s, ns, rfl, hd⟩ := hm
    obtain ⟨b, hb⟩ := capability_ok hd
    simp only [handle, processCapability, bind_run, modifyPool, modifyW, Option.getD_some, hb, pure_run, SrvMsg.outputObj]
  | encryptedSessionKey k => exact hm.elim
  | availability ci r => exact hm.elim
  | poolState s => exact hm.elim
  | poolHostCall c =>
    obtain ⟨s, hs⟩ := methodName_known hm.1 hm.2
    simp only [handle, processHostCall, bind_run, getW, hh, hs, pure_run, SrvMsg.outputObj]
  | pipelineHostCall c =>
    obtain ⟨s, hs⟩ := methodName_known hm.1 hm.2
    cases pipe with
    | none => rfl
    | some i => simp only [handle, processHostCall, bind_run, getW, hh, hs, pure_run, SrvMsg.outputObj]
  | pipelineState s e =>
    cases pipe with
    | none => rfl
    | some i => exact final_handled' i s e _
  | _ => cases pipe <;> rfl

theorem final_handled (asked pipe : Option Nat) (s : PipeState) (e : Option Obj) (w : World) :
    (handleLogged asked pipe (.pipelineState s e) w).1 = .ok none := by
  unfold handleLogged
  rw [bind_run]
  simp only [modifyW]
  cases pipe with
  | none => rfl
  | some i => exact final_handled' i s e _

theorem opened_handled (asked pipe : Option Nat) (w : World) : (handleLogged asked pipe (.poolState 2) w).1 = .ok none := rfl

def SrvMsg.nextPool (s : PoolState) (m : SrvMsg) : PoolState := match m with | .poolState t => t | _ => s

def SrvMsg.nextPipe (s : PipeState) (m : SrvMsg) : PipeState := match m with | .pipelineState t _ => t | _ => s

/-- The state of the pipeline afterwards. -/
theorem handleEffect_pipeState (i : Nat) (m : SrvMsg) (w : World) :
    ((handleEffect (some i) m w).pipes i).state = m.nextPipe (w.pipes i).state := by
  cases m <;> simp only [handleEffect, SrvMsg.nextPipe]
  all_goals (repeat' split) <;> first
    | rfl
    | (rw [hostEffect_pipes])
    | (rw [setPipe_self])

/-- What the messages say of the pool, if they say it. -/
def poolStateAfter (s : PoolState) (ms : List SrvMsg) : PoolState := ms.foldl SrvMsg.nextPool s

def pipeStateAfter (s : PipeState) (ms : List SrvMsg) : PipeState := ms.foldl SrvMsg.nextPipe s

theorem poolStateAfter_same {s : PoolState} {ms : List SrvMsg} (h : ∀ m ∈ ms, m.Routine ∨ ∃ t e, m = .pipelineState t e) :
    poolStateAfter s ms = s := by
  induction ms with
  | nil => rfl
  | cons m ms ih =>
    have hm := h m (by simp)
    have := ih (fun m hm => h m (by simp [hm]))
    unfold poolStateAfter at this ⊢
    rw [List.foldl_cons]
    cases m
    case poolState t => rcases hm with hm | ⟨_, _, hm⟩; exact hm.elim; cases hm
    all_goals exact this

theorem pipeStateAfter_same {ms : List SrvMsg} (h : ∀ m ∈ ms, m.Routine) : pipeStateAfter 1 ms = 1 := by
  induction ms with
  | nil => rfl
  | cons m ms ih =>
    have hm := h m (by simp)
    have := ih (fun m hm => h m (by simp [hm]))
    unfold pipeStateAfter at this ⊢
    rw [List.foldl_cons]
    cases m
    case pipelineState t e => obtain rfl : t = 1 := hm; exact this
    all_goals exact this

/-- All messages are handled if each is. -/
theorem parse_all (asked pipe : Option Nat) (ms : List SrvMsg)
    (hm : ∀ m ∈ ms, ∀ w : World, w.host = none → ∃ o, (handleLogged asked pipe m w).1 = .ok o) : ∀ w : World, w.host = none →
    ∃ os w', parseResponses asked pipe ms w = (.ok os, w') ∧ w'.pool.state = poolStateAfter w.pool.state ms ∧
      ∀ i, pipe = some i → (w'.pipes i).state = pipeStateAfter (w.pipes i).state ms := by
  induction ms with
  | nil => exact fun w _ => ⟨[], w, rfl, rfl, fun _ _ => rfl⟩
  | cons m ms ih =>
    intro w hh
    obtain ⟨o, ho⟩ := hm m (by simp) w hh
    have h1 : (handleLogged asked pipe m w).2.pool.state = m.nextPool w.pool.state := by
      rw [message_pool, handleEffect_state]; rfl
    have h2 := (message_replies asked pipe m w (.inl hh)).2
    have h3 : ∀ i, pipe = some i → ((handleLogged asked pipe m w).2.pipes i).state =
        m.nextPipe (w.pipes i).state := by
      rintro i rfl
      rw [message_pipes, handleEffect_pipeState]
    cases hr : handleLogged asked pipe m w with
    | mk res w1 =>
      rw [hr] at ho h1 h2 h3
      dsimp only at ho h1 h2 h3
      subst ho
      obtain ⟨os, w', e1, e2, e3⟩ := ih (fun m hm' => hm m (by simp [hm'])) w1 (h2.trans hh)
      refine ⟨o.toList ++ os, w', ?_, ?_, fun i hi => ?_⟩
      · unfold parseResponses
        rw [bind_run, hr]
        dsimp only
        rw [bind_run, e1]
        rfl
      · rw [e2, h1]; rfl
      · rw [e3 i hi, h3 i hi]; rfl

/-- A receive that is answered. -/
theorem receive_answered (id : Option Nat) {w : World} {r : Reply} {rest : List Reply} (hw : w.replies = r :: rest) (he : r.error = none)
    (hh : w.host = none) (hid : ∀ i, id = some i → i ∈ w.pool.registry)
    (hm : ∀ m ∈ r.msgs, ∀ w : World, w.host = none → ∃ o, (handleLogged id id m w).1 = .ok o) :
    ∃ os w', receive id w = (.ok os, w') ∧ w'.pool.state = poolStateAfter w.pool.state r.msgs ∧ w'.replies = rest ∧ w'.host = none ∧
      w'.pool.registry = w.pool.registry ∧
      ∀ i, id = some i → (w'.pipes i).state = pipeStateAfter (w.pipes i).state r.msgs := by
  have hf : id.filter (fun i => w.pool.registry.contains i) = id := by
    cases id with
    | none => rfl
    | some i => simp [Option.filter, hid i rfl]
  obtain ⟨os, w', e1, e2, e3⟩ := parse_all id id r.msgs hm
    { w with replies := rest, sent := w.sent ++ [(.receive (id.bind fun i => (w.pipes i).commandId), .ok ())] } hh
  obtain ⟨_, i2, i3, _, i5, _, _⟩ := parse_silent id id r.msgs
    { w with replies := rest, sent := w.sent ++ [(.receive (id.bind fun i => (w.pipes i).commandId), .ok ())] } hh
  rw [e1] at i2 i3 i5
  refine ⟨os, w', ?_, e2, i2, i3, i5, e3⟩
  unfold receive
  rw [bind_run]
  simp only [getW, hf]
  rw [bind_run]
  simp only [request, hw, he]
  exact e1

theorem received_cons (r : Reply) (rs : List Reply) : received (r :: rs) = (if r.error = none then r.msgs else []) ++ received rs := rfl

/-- The last answer brings something. -/
theorem received_ne {rs : List Reply} {r : Reply} (h : rs.getLast? = some r) (he : r.error = none) (hm : r.msgs ≠ []) : received rs ≠ [] := by
  obtain ⟨init, rfl⟩ : ∃ init, rs = init ++ [r] := List.getLast?_eq_some_iff.1 h
  intro hc
  unfold received at hc
  simp [he] at hc
  exact hm hc.2

theorem deliver_cons {r : Reply} {rs : List Reply} {ms : List SrvMsg} {m : SrvMsg} (h : Deliver (r :: rs) (ms ++ [m])) :
    (rs = [] ∧ r.error = none ∧ r.msgs = ms ++ [m]) ∨
    ∃ ms', ms = (if r.error = none then r.msgs else []) ++ ms' ∧ Deliver rs (ms' ++ [m]) := by
  obtain ⟨h1, l, h2, h3, h4⟩ := h
  rw [received_cons] at h1
  cases rs with
  | nil =>
    simp only [List.getLast?_singleton, Option.some.injEq] at h2
    subst h2
    left
    refine ⟨rfl, h3, ?_⟩
    rw [if_pos h3] at h1
    simpa [received] using h1
  | cons r' rs =>
    right
    have hl : (r' :: rs).getLast? = some l := by simpa [List.getLast?_cons_cons] using h2
    have hne := received_ne hl h3 h4
    generalize hr : received (r' :: rs) = tail at h1 hne
    generalize (if r.error = none then r.msgs else []) = pre at h1
    obtain ⟨init, x, rfl⟩ : ∃ init x, tail = init ++ [x] := ⟨_, _, (List.dropLast_concat_getLast hne).symm⟩
    rw [← List.append_assoc] at h1
    obtain ⟨a, b⟩ := List.append_inj' h1 rfl
    simp only [List.cons.injEq, and_true] at b
    subst b
    exact ⟨init, a.symm, hr, l, hl, h3, h4⟩

/-- The pool opens. -/
theorem receiveUntil_opens (n : Nat) : ∀ {w : World} {rs tail : List Reply} {ms : List SrvMsg}, w.host = none → w.pool.state = PoolState.negotiationSent →
    w.replies = rs ++ tail → (∀ r ∈ rs, r.error = none) → Deliver rs (ms ++ [.poolState 2]) → (∀ m ∈ ms, m.Routine) → rs.length < n →
    ∃ w', receiveUntil (fun w => w.pool.state ≠ PoolState.negotiationSent) n w = (.ok (), w') ∧ w'.replies = tail ∧ w'.pool.state = 2 := by
  induction n with
  | zero => intro w rs tail ms _ _ _ _ _ _ h; omega
  | succ n ih =>
    intro w rs tail ms hh hs hw he hd hm hn
    cases rs with
    | nil => obtain ⟨_, l, h2, _⟩ := hd; simp at h2
    | cons r rs =>
      have her := he r (by simp)
      have hstep : ∀ ms' : List SrvMsg, (∀ m ∈ ms', m.Routine ∨ m = .poolState 2) → ∀ m ∈ ms', ∀ w : World, w.host = none →
          ∃ o, (handleLogged none none m w).1 = .ok o := by
        intro ms' h m hm w hh
        rcases h m hm with h | rfl
        · exact ⟨_, routine_handled _ _ _ _ hh h⟩
        · exact ⟨_, opened_handled _ _ _⟩
      have hun : receiveUntil (fun w => w.pool.state ≠ PoolState.negotiationSent) (n + 1) w =
          (receive none >>= fun _ => receiveUntil (fun w => w.pool.state ≠ PoolState.negotiationSent) n) w := by
        conv => lhs; unfold receiveUntil
        rw [bind_run]
        simp only [getW]
        rw [if_neg (by rw [hs]; simp)]
      rw [hun, bind_run]
      rcases deliver_cons hd with ⟨rfl, _, hms⟩ | ⟨ms', hms, hd'⟩
      · obtain ⟨os, w', e1, e2, e3, e4, e5, _⟩ := receive_answered none (w := w) (r := r) (rest := tail) hw her hh (by simp)
          (hstep r.msgs (by rw [hms]; intro m hm'; rw [List.mem_append] at hm'; rcases hm' with h | h
                            · exact .inl (hm m h)
                            · exact .inr (by simpa using h)))
        refine ⟨w', ?_, e3, ?_⟩
        · rw [e1]
          cases n with
          | zero => simp at hn
          | succ n =>
            dsimp only
            unfold receiveUntil
            rw [bind_run]
            simp only [getW]
            rw [if_pos (by rw [e2, hms]; unfold poolStateAfter; rw [List.foldl_append]; rfl)]
            rfl
        · rw [e2, hms]; unfold poolStateAfter; rw [List.foldl_append]; rfl
      · rw [if_pos her] at hms
        have hmr : ∀ m ∈ r.msgs, m.Routine := fun m h => hm m (by rw [hms]; simp [h])
        obtain ⟨os, w', e1, e2, e3, e4, e5, _⟩ := receive_answered none (w := w) (r := r) (rest := rs ++ tail) hw her hh (by simp)
          (hstep r.msgs (fun m h => .inl (hmr m h)))
        rw [e1]
        exact ih e4 (by rw [e2, poolStateAfter_same (fun m h => .inl (hmr m h)), hs]) e3 (fun r h => he r (by simp [h])) hd'
          (fun m h => hm m (by rw [hms]; simp [h])) (by simp at hn; omega)

/-- The fault of a receive that had nothing to receive. -/
def TimedOut (r : Reply) : Prop := r.error = some (.wsManFault (some 2150858793))

/-- A poll that is answered. -/
theorem poll_answered {i : Nat} {w : World} {r : Reply} {rest : List Reply} (hw : w.replies = r :: rest) (he : r.error = none ∨ TimedOut r)
    (hh : w.host = none) (hi : i ∈ w.pool.registry)
    (hm : ∀ m ∈ received [r], ∀ w : World, w.host = none → ∃ o, (handleLogged (some i) (some i) m w).1 = .ok o) :
    ∃ w', pollInvoke i w = (.ok (), w') ∧ w'.pool.state = poolStateAfter w.pool.state (received [r]) ∧
      (w'.pipes i).state = pipeStateAfter (w.pipes i).state (received [r]) := by
  rcases he with he | he
  · have hrec : received [r] = r.msgs := by simp [received, he]
    rw [hrec] at hm ⊢
    obtain ⟨os, w', e1, e2, _, _, _, e6⟩ := receive_answered (some i) hw he hh (by rintro j ⟨⟩; exact hi) hm
    refine ⟨w'.setPipe i { w'.pipes i with output := (w'.pipes i).output ++ os }, ?_, e2, ?_⟩
    · unfold pollInvoke
      rw [e1]
    · rw [setPipe_self]; exact e6 i rfl
  · have hrec : received [r] = [] := by simp [received, show r.error = _ from he]
    rw [hrec]
    have hf : (some i).filter (fun i => w.pool.registry.contains i) = some i := by simp [Option.filter, hi]
    refine ⟨{ w with replies := rest, sent := w.sent ++ [(.receive (w.pipes i).commandId, .raised (.wsManFault (some 2150858793)))] }, ?_, rfl, rfl⟩
    unfold pollInvoke receive
    rw [bind_run]
    simp only [getW, hf]
    rw [bind_run]
    simp only [request, hw, show r.error = _ from he]
    rfl

/-- The pipeline ends. -/
theorem pollWhile_ends {i : Nat} {s : PipeState} {e : Option Obj} (hs1 : s ≠ 1) (n : Nat) :
    ∀ {w : World} {rs tail : List Reply} {ms : List SrvMsg}, w.host = none → i ∈ w.pool.registry → (w.pipes i).state = 1 →
    w.replies = rs ++ tail → (∀ r ∈ rs, r.error = none ∨ TimedOut r) → Deliver rs (ms ++ [.pipelineState s e]) →
    (∀ m ∈ ms, m.Routine) → rs.length < n →
    ∃ w', pollWhile i n w = (.ok (), w') ∧ w'.pool.state = w.pool.state ∧ w'.replies = tail := by
  induction n with
  | zero => intro w rs tail ms _ _ _ _ _ _ _ h; omega
  | succ n ih =>
    intro w rs tail ms hh hi hs hw he hd hm hn
    cases rs with
    | nil => obtain ⟨_, l, h2, _⟩ := hd; simp at h2
    | cons r rs =>
      have her := he r (by simp)
      have hstep : ∀ ms' : List SrvMsg, (∀ m ∈ ms', m.Routine ∨ m = .pipelineState s e) → ∀ m ∈ ms', ∀ w : World, w.host = none →
          ∃ o, (handleLogged (some i) (some i) m w).1 = .ok o := by
        intro ms' h m hm w hh
        rcases h m hm with h | rfl
        · exact ⟨_, routine_handled _ _ _ _ hh h⟩
        · exact ⟨_, final_handled _ _ _ _ _⟩
      have hun : pollWhile i (n + 1) w = (pollInvoke i >>= fun _ => pollWhile i n) w := by
        conv => lhs; unfold pollWhile
        rw [bind_run]
        simp only [getW]
        rw [if_neg (by rw [hs]; decide)]
      rw [hun, bind_run]
      rcases deliver_cons hd with ⟨rfl, hnone, hms⟩ | ⟨ms', hms, hd'⟩
      · have hrec : received [r] = ms ++ [.pipelineState s e] := by simp [received, hnone, hms]
        have hor : ∀ m ∈ received [r], m.Routine ∨ m = .pipelineState s e := by
          rw [hrec]; intro m hm'; rw [List.mem_append] at hm'; rcases hm' with h | h
          · exact .inl (hm m h)
          · exact .inr (by simpa using h)
        obtain ⟨w', e1, e2, e3⟩ := poll_answered hw her hh hi (hstep _ hor)
        obtain ⟨r', rest', f1, _, f3, _⟩ := poll_silent hi hh e1
        rw [hw] at f1
        simp only [List.nil_append, List.cons_append, List.cons.injEq] at f1
        refine ⟨w', ?_, ?_, by rw [f3, ← f1.2]⟩
        · rw [e1]
          cases n with
          | zero => simp at hn
          | succ n =>
            dsimp only
            unfold pollWhile
            rw [bind_run]
            simp only [getW]
            rw [if_pos (by rw [e3, hrec]; unfold pipeStateAfter; rw [List.foldl_append]; exact hs1)]
            rfl
        · rw [e2, poolStateAfter_same (fun m h => (hor m h).imp_right fun h => ⟨_, _, h⟩)]
      · have hrec : received [r] = if r.error = none then r.msgs else [] := by rw [received_cons]; simp [received]
        rw [← hrec] at hms
        have hmr : ∀ m ∈ received [r], m.Routine := fun m h => hm m (by rw [hms]; simp [h])
        obtain ⟨w', e1, e2, e3⟩ := poll_answered hw her hh hi (hstep _ fun m h => .inl (hmr m h))
        obtain ⟨r', rest', f1, _, f3, f4, f5, _⟩ := poll_silent hi hh e1
        rw [hw] at f1
        simp only [List.cons_append, List.cons.injEq] at f1
        rw [e1]
        obtain ⟨w2, g1, g2, g3⟩ := ih f4 (by rw [f5]; exact hi) (by rw [e3, hs, pipeStateAfter_same hmr]) (by rw [f3, ← f1.2])
          (fun r h => he r (by simp [h])) hd' (fun m h => hm m (by rw [hms]; simp [h])) (by simp at hn; omega)
        exact ⟨w2, g1, by rw [g2, e2, poolStateAfter_same (fun m h => .inl (hmr m h))], g3⟩

/-- The opening of a pool, as a whole. -/
theorem openPool_opens (mn mx : Int) (clock : List Bool) {r0 : Reply} {rs tail : List Reply} {ms : List SrvMsg} (h0 : r0.error = none)
    (he : ∀ r ∈ rs, r.error = none) (hd : Deliver rs (ms ++ [.poolState 2])) (hm : ∀ m ∈ ms, m.Routine) (ht : tail ≠ []) :
    ∃ w1, openPool (.start mn mx none clock (r0 :: (rs ++ tail))) = (.ok (), w1) ∧ w1.replies = tail ∧ w1.pool.state = 2 ∧
      Opening mn mx (r0 :: (rs ++ tail)) rs.length w1 := by
  have hrun : openPool (.start mn mx none clock (r0 :: (rs ++ tail))) =
      ((startOpening [.sessionCapability, .initPool mn mx] >>= fun _ => loopUntil (fun w => w.pool.state ≠ PoolState.negotiationSent))
        (.start mn mx none clock (r0 :: (rs ++ tail)))) := rfl
  obtain ⟨w0, hs, hw0, hst, hho⟩ : ∃ w0, startOpening [.sessionCapability, .initPool mn mx] (.start mn mx none clock (r0 :: (rs ++ tail))) = (.ok (), w0) ∧
      w0.replies = rs ++ tail ∧ w0.pool.state = PoolState.negotiationSent ∧ w0.host = none := by
    simp [startOpening, shellOpen, bind_run, getW, World.start, request, h0, modifyPool, modifyW]
  obtain ⟨w1, e1, e2, e3⟩ := receiveUntil_opens (w0.replies.length + 1) hho hst hw0 he hd hm (by rw [hw0]; simp; omega)
  have hopen : openPool (.start mn mx none clock (r0 :: (rs ++ tail))) = (.ok (), w1) := by
    rw [hrun, bind_run, hs]; exact e1
  refine ⟨w1, hopen, e2, e3, ?_⟩
  obtain ⟨a, op⟩ := openPool_opening hopen
  have hl := congrArg List.length op.left
  rw [e2] at hl
  simp only [List.length_drop, List.length_cons, List.length_append] at hl
  have := List.length_pos_iff.2 ht
  have ha : a = rs.length := by omega
  exact ha ▸ op
/-- A new pipeline starts. -/
theorem beginInvoke_starts {i : Nat} {w : World} {r : Reply} {rest : List Reply} (hs : (w.pipes i).state = 0) (hc : (w.pipes i).commands ≠ 0)
    (hid : (w.pipes i).commandId = none) (hw : w.replies = r :: rest) (he : r.error = none) :
    ∃ w', beginInvoke i .none w = (.ok (), w') ∧ (w'.pipes i).state = 1 ∧ w'.pool.state = w.pool.state ∧
      (w'.pipes i).commandId = r.command.map CmdId.server := by
  have hrep : (w.registering i).replies = w.replies := rfl
  unfold beginInvoke invokeMsg
  rw [bind_run]
  simp only [getW]
  rw [if_neg (fun hn => hn (.inl hs)), if_neg hc, bind_run, bind_run, startCommand_eq]
  simp only [request, hrep, hw, he]
  cases hcm : r.command with
  | none =>
    refine ⟨_, rfl, ?_, rfl, ?_⟩
    · exact congrArg PShell.state (setPipe_self _ _ _)
    · exact (congrArg PShell.commandId (setPipe_self _ _ _)).trans hid
  | some c =>
    refine ⟨_, rfl, ?_, rfl, ?_⟩
    · exact congrArg PShell.state (setPipe_self _ _ _)
    · exact (congrArg PShell.commandId (setPipe_self _ _ _)).trans (congrArg PShell.commandId (setPipe_self _ _ _))

end Verif
