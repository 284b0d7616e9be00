import Verif.Props.PoolPipes
/-
C36, C37: output and streams. C38: host calls. C40: had_errors.
-/
namespace Verif

/-- How a handled message changes a pipeline object. -/
theorem handleEffect_pipe (pipe : Option Nat) (m : SrvMsg) (w : World) (i : Nat) :
    (∀ k, ((handleEffect pipe m w).pipes i).streams.get k =
      (w.pipes i).streams.get k ++ (if pipe = some i then (m.record k).toList else [])) ∧
    ((handleEffect pipe m w).pipes i).output = (w.pipes i).output ∧
    ((handleEffect pipe m w).pipes i).hadErrors = ((w.pipes i).hadErrors ||
      (pipe == some i && match m with | .pipelineState s _ => s == 5 | _ => false)) := by
  have same : ∀ w' : World, w'.pipes = w.pipes → (∀ k, m.record k = none) → (match m with | .pipelineState s _ => s == 5 | _ => false) = false →
      (∀ k, (w'.pipes i).streams.get k = (w.pipes i).streams.get k ++ (if pipe = some i then (m.record k).toList else [])) ∧
      (w'.pipes i).output = (w.pipes i).output ∧ (w'.pipes i).hadErrors = ((w.pipes i).hadErrors ||
      (pipe == some i && match m with | .pipelineState s _ => s == 5 | _ => false)) := by
    intro w' h1 h2 h3
    rw [h1, h3]
    refine ⟨fun k => by rw [h2 k]; simp, rfl, by simp⟩
  have hrec : ∀ k, ((∀ c, m = .poolHostCall c → m.record k = none) ∧ (∀ c, m = .pipelineHostCall c → m.record k = none)) := by
    intro k; constructor <;> rintro c rfl <;> cases k <;> rfl
  cases m
  case poolHostCall c => exact same _ (hostEffect_pipes _ _ _) (fun k => by cases k <;> rfl) rfl
  case pipelineHostCall c =>
    cases pipe with
    | none => exact same _ rfl (fun k => by cases k <;> rfl) rfl
    | some j => exact same _ (hostEffect_pipes _ _ _) (fun k => by cases k <;> rfl) rfl
  case pipelineState s e =>
    cases pipe with
    | none => exact ⟨fun k => by simp [handleEffect], rfl, by simp [handleEffect]⟩
    | some j =>
      simp only [handleEffect, World.setPipe]
      by_cases hj : i = j
      · subst hj
        refine ⟨fun k => ?_, by simp, by simp [PipeState.failed]⟩
        cases k <;> simp [Streams.get, SrvMsg.record]
      · have hj' : ¬ j = i := fun h => hj h.symm
        refine ⟨fun k => ?_, by simp [hj], by simp [hj, hj']⟩
        simp [hj, hj']
  all_goals first
    | exact same _ rfl (fun k => by cases k <;> rfl) rfl
    | (refine same _ ?_ (fun k => by cases k <;> rfl) rfl
       simp only [handleEffect]
       (repeat' split) <;> rfl)
    | skip
  all_goals
    cases pipe with
    | none => exact ⟨fun k => by simp [handleEffect], rfl, by simp [handleEffect]⟩
    | some j =>
      simp only [handleEffect, World.setPipe]
      by_cases hj : i = j
      · subst hj
        refine ⟨fun k => ?_, by simp, by simp⟩
        cases k <;> simp [Streams.get, SrvMsg.record]
      · have hj' : ¬ j = i := fun h => hj h.symm
        refine ⟨fun k => ?_, by simp [hj], by simp [hj]⟩
        simp [hj, hj']

theorem message_pipes (asked pipe : Option Nat) (m : SrvMsg) (w : World) :
    (handleLogged asked pipe m w).2.pipes = (handleEffect pipe m w).pipes := by
  rw [handleLogged_world]
  cases m <;> simp only [handleEffect]
  all_goals first | rfl | skip
  all_goals simp only [World.note]
  all_goals (repeat' split) <;> first | rfl | simp only [hostEffect_pipes]

/-- The record a log entry adds to a stream. -/
theorem recordsFor_append (i : Nat) (k : StreamKind) (a b : List Handled) :
    recordsFor i k (a ++ b) = recordsFor i k a ++ recordsFor i k b := by
  simp [recordsFor]

theorem recordsFor_one {w : World} (i : Nat) (k : StreamKind) (asked pipe : Option Nat) (m : SrvMsg)
    (hp : pipe = asked.filter (fun i => w.pool.registry.contains i)) :
    recordsFor i k [⟨asked, pipe.isSome, m⟩] = if pipe = some i then (m.record k).toList else [] := by
  unfold recordsFor
  cases asked with
  | none => simp [hp]
  | some j =>
    by_cases hc : j ∈ w.pool.registry
    · have : pipe = some j := by rw [hp]; simp [Option.filter, hc]
      rw [this]
      by_cases hj : j = i
      · subst hj
        cases hm : m.record k <;> simp [hm]
      · simp [hj]
    · have : pipe = none := by rw [hp]; simp [Option.filter, hc]
      rw [this]
      simp

/-- What is kept for a pipeline while its streams are not cleared. -/
structure StreamsOk (i : Nat) (w0 w : World) : Prop where
  created : i < w.created
  log : ∃ hs, w.handled = w0.handled ++ hs ∧
    (∀ k, (w.pipes i).streams.get k = (w0.pipes i).streams.get k ++ recordsFor i k hs) ∧
    (w.pipes i).hadErrors = ((w0.pipes i).hadErrors || hs.any (·.failed i))

theorem streamsOk_same {i : Nat} {w0 w w' : World} (h : StreamsOk i w0 w) (h1 : w'.created = w.created ∨ w'.created = w.created + 1)
    (h2 : w'.handled = w.handled) (h3 : (w'.pipes i).streams = (w.pipes i).streams) (h4 : (w'.pipes i).hadErrors = (w.pipes i).hadErrors) :
    StreamsOk i w0 w' := by
  obtain ⟨hc, hs, hh, hk, he⟩ := h
  refine ⟨by omega, hs, by rw [h2, hh], fun k => by rw [h3, hk k], by rw [h4, he]⟩

theorem streamsOk_request {i : Nat} {w0 w w1 : World} (r : Request) (h : StreamsOk i w0 w) (h1 : w1.created = w.created)
    (h2 : w1.handled = w.handled) (h3 : w1.pipes = w.pipes) : StreamsOk i w0 (request r w1).2 := by
  refine streamsOk_same h (.inl (by rw [request_created, h1])) (by rw [request_handled, h2]) ?_ ?_ <;> rw [request_pipes, h3]

theorem setPipe_keeps {i j : Nat} {w0 w : World} {p : PShell} (h : StreamsOk i w0 w) (h1 : p.streams = (w.pipes j).streams)
    (h2 : p.hadErrors = (w.pipes j).hadErrors) : StreamsOk i w0 (w.setPipe j p) := by
  refine streamsOk_same h (.inl rfl) rfl ?_ ?_
  · by_cases hj : i = j
    · subst hj; simp [World.setPipe, h1]
    · simp [World.setPipe, hj]
  · by_cases hj : i = j
    · subst hj; simp [World.setPipe, h2]
    · simp [World.setPipe, hj]

theorem step_streams {i : Nat} {w0 w w' : World} (h : StreamsOk i w0 w) (s : Step (· ≠ i) w w') : StreamsOk i w0 w' := by
  cases s
  case message asked pipe m hp =>
    obtain ⟨hc, hs, hh, hk, he⟩ := h
    obtain ⟨e1, _, e3⟩ := handleEffect_pipe pipe m w i
    refine ⟨by rw [handleLogged_world, handleEffect_created]; exact hc, hs ++ [⟨asked, pipe.isSome, m⟩], ?_, fun k => ?_, ?_⟩
    · rw [message_handled, hh, List.append_assoc]
    · rw [message_pipes, e1 k, hk k, recordsFor_append, recordsFor_one i k asked pipe m hp, List.append_assoc]
    · rw [message_pipes, e3, he, List.any_append]
      simp only [List.any_cons, List.any_nil, Bool.or_false, Handled.failed]
      rw [Bool.or_assoc]
      congr 2
      have : (pipe == some i) = (asked == some i && pipe.isSome) := by
        cases asked with
        | none => rw [hp]; rfl
        | some j =>
          by_cases hc : j ∈ w.pool.registry
          · have : pipe = some j := by rw [hp]; simp [Option.filter, hc]
            rw [this]; simp
          · have : pipe = none := by rw [hp]; simp [Option.filter, hc]
            rw [this]; simp
      rw [this]
      cases m <;> rfl
  case sendKey hst => rw [sendKey_world]; exact streamsOk_request _ h rfl rfl rfl
  case askMin v hst => rw [ask_world]; exact streamsOk_request _ h rfl rfl rfl
  case askMax v hst => rw [ask_world]; exact streamsOk_request _ h rfl rfl rfl
  case askAvail => rw [ask_world]; exact streamsOk_request _ h rfl rfl rfl
  case askReset hst => rw [ask_world]; exact streamsOk_request _ h rfl rfl rfl
  case startCommand j msg hm => rw [startCommand_eq]; exact streamsOk_request _ h rfl rfl rfl
  case sendBatch j msgs hm =>
    rw [sendBatch_world]
    split
    · exact h
    · exact streamsOk_request _ h rfl rfl rfl
  case signalAndDrop code j cmd =>
    rw [signalAndDrop_world]
    dsimp only
    have := streamsOk_request (w1 := w) (.signal code j cmd) h rfl rfl rfl
    split
    · exact streamsOk_same this (.inl rfl) rfl rfl rfl
    · exact this
  case shellClose hst =>
    rw [shellClose_world]
    dsimp only
    have := streamsOk_request (w1 := w) .delete h rfl rfl rfl
    split
    · split
      · exact streamsOk_same this (.inl rfl) rfl rfl rfl
      · exact this
    · exact h
  case startOpening msgs hst hm =>
    rw [startOpening_world]
    dsimp only
    have := streamsOk_request (w1 := w) (.create msgs) h rfl rfl rfl
    split
    · exact streamsOk_same h (.inl rfl) rfl rfl rfl
    · split
      · exact streamsOk_same this (.inl rfl) rfl rfl rfl
      · exact this
  case create nested =>
    have hne : i ≠ w.created := Nat.ne_of_lt h.created
    rw [newPipe_world]
    exact streamsOk_same h (.inr rfl) rfl (by simp [World.setPipe, hne]) (by simp [World.setPipe, hne])
  case clearStreams j hj =>
    exact streamsOk_same h (.inl rfl) rfl (by simp [World.setPipe, Ne.symm hj]) (by simp [World.setPipe, Ne.symm hj])
  case pipesDisconnected =>
    refine streamsOk_same h (.inl rfl) rfl ?_ ?_ <;> dsimp only <;> split <;> rfl
  all_goals first
    | exact streamsOk_same h (.inl rfl) rfl rfl rfl
    | exact streamsOk_request _ h rfl rfl rfl
    | exact setPipe_keeps h rfl rfl

/-- C36: in every history in which the pipeline's streams are not cleared, each stream is what it was and then the records
received for the pipeline, in order: whatever the calls were, whether they failed, and however the messages were grouped. -/
theorem C36_streams (w : World) (i : Nat) (hi : i < w.created) (ops : List Op) (hops : .clearStreams i ∉ ops) :
    ∃ hs, (runOps w ops).handled = w.handled ++ hs ∧
      ∀ k, ((runOps w ops).pipes i).streams.get k = (w.pipes i).streams.get k ++ recordsFor i k hs := by
  have := steps_invariant (I := StreamsOk i w) (fun w1 w2 h s => step_streams h s) ⟨hi, [], by simp, by simp [recordsFor], by simp⟩
    (runOps_steps (C := (· ≠ i)) ops (fun op hop j hj => by rintro rfl; exact hops (hj ▸ hop)) w)
  obtain ⟨_, hs, h1, h2, _⟩ := this
  exact ⟨hs, h1, h2⟩

/-- C40 is false of the code: after an invocation that failed, a successful one still leaves had_errors set. -/
theorem C40_reused_false : ∃ replies ops, ∃ w, runOps (.start 1 1 none [] replies) ops = w ∧
    (runOp (.invoke 0 .none) w).1 = .ok () ∧ ((runOp (.invoke 0 .none) w).2.pipes 0).state = 4 ∧
    ((runOp (.invoke 0 .none) w).2.handled.drop w.handled.length).map (·.msg) = [.pipelineState 4 none] ∧
    ((runOp (.invoke 0 .none) w).2.pipes 0).hadErrors = true := by
  refine ⟨[{}, { msgs := [.poolState 2] }, {}, { msgs := [.pipelineState 5 (some 9)] }, {}, {}, { msgs := [.pipelineState 4 none] }],
    [.openPool, .newPipe, .addCommand 0, .invoke 0 .none, .closePipe 0, .clearStreams 0], _, rfl, ?_⟩
  decide +kernel

theorem step_errors {i : Nat} {w0 w w' : World} (h : i < w.created ∧ ∃ hs, w.handled = w0.handled ++ hs ∧
    (w.pipes i).hadErrors = ((w0.pipes i).hadErrors || hs.any (·.failed i))) (s : Step (fun _ => True) w w') :
    i < w'.created ∧ ∃ hs, w'.handled = w0.handled ++ hs ∧
      (w'.pipes i).hadErrors = ((w0.pipes i).hadErrors || hs.any (·.failed i)) := by
  obtain ⟨hc, hs, hh, he⟩ := h
  by_cases hcl : ∃ j, w' = w.setPipe j { w.pipes j with streams := {}, output := [] }
  · obtain ⟨j, rfl⟩ := hcl
    refine ⟨hc, hs, hh, ?_⟩
    rw [← he]
    by_cases hj : i = j
    · subst hj; simp [World.setPipe]
    · simp [World.setPipe, hj]
  · have s' : Step (· ≠ i) w w' := by
      cases s
      case clearStreams j _ => exact absurd ⟨j, rfl⟩ hcl
      case forget ci => exact .forget ci
      case closed h => exact .closed h
      all_goals constructor <;> assumption
    have := step_streams (w0 := w) ⟨hc, [], by simp, by simp [recordsFor], by simp⟩ s'
    obtain ⟨hc', hs', hh', _, he'⟩ := this
    exact ⟨hc', hs ++ hs', by rw [hh', hh, List.append_assoc], by rw [he', he, List.any_append, Bool.or_assoc]⟩

/-- C40, partial: in every history, had_errors is true exactly when it was true before or the server reported a failure of this
pipeline. As it is false for a new object, it tells whether any invocation of the object failed. Missing: that it tells this of the
last one only (`C40_reused_false`). -/
theorem C40_any_failed_partial (w : World) (i : Nat) (hi : i < w.created) (ops : List Op) : ∃ hs,
    (runOps w ops).handled = w.handled ++ hs ∧
      ((runOps w ops).pipes i).hadErrors = ((w.pipes i).hadErrors || hs.any (·.failed i)) := by
  have := steps_invariant (I := fun w1 => i < w1.created ∧ ∃ hs, w1.handled = w.handled ++ hs ∧
    (w1.pipes i).hadErrors = ((w.pipes i).hadErrors || hs.any (·.failed i)))
    (fun w1 w2 h s => step_errors h s) ⟨hi, [], by simp, by simp⟩ (runOps_steps (C := fun _ => True) ops (fun _ _ _ _ => trivial) w)
  exact this.2

/-- C40: a new object has no errors. -/
theorem C40_new (nested : Bool) (w : World) : ((newPipe nested w).2.pipes w.created).hadErrors = false := by
  simp [newPipe_world, World.setPipe]

end Verif
