import Verif.Props.PoolHost
/-
C39: pipeline input.
-/
namespace Verif

theorem inputSent_append (i : Nat) (a b : List (Request × Res Unit)) : inputSent i (a ++ b) = inputSent i a ++ inputSent i b := by
  simp [inputSent, requests]

theorem snd_bind_pure' (m : PoolM α) (f : α → β) (w : World) : ((m >>= fun a => (pure (f a) : PoolM β)) w).2 = (m w).2 := by
  rw [bind_run]
  split <;> rename_i h <;> rw [h]
  rfl

theorem sendBatch_input (i : Nat) (msgs : List OutMsg) (w : World) :
    inputSent i (sendBatch i msgs w).2.sent = inputSent i w.sent ++ msgs := by
  rw [sendBatch_world]
  split
  · rename_i h; simp [h]
  · rw [request_sent, inputSent_append]
    simp [inputSent, requests]

/-- The items of a generator without None. -/
def NoNone (items : List GenItem) : Prop := ∀ g ∈ items, g ≠ .none

theorem sendInput_item (i : Nat) (item : GenItem) (rest : List GenItem) (h : item ≠ .none) :
    sendInput i item rest = (match rest with
      | [] => sendBatch i (item.objects.map OutMsg.input ++ [.endOfInput])
      | next :: rest => sendBatch i (item.objects.map OutMsg.input) >>= fun _ => sendInput i next rest) := by
  cases item with
  | none => exact absurd rfl h
  | one o => cases rest <;> rfl
  | many l => cases rest <;> rfl

/-- Whatever happens, what was sent is a prefix; all of it if the loop returned. -/
theorem sendInput_input (i : Nat) (rest : List GenItem) : ∀ item w, NoNone (item :: rest) → ∃ l l',
    inputSent i (sendInput i item rest w).2.sent = inputSent i w.sent ++ l ∧
      l ++ l' = ((item :: rest).flatMap GenItem.objects).map OutMsg.input ++ [.endOfInput] ∧
      ((sendInput i item rest w).1 = .ok () → l' = []) := by
  induction rest with
  | nil =>
    intro item w h
    rw [sendInput_item i item [] (h item (by simp))]
    refine ⟨item.objects.map OutMsg.input ++ [.endOfInput], [], sendBatch_input _ _ _, by simp, fun _ => rfl⟩
  | cons next rest ih =>
    intro item w h
    rw [sendInput_item i item _ (h item (by simp))]
    have hb := sendBatch_input i (item.objects.map OutMsg.input) w
    dsimp only
    rw [bind_run]
    split <;> rename_i hr <;> rw [hr] at hb
    · rename_i a w1
      obtain ⟨l, l', h1, h2, h3⟩ := ih next w1 fun g hg => h g (by simp at hg ⊢; exact .inr hg)
      refine ⟨item.objects.map OutMsg.input ++ l, l', by rw [h1, hb]; simp, ?_, h3⟩
      rw [List.append_assoc, h2]
      simp
    · exact ⟨_, _, hb, by simp; rfl, fun h => by simp at h⟩
    · exact ⟨_, _, hb, by simp; rfl, fun h => by simp at h⟩

theorem invokeMsg_input (i j : Nat) (msg : OutMsg) (w : World) : ∃ o,
    (invokeMsg i msg w).2.sent = w.sent ++ [(.command i msg, o)] ∧ inputSent j (invokeMsg i msg w).2.sent = inputSent j w.sent := by
  have h0 : (startCommand i msg w).2.sent = w.sent ++ [(.command i msg, w.outcome)] := by
    rw [startCommand_eq, request_sent]; rfl
  have h : (invokeMsg i msg w).2.sent = w.sent ++ [(.command i msg, w.outcome)] := by
    unfold invokeMsg
    rw [bind_run]
    split <;> rename_i h <;> rw [h] at h0
    · rename_i reply w1
      cases reply.command <;> exact h0
    · exact h0
    · exact h0
  refine ⟨_, h, ?_⟩
  rw [h, inputSent_append]
  simp [inputSent, requests]

theorem InputArg.objects_items (input : InputArg) : input.items.flatMap GenItem.objects = input.objects := by
  cases input <;> simp [InputArg.items, InputArg.objects, GenItem.objects]

theorem beginInvoke_run {i : Nat} {input : InputArg} {w : World} (hn : input ≠ .none)
    (hs : (w.pipes i).state = 0 ∨ (w.pipes i).state = 3 ∨ (w.pipes i).state = 4 ∨ (w.pipes i).state = 5)
    (hc : (w.pipes i).commands ≠ 0) : beginInvoke i input w = (do
      invokeMsg i (.createPipeline input.noInput)
      match input.items with
      | [] => raise .stopIteration
      | item :: rest => sendInput i item rest : PoolM Unit) w := by
  unfold beginInvoke
  rw [bind_run]
  simp only [getW]
  rw [if_neg (fun h => h hs), if_neg hc]
  cases input with
  | none => exact absurd rfl hn
  | _ => rfl

theorem beginInvoke_ok {i : Nat} {input : InputArg} {w w' : World} (h : beginInvoke i input w = (.ok (), w')) :
    ((w.pipes i).state = 0 ∨ (w.pipes i).state = 3 ∨ (w.pipes i).state = 4 ∨ (w.pipes i).state = 5) ∧ (w.pipes i).commands ≠ 0 := by
  unfold beginInvoke at h
  rw [bind_run] at h
  simp only [getW] at h
  split at h
  · simp [raise] at h
  · rename_i h1
    split at h
    · simp [raise] at h
    · rename_i h2
      exact ⟨Classical.not_not.mp h1, h2⟩

/-- C39, partial: begin_invoke with an input that returns normally has sent, after the command, exactly the objects of the input in
order and one end of input message. Missing: generators that yield nothing or None (`C39_empty_generator_false`,
`C39_none_false`). -/
theorem C39_input_partial {i : Nat} {input : InputArg} {w w' : World} (hn : input ≠ .none) (hg : NoNone input.items)
    (h : beginInvoke i input w = (.ok (), w')) :
    inputSent i w'.sent = inputSent i w.sent ++ input.objects.map OutMsg.input ++ [.endOfInput] := by
  obtain ⟨h1, h2⟩ := beginInvoke_ok h
  rw [beginInvoke_run hn h1 h2, bind_run] at h
  obtain ⟨o, _, hi⟩ := invokeMsg_input i i (.createPipeline input.noInput) w
  split at h <;> rename_i hm
  · rw [hm] at hi
    cases hitems : input.items with
    | nil => rw [hitems] at h; simp [raise] at h
    | cons item rest =>
      rw [hitems] at h hg
      dsimp only at h hi
      rename_i a w1
      obtain ⟨l, l', e1, e2, e3⟩ := sendInput_input i rest item w1 hg
      rw [h] at e1 e3
      have := e3 rfl
      subst this
      rw [List.append_nil] at e2
      rw [e1, hi, e2, ← hitems, InputArg.objects_items, List.append_assoc]
  · simp at h
  · simp at h

/-- C39: and whatever happens, the input messages sent are a prefix of these. -/
theorem C39_prefix {i : Nat} {input : InputArg} {w : World} (hn : input ≠ .none) (hg : NoNone input.items) :
    ∃ l, inputSent i (beginInvoke i input w).2.sent = inputSent i w.sent ++ l ∧
      l <+: input.objects.map OutMsg.input ++ [.endOfInput] := by
  by_cases hs : ((w.pipes i).state = 0 ∨ (w.pipes i).state = 3 ∨ (w.pipes i).state = 4 ∨ (w.pipes i).state = 5) ∧ (w.pipes i).commands ≠ 0
  · rw [beginInvoke_run hn hs.1 hs.2, bind_run]
    obtain ⟨o, _, hi⟩ := invokeMsg_input i i (.createPipeline input.noInput) w
    split <;> rename_i hm <;> rw [hm] at hi
    · cases hitems : input.items with
      | nil => exact ⟨[], by simpa [raise] using hi, List.nil_prefix⟩
      | cons item rest =>
        rw [hitems] at hg
        rename_i a w1
        obtain ⟨l, l', e1, e2, e3⟩ := sendInput_input i rest item w1 hg
        refine ⟨l, by dsimp only at hi ⊢; rw [e1, hi], l', ?_⟩
        rw [e2, ← hitems, InputArg.objects_items]
    · exact ⟨[], by simpa using hi, List.nil_prefix⟩
    · exact ⟨[], by simpa using hi, List.nil_prefix⟩
  · refine ⟨[], ?_, List.nil_prefix⟩
    have : (beginInvoke i input w).2 = w := by
      unfold beginInvoke
      rw [bind_run]
      simp only [getW]
      split
      · rfl
      · rename_i h1
        rw [if_pos (Classical.not_not.mp fun h2 => hs ⟨Classical.not_not.mp h1, h2⟩)]
        rfl
    rw [this, List.append_nil]

/-- A poll sends no input. -/
theorem poll_input (i j : Nat) (w : World) : inputSent j (pollInvoke i w).2.sent = inputSent j w.sent := by
  have hpr : ∀ l : List (Request × Res Unit), (∀ e ∈ l, ∃ p m, e.1 = .send .pr none p [m]) → inputSent j l = [] := by
    intro l h
    unfold inputSent requests
    rw [List.flatMap_eq_nil_iff]
    intro r hr
    obtain ⟨e, he, rfl⟩ := List.mem_map.mp hr
    obtain ⟨p, m, hp⟩ := h e he
    rw [hp]
  have hparse : ∀ asked pipe ms w, inputSent j (parseResponses asked pipe ms w).2.sent = inputSent j w.sent := by
    intro asked pipe ms
    induction ms with
    | nil => intro w; rfl
    | cons m ms ih =>
      intro w
      have hm : inputSent j (handleLogged asked pipe m w).2.sent = inputSent j w.sent := by
        rw [message_sent, inputSent_append, hpr (messageRequests pipe m w), List.append_nil]
        intro e he
        obtain ⟨p, m', h, _⟩ := messageRequests_send _ _ _ e he
        exact ⟨p, m', h⟩
      unfold parseResponses
      rw [bind_run]
      split <;> rename_i h <;> rw [h] at hm
      · rename_i a w1
        rw [snd_bind_pure', ih w1]
        exact hm
      · exact hm
      · exact hm
  have hrec : inputSent j (receive (some i) w).2.sent = inputSent j w.sent := by
    unfold receive
    rw [bind_run]
    simp only [getW]
    rw [bind_run]
    have hs : ∀ c, inputSent j (request (.receive c) w).2.sent = inputSent j w.sent := by
      intro c
      rw [request_sent, inputSent_append]
      simp [inputSent, requests]
    split <;> rename_i h
    · have := hs ((Option.filter (fun i => w.pool.registry.contains i) (some i)).bind fun i => (w.pipes i).commandId)
      rw [h] at this
      rw [hparse]
      exact this
    · have := hs ((Option.filter (fun i => w.pool.registry.contains i) (some i)).bind fun i => (w.pipes i).commandId)
      rw [h] at this
      exact this
    · have := hs ((Option.filter (fun i => w.pool.registry.contains i) (some i)).bind fun i => (w.pipes i).commandId)
      rw [h] at this
      exact this
  unfold pollInvoke
  split <;> rename_i h <;> rw [h] at hrec
  · exact hrec
  · split <;> exact hrec
  · exact hrec

theorem pollWhile_input (i j n : Nat) : ∀ w, inputSent j (pollWhile i n w).2.sent = inputSent j w.sent := by
  induction n with
  | zero => intro w; rfl
  | succ n ih =>
    intro w
    have hp := poll_input i j w
    unfold pollWhile
    rw [bind_run]
    simp only [getW]
    split
    · rfl
    · rw [bind_run]
      split <;> rename_i h <;> rw [h] at hp
      · rw [ih]; exact hp
      · exact hp
      · exact hp

/-- C39, partial: the same for `invoke`: waiting for the end sends no more input. -/
theorem C39_invoke_partial {i : Nat} {input : InputArg} {out : List Obj} {w w' : World} (hn : input ≠ .none)
    (hg : NoNone input.items) (h : invoke i input w = (.ok out, w')) :
    inputSent i w'.sent = inputSent i w.sent ++ input.objects.map OutMsg.input ++ [.endOfInput] := by
  unfold invoke at h
  rw [bind_run] at h
  split at h <;> rename_i hb
  · rename_i a w1
    rw [← C39_input_partial hn hg hb]
    have : (endInvoke i w1).2 = w' := by rw [h]
    rw [← this]
    unfold endInvoke
    rw [bind_run]
    simp only [getW]
    rw [bind_run]
    have hp := pollWhile_input i i (w1.replies.length + 1) w1
    split <;> rename_i h <;> rw [h] at hp <;> exact hp
  · simp at h
  · simp at h

/-- Input in two batches. -/
example : inputSent 0 (beginInvoke 0 (.generator [.one 5, .many [], .many [6, 7]]) ⟨{ state := 2 }, fun _ => { commands := 1 }, 1, 0, none, 0, [],
    [{}, {}, {}], [], []⟩).2.sent = [.input 5, .input 6, .input 7, .endOfInput] := by decide +kernel

/-- C39 is false of the code: a generator that yields nothing makes begin_invoke raise StopIteration, when the command has been
started; no end of input message is sent. -/
theorem C39_empty_generator_false (i : Nat) (w : World) (reply : Reply) (rest : List Reply)
    (hs : (w.pipes i).state = 0) (hc : (w.pipes i).commands ≠ 0) (hw : w.replies = reply :: rest) (he : reply.error = none) :
    (beginInvoke i (.generator []) w).1 = .raised .stopIteration ∧
      (beginInvoke i (.generator []) w).2.sent = w.sent ++ [(.command i (.createPipeline false), .ok ())] := by
  rw [beginInvoke_run (by simp) (.inl hs) hc]
  simp only [InputArg.items, InputArg.noInput, invokeMsg, startCommand, bind_run, modifyPool, modifyW, request, hw, he]
  cases reply.command <;> exact ⟨rfl, rfl⟩

/-- C39: a None among the items ends the input: the rest is not sent, nor the end of input message. -/
theorem C39_none_false : ∃ items w, (beginInvoke 0 (.generator items) w).1 = .ok () ∧
    items = [.one 5, .none, .one 6] ∧ inputSent 0 (beginInvoke 0 (.generator items) w).2.sent = [.input 5] := by
  refine ⟨_, ⟨{ state := 2 }, fun _ => { commands := 1 }, 1, 0, none, 0, [], [{}, {}, {}], [], []⟩, ?_, rfl, ?_⟩ <;> decide +kernel

/-- C39: an input that is false in a condition, like 0 or an empty list, is sent, but the pipeline is created as one without
input. -/
theorem C39_no_input_false : ∃ w, (beginInvoke 0 (.single 0) w).1 = .ok () ∧
    requests (beginInvoke 0 (.single 0) w).2.sent =
      [.command 0 (.createPipeline true), .send .stdin none (some 0) [.input 0, .endOfInput]] := by
  refine ⟨⟨{ state := 2 }, fun _ => { commands := 1 }, 1, 0, none, 0, [], [{}, {}, {}], [], []⟩, ?_⟩
  decide +kernel

end Verif
