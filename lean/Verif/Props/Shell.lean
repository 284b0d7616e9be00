import Verif.Lemmas.Shell
/-
C53: WinRS shells are opened and deleted at most once. C54: process output.
-/
namespace Verif

/-! ### C53 -/

theorem ShellLog.turns : ∀ (log : List (ShellReq × Bool)) (isOpen : Bool), ShellLog isOpen log →
    (isOpen = false → InTurns (answered log)) ∧ (isOpen = true → ∀ a, a.isCreate = true → InTurns (a :: answered log)) := by
  intro log
  induction log with
  | nil => intro isOpen _; exact ⟨fun _ => trivial, fun _ a ha => ha⟩
  | cons e log ih =>
    intro isOpen h
    obtain ⟨r, ok⟩ := e
    cases r with
    | create u i =>
      obtain ⟨rfl, h⟩ := h
      refine ⟨fun _ => ?_, fun h => by simp at h⟩
      cases ok with
      | false => exact (ih false h).1 rfl
      | true => exact (ih true h).2 rfl (.create u i) rfl
    | delete u s =>
      obtain ⟨rfl, h⟩ := h
      refine ⟨fun h => by simp at h, fun _ a ha => ?_⟩
      cases ok with
      | false => exact (ih true h).2 rfl a ha
      | true => exact ⟨ha, rfl, (ih false h).1 rfl⟩
    | _ => exact absurd h (by cases isOpen <;> simp [ShellLog])

theorem open_log (w : ShellWorld) (hr : ∀ body, .ok body ∈ w.replies → Named body) : ∃ log,
    (winrsOpen w).2.sent = w.sent ++ log ∧ (∀ body, .ok body ∈ (winrsOpen w).2.replies → Named body) ∧
    (∀ rest, ShellLog (winrsOpen w).2.shell.opened rest → ShellLog w.shell.opened (log ++ rest)) := by
  by_cases ho : w.shell.opened = true
  · rw [open_opened w ho]
    exact ⟨[], by simp, hr, fun rest h => h⟩
  · have ho : w.shell.opened = false := by simpa using ho
    rw [open_eq w ho]
    unfold wsman
    cases hw : w.replies with
    | nil => exact ⟨_, rfl, by simp, fun rest h => ⟨ho, by rw [ho] at h; exact h⟩⟩
    | cons x rest =>
      cases x with
      | error e =>
        refine ⟨_, rfl, fun b hb => hr b (by rw [hw]; exact List.mem_cons_of_mem _ hb), fun rest h => ⟨ho, ?_⟩⟩
        dsimp only at h
        rw [ho] at h; exact h
      | ok body =>
        dsimp only
        have hn : Named body := hr body (by rw [hw]; exact List.mem_cons_self)
        have hrest : ∀ b, .ok b ∈ rest → Named b := fun b hb => hr b (by rw [hw]; exact List.mem_cons_of_mem _ hb)
        rw [parseShellCreate_eq]
        cases hs : selectorElems body with
        | none => exact ⟨_, rfl, hrest, fun rest h => ⟨ho, h⟩⟩
        | some es =>
          simp only [readSelectors_named (hn es hs), if_true]
          exact ⟨_, rfl, hrest, fun rest h => ⟨ho, h⟩⟩

theorem close_log (w : ShellWorld) : ∃ log,
    (winrsClose w).2.sent = w.sent ++ log ∧ (∀ x ∈ (winrsClose w).2.replies, x ∈ w.replies) ∧
    (∀ rest, ShellLog (winrsClose w).2.shell.opened rest → ShellLog w.shell.opened (log ++ rest)) := by
  by_cases ho : w.shell.opened = true
  · rw [close_eq w ho]
    unfold wsman
    cases hw : w.replies with
    | nil => exact ⟨_, rfl, by simp, fun rest h => ⟨ho, by rw [ho] at h; exact h⟩⟩
    | cons x rest =>
      cases x with
      | error e =>
        refine ⟨_, rfl, fun b hb => List.mem_cons_of_mem _ hb, fun rest h => ⟨ho, ?_⟩⟩
        dsimp only at h
        rw [ho] at h; exact h
      | ok body => exact ⟨_, rfl, fun b hb => List.mem_cons_of_mem _ hb, fun rest h => ⟨ho, h⟩⟩
  · rw [close_unopened w (by simpa using ho)]
    exact ⟨[], by simp, fun x h => h, fun rest h => h⟩

/-- C53, partial: over any sequence of open and close calls with any outcomes, a create request is only sent if no shell is open and
a delete request only if one is open, where an answer to create opens and an answer to delete closes. Missing: a create response
with a selector without name (`C53_malformed_false`). -/
theorem C53_log_partial (ops : List ShellOp) : ∀ w : ShellWorld, (∀ body, .ok body ∈ w.replies → Named body) → ∃ log,
    (runShell w ops).sent = w.sent ++ log ∧ ShellLog w.shell.opened log := by
  induction ops with
  | nil => intro w _; exact ⟨[], by simp [runShell], by cases w.shell.opened <;> trivial⟩
  | cons op ops ih =>
    intro w hr
    cases op with
    | «open» =>
      obtain ⟨l1, h1, h2, h3⟩ := open_log w hr
      obtain ⟨l2, h4, h5⟩ := ih (winrsOpen w).2 h2
      exact ⟨l1 ++ l2, by unfold runShell; rw [h4, h1, List.append_assoc], h3 l2 h5⟩
    | close =>
      obtain ⟨l1, h1, h2, h3⟩ := close_log w
      obtain ⟨l2, h4, h5⟩ := ih (winrsClose w).2 (fun b hb => hr b (h2 _ hb))
      exact ⟨l1 ++ l2, by unfold runShell; rw [h4, h1, List.append_assoc], h3 l2 h5⟩

/-- C53, partial: the answered requests are create and delete in turns. -/
theorem C53_turns_partial (ops : List ShellOp) (w : ShellWorld) (hr : ∀ body, .ok body ∈ w.replies → Named body)
    (ho : w.shell.opened = false) (hs : w.sent = []) : InTurns (answered (runShell w ops).sent) := by
  obtain ⟨log, h1, h2⟩ := C53_log_partial ops w hr
  rw [hs, List.nil_append] at h1
  rw [h1]
  rw [ho] at h2
  exact (ShellLog.turns log false h2).1 rfl

/-- C53: closing a shell that is not open does nothing, and opening one that is open does nothing. -/
theorem C53_idle (w : ShellWorld) : (w.shell.opened = false → winrsClose w = (.ok (), w)) ∧
    (w.shell.opened = true → winrsOpen w = (.ok (), w)) := ⟨close_unopened w, open_opened w⟩

/-- A create response for the examples. -/
def demoCreate (selectors : List Elem) : Elem :=
  .node "s:Body".toList [] none [
    .node "rsp:Shell".toList [] none [.node "rsp:ShellId".toList [] (some ['7']) []],
    .node "wst:ResourceCreated".toList [] none [.node "wsa:ReferenceParameters".toList [] none [
      .node "wsman:SelectorSet".toList [] none selectors]]]

def demoSelector : Elem := .node "wsman:Selector".toList [("Name".toList, "ShellId".toList)] (some ['7']) []

def demoBody : Elem := .node "s:Body".toList [] none []

def demoShell (replies : List (Except PyErr Elem)) : ShellWorld := { shell := newShell none, replies }

/-- A history with a refused create and a refused delete. -/
example : ∀ body, .ok body ∈ (demoShell [.error .osError, .ok (demoCreate [demoSelector]), .error .osError, .ok demoBody,
    .ok (demoCreate [demoSelector])]).replies → Named body := by
  intro body h
  have : ∀ x ∈ [demoCreate [demoSelector], demoBody], ∀ es, selectorElems x = some es → ∀ e ∈ es, (e.attr "Name".toList).isSome = true := by
    intro x hx es hes
    simp only [List.mem_cons, List.not_mem_nil, or_false] at hx
    obtain rfl | rfl := hx
    · have : selectorElems (demoCreate [demoSelector]) = some [demoSelector] := rfl
      rw [this] at hes
      rw [← Option.some.inj hes]
      intro e he
      simp only [List.mem_singleton] at he
      rw [he]; decide +kernel
    · exact absurd hes (by rw [show selectorElems demoBody = none from rfl]; simp)
  refine this body ?_
  simp only [demoShell, List.mem_cons, Except.ok.injEq, reduceCtorEq, List.not_mem_nil, or_false, false_or] at h
  simp only [List.mem_cons, List.not_mem_nil, or_false]
  rcases h with h | h | h
  · exact .inl h
  · exact .inr h
  · exact .inl h

example : (runShell (demoShell [.error .osError, .ok (demoCreate [demoSelector]), .error .osError, .ok demoBody,
    .ok (demoCreate [demoSelector])]) [.close, .open, .open, .open, .close, .close, .close, .open]).sent.map (fun e => (e.1.isCreate, e.2)) =
    [(true, false), (true, true), (false, false), (false, true), (true, true)] := by decide +kernel

/-- C53 is false of the code: if the response to create has a selector without name, the shell that the server has created counts
as not open: it is never deleted, and the next open creates another one. -/
theorem C53_malformed_false : ∃ w : ShellWorld, w.shell.opened = false ∧ w.sent = [] ∧
    (answered (runShell w [.open, .close, .open]).sent).map ShellReq.isCreate = [true, true] := by
  refine ⟨demoShell [.ok (demoCreate [.node "wsman:Selector".toList [] none []]), .ok (demoCreate [demoSelector])], rfl, rfl, ?_⟩
  decide +kernel

/-- What a selector stands for. -/
def selectorPair (e : Elem) : PyStr × PyStr := ((e.attr "Name".toList).getD [], e.text.getD [])

theorem readSelectors_pairs {es : List Elem} (h : ∀ e ∈ es, (e.attr "Name".toList).isSome = true) :
    (readSelectors es).1 = es.map selectorPair := by
  induction es with
  | nil => rfl
  | cons e es ih =>
    have he := h e List.mem_cons_self
    unfold readSelectors
    cases ha : e.attr "Name".toList with
    | none => rw [ha] at he; simp at he
    | some n =>
      dsimp only
      rw [ih fun x hx => h x (List.mem_cons_of_mem _ hx), List.map_cons]
      unfold selectorPair
      rw [ha]
      rfl

/-- C53: an answered create opens the shell, and closing it then deletes the shell with the selectors of the response, if it had any. -/
theorem C53_selectors (w : ShellWorld) (body : Elem) (rest : List (Except PyErr Elem)) (es : List Elem)
    (ho : w.shell.opened = false) (hw : w.replies = .ok body :: rest) (hs : selectorElems body = some es) (hn : Named body) :
    (winrsOpen w).1 = .ok () ∧ (winrsOpen w).2.shell.opened = true ∧ ∃ uri ok,
    (winrsClose (winrsOpen w).2).2.sent = (winrsOpen w).2.sent ++ [(.delete uri (some (es.map selectorPair)), ok)] := by
  have he : winrsOpen w = (.ok (), (winrsOpen w).2) ∧ (winrsOpen w).2.shell.opened = true ∧
      (winrsOpen w).2.shell.selectors = some (es.map selectorPair) := by
    rw [open_eq w ho]
    unfold wsman
    rw [hw]
    dsimp only
    rw [parseShellCreate_eq, hs]
    simp only [readSelectors_named (hn es hs), if_true, readSelectors_pairs (hn es hs), and_self]
  obtain ⟨h1, h2, h3⟩ := he
  refine ⟨by rw [h1], h2, (winrsOpen w).2.shell.resourceUri, ?_⟩
  rw [close_eq _ h2, h3]
  unfold wsman
  cases (winrsOpen w).2.replies with
  | nil => exact ⟨_, rfl⟩
  | cons x rest => cases x <;> exact ⟨_, rfl⟩

/-- C53: a response without selectors keeps those of the shell before, so that a shell opened again is not the one that is deleted. -/
theorem C53_stale_false : ∃ w : ShellWorld, w.shell.opened = false ∧ w.sent = [] ∧
    (runShell w [.open, .close, .open, .close]).sent.getLast? =
      some (.delete (some "http://schemas.microsoft.com/wbem/wsman/1/windows/shell/cmd".toList) (some [("ShellId".toList, ['7'])]), true) ∧
    w.replies.map (fun r => match r with
      | .ok b => (selectorElems b).isSome
      | .error _ => false) = [true, false, false, false] := by
  refine ⟨demoShell [.ok (demoCreate [demoSelector]), .ok demoBody,
    .ok (.node "s:Body".toList [] none [.node "rsp:Shell".toList [] none [.node "rsp:ShellId".toList [] (some ['8']) []]]), .ok demoBody], ?_⟩
  decide +kernel

/-! ### C54 -/

/-- C54: after a process ends, stdout and stderr are what they were and then all chunks of the stream, in order, however they were
grouped and however many polls timed out; the exit code is that of the last response. -/
theorem C54_output {rs : List (Except PyErr Elem)} {cs : List (ProcStream × Bytes)} {code : Option Int} (h : ProcRun rs cs code) :
    ∀ (p : Proc) (w : ShellWorld) (rest : List (Except PyErr Elem)), p.state ≠ doneUri → w.replies = rs ++ rest →
    ∃ p' w', p.finish w = (.ok p', w') ∧ p'.state = doneUri ∧ w'.replies = rest ∧ w'.shell = w.shell ∧
      p'.stdout = p.stdout ++ bytesOf .stdout cs ∧ p'.stderr = p.stderr ++ bytesOf .stderr cs ∧ p'.rc = code ∧ p'.id = p.id := by
  suffices hs : ∀ (n : Nat) (p : Proc) (w : ShellWorld) (rest : List (Except PyErr Elem)), p.state ≠ doneUri →
      w.replies = rs ++ rest → rs.length < n →
      ∃ p' w', Proc.pollUntilDone n p w = (.ok p', w') ∧ p'.state = doneUri ∧ w'.replies = rest ∧ w'.shell = w.shell ∧
        p'.stdout = p.stdout ++ bytesOf .stdout cs ∧ p'.stderr = p.stderr ++ bytesOf .stderr cs ∧ p'.rc = code ∧ p'.id = p.id by
    intro p w rest hp hw
    have := hs (w.replies.length + 1) p w rest hp hw (by rw [hw]; simp; omega)
    unfold Proc.finish
    simpa only [sm_bind, sget] using this
  induction h with
  | timeout _ ih =>
    intro n p w rest hp hw hn
    obtain ⟨n, rfl⟩ : ∃ m, n = m + 1 := ⟨n - 1, by simp at hn; omega⟩
    unfold Proc.pollUntilDone
    rw [if_neg (show ¬ p.state = CommandState.done from hp), sm_bind, poll_error p w _ _ hw, if_pos rfl]
    exact ih n p _ rest hp rfl (by simp at hn; omega)
  | @more body c state code' rs cs code hb hne _ ih =>
    intro n p w rest hp hw hn
    obtain ⟨n, rfl⟩ : ∃ m, n = m + 1 := ⟨n - 1, by simp at hn; omega⟩
    unfold Proc.pollUntilDone
    rw [if_neg (show ¬ p.state = CommandState.done from hp), sm_bind, poll_reports p w _ hb hw]
    obtain ⟨p', w', h1, h2, h3, h4, h5, h6, h7, h8⟩ := ih n
      { p with state, rc := code', stdout := p.stdout ++ bytesOf .stdout c, stderr := p.stderr ++ bytesOf .stderr c }
      (w.after (p.pollReq w.shell) true (rs ++ rest)) rest hne rfl (by simp at hn; omega)
    refine ⟨p', w', h1, h2, h3, h4, ?_, ?_, h7, h8⟩
    · rw [h5, bytesOf_append, List.append_assoc]
    · rw [h6, bytesOf_append, List.append_assoc]
  | @done body cs code hb =>
    intro n p w rest hp hw hn
    obtain ⟨n, rfl⟩ : ∃ m, n = m + 1 := ⟨n - 1, by simp at hn; omega⟩
    unfold Proc.pollUntilDone
    rw [if_neg (show ¬ p.state = CommandState.done from hp), sm_bind, poll_reports p w _ hb hw]
    dsimp only
    refine ⟨{ p with state := doneUri, rc := code, stdout := p.stdout ++ bytesOf .stdout cs, stderr := p.stderr ++ bytesOf .stderr cs },
      w.after (p.pollReq w.shell) true rest, ?_, rfl, rfl, rfl, rfl, rfl, rfl, rfl⟩
    cases n <;> simp [Proc.pollUntilDone, sm_pure, show CommandState.done = doneUri from rfl]

/-- Polls whose exceptions are caught. -/
def runPolls : Nat → Proc → ShellWorld → Proc × ShellWorld
  | 0, p, w => (p, w)
  | n + 1, p, w =>
    match p.poll w with
    | (.ok p', w') => runPolls n p' w'
    | (_, w') => runPolls n p w'

/-- C54: also if polls fail in between and the caller goes on, the output is that of all answers, in order, once. -/
theorem C54_polls {rs : List (Except PyErr Elem)} {cs : List (ProcStream × Bytes)} (h : PollRun rs cs) :
    ∀ (p : Proc) (w : ShellWorld) (rest : List (Except PyErr Elem)), w.replies = rs ++ rest →
    (runPolls rs.length p w).1.stdout = p.stdout ++ bytesOf .stdout cs ∧
    (runPolls rs.length p w).1.stderr = p.stderr ++ bytesOf .stderr cs := by
  induction h with
  | nil => intro p w rest _; simp [runPolls, bytesOf]
  | @failed e rs cs _ ih =>
    intro p w rest hw
    rw [List.length_cons]
    unfold runPolls
    rw [poll_error p w _ _ hw]
    split <;> rename_i hp
    · split at hp
      · simp only [Prod.mk.injEq, Res.ok.injEq] at hp
        rw [← hp.1, ← hp.2]
        exact ih p _ rest rfl
      · simp at hp
    · simp only [Prod.mk.injEq] at hp
      rw [← hp.2]
      exact ih p _ rest rfl
  | @more body c state code rs cs hb _ ih =>
    intro p w rest hw
    rw [List.length_cons]
    unfold runPolls
    rw [poll_reports p w _ hb hw]
    dsimp only
    obtain ⟨h1, h2⟩ := ih { p with state, rc := code, stdout := p.stdout ++ bytesOf .stdout c, stderr := p.stderr ++ bytesOf .stderr c }
      (w.after (p.pollReq w.shell) true (rs ++ rest)) rest rfl
    rw [bytesOf_append, bytesOf_append, ← List.append_assoc, ← List.append_assoc]
    exact ⟨h1, h2⟩

/-- A response for the examples. -/
def demoStream (name : String) (text : Option String) : Elem :=
  .node "rsp:Stream".toList [("Name".toList, name.toList)] (text.map String.toList) []

def demoState (state : PyStr) (code : Option String) : Elem :=
  .node "rsp:CommandState".toList [("State".toList, state)] none (code.toList.map fun c => .node "rsp:ExitCode".toList [] (some c.toList) [])

def demoReceive (kids : List Elem) : Elem := .node "s:Body".toList [] none [.node "rsp:ReceiveResponse".toList [] none kids]

theorem demo_done : Reports (demoReceive [demoStream "stderr" (some "/w=="), demoStream "stdout" none, demoState doneUri (some "-3")])
    [(.stderr, [255])] doneUri (some (-3)) where
  chunks := .chunk (by decide +kernel) (by decide +kernel) (.empty (by decide +kernel) .nil)
  state := .inl ⟨_, rfl, rfl⟩
  code := by decide +kernel

theorem demo_running (code : Option String) (c : Option Int) (h : code.map String.toList = c.map pyStrInt) :
    Reports (demoReceive [demoStream "stdout" (some "aGk="), demoState CommandState.pending code]) [(.stdout, [104, 105])] CommandState.pending c where
  chunks := .chunk (by decide +kernel) (by decide +kernel) .nil
  state := .inl ⟨_, rfl, rfl⟩
  code := by
    cases code <;> cases c <;> simp at h
    · rfl
    · exact congrArg (fun t => some (some t)) h

/-- A process with one timeout. -/
example : ProcRun [.ok (demoReceive [demoStream "stdout" (some "aGk="), demoState CommandState.pending none]), pollTimeout,
    .ok (demoReceive [demoStream "stderr" (some "/w=="), demoStream "stdout" none, demoState doneUri (some "-3")])]
    [(.stdout, [104, 105]), (.stderr, [255])] (some (-3)) :=
  .more (demo_running none none rfl) (by decide +kernel) (.timeout (.done demo_done))

/-- An answer without a state. -/
example : Reports (demoReceive [demoStream "stdout" (some "aGk=")]) [(.stdout, [104, 105])] pendingUri none where
  chunks := .chunk (by decide +kernel) (by decide +kernel) .nil
  state := .inr ⟨rfl, rfl⟩
  code := rfl

/-- C54, partial: the exit code of the process is the one in the last response. Missing: codes in earlier responses (`C54_rc_false`). -/
theorem C54_rc_partial {rs : List (Except PyErr Elem)} {cs : List (ProcStream × Bytes)} {code : Int} (h : ProcRun rs cs (some code))
    (p : Proc) (w : ShellWorld) (rest : List (Except PyErr Elem)) (hp : p.state ≠ doneUri) (hw : w.replies = rs ++ rest) :
    ∃ p' w', p.finish w = (.ok p', w') ∧ p'.rc = some code := by
  obtain ⟨p', w', h1, _, _, _, _, _, h7, _⟩ := C54_output h p w rest hp hw
  exact ⟨p', w', h1, h7⟩

/-- C54 is false of the code: an exit code is forgotten if a later response has none. -/
theorem C54_rc_false : ∃ rs cs, ProcRun rs cs none ∧
    (∃ body c state, .ok body ∈ rs ∧ Reports body c state (some 5)) ∧
    ∀ (p : Proc) (w : ShellWorld), p.state ≠ doneUri → w.replies = rs → ∃ p' w', p.finish w = (.ok p', w') ∧ p'.rc = none := by
  have hrun : ProcRun [.ok (demoReceive [demoStream "stdout" (some "aGk="), demoState CommandState.pending (some "5")]),
      .ok (demoReceive [demoState doneUri none])] [(.stdout, [104, 105])] none :=
    .more (demo_running (some "5") (some 5) (by decide +kernel)) (by decide +kernel) (.done ⟨.nil, .inl ⟨_, rfl, rfl⟩, rfl⟩)
  refine ⟨_, _, hrun, ⟨_, _, _, List.mem_cons_self, demo_running (some "5") (some 5) (by decide +kernel)⟩, fun p w hp hw => ?_⟩
  obtain ⟨p', w', h1, _, _, _, _, _, h7, _⟩ := C54_output hrun p w [] hp (by simp [hw])
  exact ⟨p', w', h1, h7⟩

end Verif
