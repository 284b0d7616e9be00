import Verif.Props.Shell
/-
C66: execute_cmd.
-/
namespace Verif

/-- A program that leaves the shell alone and sends neither create nor delete. -/
def Discreet (x : SM α) : Prop := ∀ w, (x w).2.shell = w.shell ∧ ∃ log, (x w).2.sent = w.sent ++ log ∧
  ∀ e ∈ log, e.1.isCreate = false ∧ e.1.isDelete = false

theorem Discreet.bind {x : SM α} {f : α → SM β} (hx : Discreet x) (hf : ∀ a, Discreet (f a)) : Discreet (x >>= f) := by
  intro w
  obtain ⟨h1, l1, h2, h3⟩ := hx w
  rw [sm_bind]
  cases h : x w with
  | mk r w1 =>
    rw [h] at h1 h2
    cases r with
    | ok a =>
      obtain ⟨h4, l2, h5, h6⟩ := hf a w1
      refine ⟨h4.trans h1, l1 ++ l2, by rw [h5, h2, List.append_assoc], fun e he => ?_⟩
      rcases List.mem_append.1 he with he | he
      · exact h3 e he
      · exact h6 e he
    | raised e => exact ⟨h1, l1, h2, h3⟩
    | waiting => exact ⟨h1, l1, h2, h3⟩

theorem discreet_pure (a : α) : Discreet (pure a : SM α) := fun w => ⟨rfl, [], by simp [sm_pure], by simp⟩

theorem discreet_sget : Discreet Verif.sget := fun w => ⟨rfl, [], by simp [Verif.sget], by simp⟩

theorem discreet_slift (x : Except PyErr α) : Discreet (slift x) := fun w => by
  cases x <;> exact ⟨rfl, [], by simp [Verif.slift], by simp⟩

theorem discreet_wsman (r : ShellReq) (hc : r.isCreate = false) (hd : r.isDelete = false) : Discreet (wsman r) := by
  intro w
  unfold Verif.wsman
  cases w.replies with
  | nil => exact ⟨rfl, _, rfl, by simp [hc, hd]⟩
  | cons x rest => cases x <;> exact ⟨rfl, _, rfl, by simp [hc, hd]⟩

theorem discreet_poll (p : Proc) : Discreet p.poll := by
  intro w
  have h : Discreet (winrsReceive "stdout stderr".toList p.id) :=
    discreet_sget.bind fun _ => (discreet_wsman _ rfl rfl).bind fun _ => discreet_slift _
  have hw := h w
  unfold Proc.poll
  cases hr : winrsReceive "stdout stderr".toList p.id w with
  | mk r w1 =>
    rw [hr] at hw
    cases r with
    | waiting => exact hw
    | raised e => dsimp only; split <;> exact hw
    | ok a =>
      obtain ⟨s, c, b⟩ := a
      dsimp only
      split <;> exact hw

theorem discreet_pollUntilDone (n : Nat) : ∀ p : Proc, Discreet (Proc.pollUntilDone n p) := by
  induction n with
  | zero =>
    intro p
    intro w
    unfold Proc.pollUntilDone
    by_cases h : p.state = CommandState.done
    · rw [if_pos h]; exact discreet_pure _ w
    · rw [if_neg h]; exact ⟨rfl, [], by simp [swait], by simp⟩
  | succ n ih =>
    intro p
    unfold Proc.pollUntilDone
    split
    · exact discreet_pure _
    · exact (discreet_poll p).bind fun p => ih p

theorem discreet_process (command : PyStr) : Discreet (do
    let p ← ({ executable := command } : Proc).invoke
    p.signal ctrlC
    pure p) := by
  refine Discreet.bind (Discreet.bind ?_ ?_) ?_
  · exact Discreet.bind (discreet_sget.bind fun _ => discreet_wsman _ rfl rfl) fun _ => discreet_pure _
  · exact fun p => discreet_sget.bind fun w => discreet_pollUntilDone _ p
  · exact fun p => Discreet.bind (Discreet.bind (discreet_sget.bind fun _ => discreet_wsman _ rfl rfl) fun _ => discreet_pure _) fun _ => discreet_pure _

/-- Closing an open shell sends one delete, for its selectors. -/
theorem close_sends (w : ShellWorld) (ho : w.shell.opened = true) : ∃ ok,
    (winrsClose w).2.sent = w.sent ++ [(.delete w.shell.resourceUri w.shell.selectors, ok)] ∧ (ok = true → (winrsClose w).1 = .ok ()) := by
  rw [close_eq w ho]
  unfold wsman
  cases w.replies with
  | nil => exact ⟨false, rfl, by simp⟩
  | cons x rest =>
    cases x with
    | error e => exact ⟨false, rfl, by simp⟩
    | ok b => exact ⟨true, rfl, by simp⟩

/-- An open that succeeds leaves the shell open. -/
theorem open_ok (w : ShellWorld) (h : (winrsOpen w).1 = .ok ()) : (winrsOpen w).2.shell.opened = true := by
  by_cases ho : w.shell.opened = true
  · rw [open_opened w ho]; exact ho
  · rw [open_eq w (by simpa using ho)] at h ⊢
    cases hw : wsman (.create w.shell.resourceUri w.shell) w with
    | mk r w1 =>
      rw [hw] at h
      cases r with
      | waiting => simp at h
      | raised e => simp at h
      | ok body =>
        dsimp only at h ⊢
        cases hp : parseShellCreate body w1 with
        | mk r w2 =>
          rw [hp] at h
          cases r with
          | ok u => rfl
          | _ => simp at h

/-- The end of `with`: whatever the body does, if it does not wait, the shell is closed last. -/
theorem withShell_closes (body : SM α) (hb : Discreet body) (w : ShellWorld) (ho : (winrsOpen w).1 = .ok ())
    (hw : (body (winrsOpen w).2).1 ≠ .waiting) : ∃ log ok,
    (withShell body w).2.sent = (winrsOpen w).2.sent ++ log ++ [(.delete (winrsOpen w).2.shell.resourceUri (winrsOpen w).2.shell.selectors, ok)] ∧
    (∀ e ∈ log, e.1.isCreate = false ∧ e.1.isDelete = false) ∧
    (ok = true → (withShell body w).1 = (body (winrsOpen w).2).1) := by
  have hopen := open_ok w ho
  unfold withShell
  rw [sm_bind]
  cases h : winrsOpen w with
  | mk r w0 =>
    rw [h] at ho hopen hw
    dsimp only at ho hopen hw
    subst ho
    dsimp only
    unfold closing
    obtain ⟨h1, log, h2, h3⟩ := hb w0
    cases hr : body w0 with
    | mk r w1 =>
      rw [hr] at h1 h2 hw
      dsimp only at h1 h2 hw
      obtain ⟨ok, h4, h5⟩ := close_sends w1 (by rw [h1]; exact hopen)
      rw [h1, h2] at h4
      cases hcl : winrsClose w1 with
      | mk rc w2 =>
        rw [hcl] at h4 h5
        dsimp only at h4 h5
        refine ⟨log, ok, ?_⟩
        cases r with
        | waiting => exact absurd rfl hw
        | ok a => dsimp only; rw [hcl]; cases rc <;> exact ⟨h4, h3, fun hk => by have := h5 hk; first | rfl | (simp at this)⟩
        | raised e => dsimp only; rw [hcl]; cases rc <;> exact ⟨h4, h3, fun hk => by have := h5 hk; first | rfl | (simp at this)⟩

/-- The program of the process in `execute_cmd`, in the open shell. -/
def cmdResult (command : PyStr) (w : ShellWorld) : Res Proc × ShellWorld := (do
    let p ← ({ executable := command } : Proc).invoke
    p.signal ctrlC
    pure p : SM Proc) w

/-- C66, partial: at every failure point after the open, and on success, the last request is a delete of the shell that was opened,
with no create or delete between them; the error is the one of the process if the delete is answered. Missing: an open that fails
although the server has created the shell (`C66_open_false`), and ending the process (`C66_signal_false`). -/
theorem C66_deleted_partial (command : PyStr) (w : ShellWorld) (ho : (winrsOpen w).1 = .ok ())
    (hw : (cmdResult command (winrsOpen w).2).1 ≠ .waiting) : ∃ log ok,
    (runCmd command w).2.sent = (winrsOpen w).2.sent ++ log ++ [(.delete (winrsOpen w).2.shell.resourceUri (winrsOpen w).2.shell.selectors, ok)] ∧
    (∀ e ∈ log, e.1.isCreate = false ∧ e.1.isDelete = false) ∧
    (ok = true → (runCmd command w).1 = (cmdResult command (winrsOpen w).2).1) :=
  withShell_closes _ (discreet_process command) w ho hw

/-- C66: what `execute_cmd` sends is what the shell's part sends, so that decoding errors come after the delete. -/
theorem C66_sent (decode : Bytes → Except PyErr PyStr) (command : PyStr) (w : ShellWorld) :
    (executeCmd decode command w).2 = (runCmd command w).2 := by
  unfold executeCmd
  rw [sm_bind]
  cases h : runCmd command w with
  | mk r w1 =>
    cases r with
    | ok p =>
      dsimp only
      rw [sm_bind]
      cases decode p.stdout with
      | error e => rfl
      | ok o =>
        simp only [slift]
        rw [sm_bind]
        cases decode p.stderr <;> rfl
    | _ => rfl

/-- A process that has been started. -/
def startedProc (command id : PyStr) : Proc := { executable := command, id := some id }

/-- C66: the run of a command: the output of the process is decoded, the exit code is the one in the last response, or -1 if it has
none; then the process is ended and the shell deleted, and nothing is sent after that. -/
theorem C66_rc {rs : List (Except PyErr Elem)} {cs : List (ProcStream × Bytes)} {code : Option Int} (h : ProcRun rs cs code)
    (decode : Bytes → Except PyErr PyStr) (command out err id : PyStr) (w : ShellWorld) (created started e1 e2 : Elem)
    (rest : List (Except PyErr Elem)) (ho : w.shell.opened = false) (hn : Named created)
    (hi : (elemsAt ["rsp:CommandResponse".toList, "rsp:CommandId".toList] started).head?.map Elem.text = some (some id))
    (hw : w.replies = .ok created :: .ok started :: (rs ++ .ok e1 :: .ok e2 :: rest))
    (hout : decode (bytesOf .stdout cs) = .ok out) (herr : decode (bytesOf .stderr cs) = .ok err) :
    ∃ w' log uri sel, executeCmd decode command w = (.ok (out, err, match code with
        | some c => c
        | none => -1), w') ∧ w'.replies = rest ∧ w'.shell.opened = false ∧
      w'.sent = w.sent ++ log ++ [(.signal uri sel interruptUri id, true), (.delete uri sel, true)] := by
  obtain ⟨w0, hop, hopened, hrep, lc, hsent⟩ : ∃ w0, winrsOpen w = (.ok (), w0) ∧ w0.shell.opened = true ∧
      w0.replies = .ok started :: (rs ++ .ok e1 :: .ok e2 :: rest) ∧ ∃ lc, w0.sent = w.sent ++ lc := by
    rw [open_eq w ho]
    unfold wsman
    rw [hw]
    dsimp only
    rw [parseShellCreate_eq]
    cases hs : selectorElems created with
    | none => exact ⟨_, rfl, rfl, rfl, _, rfl⟩
    | some es =>
      simp only [readSelectors_named (hn es hs), if_true]
      exact ⟨_, rfl, rfl, rfl, _, rfl⟩
  obtain ⟨w1, hb, hrep1, hshell1, l1, hsent1⟩ : ∃ w1, Proc.begin { executable := command } w0 = (.ok (startedProc command id), w1) ∧
      w1.replies = rs ++ .ok e1 :: .ok e2 :: rest ∧ w1.shell = w0.shell ∧ ∃ l1, w1.sent = w0.sent ++ l1 := by
    unfold Proc.begin winrsCommand
    simp only [sm_bind, sget, wsman, hrep, sm_pure]
    refine ⟨{ w0 with replies := rs ++ .ok e1 :: .ok e2 :: rest, sent := w0.sent ++ [(.command w0.shell.resourceUri w0.shell.selectors command [] false none, true)] },
      ?_, rfl, rfl, _, rfl⟩
    rw [find_eq]
    cases hh : (elemsAt ["rsp:CommandResponse".toList, "rsp:CommandId".toList] started).head? with
    | none => rw [hh] at hi; simp at hi
    | some x =>
      rw [hh] at hi
      have : x.text = some id := by simpa using hi
      simp [this, startedProc]
  obtain ⟨p2, w2, hf, _, hrep2, hshell2, hso, hse, hrc, hid⟩ := C54_output h (startedProc command id) w1
    (.ok e1 :: .ok e2 :: rest) (show CommandState.pending ≠ doneUri by decide +kernel) hrep1
  have hl2 : ∃ l2, w2.sent = w1.sent ++ l2 := by
    have hq : Discreet (Proc.finish (startedProc command id)) := discreet_sget.bind fun w => discreet_pollUntilDone _ _
    obtain ⟨_, l2, h2, _⟩ := hq w1
    rw [hf] at h2
    exact ⟨l2, h2⟩
  obtain ⟨l2, hsent2⟩ := hl2
  have hso : p2.stdout = bytesOf .stdout cs := by rw [hso]; rfl
  have hse : p2.stderr = bytesOf .stderr cs := by rw [hse]; rfl
  have hid : p2.id = some id := hid
  have hopen2 : w2.shell.opened = true := by rw [hshell2, hshell1]; exact hopened
  have hrun : runCmd command w = (.ok p2, { shell := { w2.shell with id := Option.none, opened := false }, replies := rest, sent := w2.sent ++ [(.signal w2.shell.resourceUri w2.shell.selectors ctrlC id, true)] ++ [(.delete w2.shell.resourceUri w2.shell.selectors, true)] }) := by
    unfold runCmd withShell Proc.invoke
    simp only [closing, sm_bind, hop, hb, hf, Proc.signal, winrsSignal, sget, wsman, hrep2, hid, Option.getD_some, sm_pure]
    simp [winrsClose, sm_bind, sget, hopen2, wsman, smodify]
  refine ⟨(runCmd command w).2, lc ++ l1 ++ l2, w2.shell.resourceUri, w2.shell.selectors, ?_, by rw [hrun], by rw [hrun], ?_⟩
  · unfold executeCmd
    rw [sm_bind, hrun]
    dsimp only
    simp only [sm_bind, slift, hso, hse, hout, herr, sm_pure, hrc]
    cases code <;> rfl
  · rw [hrun]
    dsimp only
    rw [hsent2, hsent1, hsent]
    simp [show interruptUri = ctrlC from rfl]

/-- A run for the example. -/
def demoCmd (replies : List (Except PyErr Elem)) : ShellWorld := { shell := newShell none, replies := .ok (demoCreate [demoSelector]) :: replies }

def demoStarted : Elem := .node "s:Body".toList [] none [.node "rsp:CommandResponse".toList [] none [.node "rsp:CommandId".toList [] (some ['3']) []]]

/-- An ASCII codec. -/
def demoDecode (b : Bytes) : Except PyErr PyStr := .ok (b.map fun c => Char.ofNat c.toNat)

example : (elemsAt ["rsp:CommandResponse".toList, "rsp:CommandId".toList] demoStarted).head?.map Elem.text = some (some ['3']) := rfl

example : (executeCmd demoDecode ['x'] (demoCmd [.ok demoStarted,
    .ok (demoReceive [demoStream "stdout" (some "aGk="), demoState CommandState.pending none]), pollTimeout,
    .ok (demoReceive [demoState doneUri (some "-3")]), .ok demoBody, .ok demoBody])).1 = .ok (['h', 'i'], [], -3) := by
  decide +kernel

/-- A failed poll: the shell is deleted. -/
example : ((winrsOpen (demoCmd [.ok demoStarted, .error .osError, .ok demoBody])).1 = .ok () ∧
    (cmdResult ['x'] (winrsOpen (demoCmd [.ok demoStarted, .error .osError, .ok demoBody])).2).1 = .raised .osError ∧
    (runCmd ['x'] (demoCmd [.ok demoStarted, .error .osError, .ok demoBody])).1 = .raised .osError) := by
  decide +kernel

/-- C66 is false of the code: if a poll fails, the process is not ended. -/
theorem C66_signal_false : ∃ w : ShellWorld, w.sent = [] ∧ w.shell.opened = false ∧
    (∃ r ∈ answered (runCmd ['x'] w).2.sent, match r with
      | .command _ _ _ _ _ _ => True
      | _ => False) ∧
    ∀ r ∈ (runCmd ['x'] w).2.sent, match r.1 with
      | .signal _ _ _ _ => False
      | _ => True := by
  have h : (runCmd ['x'] (demoCmd [.ok demoStarted, .error .osError, .ok demoBody])).2.sent =
      [(.create (newShell none).resourceUri (newShell none), true),
       (.command (newShell none).resourceUri (some [("ShellId".toList, ['7'])]) ['x'] [] false none, true),
       (.receive (newShell none).resourceUri (some [("ShellId".toList, ['7'])]) "stdout stderr".toList (some ['3']), false),
       (.delete (newShell none).resourceUri (some [("ShellId".toList, ['7'])]), true)] := by decide +kernel
  refine ⟨demoCmd [.ok demoStarted, .error .osError, .ok demoBody], rfl, rfl, ?_, ?_⟩
  · rw [h]; exact ⟨_, List.mem_cons_of_mem _ List.mem_cons_self, trivial⟩
  · rw [h]
    intro r hr
    simp only [List.mem_cons, List.not_mem_nil, or_false] at hr
    rcases hr with rfl | rfl | rfl | rfl <;> trivial

/-- C66 is false of the code: a shell whose create response has a selector without name is not deleted. -/
theorem C66_open_false : ∃ w : ShellWorld, w.sent = [] ∧ w.shell.opened = false ∧ (runCmd ['x'] w).1 = .raised .keyError ∧
    (answered (runCmd ['x'] w).2.sent).map ShellReq.isCreate = [true] := by
  refine ⟨demoShell [.ok (demoCreate [.node "wsman:Selector".toList [] none []]), .ok demoBody], rfl, rfl, ?_⟩
  decide +kernel

/-- C66 is false of the code: -1 is returned although the server has reported an exit code, in a response before the last. -/
theorem C66_rc_false : ∃ w : ShellWorld, (∃ body c state, .ok body ∈ w.replies ∧ Reports body c state (some 5)) ∧
    (executeCmd demoDecode ['x'] w).1 = .ok (['h', 'i'], [], -1) := by
  refine ⟨demoCmd [.ok demoStarted, .ok (demoReceive [demoStream "stdout" (some "aGk="), demoState CommandState.pending (some "5")]),
      .ok (demoReceive [demoState doneUri none]), .ok demoBody, .ok demoBody],
    ⟨_, _, _, ?_, demo_running (some "5") (some 5) (by decide +kernel)⟩, by decide +kernel⟩
  exact List.mem_cons_of_mem _ (List.mem_cons_of_mem _ List.mem_cons_self)

end Verif
