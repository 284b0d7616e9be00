import Verif.Props.ExecuteCmd
import Verif.Props.Encodings
/-
C70: what execute_cmd asks for. C71: the input of a process. C72: opening a shell again.
-/
namespace Verif

/-! ### C70 -/

theorem variablesOf_create (s : WinRS) :
    variablesOf (createBody s) = s.environment.map fun env => env.map fun v => (some v.1, some v.2) := by
  have hopt : ∀ (tag : String) (v : Option PyStr), tag.toList ≠ "rsp:Environment".toList →
      (optElem tag v).filter (fun k => k.tag = "rsp:Environment".toList) = [] := by
    intro tag v ht
    cases v with
    | none => rfl
    | some t =>
      unfold optElem textElem
      rw [List.filter_cons_of_neg (by rw [decide_eq_true_eq]; exact ht)]; rfl
  unfold variablesOf createBody
  simp only [elemsAt, Elem.kids, List.filter_append]
  rw [hopt "rsp:IdleTimeOut" _ (by decide), hopt "rsp:Lifetime" _ (by decide), hopt "rsp:Name" _ (by decide), hopt "rsp:WorkingDirectory" _ (by decide)]
  have h0 : List.filter (fun k => decide (k.tag = "rsp:Environment".toList))
      [textElem "rsp:InputStreams" (some s.inputStreams), textElem "rsp:OutputStreams" s.outputStreams] = [] := by
    simp [textElem, Elem.tag]
  rw [h0]
  cases s.environment with
  | none => rfl
  | some env =>
    have hk : ∀ l : List (PyStr × PyStr), (l.map fun v => Elem.node "rsp:Variable".toList [("Name".toList, v.1)] (some v.2) []).filter
        (fun k => decide (k.tag = "rsp:Variable".toList)) = l.map fun v => Elem.node "rsp:Variable".toList [("Name".toList, v.1)] (some v.2) [] := by
      intro l
      rw [List.filter_eq_self]
      intro k hk
      obtain ⟨v, _, rfl⟩ := List.mem_map.1 hk
      simp [Elem.tag]
    simp only [List.nil_append, List.append_nil, Option.map_some]
    rw [environmentElem, List.filter_cons_of_pos (by simp [Elem.tag])]
    simp only [List.filter_nil, List.flatMap_cons, List.flatMap_nil, List.append_nil, List.head?_cons, Option.map_some]
    rw [hk]
    simp [List.flatMap_map, Elem.attr, Elem.attrs, Elem.text, Function.comp_def, ← List.map_eq_flatMap]

/-- The requests of an open. -/
theorem open_sent (w : ShellWorld) (ho : w.shell.opened = false) :
    ∃ ok, (winrsOpen w).2.sent = w.sent ++ [(.create w.shell.resourceUri w.shell, ok)] := by
  rw [open_eq w ho]
  unfold wsman
  cases w.replies with
  | nil => exact ⟨false, rfl⟩
  | cons x rest =>
    cases x with
    | error e => exact ⟨false, rfl⟩
    | ok body =>
      dsimp only
      rw [parseShellCreate_eq]
      cases selectorElems body with
      | none => exact ⟨true, rfl⟩
      | some es => dsimp only; cases (readSelectors es).2 <;> exact ⟨true, rfl⟩

/-- The requests of a close. -/
theorem close_sent (w : ShellWorld) : ∃ log, (winrsClose w).2.sent = w.sent ++ log ∧ ∀ e ∈ log, e.1.isCreate = false := by
  by_cases ho : w.shell.opened = true
  · obtain ⟨ok, h, _⟩ := close_sends w ho
    exact ⟨_, h, by simp [ShellReq.isCreate]⟩
  · rw [close_unopened w (by simpa using ho)]; exact ⟨[], by simp, by simp⟩

theorem closing_sent (body : SM α) (hb : Discreet body) (w : ShellWorld) :
    ∃ log, (closing body w).2.sent = (body w).2.sent ++ log ∧ ∀ e ∈ log, e.1.isCreate = false := by
  unfold closing
  cases hr : body w with
  | mk r w1 =>
    obtain ⟨log, h1, h2⟩ := close_sent w1
    cases r with
    | waiting => exact ⟨[], by simp, by simp⟩
    | ok a =>
      dsimp only
      cases hc : winrsClose w1 with
      | mk rc w2 => rw [hc] at h1; cases rc <;> exact ⟨log, h1, h2⟩
    | raised e =>
      dsimp only
      cases hc : winrsClose w1 with
      | mk rc w2 => rw [hc] at h1; cases rc <;> exact ⟨log, h1, h2⟩

/-- The process sends its command first. -/
theorem process_sent (command : PyStr) (w : ShellWorld) : ∃ ok log, (cmdResult command w).2.sent =
    w.sent ++ (.command w.shell.resourceUri w.shell.selectors command [] false none, ok) :: log ∧
    ∀ e ∈ log, e.1.isCreate = false := by
  have hb : ∃ ok, (Proc.begin { executable := command } w).2.sent =
      w.sent ++ [(.command w.shell.resourceUri w.shell.selectors command [] false none, ok)] := by
    unfold Proc.begin winrsCommand
    simp only [sm_bind, sget, wsman]
    cases w.replies with
    | nil => exact ⟨false, rfl⟩
    | cons x rest => cases x with
      | error e => exact ⟨false, rfl⟩
      | ok b => exact ⟨true, rfl⟩
  obtain ⟨ok, hb⟩ := hb
  unfold cmdResult Proc.invoke
  rw [sm_bind, sm_bind]
  cases h : Proc.begin { executable := command } w with
  | mk r w1 =>
    rw [h] at hb
    cases r with
    | waiting => exact ⟨ok, [], hb, by simp⟩
    | raised e => exact ⟨ok, [], hb, by simp⟩
    | ok p =>
      dsimp only
      have hq : Discreet (do let p ← p.finish; p.signal ctrlC; pure p : SM Proc) :=
        Discreet.bind (discreet_sget.bind fun w => discreet_pollUntilDone _ p) fun p =>
          Discreet.bind (Discreet.bind (discreet_sget.bind fun _ => discreet_wsman _ rfl rfl) fun _ => discreet_pure _) fun _ => discreet_pure _
      obtain ⟨_, log, h2, h3⟩ := hq w1
      rw [sm_bind] at h2
      refine ⟨ok, log, ?_, fun e he => (h3 e he).1⟩
      rw [hb] at h2
      rw [List.append_assoc] at h2
      exact h2

/-- C70: `execute_cmd` creates one shell, of the kind cmd, and its request has the environment that was given, in order, or none if
none was given. If the shell can be opened, the next request is the command line without arguments. This holds for all outcomes. -/
theorem C70_request (decode : Bytes → Except PyErr PyStr) (command : PyStr) (environment : Option (List (PyStr × PyStr)))
    (replies : List (Except PyErr Elem)) : ∃ s ok log,
    (executeCmd decode command { shell := newShell environment, replies }).2.sent =
      (.create (some "http://schemas.microsoft.com/wbem/wsman/1/windows/shell/cmd".toList) s, ok) :: log ∧
    variablesOf (createBody s) = environment.map (fun env => env.map fun v => (some v.1, some v.2)) ∧
    (∀ e ∈ log, e.1.isCreate = false) ∧
    ((winrsOpen { shell := newShell environment, replies }).1 = .ok () → ∃ r ok' log', log = (r, ok') :: log' ∧
      r.body.map commandLineOf = some ([some command], [])) := by
  have hso : ∃ ok, (winrsOpen { shell := newShell environment, replies }).2.sent = _ := open_sent { shell := newShell environment, replies } rfl
  obtain ⟨ok, hop⟩ := hso
  rw [C66_sent]
  unfold runCmd withShell
  rw [sm_bind]
  cases ho : winrsOpen { shell := newShell environment, replies } with
  | mk r w0 =>
    rw [ho] at hop
    dsimp only [List.nil_append] at hop
    cases r with
    | waiting => exact ⟨newShell environment, ok, [], hop, variablesOf_create _, by simp, by simp⟩
    | raised e => exact ⟨newShell environment, ok, [], hop, variablesOf_create _, by simp, by simp⟩
    | ok u =>
      dsimp only
      obtain ⟨l2, h2, h2'⟩ := closing_sent _ (discreet_process command) w0
      obtain ⟨ok1, l1, h1, h1'⟩ := process_sent command w0
      refine ⟨newShell environment, ok, (.command w0.shell.resourceUri w0.shell.selectors command [] false none, ok1) :: (l1 ++ l2),
        ?_, variablesOf_create _, ?_, fun _ => ⟨_, ok1, _, rfl, ?_⟩⟩
      · rw [h2]
        show (cmdResult command w0).2.sent ++ l2 = _
        rw [h1, hop]
        simp [newShell]
      · intro e he
        simp only [List.mem_cons, List.mem_append] at he
        rcases he with rfl | he | he
        · rfl
        · exact h1' e he
        · exact h2' e he
      · simp [ShellReq.body, commandLineOf, elemsAt, textElem, Elem.kids, Elem.tag, Elem.text]

example : variablesOf (createBody (newShell (some [(['A'], ['1']), (['B'], [])]))) =
    some [(some ['A'], some ['1']), (some ['B'], some [])] := rfl

/-! ### C71 -/

/-- Several sends, one after the other. -/
def Proc.sendAll (p : Proc) : List (Bytes × Bool) → SM Unit
  | [] => pure ()
  | c :: cs => do
    p.send c.1 c.2
    p.sendAll cs

/-- The piece of input that a send is for. -/
def asInput (id : PyStr) (c : Bytes × Bool) : Input :=
  ⟨some "stdin".toList, some id, some (base64Of c.1), some (if c.2 then "True".toList else "False".toList)⟩

theorem processInputs_send (uri : Option PyStr) (sel : Selectors) (id : PyStr) (c : Bytes × Bool) :
    processInputs (.send uri sel "stdin".toList (b64Encode c.1) (some id) (some c.2)) = some [asInput id c] := by
  obtain ⟨b, l⟩ := c
  simp only [processInputs, ShellReq.body, Option.map_some, elemsAt, Elem.kids, optAttr]
  rw [List.filter_cons_of_pos (by simp [Elem.tag])]
  simp only [List.filter_nil, List.flatMap_cons, List.flatMap_nil, List.append_nil, List.map_cons, List.map_nil, Elem.text,
    C99_base64, asInput]
  cases l <;> rfl

/-- C71: whatever is sent to a process, in whatever pieces and with whatever outcomes, the server gets pieces of the input of that process
in that shell, in order, with their bytes and their end marks: all of them if the sends succeed, otherwise those up to the first failure,
and nothing after it. -/
theorem C71_input (p : Proc) (id : PyStr) (hid : p.id = some id) (chunks : List (Bytes × Bool)) : ∀ w : ShellWorld,
    ∃ n log, n ≤ chunks.length ∧ (p.sendAll chunks w).2.sent = w.sent ++ log ∧
      log.map (fun e => processInputs e.1) = (chunks.take n).map (fun c => some [asInput id c]) ∧
      (∀ e ∈ log, ∃ s t c l, e.1 = .send w.shell.resourceUri w.shell.selectors s t c l) ∧
      ((p.sendAll chunks w).1 = .ok () → n = chunks.length ∧ ∀ e ∈ log, e.2 = true) ∧
      ((p.sendAll chunks w).1 ≠ .ok () → ∃ e ∈ log.getLast?, e.2 = false) ∧ (p.sendAll chunks w).2.shell = w.shell := by
  induction chunks with
  | nil => intro w; exact ⟨0, [], by simp, by simp [Proc.sendAll, sm_pure], by simp, by simp, by simp, by simp [Proc.sendAll, sm_pure], rfl⟩
  | cons c cs ih =>
    intro w
    have hs : p.send c.1 c.2 w = match wsman (.send w.shell.resourceUri w.shell.selectors "stdin".toList (b64Encode c.1) (some id) (some c.2)) w with
        | (.ok _, w1) => (.ok (), w1)
        | (.raised e, w1) => (.raised e, w1)
        | (.waiting, w1) => (.waiting, w1) := by
      unfold Proc.send winrsSend
      simp only [sm_bind, sget, hid]
      cases wsman (.send w.shell.resourceUri w.shell.selectors "stdin".toList (b64Encode c.1) (some id) (some c.2)) w with
      | mk r w1 => cases r <;> rfl
    unfold Proc.sendAll
    rw [sm_bind, hs]
    have hin := processInputs_send w.shell.resourceUri w.shell.selectors id c
    unfold wsman
    cases hr : w.replies with
    | nil =>
      refine ⟨1, [(.send w.shell.resourceUri w.shell.selectors "stdin".toList (b64Encode c.1) (some id) (some c.2), false)], by simp, rfl, by rw [List.map_singleton, hin]; rfl,
        fun e he => ?_, fun h => ?_, fun _ => ⟨_, by simp; rfl, rfl⟩, rfl⟩
      · simp only [List.mem_singleton] at he; subst he; exact ⟨_, _, _, _, rfl⟩
      · simp at h
    | cons x rest =>
      cases x with
      | error e =>
        refine ⟨1, [(.send w.shell.resourceUri w.shell.selectors "stdin".toList (b64Encode c.1) (some id) (some c.2), false)], by simp, rfl, by rw [List.map_singleton, hin]; rfl,
          fun e he => ?_, fun h => ?_, fun _ => ⟨_, by simp; rfl, rfl⟩, rfl⟩
        · simp only [List.mem_singleton] at he; subst he; exact ⟨_, _, _, _, rfl⟩
        · simp at h
      | ok b =>
        dsimp only
        obtain ⟨n, log, h1, h2, h3, h4, h5, h6, h7⟩ := ih { w with replies := rest, sent := w.sent ++ [(.send w.shell.resourceUri w.shell.selectors "stdin".toList (b64Encode c.1) (some id) (some c.2), true)] }
        refine ⟨n + 1, (.send w.shell.resourceUri w.shell.selectors "stdin".toList (b64Encode c.1) (some id) (some c.2), true) :: log, by simpa using h1, ?_, ?_, ?_, ?_, ?_, h7⟩
        · rw [h2]; simp
        · simp only [List.map_cons, List.take_succ_cons, hin, h3]
        · intro e he
          rcases List.mem_cons.1 he with rfl | he
          · exact ⟨_, _, _, _, rfl⟩
          · exact h4 e he
        · intro hk
          obtain ⟨h8, h9⟩ := h5 hk
          refine ⟨by simp [h8], fun e he => ?_⟩
          rcases List.mem_cons.1 he with rfl | he
          · rfl
          · exact h9 e he
        · intro hk
          obtain ⟨e, he, hf⟩ := h6 hk
          refine ⟨e, ?_, hf⟩
          rw [List.getLast?_cons]
          rw [Option.mem_def] at he ⊢
          rw [he]; rfl

/-- Two pieces of input. -/
example : ((startedProc ['x'] ['3']).sendAll [([1, 2], false), ([], true)] (demoShell [.ok demoBody, .ok demoBody])).2.sent.map (fun e => processInputs e.1) =
    [some [⟨some "stdin".toList, some ['3'], some "AQI=".toList, some "False".toList⟩], some [⟨some "stdin".toList, some ['3'], some [], some "True".toList⟩]] := by
  decide +kernel

/-! ### C72 -/

/-- What a shell asks for when it is opened. -/
def asked (r : ShellReq) : Option (Option PyStr × Option Elem × List WSManValue) :=
  match r with
  | .create uri s => some (uri, r.body, createOptions s)
  | _ => none

/-- The attributes that go into a create request, apart from the id. -/
def wishes (s : WinRS) := (s.resourceUri, s.inputStreams, s.outputStreams, s.codepage, s.environment, s.idleTimeOut, s.lifetime, s.name,
  s.noProfile, s.workingDirectory)

theorem setField_request (path : PyStr) (set : Option PyStr → WinRS → WinRS) (body : Elem) (s : WinRS)
    (h : ∀ e ∈ elemsAt ["rsp:Shell".toList, path] body, wishes (set e.text s) = wishes s) : wishes (setField path set body s) = wishes s := by
  unfold setField
  rw [find_eq]
  cases hf : (elemsAt ["rsp:Shell".toList, path] body).head? with
  | none => rfl
  | some e => exact h e (List.mem_of_head? hf)

theorem readFields_request {body : Elem} {s : WinRS} (h : Echoes s body) : wishes (readFields body s) = wishes s := by
  unfold readFields
  have skip : ∀ {path : PyStr} {set : Option PyStr → WinRS → WinRS} {x : WinRS}, (∀ t s, wishes (set t s) = wishes s) →
      wishes x = wishes s → wishes (setField path set body x) = wishes s :=
    fun hx hs => (setField_request _ _ body _ fun e _ => hx e.text _).trans hs
  have use : ∀ {path : PyStr} {set : Option PyStr → WinRS → WinRS} {x : WinRS},
      (wishes x = wishes s → ∀ e ∈ elemsAt ["rsp:Shell".toList, path] body, wishes (set e.text x) = wishes x) →
      wishes x = wishes s → wishes (setField path set body x) = wishes s :=
    fun hx hs => (setField_request _ _ body _ (hx hs)).trans hs
  refine skip (fun _ _ => rfl) (skip (fun _ _ => rfl) (use (fun hx e he => ?_) (use (fun hx e he => ?_)
    (skip (fun _ _ => rfl) (skip (fun _ _ => rfl) (use (fun hx e he => ?_) (skip (fun _ _ => rfl) rfl)))))))
  · have h1 : _ = s.outputStreams := congrArg (fun r => r.2.2.1) hx
    rw [h.streams e he, ← h1]; rfl
  · rw [h.idle] at he; simp at he
  · have h1 : _ = s.resourceUri := congrArg (fun r => r.1) hx
    rw [h.uri e he, ← h1]; rfl

/-- C72, partial: a shell without an id of its own that is opened, closed and opened again asks for the same both times, if the first
response has no idle timeout and repeats the resource and the streams, if it names them. Missing: other responses and shells with an
id (`C72_idle_false`, `C72_id_false`). -/
theorem C72_again_partial (s : WinRS) (created deleted : Elem) (rest : List (Except PyErr Elem)) (ho : s.opened = false)
    (hi : s.id = none) (hn : Named created) (he : Echoes s created) : ∃ r1 d r2 ok,
    (runShell { shell := s, replies := .ok created :: .ok deleted :: rest } [.open, .close, .open]).sent = [(r1, true), (d, true), (r2, ok)] ∧
    d.isDelete = true ∧ (asked r1).isSome = true ∧ asked r2 = asked r1 := by
  obtain ⟨w1, h1, h1s, h1r, h1o, h1q⟩ : ∃ w1, winrsOpen { shell := s, replies := .ok created :: .ok deleted :: rest } = (.ok (), w1) ∧
      w1.sent = [(.create s.resourceUri s, true)] ∧ w1.replies = .ok deleted :: rest ∧ w1.shell.opened = true ∧ wishes w1.shell = wishes s := by
    rw [open_eq _ ho]
    simp only [wsman]
    rw [parseShellCreate_eq]
    have hq := readFields_request he
    cases hs : selectorElems created with
    | none => exact ⟨_, rfl, rfl, rfl, rfl, hq⟩
    | some es =>
      simp only [readSelectors_named (hn es hs), if_true]
      exact ⟨_, rfl, rfl, rfl, rfl, hq⟩
  obtain ⟨w2, h2, h2s, h2o, h2i, h2q⟩ : ∃ w2, winrsClose w1 = (.ok (), w2) ∧
      w2.sent = w1.sent ++ [(.delete w1.shell.resourceUri w1.shell.selectors, true)] ∧ w2.shell.opened = false ∧ w2.shell.id = none ∧
      wishes w2.shell = wishes w1.shell := by
    rw [close_eq w1 h1o]
    simp only [wsman, h1r]
    exact ⟨_, rfl, rfl, rfl, rfl, rfl⟩
  obtain ⟨ok, h3⟩ := open_sent w2 h2o
  refine ⟨.create s.resourceUri s, .delete w1.shell.resourceUri w1.shell.selectors, .create w2.shell.resourceUri w2.shell, ok, ?_, rfl, rfl, ?_⟩
  · simp only [runShell]
    rw [h1, h2, h3, h2s, h1s]; rfl
  · have hq := h2q.trans h1q
    simp only [wishes, Prod.mk.injEq] at hq
    obtain ⟨q1, q2, q3, q4, q5, q6, q7, q8, q9, q10⟩ := hq
    simp only [asked, ShellReq.body, createBody, createOptions, q1, q2, q3, q4, q5, q6, q7, q8, q9, q10, h2i, hi]

/-- A response as the theorem wants it. -/
example (s : WinRS) : Echoes s (demoCreate [demoSelector]) := ⟨rfl, fun _ h => (List.not_mem_nil h).elim, fun _ h => (List.not_mem_nil h).elim⟩

/-- A shell with an idle timeout and an environment that is opened again. -/
example : ((runShell { shell := { newShell (some [(['A'], ['1'])]) with idleTimeOut := some "60".toList }, replies := [.ok (demoCreate [demoSelector]), .ok demoBody] }
      [.open, .close, .open]).sent.map fun e => match e.1 with
        | .create _ s => (s.idleTimeOut, s.id)
        | _ => (none, none)) = [(some "60".toList, none), (none, none), (some "60".toList, none)] := by decide +kernel

/-- A create response with an idle timeout as servers write it. -/
def demoIdle : Elem :=
  .node "s:Body".toList [] none [.node "rsp:Shell".toList [] none [.node "rsp:IdleTimeOut".toList [] (some "PT60.000S".toList) []]]

/-- The idle timeout in the body of a request. -/
def idleOf (r : ShellReq) : Option (List (Option PyStr)) := r.body.map fun b => (elemsAt ["rsp:IdleTimeOut".toList] b).map Elem.text

/-- C72 is false of the code: the idle timeout that the server reports replaces the number of seconds, and the next open puts "PT" and
"S" around it again. -/
theorem C72_idle_false : ∃ w : ShellWorld, (runShell w [.open, .close, .open]).sent.map (fun e => idleOf e.1) =
    [some [some "PT60S".toList], none, some [some "PTPT60.000SS".toList]] :=
  ⟨{ shell := { newShell none with idleTimeOut := some "60".toList }, replies := [.ok demoIdle, .ok demoBody] }, by decide +kernel⟩

/-- C72 is false of the code: a shell that was given an id is opened again without it. -/
theorem C72_id_false : ∃ w : ShellWorld, (runShell w [.open, .close, .open]).sent.map (fun e => e.1.body.map fun b => b.attr "ShellId".toList) =
    [some (some ['9']), none, some none] :=
  ⟨{ shell := { newShell none with id := some ['9'] }, replies := [.ok demoIdle, .ok demoBody] }, by decide +kernel⟩

end Verif
