import Verif.Spec.HttpShell
import Verif.Props.HttpWire
import Verif.Props.Encodings
import Verif.Props.ExecuteCmd
/-
C103: a command over HTTP.
-/
namespace Verif

/-- The answers that the shell sees. -/
theorem httpAnswers_eq {env : TransportEnv} (henv : env.parse = parseWsman) {cfg : TransportCfg} {enc : Option (Nat × SealProtocol)} {k : Nat}
    {os : List NetOutcome} {qs : List (WSManAction × PyStr × Bytes)} {rs : List (Except PyErr Elem)} (h : ShellAnswers env cfg enc k os qs rs) :
    ∀ w : TWorld, w.outcomes = os → w.encryption = enc → w.sealCalls = k → httpAnswers env cfg qs w = rs := by
  induction h with
  | nil => intro w _ _ _; rfl
  | @body k os action id message r text x body n qs rs hready hr hst hdoc hid hbody hn _ ih =>
    intro w h1 h2 h3
    have hready' : ReadyFor env cfg message w := by
      unfold ReadyFor at hready ⊢
      rw [h2, h3]; exact hready
    have hr' : Receives env cfg w r (utf8 text) := ⟨⟨os, h1⟩, hr.final, by rw [h2, h3]; exact hr.content⟩
    obtain ⟨w', hw, e1, e2, e3⟩ := sendLoop_exchange hready' hr' (by omega) h1 hn action.readRetries
    rw [if_neg hst] at hw
    have hrec : httpAnswer env cfg (action, id, message) w = (some (.ok body), w') := by
      unfold httpAnswer wsmanInvoke
      dsimp only
      rw [hw]
      dsimp only
      rw [henv, C100_prefixes hdoc]
      dsimp only
      rw [if_neg (by simpa using (relatesTo_iff x id).mpr hid)]
      dsimp only
      rw [find_eq, hbody]
    rw [httpAnswers, hrec]
    dsimp only
    rw [ih w' e1 (by rw [e2, h2]) (by rw [e3, h3])]
  | @fault k os action id message r text header p code n qs rs hready hr h400 h600 h401 hdoc hn _ ih =>
    intro w h1 h2 h3
    have hready' : ReadyFor env cfg message w := by
      unfold ReadyFor at hready ⊢
      rw [h2, h3]; exact hready
    have hr' : Receives env cfg w r (utf8 text) := ⟨⟨os, h1⟩, hr.final, by rw [h2, h3]; exact hr.content⟩
    obtain ⟨w', hw, e1, e2, e3⟩ := sendLoop_exchange hready' hr' h401 h1 hn action.readRetries
    rw [if_pos ⟨h400, h600⟩] at hw
    rw [← C99_number] at hdoc
    have hrec : httpAnswer env cfg (action, id, message) w = (some (.error (.wsManFault (some code))), w') := by
      unfold httpAnswer wsmanInvoke
      dsimp only
      rw [hw]
      dsimp only
      rw [henv, C100_prefixes hdoc]
      dsimp only
      rw [parseFault_detail, faultCode, pyInt_pyStrInt]
      rfl
    rw [httpAnswers, hrec]
    dsimp only
    rw [ih w' e1 (by rw [e2, h2]) (by rw [e3, h3])]

/-- The polls of a process: one request for each answer. -/
theorem finish_sent {rs : List (Except PyErr Elem)} {cs : List (ProcStream × Bytes)} {code : Option Int} (h : ProcRun rs cs code)
    (p : Proc) (w : ShellWorld) (rest : List (Except PyErr Elem)) (hp : p.state ≠ doneUri) (hw : w.replies = rs ++ rest) :
    (p.finish w).2.sent.map (·.1) = w.sent.map (·.1) ++ List.replicate rs.length (p.pollReq w.shell) := by
  suffices hs : ∀ (n : Nat) (p : Proc) (w : ShellWorld) (rest : List (Except PyErr Elem)), p.state ≠ doneUri →
      w.replies = rs ++ rest → rs.length < n →
      (Proc.pollUntilDone n p w).2.sent.map (·.1) = w.sent.map (·.1) ++ List.replicate rs.length (p.pollReq w.shell) by
    have := hs (w.replies.length + 1) p w rest hp hw (by rw [hw]; simp; omega)
    unfold Proc.finish
    simpa only [sm_bind, sget] using this
  clear hp hw rest w p
  induction h with
  | timeout _ ih =>
    intro n p w rest hp hw hn
    obtain ⟨n, rfl⟩ : ∃ m, n = m + 1 := ⟨n - 1, by simp at hn; omega⟩
    unfold Proc.pollUntilDone
    rw [if_neg (show ¬ p.state = CommandState.done from hp), sm_bind, poll_error p w _ _ hw, if_pos rfl]
    dsimp only
    rw [ih n p _ rest hp rfl (by simp at hn; omega)]
    simp [ShellWorld.after, List.replicate_succ]
  | @more body c state code' rs cs code hb hne _ ih =>
    intro n p w rest hp hw hn
    obtain ⟨n, rfl⟩ : ∃ m, n = m + 1 := ⟨n - 1, by simp at hn; omega⟩
    unfold Proc.pollUntilDone
    rw [if_neg (show ¬ p.state = CommandState.done from hp), sm_bind, poll_reports p w _ hb hw]
    dsimp only
    refine (ih n { p with state, rc := code', stdout := p.stdout ++ bytesOf .stdout c, stderr := p.stderr ++ bytesOf .stderr c }
      (w.after (p.pollReq w.shell) true (rs ++ rest)) rest hne rfl (by simp at hn; omega)).trans ?_
    simp [ShellWorld.after, List.replicate_succ, Proc.pollReq]
  | @done body cs code hb =>
    intro n p w rest hp hw hn
    obtain ⟨n, rfl⟩ : ∃ m, n = m + 1 := ⟨n - 1, by simp at hn; omega⟩
    unfold Proc.pollUntilDone
    rw [if_neg (show ¬ p.state = CommandState.done from hp), sm_bind, poll_reports p w _ hb hw]
    dsimp only
    cases n <;> simp [Proc.pollUntilDone, sm_pure, show CommandState.done = doneUri from rfl, ShellWorld.after]

theorem setField_uri (path : PyStr) (set : Option PyStr → WinRS → WinRS) (body : Elem) (s : WinRS) (h : ∀ t s, (set t s).resourceUri = s.resourceUri) :
    (setField path set body s).resourceUri = s.resourceUri := by
  unfold setField
  split
  · exact h _ _
  · rfl

theorem readFields_uri (body : Elem) (s : WinRS) : (readFields body s).resourceUri =
    match (elemsAt ["rsp:Shell".toList, "rsp:ResourceUri".toList] body).head? with
    | some e => e.text
    | none => s.resourceUri := by
  unfold readFields
  iterate 6
    refine (setField_uri _ _ body _ ?_).trans ?_
    · exact fun _ _ => rfl
  rw [setField, find_eq]
  cases (elemsAt ["rsp:Shell".toList, "rsp:ResourceUri".toList] body).head? with
  | some e => rfl
  | none => refine setField_uri _ _ body _ ?_; exact fun _ _ => rfl

/-- Opening a shell with a named answer. -/
theorem open_addressed {s : WinRS} {created : Elem} {uri : Option PyStr} {sel : Selectors} (ho : s.opened = false) (hn : Named created)
    (ha : Addressed s created uri sel) (rest : List (Except PyErr Elem)) :
    ∃ w0, winrsOpen { shell := s, replies := .ok created :: rest } = (.ok (), w0) ∧ w0.shell.opened = true ∧ w0.replies = rest ∧
      w0.sent = [(.create s.resourceUri s, true)] ∧ w0.shell.resourceUri = uri ∧ w0.shell.selectors = sel := by
  rw [open_eq _ ho]
  unfold wsman
  dsimp only
  rw [parseShellCreate_eq]
  have h1 := ha.selectors
  cases hs : selectorElems created with
  | none =>
    rw [hs] at h1
    exact ⟨_, rfl, rfl, rfl, rfl, by rw [ha.uri]; exact readFields_uri _ _, by rw [h1]; exact (readFields_keeps _ _).2⟩
  | some es =>
    rw [hs] at h1
    simp only [readSelectors_named (hn es hs), if_true]
    exact ⟨_, rfl, rfl, rfl, rfl, by rw [ha.uri]; exact readFields_uri _ _, by
      rw [h1]; exact congrArg some (readSelectors_pairs (hn es hs))⟩

/-- The requests of a command. -/
theorem executeCmd_sent {rs : List (Except PyErr Elem)} {cs : List (ProcStream × Bytes)} {code : Option Int} (h : ProcRun rs cs code)
    (decode : Bytes → Except PyErr PyStr) (command id : PyStr) {s : WinRS} {uri : Option PyStr} {sel : Selectors} {created started e1 e2 : Elem}
    (ho : s.opened = false) (hn : Named created) (ha : Addressed s created uri sel)
    (hi : (elemsAt ["rsp:CommandResponse".toList, "rsp:CommandId".toList] started).head?.map Elem.text = some (some id)) :
    (executeCmd decode command { shell := s, replies := .ok created :: .ok started :: (rs ++ [.ok e1, .ok e2]) }).2.sent.map (·.1) =
      commandRequests s uri sel command id rs.length := by
  obtain ⟨w0, hop, hopened, hrep, hsent, huri, hsel⟩ := open_addressed ho hn ha (.ok started :: (rs ++ [.ok e1, .ok e2]))
  obtain ⟨w1, hb, hrep1, hshell1, hsent1⟩ : ∃ w1, Proc.begin { executable := command } w0 = (.ok (startedProc command id), w1) ∧
      w1.replies = rs ++ [.ok e1, .ok e2] ∧ w1.shell = w0.shell ∧ w1.sent = w0.sent ++ [(.command uri sel command [] false none, true)] := by
    unfold Proc.begin winrsCommand
    simp only [sm_bind, sget, wsman, hrep, sm_pure]
    refine ⟨{ w0 with replies := rs ++ [.ok e1, .ok e2], sent := w0.sent ++ [(.command w0.shell.resourceUri w0.shell.selectors command [] false none, true)] },
      ?_, rfl, rfl, by rw [huri, hsel]⟩
    rw [find_eq]
    cases hh : (elemsAt ["rsp:CommandResponse".toList, "rsp:CommandId".toList] started).head? with
    | none => rw [hh] at hi; simp at hi
    | some x =>
      rw [hh] at hi
      have : x.text = some id := by simpa using hi
      simp [this, startedProc]
  have hpend : (startedProc command id).state ≠ doneUri := show CommandState.pending ≠ doneUri by decide +kernel
  obtain ⟨p2, w2, hf, _, hrep2, hshell2, _, _, _, hid⟩ := C54_output h (startedProc command id) w1 [.ok e1, .ok e2] hpend hrep1
  have hsent2 := finish_sent h (startedProc command id) w1 _ hpend hrep1
  rw [hf] at hsent2
  dsimp only at hsent2
  have hid : p2.id = some id := hid
  have hopen2 : w2.shell.opened = true := by rw [hshell2, hshell1]; exact hopened
  have hrun : runCmd command { shell := s, replies := .ok created :: .ok started :: (rs ++ [.ok e1, .ok e2]) } = (.ok p2, { shell := { w2.shell with id := Option.none, opened := false }, replies := [], sent := w2.sent ++ [(.signal w2.shell.resourceUri w2.shell.selectors ctrlC id, true)] ++ [(.delete w2.shell.resourceUri w2.shell.selectors, true)] }) := by
    unfold runCmd withShell Proc.invoke
    simp only [closing, sm_bind, hop, hb, hf, Proc.signal, winrsSignal, sget, wsman, hrep2, hid, Option.getD_some, sm_pure]
    simp [winrsClose, sm_bind, sget, hopen2, wsman, smodify]
  rw [C66_sent, hrun]
  simp only [List.map_append, List.map_cons, List.map_nil, hsent2, hsent1, hsent, hshell2, hshell1, huri, hsel, Proc.pollReq]
  unfold commandRequests
  simp only [List.cons_append, List.nil_append, List.append_assoc]
  rfl

/-- C103: a command over HTTP. If a server answers the documents of a create, a command, polls, a signal and a delete with documents, sealed or not and with
any prefixes, `execute_cmd` makes just these requests, and returns the bytes of the process, decoded, and its exit code, or -1 without one. -/
theorem C103_execute {env : TransportEnv} (henv : env.parse = parseWsman) {cfg : TransportCfg} {enc : Option (Nat × SealProtocol)} {k : Nat}
    {os : List NetOutcome} {c : Conn} {ids : List UUID} {s : WinRS} {uri : Option PyStr} {sel : Selectors} {command id out err : PyStr}
    {rs : List (Except PyErr Elem)} {cs : List (ProcStream × Bytes)} {code : Option Int} {created started e1 e2 : Elem}
    (decode : Bytes → Except PyErr PyStr) (ho : s.opened = false) (hn : Named created) (ha : Addressed s created uri sel)
    (hi : (elemsAt ["rsp:CommandResponse".toList, "rsp:CommandId".toList] started).head?.map Elem.text = some (some id))
    (h : ShellAnswers env cfg enc k os (List.zipWith (ShellReq.posted c) ids (commandRequests s uri sel command id rs.length))
      (.ok created :: .ok started :: (rs ++ [.ok e1, .ok e2])))
    (hrun : ProcRun rs cs code) (hout : decode (bytesOf .stdout cs) = .ok out) (herr : decode (bytesOf .stderr cs) = .ok err) :
    ∃ w', executeCmd decode command { shell := s, replies := (httpAnswers env cfg
        (List.zipWith (ShellReq.posted c) ids (commandRequests s uri sel command id rs.length)) (between enc k os)) } =
        (.ok (out, err, code.getD (-1)), w') ∧
      w'.replies = [] ∧ w'.shell.opened = false ∧ w'.sent.map (·.1) = commandRequests s uri sel command id rs.length := by
  rw [httpAnswers_eq henv h (between enc k os) rfl rfl rfl]
  obtain ⟨w', log, u, v, h1, h2, h3, -⟩ := C66_rc hrun decode command out err id { shell := s, replies := .ok created :: .ok started :: (rs ++ [.ok e1, .ok e2]) }
    created started e1 e2 [] ho hn hi rfl hout herr
  refine ⟨w', by rw [h1]; cases code <;> rfl, h2, h3, ?_⟩
  have := executeCmd_sent hrun decode command id ho hn ha hi (e1 := e1) (e2 := e2)
  rw [h1] at this
  exact this

/-- C103: each of the requests is what a server reads: the action, and a document of the request in the namespaces of the library. -/
theorem C103_documents (c : Conn) (hc : c.Clean) (v : UUID) (hs : c.sessionId = v.toStr) (ids : List UUID) (s : WinRS) (uri : Option PyStr) (sel : Selectors)
    (command id : PyStr) (n : Nat) (hl : ids.length = n + 4) 
    (hr : ∀ t ∈ s.resourceUri, CleanText t) (hw : s.Clean) (hu : ∀ t ∈ uri, CleanText t) (hsel : CleanSelectors sel) (hx : CleanText command)
    (hid : LegalText id) :
    (List.zipWith (ShellReq.posted c) ids (commandRequests s uri sel command id n)).map (·.1) =
      [.create, .command] ++ List.replicate n .receive ++ [.signal, .delete] ∧
    ∀ i (hi : i < n + 4), ∃ u q text, ids[i]? = some u ∧ (commandRequests s uri sel command id n)[i]? = some q ∧
      (List.zipWith (ShellReq.posted c) ids (commandRequests s uri sel command id n))[i]?.map (·.2) = some (u.toStr.map Char.toUpper, utf8 text) ∧
      DocumentOf text (q.envelope c u.toStr).normal := by
  have hq : ∀ q ∈ commandRequests s uri sel command id n, q.Clean := by
    intro q hq
    simp only [commandRequests, List.mem_append, List.mem_cons, List.not_mem_nil, or_false, List.mem_replicate] at hq
    rcases hq with ((rfl | rfl) | ⟨-, rfl⟩) | (rfl | rfl)
    · exact ⟨hr, hw⟩
    · exact ⟨hu, hsel, hx, (by intro a ha; cases ha), (by intro a ha; cases ha)⟩
    · exact ⟨hu, hsel, by decide +kernel, by intro t ht; cases ht; exact hid⟩
    · exact ⟨hu, hsel, by decide +kernel, hid⟩
    · exact ⟨hu, hsel⟩
  have hlen : (commandRequests s uri sel command id n).length = n + 4 := by simp [commandRequests]
  constructor
  · have : ∀ (us : List UUID) (qs : List ShellReq), us.length = qs.length →
        (List.zipWith (ShellReq.posted c) us qs).map (·.1) = qs.map ShellReq.action := by
      intro us
      induction us with
      | nil => intro qs h; cases qs with
        | nil => rfl
        | cons q qs => simp at h
      | cons u us ih => intro qs h; cases qs with
        | nil => simp at h
        | cons q qs =>
          rw [List.zipWith_cons_cons, List.map_cons, List.map_cons, ih qs (by simpa using h)]
          rfl
    rw [this ids _ (by rw [hl, hlen])]
    simp [commandRequests, ShellReq.action]
  · intro i hi
    have h1 : i < ids.length := by omega
    have h2 : i < (commandRequests s uri sel command id n).length := by omega
    refine ⟨ids[i], (commandRequests s uri sel command id n)[i], printDocument (((commandRequests s uri sel command id n)[i]).envelope c ids[i].toStr),
      List.getElem?_eq_getElem h1, List.getElem?_eq_getElem h2, ?_, C100_request c hc _ v hs _ (hq _ (List.getElem_mem h2))⟩
    rw [List.getElem?_zipWith, List.getElem?_eq_getElem h1, List.getElem?_eq_getElem h2]
    rfl

/-! ### Example -/

/-- An answer to a request. -/
def answerDocument (u : UUID) (body : Elem) : Elem :=
  .node "s:Envelope".toList [] none [.node "s:Header".toList [] none [.node "wsa:RelatesTo".toList [] (some ("uuid:".toList ++ asciiUpper u.toStr)) []], body]

def shellConn : Conn := { endpoint := "http://server:5985/wsman".toList, sessionId := UUID.toStr ⟨List.replicate 16 7, rfl⟩ }
def shellId (n : UInt8) : UUID := ⟨List.replicate 16 n, rfl⟩
def shellEnded : Elem := demoReceive [demoStream "stderr" (some "/w=="), demoStream "stdout" none, demoState doneUri (some "-3")]

def plainly (status : Nat) (text : PyStr) : NetOutcome := .response { status, content := utf8 text }

macro "written!" k:term : term => `(written_node (by decide +kernel) (by decide +kernel) (by decide +kernel) $k)

theorem answer_created : DocumentOf (printDocument (answerDocument (shellId 1) (demoCreate [demoSelector]))) (answerDocument (shellId 1) (demoCreate [demoSelector])) :=
  readable_root (by decide +kernel) (written! (.cons (written! (.cons (written! .nil) .nil)) (.cons (written! (.cons (written! (.cons (written! .nil) .nil))
    (.cons (written! (.cons (written! (.cons (written! (.cons (written! .nil) .nil)) .nil)) .nil)) .nil))) .nil))) rfl

theorem answer_started : DocumentOf (printDocument (answerDocument (shellId 2) demoStarted)) (answerDocument (shellId 2) demoStarted) :=
  readable_root (by decide +kernel) (written! (.cons (written! (.cons (written! .nil) .nil)) (.cons (written! (.cons (written! (.cons (written! .nil) .nil)) .nil)) .nil))) rfl

theorem answer_ended : DocumentOf (printDocument (answerDocument (shellId 4) shellEnded)) (answerDocument (shellId 4) shellEnded) :=
  readable_root (by decide +kernel) (written! (.cons (written! (.cons (written! .nil) .nil)) (.cons (written! (.cons (written! (.cons (written! .nil)
    (.cons (written! .nil) (.cons (written! (.cons (written! .nil) .nil)) .nil)))) .nil)) .nil))) rfl

theorem answer_signal : DocumentOf (printDocument (answerDocument (shellId 5) demoBody)) (answerDocument (shellId 5) demoBody) :=
  readable_root (by decide +kernel) (written! (.cons (written! (.cons (written! .nil) .nil)) (.cons (written! .nil) .nil))) rfl

theorem answer_delete : DocumentOf (printDocument (answerDocument (shellId 6) demoBody)) (answerDocument (shellId 6) demoBody) :=
  readable_root (by decide +kernel) (written! (.cons (written! (.cons (written! .nil) .nil)) (.cons (written! .nil) .nil))) rfl

theorem plainly_unsealed (status : Nat) (text : PyStr) : ¬ ({ status, content := utf8 text } : HttpResponse).sealed := by
  rintro ⟨rest, h | h⟩ <;> exact absurd (congrArg List.length h) (by simp)

theorem plainly_receives {status : Nat} {text : PyStr} {k : Nat} {os : List NetOutcome} (hs : demoEnv.retryStatus status = false) :
    Receives readingEnv (plainCfg 1) (between none k (plainly status text :: os)) { status, content := utf8 text } (utf8 text) :=
  ⟨⟨os, rfl⟩, hs, .inl ⟨plainly_unsealed _ _, rfl⟩⟩

theorem plainly_uses (status : Nat) (text : PyStr) : Uses (plainCfg 1) { status, content := utf8 text } 0 := ⟨0, rfl, .inr ⟨plainly_unsealed _ _, rfl⟩⟩

def shellOutcomes : List NetOutcome := [plainly 200 (printDocument (answerDocument (shellId 1) (demoCreate [demoSelector]))),
  plainly 200 (printDocument (answerDocument (shellId 2) demoStarted)), plainly 500 pollText,
  plainly 200 (printDocument (answerDocument (shellId 4) shellEnded)), plainly 200 (printDocument (answerDocument (shellId 5) demoBody)),
  plainly 200 (printDocument (answerDocument (shellId 6) demoBody))]

def shellIds : List UUID := [shellId 1, shellId 2, shellId 3, shellId 4, shellId 5, shellId 6]

/-- A decoder of single bytes. -/
def latin (b : Bytes) : Except PyErr PyStr := .ok (b.map fun c => Char.ofNat c.toNat)

/-- The answers to a command, one of them the fault of a poll without output. -/
theorem shell_answered : ShellAnswers readingEnv (plainCfg 1) none 0 shellOutcomes
    (List.zipWith (ShellReq.posted shellConn) shellIds (commandRequests (newShell none) (newShell none).resourceUri (some [("ShellId".toList, ['7'])]) "dir".toList ['3'] 2))
    (.ok (demoCreate [demoSelector]) :: .ok demoStarted :: ([pollTimeout, .ok shellEnded] ++ [.ok demoBody, .ok demoBody])) :=
  .body (n := 0) (.inl rfl) (plainly_receives rfl) (by decide) answer_created ⟨_, rfl, rfl⟩ rfl (plainly_uses _ _)
  (.body (n := 0) (.inl rfl) (plainly_receives rfl) (by decide) answer_started ⟨_, rfl, rfl⟩ rfl (plainly_uses _ _)
  (.fault (n := 0) (p := pollFault) (header := []) (code := 2150858793) (.inl rfl) (plainly_receives rfl) (by decide) (by decide) (by decide)
    (C99_number 2150858793 ▸ poll_document) (plainly_uses _ _)
  (.body (n := 0) (.inl rfl) (plainly_receives rfl) (by decide) answer_ended ⟨_, rfl, rfl⟩ rfl (plainly_uses _ _)
  (.body (n := 0) (.inl rfl) (plainly_receives rfl) (by decide) answer_signal ⟨_, rfl, rfl⟩ rfl (plainly_uses _ _)
  (.body (n := 0) (.inl rfl) (plainly_receives rfl) (by decide) answer_delete ⟨_, rfl, rfl⟩ rfl (plainly_uses _ _) .nil)))))

example : ∃ w', executeCmd latin "dir".toList { shell := newShell none, replies := (httpAnswers readingEnv (plainCfg 1)
      (List.zipWith (ShellReq.posted shellConn) shellIds (commandRequests (newShell none) (newShell none).resourceUri (some [("ShellId".toList, ['7'])]) "dir".toList ['3'] 2))
      (between none 0 shellOutcomes)) } = (.ok ([], [Char.ofNat 255], -3), w') ∧ w'.sent.length = 6 := by
  obtain ⟨w', h1, -, -, h2⟩ := C103_execute (show readingEnv.parse = parseWsman from rfl) (created := demoCreate [demoSelector]) (out := []) (err := [Char.ofNat 255]) latin rfl
    (by intro es h e he; cases h; have he : e ∈ [demoSelector] := he; rw [List.mem_singleton] at he; subst he; rfl) ⟨rfl, rfl⟩ rfl shell_answered
    (.timeout (.done demo_done)) rfl rfl
  exact ⟨w', h1, by have := congrArg List.length h2; rw [List.length_map] at this; rw [this]; rfl⟩

example := C103_documents shellConn (by constructor <;> decide +kernel) _ rfl shellIds (newShell none) (newShell none).resourceUri (some [("ShellId".toList, ['7'])])
  "dir".toList ['3'] 2 rfl (by decide +kernel) (by constructor <;> decide +kernel) (by decide +kernel)
  (by intro l h; cases h; decide +kernel) (by decide +kernel) (by decide +kernel)

end Verif
