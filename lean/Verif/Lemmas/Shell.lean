import Verif.Spec.Shell
import Verif.Props.TransportInvoke
import Verif.Lemmas.Numbers
import Verif.Lemmas.Base64
/-
Helper lemmas for WinRS shells and processes.
-/
namespace Verif

theorem sm_bind (x : SM α) (f : α → SM β) (w : ShellWorld) : (x >>= f) w =
    match x w with
    | (.ok a, w1) => f a w1
    | (.raised e, w1) => (.raised e, w1)
    | (.waiting, w1) => (.waiting, w1) := rfl

theorem sm_pure (a : α) (w : ShellWorld) : (pure a : SM α) w = (.ok a, w) := rfl

theorem findAll_eq (path : List PyStr) : ∀ e : Elem, e.findAll path = elemsAt path e := by
  induction path with
  | nil => intro e; simp [Elem.findAll, elemsAt]
  | cons t ts ih =>
    intro e
    have key : ∀ ks : List Elem, Elem.findAll.go t (fun k => k.findAll ts) ks = (ks.filter fun k => k.tag = t).flatMap (elemsAt ts) := by
      intro ks
      induction ks with
      | nil => simp [Elem.findAll.go]
      | cons k ks ihk =>
        unfold Elem.findAll.go
        by_cases hk : k.tag = t
        · rw [if_pos hk, List.filter_cons_of_pos (by simp [hk]), List.flatMap_cons, ih k, ihk]
        · rw [if_neg hk, List.filter_cons_of_neg (by simp [hk]), ihk]
    exact key e.kids

/-- The fields of the shell that matter for its requests, after the fields of a create response have been read. -/
theorem setField_keeps (path : PyStr) (set : Option PyStr → WinRS → WinRS) (body : Elem) (s : WinRS)
    (h : ∀ t s, (set t s).opened = s.opened ∧ (set t s).selectors = s.selectors) :
    (setField path set body s).opened = s.opened ∧ (setField path set body s).selectors = s.selectors := by
  unfold setField
  split
  · exact h _ _
  · exact ⟨rfl, rfl⟩

/-- The shell after the fields of a create response. -/
def readFields (body : Elem) (s : WinRS) : WinRS :=
  setField "rsp:ShellInactivity".toList (fun t s => { s with shellInactivity := t }) body <|
  setField "rsp:ShellRunTime".toList (fun t s => { s with shellRunTime := t }) body <|
  setField "rsp:OutputStreams".toList (fun t s => { s with outputStreams := t }) body <|
  setField "rsp:IdleTimeOut".toList (fun t s => { s with idleTimeOut := t }) body <|
  setField "rsp:ClientIP".toList (fun t s => { s with clientIp := t }) body <|
  setField "rsp:Owner".toList (fun t s => { s with owner := t }) body <|
  setField "rsp:ResourceUri".toList (fun t s => { s with resourceUri := t }) body <|
  setField "rsp:ShellId".toList (fun t s => { s with id := t }) body s

theorem readFields_keeps (body : Elem) (s : WinRS) :
    (readFields body s).opened = s.opened ∧ (readFields body s).selectors = s.selectors := by
  have step : ∀ {path : PyStr} {set : Option PyStr → WinRS → WinRS} {x : WinRS},
      (∀ t s, (set t s).opened = s.opened ∧ (set t s).selectors = s.selectors) → (x.opened = s.opened ∧ x.selectors = s.selectors) →
      (setField path set body x).opened = s.opened ∧ (setField path set body x).selectors = s.selectors := by
    intro path set x h hx
    obtain ⟨h1, h2⟩ := setField_keeps path set body x h
    exact ⟨h1.trans hx.1, h2.trans hx.2⟩
  unfold readFields
  repeat (refine step (fun _ _ => ⟨rfl, rfl⟩) ?_)
  exact ⟨rfl, rfl⟩

theorem parseShellCreate_eq (body : Elem) (w : ShellWorld) : parseShellCreate body w =
    match selectorElems body with
    | none => (.ok (), { w with shell := readFields body w.shell })
    | some es => (if (readSelectors es).2 then .ok () else .raised .keyError,
        { w with shell := { readFields body w.shell with selectors := some (readSelectors es).1 } }) := by
  unfold parseShellCreate selectorElems
  rw [find_eq]
  cases hs : (elemsAt ["wst:ResourceCreated".toList, "wsa:ReferenceParameters".toList, "wsman:SelectorSet".toList] body).head? with
  | none => rfl
  | some set =>
    simp only [Option.map_some]
    cases hl : (readSelectors set.kids).2
    · simp only [sm_bind, smodify, sraise, Bool.false_eq_true, if_false]; rfl
    · simp only [sm_bind, smodify, sm_pure, if_true]; rfl

theorem readSelectors_named {es : List Elem} (h : ∀ e ∈ es, (e.attr "Name".toList).isSome = true) : (readSelectors es).2 = true := by
  induction es with
  | nil => rfl
  | cons e es ih =>
    have he := h e List.mem_cons_self
    unfold readSelectors
    cases ha : e.attr "Name".toList with
    | none => rw [ha] at he; simp at he
    | some n => exact ih fun x hx => h x (List.mem_cons_of_mem _ hx)

/-- Opening a shell that is not open. -/
theorem open_eq (w : ShellWorld) (ho : w.shell.opened = false) : winrsOpen w =
    match wsman (.create w.shell.resourceUri w.shell) w with
    | (.ok body, w1) =>
      match parseShellCreate body w1 with
      | (.ok _, w2) => (.ok (), { w2 with shell := { w2.shell with opened := true } })
      | (.raised e, w2) => (.raised e, w2)
      | (.waiting, w2) => (.waiting, w2)
    | (.raised e, w1) => (.raised e, w1)
    | (.waiting, w1) => (.waiting, w1) := by
  unfold winrsOpen
  simp only [sm_bind, sget, ho, Bool.false_eq_true, if_false]
  cases wsman (.create w.shell.resourceUri w.shell) w with
  | mk r w1 =>
    cases r with
    | raised e => rfl
    | waiting => rfl
    | ok body =>
      dsimp only
      cases parseShellCreate body w1 with
      | mk r w2 => cases r <;> rfl

/-- Closing a shell. -/
theorem close_eq (w : ShellWorld) (ho : w.shell.opened = true) : winrsClose w =
    match wsman (.delete w.shell.resourceUri w.shell.selectors) w with
    | (.ok _, w1) => (.ok (), { w1 with shell := { w1.shell with id := none, opened := false } })
    | (.raised e, w1) => (.raised e, w1)
    | (.waiting, w1) => (.waiting, w1) := by
  unfold winrsClose
  simp only [sm_bind, sget, ho, Bool.not_true, Bool.false_eq_true, if_false]
  cases wsman (.delete w.shell.resourceUri w.shell.selectors) w with
  | mk r w1 => cases r <;> rfl

theorem close_unopened (w : ShellWorld) (ho : w.shell.opened = false) : winrsClose w = (.ok (), w) := by
  unfold winrsClose
  simp [sm_bind, sget, ho, sm_pure]

theorem open_opened (w : ShellWorld) (ho : w.shell.opened = true) : winrsOpen w = (.ok (), w) := by
  unfold winrsOpen
  simp [sm_bind, sget, ho, sm_pure]

/-! ### Receives -/

theorem add_std (s : ProcStream) (b o e : Bytes) : Buffers.add s.name b [("stdout".toList, o), ("stderr".toList, e)] =
    .ok [("stdout".toList, o ++ bytesOf .stdout [(s, b)]), ("stderr".toList, e ++ bytesOf .stderr [(s, b)])] := by
  have hne : "stdout".toList ≠ "stderr".toList := by decide
  cases s
  · simp only [Buffers.add, ProcStream.name, if_true]
    simp [bytesOf]
  · simp only [Buffers.add, ProcStream.name, if_neg hne, if_true, Except.map]
    simp [bytesOf]

theorem bytesOf_append (s : ProcStream) (a b : List (ProcStream × Bytes)) : bytesOf s (a ++ b) = bytesOf s a ++ bytesOf s b := by
  simp [bytesOf]

theorem addStreams_carries {es : List Elem} {cs : List (ProcStream × Bytes)} (h : Carries es cs) : ∀ o e : Bytes,
    addStreams [("stdout".toList, o), ("stderr".toList, e)] es =
      .ok [("stdout".toList, o ++ bytesOf .stdout cs), ("stderr".toList, e ++ bytesOf .stderr cs)] := by
  induction h with
  | nil => intro o e; simp [addStreams, bytesOf]
  | @chunk x es s b cs hn ht _ ih =>
    intro o e
    unfold addStreams
    rw [ht]
    simp only [b64Decode_encode, hn, bind, Except.bind, add_std, ih]
    rw [show (s, b) :: cs = [(s, b)] ++ cs from rfl, bytesOf_append, bytesOf_append]
    simp
  | empty ht _ ih =>
    intro o e
    unfold addStreams
    rw [ht]
    exact ih o e

theorem orZero_int (c : Int) : orZero (some (pyStrInt c)) = pyStrInt c := by
  have hne : pyStrInt c ≠ [] := by
    unfold pyStrInt
    split
    · simp
    · exact (pyStrNat_decimal _).1
  cases h : pyStrInt c with
  | nil => exact absurd h hne
  | cons a l => rfl

theorem parseReceive_reports {body : Elem} {cs : List (ProcStream × Bytes)} {state : PyStr} {code : Option Int}
    (h : Reports body cs state code) : parseReceive "stdout stderr".toList body =
      .ok (state, code, [("stdout".toList, bytesOf .stdout cs), ("stderr".toList, bytesOf .stderr cs)]) := by
  obtain ⟨h1, h23, h4⟩ := h
  have hsplit : (splitSpaces [] "stdout stderr".toList).map (fun n => (n, ([] : Bytes))) = [("stdout".toList, []), ("stderr".toList, [])] := by
    decide +kernel
  have hst : receiveState body = .ok state := by
    unfold receiveState
    rw [find_eq]
    rcases h23 with ⟨e, h2, h3⟩ | ⟨h2, h3⟩
    · rw [h2]
      dsimp only
      rw [h3]
    · rw [h2, h3]
      rfl
  have hco : receiveCode body = .ok code := by
    unfold receiveCode
    rw [find_eq]
    cases hc : (elemsAt ["rsp:ReceiveResponse".toList, "rsp:CommandState".toList, "rsp:ExitCode".toList] body).head? with
    | none =>
      rw [hc] at h4
      cases code with
      | some c => simp at h4
      | none => rfl
    | some x =>
      rw [hc] at h4
      cases code with
      | none => simp at h4
      | some c =>
        simp only [Option.map_some, Option.some.injEq] at h4
        simp only [h4, orZero_int, pyInt_pyStrInt, Except.map]
  unfold parseReceive
  rw [hsplit, findAll_eq, addStreams_carries h1, hst, hco]
  rfl

/-- The world after an answered request. -/
def ShellWorld.after (w : ShellWorld) (r : ShellReq) (ok : Bool) (rest : List (Except PyErr Elem)) : ShellWorld :=
  { w with replies := rest, sent := w.sent ++ [(r, ok)] }

/-- The request of a poll. -/
def Proc.pollReq (p : Proc) (s : WinRS) : ShellReq := .receive s.resourceUri s.selectors "stdout stderr".toList p.id

theorem poll_error (p : Proc) (w : ShellWorld) (e : PyErr) (rest : List (Except PyErr Elem)) (h : w.replies = .error e :: rest) :
    p.poll w = (if e = .wsManFault (some 2150858793) then .ok p else .raised e, w.after (p.pollReq w.shell) false rest) := by
  unfold Proc.poll winrsReceive
  simp only [sm_bind, sget, wsman, h]
  split <;> rfl

theorem poll_reports (p : Proc) (w : ShellWorld) {body : Elem} {cs : List (ProcStream × Bytes)} {state : PyStr} {code : Option Int}
    (rest : List (Except PyErr Elem)) (hb : Reports body cs state code) (h : w.replies = .ok body :: rest) :
    p.poll w = (.ok { p with state, rc := code, stdout := p.stdout ++ bytesOf .stdout cs, stderr := p.stderr ++ bytesOf .stderr cs },
      w.after (p.pollReq w.shell) true rest) := by
  unfold Proc.poll winrsReceive
  simp only [sm_bind, sget, wsman, h, slift, parseReceive_reports hb]
  have h1 : Buffers.get [("stdout".toList, bytesOf .stdout cs), ("stderr".toList, bytesOf .stderr cs)] "stdout".toList =
      .ok (bytesOf .stdout cs) := by
    simp [Buffers.get]
  have h2 : Buffers.get [("stdout".toList, bytesOf .stdout cs), ("stderr".toList, bytesOf .stderr cs)] "stderr".toList =
      .ok (bytesOf .stderr cs) := by
    have : ("stderr".toList == "stdout".toList) = false := by decide
    simp only [Buffers.get, List.lookup, this, beq_self_eq_true]
  rw [h1, h2]
  rfl

end Verif
