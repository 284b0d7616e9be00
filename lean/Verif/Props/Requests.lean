import Verif.Spec.Envelope
import Verif.Props.Encodings
import Verif.Spec.Shell
import Verif.Lemmas.Numbers
import Verif.Lemmas.Base64
import Verif.Props.ShellBodies
/-
C75: the headers of a request. C76: what the requests of a shell ask for. C78: how long a client waits.
-/
namespace Verif

/-! ### C75 -/

theorem action_text (a : WSManAction) : a.uri = (actionName a).1.toList ++ (actionName a).2.toList := by
  cases a <;> decide +kernel

/-- The headers before the sets. -/
def fixedHeaders (c : Conn) (messageId : PyStr) (action : WSManAction) (uri : Option PyStr) (timeout : Option Int) : List Elem :=
  (createHeader c messageId action uri none none timeout).kids

theorem header_kids (c : Conn) (messageId : PyStr) (action : WSManAction) (uri : Option PyStr) (options : Option (List WSManValue))
    (selectors : Selectors) (timeout : Option Int) :
    (createHeader c messageId action uri options selectors timeout).kids =
      fixedHeaders c messageId action uri timeout ++ (options.map optionSet).toList ++ (selectors.map selectorSet).toList := by
  simp [fixedHeaders, createHeader, Elem.kids]

theorem tag_options (options : Option (List WSManValue)) : ∀ e ∈ (options.map optionSet).toList, e.tag = "wsman:OptionSet".toList := by
  cases options with
  | none => intro e he; cases he
  | some l => intro e he; rw [Option.map_some, Option.toList_some, List.mem_singleton] at he; rw [he]; rfl

theorem tag_selectors (selectors : Selectors) : ∀ e ∈ (selectors.map selectorSet).toList, e.tag = "wsman:SelectorSet".toList := by
  cases selectors with
  | none => intro e he; cases he
  | some l => intro e he; rw [Option.map_some, Option.toList_some, List.mem_singleton] at he; rw [he]; rfl

theorem filter_other {l : List Elem} {t u : PyStr} (h : ∀ e ∈ l, e.tag = t) (hne : t ≠ u) : l.filter (fun k => decide (k.tag = u)) = [] := by
  rw [List.filter_eq_nil_iff]
  intro e he
  rw [h e he, decide_eq_true_eq]
  exact hne

theorem filter_same {l : List Elem} {t : PyStr} (h : ∀ e ∈ l, e.tag = t) : l.filter (fun k => decide (k.tag = t)) = l := by
  rw [List.filter_eq_self]
  intro e he
  rw [h e he, decide_eq_true_eq]

theorem header_at (c : Conn) (messageId : PyStr) (action : WSManAction) (uri : Option PyStr) (resource : Option Elem)
    (options : Option (List WSManValue)) (selectors : Selectors) (timeout : Option Int) (ts : List PyStr) :
    elemsAt ("s:Header".toList :: ts) (envelope c messageId action uri resource options selectors timeout) =
      elemsAt ts (createHeader c messageId action uri options selectors timeout) := by
  have h1 : (createHeader c messageId action uri options selectors timeout).tag = "s:Header".toList := rfl
  rw [elemsAt, envelope, Elem.kids, List.filter_cons_of_pos (by rw [h1, decide_eq_true_eq]), List.filter_cons_of_neg, List.filter_nil]
  · rw [List.flatMap_cons, List.flatMap_nil, List.append_nil]
  · rw [Elem.tag, decide_eq_true_eq]; decide

theorem fixed_at (c : Conn) (messageId : PyStr) (action : WSManAction) (uri : Option PyStr)
    (options : Option (List WSManValue)) (selectors : Selectors) (timeout : Option Int) (t : PyStr) (ts : List PyStr)
    (h1 : "wsman:OptionSet".toList ≠ t) (h2 : "wsman:SelectorSet".toList ≠ t) :
    elemsAt (t :: ts) (createHeader c messageId action uri options selectors timeout) =
      elemsAt (t :: ts) (createHeader c messageId action uri none none timeout) := by
  rw [elemsAt, elemsAt, header_kids, List.filter_append, List.filter_append, filter_other (tag_options _) h1, filter_other (tag_selectors _) h2,
    List.append_nil, List.append_nil, fixedHeaders]

/-- C75: every request says once which operation it is on which resource, with its own id, the ids and addresses of the session,
the languages and the size limit of the connection. This holds for all bodies, options and selectors. -/
theorem C75_headers (c : Conn) (messageId : PyStr) (action : WSManAction) (uri : Option PyStr) (resource : Option Elem)
    (options : Option (List WSManValue)) (selectors : Selectors) (timeout : Option Int) :
    Headers (envelope c messageId action uri resource options selectors timeout) c messageId action uri := by
  constructor
  all_goals simp only [textsAt, attrsAt, List.map_cons, List.map_nil, header_at]
  · rw [fixed_at _ _ _ _ _ _ _ _ _ (by decide) (by decide), ← action_text]; rfl
  · rw [fixed_at _ _ _ _ _ _ _ _ _ (by decide) (by decide)]; rfl
  · rw [fixed_at _ _ _ _ _ _ _ _ _ (by decide) (by decide)]; rfl
  · rw [fixed_at _ _ _ _ _ _ _ _ _ (by decide) (by decide)]; rfl
  · rw [fixed_at _ _ _ _ _ _ _ _ _ (by decide) (by decide)]; rfl
  · rw [fixed_at _ _ _ _ _ _ _ _ _ (by decide) (by decide)]; rfl
  · rw [fixed_at _ _ _ _ _ _ _ _ _ (by decide) (by decide)]; rfl
  · rw [fixed_at _ _ _ _ _ _ _ _ _ (by decide) (by decide)]; rfl
  · rw [← C99_number, fixed_at _ _ _ _ _ _ _ _ _ (by decide) (by decide)]; rfl

theorem pack_entries (element child : String) (must : Bool) (values : List WSManValue) :
    (elemsAt [child.toList] (setPack element child must values)).map
        (fun x => (⟨x.attr "Name".toList, x.text, x.attrs.filter fun a => a.1 ≠ "Name".toList⟩ : Entry)) =
      values.map fun v => ⟨some v.name, some v.value, v.attributes.filter fun a => a.1 ≠ "Name".toList⟩ := by
  have hf : ∀ l : List Elem, l.flatMap (elemsAt []) = l := by
    intro l; induction l with
    | nil => rfl
    | cons a l ih => rw [List.flatMap_cons, ih]; rfl
  rw [elemsAt, setPack, Elem.kids, filter_same (t := child.toList), hf, List.map_map]
  · apply List.map_congr_left
    intro v _
    simp only [Function.comp_apply, Elem.attr, Elem.attrs, Elem.text]
    by_cases h : v.attributes.any (·.1 = "Name".toList) = true
    · rw [if_pos h]
      have key : ∀ as : List (PyStr × PyStr), as.any (·.1 = "Name".toList) = true →
          ((as.map fun a => if a.1 = "Name".toList then (a.1, v.name) else a).find? (·.1 = "Name".toList)).map (·.2) = some v.name := by
        intro as
        induction as with
        | nil => intro h; cases h
        | cons a as ih =>
          intro h
          rw [List.map_cons]
          by_cases ha : a.1 = "Name".toList
          · rw [if_pos ha, List.find?_cons_of_pos (by simpa using ha)]; rfl
          · rw [if_neg ha, List.find?_cons_of_neg (by simpa using ha)]
            apply ih
            rw [List.any_cons, Bool.or_eq_true] at h
            exact h.resolve_left (by simpa using ha)
      have key2 : ∀ as : List (PyStr × PyStr),
          (as.map fun a => if a.1 = "Name".toList then (a.1, v.name) else a).filter (fun a => decide (a.1 ≠ "Name".toList)) =
            as.filter fun a => decide (a.1 ≠ "Name".toList) := by
        intro as
        induction as with
        | nil => rfl
        | cons a as ih =>
          rw [List.map_cons]
          by_cases ha : a.1 = "Name".toList
          · rw [if_pos ha, List.filter_cons_of_neg (by simpa using ha), List.filter_cons_of_neg (by simpa using ha), ih]
          · rw [if_neg ha, List.filter_cons_of_pos (by simpa using ha), List.filter_cons_of_pos (by simpa using ha), ih]
      rw [key _ h, key2]
    · rw [if_neg h]
      have hn : v.attributes.find? (·.1 = "Name".toList) = none := by
        rw [List.find?_eq_none]
        intro a ha hc
        exact h (List.any_eq_true.2 ⟨a, ha, hc⟩)
      rw [List.find?_append, hn, List.filter_append]
      simp
  · intro e he
    obtain ⟨v, _, rfl⟩ := List.mem_map.1 he
    rfl

/-- C75: the options and selectors of a request are those given, in their order, with their other attributes; an attribute
"Name" does not replace the name. The body is the given element. -/
theorem C75_contents (c : Conn) (messageId : PyStr) (action : WSManAction) (uri : Option PyStr) (resource : Option Elem)
    (options : Option (List WSManValue)) (selectors : Selectors) (timeout : Option Int) :
    optionsOf (envelope c messageId action uri resource options selectors timeout) =
      (options.getD []).map (fun v => ⟨some v.name, some v.value, v.attributes.filter fun a => a.1 ≠ "Name".toList⟩) ∧
    selectorsOf (envelope c messageId action uri resource options selectors timeout) =
      (selectors.getD []).map (fun v => ⟨some v.1, some v.2, []⟩) ∧
    (elemsAt ["s:Body".toList] (envelope c messageId action uri resource options selectors timeout)).map Elem.kids = [resource.toList] := by
  have fixedO : ∀ t : PyStr, (t = "wsman:OptionSet".toList ∨ t = "wsman:SelectorSet".toList) →
      (fixedHeaders c messageId action uri timeout).filter (fun k => decide (k.tag = t)) = [] := by
    rintro t (rfl | rfl) <;> rfl
  refine ⟨?_, ?_, ?_⟩
  · simp only [optionsOf, entriesAt, List.map_cons, List.map_nil, header_at]
    rw [elemsAt, header_kids, List.filter_append, List.filter_append, fixedO _ (.inl rfl), filter_same (tag_options _),
      filter_other (tag_selectors _) (by decide), List.append_nil, List.nil_append]
    cases options with
    | none => rfl
    | some l =>
      rw [Option.map_some, Option.toList_some, List.flatMap_cons, List.flatMap_nil, List.append_nil, optionSet, pack_entries]; rfl
  · simp only [selectorsOf, entriesAt, List.map_cons, List.map_nil, header_at]
    rw [elemsAt, header_kids, List.filter_append, List.filter_append, fixedO _ (.inr rfl), filter_same (tag_selectors _),
      filter_other (tag_options _) (by decide), List.append_nil, List.nil_append]
    cases selectors with
    | none => rfl
    | some l =>
      rw [Option.map_some, Option.toList_some, List.flatMap_cons, List.flatMap_nil, List.append_nil, selectorSet, pack_entries, List.map_map]
      rfl
  · rw [elemsAt, envelope, Elem.kids, List.filter_cons_of_neg, List.filter_cons_of_pos, List.filter_nil]
    · rfl
    · rfl
    · rw [decide_eq_true_eq]; show ¬ "s:Header".toList = _; decide

/-- An attribute "Name" of an option does not hide its name. -/
example : optionsOf (envelope ⟨[], [], [], [], 0, 0⟩ [] .create none none
    (some [⟨"A".toList, "1".toList, [("Name".toList, "B".toList), ("MustComply".toList, "true".toList)]⟩, ⟨"C".toList, [], []⟩]) none none) =
    [⟨some "A".toList, some "1".toList, [("MustComply".toList, "true".toList)]⟩, ⟨some "C".toList, some [], []⟩] := by
  decide +kernel

/-! ### C76 -/

/-- A program of a shell that sends one request, with what the request says. -/
def SendsOne (m : SM α) (w : ShellWorld) (says : ShellReq → Prop) : Prop := ∃ r ok, (m w).2.sent = w.sent ++ [(r, ok)] ∧ says r

theorem wsman_sendsOne (r : ShellReq) (w : ShellWorld) : ∃ ok, (wsman r w).2.sent = w.sent ++ [(r, ok)] := by
  unfold wsman
  cases w.replies with
  | nil => exact ⟨false, rfl⟩
  | cons x rest => cases x with
    | error e => exact ⟨false, rfl⟩
    | ok b => exact ⟨true, rfl⟩

theorem body_at (c : Conn) (messageId : PyStr) (action : WSManAction) (uri : Option PyStr) (tag : PyStr) (attrs : List (PyStr × PyStr))
    (text : Option PyStr) (kids : List Elem) (options : Option (List WSManValue)) (selectors : Selectors) (timeout : Option Int)
    (ts : List PyStr) :
    elemsAt ("s:Body".toList :: tag :: ts) (envelope c messageId action uri (some (.node tag attrs text kids)) options selectors timeout) =
      elemsAt ts (.node tag attrs text kids) := by
  rw [elemsAt, envelope, Elem.kids, List.filter_cons_of_neg, List.filter_cons_of_pos (by rw [Elem.tag, decide_eq_true_eq]), List.filter_nil,
    List.flatMap_cons, List.flatMap_nil, List.append_nil, elemsAt, Elem.kids, Option.toList_some,
    List.filter_cons_of_pos (by rw [decide_eq_true_eq]; rfl), List.filter_nil, List.flatMap_cons, List.flatMap_nil, List.append_nil]
  rw [decide_eq_true_eq]; show ¬ "s:Header".toList = _; decide

/-- What a request of a shell says about its target. -/
def Targets (c : Conn) (messageId : PyStr) (w : ShellWorld) (action : WSManAction) (r : ShellReq) : Prop :=
  Headers (r.envelope c messageId) c messageId action w.shell.resourceUri ∧
  selectorsOf (r.envelope c messageId) = (w.shell.selectors.getD []).map fun v => ⟨some v.1, some v.2, []⟩

/-- C76: a command request names the shell, the executable, the arguments in their order, the id if there is one, and whether to
use cmd. -/
theorem C76_command (c : Conn) (messageId executable : PyStr) (arguments : Option (List PyStr)) (noShell : Bool) (commandId : Option PyStr)
    (w : ShellWorld) : SendsOne (winrsCommand executable arguments noShell commandId) w fun r =>
      Targets c messageId w .command r ∧
      textsAt ["s:Body", "rsp:CommandLine", "rsp:Command"] (r.envelope c messageId) = [some executable] ∧
      textsAt ["s:Body", "rsp:CommandLine", "rsp:Arguments"] (r.envelope c messageId) = (arguments.getD []).map some ∧
      attrsAt ["s:Body", "rsp:CommandLine"] "CommandId" (r.envelope c messageId) = [commandId] ∧
      optionsOf (r.envelope c messageId) = [⟨some "WINRS_SKIP_CMD_SHELL".toList, some (if noShell then "True".toList else "False".toList), []⟩] := by
  obtain ⟨ok, h⟩ := wsman_sendsOne (.command w.shell.resourceUri w.shell.selectors executable (arguments.getD []) noShell commandId) w
  refine ⟨_, ok, h, ⟨C75_headers .., (C75_contents ..).2.1⟩, ?_, ?_, ?_, (C75_contents ..).1⟩
  all_goals
    simp only [textsAt, attrsAt, List.map_cons, List.map_nil, ShellReq.envelope, ShellReq.body]
    rw [body_at]
  · rw [elemsAt, Elem.kids, List.filter_cons_of_pos (by rw [decide_eq_true_eq]; rfl), filter_other (t := "rsp:Arguments".toList) _ (by decide)]
    · rfl
    · intro e he
      obtain ⟨a, _, rfl⟩ := List.mem_map.1 he
      rfl
  · rw [elemsAt, Elem.kids, List.filter_cons_of_neg, filter_same (t := "rsp:Arguments".toList), List.flatMap_map, List.map_flatMap]
    · induction arguments.getD [] with
      | nil => rfl
      | cons a as ih => rw [List.flatMap_cons, ih]; rfl
    · intro e he
      obtain ⟨a, _, rfl⟩ := List.mem_map.1 he
      rfl
    · rw [decide_eq_true_eq]; show ¬ "rsp:Command".toList = _; decide
  · cases commandId <;> rfl

/-- C76: a receive request names the shell, the streams and the id, and asks the server to keep the connection alive. -/
theorem C76_receive (c : Conn) (messageId stream : PyStr) (commandId : Option PyStr) (w : ShellWorld) :
    SendsOne (winrsReceive stream commandId) w fun r =>
      Targets c messageId w .receive r ∧
      textsAt ["s:Body", "rsp:Receive", "rsp:DesiredStream"] (r.envelope c messageId) = [some stream] ∧
      attrsAt ["s:Body", "rsp:Receive", "rsp:DesiredStream"] "CommandId" (r.envelope c messageId) = [commandId] ∧
      optionsOf (r.envelope c messageId) = [⟨some "WSMAN_CMDSHELL_OPTION_KEEPALIVE".toList, some "True".toList, []⟩] := by
  obtain ⟨ok, h⟩ := wsman_sendsOne (.receive w.shell.resourceUri w.shell.selectors stream commandId) w
  have hs : (winrsReceive stream commandId w).2.sent = (wsman (.receive w.shell.resourceUri w.shell.selectors stream commandId) w).2.sent := by
    unfold winrsReceive
    simp only [sm_bind, sget]
    cases hw : wsman (.receive w.shell.resourceUri w.shell.selectors stream commandId) w with
    | mk r w1 =>
      cases r with
      | ok b => dsimp only; unfold slift; cases parseReceive stream b <;> rfl
      | raised e => rfl
      | waiting => rfl
  refine ⟨_, ok, hs.trans h, ⟨C75_headers .., (C75_contents ..).2.1⟩, ?_, ?_, (C75_contents ..).1⟩
  all_goals
    simp only [textsAt, attrsAt, List.map_cons, List.map_nil, ShellReq.envelope, ShellReq.body]
    rw [body_at]
  · rfl
  · cases commandId <;> rfl

/-- C76: a send request names the shell, the stream, the id and the end mark, and its text is the data in base64. -/
theorem C76_send (c : Conn) (messageId stream : PyStr) (data : Bytes) (commandId : Option PyStr) (last : Option Bool) (w : ShellWorld) :
    SendsOne (winrsSend stream data commandId last) w fun r =>
      Targets c messageId w .send r ∧
      textsAt ["s:Body", "rsp:Send", "rsp:Stream"] (r.envelope c messageId) = [some (base64Of data)] ∧
      attrsAt ["s:Body", "rsp:Send", "rsp:Stream"] "Name" (r.envelope c messageId) = [some stream] ∧
      attrsAt ["s:Body", "rsp:Send", "rsp:Stream"] "CommandId" (r.envelope c messageId) = [commandId] ∧
      attrsAt ["s:Body", "rsp:Send", "rsp:Stream"] "End" (r.envelope c messageId) =
        [last.map fun b => if b then "True".toList else "False".toList] ∧
      optionsOf (r.envelope c messageId) = [] := by
  obtain ⟨ok, h⟩ := wsman_sendsOne (.send w.shell.resourceUri w.shell.selectors stream (b64Encode data) commandId last) w
  refine ⟨_, ok, h, ⟨C75_headers .., (C75_contents ..).2.1⟩, ?_, ?_, ?_, ?_, (C75_contents ..).1⟩
  all_goals
    try rw [← C99_base64]
    simp only [textsAt, attrsAt, List.map_cons, List.map_nil, ShellReq.envelope, ShellReq.body]
    rw [body_at]
  · rfl
  · rfl
  · cases commandId <;> cases last <;> rfl
  · cases commandId <;> cases last <;> rfl

/-- C76: a signal request names the shell, the command and the code. -/
theorem C76_signal (c : Conn) (messageId code commandId : PyStr) (w : ShellWorld) :
    SendsOne (winrsSignal code commandId) w fun r =>
      Targets c messageId w .signal r ∧
      textsAt ["s:Body", "rsp:Signal", "rsp:Code"] (r.envelope c messageId) = [some code] ∧
      attrsAt ["s:Body", "rsp:Signal"] "CommandId" (r.envelope c messageId) = [some commandId] ∧
      optionsOf (r.envelope c messageId) = [] := by
  obtain ⟨ok, h⟩ := wsman_sendsOne (.signal w.shell.resourceUri w.shell.selectors code commandId) w
  refine ⟨_, ok, h, ⟨C75_headers .., (C75_contents ..).2.1⟩, ?_, ?_, (C75_contents ..).1⟩
  all_goals
    simp only [textsAt, attrsAt, List.map_cons, List.map_nil, ShellReq.envelope, ShellReq.body]
    rw [body_at]
  · rfl
  · rfl

/-- C76: a delete request names the shell. -/
theorem C76_delete (c : Conn) (messageId : PyStr) (w : ShellWorld) (ho : w.shell.opened = true) :
    SendsOne winrsClose w fun r => Targets c messageId w .delete r ∧
      (elemsAt ["s:Body".toList] (r.envelope c messageId)).map Elem.kids = [[]] ∧ optionsOf (r.envelope c messageId) = [] := by
  obtain ⟨ok, h, _⟩ := close_sends w ho
  exact ⟨_, ok, h, ⟨C75_headers .., (C75_contents ..).2.1⟩, (C75_contents ..).2.2, (C75_contents ..).1⟩

/-- The texts of the children with a tag among those of a create request. -/
theorem create_kids (s : WinRS) (extra : List Elem) (attrs : List (PyStr × PyStr)) (t : PyStr) :
    elemsAt [t] (.node "rsp:Shell".toList attrs none ((createBody s).kids ++ extra)) =
      elemsAt [t] (createBody s) ++ elemsAt [t] (.node "rsp:Shell".toList attrs none extra) := by
  rw [elemsAt, elemsAt, elemsAt, Elem.kids, List.filter_append, List.flatMap_append, Elem.kids]

/-- What a create request asks for: attributes of the shell. -/
structure Creates (s : WinRS) (e : Elem) : Prop where
  id : attrsAt ["s:Body", "rsp:Shell"] "ShellId" e = [s.id]
  input : textsAt ["s:Body", "rsp:Shell", "rsp:InputStreams"] e = [some s.inputStreams]
  output : textsAt ["s:Body", "rsp:Shell", "rsp:OutputStreams"] e = [s.outputStreams]
  idle : textsAt ["s:Body", "rsp:Shell", "rsp:IdleTimeOut"] e = (s.idleTimeOut.map fun t => some ("PT".toList ++ t ++ "S".toList)).toList
  lifetime : textsAt ["s:Body", "rsp:Shell", "rsp:Lifetime"] e = (s.lifetime.map fun t => some ("PT".toList ++ t ++ "S".toList)).toList
  name : textsAt ["s:Body", "rsp:Shell", "rsp:Name"] e = (s.name.map some).toList
  directory : textsAt ["s:Body", "rsp:Shell", "rsp:WorkingDirectory"] e = (s.workingDirectory.map some).toList
  variables : ((elemsAt ["s:Body".toList, "rsp:Shell".toList] e).map variablesOf) =
    [s.environment.map fun env => env.map fun v => (some v.1, some v.2)]

/-- The options that the settings of a shell stand for. -/
def settingsOptions (s : WinRS) : List Entry :=
  (if s.noProfile then [⟨some "WINRS_NOPROFILE".toList, some "TRUE".toList, [("MustComply".toList, "true".toList)]⟩] else []) ++
    (s.codepage.map fun p => ⟨some "WINRS_CODEPAGE".toList, some p, []⟩).toList

theorem optElem_texts (tag : String) (v : Option PyStr) (t : PyStr) :
    ((optElem tag v).filter fun k => decide (k.tag = t)).flatMap (elemsAt []) = if tag.toList = t then optElem tag v else [] := by
  cases v with
  | none => simp [optElem]
  | some x =>
    by_cases h : tag.toList = t
    · rw [optElem, if_pos h, List.filter_cons_of_pos (by rw [decide_eq_true_eq]; exact h)]; rfl
    · rw [optElem, if_neg h, List.filter_cons_of_neg (by rw [decide_eq_true_eq]; exact h)]; rfl

theorem environment_other (env : Option (List (PyStr × PyStr))) (t : PyStr) (ht : t ≠ "rsp:Environment".toList) :
    (environmentElem env).filter (fun k => decide (k.tag = t)) = [] := by
  cases env with
  | none => rfl
  | some env => rw [environmentElem, List.filter_cons_of_neg (by rw [decide_eq_true_eq]; exact fun h => ht h.symm)]; rfl

theorem textElem_texts (tag : String) (v : Option PyStr) (t : PyStr) :
    ([textElem tag v].filter fun k => decide (k.tag = t)).flatMap (elemsAt []) = if tag.toList = t then [textElem tag v] else [] := by
  by_cases h : tag.toList = t
  · rw [if_pos h, List.filter_cons_of_pos (by rw [decide_eq_true_eq]; exact h)]; rfl
  · rw [if_neg h, List.filter_cons_of_neg (by rw [decide_eq_true_eq]; exact h)]; rfl

theorem create_texts (s : WinRS) (extra : List Elem) (hx : ∀ x ∈ extra, x.tag = "creationXml".toList) (attrs : List (PyStr × PyStr))
    (t : PyStr) (ht : t ≠ "rsp:Environment".toList) (hc : "creationXml".toList ≠ t) :
    elemsAt [t] (.node "rsp:Shell".toList attrs none ((createBody s).kids ++ extra)) =
      (if "rsp:InputStreams".toList = t then [textElem "rsp:InputStreams" (some s.inputStreams)] else []) ++
      ((if "rsp:OutputStreams".toList = t then [textElem "rsp:OutputStreams" s.outputStreams] else []) ++
      ((if "rsp:IdleTimeOut".toList = t then optElem "rsp:IdleTimeOut" (s.idleTimeOut.map seconds) else []) ++
      ((if "rsp:Lifetime".toList = t then optElem "rsp:Lifetime" (s.lifetime.map seconds) else []) ++
      ((if "rsp:Name".toList = t then optElem "rsp:Name" s.name else []) ++
      (if "rsp:WorkingDirectory".toList = t then optElem "rsp:WorkingDirectory" s.workingDirectory else []))))) := by
  rw [create_kids, elemsAt, elemsAt, createBody, Elem.kids, Elem.kids, filter_other hx hc]
  have h2 : ∀ a b : Elem, [a, b] = [a] ++ [b] := fun _ _ => rfl
  rw [h2]
  simp only [List.filter_append, List.flatMap_append, optElem_texts, textElem_texts, environment_other _ t ht, List.flatMap_nil, List.append_nil,
    List.append_assoc]
  rfl

theorem creates_of (s : WinRS) (extra : List Elem) (hx : ∀ x ∈ extra, x.tag = "creationXml".toList) (c : Conn) (messageId : PyStr)
    (uri : Option PyStr) (options : Option (List WSManValue)) :
    Creates s (envelope c messageId .create uri (some (.node "rsp:Shell".toList (createBody s).attrs none ((createBody s).kids ++ extra)))
      options none none) := by
  have hkids := create_texts s extra hx (createBody s).attrs
  constructor
  all_goals try simp only [textsAt, attrsAt, List.map_cons, List.map_nil]
  all_goals rw [body_at]
  · show [Elem.attr _ _] = _
    rw [createBody]
    cases s.id <;> rfl
  · rw [hkids _ (by decide) (by decide)]; rfl
  · rw [hkids _ (by decide) (by decide)]; rfl
  · rw [hkids _ (by decide) (by decide)]; cases s.idleTimeOut <;> rfl
  · rw [hkids _ (by decide) (by decide)]; cases s.lifetime <;> rfl
  · rw [hkids _ (by decide) (by decide)]; cases s.name <;> rfl
  · rw [hkids _ (by decide) (by decide)]; cases s.workingDirectory <;> rfl
  · rw [elemsAt, List.map_cons, List.map_nil]
    have hv := variablesOf_create s
    unfold variablesOf at hv ⊢
    rw [create_kids]
    have h0 : elemsAt ["rsp:Environment".toList] (.node "rsp:Shell".toList (createBody s).attrs none extra) = [] := by
      rw [elemsAt, Elem.kids, filter_other hx (by decide)]; rfl
    rw [h0, List.append_nil, hv]

theorem options_of (s : WinRS) : (createOptions s).map (fun v => (⟨some v.name, some v.value, v.attributes.filter fun a => a.1 ≠ "Name".toList⟩ : Entry)) =
    settingsOptions s := by
  unfold createOptions settingsOptions
  cases s.noProfile <;> cases s.codepage <;> rfl

/-- C76: opening a shell that is not open asks for its attributes, all of them and each once, with the options for the profile
and the code page. -/
theorem C76_create (c : Conn) (messageId : PyStr) (w : ShellWorld) (ho : w.shell.opened = false) :
    SendsOne winrsOpen w fun r =>
      Headers (r.envelope c messageId) c messageId .create w.shell.resourceUri ∧ Creates w.shell (r.envelope c messageId) ∧
      optionsOf (r.envelope c messageId) = settingsOptions w.shell ∧ selectorsOf (r.envelope c messageId) = [] := by
  obtain ⟨ok, h⟩ := open_sent w ho
  refine ⟨_, ok, h, C75_headers .., ?_, ?_, (C75_contents ..).2.1⟩
  · have := creates_of w.shell [] (by simp) c messageId w.shell.resourceUri
      (if createOptions w.shell = [] then none else some (createOptions w.shell))
    rw [List.append_nil] at this
    exact this
  · rw [← options_of, ShellReq.envelope, (C75_contents ..).1]
    by_cases hc : createOptions w.shell = []
    · rw [if_pos hc, hc]; rfl
    · rw [if_neg hc]; rfl

/-- C76: the create request of a pool asks for the shell of the pool, says protocol version 2.3, and its content is the
first block in base64. -/
theorem C76_pool_create (c : Conn) (messageId configuration id : PyStr) (noProfile : Bool) (idle : Option PyStr) (block : Bytes) :
    let s := poolShell configuration id noProfile idle
    let e := poolCreateEnvelope c messageId s block
    Headers e c messageId .create (some ("http://schemas.microsoft.com/powershell/".toList ++ configuration)) ∧ Creates s e ∧
    textsAt ["s:Body", "rsp:Shell", "rsp:InputStreams"] e = [some "stdin pr".toList] ∧
    textsAt ["s:Body", "rsp:Shell", "rsp:OutputStreams"] e = [some "stdout".toList] ∧
    optionsOf e = ⟨some "protocolversion".toList, some "2.3".toList, [("MustComply".toList, "true".toList)]⟩ ::
      (if noProfile then [⟨some "WINRS_NOPROFILE".toList, some "TRUE".toList, [("MustComply".toList, "true".toList)]⟩] else []) ∧
    textsAt ["s:Body", "rsp:Shell", "creationXml"] e = [some (base64Of block)] := by
  intro s e
  have hc : Creates s e := creates_of s _ (by intro x hx; rw [List.mem_singleton] at hx; rw [hx]; rfl) c messageId _ _
  refine ⟨C75_headers .., hc, hc.input, hc.output, ?_, ?_⟩
  · refine ((C75_contents ..).1).trans ?_
    cases noProfile <;> rfl
  · rw [← C99_base64]
    show List.map Elem.text _ = _
    rw [show ["s:Body", "rsp:Shell", "creationXml"].map String.toList = ["s:Body".toList, "rsp:Shell".toList, "creationXml".toList] from rfl]
    show List.map Elem.text (elemsAt _ (poolCreateEnvelope c messageId s block)) = _
    rw [poolCreateEnvelope, body_at, create_kids]
    have h0 : elemsAt ["creationXml".toList] (createBody s) = [] := by
      cases idle <;> rfl
    rw [h0]
    rfl

/-- A shell with many settings. -/
def sampleShell : WinRS :=
  { resourceUri := some "u".toList, environment := some [("A".toList, "1".toList)], codepage := some "65001".toList, noProfile := true,
    workingDirectory := some "C:".toList }

example : ∃ r ok, (winrsOpen { shell := sampleShell, replies := [] }).2.sent = [(r, ok)] ∧ Creates sampleShell (r.envelope ⟨[], [], [], [], 0, 0⟩ []) := by
  obtain ⟨r, ok, h, _, hc, _⟩ := C76_create ⟨[], [], [], [], 0, 0⟩ [] { shell := sampleShell, replies := [] } rfl
  exact ⟨r, ok, h, hc⟩

/-! ### C78 -/

/-- The duration that a request announces. -/
def Announces (e : Elem) (n : Int) : Prop :=
  textsAt ["s:Header", "wsman:OperationTimeout"] e = [some ("PT".toList ++ (toString n).toList ++ "S".toList)]

/-- C78, partial: a request with a timeout announces it to the server, and the client waits two seconds longer for the answer.
One without announces the operation timeout of the connection; the client waits for the read timeout.
Missing: that the read timeout is the longer one, see `C78_default_false`, and timeouts of 0, see `C78_zero_false`. -/
theorem C78_wait_partial (c : Conn) (messageId : PyStr) (action : WSManAction) (uri : Option PyStr) (resource : Option Elem)
    (options : Option (List WSManValue)) (selectors : Selectors) (readTimeout : Int) :
    (∀ t : Int, t ≠ 0 → Announces (envelope c messageId action uri resource options selectors (some t)) t ∧ readWait readTimeout (some t) = t + 2) ∧
    Announces (envelope c messageId action uri resource options selectors none) c.operationTimeout ∧ readWait readTimeout none = readTimeout := by
  have key : ∀ timeout, textsAt ["s:Header", "wsman:OperationTimeout"] (envelope c messageId action uri resource options selectors timeout) =
      [some ("PT".toList ++ timeoutText c timeout ++ "S".toList)] := by
    intro timeout
    simp only [textsAt, List.map_cons, List.map_nil, header_at]
    rw [fixed_at _ _ _ _ _ _ _ _ _ (by decide) (by decide)]; rfl
  refine ⟨fun t ht => ⟨?_, ?_⟩, ?_, rfl⟩
  · rw [Announces, ← C99_number, key, timeoutText, if_neg ht]
  · rw [readWait, httpTimeout, if_neg ht]; rfl
  · rw [Announces, ← C99_number, key]; rfl

/-- C78 is false for a timeout of 0: the server is told the operation timeout of the connection. -/
theorem C78_zero_false (c : Conn) (messageId : PyStr) (action : WSManAction) (uri : Option PyStr) (resource : Option Elem)
    (options : Option (List WSManValue)) (selectors : Selectors) (readTimeout : Int) :
    Announces (envelope c messageId action uri resource options selectors (some 0)) c.operationTimeout ∧ readWait readTimeout (some 0) = readTimeout := by
  refine ⟨?_, rfl⟩
  rw [Announces, ← C99_number]
  simp only [textsAt, List.map_cons, List.map_nil, header_at]
  rw [fixed_at _ _ _ _ _ _ _ _ _ (by decide) (by decide)]; rfl

/-- C78 is false without a timeout: an operation timeout of a minute with the default read timeout of 30 seconds is accepted, and
the client gives up first. -/
theorem C78_default_false (messageId : PyStr) (action : WSManAction) (uri : Option PyStr) (resource : Option Elem)
    (options : Option (List WSManValue)) (selectors : Selectors) : ∃ c : Conn, ∃ n : Int,
    Announces (envelope c messageId action uri resource options selectors none) n ∧ readWait 30 none < n :=
  ⟨{ endpoint := [], sessionId := [], operationTimeout := 60 }, 60,
    (C78_wait_partial { endpoint := [], sessionId := [], operationTimeout := 60 } messageId action uri resource options selectors 30).2.1, by decide⟩

end Verif
