import Verif.Model.Enumerate
import Verif.Props.Requests
import Verif.Props.Base64Text
import Verif.Props.Fragment
/-
C85: pools found on the server, and the requests that connect to them.
-/
namespace Verif

/-- The ids of the items of a listing, in their order. -/
def Lists (item id : String) (body : Elem) (ids : List PyStr) : Prop :=
  (elemsAt ["wsen:EnumerateResponse".toList, "wsman:Items".toList, item.toList] body).map
    (fun e => ((elemsAt [id.toList] e).head?).bind Elem.text) = ids.map some

/-- A shell on the server with its commands, and the answer to the question for these. -/
structure OnServer where
  id : PyStr
  commands : List PyStr
  answer : Elem

/-- The selectors of the filter of an enumeration. -/
def filterOf (e : Elem) : List Entry :=
  entriesAt ["s:Body", "wsen:Enumerate", "wsman:Filter", "wsman:SelectorSet", "wsman:Selector"] e

/-- A request names this shell and no other. -/
def NamesShell (e : Elem) (id : PyStr) : Prop := selectorsOf e = [⟨some "ShellId".toList, some id, []⟩]

/-! ### Reading a listing -/

theorem wm_bind (x : WM α) (f : α → WM β) (w : WsWorld) : (x >>= f) w =
    match x w with
    | (.ok a, w1) => f a w1
    | (.raised e, w1) => (.raised e, w1)
    | (.waiting, w1) => (.waiting, w1) := rfl

theorem wm_pure (a : α) (w : WsWorld) : (pure a : WM α) w = (.ok a, w) := rfl

theorem childText_of {tag : String} {e : Elem} {id : PyStr} (h : ((elemsAt [tag.toList] e).head?).bind Elem.text = some id) :
    childText tag e = .ok (some id) := by
  unfold childText
  rw [find_eq]
  cases hh : (elemsAt [tag.toList] e).head? with
  | none => rw [hh] at h; cases h
  | some c => rw [hh, Option.bind_some] at h; exact congrArg _ h

theorem dictPut_keys [DecidableEq κ] (k : κ) (v : α) (d : List (κ × α)) :
    (dictPut k v d).map (·.1) = if k ∈ d.map (·.1) then d.map (·.1) else d.map (·.1) ++ [k] := by
  induction d with
  | nil => simp [dictPut]
  | cons e d ih =>
    obtain ⟨k', v'⟩ := e
    unfold dictPut
    by_cases h : k' = k
    · subst h; simp
    · rw [if_neg h, List.map_cons, ih]
      have : k ≠ k' := fun h' => h h'.symm
      by_cases hk : k ∈ d.map (·.1)
      · simp only [hk, if_true, List.map_cons, List.mem_cons, or_true]
      · simp only [hk, if_false, List.map_cons, List.mem_cons, this, or_self, List.cons_append]

theorem dictPut_mem [DecidableEq κ] {k : κ} {v : α} {d : List (κ × α)} {e : κ × α} (h : e ∈ dictPut k v d) : e = (k, v) ∨ e ∈ d := by
  induction d with
  | nil => simpa [dictPut] using h
  | cons e' d ih =>
    obtain ⟨k', v'⟩ := e'
    unfold dictPut at h
    by_cases hk : k' = k
    · rw [if_pos hk, List.mem_cons] at h
      exact h.imp id fun h => List.mem_cons_of_mem _ h
    · rw [if_neg hk, List.mem_cons] at h
      rcases h with h | h
      · exact .inr (h ▸ List.mem_cons_self)
      · exact (ih h).imp id fun h => List.mem_cons_of_mem _ h

theorem eraseDups_snoc (l : List PyStr) (a : PyStr) : (l ++ [a]).eraseDups = if a ∈ l then l.eraseDups else l.eraseDups ++ [a] := by
  rw [List.eraseDups_append]
  by_cases h : a ∈ l
  · simp [h, List.removeAll]
  · simp [h, List.removeAll, List.eraseDups_cons]

/-- A pipeline as a listing gives it. -/
def Listed (e : Option PyStr × FoundPipe) : Prop := e.2.id = e.1 ∧ e.2.commandId = e.1 ∧ e.2.state = .disconnected

theorem readPipelines_of {es : List Elem} {ids : List PyStr} (h : es.map (fun e => ((elemsAt ["rsp:CommandId".toList] e).head?).bind Elem.text) = ids.map some)
    {pre : List PyStr} {acc : List (Option PyStr × FoundPipe)} (hk : acc.map (·.1) = pre.eraseDups.map some) (hl : ∀ e ∈ acc, Listed e) :
    ∃ d, readPipelines es acc = .ok d ∧ d.map (·.1) = (pre ++ ids).eraseDups.map some ∧ ∀ e ∈ d, Listed e := by
  induction es generalizing ids pre acc with
  | nil =>
    cases ids with
    | nil => exact ⟨acc, rfl, by rw [List.append_nil]; exact hk, hl⟩
    | cons i ids => cases h
  | cons e es ih =>
    cases ids with
    | nil => cases h
    | cons i ids =>
      rw [List.map_cons, List.map_cons, List.cons.injEq] at h
      obtain ⟨h1, h2⟩ := h
      have k1 : (dictPut (some i) ⟨some i, some i, .disconnected, false⟩ acc).map (·.1) = (pre ++ [i]).eraseDups.map some := by
        rw [dictPut_keys, hk, eraseDups_snoc]
        have hm : some i ∈ pre.eraseDups.map some ↔ i ∈ pre := by simp
        by_cases hi : i ∈ pre
        · rw [if_pos hi, if_pos (hm.2 hi)]
        · rw [if_neg hi, if_neg (fun h => hi (hm.1 h)), List.map_append, List.map_singleton]
      have k2 : ∀ e ∈ dictPut (some i) ⟨some i, some i, .disconnected, false⟩ acc, Listed e := by
        intro e he
        rcases dictPut_mem he with rfl | he
        · exact ⟨rfl, rfl, rfl⟩
        · exact hl e he
      obtain ⟨d, hd1, hd2, hd3⟩ := ih h2 k1 k2
      refine ⟨d, ?_, ?_, hd3⟩
      · unfold readPipelines
        rw [childText_of h1]
        exact hd1
      · rw [hd2, List.append_assoc]; rfl

/-- The question for the commands of a shell. -/
def commandsOf (id : PyStr) : WsReq :=
  { action := .enumerate, uri := some commandUri, resource := some (enumerateBody (some [("ShellId".toList, id)])) }

theorem readPools_of {es : List Elem} {found : List OnServer} (h : es.map (fun e => ((elemsAt ["rsp:ShellId".toList] e).head?).bind Elem.text) =
    found.map (fun f => some f.id)) (hc : ∀ f ∈ found, Lists "rsp:Command" "rsp:CommandId" f.answer f.commands) (rest : List (Except PyErr Elem))
    (sent : List WsReq) :
    ∃ pools, readPools es ⟨found.map (fun f => .ok f.answer) ++ rest, sent⟩ = (.ok pools, ⟨rest, sent ++ found.map fun f => commandsOf f.id⟩) ∧
      pools.map (·.id) = found.map (fun f => some f.id) ∧
      pools.map (fun p => p.pipelines.map (·.1)) = found.map (fun f => f.commands.eraseDups.map some) ∧
      ∀ p ∈ pools, p = foundPool p.id p.pipelines ∧ ∀ e ∈ p.pipelines, Listed e := by
  induction es generalizing found sent with
  | nil =>
    cases found with
    | nil => exact ⟨[], by simp [readPools, wm_pure], rfl, rfl, by simp⟩
    | cons f found => cases h
  | cons e es ih =>
    cases found with
    | nil => cases h
    | cons f found =>
      rw [List.map_cons, List.map_cons, List.cons.injEq] at h
      obtain ⟨h1, h2⟩ := h
      obtain ⟨d, hd1, hd2, hd3⟩ := readPipelines_of (hc f List.mem_cons_self) (pre := []) (acc := []) rfl (by simp)
      obtain ⟨pools, hp1, hp2, hp3, hp4⟩ := ih h2 (fun f' hf => hc f' (List.mem_cons_of_mem _ hf)) (sent ++ [commandsOf f.id])
      refine ⟨foundPool (some f.id) d :: pools, ?_, ?_, ?_, ?_⟩
      · unfold readPools
        rw [childText_of h1]
        simp only [wm_bind, wlift, wsInvoke, List.map_cons, List.cons_append, findAll_eq, pyStrOf]
        rw [hd1]
        simp only [wm_pure]
        rw [show ({ action := .enumerate, uri := some commandUri, resource := some (enumerateBody (some [("ShellId".toList, f.id)])) } : WsReq) =
          commandsOf f.id from rfl, hp1]
        simp
      · rw [List.map_cons, hp2, List.map_cons]; rfl
      · rw [List.map_cons, hp3, List.map_cons]
        congr 1
      · intro p hp
        rcases List.mem_cons.1 hp with rfl | hp
        · exact ⟨rfl, hd3⟩
        · exact hp4 p hp

/-- A question to which the whole listing is the answer, up to 32000 items: the library never asks for the rest. -/
def AsksForAll (e : Elem) : Prop :=
  textsAt ["s:Body", "wsen:Enumerate", "wsman:OptimizeEnumeration"] e = [none] ∧
    textsAt ["s:Body", "wsen:Enumerate", "wsman:MaxElements"] e = [some "32000".toList]

theorem asksForAll (filter : Option (List (PyStr × PyStr))) (c : Conn) (messageId : PyStr) (action : WSManAction) (uri : Option PyStr) :
    AsksForAll (({ action, uri, resource := some (enumerateBody filter) } : WsReq).envelope c messageId) := by
  unfold AsksForAll textsAt
  simp only [List.map_cons, List.map_nil, WsReq.envelope, enumerateBody]
  rw [body_at, body_at]
  cases filter <;> exact ⟨rfl, rfl⟩

/-- C85. The listing of the server becomes one pool for each shell, in its order, with the id of the shell and a disconnected pipeline for
each of its commands. The requests are one for the shells and then one for the commands of each shell, which names the shell. -/
theorem C85_found {body : Elem} {found : List OnServer} (h : Lists "rsp:Shell" "rsp:ShellId" body (found.map (·.id)))
    (hc : ∀ f ∈ found, Lists "rsp:Command" "rsp:CommandId" f.answer f.commands) (rest : List (Except PyErr Elem)) :
    ∃ pools first asked, getRunspacePools ⟨.ok body :: (found.map (fun f => .ok f.answer) ++ rest), []⟩ = (.ok pools, ⟨rest, first :: asked⟩) ∧
      pools.map (·.id) = found.map (fun f => some f.id) ∧ (∀ p ∈ pools, p.state = .disconnected ∧ p.newClient = true) ∧
      pools.map (fun p => p.disconnectedPipes.map (·.id)) = found.map (fun f => f.commands.eraseDups.map some) ∧
      ∀ c messageId, Headers (first.envelope c messageId) c messageId .enumerate (some "http://schemas.microsoft.com/wbem/wsman/1/windows/shell".toList) ∧
        filterOf (first.envelope c messageId) = [] ∧
        (∀ r ∈ asked, Headers (r.envelope c messageId) c messageId .enumerate
          (some "http://schemas.microsoft.com/wbem/wsman/1/windows/shell/Command".toList)) ∧
        asked.map (fun r => filterOf (r.envelope c messageId)) = (found.map fun f => [⟨some "ShellId".toList, some f.id, []⟩]) ∧
        ∀ r ∈ first :: asked, AsksForAll (r.envelope c messageId) := by
  obtain ⟨pools, h1, h2, h3, h4⟩ := readPools_of (found := found) (by unfold Lists at h; rw [h]; simp) hc rest
    [{ action := .enumerate, uri := some shellUri, resource := some (enumerateBody none) }]
  refine ⟨pools, { action := .enumerate, uri := some shellUri, resource := some (enumerateBody none) }, found.map fun f => commandsOf f.id,
    ?_, h2, ?_, ?_, ?_⟩
  · unfold getRunspacePools
    simp only [wm_bind, wsInvoke, findAll_eq, List.nil_append]
    exact h1
  · intro p hp
    rw [(h4 p hp).1]; exact ⟨rfl, rfl⟩
  · rw [← h3]
    apply List.map_congr_left
    intro p hp
    unfold FoundPool.disconnectedPipes
    rw [List.filter_eq_self.2, List.map_map]
    · apply List.map_congr_left
      intro e he
      exact ((h4 p hp).2 e he).1
    · intro x hx
      obtain ⟨e, he, rfl⟩ := List.mem_map.1 hx
      simpa using ((h4 p hp).2 e he).2.2
  · intro c messageId
    refine ⟨C75_headers .., ?_, ?_, ?_, ?_⟩
    · simp only [filterOf, entriesAt, List.map_cons, List.map_nil, WsReq.envelope, enumerateBody]
      rw [body_at]; rfl
    · intro r hr
      obtain ⟨f, _, rfl⟩ := List.mem_map.1 hr
      exact C75_headers ..
    · rw [List.map_map]
      apply List.map_congr_left
      intro f _
      simp only [Function.comp_apply, filterOf, entriesAt, List.map_cons, List.map_nil, WsReq.envelope, enumerateBody, commandsOf]
      rw [body_at]; rfl
    · intro r hr
      rcases List.mem_cons.1 hr with rfl | hr
      · exact asksForAll ..
      · obtain ⟨f, _, rfl⟩ := List.mem_map.1 hr
        exact asksForAll ..

/-! ### Connecting -/

/-- Every request of a shell names it. -/
def AlwaysNames (s : WinRS) (id : PyStr) : Prop :=
  ∀ (c : Conn) (messageId : PyStr) (w : ShellWorld), w.shell = s →
    (∀ stream data commandId last, SendsOne (winrsSend stream data commandId last) w fun r => NamesShell (r.envelope c messageId) id) ∧
    (∀ stream commandId, SendsOne (winrsReceive stream commandId) w fun r => NamesShell (r.envelope c messageId) id) ∧
    (∀ executable arguments noShell commandId,
      SendsOne (winrsCommand executable arguments noShell commandId) w fun r => NamesShell (r.envelope c messageId) id) ∧
    (∀ code commandId, SendsOne (winrsSignal code commandId) w fun r => NamesShell (r.envelope c messageId) id) ∧
    (s.opened = true → SendsOne winrsClose w fun r => NamesShell (r.envelope c messageId) id)

theorem alwaysNames {s : WinRS} {id : PyStr} (h : s.selectors = some [("ShellId".toList, id)]) : AlwaysNames s id := by
  intro c m w hw
  have key : ∀ {a r}, Targets c m w a r → NamesShell (r.envelope c m) id := by
    intro a r ht
    unfold NamesShell
    rw [ht.2, hw, h]; rfl
  refine ⟨?_, ?_, ?_, ?_, ?_⟩
  · intro stream data commandId last
    obtain ⟨r, ok, h1, h2, _⟩ := C76_send c m stream data commandId last w
    exact ⟨r, ok, h1, key h2⟩
  · intro stream commandId
    obtain ⟨r, ok, h1, h2, _⟩ := C76_receive c m stream commandId w
    exact ⟨r, ok, h1, key h2⟩
  · intro executable arguments noShell commandId
    obtain ⟨r, ok, h1, h2, _⟩ := C76_command c m executable arguments noShell commandId w
    exact ⟨r, ok, h1, key h2⟩
  · intro code commandId
    obtain ⟨r, ok, h1, h2, _⟩ := C76_signal c m code commandId w
    exact ⟨r, ok, h1, key h2⟩
  · intro ho
    obtain ⟨r, ok, h1, h2, _⟩ := C76_delete c m w (hw ▸ ho)
    exact ⟨r, ok, h1, key h2⟩

/-- C85, partial: connecting to a found pool names its shell in the request, which carries the data, and in the first receive. All later
requests of the shell name it, too.
Missing: the configuration of the shell (`C85_configuration_false`). -/
theorem C85_connect_partial {p : FoundPool} {id : PyStr} (hid : p.id = some id) (hs : p.state = .disconnected) (hn : p.newClient = true)
    {parse : Bytes → Except PyErr PoolState} {data fragments : Bytes} {answer : Elem} {t : PyStr} {state : PoolState}
    (ha : (textsAt ["rsp:ConnectResponse", "pwsh:connectResponseXml"] answer).head? = some (some t)) (hb : Base64Ascii t fragments)
    (hp : parse fragments = .ok state) (got : Elem) (rest : List (Except PyErr Elem)) :
    ∃ p' r1 r2, p.connect parse data ⟨.ok answer :: .ok got :: rest, []⟩ = (.ok p', ⟨rest, [r1, r2]⟩) ∧
      p'.id = some id ∧ p'.shell.id = some id ∧ p'.state = state ∧ p'.newClient = false ∧ p'.pipelines = p.pipelines ∧
      p'.shell.selectors = some [("ShellId".toList, id)] ∧ AlwaysNames p'.shell id ∧
      ∀ c messageId, Headers (r1.envelope c messageId) c messageId .connect p.shell.resourceUri ∧ NamesShell (r1.envelope c messageId) id ∧
        optionsOf (r1.envelope c messageId) = [⟨some "protocolversion".toList, some "2.3".toList, [("MustComply".toList, "true".toList)]⟩] ∧
        textsAt ["s:Body", "rsp:Connect", "connectXml"] (r1.envelope c messageId) = [some (base64Of data)] ∧
        Headers (r2.envelope c messageId) c messageId .receive p.shell.resourceUri ∧ NamesShell (r2.envelope c messageId) id ∧
        textsAt ["s:Body", "rsp:Receive", "rsp:DesiredStream"] (r2.envelope c messageId) = [some "stdout".toList] ∧
        attrsAt ["s:Body", "rsp:Receive", "rsp:DesiredStream"] "CommandId" (r2.envelope c messageId) = [none] := by
  replace hb := ((C105_string t).1 fragments).2 hb
  have ha' : ∃ e, answer.find ["rsp:ConnectResponse".toList, "pwsh:connectResponseXml".toList] = some e ∧ e.text = some t := by
    rw [find_eq]
    unfold textsAt at ha
    rw [List.head?_map] at ha
    obtain ⟨e, h1, h2⟩ := Option.map_eq_some_iff.1 ha
    exact ⟨e, h1, h2⟩
  obtain ⟨e, he, het⟩ := ha'
  refine ⟨{ p with shell := { p.shell with id := p.id, selectors := some [("ShellId".toList, pyStrOf p.id)] }, state := state, newClient := false },
    connectRequest p data, poolReceive { p.shell with id := p.id, selectors := some [("ShellId".toList, pyStrOf p.id)] },
    ?_, hid, hid, rfl, rfl, rfl, by rw [hid]; rfl, ?_, ?_⟩
  · unfold FoundPool.connect
    rw [if_neg (by rw [hs]; decide), if_neg (by rw [hs]; simp), if_pos hn]
    simp only [wm_bind, connectNewClient, wsInvoke, he, het, wlift, hb, hp, wm_pure, List.nil_append, List.cons_append]
  · exact alwaysNames (by rw [hid]; rfl)
  · intro c messageId
    refine ⟨C75_headers .., ?_, (C75_contents ..).1, ?_, C75_headers .., ?_, ?_, ?_⟩
    · unfold NamesShell
      exact ((C75_contents ..).2.1).trans (by rw [connectRequest, hid]; rfl)
    · rw [← C99_base64]
      simp only [textsAt, List.map_cons, List.map_nil, WsReq.envelope, connectRequest]
      rw [body_at]; rfl
    · unfold NamesShell
      exact ((C75_contents ..).2.1).trans (by rw [hid]; rfl)
    · simp only [textsAt, List.map_cons, List.map_nil, WsReq.envelope, poolReceive, ShellReq.toWs, ShellReq.body]
      rw [body_at]; rfl
    · simp only [attrsAt, List.map_cons, List.map_nil, WsReq.envelope, poolReceive, ShellReq.toWs, ShellReq.body]
      rw [body_at]; rfl

/-- C85. Disconnecting from an opened pool and connecting again names its shell both times, and the pool is open again. -/
theorem C85_cycle {p : FoundPool} {id : PyStr} (hid : p.shell.id = some id) (hs : p.state = .opened) (hn : p.newClient = false)
    (parse : Bytes → Except PyErr PoolState) (data : Bytes) (a1 a2 : Elem) (rest : List (Except PyErr Elem)) :
    ∃ p1 p2 r1 r2, p.disconnect ⟨.ok a1 :: .ok a2 :: rest, []⟩ = (.ok p1, ⟨.ok a2 :: rest, [r1]⟩) ∧
      p1.connect parse data ⟨.ok a2 :: rest, [r1]⟩ = (.ok p2, ⟨rest, [r1, r2]⟩) ∧
      p1.state = .disconnected ∧ p2.state = .opened ∧ p2.shell = p.shell ∧ (∀ x ∈ p1.pipelines, x.2.state = .disconnected) ∧
      ∀ c messageId, Headers (r1.envelope c messageId) c messageId .disconnect p.shell.resourceUri ∧ NamesShell (r1.envelope c messageId) id ∧
        Headers (r2.envelope c messageId) c messageId .reconnect p.shell.resourceUri ∧ NamesShell (r2.envelope c messageId) id := by
  refine ⟨{ p with state := .disconnected, pipelines := p.pipelines.map fun e => (e.1, { e.2 with state := .disconnected }) },
    { p with state := .opened, pipelines := p.pipelines.map fun e => (e.1, { e.2 with state := .disconnected }) },
    disconnectRequest p, reconnectRequest p, ?_, ?_, rfl, rfl, rfl, ?_, ?_⟩
  · unfold FoundPool.disconnect
    rw [if_neg (by rw [hs]; decide), if_neg (by rw [hs]; simp)]
    rfl
  · unfold FoundPool.connect
    rw [if_neg (by show ¬ PoolState.disconnected = PoolState.opened; decide), if_neg (by simp), if_neg (by rw [hn]; decide)]
    rfl
  · intro x hx
    obtain ⟨e, _, rfl⟩ := List.mem_map.1 hx
    rfl
  · intro c messageId
    refine ⟨C75_headers .., ?_, C75_headers .., ?_⟩
    · unfold NamesShell
      exact ((C75_contents ..).2.1).trans (by rw [disconnectRequest, hid]; rfl)
    · unfold NamesShell
      exact ((C75_contents ..).2.1).trans (by rw [reconnectRequest, hid]; rfl)

/-- C85. Connecting to a found pipeline names its command and, if the pool is connected, its shell. -/
theorem C85_pipeline {p : FoundPool} {x : FoundPipe} {id command : PyStr} (hp : p.shell.selectors = some [("ShellId".toList, id)])
    (hx : x.id = some command) (hs : x.state = .disconnected) (answer : Elem) (rest : List (Except PyErr Elem)) :
    ∃ x' r, x.connectAsync p ⟨.ok answer :: rest, []⟩ = (.ok x', ⟨rest, [r]⟩) ∧ x'.state = .running ∧
      ∀ c messageId, Headers (r.envelope c messageId) c messageId .connect p.shell.resourceUri ∧ NamesShell (r.envelope c messageId) id ∧
        attrsAt ["s:Body", "rsp:Connect"] "CommandId" (r.envelope c messageId) = [some command] := by
  refine ⟨{ x with state := .running, fromDisconnect := true }, connectPipeRequest p command, ?_, rfl, ?_⟩
  · unfold FoundPipe.connectAsync
    rw [if_neg (by rw [hs]; simp)]
    simp only [hx]
    rfl
  · intro c messageId
    refine ⟨C75_headers .., ?_, ?_⟩
    · unfold NamesShell
      exact ((C75_contents ..).2.1).trans (by rw [connectPipeRequest, hp]; rfl)
    · simp only [attrsAt, List.map_cons, List.map_nil, WsReq.envelope, connectPipeRequest]
      rw [body_at]; rfl

/-- C85. A connected pool that is closed asks the server to delete its shell, once. -/
theorem C85_close {p : FoundPool} {id : PyStr} (hp : p.shell.selectors = some [("ShellId".toList, id)]) (ho : p.shell.opened = true)
    (hs : p.state = .opened ∨ p.state = .disconnected) (answer : Elem) (rest : List (Except PyErr Elem)) :
    ∃ p' r, p.close ⟨.ok answer :: rest, []⟩ = (.ok p', ⟨rest, [r]⟩) ∧ p'.state = .closed ∧ p'.close ⟨rest, [r]⟩ = (.ok p', ⟨rest, [r]⟩) ∧
      ∀ c messageId, Headers (r.envelope c messageId) c messageId .delete p.shell.resourceUri ∧ NamesShell (r.envelope c messageId) id := by
  refine ⟨{ p with state := .closed, shell := { p.shell with id := none, opened := false } },
    (ShellReq.delete p.shell.resourceUri p.shell.selectors).toWs, ?_, rfl, ?_, ?_⟩
  · unfold FoundPool.close
    rw [if_neg (by rcases hs with h | h <;> rw [h] <;> decide), if_pos ho]
    rfl
  · unfold FoundPool.close
    rw [if_pos (Or.inl rfl)]
    rfl
  · intro c messageId
    refine ⟨C75_headers .., ?_⟩
    unfold NamesShell
    exact ((C75_contents ..).2.1).trans (by rw [hp]; rfl)

/-- The requests of shells are the same here as in Model/Shell. -/
theorem toWs_envelope (c : Conn) (messageId : PyStr) (r : ShellReq) : r.toWs.envelope c messageId = r.envelope c messageId := by
  cases r <;> rfl

/-- A server's answer to a connection with three bytes of data. -/
def connected : Elem :=
  .node "s:Body".toList [] none [.node "rsp:ConnectResponse".toList [] none [.node "pwsh:connectResponseXml".toList [] (some "AQID".toList) []]]

/-- The hypotheses of the theorems on connecting can be met, one after the other: a pool as found, connected to, disconnected, and its
pipeline. -/
example : ∃ p : FoundPool, p = foundPool (some "S".toList) [(some "C".toList, ⟨some "C".toList, some "C".toList, .disconnected, false⟩)] ∧
    p.id = some "S".toList ∧ p.state = .disconnected ∧ p.newClient = true ∧
    (textsAt ["rsp:ConnectResponse", "pwsh:connectResponseXml"] connected).head? = some (some "AQID".toList) ∧
    b64DecodeStr "AQID".toList = .ok [1, 2, 3] ∧
    ∃ p' w, p.connect (fun _ => .ok .opened) [7] ⟨[.ok connected, .ok connected], []⟩ = (.ok p', w) ∧
      p'.shell.id = some "S".toList ∧ p'.state = .opened ∧ p'.newClient = false ∧ p'.shell.selectors = some [("ShellId".toList, "S".toList)] ∧
      p'.shell.opened = true ∧ p'.disconnectedPipes.map (·.id) = [some "C".toList] := by
  refine ⟨_, rfl, rfl, rfl, rfl, by decide +kernel, by decide +kernel, ?_⟩
  refine ⟨_, _, rfl, ?_⟩
  refine ⟨rfl, rfl, rfl, rfl, rfl, rfl⟩

/-! ### The data of a connection -/

theorem fragment_one {o : OutState} {msg : Bytes} (hne : msg ≠ []) (hc : o.counter < 2 ^ 64) (hl : msg.length < 2 ^ 32)
    (hs : (msg.length : Int) ≤ o.maxSize) :
    fragment o msg none = .ok ([(Fragment.mk o.counter 0 msg true true).wire], { o with counter := o.counter + 1 }) := by
  have hpos := List.length_pos_iff.2 hne
  have hb : byteIterator msg o.maxSize = .ok [(msg, true)] := by
    unfold byteIterator
    rw [if_neg (by omega), if_neg (by omega), chunksFlag, dif_pos ⟨by omega, hne⟩, List.drop_of_length_le (by omega), chunksFlag_nil,
      List.take_of_length_le (by omega)]
    simp; omega
  have hf : (Fragment.mk o.counter 0 msg true true).Fits := ⟨hc, by simp, hl⟩
  simp only [fragment, hb, bind, Except.bind, pure, Except.pure, packPieces, Fragment.pack_fits hf]

/-- C85, partial: if both messages fit one block each, the server gets both of them.
Missing: smaller limits, where the claim is false. -/
theorem C85_data_partial (M : Int) {cap conn : Bytes} (h1 : (cap.length : Int) ≤ M - 21) (h2 : (conn.length : Int) ≤ M - 21) (hcap : cap ≠ [])
    (hconn : conn ≠ []) (hM : M < 2 ^ 32) :
    ∃ data o' outs, connectData (OutState.init M) cap conn = .ok (data, o') ∧ receives noBuffers [data] = (noBuffers, .ok outs) ∧
      outs.flatten = [cap, conn] := by
  have e1 := fragment_one (o := OutState.init M) hcap (by simp [OutState.init]) (by omega) (by simp only [OutState.init]; omega)
  have e2 := fragment_one (o := { OutState.init M with counter := (OutState.init M).counter + 1 }) hconn (by simp [OutState.init]) (by omega)
    (by simp only [OutState.init]; omega)
  have hd : connectData (OutState.init M) cap conn = .ok ((Fragment.mk (OutState.init M).counter 0 cap true true).wire ++
      (Fragment.mk ((OutState.init M).counter + 1) 0 conn true true).wire, { OutState.init M with counter := (OutState.init M).counter + 1 + 1 }) := by
    simp only [connectData, e1, e2, bind, Except.bind, pure, Except.pure]
  have hfits : ∀ f ∈ [Fragment.mk (OutState.init M).counter 0 cap true true,
      Fragment.mk ((OutState.init M).counter + 1) 0 conn true true], f.Fits := by
    intro f hf
    simp only [List.mem_cons, List.not_mem_nil, or_false, OutState.init] at hf
    rcases hf with rfl | rfl
    · exact ⟨by simp, by simp, by simp only; omega⟩
    · exact ⟨by simp, by simp, by simp only; omega⟩
  have hF : ∀ c (m : Bytes), Fragmentation c m [⟨c, 0, m, true, true⟩] := fun c m =>
    ⟨by simp, by simp, by simp, by simp, by simp, by simp [payload]⟩
  have hfo : FragmentsOf (OutState.init M).counter [cap, conn]
      [[Fragment.mk (OutState.init M).counter 0 cap true true],
       [Fragment.mk ((OutState.init M).counter + 1) 0 conn true true]] := ⟨hF _ _, hF _ _, trivial⟩
  have hp : ParsesAll [wires [Fragment.mk (OutState.init M).counter 0 cap true true,
      Fragment.mk ((OutState.init M).counter + 1) 0 conn true true]] (_ ++ []) := .cons (parses_wires hfits) .nil
  obtain ⟨outs, e1, e2⟩ := hp.receives noBuffers noBuffers [cap, conn] (by
    have := hfo.defragList noBuffers (fun _ _ => rfl)
    simpa using this)
  refine ⟨_, _, outs, hd, ?_, e2⟩
  simpa [wires] using e1

/-- The limits of a real connection allow it. -/
example : ((List.replicate 400 0 : Bytes).length : Int) ≤ 113883 - 21 ∧ ((List.replicate 48 0 : Bytes).length : Int) ≤ 113883 - 21 := by
  simp only [List.length_replicate]; omega

/-- C85 is false of small limits: a capability message that needs two blocks never arrives, only the message after it. -/
theorem C85_data_false {M : Int} {cap conn : Bytes} (h0 : 0 < M - 21) (h1 : M - 21 < (cap.length : Int)) (h2 : (conn.length : Int) ≤ M - 21)
    (hconn : conn ≠ []) (hM : M < 2 ^ 32) (hc : cap.length < 2 ^ 32) :
    ∃ data o' b outs, connectData (OutState.init M) cap conn = .ok (data, o') ∧ receives noBuffers [data] = (b, .ok outs) ∧
      outs.flatten = [conn] := by
  have hm : 0 < (OutState.init M).maxSize := by simp only [OutState.init]; omega
  have hne : cap ≠ [] := by intro h; subst h; simp at h1; omega
  obtain ⟨blocks, hb⟩ := fragment_none_total (o := OutState.init M) (msg := cap) hm (by simp [OutState.init]) hc
  obtain ⟨-, fs, hfr, rfl, hfit, hlen⟩ := fragment_none hm hne hb
  match fs, hfr, hfit, hlen with
  | [], hfr, _, _ => exact absurd rfl hfr.nonempty
  | [f], hfr, _, hlen =>
    have := hlen f (by simp)
    have hd := hfr.data
    simp only [payload, List.map_cons, List.map_nil, List.flatten_cons, List.flatten_nil, List.append_nil] at hd
    rw [hd] at this
    simp only [OutState.init] at this
    omega
  | f :: f' :: fs, hfr, hfit, hlen =>
    have e2 := fragment_one (o := { OutState.init M with counter := (OutState.init M).counter + 1 }) hconn (by simp [OutState.init]) (by omega)
      (by simp only [OutState.init]; omega)
    have hd : connectData (OutState.init M) cap conn = .ok (f.wire ++
        (Fragment.mk ((OutState.init M).counter + 1) 0 conn true true).wire, { OutState.init M with counter := (OutState.init M).counter + 1 + 1 }) := by
      simp only [connectData, hb, e2, bind, Except.bind, pure, Except.pure, List.map_cons]
    have hfits : ∀ g ∈ [f, Fragment.mk ((OutState.init M).counter + 1) 0 conn true true], g.Fits := by
      intro g hg
      simp only [List.mem_cons, List.not_mem_nil, or_false, OutState.init] at hg
      rcases hg with rfl | rfl
      · exact hfit _ (by simp)
      · exact ⟨by simp, by simp, by simp only; omega⟩
    have hid : f.fragmentId = nextId noBuffers f.objectId := by
      have := hfr.ids
      simp only [List.map_cons, List.length_cons, List.range_succ_eq_map] at this
      exact (List.cons.inj this).1
    have hend : f.end_ = false := hfr.take_no_end (k := 1) (by simp) f (by simp)
    have hobj : f.objectId = (OutState.init M).counter := hfr.object f (by simp)
    obtain ⟨b1, hother, -, hstep⟩ := defragStep_eq noBuffers f hid
    rw [hend] at hstep
    have hF : Fragmentation ((OutState.init M).counter + 1) conn [⟨(OutState.init M).counter + 1, 0, conn, true, true⟩] :=
      ⟨by simp, by simp, by simp, by simp, by simp, by simp [payload]⟩
    have hdef := hF.defragList b1 (by rw [hother _ (by omega)]; rfl)
    have hp : ParsesAll [wires [f, Fragment.mk ((OutState.init M).counter + 1) 0 conn true true]] (_ ++ []) := .cons (parses_wires hfits) .nil
    obtain ⟨outs, e1, e2⟩ := hp.receives noBuffers b1 [conn] (by
      simp only [List.append_nil, defragList, hstep]
      exact hdef)
    refine ⟨_, _, b1, outs, hd, ?_, e2⟩
    simpa [wires] using e1

example : connectData (OutState.init 24) [1, 2, 3, 4] [5] = .ok ([
    0, 0, 0, 0, 0, 0, 0, 1, 0, 0, 0, 0, 0, 0, 0, 0, 1, 0, 0, 0, 3, 1, 2, 3,
    0, 0, 0, 0, 0, 0, 0, 2, 0, 0, 0, 0, 0, 0, 0, 0, 3, 0, 0, 0, 1, 5], ⟨3, 3⟩) := by decide +kernel

/-! ### Where it goes wrong -/

/-- An element with a text. -/
def leaf (tag text : String) : Elem := .node tag.toList [] (some text.toList) []

/-- An answer that lists these items. -/
def listing (items : List Elem) : Elem :=
  .node "s:Body".toList [] none [.node "wsen:EnumerateResponse".toList [] none
    [.node "wsman:EndOfSequence".toList [] none [], .node "wsman:Items".toList [] none items]]

/-- Two shells: the second one has a constrained configuration and two commands. -/
def twoShells : List OnServer :=
  [⟨"11111111-0000-0000-0000-000000000000".toList, [], listing []⟩,
    ⟨"22222222-0000-0000-0000-000000000000".toList, ["C1".toList, "C2".toList],
      listing [.node "rsp:Command".toList [] none [leaf "rsp:CommandId" "C1"], .node "rsp:Command".toList [] none [leaf "rsp:CommandId" "C2"]]⟩]

def twoListed : Elem :=
  listing [.node "rsp:Shell".toList [] none
      [leaf "rsp:ShellId" "11111111-0000-0000-0000-000000000000", leaf "rsp:ResourceUri" "http://schemas.microsoft.com/powershell/Microsoft.PowerShell"],
    .node "rsp:Shell".toList [] none
      [leaf "rsp:ShellId" "22222222-0000-0000-0000-000000000000", leaf "rsp:ResourceUri" "http://schemas.microsoft.com/powershell/JEA"]]

/-- The hypotheses of `C85_found` can be met. -/
example : Lists "rsp:Shell" "rsp:ShellId" twoListed (twoShells.map (·.id)) ∧
    ∀ f ∈ twoShells, Lists "rsp:Command" "rsp:CommandId" f.answer f.commands := by
  refine ⟨?_, ?_⟩
  · unfold Lists; decide +kernel
  · intro f hf
    simp only [twoShells, List.mem_cons, List.not_mem_nil, or_false] at hf
    rcases hf with rfl | rfl <;> (unfold Lists; decide +kernel)

/-- What the programs of this example return, for comparing. -/
def twoFound : List FoundPool :=
  match (getRunspacePools ⟨.ok twoListed :: twoShells.map (fun f => .ok f.answer), []⟩).1 with
  | .ok l => l
  | _ => []

/-- The resources of requests. -/
def resources (w : WsWorld) : List (Option PyStr) :=
  w.sent.flatMap fun r => textsAt ["s:Header", "wsman:ResourceURI"] (r.envelope { endpoint := [], sessionId := [] } [])

/-- C85 is false of the configuration: a pool with another configuration is connected to as one with the default configuration. -/
theorem C85_configuration_false : (twoFound.map fun p => resources (p.connect (fun _ => .ok .opened) [] ⟨[], []⟩).2) =
    [[some "http://schemas.microsoft.com/powershell/Microsoft.PowerShell".toList],
      [some "http://schemas.microsoft.com/powershell/Microsoft.PowerShell".toList]] := by
  decide +kernel

/-- C85 is false of the sort of shell: whatever else the server says about a shell, it becomes a pool. -/
theorem C85_kind_false {body : Elem} {id : PyStr} {others : List Elem} (h : elemsAt ["wsen:EnumerateResponse".toList, "wsman:Items".toList, "rsp:Shell".toList] body =
    [.node "rsp:Shell".toList [] none (.node "rsp:ShellId".toList [] (some id) [] :: others)]) :
    ∃ pools w, getRunspacePools ⟨[.ok body, .ok (listing [])], []⟩ = (.ok pools, w) ∧ pools.map (·.id) = [some id] ∧
      ∀ p ∈ pools, p.shell.resourceUri = some "http://schemas.microsoft.com/powershell/Microsoft.PowerShell".toList := by
  refine ⟨[foundPool (some id) []], ⟨[], [{ action := .enumerate, uri := some shellUri, resource := some (enumerateBody none) }, commandsOf id]⟩,
    ?_, rfl, ?_⟩
  · unfold getRunspacePools
    simp only [wm_bind, wsInvoke, findAll_eq, List.nil_append, h]
    unfold readPools
    simp only [wm_bind]
    rfl
  · intro p hp
    rw [List.mem_singleton.1 hp]
    show some _ = some _
    decide +kernel

/-- C85 is false before connecting: closing a found pool sends a delete request that names no shell, and asking whether it is alive
sends a question that names none. -/
theorem C85_unnamed_false (id : Option PyStr) (pipelines : List (Option PyStr × FoundPipe)) (timeout : Option Int) (replies : List (Except PyErr Elem)) :
    ∃ r1 r2, ((foundPool id pipelines).close ⟨replies, []⟩).2.sent = [r1] ∧ (getShell (foundPool id pipelines).shell timeout ⟨replies, []⟩).2.sent = [r2] ∧
      ∀ c messageId, Headers (r1.envelope c messageId) c messageId .delete (foundPool id pipelines).shell.resourceUri ∧
        selectorsOf (r1.envelope c messageId) = [] ∧ selectorsOf (r2.envelope c messageId) = [] := by
  refine ⟨(ShellReq.delete (foundPool id pipelines).shell.resourceUri none).toWs, { action := .get, uri := some shellUri, selectors := none, timeout },
    ?_, ?_, fun c messageId => ⟨C75_headers .., (C75_contents ..).2.1, (C75_contents ..).2.1⟩⟩
  · cases replies with
    | nil => rfl
    | cons r rest => cases r <;> rfl
  · cases replies with
    | nil => rfl
    | cons r rest =>
      cases r with
      | error e => rfl
      | ok body =>
        simp only [getShell, wm_bind, wsInvoke]
        cases body.find ["rsp:Shell".toList] <;> rfl

/-- C85 is false of own pipelines whose command got another id from the server: connecting to one names its own id. -/
theorem C85_command_false {p : FoundPool} {x : FoundPipe} {id command : PyStr} (hx : x.id = some id) (_hc : x.commandId = some command) (hne : id ≠ command)
    (hs : x.state = .disconnected) (replies : List (Except PyErr Elem)) :
    ∃ r, (x.connectAsync p ⟨replies, []⟩).2.sent = [r] ∧ ∀ c messageId,
      attrsAt ["s:Body", "rsp:Connect"] "CommandId" (r.envelope c messageId) ≠ [some command] := by
  refine ⟨connectPipeRequest p id, ?_, ?_⟩
  · unfold FoundPipe.connectAsync
    rw [if_neg (by rw [hs]; simp)]
    simp only [hx, wm_bind, wsInvoke]
    cases replies with
    | nil => rfl
    | cons r rest => cases r <;> rfl
  · intro c messageId
    simp only [attrsAt, List.map_cons, List.map_nil, WsReq.envelope, connectPipeRequest]
    rw [body_at]
    intro h
    have : some id = some command := (List.cons.inj h).1
    exact hne (Option.some.inj this)

/-- C85 is false of long listings: the rest of one is never asked for, whatever the server answers. -/
theorem C85_rest_false (replies : List (Except PyErr Elem)) : ∀ r ∈ (getRunspacePools ⟨replies, []⟩).2.sent, r.action = .enumerate := by
  have keep : ∀ (es : List Elem) (w : WsWorld), (∀ r ∈ w.sent, r.action = .enumerate) → ∀ r ∈ (readPools es w).2.sent, r.action = .enumerate := by
    intro es
    induction es with
    | nil => intro w h; exact h
    | cons e es ih =>
      intro w h
      unfold readPools
      simp only [wm_bind, wlift]
      cases childText "rsp:ShellId" e with
      | error err => exact h
      | ok id =>
        simp only [wsInvoke]
        have h' : ∀ q : WsReq, q.action = .enumerate → ∀ r ∈ w.sent ++ [q], r.action = .enumerate := by
          intro q hq r hr
          rcases List.mem_append.1 hr with hr | hr
          · exact h r hr
          · rw [List.mem_singleton.1 hr]; exact hq
        cases w.replies with
        | nil => exact h' _ rfl
        | cons a rest =>
          cases a with
          | error err => exact h' _ rfl
          | ok body =>
            simp only []
            cases readPipelines (body.findAll ["wsen:EnumerateResponse".toList, "wsman:Items".toList, "rsp:Command".toList]) [] with
            | error err => exact h' _ rfl
            | ok d =>
              simp only []
              have := ih ⟨rest, w.sent ++ [{ action := .enumerate, uri := some commandUri, resource := some (enumerateBody (some [("ShellId".toList, pyStrOf id)])) }]⟩ (h' _ rfl)
              split
              · rename_i heq; rw [heq] at this; exact this
              · rename_i heq; rw [heq] at this; exact this
              · rename_i heq; rw [heq] at this; exact this
  unfold getRunspacePools
  simp only [wm_bind, wsInvoke]
  cases replies with
  | nil => intro r hr; rw [List.mem_singleton.1 hr]
  | cons a rest =>
    cases a with
    | error e => intro r hr; rw [List.mem_singleton.1 hr]
    | ok body => exact keep _ _ (by intro r hr; rw [List.mem_singleton.1 hr])

theorem lookup_put {κ α : Type} [DecidableEq κ] [BEq κ] [LawfulBEq κ] (k : κ) (v : α) (l : List (κ × α)) (n : κ) :
    (dictPut k v l).lookup n = if n = k then some v else l.lookup n := by
  induction l with
  | nil =>
    by_cases h : n = k
    · simp [dictPut, List.lookup, h]
    · have hb : (n == k) = false := by simpa using h
      simp [dictPut, List.lookup, h, hb]
  | cons e rest ih =>
    obtain ⟨k', v'⟩ := e
    by_cases hk : k' = k
    · subst hk
      by_cases h : n = k'
      · simp [dictPut, List.lookup_cons, h]
      · have hb : (n == k') = false := by simpa using h
        simp [dictPut, List.lookup_cons, h, hb]
    · by_cases h : n = k
      · subst h
        have hb : (n == k') = false := by simpa using fun h => hk h.symm
        simp [dictPut, hk, List.lookup_cons, hb, ih]
      · simp only [dictPut, if_neg hk, List.lookup_cons, ih, if_neg h]

theorem fields_lookup (name : PyStr) : ∀ (kids : List Elem) (acc : List (PyStr × Option PyStr)), (∀ k ∈ kids, "rsp:".toList <+: k.tag) →
    (shellFields kids acc).lookup name =
      ((kids.filter fun k => k.tag = "rsp:".toList ++ name).getLast?.map Elem.text).or (acc.lookup name) := by
  intro kids
  induction kids with
  | nil => intro acc _; rfl
  | cons k ks ih =>
    intro acc h
    obtain ⟨t, ht⟩ := h k (by simp)
    rw [shellFields, ih _ fun x hx => h x (by simp [hx]), lookup_put, if_pos (List.isPrefixOf_iff_prefix.mpr ⟨t, ht⟩), ← ht,
      show ("rsp:".toList ++ t).drop 4 = t from rfl]
    by_cases hn : name = t
    · subst hn
      rw [if_pos rfl, List.filter_cons_of_pos (by rw [← ht]; exact decide_eq_true rfl)]
      cases hl : (ks.filter fun k => k.tag = "rsp:".toList ++ name) with
      | nil => simp
      | cons a as => simp [List.getLast?_cons]
    · rw [if_neg hn, List.filter_cons_of_neg (by rw [← ht, decide_eq_true_eq]; exact fun hc => hn (List.append_cancel_left hc).symm)]

/-- C85: asking for the state of a connected pool names its shell, and every field of the answer is found under its name. -/
theorem C85_state {s : WinRS} {id : PyStr} (hs : s.selectors = some [("ShellId".toList, id)]) (timeout : Option Int) {answer shell : Elem}
    (ha : elemsAt ["rsp:Shell".toList] answer = [shell]) (hk : ∀ k ∈ shell.kids, "rsp:".toList <+: k.tag) (rest : List (Except PyErr Elem)) :
    ∃ fields r, getShell s timeout ⟨.ok answer :: rest, []⟩ = (.ok fields, ⟨rest, [r]⟩) ∧
      (∀ name : String, fields.lookup name.toList = (textsAt ["rsp:Shell", "rsp:" ++ name] answer).getLast?) ∧
      ∀ c messageId, Headers (r.envelope c messageId) c messageId .get
        (some "http://schemas.microsoft.com/wbem/wsman/1/windows/shell".toList) ∧ NamesShell (r.envelope c messageId) id := by
  refine ⟨shellFields shell.kids [], { action := .get, uri := some shellUri, selectors := s.selectors, timeout }, ?_, ?_,
    fun c messageId => ⟨C75_headers .., ?_⟩⟩
  · simp only [getShell, wm_bind, wsInvoke, find_eq, ha, List.head?_cons]
    rfl
  · intro name
    rw [fields_lookup _ _ _ hk]
    have he : elemsAt ["rsp:Shell".toList, "rsp:".toList ++ name.toList] answer = shell.kids.filter fun k => k.tag = "rsp:".toList ++ name.toList := by
      have h1 : elemsAt ["rsp:Shell".toList] answer = answer.kids.filter fun k => k.tag = "rsp:Shell".toList := by
        rw [elemsAt]
        simp only [elemsAt]
        simp
      rw [elemsAt, ← h1, ha]
      simp [elemsAt]
    simp only [textsAt, List.map_cons, List.map_nil, String.toList_append, he]
    simp [List.getLast?_map]
  · unfold NamesShell
    exact ((C75_contents ..).2.1).trans (by rw [hs]; rfl)

example : let answer : Elem := .node "s:Body".toList [] none [.node "rsp:Shell".toList [] none [
      .node "rsp:ShellId".toList [] (some "A".toList) [], .node "rsp:State".toList [] (some "Connected".toList) []]]
    (elemsAt ["rsp:Shell".toList] answer).length = 1 ∧ textsAt ["rsp:Shell", "rsp:" ++ "State"] answer = [some "Connected".toList] := by
  decide +kernel

end Verif
