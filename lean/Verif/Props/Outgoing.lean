import Verif.Spec.Outgoing
import Verif.Lemmas.FragmentUse
import Verif.Props.Encodings
import Verif.Props.Fragment
import Verif.Props.Namespaces
import Verif.Props.Requests
import Verif.Props.Session
/-
C102: the requests of a pipeline, as a server reads them.
-/
namespace Verif

theorem sends_bind {α β : Type} {x : Except PyErr α} {f : α → Except PyErr β} {b : β} (h : (x >>= f) = .ok b) : ∃ a, x = .ok a ∧ f a = .ok b := by
  cases x with
  | ok a => exact ⟨a, rfl, h⟩
  | error e => cases h

def sendReq (s : WinRS) (cid : Option PyStr) (b : Bytes) : ShellReq := .send s.resourceUri s.selectors "stdin".toList (b64Encode b) cid none

def startReq (s : WinRS) (id : PyStr) (b : Bytes) : ShellReq := .command s.resourceUri s.selectors [] [b64Encode b] false (some id)

/-- What a program sends: some of these requests in their order, all of them if it succeeds. -/
def SendsUpTo (w : ShellWorld) (r : Res α × ShellWorld) (reqs : List ShellReq) : Prop :=
  ∃ new, r.2.sent = w.sent ++ new ∧ r.2.shell = w.shell ∧ new.map (·.1) <+: reqs ∧ ∀ a, r.1 = .ok a → new = reqs.map fun q => (q, true)

theorem wsman_upTo (q : ShellReq) (w : ShellWorld) : SendsUpTo w (wsman q w) [q] := by
  unfold wsman
  cases w.replies with
  | nil => exact ⟨[(q, false)], rfl, rfl, List.prefix_rfl, fun a h => by cases h⟩
  | cons x rest =>
    cases x with
    | error e => exact ⟨[(q, false)], rfl, rfl, List.prefix_rfl, fun a h => by cases h⟩
    | ok b => exact ⟨[(q, true)], rfl, rfl, List.prefix_rfl, fun a _ => rfl⟩

theorem upTo_bind {x : SM α} {f : α → SM β} {w : ShellWorld} {l1 l2 : List ShellReq} (h1 : SendsUpTo w (x w) l1)
    (h2 : ∀ a w1, x w = (.ok a, w1) → w1.shell = w.shell → SendsUpTo w1 (f a w1) l2) : SendsUpTo w ((x >>= f) w) (l1 ++ l2) := by
  obtain ⟨n1, a1, a2, a3, a4⟩ := h1
  rw [sm_bind]
  cases hx : x w with
  | mk r w1 =>
    rw [hx] at a1 a2 a4
    cases r with
    | ok a =>
      obtain ⟨n2, b1, b2, b3, b4⟩ := h2 a w1 hx a2
      have hn := a4 a rfl
      refine ⟨n1 ++ n2, by rw [b1, a1, List.append_assoc], by rw [b2, a2], ?_, fun c hc => ?_⟩
      · rw [List.map_append, hn, List.map_map]
        have : List.map ((fun x => x.1) ∘ fun q => (q, true)) l1 = l1 := List.map_id l1
        rw [this]
        exact (List.prefix_append_right_inj l1).mpr b3
      · rw [b4 c hc, hn, List.map_append]
    | raised e => exact ⟨n1, a1, a2, a3.trans (List.prefix_append ..), fun c hc => by cases hc⟩
    | waiting => exact ⟨n1, a1, a2, a3.trans (List.prefix_append ..), fun c hc => by cases hc⟩

theorem upTo_pure (a : α) (w : ShellWorld) : SendsUpTo w ((pure a : SM α) w) [] := ⟨[], by simp; rfl, rfl, List.prefix_rfl, fun _ _ => rfl⟩

theorem upTo_slift {x : Except PyErr α} (w : ShellWorld) : SendsUpTo w (slift x w) [] := by
  unfold slift
  cases x with
  | ok a => exact ⟨[], by simp, rfl, List.prefix_rfl, fun _ _ => rfl⟩
  | error e => exact ⟨[], by simp, rfl, List.prefix_rfl, fun _ h => by cases h⟩

theorem upTo_send (cid : Option PyStr) (b : Bytes) (w : ShellWorld) : SendsUpTo w (winrsSend "stdin".toList b cid none w) [sendReq w.shell cid b] := by
  have := upTo_bind (x := sget) (f := fun w => wsman (.send w.shell.resourceUri w.shell.selectors "stdin".toList (b64Encode b) cid none)) (w := w) (l1 := [])
    (l2 := [sendReq w.shell cid b]) ⟨[], by simp [sget], rfl, List.prefix_rfl, fun _ _ => rfl⟩ (fun a w1 h _ => by cases h; exact wsman_upTo _ _)
  exact this

theorem upTo_blocks (cid : Option PyStr) (bs : List Bytes) : ∀ w : ShellWorld, SendsUpTo w (sendBlocks cid bs w) (bs.map (sendReq w.shell cid)) := by
  induction bs with
  | nil => intro w; exact upTo_pure _ _
  | cons b bs ih =>
    intro w
    have := upTo_bind (f := fun _ => sendBlocks cid bs) (upTo_send cid b w) (l2 := bs.map (sendReq w.shell cid)) (fun a w1 _ hw => by rw [← hw]; exact ih w1)
    exact this

theorem upTo_inputs (cid : Option PyStr) (inputs : List (List Bytes)) : ∀ (o o' : OutState) (bss : List (List Bytes)) (w : ShellWorld),
    sends o (inputs.map .batch) = .ok (bss, o') → SendsUpTo w (sendInputs o cid inputs w) (bss.flatten.map (sendReq w.shell cid)) ∧
      ∀ a w1, sendInputs o cid inputs w = (.ok a, w1) → a = o' := by
  induction inputs with
  | nil =>
    intro o o' bss w h
    cases h
    exact ⟨upTo_pure _ _, fun a w1 h => by cases h; rfl⟩
  | cons ms rest ih =>
    intro o o' bss w h
    rw [List.map_cons, sends] at h
    obtain ⟨⟨bs, o1⟩, h1, h⟩ := sends_bind h
    obtain ⟨⟨bss2, o2⟩, h2, h⟩ := sends_bind h
    have hh := Except.ok.inj h
    cases hh
    have hf : fragmentMultiple o ms = .ok (bs, o1) := h1
    have key : ∀ w1 : ShellWorld, w1.shell = w.shell → SendsUpTo w1 ((sendBlocks cid bs >>= fun _ => sendInputs o1 cid rest) w1)
        ((bs :: bss2).flatten.map (sendReq w.shell cid)) := by
      intro w1 hw
      rw [List.flatten_cons, List.map_append, ← hw]
      exact upTo_bind (upTo_blocks cid bs w1) (fun a w2 _ hw2 => by rw [← hw2]; exact (ih o1 o' bss2 w2 h2).1)
    constructor
    · have := upTo_bind (x := slift (fragmentMultiple o ms)) (f := fun r => sendBlocks cid r.1 >>= fun _ => sendInputs r.2 cid rest) (w := w)
        (upTo_slift w) (l2 := (bs :: bss2).flatten.map (sendReq w.shell cid)) (fun a w1 ha hw => by
          rw [hf] at ha; cases ha
          exact key w rfl)
      exact this
    · intro a w1 ha
      rw [sendInputs, sm_bind, hf] at ha
      simp only [slift] at ha
      rw [sm_bind] at ha
      cases hb : sendBlocks cid bs w with
      | mk r w2 =>
        rw [hb] at ha
        cases r with
        | ok _ => exact (ih o1 o' bss2 w2 h2).2 a w1 ha
        | raised e => cases ha
        | waiting => cases ha

/-- The requests of a pipeline. -/
theorem upTo_invoke {o o' : OutState} {id : PyStr} {old : Option PyStr} {message : Bytes} {inputs : List (List Bytes)} {bss : List (List Bytes)}
    (h : sends o (.single message :: inputs.map .batch) = .ok (bss, o')) (hne : bss.flatten ≠ []) (hfirst : ∀ bs ∈ bss.head?, bs ≠ []) (w : ShellWorld) :
    ∃ cid first rest, bss.flatten = first :: rest ∧ KnownAs old w.replies cid ∧
      (cid = old ∨ ∃ body e, .ok body ∈ w.replies ∧ e ∈ elemsAt ["rsp:CommandResponse".toList, "rsp:CommandId".toList] body ∧ cid = some (e.text.getD [])) ∧
      SendsUpTo w (invokePipeline o id old message inputs w) (startReq w.shell id first :: rest.map (sendReq w.shell cid)) ∧
      ∀ a w1, invokePipeline o id old message inputs w = (.ok a, w1) → a = (o', cid) := by
  rw [sends] at h
  obtain ⟨⟨bs, o1⟩, h1, h⟩ := sends_bind h
  obtain ⟨⟨bss2, o2⟩, h2, h⟩ := sends_bind h
  cases h
  have hf : fragment o message none = .ok (bs, o1) := h1
  have hbs : bs ≠ [] := hfirst bs rfl
  obtain ⟨first, rest, rfl⟩ := List.exists_cons_of_ne_nil hbs
  have hcmd : winrsCommand [] (some [b64Encode first]) false (some id) w = wsman (startReq w.shell id first) w := rfl
  have tail : ∀ cid (w1 : ShellWorld), w1.shell = w.shell → SendsUpTo w1 ((sendBlocks cid rest >>= fun _ => sendInputs o1 cid inputs >>= fun o => pure (o, cid)) w1)
        ((rest ++ bss2.flatten).map (sendReq w.shell cid)) ∧
      ∀ a w2, (sendBlocks cid rest >>= fun _ => sendInputs o1 cid inputs >>= fun o => (pure (o, cid) : SM (OutState × Option PyStr))) w1 = (.ok a, w2) → a = (o', cid) := by
    intro cid w1 hw
    constructor
    · rw [List.map_append, ← hw]
      refine upTo_bind (upTo_blocks cid rest w1) (fun a w2 _ hw2 => ?_)
      have := upTo_bind (f := fun o => (pure (o, cid) : SM (OutState × Option PyStr))) (upTo_inputs cid inputs o1 o' bss2 w2 h2).1 (l2 := []) (fun a w3 _ _ => upTo_pure _ _)
      rw [List.append_nil, hw2] at this
      exact this
    · intro a w2 ha
      rw [sm_bind] at ha
      cases hb : sendBlocks cid rest w1 with
      | mk r w3 =>
        rw [hb] at ha
        cases r with
        | raised e => cases ha
        | waiting => cases ha
        | ok _ =>
          dsimp only at ha
          rw [sm_bind] at ha
          cases hi : sendInputs o1 cid inputs w3 with
          | mk r w4 =>
            rw [hi] at ha
            cases r with
            | raised e => cases ha
            | waiting => cases ha
            | ok b => cases ha; rw [(upTo_inputs cid inputs o1 o' bss2 w3 h2).2 b _ hi]
  have hrun : ∀ w, invokePipeline o id old message inputs w =
      (winrsCommand [] (some [b64Encode first]) false (some id) >>= fun body => sendBlocks (answeredId old body) rest >>= fun _ =>
        sendInputs o1 (answeredId old body) inputs >>= fun o => pure (o, answeredId old body)) w := by
    intro w
    unfold invokePipeline
    rw [sm_bind, hf]
    rfl
  have hone := wsman_upTo (startReq w.shell id first) w
  have hall : (((first :: rest) :: bss2).flatten) = first :: (rest ++ bss2.flatten) := rfl
  cases hr : w.replies with
  | nil =>
    refine ⟨old, first, _, hall, trivial, .inl rfl, ?_, ?_⟩
    · rw [hrun]
      refine upTo_bind (l1 := [_]) hone (fun a w1 ha => ?_)
      rw [hcmd] at ha
      unfold wsman at ha
      rw [hr] at ha
      cases ha
    · intro a w1 ha
      rw [hrun, sm_bind, hcmd] at ha
      unfold wsman at ha
      rw [hr] at ha
      cases ha
  | cons x xs =>
    cases x with
    | error e =>
      refine ⟨old, first, _, hall, trivial, .inl rfl, ?_, ?_⟩
      · rw [hrun]
        refine upTo_bind (l1 := [_]) hone (fun a w1 ha => ?_)
        rw [hcmd] at ha
        unfold wsman at ha
        rw [hr] at ha
        cases ha
      · intro a w1 ha
        rw [hrun, sm_bind, hcmd] at ha
        unfold wsman at ha
        rw [hr] at ha
        cases ha
    | ok body =>
      refine ⟨answeredId old body, first, _, hall, ?_, ?_, ?_, ?_⟩
      · unfold KnownAs answeredId
        rw [find_eq]
        dsimp only
        cases (elemsAt ["rsp:CommandResponse".toList, "rsp:CommandId".toList] body).head? <;> rfl
      · unfold answeredId
        rw [find_eq]
        cases he : (elemsAt ["rsp:CommandResponse".toList, "rsp:CommandId".toList] body).head? with
        | none => exact .inl rfl
        | some e => exact .inr ⟨body, e, List.mem_cons_self .., List.mem_of_mem_head? he, rfl⟩
      · rw [hrun]
        refine upTo_bind (l1 := [_]) hone (fun a w1 ha hw => ?_)
        rw [hcmd] at ha
        unfold wsman at ha
        rw [hr] at ha
        cases ha
        exact (tail (answeredId old body) { w with replies := xs, sent := w.sent ++ [(startReq w.shell id first, true)] } rfl).1
      · intro a w1 ha
        rw [hrun, sm_bind, hcmd] at ha
        unfold wsman at ha
        rw [hr] at ha
        exact (tail (answeredId old body) { w with replies := xs, sent := w.sent ++ [(startReq w.shell id first, true)] } rfl).2 a w1 ha

/-- What the server reads of a request that starts a pipeline. -/
theorem starts_document (c : Conn) (hc : c.Clean) (u v : UUID) (hs : c.sessionId = v.toStr) (s : WinRS) (huri : ∀ t ∈ s.resourceUri, CleanText t)
    (hsel : CleanSelectors s.selectors) (id : PyStr) (hid : LegalText id) (b : Bytes) :
    StartsWith (printDocument ((startReq s id b).envelope c u.toStr)) c u s id b := by
  refine ⟨_, ⟨C100_request c hc u v hs (startReq s id b) ⟨huri, hsel, (by intro x hx; cases hx), ?_, ?_⟩, C75_headers .., (C75_contents ..).2.1⟩, ?_, ?_, ?_, (C75_contents ..).1⟩
  · intro a ha
    rw [List.mem_singleton.1 ha]
    exact clean_of_plain (plain_b64 b)
  · intro t ht; cases ht; exact hid
  all_goals
    simp only [textsAt, attrsAt, List.map_cons, List.map_nil, startReq, ShellReq.envelope, ShellReq.body]
    rw [body_at]
  · rfl
  · rw [← C99_base64]; rfl
  · rfl

/-- What the server reads of a request with more bytes. -/
theorem continues_document (c : Conn) (hc : c.Clean) (u v : UUID) (hs : c.sessionId = v.toStr) (s : WinRS) (huri : ∀ t ∈ s.resourceUri, CleanText t)
    (hsel : CleanSelectors s.selectors) (cid : Option PyStr) (hid : ∀ t ∈ cid, LegalText t) (b : Bytes) :
    Continues (printDocument ((sendReq s cid b).envelope c u.toStr)) c u s cid b := by
  refine ⟨_, ⟨C100_request c hc u v hs (sendReq s cid b) ⟨huri, hsel, by decide, clean_of_plain (plain_b64 b), hid⟩, C75_headers .., (C75_contents ..).2.1⟩, ?_, ?_, ?_, ?_⟩
  all_goals
    simp only [textsAt, attrsAt, List.map_cons, List.map_nil, sendReq, ShellReq.envelope, ShellReq.body]
    rw [body_at]
  · rw [← C99_base64]; rfl
  · rfl
  · cases cid <;> rfl
  · cases cid <;> rfl

/-- C102: whatever the server answers, the requests that start and feed a pipeline are documents from which a server reads the fragments of the message that
starts it and of those of its input, in their order. If the program ends without an error, all of them were sent and answered. -/
theorem C102_pipeline (o : OutState) (hsize : 0 < o.maxSize) (c : Conn) (hc : c.Clean) (v : UUID) (hs : c.sessionId = v.toStr) (w : ShellWorld)
    (huri : ∀ t ∈ w.shell.resourceUri, CleanText t) (hsel : CleanSelectors w.shell.selectors) (id : PyStr) (hid : LegalText id) (old : Option PyStr)
    (hold : ∀ t ∈ old, LegalText t)
    (hanswers : ∀ body, .ok body ∈ w.replies → ∀ e ∈ elemsAt ["rsp:CommandResponse".toList, "rsp:CommandId".toList] body, ∀ t ∈ e.text, LegalText t)
    (message : Bytes) (inputs : List (List Bytes)) (hmsg : ∀ m ∈ message :: inputs.flatten, m ≠ [] ∧ m.length < 2 ^ 32)
    (hcount : o.counter + (message :: inputs.flatten).length ≤ 2 ^ 64) :
    ∃ fss first rest commandId, ∃ new : List (ShellReq × Bool),
      FragmentsOf o.counter (message :: inputs.flatten) fss ∧ ParsesAll (first :: rest) fss.flatten ∧ KnownAs old w.replies commandId ∧
      (invokePipeline o id old message inputs w).2.sent = w.sent ++ new ∧
      (∀ r ∈ new.head?, ∀ u : UUID, StartsWith (printDocument (r.1.envelope c u.toStr)) c u w.shell id first) ∧
      (∀ (i : Nat) (r : ShellReq × Bool), new.tail[i]? = some r → ∀ u : UUID, ∃ b ∈ rest[i]?, Continues (printDocument (r.1.envelope c u.toStr)) c u w.shell commandId b) ∧
      ∀ a, (invokePipeline o id old message inputs w).1 = .ok a →
        a.2 = commandId ∧ a.1.counter = o.counter + (message :: inputs.flatten).length ∧ a.1.maxSize = o.maxSize ∧
        new.length = (first :: rest).length ∧ ∀ r ∈ new, r.2 = true := by
  have hmsgs : (Send.single message :: inputs.map Send.batch).flatMap Send.messages = message :: inputs.flatten := by
    rw [List.flatMap_cons, List.flatMap_map]
    show message :: _ = _
    rw [List.flatten_eq_flatMap]
    rfl
  have hm : ∀ s ∈ Send.single message :: inputs.map Send.batch, ∀ m ∈ s.messages, m ≠ [] ∧ m.length < 2 ^ 32 := by
    intro s hs m hm
    exact hmsg m (by rw [← hmsgs]; exact List.mem_flatMap.2 ⟨s, hs, hm⟩)
  obtain ⟨bss, o', h, ho1, ho', fss, hf, hp⟩ := C03_well_formed o (.single message :: inputs.map .batch) hsize hm (by rw [hmsgs]; exact hcount)
  rw [hmsgs] at hf ho1
  have hfirst : ∀ bs ∈ bss.head?, bs ≠ [] := by
    intro bs hbs he
    subst he
    rw [sends] at h
    obtain ⟨⟨bs, o1⟩, h1, h⟩ := sends_bind h
    obtain ⟨⟨bss2, o2⟩, h2, h⟩ := sends_bind h
    cases h
    cases hbs
    have h1 : (Send.single message).run o = .ok ([], o1) := h1
    have one : sends o [.single message] = .ok ([[]], o1) := by rw [sends, h1]; rfl
    obtain ⟨_, bfs, gss, g1, _, g3, g4, _⟩ := sends_ok hsize (fun s hs m hm' => (hm s (by
      rw [List.mem_singleton.1 hs]; exact List.mem_cons_self ..) m hm').1) one
    have : bfs = [] := by simpa using g1.symm
    subst this
    have g4 : FragmentsOf o.counter [message] gss := g4
    cases gss with
    | nil => exact g4
    | cons fs gss =>
      have hfs : fs = [] := by
        rw [List.flatten_cons] at g3
        exact (List.append_eq_nil_iff.1 g3.symm).1
      subst hfs
      exact absurd rfl (g4.1).nonempty
  have hne : bss.flatten ≠ [] := by
    rw [sends] at h
    obtain ⟨⟨bs, o1⟩, h1, h⟩ := sends_bind h
    obtain ⟨⟨bss2, o2⟩, h2, h⟩ := sends_bind h
    cases h
    have := hfirst bs rfl
    rw [List.flatten_cons]
    exact fun h => this (List.append_eq_nil_iff.1 h).1
  obtain ⟨cid, first, rest, e1, known, origin, ⟨new, n1, _, n3, n4⟩, hend⟩ := upTo_invoke (id := id) (old := old) h hne hfirst w
  have hcid : ∀ t ∈ cid, LegalText t := by
    rcases origin with rfl | ⟨body, e, hb, he, rfl⟩
    · exact hold
    · intro t ht
      cases ht
      cases het : e.text with
      | none => intro x hx; cases hx
      | some t => exact hanswers body hb e he t het
  refine ⟨fss, first, rest, cid, new, hf, by rw [← e1]; exact hp, known, n1, ?_, ?_, ?_⟩
  · intro r hr u
    cases new with
    | nil => cases hr
    | cons x xs =>
      cases hr
      have : r.1 = startReq w.shell id first := by
        rw [List.map_cons, List.cons_prefix_cons] at n3
        exact n3.1
      rw [this]
      exact starts_document c hc u v hs w.shell huri hsel id hid first
  · intro i r hr u
    cases new with
    | nil => cases hr
    | cons x xs =>
      rw [List.map_cons, List.cons_prefix_cons] at n3
      obtain ⟨t, ht⟩ := n3.2
      have hx : (rest.map (sendReq w.shell cid))[i]? = some r.1 := by
        rw [← ht, List.getElem?_append_left, List.getElem?_map]
        · rw [List.tail_cons] at hr; rw [hr]; rfl
        · rw [List.length_map]; exact (List.getElem?_eq_some_iff.1 hr).1
      rw [List.getElem?_map] at hx
      cases hb : rest[i]? with
      | none => rw [hb] at hx; cases hx
      | some b =>
        rw [hb] at hx
        refine ⟨b, rfl, ?_⟩
        rw [← Option.some.inj hx]
        exact continues_document c hc u v hs w.shell huri hsel cid hcid b
  · intro a ha
    have := hend a _ (Prod.ext ha rfl)
    subst this
    have hn := n4 _ ha
    refine ⟨rfl, ho1, ho', by rw [hn]; simp, fun r hr => ?_⟩
    rw [hn] at hr
    obtain ⟨q, _, rfl⟩ := List.mem_map.1 hr
    rfl

theorem normalKids_map (ks : List Elem) : normalKids ks = ks.map Elem.normal := by
  induction ks with
  | nil => rfl
  | cons k ks ih => rw [normalKids, ih]; rfl

theorem normal_tag (e : Elem) : e.normal.tag = e.tag := by cases e; rw [Elem.normal]; rfl

theorem document_at (header : Elem) (hh : header.tag ≠ "s:Body".toList) (root tag : PyStr) (attrs : List (PyStr × PyStr)) (text : Option PyStr)
    (kids : List Elem) (ts : List PyStr) :
    elemsAt ("s:Body".toList :: tag :: ts) (.node root [] none [header, .node "s:Body".toList [] none [.node tag attrs text kids]]) =
      elemsAt ts (.node tag attrs text kids) := by
  rw [elemsAt, Elem.kids, List.filter_cons_of_neg (by rw [decide_eq_true_eq]; exact hh), List.filter_cons_of_pos (by rw [Elem.tag, decide_eq_true_eq]),
    List.filter_nil, List.flatMap_cons, List.flatMap_nil, List.append_nil, elemsAt, Elem.kids,
    List.filter_cons_of_pos (by rw [decide_eq_true_eq]; rfl), List.filter_nil, List.flatMap_cons, List.flatMap_nil, List.append_nil]

/-- No other element of a new shell has the name of the one with the messages. -/
theorem create_other (s : WinRS) : ∀ k ∈ (createBody s).kids, k.tag ≠ "pwsh:creationXml".toList := by
  have opt : ∀ (tag : String) (v : Option PyStr), tag.toList ≠ "pwsh:creationXml".toList → ∀ k ∈ optElem tag v, k.tag ≠ "pwsh:creationXml".toList := by
    intro tag v ht k hk
    cases v with
    | none => cases hk
    | some t => rw [optElem, List.mem_singleton] at hk; subst hk; exact ht
  unfold createBody
  simp only [Elem.kids]
  intro k hk
  simp only [List.mem_append, List.mem_cons, List.not_mem_nil, or_false] at hk
  rcases hk with (((((hk | hk) | hk) | hk) | hk) | hk) | hk
  · subst hk; show "rsp:InputStreams".toList ≠ _; decide
  · subst hk; show "rsp:OutputStreams".toList ≠ _; decide
  · cases hs : s.environment with
    | none => rw [hs] at hk; cases hk
    | some env =>
      rw [hs, environmentElem, List.mem_singleton] at hk
      subst hk
      show "rsp:Environment".toList ≠ _
      decide
  all_goals exact opt _ _ (by decide) k hk

/-- C102, partial: the request that opens a pool is a document from which a server reads the fragments of the two messages that open it. Missing: messages
that do not fit the first block, whose rest is never sent (`C09_open_loses_data_false`). -/
theorem C102_open_partial (M : Int) (cap init : Bytes) (hfit : (cap.length : Int) + 21 + init.length ≤ M - 21) (hinit : init ≠ []) (hM : M < 2 ^ 32)
    (c : Conn) (hc : c.Clean) (v : UUID) (hs : c.sessionId = v.toStr) (s : WinRS) (h : s.Clean) (hu : ∀ t ∈ s.resourceUri, CleanText t) :
    ∃ sent o' fss, openBlocks (OutState.init M) cap init = .ok (sent, [], o') ∧ FragmentsOf 1 [cap, init] fss ∧ ParsesAll [sent] fss.flatten ∧
      ∀ u : UUID, ∃ e, DocumentOf (printDocument (poolCreateEnvelope c u.toStr s sent)) e ∧
        textsAt ["s:Body", "rsp:Shell", "pwsh:creationXml"] e = [some (base64Of sent)] ∧
        attrsAt ["s:Body", "rsp:Shell"] "ShellId" e = [s.id] := by
  have hpos := List.length_pos_iff.mpr hinit
  obtain ⟨rest, h1, h2⟩ := openBlocks_eq (o := OutState.init M) (cap := cap) (init := init)
    (by simp only [OutState.init]; omega) (by simp only [OutState.init]; omega) (by omega) (by omega)
  have hrest : rest = [] := h2.mpr (by simp only [OutState.init]; omega)
  subst hrest
  have htake : init.take ((OutState.init M).maxSize - cap.length - 21).toNat = init := List.take_of_length_le (by simp only [OutState.init]; omega)
  have hdec : decide (init.length ≤ ((OutState.init M).maxSize - cap.length - 21).toNat) = true := decide_eq_true (by simp only [OutState.init]; omega)
  rw [htake, hdec] at h1
  refine ⟨_, _, [[⟨1, 0, cap, true, true⟩], [⟨2, 0, init, true, true⟩]], h1, ?_, ?_, fun u => ?_⟩
  · refine ⟨⟨by simp, ?_, rfl, rfl, rfl, by simp [payload]⟩, ⟨by simp, ?_, rfl, rfl, rfl, by simp [payload]⟩, trivial⟩
    · intro f hf; rw [List.mem_singleton.1 hf]
    · intro f hf; rw [List.mem_singleton.1 hf]
  · have hw : ∀ fs : List Fragment, (∀ f ∈ fs, f.Fits) → ParsesAll [wires fs] fs := fun fs hfs => by
      have := ParsesAll.cons (parses_wires hfs) .nil
      rwa [List.append_nil] at this
    refine hw [⟨1, 0, cap, true, true⟩, ⟨2, 0, init, true, true⟩] ?_
    intro f hf
    rcases List.mem_cons.1 hf with rfl | hf
    · refine ⟨?_, ?_, ?_⟩ <;> simp only [OutState.init] <;> omega
    · rw [List.mem_singleton.1 hf]
      refine ⟨?_, ?_, ?_⟩ <;> simp only [OutState.init] <;> omega
  · generalize hb : wires _ = block
    have hne : b64Encode block ≠ [] := by
      intro hn
      have := b64Decode_encode block
      rw [hn] at this
      have hbl : block = [] := by cases this; rfl
      rw [hbl] at hb
      simp [wires] at hb
      exact absurd hb.1 (Fragment.wire_ne_nil _)
    obtain ⟨header, hd, hhd⟩ := C100_create c hc u v hs s h hu block
    have ht : header.tag ≠ "s:Body".toList := by
      rw [hhd, normal_tag]
      show "s:Header".toList ≠ _
      decide
    have hx : textOf (b64Encode block) = some (base64Of block) := by rw [textOf, if_neg hne, C99_base64]
    refine ⟨_, hd, ?_, ?_⟩
    · simp only [textsAt, List.map_cons, List.map_nil, hx]
      rw [document_at _ ht, elemsAt, Elem.kids, List.filter_append, List.filter_eq_nil_iff.2]
      · rfl
      · intro k hk
        rw [normalKids_map] at hk
        obtain ⟨k', hk', rfl⟩ := List.mem_map.1 hk
        rw [normal_tag, decide_eq_true_eq]
        exact create_other s k' hk'
    · simp only [attrsAt, List.map_cons, List.map_nil]
      rw [document_at _ ht]
      show [(Elem.node _ (createBody s).attrs _ _).attr "ShellId".toList] = [s.id]
      unfold createBody
      cases s.id <;> rfl

/-- A connection, a shell and a server that gives a pipeline its id, for the examples. -/
def outConn : Conn := { endpoint := "http://server:5985/wsman".toList, sessionId := UUID.toStr ⟨List.replicate 16 7, rfl⟩ }

theorem outConn_clean : outConn.Clean := by constructor <;> decide +kernel

def outWorld : ShellWorld :=
  { shell := { resourceUri := some "http://schemas.microsoft.com/powershell/Microsoft.PowerShell".toList, selectors := some [("ShellId".toList, "7".toList)] },
    replies := [.ok (.node "s:Body".toList [] none [.node "rsp:CommandResponse".toList [] none [.node "rsp:CommandId".toList [] (some "42".toList) []]]),
      .ok (.node "s:Body".toList [] none []), .ok (.node "s:Body".toList [] none []), .ok (.node "s:Body".toList [] none [])] }

theorem outWorld_answers : ∀ body, .ok body ∈ outWorld.replies → ∀ e ∈ elemsAt ["rsp:CommandResponse".toList, "rsp:CommandId".toList] body,
    ∀ t ∈ e.text, LegalText t := by
  intro body hb
  simp only [outWorld, List.mem_cons, List.not_mem_nil, or_false, Except.ok.injEq] at hb
  rcases hb with rfl | rfl | rfl | rfl <;> decide +kernel

example : KnownAs none outWorld.replies (some "42".toList) := rfl

def outRun := invokePipeline ⟨1, 22⟩ "id".toList none (List.replicate 30 5) [[[1]], [[4]]] outWorld

/-- Four requests, all answered. -/
example : outRun.2.sent.map (·.2) = [true, true, true, true] ∧ ∃ o, outRun.1 = .ok (o, some "42".toList) ∧ o.counter = 4 := by
  refine ⟨by decide +kernel, ?_⟩
  have h : (match outRun.1 with
    | .ok a => a.2 = some "42".toList && a.1.counter = 4
    | .raised _ => false
    | .waiting => false) = true := by decide +kernel
  cases hr : outRun.1 with
  | ok a =>
    rw [hr, Bool.and_eq_true, decide_eq_true_eq, decide_eq_true_eq] at h
    exact ⟨a.1, by rw [← h.1], h.2⟩
  | raised e => rw [hr] at h; cases h
  | waiting => rw [hr] at h; cases h

/-- The hypotheses of `C102_pipeline`. -/
example := C102_pipeline ⟨1, 22⟩ (by decide) outConn outConn_clean _ rfl outWorld (by decide +kernel) (by
    intro l hl; cases hl; decide +kernel) "id".toList (by decide +kernel) none (by decide) outWorld_answers (List.replicate 30 5) [[[1]], [[4]]]
    (by decide +kernel) (by decide +kernel)

/-- The hypotheses of `C102_open_partial`. -/
example := C102_open_partial 100 [1, 2] [3, 4, 5] (by decide) (by decide) (by decide) outConn outConn_clean _ rfl
  { resourceUri := some "http://schemas.microsoft.com/powershell/Microsoft.PowerShell".toList, id := some "7".toList }
  (by constructor <;> decide +kernel) (by decide +kernel)

end Verif
