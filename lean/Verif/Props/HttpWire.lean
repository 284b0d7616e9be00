import Verif.Spec.HttpWire
import Verif.Props.Namespaces
import Verif.Props.PoolWire
/-
C101: the messages of a server over HTTP.
-/
namespace Verif

/-- A response to a message, and the state afterwards. -/
theorem sendLoop_exchange {env : TransportEnv} {cfg : TransportCfg} {message : Bytes} {w : TWorld} {r : HttpResponse} {text : Bytes}
    {rest : List NetOutcome} {n : Nat} (hready : ReadyFor env cfg message w) (hr : Receives env cfg w r text) (hp : r.status ≠ 401)
    (hout : w.outcomes = .response r :: rest) (hn : Uses cfg r n) (left : Nat) :
    ∃ w', sendLoop env cfg message left w =
        (if 400 ≤ r.status ∧ r.status < 600 then .raised (.http r.status text) else .ok text, w') ∧
      w'.outcomes = rest ∧ w'.encryption = w.encryption ∧ w'.sealCalls = w.sealCalls + n := by
  have hpay : ∃ body w1, requestPayload env cfg message w = (.ok body, w1) ∧ w1.outcomes = w.outcomes ∧ w1.encryption = w.encryption ∧
      w1.sealCalls = w.sealCalls + (if cfg.wrapRequired then 1 else 0) := by
    unfold requestPayload
    rcases hready with hw | ⟨c, p, rr, he, hm⟩
    · rw [if_neg (by simp [hw])]
      exact ⟨message, w, rfl, rfl, rfl, by simp [hw]⟩
    · by_cases hw : cfg.wrapRequired = true
      · rw [if_pos hw, tbind_run]
        simp only [tget, he, tbind_run, tmodify, tlift, hm]
        obtain ⟨ct, b⟩ := rr
        exact ⟨b, _, rfl, rfl, rfl, by simp [hw]⟩
      · rw [if_neg hw]
        exact ⟨message, w, rfl, rfl, rfl, by simp [hw]⟩
  obtain ⟨body, w1, hb, hb1, hb2, hb3⟩ := hpay
  have hsend : ∃ w2, sessionSend env cfg (some body) w1 = (.ok r, w2) ∧ w2.encryption = w1.encryption ∧ w2.sealCalls = w1.sealCalls ∧
      w2.outcomes = rest := by
    have ha : adapterSend env cfg (some body) none w1 = (.ok r, { w1 with outcomes := rest, log := w1.log ++ [⟨some body, none, some (.response r)⟩] }) := by
      unfold adapterSend
      rw [hb1, hout]
      simp [adapterLoop, hr.final]
    unfold sessionSend
    rw [tbind_run, ha]
    cases hcp : cfg.provider with
    | none => exact ⟨_, rfl, rfl, rfl, rfl⟩
    | some provider =>
      dsimp only
      rw [if_neg hp]
      exact ⟨_, rfl, rfl, rfl, rfl⟩
  obtain ⟨w2, hs, hs1, hs2, hs3⟩ := hsend
  have hcontent : ∃ w3, responseContent env r w2 = (.ok text, w3) ∧ w3.outcomes = rest ∧ w3.encryption = w.encryption ∧
      w3.sealCalls = w.sealCalls + n := by
    obtain ⟨s, hn, hsn⟩ := hn
    unfold responseContent
    rcases hr.content with ⟨hns, ht⟩ | ⟨hsd, hw, c, p, b, he, hf, hu, hd⟩
    · rw [if_neg (by rw [sealed_iff]; exact hns), ht]
      have hs0 : s = 0 := by
        rcases hsn with ⟨h, _⟩ | ⟨_, h⟩
        · exact absurd h hns
        · exact h
      exact ⟨w2, rfl, hs3, by rw [hs1, hb2], by rw [hs2, hb3, hn, hs0]; rfl⟩
    · rw [if_pos (by rw [sealed_iff]; exact hsd), (findBoundary_iff _ _).2 hf]
      dsimp only
      rw [tbind_run]
      have hs1' : s = 1 := by
        rcases hsn with ⟨_, h⟩ | ⟨h, _⟩
        · exact h
        · exact absurd hsd h
      have he2 : w2.encryption = some (c, p) := by rw [hs1, hb2, he]
      have hk : w2.sealCalls = w.sealCalls + 1 := by rw [hs2, hb3, if_pos hw]
      simp only [tget, he2, tbind_run, tmodify, tlift, hk, hu, hd, if_true]
      exact ⟨_, rfl, hs3, he.symm, by rw [hn, hs1', if_pos hw]⟩
  obtain ⟨w3, hc, hc1, hc2, hc3⟩ := hcontent
  have hreq : sendRequest env cfg (some body) w1 =
      (if 400 ≤ r.status ∧ r.status < 600 then .raised (.http r.status text) else .ok text, w3) := by
    unfold sendRequest
    rw [tbind_run, hs]
    dsimp only
    rw [tbind_run, hc]
    dsimp only
    split
    · rfl
    · rfl
  have hround : ∀ last, sendRound env cfg message last w =
      (if 400 ≤ r.status ∧ r.status < 600 then .raised (.http r.status text) else .ok (some text), w3) := by
    intro last
    have hd : ¬ (cfg.wrapRequired = true ∧ w.encryption = none) := by
      rintro ⟨h1, h2⟩
      rcases hready with h | ⟨c, p, rr, he, -⟩
      · rw [h1] at h; cases h
      · rw [h2] at he; cases he
    rw [sendRound_direct hd]
    unfold sendSealed
    rw [tbind_run, hb]
    dsimp only
    rw [tbind_run]
    unfold unlessTimeout
    rw [hreq]
    by_cases h1 : 400 ≤ r.status ∧ r.status < 600
    · simp [h1, isTimeout]
    · simp only [h1, if_false]
      rfl
  refine ⟨w3, ?_, hc1, hc2, hc3⟩
  cases left with
  | zero =>
    unfold sendLoop
    rw [tbind_run, hround true]
    by_cases h1 : 400 ≤ r.status ∧ r.status < 600
    · simp [h1]
    · simp only [h1, if_false]
      rfl
  | succ left =>
    unfold sendLoop
    rw [tbind_run, hround false]
    by_cases h1 : 400 ≤ r.status ∧ r.status < 600
    · simp [h1]
    · simp only [h1, if_false]
      rfl

/-- The answers that the pool sees. -/
inductive Seen : List WireReply → List (Option Int) → Prop
  | nil : Seen [] []
  | data {body rs cs} : Seen rs cs → Seen ({ body := some body } :: rs) (none :: cs)
  | fault {code rs cs} : Seen rs cs → Seen ({ error := some (.wsManFault (some code)) } :: rs) (some code :: cs)

theorem httpReceives_exchanges {env : TransportEnv} (henv : env.parse = parseWsman) {cfg : TransportCfg} {enc : Option (Nat × SealProtocol)} {k : Nat}
    {os : List NetOutcome} {qs : List (PyStr × Bytes)} {gs : List (List Fragment)} {cs : List (Option Int)} (h : Exchanges env cfg enc k os qs gs cs) :
    ∀ w : TWorld, w.outcomes = os → w.encryption = enc → w.sealCalls = k →
      Bring (httpReceives env cfg qs w) gs ∧ Seen (httpReceives env cfg qs w) cs := by
  induction h with
  | nil => intro w _ _ _; exact ⟨.nil, .nil⟩
  | @data k os id message r text x body fs n qs gs cs hready hr hst hdoc hid hbody hbr hn _ ih =>
    intro w h1 h2 h3
    have hready' : ReadyFor env cfg message w := by
      unfold ReadyFor at hready ⊢
      rw [h2, h3]; exact hready
    have hr' : Receives env cfg w r (utf8 text) := ⟨⟨os, h1⟩, hr.final, by rw [h2, h3]; exact hr.content⟩
    obtain ⟨w', hw, e1, e2, e3⟩ := sendLoop_exchange hready' hr' (by omega) h1 hn WSManAction.receive.readRetries
    rw [if_neg hst] at hw
    have hrec : httpReceive env cfg id message w = (some { body := some body }, w') := by
      unfold httpReceive wsmanInvoke
      rw [hw]
      dsimp only
      rw [henv, C100_prefixes hdoc]
      dsimp only
      rw [if_neg (by simpa using (relatesTo_iff x id).mpr hid)]
      dsimp only
      rw [find_eq, hbody]
    obtain ⟨i1, i2⟩ := ih w' e1 (by rw [e2, h2]) (by rw [e3, h3])
    rw [httpReceives, hrec]
    exact ⟨.data rfl rfl hbr i1, .data i2⟩
  | @fault k os id message r text header p code n qs gs cs hready hr h400 h600 h401 hdoc hn _ ih =>
    intro w h1 h2 h3
    have hready' : ReadyFor env cfg message w := by
      unfold ReadyFor at hready ⊢
      rw [h2, h3]; exact hready
    have hr' : Receives env cfg w r (utf8 text) := ⟨⟨os, h1⟩, hr.final, by rw [h2, h3]; exact hr.content⟩
    obtain ⟨w', hw, e1, e2, e3⟩ := sendLoop_exchange hready' hr' h401 h1 hn WSManAction.receive.readRetries
    rw [if_pos ⟨h400, h600⟩] at hw
    have hrec : httpReceive env cfg id message w = (some { error := some (.wsManFault (some code)) }, w') := by
      unfold httpReceive wsmanInvoke
      rw [hw]
      dsimp only
      rw [henv, C100_prefixes hdoc]
      dsimp only
      rw [parseFault_detail, faultCode, pyInt_pyStrInt]
      rfl
    obtain ⟨i1, i2⟩ := ih w' e1 (by rw [e2, h2]) (by rw [e3, h3])
    rw [httpReceives, hrec]
    exact ⟨.other (.inl rfl) i1, .fault i2⟩

theorem tells_seen {msg : Nat → SrvMsg} {rs : List WireReply} {cs : List (Option Int)} (h : Seen rs cs) : ∀ {gs : List (List Fragment)}, Bring rs gs →
    List.zipWith (WireReply.tells msg) rs gs = List.zipWith (seenOf msg) cs gs := by
  induction h with
  | nil => intro gs hb; cases hb; rfl
  | data _ ih =>
    intro gs hb
    cases hb with
    | data _ _ _ hb => rw [List.zipWith_cons_cons, List.zipWith_cons_cons, ih hb]; rfl
    | other hn => simp at hn
  | fault _ ih =>
    intro gs hb
    cases hb with
    | data he _ _ _ => cases he
    | other _ hb => rw [List.zipWith_cons_cons, List.zipWith_cons_cons, ih hb]; rfl

/-- C101: the messages of a server over HTTP. The requests are sealed or not, the responses are sealed or not, the documents have any prefixes
and declarations, faults are among them; the pool sees the codes of the faults and, in order, the messages that the fragments in the documents make. -/
theorem C101_replies {env : TransportEnv} (henv : env.parse = parseWsman) {cfg : TransportCfg} {enc : Option (Nat × SealProtocol)} {k : Nat}
    {os : List NetOutcome} {qs : List (PyStr × Bytes)} {gs : List (List Fragment)} {cs : List (Option Int)} (h : Exchanges env cfg enc k os qs gs cs)
    {rd : Reader} {msg : Nat → SrvMsg} (hs : Sends rd msg gs.flatten) :
    onWire rd noBuffers (httpReceives env cfg qs (between enc k os)) = List.zipWith (seenOf msg) cs gs ∧
    received (onWire rd noBuffers (httpReceives env cfg qs (between enc k os))) = completes msg gs.flatten := by
  obtain ⟨h1, h2⟩ := httpReceives_exchanges henv h (between enc k os) rfl rfl rfl
  obtain ⟨h3, h4⟩ := C92_replies h1 hs
  exact ⟨by rw [h3, tells_seen h2 h1], h4⟩

theorem seen_errors {P : Option Int → Prop} {rs : List WireReply} {cs : List (Option Int)} (h : Seen rs cs) (hp : ∀ c ∈ cs, P c) :
    ∀ r ∈ rs, ∃ c, P c ∧ r.error = c.map fun c => .wsManFault (some c) := by
  induction h with
  | nil => intro r hr; cases hr
  | data _ ih =>
    intro r hr
    rcases List.mem_cons.1 hr with rfl | hr
    · exact ⟨none, hp _ (List.mem_cons_self ..), rfl⟩
    · exact ih (fun c hc => hp c (List.mem_cons_of_mem _ hc)) r hr
  | fault _ ih =>
    intro r hr
    rcases List.mem_cons.1 hr with rfl | hr
    · exact ⟨some _, hp _ (List.mem_cons_self ..), rfl⟩
    · exact ih (fun c hc => hp c (List.mem_cons_of_mem _ hc)) r hr

theorem seen_length {rs : List WireReply} {cs : List (Option Int)} (h : Seen rs cs) : rs.length = cs.length := by
  induction h with
  | nil => rfl
  | data _ ih => simp [ih]
  | fault _ ih => simp [ih]

theorem exchanges_length {env : TransportEnv} {cfg : TransportCfg} {enc : Option (Nat × SealProtocol)} {k : Nat}
    {os : List NetOutcome} {qs : List (PyStr × Bytes)} {gs : List (List Fragment)} {cs : List (Option Int)} (h : Exchanges env cfg enc k os qs gs cs) :
    cs.length = qs.length := by
  induction h with
  | nil => rfl
  | data _ _ _ _ _ _ _ _ _ ih => simp [ih]
  | fault _ _ _ _ _ _ _ _ ih => simp [ih]

/-- C101: `execute_ps` over HTTP. The results are the messages of the server. They do not depend on how they are cut into fragments and mixed, on how
the fragments are distributed over the answers, on sealing, on prefixes, and on polls without output, which are faults. -/
theorem C101_execute (mn mx : Int) (clock : List Bool) (environment : Nat) {env : TransportEnv} (henv : env.parse = parseWsman) {cfg : TransportCfg}
    {enc : Option (Nat × SealProtocol)} {k1 k2 : Nat} {os1 os2 : List NetOutcome} {qs1 qs2 : List (PyStr × Bytes)} {go gr : List (List Fragment)}
    {c1 c2 : List (Option Int)} (hopen : Exchanges env cfg enc k1 os1 qs1 go c1) (hrun : Exchanges env cfg enc k2 os2 qs2 gr c2)
    (hc1 : ∀ c ∈ c1, c = none) (hc2 : ∀ c ∈ c2, c = none ∨ c = some 2150858793)
    {rd : Reader} {msg : Nat → SrvMsg} {r0 rc rx : WireReply} {pre body : List SrvMsg} {s : PipeState} {e : Option Obj}
    (h0 : r0.error = none ∧ r0.body = none) (hc : rc.error = none ∧ rc.body = none) (hx : rx.error = none ∧ rx.body = none)
    (hs : Sends rd msg (go.flatten ++ gr.flatten)) (mo : completes msg go.flatten = pre ++ [.poolState 2]) (eo : EndsMessage go)
    (hpre : ∀ m ∈ pre, m.Routine) (mr : completes msg gr.flatten = body ++ [.pipelineState s e]) (er : EndsMessage gr) (hbody : ∀ m ∈ body, m.Routine)
    (hs1 : s ≠ 1) :
    ∃ st w', runScript environment (.start mn mx none clock (onWire rd noBuffers (r0 :: (httpReceives env cfg qs1 (between enc k1 os1) ++
        rc :: (httpReceives env cfg qs2 (between enc k2 os2) ++ [rx]))))) = (.ok (body.filterMap SrvMsg.outputObj, st, s == 5), w') ∧
      (∀ k, st.get k = (body ++ [SrvMsg.pipelineState s e]).filterMap (SrvMsg.record k)) ∧
      requests w'.sent = [.create [.sessionCapability, .initPool mn mx]] ++ List.replicate qs1.length (.receive none) ++
        [.command 0 (.createPipeline true)] ++ List.replicate qs2.length (.receive (rc.command.map .server)) ++ [.delete] ∧
      w'.pool.state = PoolState.closed ∧ w'.pool.shellOpened = false := by
  obtain ⟨bo, so⟩ := httpReceives_exchanges henv hopen (between enc k1 os1) rfl rfl rfl
  obtain ⟨br, sr⟩ := httpReceives_exchanges henv hrun (between enc k2 os2) rfl rfl rfl
  have := C92_execute mn mx clock environment (rest := []) (gx := []) h0 hc hx bo br .nil (by simpa using hs)
    (by
      intro r hr
      obtain ⟨c, h1, h2⟩ := seen_errors (P := fun c => c = none) so hc1 r hr
      rw [h2, h1]; rfl) mo eo hpre
    (by
      intro r hr
      obtain ⟨c, h1, h2⟩ := seen_errors (P := fun c => c = none ∨ c = some 2150858793) sr hc2 r hr
      rcases h1 with h1 | h1
      · left; rw [h2, h1]; rfl
      · right; rw [h2, h1]; rfl) mr er hbody hs1
  rw [seen_length so, seen_length sr, exchanges_length hopen, exchanges_length hrun] at this
  exact this

/-! ### Examples -/

def readingEnv : TransportEnv := { demoEnv with parse := parseWsman }

/-- An answer with fragments. -/
def wireDocument (id : String) (gs : List (List Fragment)) : Elem :=
  .node "s:Envelope".toList [] none [.node "s:Header".toList [] none [.node "wsa:RelatesTo".toList [] (some ("uuid:" ++ id).toList) []],
    demoReceive (gs.map demoFragments)]

def spnegoSealed : PyStr := "multipart/encrypted;protocol=\"application/HTTP-SPNEGO-session-encrypted\";boundary=\"Encrypted Boundary\"".toList

theorem sealed_boundary : findBoundary spnegoSealed = some "Encrypted Boundary".toList := by decide +kernel

/-- The same, sealed. -/
def sealedResponse (status : Nat) (text : PyStr) : HttpResponse where
  status := status
  contentType := spnegoSealed
  content := multipart .spnego [⟨(utf8 text).length, [7], (utf8 text).map (255 - ·)⟩]

def pollFault : FaultParts := ⟨"s:Receiver".toList, some "w:TimedOut".toList, some "The operation timed out.".toList, some "host".toList,
  some "The operation timed out.".toList, "p".toList, "q".toList, none⟩

def pollDocument : Elem := soapFault [] pollFault [wsmanDetail pollFault (pyStrInt 2150858793)]

def openingText : PyStr := printDocument (wireDocument "1" [[demoC.1, demoC.2], [demoS.1, demoS.2]])
def runningText : PyStr := printDocument (wireDocument "3" [[demoF.1, demoO.1], [demoO.2, demoF.2]])

theorem opening_document : DocumentOf openingText (wireDocument "1" [[demoC.1, demoC.2], [demoS.1, demoS.2]]) :=
  readable_root (by decide +kernel) (written_node (by decide +kernel) (by decide) (by decide)
    (.cons (written_node (by decide +kernel) (by decide) (by decide) (.cons (written_node (by decide +kernel) (by decide) (by decide) .nil) .nil))
      (.cons (written_node (by decide +kernel) (by decide) (by decide) (.cons (written_node (by decide +kernel) (by decide) (by decide)
        (.cons (written_node (by decide +kernel) (by decide +kernel) (by decide +kernel) .nil)
          (.cons (written_node (by decide +kernel) (by decide +kernel) (by decide +kernel) .nil) .nil))) .nil)) .nil))) rfl

theorem running_document : DocumentOf runningText (wireDocument "3" [[demoF.1, demoO.1], [demoO.2, demoF.2]]) :=
  readable_root (by decide +kernel) (written_node (by decide +kernel) (by decide) (by decide)
    (.cons (written_node (by decide +kernel) (by decide) (by decide) (.cons (written_node (by decide +kernel) (by decide) (by decide) .nil) .nil))
      (.cons (written_node (by decide +kernel) (by decide) (by decide) (.cons (written_node (by decide +kernel) (by decide) (by decide)
        (.cons (written_node (by decide +kernel) (by decide +kernel) (by decide +kernel) .nil)
          (.cons (written_node (by decide +kernel) (by decide +kernel) (by decide +kernel) .nil) .nil))) .nil)) .nil))) rfl

def pollText : PyStr := printDocument pollDocument

theorem poll_document : DocumentOf pollText pollDocument := by
  have leaf : ∀ tag text, goodTag tag = true → WrittenAs libraryScope (.node tag [] text []) (.node tag [] text []) :=
    fun tag text h => written_node h (by decide) (by decide) .nil
  refine readable_root (by decide +kernel) (e' := pollDocument) ?_ rfl
  refine written_node (by decide +kernel) (by decide) (by decide) (.cons (leaf _ _ (by decide +kernel)) (.cons
    (written_node (by decide +kernel) (by decide) (by decide) (.cons (written_node (by decide +kernel) (by decide) (by decide) ?_) .nil)) .nil))
  refine .cons (written_node (by decide +kernel) (by decide) (by decide) (.cons (leaf _ _ (by decide +kernel)) (.cons
    (written_node (by decide +kernel) (by decide) (by decide) (.cons (leaf _ _ (by decide +kernel)) .nil)) .nil)))
    (.cons (written_node (by decide +kernel) (by decide) (by decide) (.cons (leaf _ _ (by decide +kernel)) .nil)) (.cons ?_ .nil))
  refine written_node (by decide +kernel) (by decide) (by decide) (.cons (written_node (by decide +kernel) (by decide +kernel) (by decide +kernel)
    (.cons (written_node (by decide +kernel) (by decide) (by decide) (.cons (written_node (by decide +kernel) (by decide +kernel) (by decide +kernel) .nil) .nil)) .nil)) .nil)

theorem sealed_receives {k status : Nat} {text : PyStr} {os : List NetOutcome} (hs : demoEnv.retryStatus status = false)
    (h : unwrapMessage (readingEnv.sealing 0 (k + 1)) (sealedResponse status text).content (ascii "Encrypted Boundary".toList) = .ok (utf8 text)) :
    Receives readingEnv demoCfg (between (some (0, .spnego)) k (.response (sealedResponse status text) :: os)) (sealedResponse status text) (utf8 text) :=
  ⟨⟨os, rfl⟩, hs, .inr ⟨⟨_, .inl rfl⟩, rfl, 0, .spnego, "Encrypted Boundary".toList, rfl, (findBoundary_iff _ _).1 sealed_boundary, h, rfl⟩⟩

theorem sealed_ready (k : Nat) (os : List NetOutcome) : ReadyFor readingEnv demoCfg [1, 2] (between (some (0, .spnego)) k os) := by
  have h : (wrapMessage (readingEnv.sealing 0 0) .spnego [1, 2]).isOk = true := by decide +kernel
  refine .inr ⟨0, .spnego, ?_⟩
  cases hw : wrapMessage (readingEnv.sealing 0 0) .spnego [1, 2] with
  | error e => rw [hw] at h; cases h
  | ok r => exact ⟨r, rfl, hw⟩

theorem sealed_uses (status : Nat) (text : PyStr) : Uses demoCfg (sealedResponse status text) 2 := ⟨1, rfl, .inl ⟨⟨_, .inl rfl⟩, rfl⟩⟩

theorem demo_fragments (id : String) (gs : List (List Fragment)) :
    ∃ body, (elemsAt ["s:Body".toList] (wireDocument id gs)).head? = some body ∧ Brings body gs.flatten := by
  refine ⟨demoReceive (gs.map demoFragments), rfl, ?_⟩
  have := demo_brings gs .nil
  generalize gs.flatten = g at this ⊢
  cases this with
  | data _ h2 h3 _ => cases h2; exact h3
  | other h _ => simp [demoAnswer] at h

def openingRequests : List (PyStr × Bytes) := [("1".toList, [1, 2])]
def runningRequests : List (PyStr × Bytes) := [("2".toList, [1, 2]), ("3".toList, [1, 2])]
def openingOutcomes : List NetOutcome := [.response (sealedResponse 200 openingText)]
def runningOutcomes : List NetOutcome := [.response (sealedResponse 500 pollText), .response (sealedResponse 200 runningText)]

/-- A sealed answer with the messages of an opened pool. -/
theorem opening_exchanges : Exchanges readingEnv demoCfg (some (0, .spnego)) 0 openingOutcomes openingRequests
    [[demoC.1, demoC.2, demoS.1, demoS.2]] [none] := by
  obtain ⟨body, h1, h2⟩ := demo_fragments "1" [[demoC.1, demoC.2], [demoS.1, demoS.2]]
  exact .data (sealed_ready _ _) (sealed_receives rfl (by decide +kernel)) (by decide) opening_document ⟨_, rfl, by decide +kernel⟩ h1 h2 (sealed_uses _ _) .nil

/-- A sealed fault for a poll without output, and a sealed answer with the messages of a pipeline. -/
theorem running_exchanges : Exchanges readingEnv demoCfg (some (0, .spnego)) 2 runningOutcomes runningRequests
    [[], [demoF.1, demoO.1, demoO.2, demoF.2]] [some 2150858793, none] := by
  obtain ⟨body, h1, h2⟩ := demo_fragments "3" [[demoF.1, demoO.1], [demoO.2, demoF.2]]
  exact .fault (p := pollFault) (header := []) (code := 2150858793) (sealed_ready _ _) (sealed_receives rfl (by decide +kernel)) (by decide) (by decide) (by decide) poll_document
    (sealed_uses _ _) (.data (sealed_ready _ _) (sealed_receives rfl (by decide +kernel)) (by decide) running_document ⟨_, rfl, by decide +kernel⟩ h1 h2 (sealed_uses _ _) .nil)

theorem demo_all : Sends demoReader demoMsg ([[demoC.1, demoC.2, demoS.1, demoS.2]].flatten ++ [[], [demoF.1, demoO.1, demoO.2, demoF.2]].flatten) := by
  have h : [[demoC.1, demoC.2, demoS.1, demoS.2]].flatten ++ [[], [demoF.1, demoO.1, demoO.2, demoF.2]].flatten =
      [demoC.1, demoC.2, demoS.1, demoS.2] ++ ([demoF.1, demoO.1, demoO.2, demoF.2] ++ []) := by
    generalize demoC.1 = a, demoC.2 = b, demoS.1 = c, demoS.2 = d, demoF.1 = e, demoO.1 = f, demoO.2 = g, demoF.2 = h
    rfl
  rw [h]
  exact demo_sends

/-- What the pool sees. -/
example : onWire demoReader noBuffers (httpReceives readingEnv demoCfg openingRequests (between (some (0, .spnego)) 0 openingOutcomes)) =
    [{ msgs := completes demoMsg [demoC.1, demoC.2, demoS.1, demoS.2] }] := by
  have hs : Sends demoReader demoMsg [[demoC.1, demoC.2, demoS.1, demoS.2]].flatten := by
    refine ⟨by decide +kernel, fun o => ?_⟩
    match o with
    | 1 => exact .inr (demo_cut (demo_capability _))
    | 2 => exact .inr (demo_cut (demo_opened _))
    | 0 => exact .inl rfl
    | o + 3 => exact .inl (by simp [ofObject, demoC, demoS, demoCut])
  exact (C101_replies (show readingEnv.parse = parseWsman from rfl) opening_exchanges hs).1

/-- The call. -/
example : ∃ st w', runScript 2 (.start 1 1 none [] (onWire demoReader noBuffers
      ((⟨none, none, none, none⟩ : WireReply) :: (httpReceives readingEnv demoCfg openingRequests (between (some (0, .spnego)) 0 openingOutcomes) ++ { command := some 9 } ::
        (httpReceives readingEnv demoCfg runningRequests (between (some (0, .spnego)) 2 runningOutcomes) ++ [⟨none, none, none, none⟩]))))) = (.ok ([2], st, false), w') ∧
    (∀ k, st.get k = []) ∧
    requests w'.sent = [.create [.sessionCapability, .initPool 1 1], .receive none, .command 0 (.createPipeline true),
      .receive (some (.server 9)), .receive (some (.server 9)), .delete] := by
  obtain ⟨st, w', h1, h2, h3, -⟩ := C101_execute 1 1 [] 2 (rd := demoReader) (msg := demoMsg) (r0 := {}) (rc := { command := some 9 }) (rx := {})
    (pre := [.sessionCapability (some "2.3".toList)]) (body := [.output 2]) (s := 4) (e := none) rfl opening_exchanges running_exchanges (by decide) (by decide)
    ⟨rfl, rfl⟩ ⟨rfl, rfl⟩ ⟨rfl, rfl⟩ demo_all (by decide +kernel) ⟨_, rfl, demoS.2, by decide +kernel, rfl⟩
    (by intro m hm; rw [List.mem_singleton] at hm; subst hm; exact ⟨_, [2, 3], rfl, ["2".toList, "3".toList], by decide, by decide +kernel, by simp [IsDecimal], by decide +kernel⟩) (by decide +kernel)
    ⟨_, rfl, demoF.2, by decide +kernel, rfl⟩
    (by intro m hm; rw [List.mem_singleton] at hm; subst hm; exact trivial) (by decide)
  refine ⟨st, w', h1, fun k => by rw [h2 k]; cases k <;> rfl, ?_⟩
  rw [h3]
  rfl

end Verif
