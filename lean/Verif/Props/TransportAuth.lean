import Verif.Lemmas.Transport
import Verif.Props.TransportInvoke
import Verif.Lemmas.Base64
/-
C59, C60: the negotiate authentication.
-/
namespace Verif

/-! ### C60: the exchange -/

/-- A request that is answered uses up an outcome. -/
theorem adapterLoop_uses (retryStatus : Nat → Bool) (body : Option Bytes) (auth : Option PyStr) (os : List NetOutcome) : ∀ (r : Retry) rsp,
    (adapterLoop retryStatus body auth r os).1 = .ok rsp → (adapterLoop retryStatus body auth r os).2.2.length < os.length := by
  induction os with
  | nil => intro r rsp h; simp [adapterLoop] at h
  | cons o os ih =>
    intro r rsp
    have again : ∀ (r' : Retry) (err : PyErr) (entry : NetEntry),
        let x : TRes HttpResponse × List NetEntry × List NetOutcome := if r'.exhausted then (.raised (.py err), [entry], os) else
          let (r, entries, os) := adapterLoop retryStatus body auth r' os
          (r, entry :: entries, os)
        x.1 = .ok rsp → x.2.2.length < (o :: os).length := by
      intro r' err entry
      dsimp only
      split
      · intro h; simp at h
      · intro h; exact Nat.lt_succ_of_lt (ih _ _ h)
    unfold adapterLoop
    cases o with
    | connectTimeout => exact again _ _ _
    | connectFailed => exact again _ _ _
    | readTimeout => simp
    | aborted => simp
    | response rsp' =>
      dsimp only
      split
      · exact again _ _ _
      · simp

/-- One request of the exchange. -/
theorem adapterSend_spec (env : TransportEnv) (cfg : TransportCfg) (body : Option Bytes) (auth : Option PyStr) (w : TWorld) :
    ∃ g, (adapterSend env cfg body auth w).2.log = w.log ++ g ∧ Attempts env.retryStatus cfg.reconnectionRetries g ∧
      (∀ e ∈ g, e.body = body ∧ e.auth = auth) ∧ (adapterSend env cfg body auth w).2.fed = w.fed ∧
      (adapterSend env cfg body auth w).2.clients = w.clients ∧
      (∀ r, (adapterSend env cfg body auth w).1 = .ok r → (adapterSend env cfg body auth w).2.outcomes.length < w.outcomes.length ∧
        ∃ e, g.getLast? = some e ∧ e.outcome = some (.response r)) ∧
      ((adapterSend env cfg body auth w).1 = .waiting → ∃ e, g.getLast? = some e ∧ e.outcome = none) := by
  obtain ⟨h1, h2, h3, h4⟩ := adapterLoop_spec env.retryStatus body auth w.outcomes (.initial cfg.reconnectionRetries)
    cfg.reconnectionRetries rfl ⟨Int.le_refl _, Int.le_refl _⟩
  have huse := adapterLoop_uses env.retryStatus body auth w.outcomes (.initial cfg.reconnectionRetries)
  refine ⟨_, rfl, h1, h2, rfl, rfl, fun r hr => ?_, fun hw => ?_⟩
  · refine ⟨huse r hr, ?_⟩
    cases hl : (adapterLoop env.retryStatus body auth (.initial cfg.reconnectionRetries) w.outcomes).2.1.getLast? with
    | none => exact absurd (List.getLast?_eq_none_iff.mp hl) h1.nonempty
    | some e => exact ⟨e, rfl, (h4 e hl).2.1 r hr⟩
  · cases hl : (adapterLoop env.retryStatus body auth (.initial cfg.reconnectionRetries) w.outcomes).2.1.getLast? with
    | none => exact absurd (List.getLast?_eq_none_iff.mp hl) h1.nonempty
    | some e => exact ⟨e, rfl, (h4 e hl).2.2.mpr hw⟩

/-- What the context was given so far. -/
def inputsOf (w : TWorld) (c : Nat) : List (Option Bytes) := (w.fed.filter (·.1 = c)).map (·.2)

/-- What a run of the loop after the tokens `done` looks like. -/
structure LoopRun (env : TransportEnv) (cfg : TransportCfg) (c : Nat) (scheme : PyStr) (body : Option Bytes) (done : List Bytes) (w : TWorld)
    (first : HttpResponse) (res : TRes HttpResponse × TWorld) (groups : List (List NetEntry)) (tokens : List Bytes) : Prop where
  log : res.2.log = w.log ++ groups.flatten
  attempts : ∀ g ∈ groups, Attempts env.retryStatus cfg.reconnectionRetries g
  fedLog : res.2.fed = w.fed ++ tokens.map fun t => (c, some t)
  clients : res.2.clients = w.clients
  relayed : Relayed (fun l => env.step c (l.head?.toList ++ done.map some ++ l.tail)) scheme body groups tokens
  ends : ∀ r, res.1 = .ok r → ExchangeEnds (fun l => env.step c (l.head?.toList ++ done.map some ++ l.tail)) groups tokens first r
  waits : res.1 = .waiting → ∃ g e, groups.getLast? = some g ∧ g.getLast? = some e ∧ e.outcome = none

theorem authLoop_run (env : TransportEnv) (cfg : TransportCfg) (c : Nat) (scheme : PyStr) (body : Option Bytes) (fuel : Nat) :
    ∀ (done : List Bytes) (out : Option Bytes) (complete : Bool) (response : HttpResponse) (w : TWorld), w.outcomes.length < fuel →
      inputsOf w c = none :: done.map some → env.step c (none :: done.map some) = .ok (out, complete) →
      ∃ groups tokens, LoopRun env cfg c scheme body done w response (authLoop env cfg c scheme body fuel out complete response w) groups tokens := by
  induction fuel with
  | zero => intro done out complete response w h; omega
  | succ fuel ih =>
    intro done out complete response w hfuel hin hstep
    unfold authLoop
    by_cases hc : complete = true ∧ out = none
    · rw [if_pos hc]
      refine ⟨[], [], ⟨by simp [TM.pure], by simp, by simp [TM.pure], rfl, ⟨by simp, by simp, by simp⟩, fun r hr => .inl ⟨rfl, ?_, fun _ => ?_⟩, by simp [TM.pure]⟩⟩
      · simp [hstep, hc]
      · simp only [TM.pure, TRes.ok.injEq] at hr; exact hr.symm
    · rw [if_neg hc, tbind_run]
      cases out with
      | none =>
        simp only [authHeader, tlift]
        exact ⟨[], [], ⟨by simp, by simp, by simp, rfl, ⟨by simp, by simp, by simp⟩, by simp, by simp⟩⟩
      | some o =>
        simp only [authHeader, tlift]
        rw [tbind_run]
        obtain ⟨g, h1, h2, h3, h4, h4', h5, h6⟩ := adapterSend_spec env cfg body (some (scheme ++ " ".toList ++ b64Encode o)) w
        have hrel : Relayed (fun l => env.step c (l.head?.toList ++ done.map some ++ l.tail)) scheme body [g] [] := by
          refine ⟨fun i g' hg => ?_, by simp, by simp⟩
          cases i with
          | succ i => simp at hg
          | zero =>
            simp only [List.getElem?_cons_zero, Option.some.injEq] at hg
            subst hg
            exact ⟨o, complete, by simp [hstep], by rw [← C99_base64]; exact h3⟩
        cases hx : adapterSend env cfg body (some (scheme ++ " ".toList ++ b64Encode o)) w with
        | mk res w1 =>
          rw [hx] at h1 h4 h4' h5 h6
          dsimp only at h1 h4 h4' h5 h6
          cases res with
          | raised e => exact ⟨[g], [], ⟨by simp [h1], by simpa using h2, by simp [h4], h4', hrel, by simp, by simp⟩⟩
          | waiting =>
            refine ⟨[g], [], ⟨by simp [h1], by simpa using h2, by simp [h4], h4', hrel, by simp, fun _ => ?_⟩⟩
            obtain ⟨e, he, ho⟩ := h6 rfl
            exact ⟨g, e, rfl, he, ho⟩
          | ok r =>
            obtain ⟨hlt, e, he, ho⟩ := h5 r rfl
            dsimp only
            rw [tbind_run]
            have stop : getAuthToken r.authenticate = .ok none ∨ getAuthToken r.authenticate = .ok (some []) →
                LoopRun env cfg c scheme body done w response (.ok r, w1) [g] [] := by
              intro ht
              refine ⟨by simp [h1], by simpa using h2, by simp [h4], h4', hrel, fun r' hr' => .inr ⟨rfl, g, e, rfl, he, ?_⟩, by simp⟩
              simp only [TRes.ok.injEq] at hr'
              subst hr'
              exact ⟨ho, ht.imp ((C104_token _).2.1).1 ((C104_token _).2.2.1 _).1⟩
            cases ht : getAuthToken r.authenticate with
            | error err => exact ⟨[g], [], ⟨by simp [h1, tlift], by simpa using h2, by simp [h4, tlift], h4', hrel, by simp [tlift], by simp [tlift]⟩⟩
            | ok token =>
              simp only [tlift]
              rcases token with _ | (_ | ⟨b, bs⟩)
              · exact ⟨[g], [], stop (.inl ht)⟩
              · exact ⟨[g], [], stop (.inr ht)⟩
              · dsimp only
                rw [tbind_run]
                unfold stepContext
                dsimp only
                have hin' : ((w1.fed ++ [(c, some (b :: bs))]).filter (·.1 = c)).map (·.2) = none :: (done ++ [b :: bs]).map some := by
                  rw [h4, List.filter_append, List.map_append]
                  unfold inputsOf at hin
                  rw [hin]
                  simp
                rw [hin']
                have hfedt : ∀ (i : Nat) (t : Bytes), [b :: bs][i]? = some t → t ≠ [] ∧ ∃ g' e r, [g][i]? = some g' ∧ g'.getLast? = some e ∧
                    e.outcome = some (.response r) ∧ ServerToken r.authenticate t := by
                  intro i t hi
                  cases i with
                  | succ i => simp at hi
                  | zero =>
                    simp only [List.getElem?_cons_zero, Option.some.injEq] at hi
                    subst hi
                    exact ⟨by simp, g, e, r, by simp, he, ho, ((C104_token _).2.2.1 _).1 ht⟩
                have hrel1 : Relayed (fun l => env.step c (l.head?.toList ++ done.map some ++ l.tail)) scheme body [g] [b :: bs] := by
                  refine ⟨fun i g' hg => ?_, hfedt, by simp⟩
                  cases i with
                  | succ i => simp at hg
                  | zero =>
                    simp only [List.getElem?_cons_zero, Option.some.injEq] at hg
                    subst hg
                    exact ⟨o, complete, by simp [hstep], by rw [← C99_base64]; exact h3⟩
                cases hs : env.step c (none :: (done ++ [b :: bs]).map some) with
                | error err =>
                  exact ⟨[g], [b :: bs], ⟨by simp [h1, tlift], by simpa using h2, by simp [h4, tlift], h4', hrel1, by simp [tlift], by simp [tlift]⟩⟩
                | ok oc =>
                  obtain ⟨out', complete'⟩ := oc
                  simp only [tlift]
                  obtain ⟨groups, tokens, hr⟩ := ih (done ++ [b :: bs]) out' complete' r { w1 with fed := w1.fed ++ [(c, some (b :: bs))] }
                    (by dsimp only; omega) hin' hs
                  have hshift : ∀ l : List Bytes, (fun l : List (Option Bytes) => env.step c (l.head?.toList ++ done.map some ++ l.tail))
                      (none :: ((b :: bs) :: l).map some) = (fun l : List (Option Bytes) => env.step c (l.head?.toList ++ (done ++ [b :: bs]).map some ++ l.tail))
                      (none :: l.map some) := by intro l; simp
                  refine ⟨g :: groups, (b :: bs) :: tokens, ⟨by rw [hr.log]; simp [h1], ?_, by rw [hr.fedLog]; simp [h4], by rw [hr.clients]; exact h4', ⟨?_, ?_, ?_⟩, ?_, ?_⟩⟩
                  · intro g' hg'
                    rcases List.mem_cons.mp hg' with rfl | hg'
                    · exact h2
                    · exact hr.attempts g' hg'
                  · intro i g' hg
                    cases i with
                    | zero =>
                      simp only [List.getElem?_cons_zero, Option.some.injEq] at hg
                      subst hg
                      exact ⟨o, complete, by simp [hstep], by rw [← C99_base64]; exact h3⟩
                    | succ i =>
                      rw [List.getElem?_cons_succ] at hg
                      obtain ⟨o', c', k1, k2⟩ := hr.relayed.sent i g' hg
                      refine ⟨o', c', ?_, k2⟩
                      rw [List.take_succ_cons]
                      exact (hshift _).trans k1
                  · intro i t hi
                    cases i with
                    | zero =>
                      simp only [List.getElem?_cons_zero, Option.some.injEq] at hi
                      subst hi
                      exact ⟨by simp, g, e, r, by simp, he, ho, ((C104_token _).2.2.1 _).1 ht⟩
                    | succ i =>
                      rw [List.getElem?_cons_succ] at hi ⊢
                      exact hr.relayed.fed i t hi
                  · have := hr.relayed.count
                    simp only [List.length_cons]
                    omega
                  · intro r' hr'
                    rcases hr.ends r' hr' with ⟨k1, k2, k3⟩ | ⟨k1, g', e', k2, k3⟩
                    · refine .inl ⟨by simp [k1], ?_, by simp⟩
                      exact (hshift _).trans k2
                    · refine .inr ⟨by simp [k1], g', e', ?_, k3⟩
                      cases groups with
                      | nil => simp at k2
                      | cons a as => simpa using k2
                  · intro hw
                    obtain ⟨g', e', k2, k3⟩ := hr.waits hw
                    refine ⟨g', e', ?_, k3⟩
                    cases groups with
                    | nil => simp at k2
                    | cons a as => simpa using k2

/-- Contexts are numbered in the order in which they are made, and only made contexts are fed. -/
def Fresh (w : TWorld) : Prop := ∀ f ∈ w.fed, f.1 < w.clients.length

/-- C60: an exchange in any state of a transport (see `C60_fresh`), for every behaviour of the security context and all outcomes on the network. With
the scheme and protocol that were chosen: the requests carry the tokens of the context in order, each one once (`Attempts` says when a request is
repeated); the context is given no token and then the tokens of the responses in order, each one once; a response is returned when the context is complete and has nothing
to send or the server sent no token; and the exchange never waits except for the network. -/
theorem C60_exchange (env : TransportEnv) (cfg : TransportCfg) (provider : PyStr) (body : Option Bytes) (response : HttpResponse) (w : TWorld) (hw : Fresh w)
    (scheme protocol : PyStr) (hs : checkAuthSupported response.authenticate authProviders = .ok scheme) (hp : chooseProtocol provider scheme = .ok protocol) :
    let c := w.clients.length
    let run := handle401 env cfg provider body response w
    ∃ groups tokens, run.2.log = w.log ++ groups.flatten ∧ (∀ g ∈ groups, Attempts env.retryStatus cfg.reconnectionRetries g) ∧
      run.2.clients = w.clients ++ [protocol] ∧ run.2.fed = w.fed ++ (c, none) :: tokens.map (fun t => (c, some t)) ∧
      Relayed (env.step c) scheme body groups tokens ∧ (∀ r, run.1 = .ok r → ExchangeEnds (env.step c) groups tokens response r) ∧
      (run.1 = .waiting → ∃ g e, groups.getLast? = some g ∧ g.getLast? = some e ∧ e.outcome = none) := by
  dsimp only
  unfold handle401
  simp only [tbind_run, hs, hp, tlift, tget, tmodify, stepContext]
  have hin : ((w.fed ++ [(w.clients.length, (none : Option Bytes))]).filter (·.1 = w.clients.length)).map (·.2) = [none] := by
    rw [List.filter_append, List.filter_eq_nil_iff.mpr fun f hf => by have := hw f hf; simp; omega]
    simp
  rw [hin]
  cases hst : env.step w.clients.length [none] with
  | error e => exact ⟨[], [], by simp, by simp, by simp, by simp, ⟨by simp, by simp, by simp⟩, by simp, by simp⟩
  | ok oc =>
    obtain ⟨out, complete⟩ := oc
    dsimp only
    obtain ⟨groups, tokens, hr⟩ := authLoop_run env cfg w.clients.length scheme body (w.outcomes.length + 1) [] out complete response
      ⟨w.outcomes, w.log, w.encryption, some (w.clients.length, none), w.clients ++ [protocol], w.fed ++ [(w.clients.length, none)], w.sealCalls⟩
      (by simp) (by simpa [inputsOf] using hin) (by simpa using hst)
    have hstep : (fun l : List (Option Bytes) => env.step w.clients.length (l.head?.toList ++ ([] : List Bytes).map some ++ l.tail)) = env.step w.clients.length := by
      funext l
      cases l <;> simp
    obtain ⟨k1, k2, k3, k4, k5, k6, k7⟩ := hr
    rw [hstep] at k5 k6
    dsimp only at k1 k3 k4
    generalize authLoop env cfg w.clients.length scheme body (w.outcomes.length + 1) out complete response _ = res at k1 k3 k4 k6 k7
    obtain ⟨res, w1⟩ := res
    dsimp only at k1 k3 k4 k6 k7
    have hfed : w.fed ++ [(w.clients.length, none)] ++ tokens.map (fun t => (w.clients.length, some t)) =
        w.fed ++ (w.clients.length, none) :: tokens.map (fun t => (w.clients.length, some t)) := by simp
    rw [hfed] at k3
    cases res with
    | ok r => exact ⟨groups, tokens, k1, k2, k4, k3, k5, fun r' hr' => k6 r' hr', by simp [TM.pure]⟩
    | raised e => exact ⟨groups, tokens, k1, k2, k4, k3, k5, by simp, by simp⟩
    | waiting => exact ⟨groups, tokens, k1, k2, k4, k3, k5, by simp, k7⟩

/-! ### C60: the state -/

/-- The program keeps the numbering. -/
def KeepsFresh (x : TM α) : Prop := ∀ w, Fresh w → Fresh (x w).2

theorem fresh_bind {x : TM α} {f : α → TM β} (hx : KeepsFresh x) (hf : ∀ a, KeepsFresh (f a)) : KeepsFresh (x >>= f) := by
  intro w hw
  have h1 := hx w hw
  rw [tbind_run]
  cases hxw : x w with
  | mk r w1 =>
    rw [hxw] at h1
    cases r with
    | ok a => exact hf a w1 h1
    | raised e => exact h1
    | waiting => exact h1

theorem fresh_tlift (x : Except PyErr α) : KeepsFresh (tlift x) := fun w hw => by rw [tlift_log]; exact hw
theorem fresh_tget : KeepsFresh tget := fun _ hw => hw
theorem fresh_pure (a : α) : KeepsFresh (TM.pure a) := fun _ hw => hw
theorem fresh_traise (e : PyErr) : KeepsFresh (traise e : TM α) := fun _ hw => hw
theorem fresh_modify {f : TWorld → TWorld} (h : ∀ w, (f w).fed = w.fed ∧ (f w).clients = w.clients) : KeepsFresh (tmodify f) := fun w hw => by
  unfold Fresh tmodify
  rw [(h w).1, (h w).2]
  exact hw

theorem fresh_sendRequest (env : TransportEnv) (cfg : TransportCfg) (body : Option Bytes) : KeepsFresh (sendRequest env cfg body) := by
  have hadapter : ∀ auth, KeepsFresh (adapterSend env cfg body auth) := fun auth w hw => hw
  unfold sendRequest sessionSend
  refine fresh_bind (fresh_bind (hadapter _) fun r => ?_) fun r => fresh_bind ?_ fun content => ?_
  · cases cfg.provider with
    | none => exact fresh_pure _
    | some provider =>
      dsimp only
      split
      · -- the exchange
        intro w hw
        cases hs : checkAuthSupported r.authenticate authProviders with
        | error e => simp only [handle401, tbind_run, hs, tlift]; exact hw
        | ok scheme => cases hp : chooseProtocol provider scheme with
          | error e => simp only [handle401, tbind_run, hs, hp, tlift]; exact hw
          | ok protocol =>
            obtain ⟨groups, tokens, -, -, h3, h4, -⟩ := C60_exchange env cfg provider body r w hw scheme protocol hs hp
            unfold Fresh
            rw [h3, h4]
            intro f hf
            rw [List.length_append]
            rcases List.mem_append.mp hf with hf | hf
            · have := hw f hf; omega
            · rcases List.mem_cons.mp hf with rfl | hf
              · simp
              · obtain ⟨t, -, rfl⟩ := List.mem_map.mp hf
                simp
      · exact fresh_pure _
  · unfold responseContent
    split
    · cases findBoundary r.contentType with
      | none => exact fresh_traise _
      | some boundary =>
        refine fresh_bind fresh_tget fun w1 => ?_
        cases w1.encryption with
        | none => exact fresh_traise _
        | some c =>
          refine fresh_bind (fresh_modify fun _ => ⟨rfl, rfl⟩) fun _ => fresh_bind (fresh_tlift _) fun _ => ?_
          split
          · exact fresh_pure _
          · exact fresh_traise _
    · exact fresh_pure _
  · split
    · split
      · exact fresh_traise _
      · exact fun _ hw => hw
    · exact fresh_pure _

theorem fresh_unless {x : TM α} (last : Bool) (hx : KeepsFresh x) : KeepsFresh (unlessTimeout last x) := by
  intro w hw
  have h1 := hx w hw
  unfold unlessTimeout
  cases hxw : x w with
  | mk r w1 =>
    rw [hxw] at h1
    cases r with
    | ok a => exact h1
    | raised e => dsimp only; split <;> exact h1
    | waiting => exact h1

theorem fresh_sendLoop (env : TransportEnv) (cfg : TransportCfg) (message : Bytes) (left : Nat) : KeepsFresh (sendLoop env cfg message left) := by
  have hround : ∀ last, KeepsFresh (sendRound env cfg message last) := by
    intro last
    unfold sendRound authenticate
    refine fresh_bind (fresh_bind fresh_tget fun w => ?_) fun b => ?_
    · split
      · refine fresh_bind (fresh_unless _ (fresh_sendRequest _ _ _)) fun o => ?_
        cases o with
        | none => exact fresh_pure _
        | some _ =>
          refine fresh_bind ?_ fun _ => fresh_pure _
          unfold startEncryption
          refine fresh_bind fresh_tget fun w => ?_
          split
          · exact fresh_traise _
          · exact fresh_traise _
          · exact fresh_modify fun _ => ⟨rfl, rfl⟩
      · exact fresh_pure _
    · cases b with
      | false => exact fresh_pure _
      | true =>
        refine fresh_bind ?_ fun body => fresh_bind (fresh_unless _ (fresh_sendRequest _ _ _)) fun o => ?_
        · unfold requestPayload
          split
          · refine fresh_bind fresh_tget fun w => ?_
            cases w.encryption with
            | none => exact fresh_traise _
            | some c => exact fresh_bind (fresh_modify fun _ => ⟨rfl, rfl⟩) fun _ => fresh_bind (fresh_tlift _) fun _ => fresh_pure _
          · exact fresh_pure _
        · cases o with
          | none => exact fresh_bind (fresh_modify fun _ => ⟨rfl, rfl⟩) fun _ => fresh_pure _
          | some c => exact fresh_pure _
  induction left with
  | zero =>
    unfold sendLoop
    refine fresh_bind (hround _) fun o => ?_
    cases o with
    | none => exact fun _ hw => hw
    | some c => exact fresh_pure _
  | succ left ih =>
    unfold sendLoop
    refine fresh_bind (hround _) fun o => ?_
    cases o with
    | none => exact ih
    | some c => exact fresh_pure _

/-- C60: the assumption on the state holds over the life of a transport. -/
theorem C60_fresh (env : TransportEnv) (cfg : TransportCfg) (messages : List (Bytes × Nat)) (outcomes : List NetOutcome) :
    Fresh (sendAll env cfg messages { outcomes := outcomes }) := by
  have key : ∀ (messages : List (Bytes × Nat)) (w : TWorld), Fresh w → Fresh (sendAll env cfg messages w) := by
    intro messages
    unfold sendAll
    induction messages with
    | nil => intro w hw; exact hw
    | cons m ms ih => intro w hw; rw [List.foldl_cons]; exact ih _ (fresh_sendLoop _ _ _ _ w hw)
  exact key _ _ (by simp [Fresh])

/-! ### C60: the tokens of the server -/

/-- A character that ends neither the white space before a token nor the token. -/
def tokenChar (c : Char) : Bool := c ≠ ',' && !isPySpace c

theorem tokenChar_b64 (t : Bytes) : ∀ c ∈ b64Encode t, tokenChar c = true := by
  have hchar : ∀ n, tokenChar (b64Char n) = true := by
    intro n
    by_cases h : n < 64
    · have key : ∀ m : Fin 64, tokenChar (b64Char m.val) = true := by decide +kernel
      exact key ⟨n, h⟩
    · have : b64Char n = '=' := by
        unfold b64Char
        rw [List.getD_eq_getElem?_getD, List.getElem?_eq_none]
        · rfl
        · have : b64Alphabet.length = 64 := by decide
          omega
      rw [this]
      decide
  have hpad : tokenChar '=' = true := by decide
  fun_induction b64Encode t with
  | case1 => simp
  | case2 => simp [hchar, hpad]
  | case3 => simp [hchar, hpad]
  | case4 a b c rest n ih =>
    intro x hx
    simp only [List.mem_cons] at hx
    rcases hx with rfl | rfl | rfl | rfl | hx
    · exact hchar _
    · exact hchar _
    · exact hchar _
    · exact hchar _
    · exact ih x hx

theorem after_spaces (spaces : Nat) (t : Bytes) (ht : t ≠ []) (rest : PyStr) (hrest : rest = [] ∨ ∃ r, rest = ',' :: r) :
    ((List.replicate spaces ' ' ++ b64Encode t ++ rest).dropWhile isPySpace).takeWhile (· ≠ ',') = b64Encode t := by
  have hsp : isPySpace ' ' = true := by decide
  have h1 : (List.replicate spaces ' ' ++ b64Encode t ++ rest).dropWhile isPySpace = b64Encode t ++ rest := by
    rw [List.append_assoc]
    induction spaces with
    | zero =>
      rw [List.replicate_zero, List.nil_append]
      cases he : b64Encode t with
      | nil =>
        have := b64Encode_length t
        rw [he] at this
        have hpos := List.length_pos_iff.mpr ht
        simp at this
        omega
      | cons c cs =>
        have := tokenChar_b64 t c (by simp [he])
        simp only [tokenChar, Bool.and_eq_true, Bool.not_eq_true'] at this
        rw [List.cons_append, List.dropWhile_cons_of_neg (by simp [this.2])]
    | succ n ih =>
      rw [List.replicate_succ, List.cons_append, List.dropWhile_cons_of_pos (by simp [hsp])]
      exact ih
  rw [h1]
  have h2 : ∀ l : PyStr, (∀ c ∈ l, tokenChar c = true) → (l ++ rest).takeWhile (· ≠ ',') = l := by
    intro l hl
    induction l with
    | nil =>
      rcases hrest with rfl | ⟨r, rfl⟩
      · rfl
      · simp
    | cons c cs ih =>
      have := hl c (by simp)
      simp only [tokenChar, Bool.and_eq_true, decide_eq_true_eq] at this
      rw [List.cons_append, List.takeWhile_cons_of_pos (by simpa using this.1), ih fun c hc => hl c (by simp [hc])]
  exact h2 _ (tokenChar_b64 t)

/-- C60: what the server sends. A challenge with one of the three schemes, in upper or lower case, and a token; other challenges may follow. -/
theorem C60_server_token (name : PyStr) (hn : asciiUpper name ∈ ["NEGOTIATE".toList, "KERBEROS".toList, "NTLM".toList]) (spaces : Nat) (t : Bytes)
    (ht : t ≠ []) (rest : PyStr) (hrest : rest = [] ∨ ∃ r, rest = ',' :: r) :
    getAuthToken (name ++ List.replicate spaces ' ' ++ b64Encode t ++ rest) = .ok (some t) := by
  have hafter := after_spaces spaces t ht rest hrest
  rw [show name ++ List.replicate spaces ' ' ++ b64Encode t ++ rest = name ++ (List.replicate spaces ' ' ++ b64Encode t ++ rest) by simp]
  generalize List.replicate spaces ' ' ++ b64Encode t ++ rest = tail at hafter
  have htok : tokenAt (name ++ tail) = some (b64Encode t) := by
    have hup : asciiUpper (name ++ tail) = asciiUpper name ++ asciiUpper tail := by simp [asciiUpper]
    have hlen : name.length = (asciiUpper name).length := by simp [asciiUpper]
    have uN : asciiUpper "Negotiate".toList = "NEGOTIATE".toList := by decide +kernel
    have uK : asciiUpper "Kerberos".toList = "KERBEROS".toList := by decide +kernel
    have uT : asciiUpper "NTLM".toList = "NTLM".toList := by decide +kernel
    have pre : ∀ a b : PyStr, a.isPrefixOf (a ++ b) = true := fun a b => List.isPrefixOf_iff_prefix.mpr (List.prefix_append a b)
    have nKN : ∀ b, ¬ ("KERBEROS".toList.isPrefixOf ("NEGOTIATE".toList ++ b) = true) := fun b => Bool.false_ne_true
    have nKT : ∀ b, ¬ ("KERBEROS".toList.isPrefixOf ("NTLM".toList ++ b) = true) := fun b => Bool.false_ne_true
    have nNT : ∀ b, ¬ ("NEGOTIATE".toList.isPrefixOf ("NTLM".toList ++ b) = true) := fun b => Bool.false_ne_true
    unfold tokenAt
    dsimp only
    rw [hup, uN, uK, uT]
    simp only [List.mem_cons, List.not_mem_nil, or_false] at hn
    rcases hn with hn | hn | hn
    · have hl : "Negotiate".toList.length = name.length := by
        rw [hlen, hn]
        decide +kernel
      rw [hn, if_neg (nKN _), if_pos (pre _ _), hl, List.drop_left, hafter]
    · have hl : "Kerberos".toList.length = name.length := by
        rw [hlen, hn]
        decide +kernel
      rw [hn, if_pos (pre _ _), hl, List.drop_left, hafter]
    · have hl : "NTLM".toList.length = name.length := by rw [hlen, hn]
      rw [hn, if_neg (nKT _), if_neg (nNT _), if_pos (pre _ _), hl, List.drop_left, hafter]
  have hfind : findToken (name ++ tail) = some (b64Encode t) := by
    cases hx : name ++ tail with
    | nil =>
      have hnil : tokenAt [] = none := by decide +kernel
      rw [hx, hnil] at htok
      cases htok
    | cons c cs =>
      unfold findToken
      rw [← hx, htok]
  unfold getAuthToken
  rw [hfind]
  dsimp only
  rw [b64DecodeStr_encode]
  rfl

/-- C60: a header that mentions none of the schemes has no token. -/
theorem C60_no_token (header : PyStr) (h : ∀ name ∈ ["Negotiate".toList, "Kerberos".toList, "NTLM".toList], ¬ Mentions header name) :
    getAuthToken header = .ok none := by
  have hat : ∀ s : PyStr, (∀ name ∈ ["Negotiate".toList, "Kerberos".toList, "NTLM".toList], ¬ Mentions s name) → tokenAt s = none := by
    intro s hs
    have hno : ∀ name ∈ ["Negotiate".toList, "Kerberos".toList, "NTLM".toList], ¬ (asciiUpper name).isPrefixOf (asciiUpper s) = true := by
      intro name hname hp
      obtain ⟨r, hr⟩ := List.isPrefixOf_iff_prefix.mp hp
      exact hs name hname ⟨[], r, by simp [hr]⟩
    unfold tokenAt
    dsimp only
    rw [if_neg (hno _ (by simp)), if_neg (hno _ (by simp)), if_neg (hno _ (by simp))]
  have hfind : findToken header = none := by
    induction header with
    | nil => rfl
    | cons c cs ih =>
      unfold findToken
      rw [hat _ h]
      refine ih fun name hname ⟨b, a, hba⟩ => h name hname ⟨c.toUpper :: b, a, ?_⟩
      unfold asciiUpper at hba ⊢
      rw [List.map_cons, hba]
      simp
  unfold getAuthToken
  rw [hfind]

/-- An exchange of two rounds: the context sends [1] and [2], the server answers [5] and then nothing. -/
def twoStep : TransportEnv where
  step _ inputs := if inputs = [none] then .ok (some [1], false) else if inputs = [none, some [5]] then .ok (some [2], true) else .error .valueError
  sealing _ _ := ⟨fun _ m => ([], m, 0), fun _ _ d => .ok d⟩
  decodable _ := true
  retryStatus _ := false
  parse _ := none

example : (handle401 twoStep ⟨true, some "negotiate".toList, 2⟩ "negotiate".toList none ⟨401, [], "Negotiate, NTLM".toList, []⟩
      { outcomes := [.connectFailed, .response ⟨401, [], "negotiate BQ==".toList, []⟩, .response ⟨200, [], [], []⟩] }).2 =
    { outcomes := [], context := some (0, some "negotiate".toList), clients := ["negotiate".toList], fed := [(0, none), (0, some [5])],
      log := [⟨none, some "Negotiate AQ==".toList, some .connectFailed⟩,
        ⟨none, some "Negotiate AQ==".toList, some (.response ⟨401, [], "negotiate BQ==".toList, []⟩)⟩,
        ⟨none, some "Negotiate Ag==".toList, some (.response ⟨200, [], [], []⟩)⟩] } := by decide +kernel

/-- The tokens are taken from the first of the three schemes in the header, whichever scheme is in use: here the context for Negotiate gets the
token [9] of NTLM and never sees [5]. -/
theorem C60_other_scheme : (handle401 twoStep ⟨true, some "negotiate".toList, 0⟩ "negotiate".toList none ⟨401, [], "Negotiate, NTLM".toList, []⟩
      { outcomes := [.response ⟨401, [], "NTLM CQ==, Negotiate BQ==".toList, []⟩] }).2.fed = [(0, none), (0, some [9])] := by decide +kernel

/-! ### C59 -/

theorem hasSub_iff (needle : PyStr) (s : PyStr) : hasSub needle s = true ↔ ∃ before after, s = before ++ needle ++ after := by
  induction s with
  | nil =>
    unfold hasSub
    rw [List.isPrefixOf_iff_prefix]
    constructor
    · rintro ⟨t, h⟩; exact ⟨[], t, by simp [h]⟩
    · rintro ⟨b, a, h⟩
      have : needle = [] := by
        have := congrArg List.length h
        simp at this
        exact List.length_eq_zero_iff.mp (by omega)
      rw [this]; exact List.prefix_refl _
  | cons c cs ih =>
    unfold hasSub
    rw [Bool.or_eq_true, List.isPrefixOf_iff_prefix, ih]
    constructor
    · rintro (⟨t, h⟩ | ⟨b, a, h⟩)
      · exact ⟨[], t, by simp [h]⟩
      · exact ⟨c :: b, a, by simp [h]⟩
    · rintro ⟨b, a, h⟩
      cases b with
      | nil => exact .inl ⟨a, by simpa using h.symm⟩
      | cons d ds =>
        simp only [List.cons_append, List.cons.injEq] at h
        exact .inr ⟨ds, a, h.2⟩

theorem mentions_iff (header name : PyStr) : hasSub (asciiUpper name) (asciiUpper header) = true ↔ Mentions header name := hasSub_iff _ _

instance (header name : PyStr) : Decidable (Mentions header name) := decidable_of_iff _ (mentions_iff header name)

/-- The choice of the code: the first of the three schemes in the header. -/
theorem check_eq (header : PyStr) : checkAuthSupported header authProviders =
    if Mentions header "Negotiate".toList then .ok "Negotiate".toList
    else if Mentions header "Kerberos".toList then .ok "Kerberos".toList
    else if Mentions header "NTLM".toList then .ok "NTLM".toList
    else .error .authenticationError := by
  unfold checkAuthSupported authProviders
  simp only [← mentions_iff]
  generalize asciiUpper header = h
  cases h1 : hasSub (asciiUpper "Negotiate".toList) h <;> cases h2 : hasSub (asciiUpper "Kerberos".toList) h <;>
    cases h3 : hasSub (asciiUpper "NTLM".toList) h <;> simp only [List.filter_cons, h1, h2, h3] <;> simp

/-- What it means that an exchange uses a scheme: one context is made, with the given protocol, and every request names the scheme. -/
def UsesScheme (w w' : TWorld) (scheme protocol : PyStr) : Prop :=
  w'.clients = w.clients ++ [protocol] ∧ ∃ new, w'.log = w.log ++ new ∧ ∀ e ∈ new, ∃ token, e.auth = some (scheme ++ " ".toList ++ base64Of token)

theorem uses_of_ok (env : TransportEnv) (cfg : TransportCfg) (provider : PyStr) (body : Option Bytes) (response : HttpResponse) (w : TWorld) (hw : Fresh w)
    (scheme protocol : PyStr) (hs : checkAuthSupported response.authenticate authProviders = .ok scheme) (hp : chooseProtocol provider scheme = .ok protocol) :
    UsesScheme w (handle401 env cfg provider body response w).2 scheme protocol := by
  obtain ⟨groups, tokens, h1, -, h3, -, h5, -⟩ := C60_exchange env cfg provider body response w hw scheme protocol hs hp
  refine ⟨h3, groups.flatten, h1, fun e he => ?_⟩
  obtain ⟨g, hg, heg⟩ := List.mem_flatten.mp he
  obtain ⟨i, hi, rfl⟩ := List.mem_iff_getElem.mp hg
  obtain ⟨out, -, -, k⟩ := h5.sent i _ (List.getElem?_eq_getElem hi)
  exact ⟨out, (k e heg).2⟩

theorem refuses (env : TransportEnv) (cfg : TransportCfg) (provider : PyStr) (body : Option Bytes) (response : HttpResponse) (w : TWorld) {e : PyErr}
    (h : checkAuthSupported response.authenticate authProviders = .error e ∨
      ∃ s, checkAuthSupported response.authenticate authProviders = .ok s ∧ chooseProtocol provider s = .error e) :
    handle401 env cfg provider body response w = (.raised (.py e), w) := by
  unfold handle401
  rcases h with h | ⟨s, h, h'⟩
  · simp [tbind_run, h, tlift]
  · simp [tbind_run, h, h', tlift]

theorem best_checked {header provider : PyStr} (hprov : provider ∈ ["negotiate".toList, "kerberos".toList, "ntlm".toList])
    (hbad : ¬ (provider = "ntlm".toList ∧ Mentions header "Kerberos".toList ∧ ¬ Mentions header "Negotiate".toList)) {scheme : PyStr}
    (h : BestScheme header provider scheme) : checkAuthSupported header authProviders = .ok scheme ∧ scheme ∈ usable provider := by
  have hc := check_eq header
  obtain ⟨before, after, hu, hm, hb⟩ := h
  refine ⟨?_, by rw [hu]; simp⟩
  rw [hc]
  have three : ∀ (a b c : PyStr), [a, b, c] = before ++ scheme :: after →
      (scheme = a) ∨ (scheme = b ∧ a ∈ before) ∨ (scheme = c ∧ a ∈ before ∧ b ∈ before) := by
    intro a b c h
    rcases before with _ | ⟨x, _ | ⟨y, _ | ⟨z, t⟩⟩⟩ <;> simp at h
    · exact .inl h.1.symm
    · exact .inr (.inl ⟨h.2.1.symm, by simp [h.1]⟩)
    · exact .inr (.inr ⟨h.2.2.1.symm, by simp [h.1], by simp [h.2.1]⟩)
  have two : ∀ (a b : PyStr), [a, b] = before ++ scheme :: after → (scheme = a) ∨ (scheme = b ∧ a ∈ before) := by
    intro a b h
    rcases before with _ | ⟨x, _ | ⟨y, t⟩⟩ <;> simp at h
    · exact .inl h.1.symm
    · exact .inr ⟨h.2.1.symm, by simp [h.1]⟩
  simp only [List.mem_cons, List.not_mem_nil, or_false] at hprov
  rcases hprov with rfl | rfl | rfl
  · rw [show usable "negotiate".toList = ["Negotiate".toList, "Kerberos".toList, "NTLM".toList] by decide +kernel] at hu
    rcases three _ _ _ hu with rfl | ⟨rfl, h1⟩ | ⟨rfl, h1, h2⟩
    · rw [if_pos hm]
    · rw [if_neg (hb _ h1), if_pos hm]
    · rw [if_neg (hb _ h1), if_neg (hb _ h2), if_pos hm]
  · rw [show usable "kerberos".toList = ["Negotiate".toList, "Kerberos".toList] by decide +kernel] at hu
    rcases two _ _ hu with rfl | ⟨rfl, h1⟩
    · rw [if_pos hm]
    · rw [if_neg (hb _ h1), if_pos hm]
  · rw [show usable "ntlm".toList = ["Negotiate".toList, "NTLM".toList] by decide +kernel] at hu
    rcases two _ _ hu with rfl | ⟨rfl, h1⟩
    · rw [if_pos hm]
    · have hk : ¬ Mentions header "Kerberos".toList := fun hk => hbad ⟨rfl, hk, hb _ h1⟩
      rw [if_neg (hb _ h1), if_neg hk, if_pos hm]

/-- C59 for every header, provider and state of a transport: the first usable scheme that is mentioned is used, for a context of the configured provider, or of the
scheme if the provider is negotiate; without a usable scheme authentication is refused, and nothing is sent.
Missing from the property: the provider NTLM, if the server offers Kerberos and not Negotiate, see `C59_ntlm_false`. "Offered" is what the code takes for it, the
name somewhere in the header, see `C59_realm`. -/
theorem C59_scheme_partial (env : TransportEnv) (cfg : TransportCfg) (provider : PyStr) (hprov : provider ∈ ["negotiate".toList, "kerberos".toList, "ntlm".toList])
    (body : Option Bytes) (response : HttpResponse) (w : TWorld) (hw : Fresh w)
    (hbad : ¬ (provider = "ntlm".toList ∧ Mentions response.authenticate "Kerberos".toList ∧ ¬ Mentions response.authenticate "Negotiate".toList)) :
    (∀ scheme, BestScheme response.authenticate provider scheme →
      UsesScheme w (handle401 env cfg provider body response w).2 scheme (if provider = "negotiate".toList then asciiLower scheme else provider)) ∧
    ((∀ scheme ∈ usable provider, ¬ Mentions response.authenticate scheme) →
      ∃ e, (e = .authenticationError ∨ e = .valueError) ∧ handle401 env cfg provider body response w = (.raised (.py e), w)) := by
  have hc := check_eq response.authenticate
  have hbest : ∀ scheme, BestScheme response.authenticate provider scheme → checkAuthSupported response.authenticate authProviders = .ok scheme ∧
      scheme ∈ usable provider := fun scheme h => best_checked hprov hbad h
  have hproto : ∀ provider ∈ ["negotiate".toList, "kerberos".toList, "ntlm".toList], ∀ scheme ∈ usable provider,
      chooseProtocol provider scheme = .ok (if provider = "negotiate".toList then asciiLower scheme else provider) := by decide +kernel
  constructor
  · intro scheme hs
    obtain ⟨h1, h2⟩ := hbest scheme hs
    exact uses_of_ok env cfg provider body response w hw scheme _ h1 (hproto provider hprov scheme h2)
  · intro hno
    have hN : ¬ Mentions response.authenticate "Negotiate".toList := hno _ (by
      have : ∀ provider ∈ ["negotiate".toList, "kerberos".toList, "ntlm".toList], "Negotiate".toList ∈ usable provider := by decide +kernel
      exact this provider hprov)
    rw [if_neg hN] at hc
    by_cases hK : Mentions response.authenticate "Kerberos".toList
    · have hp : provider = "ntlm".toList := by
        have : ∀ provider ∈ ["negotiate".toList, "kerberos".toList, "ntlm".toList], provider = "ntlm".toList ∨ "Kerberos".toList ∈ usable provider := by
          decide +kernel
        exact (this provider hprov).resolve_right fun h => hno _ h hK
      exact absurd ⟨hp, hK, hN⟩ hbad
    · rw [if_neg hK] at hc
      by_cases hT : Mentions response.authenticate "NTLM".toList
      · have hp : provider = "kerberos".toList := by
          have : ∀ provider ∈ ["negotiate".toList, "kerberos".toList, "ntlm".toList], provider = "kerberos".toList ∨ "NTLM".toList ∈ usable provider := by
            decide +kernel
          exact (this provider hprov).resolve_right fun h => hno _ h hT
        rw [if_pos hT] at hc
        subst hp
        exact ⟨.valueError, .inr rfl, refuses _ _ _ _ _ _ (.inr ⟨_, hc, by decide +kernel⟩)⟩
      · rw [if_neg hT] at hc
        exact ⟨.authenticationError, .inl rfl, refuses _ _ _ _ _ _ (.inl hc)⟩

/-- C59 is false for the provider NTLM and a server that offers Kerberos and NTLM: authentication is refused although NTLM is offered. -/
theorem C59_ntlm_false (env : TransportEnv) (cfg : TransportCfg) (body : Option Bytes) (w : TWorld) :
    BestScheme "Kerberos, NTLM".toList "ntlm".toList "NTLM".toList ∧
    handle401 env cfg "ntlm".toList body { status := 401, authenticate := "Kerberos, NTLM".toList } w = (.raised (.py .valueError), w) := by
  constructor
  · refine ⟨["Negotiate".toList], [], by decide +kernel, ?_, ?_⟩
    · rw [← mentions_iff]; decide +kernel
    · intro s hs
      simp only [List.mem_cons, List.not_mem_nil, or_false] at hs
      rw [← mentions_iff, hs]
      decide +kernel
  · exact refuses _ _ _ _ _ _ (.inr ⟨"Kerberos".toList, by decide +kernel, by decide +kernel⟩)

/-- What counts as an offer: the name anywhere in the header. A server that offers basic authentication for a realm with the name of a scheme is sent a token. -/
theorem C59_realm : (handle401 twoStep ⟨false, some "negotiate".toList, 0⟩ "negotiate".toList none ⟨401, [], "Basic realm=\"ntlm\"".toList, []⟩
      { outcomes := [.response ⟨401, [], [], []⟩] }).2.log = [⟨none, some "NTLM AQ==".toList, some (.response ⟨401, [], [], []⟩)⟩] := by decide +kernel

/-- Headers for which the hypotheses hold. -/
example : BestScheme "Negotiate, NTLM".toList "ntlm".toList "Negotiate".toList :=
  ⟨[], ["NTLM".toList], by decide +kernel, by rw [← mentions_iff]; decide +kernel, by simp⟩
example : BestScheme "Basic, kerberos, NTLM".toList "negotiate".toList "Kerberos".toList := by
  refine ⟨["Negotiate".toList], ["NTLM".toList], by decide +kernel, by rw [← mentions_iff]; decide +kernel, ?_⟩
  intro s hs
  simp only [List.mem_cons, List.not_mem_nil, or_false] at hs
  rw [← mentions_iff, hs]
  decide +kernel

theorem keeps_context (env : TransportEnv) (r : HttpResponse) (w : TWorld) : (responseContent env r w).2.context = w.context := by
  unfold responseContent
  split
  · cases findBoundary r.contentType with
    | none => rfl
    | some boundary =>
      dsimp only
      rw [tbind_run]
      simp only [tget]
      cases w.encryption with
      | none => rfl
      | some e =>
        simp only [tbind_run, tmodify, tlift]
        cases unwrapMessage (env.sealing e.1 w.sealCalls) r.content (ascii boundary) with
        | error e => rfl
        | ok plain => dsimp only; split <;> rfl
  · rfl

/-- C59: the protocol that messages are sealed with. A server refuses the blank request with status 401 and the authentication succeeds, so messages are sealed for the new
context, as Kerberos if that is the scheme of the exchange, as SPNEGO for the schemes Negotiate and NTLM. -/
theorem C59_sealing (env : TransportEnv) (cfg : TransportCfg) {provider scheme : PyStr} (hprov : provider ∈ ["negotiate".toList, "kerberos".toList, "ntlm".toList])
    (hcfg : cfg.provider = some provider) (hwrap : cfg.wrapRequired = true) (w w' : TWorld) (hnone : w.encryption = none) (r : HttpResponse) (rest : List NetOutcome)
    (hout : w.outcomes = .response r :: rest) (hr : r.status = 401) (hfinal : env.retryStatus 401 = false)
    (hbad : ¬ (provider = "ntlm".toList ∧ Mentions r.authenticate "Kerberos".toList ∧ ¬ Mentions r.authenticate "Negotiate".toList))
    (hbest : BestScheme r.authenticate provider scheme) (last : Bool) (hok : authenticate env cfg last w = (.ok true, w')) :
    (scheme = "Kerberos".toList ∧ w'.encryption = some (w.clients.length, .kerberos)) ∨
    ((scheme = "Negotiate".toList ∨ scheme = "NTLM".toList) ∧ w'.encryption = some (w.clients.length, .spnego)) := by
  obtain ⟨hcheck, hmem⟩ := best_checked hprov hbad hbest
  have hproto : ∃ protocol, chooseProtocol provider scheme = .ok protocol := by
    have : ∀ provider ∈ ["negotiate".toList, "kerberos".toList, "ntlm".toList], ∀ scheme ∈ usable provider,
      chooseProtocol provider scheme = .ok (if provider = "negotiate".toList then asciiLower scheme else provider) := by decide +kernel
    exact ⟨_, this provider hprov scheme hmem⟩
  obtain ⟨protocol, hproto⟩ := hproto
  have hsend : ∀ x w1, sessionSend env cfg none w = (.ok x, w1) → w1.context = some (w.clients.length, some (asciiLower scheme)) := by
    intro x w1 h
    have ha : adapterSend env cfg none none w = (.ok r, { w with outcomes := rest, log := w.log ++ [⟨none, none, some (.response r)⟩] }) := by
      unfold adapterSend
      rw [hout]
      simp [adapterLoop, hr, hfinal]
    unfold sessionSend at h
    rw [tbind_run, ha, hcfg] at h
    dsimp only at h
    rw [if_pos hr] at h
    unfold handle401 at h
    simp only [tbind_run, hcheck, hproto, tlift, tget, tmodify] at h
    split at h <;> try cases h
    split at h <;> cases h
    rfl
  have hmessage : ∀ x w1, sendRequest env cfg none w = (.ok x, w1) → w1.context = some (w.clients.length, some (asciiLower scheme)) := by
    intro x w1 h
    unfold sendRequest at h
    rw [tbind_run] at h
    cases hs : sessionSend env cfg none w with
    | mk y w2 =>
      rw [hs] at h
      cases y with
      | waiting => cases h
      | raised e => cases h
      | ok y =>
        have h2 := hsend _ _ hs
        have h3 := keeps_context env y w2
        dsimp only at h
        rw [tbind_run] at h
        cases hc : responseContent env y w2 with
        | mk z w3 =>
          rw [hc] at h h3
          cases z with
          | waiting => cases h
          | raised e => cases h
          | ok z =>
            dsimp only at h h3
            split at h
            · split at h <;> cases h
            · cases h
              rw [h3, h2]
  unfold authenticate at hok
  rw [tbind_run] at hok
  simp only [tget, hwrap, hnone, and_self, if_true] at hok
  rw [tbind_run] at hok
  unfold unlessTimeout at hok
  cases hs : sendRequest env cfg none w with
  | mk y w1 =>
    rw [hs] at hok
    cases y with
    | waiting => cases hok
    | raised e =>
      dsimp only at hok
      split at hok
      · rename_i h; split at h <;> cases h; cases hok
      · cases hok
      · cases hok
    | ok y =>
      have h1 := hmessage _ _ hs
      dsimp only at hok
      rw [tbind_run] at hok
      unfold startEncryption at hok
      rw [tbind_run] at hok
      simp only [tget, h1, tmodify] at hok
      cases hok
      have : ∀ s ∈ usable "negotiate".toList ++ usable "kerberos".toList ++ usable "ntlm".toList,
          (s = "Kerberos".toList ∧ asciiLower s = "kerberos".toList) ∨ ((s = "Negotiate".toList ∨ s = "NTLM".toList) ∧ asciiLower s ≠ "kerberos".toList) := by
        decide +kernel
      have hall : scheme ∈ usable "negotiate".toList ++ usable "kerberos".toList ++ usable "ntlm".toList := by
        simp only [List.mem_cons, List.not_mem_nil, or_false] at hprov
        rw [List.mem_append, List.mem_append]
        rcases hprov with rfl | rfl | rfl
        · exact .inl (.inl hmem)
        · exact .inl (.inr hmem)
        · exact .inr hmem
      rcases this scheme hall with ⟨h1, h2⟩ | ⟨h1, h2⟩
      · exact .inl ⟨h1, by rw [if_pos h2]⟩
      · exact .inr ⟨h1, by rw [if_neg h2]⟩

/-- Both cases. -/
def acceptsTwo : TransportEnv := { twoStep with step := fun _ inputs => .ok (if inputs.length = 1 then some [1] else none, inputs.length = 2) }

example : ((authenticate acceptsTwo ⟨true, some "negotiate".toList, 0⟩ false
      { outcomes := [.response ⟨401, [], "Kerberos, NTLM".toList, []⟩, .response ⟨200, [], "Kerberos AgI=".toList, []⟩] }).2.encryption,
    (authenticate acceptsTwo ⟨true, some "negotiate".toList, 0⟩ false
      { outcomes := [.response ⟨401, [], "Negotiate".toList, []⟩, .response ⟨200, [], "Negotiate AgI=".toList, []⟩] }).2.encryption) =
    (some (0, .kerberos), some (0, .spnego)) := by decide +kernel

end Verif
