import Verif.Spec.Transport
import Verif.Lemmas.Encryption
/-
What sending adds to the log of the transport.
-/
namespace Verif

theorem tbind_run (x : TM α) (f : α → TM β) (w : TWorld) : (x >>= f) w = match x w with
    | (.ok a, w) => f a w
    | (.raised e, w) => (.raised e, w)
    | (.waiting, w) => (.waiting, w) := rfl

theorem tpure_run (a : α) (w : TWorld) : (TM.pure a : TM α) w = (.ok a, w) := rfl

/-! ### One request -/

/-- The counters never run out before the total. -/
def Retry.Ordered (r : Retry) : Prop := r.total ≤ r.connect ∧ r.total ≤ r.status

theorem adapterLoop_spec (retryStatus : Nat → Bool) (body : Option Bytes) (auth : Option PyStr) (os : List NetOutcome) :
    ∀ (r : Retry) (n : Nat), r.total = n → r.Ordered →
      Attempts retryStatus n (adapterLoop retryStatus body auth r os).2.1 ∧
      (∀ e ∈ (adapterLoop retryStatus body auth r os).2.1, e.body = body ∧ e.auth = auth) ∧
      (∀ e ∈ (adapterLoop retryStatus body auth r os).2.1.dropLast, e.readTimeout = false) ∧
      (∀ e, (adapterLoop retryStatus body auth r os).2.1.getLast? = some e →
        (∀ o err, e.outcome = some o → o.failure = some err → (adapterLoop retryStatus body auth r os).1 = .raised (.py err)) ∧
        (∀ rsp, (adapterLoop retryStatus body auth r os).1 = .ok rsp → e.outcome = some (.response rsp)) ∧
        (e.outcome = none ↔ (adapterLoop retryStatus body auth r os).1 = .waiting)) := by
  induction os with
  | nil =>
    intro r n _ _
    refine ⟨⟨by simp [adapterLoop], ?_, by simp [adapterLoop], by simp [adapterLoop], ?_⟩, ?_, by simp [adapterLoop], ?_⟩
    · intro e he f hf; simp [adapterLoop] at he hf; simp [he, hf]
    · intro e he h; simp [adapterLoop] at he; subst he; simp [NetEntry.notConnected] at h
    · intro e he; simp [adapterLoop] at he; simp [he]
    · intro e he; simp [adapterLoop] at he; subst he; simp [adapterLoop]
  | cons o os ih =>
    intro r n hn hr
    have fin : ∀ (res : TRes HttpResponse), (o.notConnected = true → n = 0) →
        (∀ err, o.failure = some err → res = .raised (.py err)) → (∀ rsp, res = .ok rsp → o = .response rsp) → res ≠ .waiting →
        Attempts retryStatus n [⟨body, auth, some o⟩] ∧
        (∀ e ∈ [(⟨body, auth, some o⟩ : NetEntry)], e.body = body ∧ e.auth = auth) ∧
        (∀ e ∈ [(⟨body, auth, some o⟩ : NetEntry)].dropLast, e.readTimeout = false) ∧
        (∀ e, [(⟨body, auth, some o⟩ : NetEntry)].getLast? = some e →
          (∀ o err, e.outcome = some o → o.failure = some err → res = .raised (.py err)) ∧
          (∀ rsp, res = .ok rsp → e.outcome = some (.response rsp)) ∧ (e.outcome = none ↔ res = .waiting)) := by
      intro res h0 h1 h2 h3
      refine ⟨⟨by simp, ?_, by simp, by simp, ?_⟩, by simp, by simp, ?_⟩
      · intro e he f hf; simp at he hf; simp [he, hf]
      · intro e he h; simp at he; subst he; simp [NetEntry.notConnected] at h; simp [h0 h]
      · intro e he
        simp at he
        subst he
        refine ⟨?_, ?_, ?_⟩
        · intro o' err ho herr
          simp at ho; subst ho; exact h1 err herr
        · intro rsp hrsp; simp [h2 rsp hrsp]
        · simp [h3]
    have again : ∀ (r' : Retry) (err : PyErr), r'.total = r.total - 1 → r'.Ordered →
        (o.notConnected = true ∨ (⟨body, auth, some o⟩ : NetEntry).retried retryStatus = true) →
        (∀ e, o.failure = some e → e = err) → o ≠ .readTimeout → (∀ rsp, o = .response rsp → o.failure = none) →
        let res := if r'.exhausted then (.raised (.py err), [⟨body, auth, some o⟩], os) else
          let (r, entries, os) := adapterLoop retryStatus body auth r' os
          (r, (⟨body, auth, some o⟩ : NetEntry) :: entries, os)
        Attempts retryStatus n res.2.1 ∧ (∀ e ∈ res.2.1, e.body = body ∧ e.auth = auth) ∧
        (∀ e ∈ res.2.1.dropLast, e.readTimeout = false) ∧
        (∀ e, res.2.1.getLast? = some e →
          (∀ o err, e.outcome = some o → o.failure = some err → res.1 = .raised (.py err)) ∧
          (∀ rsp, res.1 = .ok rsp → e.outcome = some (.response rsp)) ∧ (e.outcome = none ↔ res.1 = .waiting)) := by
      intro r' err ht ho hagain herr hrt _
      dsimp only
      by_cases hex : r'.exhausted = true
      · have hn0 : n = 0 := by
          simp only [Retry.exhausted, Bool.or_eq_true, decide_eq_true_eq] at hex
          unfold Retry.Ordered at ho
          omega
        rw [if_pos hex]
        exact fin _ (fun _ => hn0) (fun e he => by rw [herr e he]) (by simp) (by simp)
      · rw [if_neg hex]
        have hn1 : ∃ m, n = m + 1 ∧ r'.total = m := by
          simp only [Retry.exhausted, Bool.or_eq_true, decide_eq_true_eq, not_or] at hex
          exact ⟨n - 1, by omega, by omega⟩
        obtain ⟨m, rfl, hm⟩ := hn1
        obtain ⟨h1, h2, h3, h4⟩ := ih r' m hm ho
        generalize adapterLoop retryStatus body auth r' os = x at h1 h2 h3 h4
        obtain ⟨res, entries, rest⟩ := x
        dsimp only at *
        obtain ⟨a, l, rfl⟩ : ∃ a l, entries = a :: l := by
          cases entries with
          | nil => exact absurd rfl h1.nonempty
          | cons a l => exact ⟨a, l, rfl⟩
        have hl : ((⟨body, auth, some o⟩ : NetEntry) :: a :: l).getLast? = (a :: l).getLast? := by simp
        refine ⟨⟨by simp, ?_, ?_, ?_, ?_⟩, ?_, ?_, ?_⟩
        · have hall : ∀ e ∈ (⟨body, auth, some o⟩ : NetEntry) :: a :: l, e.body = body ∧ e.auth = auth := by
            intro e he
            rcases List.mem_cons.mp he with rfl | he
            · exact ⟨rfl, rfl⟩
            · exact h2 e he
          intro e he f hf
          rw [(hall e he).1, (hall e he).2, (hall f hf).1, (hall f hf).2]
          exact ⟨rfl, rfl⟩
        · have := h1.bound; simp at this ⊢; omega
        · intro e he
          rw [List.dropLast_cons_of_ne_nil (by simp)] at he
          rcases List.mem_cons.mp he with rfl | he
          · rcases hagain with h | h
            · left; simpa [NetEntry.notConnected] using h
            · right; exact h
          · exact h1.again e he
        · intro e he h
          rw [hl] at he
          have := h1.usedUp e he h
          simp at this ⊢; omega
        · intro e he
          rcases List.mem_cons.mp he with rfl | he
          · exact ⟨rfl, rfl⟩
          · exact h2 e he
        · intro e he
          rw [List.dropLast_cons_of_ne_nil (by simp)] at he
          rcases List.mem_cons.mp he with rfl | he
          · simpa [NetEntry.readTimeout] using hrt
          · exact h3 e he
        · intro e he
          rw [hl] at he
          exact h4 e he
    have hoc : r.onConnect.Ordered := by unfold Retry.Ordered Retry.onConnect at *; dsimp only; omega
    have hos : r.onStatus.Ordered := by unfold Retry.Ordered Retry.onStatus at *; dsimp only; omega
    unfold adapterLoop
    cases o with
    | connectTimeout => exact again _ _ rfl hoc (.inl rfl) (by simp [NetOutcome.failure]) (by simp) (by simp)
    | connectFailed => exact again _ _ rfl hoc (.inl rfl) (by simp [NetOutcome.failure]) (by simp) (by simp)
    | readTimeout => exact fin _ (by simp [NetOutcome.notConnected]) (by simp [NetOutcome.failure]) (by simp) (by simp)
    | aborted => exact fin _ (by simp [NetOutcome.notConnected]) (by simp [NetOutcome.failure]) (by simp) (by simp)
    | response rsp =>
      dsimp only
      by_cases hs : retryStatus rsp.status = true
      · rw [if_pos hs]
        exact again _ _ rfl hos (.inr (by simpa [NetEntry.retried] using hs)) (by simp [NetOutcome.failure]) (by simp) (by simp [NetOutcome.failure])
      · rw [if_neg hs]
        exact fin _ (by simp [NetOutcome.notConnected]) (by simp [NetOutcome.failure]) (by simp) (by simp)

/-- What a program adds to the log: groups of attempts, entries with a property, at most `k` groups before the last one that ended in
a failure; `R` says how a failure of the last group shows in the result. -/
def GoodR (env : TransportEnv) (n k : Nat) (P : NetEntry → Prop) (R : TRes α → PyErr → Prop) (x : TM α) (w : TWorld) : Prop :=
  ∃ groups : List (List NetEntry), (x w).2.log = w.log ++ groups.flatten ∧ (∀ g ∈ groups, Attempts env.retryStatus n g) ∧
    (∀ e ∈ groups.flatten, P e) ∧ (groups.dropLast.filter fun g => (groupFailure g).isSome).length ≤ k ∧
    ∀ g, groups.getLast? = some g → ∀ err, groupFailure g = some err → R (x w).1 err

/-- The failure is raised. -/
def Raises (r : TRes α) (err : PyErr) : Prop := r = .raised (.py err)

theorem good_quiet {env : TransportEnv} {n k : Nat} {P : NetEntry → Prop} {R : TRes α → PyErr → Prop} {x : TM α} {w : TWorld}
    (h : (x w).2.log = w.log) : GoodR env n k P R x w := ⟨[], by simp [h], by simp, by simp, by simp, by simp⟩

theorem count_append {f : α → Bool} {a b : List α} (hb : b ≠ []) :
    ((a ++ b).dropLast.filter f).length = (a.filter f).length + (b.dropLast.filter f).length := by
  rw [List.dropLast_append_of_ne_nil hb, List.filter_append, List.length_append]

theorem count_last {f : α → Bool} {a : List α} {k : Nat} (h : (a.dropLast.filter f).length ≤ k) :
    (a.filter f).length ≤ k + 1 ∧ ((∀ e, a.getLast? = some e → f e = false) → (a.filter f).length ≤ k) := by
  rcases List.eq_nil_or_concat a with rfl | ⟨a, e, rfl⟩
  · simp
  · simp only [List.concat_eq_append, List.dropLast_concat] at h
    simp only [List.concat_eq_append, List.filter_append, List.length_append, List.getLast?_concat, Option.some.injEq, forall_eq']
    cases hf : f e <;> simp [hf] <;> omega

/-- Programs in sequence: the second is run only if no failure ended the first. -/
theorem good_bind {env : TransportEnv} {n k l : Nat} {P : NetEntry → Prop} {R : TRes β → PyErr → Prop} {x : TM α} {f : α → TM β} {w : TWorld}
    (hR : ∀ err, R (.raised (.py err)) err) (hx : GoodR env n k P Raises x w) (hkl : k ≤ l)
    (hf : ∀ a w1, x w = (.ok a, w1) → GoodR env n (l - k) P R (f a) w1) : GoodR env n l P R (x >>= f) w := by
  obtain ⟨g1, h1, h2, h3, h4, h5⟩ := hx
  unfold GoodR
  rw [tbind_run]
  cases hxw : x w with
  | mk r w1 =>
    rw [hxw] at h1 h5
    dsimp only at h1
    cases r with
    | raised e =>
      refine ⟨g1, h1, h2, h3, by omega, fun e' he err herr => ?_⟩
      have := h5 e' he err herr
      simp only [Raises, TRes.raised.injEq] at this
      subst this
      exact hR err
    | waiting =>
      refine ⟨g1, h1, h2, h3, by omega, fun e' he err herr => ?_⟩
      have := h5 e' he err herr
      simp [Raises] at this
    | ok a =>
      obtain ⟨g2, i1, i2, i3, i4, i5⟩ := hf a w1 hxw
      have hnone : ∀ g, g1.getLast? = some g → groupFailure g = none := by
        intro g hg
        cases hfl : groupFailure g with
        | none => rfl
        | some err =>
          have := h5 g hg err hfl
          simp [Raises] at this
      have hcount := (count_last h4).2 fun g hg => by simp [hnone g hg]
      dsimp only
      refine ⟨g1 ++ g2, by rw [i1, h1]; simp, ?_, ?_, ?_, ?_⟩
      · intro g hg
        rcases List.mem_append.mp hg with hg | hg
        · exact h2 g hg
        · exact i2 g hg
      · intro e he
        rw [List.flatten_append] at he
        rcases List.mem_append.mp he with he | he
        · exact h3 e he
        · exact i3 e he
      · by_cases hb : g2 = []
        · rw [hb, List.append_nil]; omega
        · rw [count_append hb]; omega
      · intro g he err herr
        by_cases hb : g2 = []
        · rw [hb, List.append_nil] at he
          rw [hnone g he] at herr
          simp at herr
        · rw [List.getLast?_append, Option.or_of_isSome (by simp [hb])] at he
          exact i5 g he err herr

theorem raises_raised {α : Type} (err : PyErr) : Raises (α := α) (.raised (.py err)) err := rfl

theorem good_mono {env : TransportEnv} {n k l : Nat} {P Q : NetEntry → Prop} {R S : TRes α → PyErr → Prop} {x : TM α} {w : TWorld}
    (h : GoodR env n k P R x w) (hkl : k ≤ l) (hPQ : ∀ e, P e → Q e) (hRS : ∀ r e, R r e → S r e) : GoodR env n l Q S x w := by
  obtain ⟨g, h1, h2, h3, h4, h5⟩ := h
  exact ⟨g, h1, h2, fun e he => hPQ e (h3 e he), by omega, fun e he err herr => hRS _ _ (h5 e he err herr)⟩

theorem good_seq {env : TransportEnv} {n : Nat} {P : NetEntry → Prop} {x : TM α} {f : α → TM β} {w : TWorld}
    (hx : GoodR env n 0 P Raises x w) (hf : ∀ a w1, x w = (.ok a, w1) → GoodR env n 0 P Raises (f a) w1) :
    GoodR env n 0 P Raises (x >>= f) w := good_bind raises_raised hx (Nat.le_refl _) hf

theorem good_adapterSend (env : TransportEnv) (cfg : TransportCfg) (body : Option Bytes) (auth : Option PyStr) (w : TWorld) :
    GoodR env cfg.reconnectionRetries 0 (fun e => e.body = body) Raises (adapterSend env cfg body auth) w := by
  obtain ⟨h1, h2, h3, h4⟩ := adapterLoop_spec env.retryStatus body auth w.outcomes (.initial cfg.reconnectionRetries)
    cfg.reconnectionRetries rfl ⟨Int.le_refl _, Int.le_refl _⟩
  refine ⟨[(adapterLoop env.retryStatus body auth (.initial cfg.reconnectionRetries) w.outcomes).2.1], by simp [adapterSend], by simpa using h1,
    fun e he => (h2 e (by simpa using he)).1, by simp, fun g hg err herr => ?_⟩
  simp only [List.getLast?_singleton, Option.some.injEq] at hg
  subst hg
  simp only [groupFailure, Option.bind_eq_some_iff] at herr
  obtain ⟨e, he, o, ho, hf⟩ := herr
  exact (h4 e he).1 o err ho hf

theorem tlift_log (x : Except PyErr α) (w : TWorld) : (tlift x w).2 = w := by unfold tlift; cases x <;> rfl

theorem good_tlift {env : TransportEnv} {n k : Nat} {P : NetEntry → Prop} {R : TRes α → PyErr → Prop} (x : Except PyErr α) (w : TWorld) :
    GoodR env n k P R (tlift x) w := good_quiet (by rw [tlift_log])

theorem good_pure {env : TransportEnv} {n k : Nat} {P : NetEntry → Prop} {R : TRes α → PyErr → Prop} (a : α) (w : TWorld) :
    GoodR env n k P R (TM.pure a) w := good_quiet rfl

theorem good_step {env : TransportEnv} {n k : Nat} {P : NetEntry → Prop} {R : TRes (Option Bytes × Bool) → PyErr → Prop} (c : Nat)
    (input : Option Bytes) (w : TWorld) : GoodR env n k P R (stepContext env c input) w :=
  good_quiet (by unfold stepContext; rw [tlift_log])

theorem good_authLoop (env : TransportEnv) (cfg : TransportCfg) (c : Nat) (scheme : PyStr) (body : Option Bytes) (fuel : Nat) :
    ∀ out complete response w, GoodR env cfg.reconnectionRetries 0 (fun e => e.body = body) Raises
      (authLoop env cfg c scheme body fuel out complete response) w := by
  induction fuel with
  | zero => intro out complete response w; exact good_quiet rfl
  | succ fuel ih =>
    intro out complete response w
    unfold authLoop
    split
    · exact good_pure _ _
    · refine good_seq (good_tlift _ _) fun _ _ _ => good_seq (good_adapterSend _ _ _ _ _) fun _ _ _ =>
        good_seq (good_tlift _ _) fun token _ _ => ?_
      split
      · exact good_pure _ _
      · exact good_pure _ _
      · exact good_seq (good_step _ _ _) fun _ _ _ => ih _ _ _ _

theorem good_tmodify {env : TransportEnv} {n k : Nat} {P : NetEntry → Prop} {R : TRes Unit → PyErr → Prop} {f : TWorld → TWorld} (w : TWorld)
    (hf : (f w).log = w.log) : GoodR env n k P R (tmodify f) w := good_quiet hf

theorem good_tget {env : TransportEnv} {n k : Nat} {P : NetEntry → Prop} {R : TRes TWorld → PyErr → Prop} (w : TWorld) :
    GoodR env n k P R tget w := good_quiet rfl

theorem good_handle401 (env : TransportEnv) (cfg : TransportCfg) (provider : PyStr) (body : Option Bytes) (response : HttpResponse) (w : TWorld) :
    GoodR env cfg.reconnectionRetries 0 (fun e => e.body = body) Raises (handle401 env cfg provider body response) w := by
  unfold handle401
  exact good_seq (good_tlift _ _) fun _ _ _ => good_seq (good_tlift _ _) fun _ _ _ => good_seq (good_tget _) fun _ _ _ =>
    good_seq (good_tmodify _ rfl) fun _ _ _ => good_seq (good_step _ _ _) fun _ _ _ => good_seq (good_tget _) fun _ _ _ =>
      good_seq (good_authLoop _ _ _ _ _ _ _ _ _ _) fun _ _ _ => good_seq (good_tmodify _ rfl) fun _ _ _ => good_pure _ _

theorem good_sessionSend (env : TransportEnv) (cfg : TransportCfg) (body : Option Bytes) (w : TWorld) :
    GoodR env cfg.reconnectionRetries 0 (fun e => e.body = body) Raises (sessionSend env cfg body) w := by
  unfold sessionSend
  refine good_seq (good_adapterSend _ _ _ _ _) fun _ _ _ => ?_
  split
  · exact good_pure _ _
  · split
    · exact good_handle401 _ _ _ _ _ _
    · exact good_pure _ _

theorem good_responseContent {n : Nat} {P : NetEntry → Prop} (env : TransportEnv) (r : HttpResponse) (w : TWorld) :
    GoodR env n 0 P Raises (responseContent env r) w := by
  unfold responseContent
  split
  · cases findBoundary r.contentType with
    | none => exact good_quiet rfl
    | some boundary =>
      refine good_seq (good_tget _) fun w1 _ _ => ?_
      cases w1.encryption with
      | none => exact good_quiet rfl
      | some c =>
        refine good_seq (good_tmodify _ rfl) fun _ _ _ => good_seq (good_tlift _ _) fun _ _ _ => ?_
        split
        · exact good_pure _ _
        · exact good_quiet rfl
  · exact good_quiet rfl

theorem good_sendRequest (env : TransportEnv) (cfg : TransportCfg) (body : Option Bytes) (w : TWorld) :
    GoodR env cfg.reconnectionRetries 0 (fun e => e.body = body) Raises (sendRequest env cfg body) w := by
  unfold sendRequest
  refine good_seq (good_sessionSend _ _ _ _) fun _ _ _ => good_seq (good_responseContent _ _ _) fun _ _ _ => ?_
  split
  · split
    · exact good_quiet rfl
    · exact good_quiet rfl
  · exact good_pure _ _

/-! ### Sending a message -/

/-- How a failure shows in a round: it is raised, or another round follows. -/
def RoundR (last : Bool) (r : TRes (Option α)) (err : PyErr) : Prop := r = .raised (.py err) ∨ (r = .ok none ∧ last = false)

theorem good_unless {env : TransportEnv} {n : Nat} {P : NetEntry → Prop} {last : Bool} {x : TM α} {f : Option α → TM (Option β)} {w : TWorld}
    (hx : GoodR env n 0 P Raises x w) (hnone : ∀ w1, (f none w1).1 = .ok none ∧ (f none w1).2.log = w1.log)
    (hsome : ∀ a w1, x w = (.ok a, w1) → GoodR env n 0 P (RoundR last) (f (some a)) w1) :
    GoodR env n 0 P (RoundR last) (unlessTimeout last x >>= f) w := by
  have hk : (unlessTimeout last x >>= f) w = match x w with
      | (.ok a, w) => f (some a) w
      | (.raised e, w) => if isTimeout e = true ∧ last = false then f none w else (.raised e, w)
      | (.waiting, w) => (.waiting, w) := by
    rw [tbind_run]
    unfold unlessTimeout
    cases x w with
    | mk r w1 => cases r with
      | ok a => rfl
      | raised e => by_cases h : isTimeout e = true ∧ last = false <;> simp [h]
      | waiting => rfl
  cases hxw : x w with
  | mk r w1 => cases r with
    | ok a =>
      have h1 := good_bind (R := RoundR last) (f := fun a => f (some a)) (l := 0) (fun _ => .inl rfl) hx (Nat.le_refl _) hsome
      unfold GoodR at h1 ⊢
      rw [tbind_run, hxw] at h1
      rw [hk, hxw]
      exact h1
    | raised e =>
      obtain ⟨g, h1, h2, h3, h4, h5⟩ := hx
      unfold GoodR
      rw [hk, hxw]
      rw [hxw] at h1 h5
      by_cases h : isTimeout e = true ∧ last = false
      · simp only [h, and_self, if_true]
        refine ⟨g, by rw [(hnone w1).2]; exact h1, h2, h3, h4, fun _ _ _ _ => .inr ⟨(hnone w1).1, by simp⟩⟩
      · simp only [h, if_false]
        refine ⟨g, h1, h2, h3, h4, fun e' he err herr => .inl ?_⟩
        have := h5 e' he err herr
        simp only [Raises, TRes.raised.injEq] at this
        rw [this]
    | waiting =>
      obtain ⟨g, h1, h2, h3, h4, h5⟩ := hx
      unfold GoodR
      rw [hk, hxw]
      rw [hxw] at h1 h5
      refine ⟨g, h1, h2, h3, h4, fun e' he err herr => ?_⟩
      have := h5 e' he err herr
      simp [Raises] at this

theorem wrapChunks_ok (ctx : SealContext) (p : SealProtocol) (cs : List Bytes) : ∀ k body, wrapChunks ctx p k cs = .ok body →
    body = (sealedParts ctx k cs).flatMap (fun s => partHeader p s.declared ++ sealedBytes s.header s.data) := by
  induction cs with
  | nil => intro k body h; simp [wrapChunks] at h; simp [← h, sealedParts]
  | cons c cs ih =>
    intro k body h
    unfold wrapChunks wrapOne at h
    dsimp only at h
    split at h
    · cases hr : wrapChunks ctx p (k + 1) cs with
      | error e => rw [hr] at h; cases h
      | ok rest =>
        rw [hr] at h
        have h' := Except.ok.inj h
        rw [← h', ih _ _ hr]
        simp [sealedParts, sealedBytes]
    · cases h

theorem wrapMessage_sealed {env : TransportEnv} {c k : Nat} {p : SealProtocol} {message body : Bytes} {contentType : PyStr}
    (h : wrapMessage (env.sealing c k) p message = .ok (contentType, body)) : SealedBy env message body := by
  refine ⟨c, k, p, wrapPieces p message, (wrapPieces_spec p message).1, ?_⟩
  unfold wrapMessage at h
  cases hw : wrapChunks (env.sealing c k) p 0 (wrapPieces p message) with
  | error e => rw [hw] at h; cases h
  | ok b =>
    rw [hw] at h
    simp only [bind, Except.bind, pure, Except.pure, Except.ok.injEq, Prod.mk.injEq] at h
    rw [← h.2, wrapChunks_ok _ _ _ _ _ hw]
    rw [multipart_eq]
    simp only [List.append_assoc]
    rfl

theorem requestPayload_ok {env : TransportEnv} {cfg : TransportCfg} {message body : Bytes} {w w1 : TWorld}
    (h : requestPayload env cfg message w = (.ok body, w1)) : if cfg.wrapRequired then SealedBy env message body else body = message := by
  unfold requestPayload at h
  split
  · rename_i hw
    rw [if_pos hw, tbind_run] at h
    simp only [tget] at h
    cases he : w.encryption with
    | none => rw [he] at h; simp [traise] at h
    | some cp =>
      obtain ⟨c, p⟩ := cp
      rw [he] at h
      simp only [tbind_run, tmodify, tlift] at h
      cases hm : wrapMessage (env.sealing c w.sealCalls) p message with
      | error e => rw [hm] at h; simp at h
      | ok r =>
        obtain ⟨ct, b⟩ := r
        rw [hm] at h
        simp only [TM.pure, Prod.mk.injEq, TRes.ok.injEq] at h
        rw [← h.1]
        exact wrapMessage_sealed hm
  · rename_i hw
    rw [if_neg hw] at h
    simp [TM.pure] at h
    exact h.1.symm

theorem good_requestPayload {n : Nat} {P : NetEntry → Prop} (env : TransportEnv) (cfg : TransportCfg) (message : Bytes) (w : TWorld) :
    GoodR env n 0 P Raises (requestPayload env cfg message) w := by
  unfold requestPayload
  split
  · refine good_seq (good_tget _) fun w1 _ _ => ?_
    cases w1.encryption with
    | none => exact good_quiet rfl
    | some c => exact good_seq (good_tmodify _ rfl) fun _ _ _ => good_seq (good_tlift _ _) fun _ _ _ => good_pure _ _
  · exact good_pure _ _

theorem good_startEncryption {n : Nat} {P : NetEntry → Prop} (env : TransportEnv) (w : TWorld) :
    GoodR env n 0 P Raises startEncryption w := by
  unfold startEncryption
  refine good_seq (good_tget _) fun w1 _ _ => ?_
  split
  · exact good_quiet rfl
  · exact good_quiet rfl
  · exact good_tmodify _ rfl

/-- The second part of a round. -/
def sendSealed (env : TransportEnv) (cfg : TransportCfg) (message : Bytes) (last : Bool) : TM (Option Bytes) := do
  let body ← requestPayload env cfg message
  match ← unlessTimeout last (sendRequest env cfg (some body)) with
  | none => do
    tmodify fun w => { w with encryption := none }
    TM.pure none
  | some content => TM.pure (some content)

theorem sendRound_direct {env : TransportEnv} {cfg : TransportCfg} {message : Bytes} {last : Bool} {w : TWorld}
    (h : ¬ (cfg.wrapRequired = true ∧ w.encryption = none)) :
    sendRound env cfg message last w = sendSealed env cfg message last w := by
  simp only [sendRound, authenticate, tbind_run, tget, h, if_false, tpure_run, if_true]
  rfl

theorem sendRound_auth {env : TransportEnv} {cfg : TransportCfg} {message : Bytes} {last : Bool} {w : TWorld}
    (h : cfg.wrapRequired = true ∧ w.encryption = none) :
    sendRound env cfg message last w = (unlessTimeout last (sendRequest env cfg none) >>= fun o => match o with
      | none => TM.pure none
      | some _ => startEncryption >>= fun _ => sendSealed env cfg message last) w := by
  simp only [sendRound, authenticate, tbind_run, tget, h, and_self, if_true]
  cases unlessTimeout last (sendRequest env cfg none) w with
  | mk r w1 => cases r with
    | ok o => cases o with
      | none => simp [tpure_run]
      | some a =>
        simp only [tbind_run]
        cases startEncryption w1 with
        | mk r w1 => cases r <;> simp [tpure_run] <;> rfl
    | raised e => rfl
    | waiting => rfl

theorem good_sendSealed (env : TransportEnv) (cfg : TransportCfg) (message : Bytes) (last : Bool) (w : TWorld) :
    GoodR env cfg.reconnectionRetries 0 (BodyFor env cfg.wrapRequired message) (RoundR last) (sendSealed env cfg message last) w := by
  unfold sendSealed
  refine good_bind (l := 0) (fun _ => .inl rfl) (good_requestPayload _ _ _ _) (Nat.le_refl _) fun body w1 hb => ?_
  refine good_unless ?_ (fun w1 => ⟨rfl, rfl⟩) fun a w1 _ => good_pure _ _
  exact good_mono (good_sendRequest _ _ _ _) (Nat.le_refl _) (fun e he => .inr ⟨body, he, requestPayload_ok hb⟩) fun _ _ h => h

theorem good_sendRound (env : TransportEnv) (cfg : TransportCfg) (message : Bytes) (last : Bool) (w : TWorld) :
    GoodR env cfg.reconnectionRetries 0 (BodyFor env cfg.wrapRequired message) (RoundR last) (sendRound env cfg message last) w := by
  by_cases h : cfg.wrapRequired = true ∧ w.encryption = none
  · unfold GoodR
    rw [sendRound_auth h]
    refine good_unless ?_ (fun w1 => ⟨rfl, rfl⟩) fun a w1 _ => ?_
    · exact good_mono (good_sendRequest _ _ _ _) (Nat.le_refl _) (fun e he => .inl he) fun _ _ h => h
    · exact good_bind (l := 0) (fun _ => .inl rfl) (good_startEncryption _ _) (Nat.le_refl _) fun _ w1 _ => good_sendSealed _ _ _ _ _
  · unfold GoodR
    rw [sendRound_direct h]
    exact good_sendSealed _ _ _ _ _

/-! ### The loop -/

/-- The program leaves the encryption of the transport alone. -/
def Keeps (x : TM α) : Prop := ∀ w, (x w).2.encryption = w.encryption

theorem keeps_bind {x : TM α} {f : α → TM β} (hx : Keeps x) (hf : ∀ a, Keeps (f a)) : Keeps (x >>= f) := by
  intro w
  rw [tbind_run, ← hx w]
  cases x w with
  | mk r w1 => cases r with
    | ok a => exact hf a w1
    | raised e => rfl
    | waiting => rfl

theorem keeps_tlift (x : Except PyErr α) : Keeps (tlift x) := fun w => by rw [tlift_log]
theorem keeps_tget : Keeps tget := fun _ => rfl
theorem keeps_pure (a : α) : Keeps (TM.pure a) := fun _ => rfl
theorem keeps_adapterSend (env : TransportEnv) (cfg : TransportCfg) (body : Option Bytes) (auth : Option PyStr) :
    Keeps (adapterSend env cfg body auth) := fun _ => rfl
theorem keeps_step (env : TransportEnv) (c : Nat) (input : Option Bytes) : Keeps (stepContext env c input) := fun w => by
  unfold stepContext; rw [tlift_log]

theorem keeps_authLoop (env : TransportEnv) (cfg : TransportCfg) (c : Nat) (scheme : PyStr) (body : Option Bytes) (fuel : Nat) :
    ∀ out complete response, Keeps (authLoop env cfg c scheme body fuel out complete response) := by
  induction fuel with
  | zero => intro out complete response w; rfl
  | succ fuel ih =>
    intro out complete response
    unfold authLoop
    split
    · exact keeps_pure _
    · refine keeps_bind (keeps_tlift _) fun _ => keeps_bind (keeps_adapterSend _ _ _ _) fun _ => keeps_bind (keeps_tlift _) fun token => ?_
      split
      · exact keeps_pure _
      · exact keeps_pure _
      · exact keeps_bind (keeps_step _ _ _) fun _ => ih _ _ _

theorem keeps_sendRequest (env : TransportEnv) (cfg : TransportCfg) (body : Option Bytes) : Keeps (sendRequest env cfg body) := by
  unfold sendRequest sessionSend
  refine keeps_bind (keeps_bind (keeps_adapterSend _ _ _ _) fun r => ?_) fun r => keeps_bind ?_ fun content => ?_
  · split
    · exact keeps_pure _
    · split
      · unfold handle401
        exact keeps_bind (keeps_tlift _) fun _ => keeps_bind (keeps_tlift _) fun _ => keeps_bind keeps_tget fun _ =>
          keeps_bind (fun _ => rfl) fun _ => keeps_bind (keeps_step _ _ _) fun _ => keeps_bind keeps_tget fun _ =>
            keeps_bind (keeps_authLoop _ _ _ _ _ _ _ _ _) fun _ => keeps_bind (fun _ => rfl) fun _ => keeps_pure _
      · exact keeps_pure _
  · unfold responseContent
    split
    · cases findBoundary r.contentType with
      | none => exact fun _ => rfl
      | some boundary =>
        refine keeps_bind keeps_tget fun w1 => ?_
        cases w1.encryption with
        | none => exact fun _ => rfl
        | some c =>
          refine keeps_bind (fun _ => rfl) fun _ => keeps_bind (keeps_tlift _) fun _ => ?_
          split
          · exact keeps_pure _
          · exact fun _ => rfl
    · exact keeps_pure _
  · split
    · split
      · exact fun _ => rfl
      · exact fun _ => rfl
    · exact keeps_pure _

/-- After a round that asks for another one, the transport authenticates again. -/
theorem round_again {env : TransportEnv} {cfg : TransportCfg} {message : Bytes} {last : Bool} {w w1 : TWorld}
    (h : sendRound env cfg message last w = (.ok none, w1)) : w1.encryption = none := by
  have hseal : ∀ w, sendSealed env cfg message last w = (.ok none, w1) → w1.encryption = none := by
    intro w h
    unfold sendSealed at h
    rw [tbind_run] at h
    cases hp : requestPayload env cfg message w with
    | mk r w2 =>
      rw [hp] at h
      cases r with
      | raised e => simp at h
      | waiting => simp at h
      | ok body =>
        dsimp only at h
        rw [tbind_run] at h
        cases hu : unlessTimeout last (sendRequest env cfg (some body)) w2 with
        | mk r w3 =>
          rw [hu] at h
          cases r with
          | raised e => simp at h
          | waiting => simp at h
          | ok o => cases o with
            | none =>
              simp only [tbind_run, tmodify, TM.pure, Prod.mk.injEq] at h
              rw [← h.2]
            | some c => simp [TM.pure] at h
  by_cases hd : cfg.wrapRequired = true ∧ w.encryption = none
  · rw [sendRound_auth hd, tbind_run] at h
    have hk := keeps_sendRequest env cfg none w
    unfold unlessTimeout at h
    cases hu : sendRequest env cfg none w with
    | mk r w2 =>
      rw [hu] at h hk
      dsimp only at hk
      cases r with
      | waiting => simp at h
      | raised e =>
        by_cases ht : isTimeout e = true ∧ last = false
        · simp only [ht, and_self, if_true, TM.pure, Prod.mk.injEq, true_and] at h
          rw [← h, hk, hd.2]
        · simp [ht] at h
      | ok o =>
        dsimp only at h
        rw [tbind_run] at h
        cases hs : startEncryption w2 with
        | mk r w3 =>
          rw [hs] at h
          cases r with
          | raised e => simp at h
          | waiting => simp at h
          | ok _ => exact hseal _ h
  · rw [sendRound_direct hd] at h
    exact hseal _ h

/-- The log grows. -/
def Adds (x : TM α) (w : TWorld) : Prop := w.log.length < (x w).2.log.length

theorem adds_adapterSend (env : TransportEnv) (cfg : TransportCfg) (body : Option Bytes) (auth : Option PyStr) (w : TWorld) :
    Adds (adapterSend env cfg body auth) w := by
  have := (adapterLoop_spec env.retryStatus body auth w.outcomes (.initial cfg.reconnectionRetries)
    cfg.reconnectionRetries rfl ⟨Int.le_refl _, Int.le_refl _⟩).1.nonempty
  have := List.length_pos_iff.mpr this
  show _ < (w.log ++ _).length
  rw [List.length_append]
  exact Nat.lt_add_of_pos_right this

theorem good_grows {env : TransportEnv} {n k : Nat} {P : NetEntry → Prop} {R : TRes α → PyErr → Prop} {x : TM α} {w : TWorld}
    (h : GoodR env n k P R x w) : w.log.length ≤ (x w).2.log.length := by
  obtain ⟨g, h, -⟩ := h
  rw [h]; simp

theorem adds_first {x : TM α} {f : α → TM β} {w : TWorld} (hx : Adds x w)
    (hf : ∀ a w1, x w = (.ok a, w1) → w1.log.length ≤ (f a w1).2.log.length) : Adds (x >>= f) w := by
  unfold Adds at *
  rw [tbind_run]
  cases h : x w with
  | mk r w1 =>
    rw [h] at hx
    cases r with
    | ok a => exact Nat.lt_of_lt_of_le hx (hf a w1 h)
    | raised e => exact hx
    | waiting => exact hx

theorem adds_sendRequest (env : TransportEnv) (cfg : TransportCfg) (body : Option Bytes) (w : TWorld) : Adds (sendRequest env cfg body) w := by
  unfold sendRequest
  refine adds_first ?_ fun r w1 _ => good_grows (env := env) (n := 0) (k := 0) (P := fun _ => True) (R := Raises) ?_
  · unfold sessionSend
    refine adds_first (adds_adapterSend _ _ _ _ _) fun r w1 _ => ?_
    cases cfg.provider with
    | none => exact Nat.le_refl _
    | some provider =>
      dsimp only
      split
      · exact good_grows (good_handle401 _ _ _ _ _ _)
      · exact Nat.le_refl _
  · refine good_seq (good_responseContent _ _ _) fun _ _ _ => ?_
    split
    · split
      · exact good_quiet rfl
      · exact good_quiet rfl
    · exact good_pure _ _

theorem adds_unless {x : TM α} {w : TWorld} (last : Bool) (hx : Adds x w) : Adds (unlessTimeout last x) w := by
  unfold Adds unlessTimeout at *
  cases h : x w with
  | mk r w1 =>
    rw [h] at hx
    cases r with
    | ok a => exact hx
    | raised e => dsimp only; split <;> exact hx
    | waiting => exact hx

theorem adds_sendRound {env : TransportEnv} {cfg : TransportCfg} {message : Bytes} {last : Bool} {w : TWorld} (h : w.encryption = none) :
    Adds (sendRound env cfg message last) w := by
  by_cases hw : cfg.wrapRequired = true
  · unfold Adds
    rw [sendRound_auth ⟨hw, h⟩]
    refine adds_first (adds_unless _ (adds_sendRequest _ _ _ _)) fun o w1 _ => ?_
    cases o with
    | none => exact Nat.le_refl _
    | some a =>
      exact good_grows (good_bind (l := 0) (R := RoundR last) (fun _ => .inl rfl) (good_startEncryption _ _) (Nat.le_refl _)
        fun _ w1 _ => good_sendSealed _ _ _ _ _)
  · unfold Adds
    rw [sendRound_direct (by simp [hw])]
    have hp : requestPayload env cfg message = TM.pure message := by unfold requestPayload; rw [if_neg hw]
    unfold sendSealed
    rw [hp, tbind_run, tpure_run]
    dsimp only
    refine adds_first (adds_unless _ (adds_sendRequest _ _ _ _)) fun o w1 _ => ?_
    cases o <;> exact Nat.le_refl _

theorem good_sendLoop (env : TransportEnv) (cfg : TransportCfg) (message : Bytes) (left : Nat) : ∀ w,
    GoodR env cfg.reconnectionRetries left (BodyFor env cfg.wrapRequired message) Raises (sendLoop env cfg message left) w ∧
    (w.encryption = none → Adds (sendLoop env cfg message left) w) := by
  induction left with
  | zero =>
    intro w
    have hk : sendLoop env cfg message 0 w = (sendRound env cfg message true >>= fun o => match o with
      | none => (fun w => (.waiting, w))
      | some content => TM.pure content) w := by rfl
    have hr : GoodR env cfg.reconnectionRetries 0 (BodyFor env cfg.wrapRequired message) Raises (sendRound env cfg message true) w :=
      good_mono (good_sendRound env cfg message true w) (Nat.le_refl _) (fun _ h => h) fun r e h => by
        rcases h with h | ⟨-, h⟩
        · exact h
        · simp at h
    refine ⟨?_, fun h => ?_⟩
    · unfold GoodR
      rw [hk]
      refine good_seq hr fun o w1 _ => ?_
      cases o <;> exact good_quiet rfl
    · unfold Adds
      rw [hk]
      refine adds_first (adds_sendRound h) fun o w1 _ => ?_
      cases o <;> exact Nat.le_refl _
  | succ left ih =>
    intro w
    have hr := good_sendRound env cfg message false w
    have hk : sendLoop env cfg message (left + 1) w = (sendRound env cfg message false >>= fun o => match o with
      | none => sendLoop env cfg message left
      | some content => TM.pure content) w := by rfl
    refine ⟨?_, fun h => ?_⟩
    · unfold GoodR
      rw [hk, tbind_run]
      obtain ⟨g1, h1, h2, h3, h4, h5⟩ := hr
      cases hx : sendRound env cfg message false w with
      | mk r w1 =>
        rw [hx] at h1 h5
        cases r with
        | waiting =>
          refine ⟨g1, h1, h2, h3, by omega, fun e he err herr => ?_⟩
          have := h5 e he err herr
          simp [RoundR] at this
        | raised e' =>
          refine ⟨g1, h1, h2, h3, by omega, fun e he err herr => ?_⟩
          have := h5 e he err herr
          simp only [RoundR, TRes.raised.injEq, reduceCtorEq, false_and, or_false] at this
          rw [this]
          rfl
        | ok o => cases o with
          | some a =>
            refine ⟨g1, h1, h2, h3, by omega, fun e he err herr => ?_⟩
            have := h5 e he err herr
            simp [RoundR] at this
          | none =>
            obtain ⟨⟨g2, i1, i2, i3, i4, i5⟩, hadd⟩ := ih w1
            have hadd := hadd (round_again hx)
            have hb : g2 ≠ [] := by
              intro hb
              unfold Adds at hadd
              rw [i1, hb] at hadd
              simp at hadd
            have hc := (count_last h4).1
            refine ⟨g1 ++ g2, by dsimp only at h1 ⊢; rw [i1, h1]; simp, ?_, ?_, ?_, ?_⟩
            · intro g hg
              rcases List.mem_append.mp hg with hg | hg
              · exact h2 g hg
              · exact i2 g hg
            · intro e he
              rw [List.flatten_append] at he
              rcases List.mem_append.mp he with he | he
              · exact h3 e he
              · exact i3 e he
            · rw [count_append hb]; omega
            · intro e he err herr
              rw [List.getLast?_append, Option.or_of_isSome (by simp [hb])] at he
              exact i5 e he err herr
    · unfold Adds
      rw [hk]
      refine adds_first (adds_sendRound h) fun o w1 _ => ?_
      cases o with
      | none => exact good_grows (ih w1).1
      | some a => exact Nat.le_refl _

end Verif
