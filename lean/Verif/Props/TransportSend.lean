import Verif.Lemmas.Transport
/-
C46, C47, C48, C52: sending.
-/
namespace Verif

/-! ### C48 -/

/-- C48: for all settings. The connection is refused with a ValueError for an unknown authentication or setting, and when the setting asks
for encryption and the authentication cannot seal; otherwise encryption is used exactly as the setting says. -/
theorem C48_settings (ssl : Bool) (setting auth : PyStr) :
    let known := auth ∈ ["basic".toList, "certificate".toList, "credssp".toList, "kerberos".toList, "negotiate".toList, "ntlm".toList] ∧
      (setting = "auto".toList ∨ setting = "always".toList ∨ setting = "never".toList)
    let sealing := auth ≠ "basic".toList ∧ auth ≠ "certificate".toList
    (∀ wrap, configure ssl setting auth = .ok wrap ↔ known ∧ (wrap = true ↔ encryptionUsed ssl setting) ∧ (encryptionUsed ssl setting → sealing)) ∧
    (configure ssl setting auth = .error .valueError ↔ ¬ (known ∧ (encryptionUsed ssl setting → sealing))) ∧
    (∀ e, configure ssl setting auth = .error e → e = .valueError) := by
  dsimp only
  by_cases hk : auth ∈ supportedAuths
  · by_cases hs : setting ∈ ["auto".toList, "always".toList, "never".toList]
    · have key : ∀ auth ∈ supportedAuths, ∀ setting ∈ ["auto".toList, "always".toList, "never".toList], ∀ ssl : Bool,
          configure ssl setting auth = (if (setting = "always".toList ∨ (setting = "auto".toList ∧ ssl = false)) then
            if auth = "basic".toList ∨ auth = "certificate".toList then .error .valueError else .ok true else .ok false) := by
        decide +kernel
      have hc := key auth hk setting hs ssl
      have h1 : setting = "auto".toList ∨ setting = "always".toList ∨ setting = "never".toList := by simpa using hs
      have h2 : auth ∈ ["basic".toList, "certificate".toList, "credssp".toList, "kerberos".toList, "negotiate".toList, "ntlm".toList] := hk
      have hcases : (encryptionUsed ssl setting) = (setting = "always".toList ∨ (setting = "auto".toList ∧ ssl = false)) := rfl
      rw [hc, hcases]
      by_cases hu : (setting = "always".toList ∨ (setting = "auto".toList ∧ ssl = false))
      · rw [if_pos hu]
        by_cases hb : auth = "basic".toList ∨ auth = "certificate".toList
        · rw [if_pos hb]
          have hn : ¬ (auth ≠ "basic".toList ∧ auth ≠ "certificate".toList) := fun h => hb.elim h.1 h.2
          refine ⟨fun wrap => ⟨fun h => by simp at h, fun h => absurd (h.2.2 hu) hn⟩, ⟨fun _ h => hn (h.2 hu), fun _ => rfl⟩,
            fun e h => by simpa using h.symm⟩
        · rw [if_neg hb]
          have hn : auth ≠ "basic".toList ∧ auth ≠ "certificate".toList := ⟨fun h => hb (.inl h), fun h => hb (.inr h)⟩
          refine ⟨fun wrap => ⟨fun h => ⟨⟨h2, h1⟩, ?_, fun _ => hn⟩, fun h => ?_⟩, ⟨fun h => by simp at h, fun h => absurd ⟨⟨h2, h1⟩, fun _ => hn⟩ h⟩,
            fun e h => by simp at h⟩
          · simp only [Except.ok.injEq] at h
            exact ⟨fun _ => hu, fun _ => h.symm⟩
          · rw [h.2.1.mpr hu]
      · rw [if_neg hu]
        refine ⟨fun wrap => ⟨fun h => ⟨⟨h2, h1⟩, ?_, fun h => absurd h hu⟩, fun h => ?_⟩,
          ⟨fun h => by simp at h, fun h => absurd ⟨⟨h2, h1⟩, fun h => absurd h hu⟩ h⟩, fun e h => by simp at h⟩
        · simp only [Except.ok.injEq] at h
          subst h
          exact ⟨fun h => by simp at h, fun h => absurd h hu⟩
        · cases wrap with
          | false => rfl
          | true => exact absurd (h.2.1.mp rfl) hu
    · have hn : ¬ (setting = "auto".toList ∨ setting = "always".toList ∨ setting = "never".toList) := by simpa using hs
      have hc : configure ssl setting auth = .error .valueError := by
        unfold configure; rw [if_neg (by simpa using hk), if_pos hs]
      rw [hc]
      exact ⟨fun wrap => ⟨fun h => by simp at h, fun h => absurd h.1.2 hn⟩, ⟨fun _ h => hn h.1.2, fun _ => rfl⟩, fun e h => by simpa using h.symm⟩
  · have hc : configure ssl setting auth = .error .valueError := by unfold configure; rw [if_pos hk]
    rw [hc]
    exact ⟨fun wrap => ⟨fun h => by simp at h, fun h => absurd h.1.1 hk⟩, ⟨fun _ h => hk h.1.1, fun _ => rfl⟩, fun e h => by simpa using h.symm⟩

example : configure false "auto".toList "ntlm".toList = .ok true := by decide +kernel
example : configure true "auto".toList "ntlm".toList = .ok false := by decide +kernel
example : configure true "always".toList "basic".toList = .error .valueError := by decide +kernel
example : configure false "auto".toList "basic".toList = .error .valueError := by decide +kernel
example : configure false "never".toList "basic".toList = .ok false := by decide +kernel

/-! ### A world for the examples -/

/-- A context that needs one round: it sends [1], and for the answer it is complete. It seals by flipping the bits. -/
def demoEnv : TransportEnv where
  step _ inputs := if inputs.length = 1 then .ok (some [1], false) else .ok (none, true)
  sealing _ _ := ⟨fun _ m => ([7], m.map (255 - ·), 0), fun _ _ d => .ok (d.map (255 - ·))⟩
  decodable _ := true
  retryStatus s := s == 503
  parse _ := none

def demoCfg : TransportCfg := ⟨true, some "negotiate".toList, 2⟩
def plainCfg (n : Nat) : TransportCfg := ⟨false, none, n⟩

/-- The responses of a server that asks for authentication, completes it, and answers. -/
def challenge : NetOutcome := .response { status := 401, authenticate := "Negotiate".toList }
def accept : NetOutcome := .response { status := 200, authenticate := "Negotiate AgI=".toList }
def answer : NetOutcome := .response { status := 200, content := [9] }

/-! ### C46 -/

/-- C46 for one message, in all states and for all outcomes on the network. The attempts to send are divided into requests;
for each request the same bytes are sent `1 + reconnection_retries` times at most, again only after a failure to connect (or a status for
which urllib3 repeats), and if the last attempt had no connection the budget is used up. A request follows a
failed one only after timeouts, `left` times at most, and never if `left = 0`; a failure of the last request is the exception that is raised. -/
theorem C46_bounded_partial (env : TransportEnv) (cfg : TransportCfg) (message : Bytes) (left : Nat) (w : TWorld) :
    ∃ groups : List (List NetEntry), (sendLoop env cfg message left w).2.log = w.log ++ groups.flatten ∧
      (∀ g ∈ groups, Attempts env.retryStatus cfg.reconnectionRetries g) ∧
      (groups.dropLast.filter fun g => (groupFailure g).isSome).length ≤ left ∧
      (left = 0 → ∀ g ∈ groups.dropLast, groupFailure g = none) ∧
      (∀ g err, groups.getLast? = some g → groupFailure g = some err → (sendLoop env cfg message left w).1 = .raised (.py err)) := by
  obtain ⟨g, h1, h2, -, h4, h5⟩ := (good_sendLoop env cfg message left w).1
  refine ⟨g, h1, h2, h4, ?_, fun g' err hg herr => h5 g' hg err herr⟩
  rintro rfl g' hg
  have := List.filter_eq_nil_iff.mp (List.length_eq_zero_iff.mp (Nat.le_zero.mp h4)) g' hg
  simpa using this

/-- Two failures to connect, the third attempt is answered. -/
example : sendLoop demoEnv (plainCfg 2) [5] 0 { outcomes := [.connectFailed, .connectTimeout, answer] } =
    (.ok [9], { outcomes := [], log := [⟨some [5], none, some .connectFailed⟩, ⟨some [5], none, some .connectTimeout⟩, ⟨some [5], none, some answer⟩] }) := by
  decide +kernel

/-- The budget is used up, and the last error is raised. -/
example : (sendLoop demoEnv (plainCfg 1) [5] 0 { outcomes := [.connectFailed, .connectTimeout, answer] }).1 = .raised (.py .connectTimeout) := by
  decide +kernel

/-- C46 is false for receives: without any retries allowed, six attempts are made when the connection cannot be made in time, because
`retries_on_read_timeout` also counts for connect timeouts. -/
theorem C46_receive_false : (wsmanInvoke demoEnv (plainCfg 0) .receive [] [5] { outcomes := List.replicate 6 .connectTimeout }).2.log =
    List.replicate 6 ⟨some [5], none, some .connectTimeout⟩ := by decide +kernel

/-- C46 is false for a connection lost after the request was sent: the error is raised although the budget was not touched. -/
theorem C46_aborted_false (n : Nat) (os : List NetOutcome) :
    sendLoop demoEnv (plainCfg n) [5] 0 { outcomes := .aborted :: os } =
      (.raised (.py .connectionError), { outcomes := os, log := [⟨some [5], none, some .aborted⟩] }) := rfl

/-! ### C47 -/

/-- C47: for every history of a transport for which encryption is required, in all states and for all outcomes on the network: every attempt has no body or
a sealed one, made from one of the messages. -/
theorem C47_sealed (env : TransportEnv) (cfg : TransportCfg) (hw : cfg.wrapRequired = true) (messages : List (Bytes × Nat)) (w : TWorld) :
    ∃ new, (sendAll env cfg messages w).log = w.log ++ new ∧
      ∀ e ∈ new, ∀ body, e.body = some body → ∃ m ∈ messages, SealedBy env m.1 body := by
  unfold sendAll
  induction messages generalizing w with
  | nil => exact ⟨[], by simp, by simp⟩
  | cons m ms ih =>
    rw [List.foldl_cons]
    obtain ⟨new, h1, h2⟩ := ih (sendLoop env cfg m.1 m.2 w).2
    obtain ⟨g, i1, -, i3, -⟩ := (good_sendLoop env cfg m.1 m.2 w).1
    refine ⟨g.flatten ++ new, by rw [h1, i1]; simp, fun e he body hb => ?_⟩
    rcases List.mem_append.mp he with he | he
    · rcases i3 e he with h | ⟨b, h, hs⟩
      · rw [h] at hb; cases hb
      · rw [hw, if_pos rfl] at hs
        rw [hb, Option.some.injEq] at h
        subst h
        exact ⟨m, List.mem_cons_self, hs⟩
    · obtain ⟨m', hm, hs⟩ := h2 e he body hb
      exact ⟨m', List.mem_cons_of_mem _ hm, hs⟩

/-- Without encryption the body is the message. -/
theorem C47_plain (env : TransportEnv) (cfg : TransportCfg) (hw : cfg.wrapRequired = false) (message : Bytes) (left : Nat) (w : TWorld) :
    ∃ new, (sendLoop env cfg message left w).2.log = w.log ++ new ∧ ∀ e ∈ new, e.body = none ∨ e.body = some message := by
  obtain ⟨g, i1, -, i3, -⟩ := (good_sendLoop env cfg message left w).1
  refine ⟨g.flatten, i1, fun e he => ?_⟩
  rcases i3 e he with h | ⟨b, h, hs⟩
  · exact .inl h
  · rw [hw] at hs
    simp only [Bool.false_eq_true, if_false] at hs
    exact .inr (hs ▸ h)

/-- A message that is lost and sent again after a new authentication. The five requests: blank, token, sealed (lost), blank, token, sealed. -/
example : let log := (sendAll demoEnv demoCfg [([5], 1)] { outcomes := [challenge, accept, .readTimeout, challenge, accept, answer] }).log
    log.map (·.body.isSome) = [false, false, true, false, false, true] ∧
    (log.map (·.auth)) = [none, some "Negotiate AQ==".toList, none, none, some "Negotiate AQ==".toList, none] ∧
    some [5] ∉ log.map (·.body) := by decide +kernel

/-! ### C52 -/

/-- An attempt that had no reply in time is the last of its request. -/
theorem failed_groups {retryStatus : Nat → Bool} {n : Nat} (groups : List (List NetEntry)) (h : ∀ g ∈ groups, Attempts retryStatus n g) :
    (groups.flatten.filter NetEntry.readTimeout).length ≤ (groups.filter fun g => (groupFailure g).isSome).length := by
  induction groups with
  | nil => simp
  | cons g gs ih =>
    have ih := ih fun g hg => h g (List.mem_cons_of_mem _ hg)
    have hg := h g List.mem_cons_self
    have hdrop : (g.dropLast.filter NetEntry.readTimeout).length ≤ 0 := by
      rw [List.filter_eq_nil_iff.mpr fun e he => ?_]
      · simp
      · rcases hg.again e he with h | h
        · unfold NetEntry.notConnected at h
          unfold NetEntry.readTimeout
          intro hr
          rw [decide_eq_true_eq] at hr
          rw [hr] at h
          simp [NetOutcome.notConnected] at h
        · unfold NetEntry.retried at h
          unfold NetEntry.readTimeout
          intro hr
          rw [decide_eq_true_eq] at hr
          rw [hr] at h
          simp at h
    have hc := count_last hdrop
    rw [List.flatten_cons, List.filter_append, List.length_append, List.filter_cons]
    cases hf : groupFailure g with
    | some e => simp only [Option.isSome_some, if_true, List.length_cons]; omega
    | none =>
      have := hc.2 fun e he => by
        unfold groupFailure at hf
        rw [he] at hf
        unfold NetEntry.readTimeout
        cases ho : e.outcome with
        | none => rfl
        | some o =>
          rw [Option.bind_some, ho, Option.bind_some] at hf
          cases o <;> simp [NetOutcome.failure] at hf
          simp
      simp only [Option.isSome_none, Bool.false_eq_true, if_false]
      omega

theorem readTimeouts_sendLoop (env : TransportEnv) (cfg : TransportCfg) (message : Bytes) (left : Nat) (w : TWorld) :
    ∃ new, (sendLoop env cfg message left w).2.log = w.log ++ new ∧ (new.dropLast.filter NetEntry.readTimeout).length ≤ left := by
  obtain ⟨g, h1, h2, -, h4, h5⟩ := (good_sendLoop env cfg message left w).1
  refine ⟨g.flatten, h1, ?_⟩
  rcases List.eq_nil_or_concat g with rfl | ⟨gs, g, rfl⟩
  · simp
  · rw [List.concat_eq_append] at h2 h4 ⊢
    rw [List.dropLast_concat] at h4
    have hg := h2 g (by simp)
    have := failed_groups gs fun g hg => h2 g (by simp [hg])
    rw [List.flatten_append, List.flatten_cons, List.flatten_nil, List.append_nil, count_append hg.nonempty]
    have hdrop : g.dropLast.filter NetEntry.readTimeout = [] := by
      rw [List.filter_eq_nil_iff]
      intro e he hr
      unfold NetEntry.readTimeout at hr
      rw [decide_eq_true_eq] at hr
      rcases hg.again e he with h | h
      · unfold NetEntry.notConnected at h; rw [hr] at h; simp [NetOutcome.notConnected] at h
      · unfold NetEntry.retried at h; rw [hr] at h; simp at h
    rw [hdrop, List.length_nil]
    omega

/-- C52: for every action, in all states and for all outcomes on the network. After an attempt without a reply in time nothing more
is sent, except for a receive; for a receive at most 5 attempts without a reply are followed by another one. -/
theorem C52_readTimeout (env : TransportEnv) (cfg : TransportCfg) (action : WSManAction) (id : PyStr) (message : Bytes) (w : TWorld) :
    ∃ new, (wsmanInvoke env cfg action id message w).2.log = w.log ++ new ∧
      (action ≠ .receive → ∀ e ∈ new.dropLast, e.outcome ≠ some .readTimeout) ∧
      (new.dropLast.filter fun e => e.outcome = some .readTimeout).length ≤ 5 := by
  have hlog : (wsmanInvoke env cfg action id message w).2.log = (sendLoop env cfg message action.readRetries w).2.log := by
    unfold wsmanInvoke
    cases sendLoop env cfg message action.readRetries w with
    | mk r w1 => cases r with
      | waiting => rfl
      | raised e => cases e with
        | http code text => dsimp only; cases env.parse text <;> rfl
        | py e => rfl
        | fault => rfl
      | ok c =>
        dsimp only
        cases env.parse c with
        | none => rfl
        | some x => dsimp only; split <;> rfl
  obtain ⟨new, h1, h2⟩ := readTimeouts_sendLoop env cfg message action.readRetries w
  refine ⟨new, hlog.trans h1, fun ha e he ho => ?_, Nat.le_trans h2 (by cases action <;> decide)⟩
  have h0 : action.readRetries = 0 := by cases action <;> first | rfl | exact absurd rfl ha
  rw [h0] at h2
  have := List.filter_eq_nil_iff.mp (List.length_eq_zero_iff.mp (Nat.le_zero.mp h2)) e he
  exact this (by simp [NetEntry.readTimeout, ho])

/-- A receive is sent six times; a command once. -/
example : (wsmanInvoke demoEnv (plainCfg 3) .receive [] [5] { outcomes := List.replicate 9 .readTimeout }).2.log.length = 6 := by decide +kernel
example : (wsmanInvoke demoEnv (plainCfg 3) .command [] [5] { outcomes := List.replicate 9 .readTimeout }).2.log.length = 1 := by decide +kernel

end Verif
