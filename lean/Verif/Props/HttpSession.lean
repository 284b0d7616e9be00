import Verif.Model.HttpSession
import Verif.Props.PoolManager
import Verif.Lemmas.Base64
import Verif.Props.Encodings
/-
C86: the HTTP session is built as the settings say. C87: its connections and the places its requests go to.
-/
namespace Verif

/-! ### Specification -/

/-- The argument of the caller, if it is not None. -/
def argument (s : HttpSettings) (name : String) : Option OptVal :=
  match s.kwargs.find? (fun e => e.1 = name.toList) with
  | none => none
  | some (_, .none) => none
  | some (_, v) => some v

/-- Everything that the authentication needs was given. -/
def Complete (s : HttpSettings) : Prop :=
  (s.auth = "basic".toList ∨ s.auth = "credssp".toList → s.username ≠ none ∧ s.password ≠ none) ∧
    (s.auth = "certificate".toList → argument s "certificate_pem" ≠ none ∧ argument s "certificate_key_pem" ≠ none ∧ s.ssl = true)

/-- The text of a variable of the environment, if it is not empty. -/
def nonempty : Option PyStr → Option PyStr
  | some (c :: cs) => some (c :: cs)
  | _ => none

/-- RFC 7617: the credentials in a header, as Latin-1, split at the first colon. -/
def ReadsBasic (h user password : PyStr) : Prop :=
  ∃ b : Bytes, h = "Basic ".toList ++ base64Of b ∧ user = (b.map fun x => Char.ofNat x.toNat).takeWhile (· ≠ ':') ∧
    password = ((b.map fun x => Char.ofNat x.toNat).dropWhile (· ≠ ':')).drop 1

/-- The address of the server. -/
def serverAt (s : HttpSettings) (host : PyStr) : Target := ⟨s.ssl, host⟩

/-! ### Lemmas -/

theorem attribute_eq (s : HttpSettings) (name : String) (h : authKwargsTable.any (fun e => e.2.contains name.toList) = true) :
    s.attribute name.toList = (argument s name).getD .none := by
  unfold HttpSettings.attribute argument lookupKey
  rw [if_pos h]
  cases s.kwargs.find? (fun e => decide (e.1 = name.toList)) with
  | none => rfl
  | some e => obtain ⟨n, v⟩ := e; cases v <;> rfl

theorem argument_ne (s : HttpSettings) (name : String) : argument s name ≠ some .none := by
  unfold argument
  cases s.kwargs.find? (fun e => decide (e.1 = name.toList)) with
  | none => simp
  | some e => obtain ⟨n, v⟩ := e; cases v <;> simp

theorem getD_none_iff (s : HttpSettings) (name : String) : (argument s name).getD .none = .none ↔ argument s name = none := by
  have := argument_ne s name
  cases h : argument s name with
  | none => simp
  | some v => rw [h] at this; simp at this ⊢; exact this

/-- The session before the authentication. -/
def plainSession (env : Environ) (s : HttpSettings) : HttpSession where
  headers := [("User-Agent".toList, "Python PSRP Client".toList), ("Accept-Encoding".toList, "identity".toList)]
  proxies := match s.proxy with
    | some p => [(if s.ssl then "https".toList else "http".toList, .url p)]
    | none => if s.noProxy then [(if s.ssl then "https".toList else "http".toList, .no)] else environProxies env
  verify := match s.certValidation with
    | .bool true => environVerify env
    | v => v
  cert := none
  auth := .none
  httpAdapter := { retries := .initial s.retries, keyPassword := .none }
  httpsAdapter := { retries := .initial s.retries, keyPassword := s.attribute "certificate_key_password".toList }

theorem buildSession_eq (env : Environ) (s : HttpSettings) : buildSession env s = buildAuth s (plainSession env s) := rfl

/-- The options for CredSSP. -/
def credsspOptions (s : HttpSettings) : List (PyStr × OptVal) :=
  ["credssp_auth_mechanism".toList, "credssp_disable_tlsv1_2".toList, "credssp_minimum_version".toList].filterMap fun name =>
      if s.attribute name ≠ .none then some (name.drop 8, s.attribute name) else none

/-- The options for negotiate. -/
def negotiateOptions (s : HttpSettings) : List (PyStr × OptVal) :=
  ["negotiate_delegate".toList, "negotiate_hostname_override".toList, "negotiate_send_cbt".toList, "negotiate_service".toList].filterMap fun name =>
      if s.attribute name ≠ .none then some (name.drop 10, s.attribute name) else none

/-- The authentication, client certificate and headers for the settings. -/
def AuthOf (s : HttpSettings) (auth : SessionAuth) (cert : Option (OptVal × OptVal)) (more : List (PyStr × PyStr)) : Prop :=
  if s.auth = "certificate".toList then
    auth = .none ∧ cert = some (s.attribute "certificate_pem".toList, s.attribute "certificate_key_pem".toList) ∧
      more = [("Authorization".toList, "http://schemas.dmtf.org/wbem/wsman/1/wsman/secprofile/https/mutual".toList)]
  else cert = none ∧ more = [] ∧
    if s.auth = "basic".toList then ∃ u p, s.username = some u ∧ s.password = some p ∧ auth = .basic u p
    else if s.auth = "credssp".toList then ∃ u p, s.username = some u ∧ s.password = some p ∧ auth = .credssp u p (credsspOptions s)
    else auth = .negotiate (negotiateAuth s.username s.password s.auth s.wrapRequired (negotiateOptions s))

theorem built (env : Environ) {s : HttpSettings} (ha : s.auth ∈ supportedAuths) :
    (¬ Complete s ∧ buildSession env s = .error .valueError) ∨
    (Complete s ∧ ∃ auth cert more, AuthOf s auth cert more ∧
      buildSession env s = .ok { plainSession env s with auth, cert, headers := (plainSession env s).headers ++ more }) := by
  rw [buildSession_eq]
  have hpem := attribute_eq s "certificate_pem" (by decide +kernel)
  have hkey := attribute_eq s "certificate_key_pem" (by decide +kernel)
  simp only [supportedAuths, List.mem_cons, List.not_mem_nil, or_false] at ha
  rcases ha with h | h | h | h | h | h
  · unfold buildAuth
    rw [if_pos h]
    unfold needCredentials
    have hne : ¬ s.auth = "certificate".toList := by rw [h]; decide
    cases hu : s.username with
    | none => exact .inl ⟨fun hc => (hc.1 (.inl h)).1 hu, rfl⟩
    | some u =>
      cases hp : s.password with
      | none => exact .inl ⟨fun hc => (hc.1 (.inl h)).2 hp, rfl⟩
      | some p =>
        refine .inr ⟨⟨fun _ => ⟨by simp [hu], by simp [hp]⟩, fun hc => absurd hc hne⟩, .basic u p, none, [], ?_, ?_⟩
        · unfold AuthOf; rw [if_neg hne, if_pos h]; exact ⟨rfl, rfl, u, p, hu, hp, rfl⟩
        · rfl
  · unfold buildAuth
    rw [if_neg (by rw [h]; decide), if_pos h, hkey, hpem]
    by_cases h1 : argument s "certificate_key_pem" = none
    · rw [if_pos ((getD_none_iff ..).2 h1)]
      exact .inl ⟨fun hc => (hc.2 h).2.1 h1, rfl⟩
    · rw [if_neg (fun hc => h1 ((getD_none_iff ..).1 hc))]
      by_cases h2 : argument s "certificate_pem" = none
      · rw [if_pos ((getD_none_iff ..).2 h2)]
        exact .inl ⟨fun hc => (hc.2 h).1 h2, rfl⟩
      · rw [if_neg (fun hc => h2 ((getD_none_iff ..).1 hc))]
        by_cases h3 : s.ssl = false
        · rw [if_pos h3]
          exact .inl ⟨fun hc => by rw [(hc.2 h).2.2] at h3; exact absurd h3 (by decide), rfl⟩
        · rw [if_neg h3]
          refine .inr ⟨⟨fun hc => ?_, fun _ => ⟨h2, h1, by simpa using h3⟩⟩, _, _, _, ?_, rfl⟩
          · rcases hc with hc | hc <;> rw [h] at hc <;> exact absurd hc (by decide)
          · unfold AuthOf; rw [if_pos h, hkey, hpem]; exact ⟨rfl, rfl, rfl⟩
  · unfold buildAuth
    rw [if_neg (by rw [h]; decide), if_neg (by rw [h]; decide), if_pos h]
    unfold needCredentials
    have hne : ¬ s.auth = "certificate".toList := by rw [h]; decide
    cases hu : s.username with
    | none => exact .inl ⟨fun hc => (hc.1 (.inr h)).1 hu, rfl⟩
    | some u =>
      cases hp : s.password with
      | none => exact .inl ⟨fun hc => (hc.1 (.inr h)).2 hp, rfl⟩
      | some p =>
        refine .inr ⟨⟨fun _ => ⟨by simp [hu], by simp [hp]⟩, fun hc => absurd hc hne⟩, .credssp u p (credsspOptions s), none, [], ?_, ?_⟩
        · unfold AuthOf; rw [if_neg hne, if_neg (by rw [h]; decide), if_pos h]; exact ⟨rfl, rfl, u, p, hu, hp, rfl⟩
        · rfl
  · unfold buildAuth
    rw [if_neg (by rw [h]; decide), if_neg (by rw [h]; decide), if_neg (by rw [h]; decide), if_pos h, ← h]
    have h1 : ¬ s.auth = "certificate".toList := by rw [h]; decide
    have h2 : ¬ s.auth = "basic".toList := by rw [h]; decide
    have h3 : ¬ s.auth = "credssp".toList := by rw [h]; decide
    refine .inr ⟨⟨fun hc => absurd hc (by simp only [h2, h3, or_self, not_false_eq_true]), fun hc => absurd hc h1⟩, _, none, [], ?_, rfl⟩
    unfold AuthOf; rw [if_neg h1, if_neg h2, if_neg h3]; exact ⟨rfl, rfl, rfl⟩
  · unfold buildAuth
    rw [if_neg (by rw [h]; decide), if_neg (by rw [h]; decide), if_neg (by rw [h]; decide), if_neg (by rw [h]; decide), if_pos h, ← h]
    have h1 : ¬ s.auth = "certificate".toList := by rw [h]; decide
    have h2 : ¬ s.auth = "basic".toList := by rw [h]; decide
    have h3 : ¬ s.auth = "credssp".toList := by rw [h]; decide
    refine .inr ⟨⟨fun hc => absurd hc (by simp only [h2, h3, or_self, not_false_eq_true]), fun hc => absurd hc h1⟩, _, none, [], ?_, rfl⟩
    unfold AuthOf; rw [if_neg h1, if_neg h2, if_neg h3]; exact ⟨rfl, rfl, rfl⟩
  · unfold buildAuth
    rw [if_neg (by rw [h]; decide), if_neg (by rw [h]; decide), if_neg (by rw [h]; decide), if_neg (by rw [h]; decide), if_neg (by rw [h]; decide), if_pos h, ← h]
    have h1 : ¬ s.auth = "certificate".toList := by rw [h]; decide
    have h2 : ¬ s.auth = "basic".toList := by rw [h]; decide
    have h3 : ¬ s.auth = "credssp".toList := by rw [h]; decide
    refine .inr ⟨⟨fun hc => absurd hc (by simp only [h2, h3, or_self, not_false_eq_true]), fun hc => absurd hc h1⟩, _, none, [], ?_, rfl⟩
    unfold AuthOf; rw [if_neg h1, if_neg h2, if_neg h3]; exact ⟨rfl, rfl, rfl⟩

/-! ### C86 -/

/-- C86. A session is built if and only if everything that the authentication needs was given; otherwise a `ValueError` is raised, before
any request. -/
theorem C86_complete (env : Environ) {s : HttpSettings} (ha : s.auth ∈ supportedAuths) :
    (Complete s → ∃ session, buildSession env s = .ok session) ∧ (¬ Complete s → buildSession env s = .error .valueError) := by
  rcases built env ha with ⟨h1, h2⟩ | ⟨h1, auth, cert, more, _, h2⟩
  · exact ⟨fun h => absurd h h1, fun _ => h2⟩
  · exact ⟨fun _ => ⟨_, h2⟩, fun h => absurd h1 h⟩

/-- Settings for certificate authentication. -/
def withCertificate : HttpSettings where
  auth := "certificate".toList
  kwargs := [("certificate_pem".toList, .text "c".toList), ("certificate_key_pem".toList, .text "k".toList),
    ("certificate_key_password".toList, .text "s".toList)]

example : Complete { auth := "ntlm".toList } ∧ ¬ Complete { auth := "basic".toList, username := some "u".toList } ∧ Complete withCertificate := by
  refine ⟨⟨?_, ?_⟩, ?_, ⟨?_, ?_⟩⟩
  · intro h; rcases h with h | h <;> exact absurd h (by decide)
  · intro h; exact absurd h (by decide)
  · intro h; exact (h.1 (.inl rfl)).2 rfl
  · intro h; rcases h with h | h <;> exact absurd h (by decide)
  · intro _; decide +kernel

theorem buildSession_keeps {env : Environ} {s : HttpSettings} {session : HttpSession} (ha : s.auth ∈ supportedAuths)
    (h : buildSession env s = .ok session) : session.proxies = (plainSession env s).proxies ∧ session.verify = (plainSession env s).verify ∧
      session.httpAdapter = (plainSession env s).httpAdapter ∧ session.httpsAdapter = (plainSession env s).httpsAdapter ∧
      ∃ auth cert more, AuthOf s auth cert more ∧ session.auth = auth ∧ session.cert = cert ∧
        session.headers = (plainSession env s).headers ++ more := by
  rcases built env ha with ⟨h1, h2⟩ | ⟨h1, auth, cert, more, h3, h2⟩
  · rw [h2] at h; exact absurd h (by simp)
  · rw [h2] at h
    injection h with h
    subst h
    exact ⟨rfl, rfl, rfl, rfl, auth, cert, more, h3, rfl, rfl, rfl⟩

/-- C86. The certificate of the server is checked unless this was turned off: by default against the bundle of the environment, REQUESTS_CA_BUNDLE
before CURL_CA_BUNDLE, or that of the system, and against the given bundle otherwise, whatever the environment says.
Missing: None and an empty path (`C86_verification_false`). -/
theorem C86_verification_partial {env : Environ} {s : HttpSettings} {session : HttpSession} (ha : s.auth ∈ supportedAuths)
    (h : buildSession env s = .ok session) :
    (s.certValidation = .bool true → tlsCheck session =
      match (nonempty env.requestsBundle).or (nonempty env.curlBundle) with
      | some path => .bundle path
      | none => .system) ∧
    (∀ path, path ≠ [] → s.certValidation = .text path → tlsCheck session = .bundle path) ∧
    (s.certValidation = .bool false → tlsCheck session = .off) := by
  obtain ⟨-, hv, -⟩ := buildSession_keeps ha h
  refine ⟨?_, ?_, ?_⟩
  · intro hc
    unfold tlsCheck
    rw [hv]
    simp only [plainSession, hc, environVerify]
    match env.requestsBundle, env.curlBundle with
    | none, none | none, some [] | none, some (_ :: _) | some [], none | some [], some [] | some [], some (_ :: _) => rfl
    | some (_ :: _), none | some (_ :: _), some _ => rfl
  · intro path hne hc
    unfold tlsCheck
    rw [hv]
    simp only [plainSession, hc]
    cases path with
    | nil => exact absurd rfl hne
    | cons c cs => rfl
  · intro hc
    unfold tlsCheck
    rw [hv]
    simp only [plainSession, hc]

/-- C86 is false of None and of an empty path: the certificate is not checked. -/
theorem C86_verification_false {env : Environ} {s : HttpSettings} {session : HttpSession} (ha : s.auth ∈ supportedAuths)
    (h : buildSession env s = .ok session) (hc : s.certValidation = .none ∨ s.certValidation = .text []) : tlsCheck session = .off := by
  obtain ⟨-, hv, -⟩ := buildSession_keeps ha h
  unfold tlsCheck
  rw [hv]
  rcases hc with hc | hc <;> simp only [plainSession, hc]

theorem scheme_key (t : Target) (rest : PyStr) : t.scheme ≠ t.scheme ++ "://".toList ++ rest := by
  intro h
  have := congrArg List.length h
  simp at this

theorem lookupKey_single (k k' : PyStr) (v : α) : lookupKey k [(k', v)] = if k' = k then some v else none := by
  unfold lookupKey
  by_cases h : k' = k <;> simp [h]

theorem select_single (t : Target) (v : ProxyVal) : selectProxy t [(t.scheme, v)] = some v := by
  unfold selectProxy
  rw [List.findSome?_cons, lookupKey_single, if_neg (scheme_key t t.host), List.findSome?_cons, lookupKey_single, if_pos rfl]

theorem resolve_single (env : Environ) (session : HttpSession) (t : Target) (v : ProxyVal) (h : session.proxies = [(t.scheme, v)]) :
    resolveProxies env session t = [(t.scheme, v)] := by
  unfold resolveProxies
  rw [h, lookupKey_single, if_pos rfl]
  split
  · rfl
  · split <;> rfl

theorem lookupKey_map (f : α → β) (k : PyStr) (m : List (PyStr × α)) : lookupKey k (m.map fun e => (e.1, f e.2)) = (lookupKey k m).map f := by
  unfold lookupKey
  induction m with
  | nil => rfl
  | cons e es ih =>
    rw [List.map_cons, List.find?_cons, List.find?_cons]
    by_cases h : e.1 = k
    · simp [h]
    · simpa [h] using ih

theorem lookupKey_absent {k : PyStr} {m : List (PyStr × α)} (h : ∀ e ∈ m, e.1 ≠ k) : lookupKey k m = none := by
  unfold lookupKey
  rw [List.find?_eq_none.2 (by intro e he; simpa using h e he)]; rfl

theorem lookupKey_mem {k : PyStr} {m : List (PyStr × α)} {v : α} (h : lookupKey k m = some v) : (k, v) ∈ m := by
  unfold lookupKey at h
  obtain ⟨e, he, rfl⟩ := Option.map_eq_some_iff.1 h
  have := List.find?_some he
  have hm := List.mem_of_find?_eq_some he
  simp only [decide_eq_true_eq] at this
  rw [← this]; exact hm

theorem lookupKey_append (k : PyStr) (a b : List (PyStr × α)) : lookupKey k (a ++ b) = (lookupKey k a).or (lookupKey k b) := by
  unfold lookupKey
  rw [List.find?_append]
  cases a.find? (fun e => decide (e.1 = k)) <;> rfl

theorem or_map_find (m : List (PyStr × PyStr)) (a b : PyStr) :
    ((m.find? (fun e => e.1 = a)).or (m.find? (fun e => e.1 = b))).map (·.2) = (lookupKey a m).or (lookupKey b m) := by
  unfold lookupKey
  cases m.find? (fun e => decide (e.1 = a)) <;> rfl

/-- C86. A proxy that was given is used for the server, whatever the environment says then or later. With `no_proxy` there is none.
Otherwise it is that of the environment for the scheme, or the one for all. -/
theorem C86_proxy {env : Environ} {s : HttpSettings} {session : HttpSession} (ha : s.auth ∈ supportedAuths)
    (h : buildSession env s = .ok session) (host : PyStr) :
    (∀ p later, p ≠ [] → s.proxy = some p → proxyOf later session (serverAt s host) = some p) ∧
    (∀ later, s.proxy = none → s.noProxy = true → proxyOf later session (serverAt s host) = none) ∧
    (s.proxy = none → s.noProxy = false → env.bypass = true → proxyOf env session (serverAt s host) = none) ∧
    (s.proxy = none → s.noProxy = false → env.bypass = false → (∀ e ∈ env.proxies, e.2 ≠ [] ∧ ':' ∉ e.1) →
      proxyOf env session (serverAt s host) =
        (((env.proxies.find? (fun e => e.1 = (serverAt s host).scheme)).or (env.proxies.find? (fun e => e.1 = "all".toList))).map (·.2))) := by
  obtain ⟨hp, -⟩ := buildSession_keeps ha h
  have hs : (serverAt s host).scheme = if s.ssl then "https".toList else "http".toList := rfl
  refine ⟨?_, ?_, ?_, ?_⟩
  · intro p later hne hsp
    simp only [plainSession, hsp, ← hs] at hp
    unfold proxyOf
    rw [resolve_single later session _ _ hp, select_single]
    cases p with
    | nil => exact absurd rfl hne
    | cons c cs => rfl
  · intro later hsp hno
    simp only [plainSession, hsp, hno, if_true, ← hs] at hp
    unfold proxyOf
    rw [resolve_single later session _ _ hp, select_single]
  · intro hsp hno hb
    simp only [plainSession, hsp, hno, environProxies, hb, if_true, Bool.false_eq_true, if_false] at hp
    unfold proxyOf resolveProxies
    rw [if_pos hb, hp]
    rfl
  · intro hsp hno hb he
    simp only [plainSession, hsp, hno, environProxies, hb, Bool.false_eq_true, if_false] at hp
    rw [or_map_find]
    generalize htt : serverAt s host = t
    have hcolon : ∀ (k rest : PyStr), lookupKey (k ++ "://".toList ++ rest) env.proxies = none := by
      intro k rest
      apply lookupKey_absent
      intro e hem hc
      apply (he e hem).2
      rw [hc]; simp
    have hcolon' : ∀ (rest : PyStr), lookupKey ("all://".toList ++ rest) env.proxies = none := fun rest => hcolon "all".toList rest
    unfold proxyOf
    cases h1 : lookupKey t.scheme env.proxies with
    | some p =>
      have hr : resolveProxies env session t = session.proxies := by
        unfold resolveProxies
        rw [if_neg (by rw [hb]; decide), h1]
        simp only []
        split
        · rfl
        · rfl
        · rw [hp, lookupKey_map, h1]; rfl
      rw [hr, hp]
      unfold selectProxy
      rw [List.findSome?_cons, lookupKey_map, hcolon, List.findSome?_cons, lookupKey_map, h1]
      have := (he _ (lookupKey_mem h1)).1
      cases p with
      | nil => exact absurd rfl this
      | cons c cs => rfl
    | none =>
      cases h2 : lookupKey "all".toList env.proxies with
      | none =>
        have hr : resolveProxies env session t = session.proxies := by
          unfold resolveProxies
          rw [if_neg (by rw [hb]; decide), h1]
          simp only [h2]
        rw [hr, hp]
        unfold selectProxy
        simp only [List.findSome?_cons, lookupKey_map, hcolon, hcolon', h1, h2]
        rfl
      | some p =>
        have hne := (he _ (lookupKey_mem h2)).1
        cases p with
        | nil => exact absurd rfl hne
        | cons c cs =>
          have hr : resolveProxies env session t = session.proxies ++ [(t.scheme, .url (c :: cs))] := by
            unfold resolveProxies
            rw [if_neg (by rw [hb]; decide), h1]
            simp only [h2]
            rw [hp, lookupKey_map, h1]; rfl
          rw [hr, hp]
          unfold selectProxy
          rw [List.findSome?_cons, lookupKey_append, lookupKey_map, hcolon, lookupKey_single, if_neg (scheme_key t t.host),
            List.findSome?_cons, lookupKey_append, lookupKey_map, h1, lookupKey_single, if_pos rfl]
          rfl

/-- The hypotheses of `C86_proxy` can be met in all four ways. -/
example : ∃ env : Environ, env.bypass = false ∧ (∀ e ∈ env.proxies, e.2 ≠ [] ∧ ':' ∉ e.1) ∧
    (buildSession env { auth := "ntlm".toList, noProxy := true }).toOption.map (proxyOf env · ⟨true, "h".toList⟩) = some none ∧
    (buildSession env { auth := "ntlm".toList }).toOption.map (proxyOf env · ⟨true, "h".toList⟩) = some (some "http://a:1".toList) ∧
    (buildSession env { auth := "ntlm".toList, ssl := false }).toOption.map (proxyOf env · ⟨false, "h".toList⟩) = some (some "http://b:2".toList) ∧
    (buildSession env { auth := "ntlm".toList, proxy := some "http://c:3".toList }).toOption.map (proxyOf env · ⟨true, "h".toList⟩) =
      some (some "http://c:3".toList) := by
  refine ⟨{ proxies := [("all".toList, "http://a:1".toList), ("http".toList, "http://b:2".toList)] }, rfl, ?_, ?_⟩
  · intro e he
    simp only [List.mem_cons, List.not_mem_nil, or_false] at he
    rcases he with rfl | rfl <;> decide
  · decide +kernel

/-- The option that the caller gave, or this one. -/
def optionOr (s : HttpSettings) (name : String) (default : OptVal) : OptVal := (argument s name).getD default

theorem lookup_filterMap (names : List PyStr) (n : Nat) (value : PyStr → OptVal) (name : PyStr) (hm : name ∈ names)
    (hinj : ∀ a ∈ names, a.drop n = name.drop n → a = name) :
    lookupKey (name.drop n) (names.filterMap fun a => if value a ≠ .none then some (a.drop n, value a) else none) =
      if value name ≠ .none then some (value name) else none := by
  induction names with
  | nil => exact absurd hm (by simp)
  | cons a as ih =>
    rw [List.filterMap_cons]
    by_cases ha : a = name
    · subst ha
      by_cases hv : value a ≠ .none
      · rw [if_pos hv, if_pos hv]
        simp [lookupKey]
      · rw [if_neg hv, if_neg hv]
        simp only []
        by_cases hin : a ∈ as
        · rw [ih hin (fun b hb => hinj b (List.mem_cons_of_mem _ hb)), if_neg hv]
        · apply lookupKey_absent
          intro e he hc
          obtain ⟨b, hb, hbe⟩ := List.mem_filterMap.1 he
          split at hbe
          · injection hbe with hbe
            subst hbe
            exact hin (hinj b (List.mem_cons_of_mem _ hb) hc ▸ hb)
          · exact absurd hbe (by simp)
    · have hin : name ∈ as := by
        rcases List.mem_cons.1 hm with h | h
        · exact absurd h.symm ha
        · exact h
      have ih' := ih hin (fun b hb => hinj b (List.mem_cons_of_mem _ hb))
      by_cases hv : value a ≠ .none
      · rw [if_pos hv]
        simp only []
        rw [← ih']
        unfold lookupKey
        rw [List.find?_cons_of_neg (by
          simp only [decide_eq_true_eq]
          intro hc
          exact ha (hinj a (List.mem_cons_self ..) hc))]
      · rw [if_neg hv]; exact ih'

theorem negotiate_option (s : HttpSettings) (name : String) (default : OptVal)
    (hm : name.toList ∈ ["negotiate_delegate".toList, "negotiate_hostname_override".toList, "negotiate_send_cbt".toList, "negotiate_service".toList])
    (ht : authKwargsTable.any (fun e => e.2.contains name.toList) = true)
    (hinj : ∀ a ∈ ["negotiate_delegate".toList, "negotiate_hostname_override".toList, "negotiate_send_cbt".toList, "negotiate_service".toList],
      a.drop 10 = name.toList.drop 10 → a = name.toList) :
    (lookupKey (name.toList.drop 10) (negotiateOptions s)).getD default = optionOr s name default := by
  unfold negotiateOptions
  rw [lookup_filterMap _ 10 s.attribute name.toList hm hinj, attribute_eq s name ht]
  unfold optionOr
  have hne := argument_ne s name
  cases ha : argument s name with
  | none => rfl
  | some v =>
    rw [ha] at hne
    have hv : v ≠ .none := fun hc => hne (by rw [hc])
    show (if v ≠ .none then some v else none).getD default = v
    rw [if_pos hv]; rfl

/-- C86. The negotiate authentication gets the credentials, the provider and each of its options as given, with the documented defaults.
Missing: the default of the service (`C86_service_false`). -/
theorem C86_negotiate_partial {env : Environ} {s : HttpSettings} {session : HttpSession}
    (ha : s.auth ∈ ["negotiate".toList, "kerberos".toList, "ntlm".toList]) (h : buildSession env s = .ok session) :
    session.auth = .negotiate {
      username := s.username, password := s.password, provider := s.auth, wrapRequired := s.wrapRequired
      sendCbt := optionOr s "negotiate_send_cbt" (.bool true), delegate := optionOr s "negotiate_delegate" (.bool false)
      hostnameOverride := optionOr s "negotiate_hostname_override" .none, service := optionOr s "negotiate_service" (.text "host".toList) } ∧
    session.cert = none := by
  have ha' : s.auth ∈ supportedAuths := by
    simp only [List.mem_cons, List.not_mem_nil, or_false] at ha
    rcases ha with h | h | h <;> rw [h] <;> decide
  obtain ⟨-, -, -, -, auth, cert, more, h1, rfl, rfl, h4⟩ := buildSession_keeps ha' h
  have e1 : ¬ s.auth = "certificate".toList := by
    simp only [List.mem_cons, List.not_mem_nil, or_false] at ha
    rcases ha with h | h | h <;> rw [h] <;> decide
  have e2 : ¬ s.auth = "basic".toList := by
    simp only [List.mem_cons, List.not_mem_nil, or_false] at ha
    rcases ha with h | h | h <;> rw [h] <;> decide
  have e3 : ¬ s.auth = "credssp".toList := by
    simp only [List.mem_cons, List.not_mem_nil, or_false] at ha
    rcases ha with h | h | h <;> rw [h] <;> decide
  unfold AuthOf at h1
  rw [if_neg e1, if_neg e2, if_neg e3] at h1
  refine ⟨?_, h1.1⟩
  rw [h1.2.2]
  unfold negotiateAuth
  have o1 := negotiate_option s "negotiate_send_cbt" (.bool true) (by decide) (by decide +kernel) (by decide +kernel)
  have o2 := negotiate_option s "negotiate_service" (.text "host".toList) (by decide) (by decide +kernel) (by decide +kernel)
  have o3 := negotiate_option s "negotiate_delegate" (.bool false) (by decide) (by decide +kernel) (by decide +kernel)
  have o4 := negotiate_option s "negotiate_hostname_override" .none (by decide) (by decide +kernel) (by decide +kernel)
  rw [show "send_cbt".toList = "negotiate_send_cbt".toList.drop 10 from by decide, o1,
    show "service".toList = "negotiate_service".toList.drop 10 from by decide, o2,
    show "delegate".toList = "negotiate_delegate".toList.drop 10 from by decide, o3,
    show "hostname_override".toList = "negotiate_hostname_override".toList.drop 10 from by decide, o4]

/-- C86 is false of the service: README and wsman.py 205 say that it is WSMAN if not given. -/
theorem C86_service_false {env : Environ} {s : HttpSettings} {session : HttpSession}
    (ha : s.auth ∈ ["negotiate".toList, "kerberos".toList, "ntlm".toList]) (h : buildSession env s = .ok session)
    (hs : argument s "negotiate_service" = none) : ∃ a, session.auth = .negotiate a ∧ a.service = .text "host".toList ∧
      a.service ≠ .text "WSMAN".toList := by
  refine ⟨_, (C86_negotiate_partial ha h).1, ?_, ?_⟩
  · simp only [optionOr, hs]; rfl
  · simp only [optionOr, hs]; decide

example : argument { auth := "ntlm".toList } "negotiate_service" = none ∧
    argument { auth := "ntlm".toList, kwargs := [("negotiate_service".toList, .text "HTTP".toList)] } "negotiate_service" = some (.text "HTTP".toList) := by
  decide +kernel

/-- C86. CredSSP gets the credentials and exactly its own options that were given. -/
theorem C86_credssp {env : Environ} {s : HttpSettings} {session : HttpSession} (ha : s.auth = "credssp".toList)
    (h : buildSession env s = .ok session) :
    ∃ u p options, s.username = some u ∧ s.password = some p ∧ session.auth = .credssp u p options ∧ session.cert = none ∧
      ∀ key value, (key, value) ∈ options ↔ ∃ name ∈ ["credssp_auth_mechanism", "credssp_disable_tlsv1_2", "credssp_minimum_version"],
        name.toList = "credssp_".toList ++ key ∧ argument s name = some value := by
  obtain ⟨-, -, -, -, auth, cert, more, h1, rfl, rfl, h4⟩ := buildSession_keeps (by rw [ha]; decide) h
  unfold AuthOf at h1
  rw [if_neg (by rw [ha]; decide), if_neg (by rw [ha]; decide), if_pos ha] at h1
  obtain ⟨hc, -, u, p, hu, hp, hau⟩ := h1
  refine ⟨u, p, _, hu, hp, hau, hc, ?_⟩
  intro key value
  unfold credsspOptions
  have hat : ∀ name ∈ ["credssp_auth_mechanism", "credssp_disable_tlsv1_2", "credssp_minimum_version"],
      s.attribute name.toList = (argument s name).getD .none ∧ name.toList = "credssp_".toList ++ name.toList.drop 8 := by
    intro name hn
    simp only [List.mem_cons, List.not_mem_nil, or_false] at hn
    rcases hn with rfl | rfl | rfl <;> exact ⟨attribute_eq s _ (by decide +kernel), by decide⟩
  rw [show ["credssp_auth_mechanism".toList, "credssp_disable_tlsv1_2".toList, "credssp_minimum_version".toList] =
    (["credssp_auth_mechanism", "credssp_disable_tlsv1_2", "credssp_minimum_version"] : List String).map String.toList from rfl, List.filterMap_map,
    List.mem_filterMap]
  constructor
  · rintro ⟨name, hn, he⟩
    obtain ⟨h1, h2⟩ := hat name hn
    simp only [Function.comp_apply] at he
    rw [h1] at he
    split at he
    · rename_i hv
      injection he with he
      injection he with he1 he2
      refine ⟨name, hn, by rw [← he1]; exact h2, ?_⟩
      cases hx : argument s name with
      | none => rw [hx] at hv; exact absurd rfl hv
      | some x => rw [hx] at he2; rw [← he2]; rfl
    · exact absurd he (by simp)
  · rintro ⟨name, hn, hk, hv⟩
    obtain ⟨h1, h2⟩ := hat name hn
    refine ⟨name, hn, ?_⟩
    simp only [Function.comp_apply]
    rw [h1, hv]
    have hne : value ≠ .none := fun hc => argument_ne s name (by rw [hv, hc])
    show (if value ≠ .none then some (name.toList.drop 8, value) else none) = _
    rw [if_pos hne]
    rw [hk] at h2 ⊢
    rfl

/-- C86. Certificate authentication presents the certificate with its key, over TLS; the password of the key goes to the adapter for https. The
requests say that the certificate is the identity.
Missing: a netrc file with credentials for the server (`C86_netrc_false`). -/
theorem C86_certificate_partial {env : Environ} {s : HttpSettings} {session : HttpSession} (ha : s.auth = "certificate".toList)
    (h : buildSession env s = .ok session) :
    (∃ pem key, argument s "certificate_pem" = some pem ∧ argument s "certificate_key_pem" = some key ∧ session.cert = some (pem, key)) ∧
      s.ssl = true ∧ session.httpsAdapter.keyPassword = optionOr s "certificate_key_password" .none ∧
      ∀ later : Environ, later.netrc = none → firstAuthorization later session =
        .ok (some "http://schemas.dmtf.org/wbem/wsman/1/wsman/secprofile/https/mutual".toList) := by
  have hs : s.auth ∈ supportedAuths := by rw [ha]; decide
  have hc : Complete s := Classical.byContradiction fun hn => by rw [(C86_complete env hs).2 hn] at h; exact absurd h (by simp)
  obtain ⟨c1, c2, c3⟩ := hc.2 ha
  obtain ⟨-, -, -, hk, auth, cert, more, h1, h2, h3, h4⟩ := buildSession_keeps hs h
  unfold AuthOf at h1
  rw [if_pos ha] at h1
  obtain ⟨rfl, rfl, rfl⟩ := h1
  refine ⟨?_, c3, ?_, ?_⟩
  · obtain ⟨pem, hpem⟩ := Option.ne_none_iff_exists'.1 c1
    obtain ⟨key, hkey⟩ := Option.ne_none_iff_exists'.1 c2
    refine ⟨pem, key, hpem, hkey, ?_⟩
    rw [h3, attribute_eq s "certificate_pem" (by decide +kernel), attribute_eq s "certificate_key_pem" (by decide +kernel), hpem, hkey]
    rfl
  · rw [hk]
    exact attribute_eq s "certificate_key_password" (by decide +kernel)
  · intro later hn
    unfold firstAuthorization
    rw [h2, hn]
    simp only []
    rw [h4]
    rfl

/-! ### Basic authentication -/

/-- Texts that Latin-1 can represent. -/
def IsLatin1 (t : PyStr) : Prop := ∀ c ∈ t, c.toNat < 256

theorem latin1_ok {t : PyStr} (h : IsLatin1 t) : latin1 t = .ok (t.map fun c => UInt8.ofNat c.toNat) := by
  induction t with
  | nil => rfl
  | cons c cs ih =>
    unfold latin1
    rw [latin1Char, if_pos (h c (by simp)), ih (fun x hx => h x (by simp [hx]))]
    rfl

theorem latin1_error {t : PyStr} (h : ¬ IsLatin1 t) : latin1 t = .error .unicodeError := by
  induction t with
  | nil => exact absurd (by intro c hc; exact absurd hc (by simp)) h
  | cons c cs ih =>
    unfold latin1
    by_cases hc : c.toNat < 256
    · rw [latin1Char, if_pos hc, ih (fun hcs => h (by
        intro x hx
        rcases List.mem_cons.1 hx with rfl | hx
        · exact hc
        · exact hcs x hx))]
      rfl
    · rw [latin1Char, if_neg hc]; rfl

theorem latin1_back {t : PyStr} (h : IsLatin1 t) : (t.map fun c => UInt8.ofNat c.toNat).map (fun x => Char.ofNat x.toNat) = t := by
  rw [List.map_map]
  conv => rhs; rw [← List.map_id t]
  apply List.map_congr_left
  intro c hc
  have := h c hc
  simp only [Function.comp_apply, id, UInt8.toNat_ofNat']
  rw [Nat.mod_eq_of_lt (by omega)]
  exact Char.ofNat_toNat c

theorem basic_stop (p : α → Bool) (a b : List α) (x : α) (ha : ∀ c ∈ a, p c = true) (hx : p x = false) :
    (a ++ x :: b).takeWhile p = a ∧ (a ++ x :: b).dropWhile p = x :: b := by
  induction a with
  | nil => simp [hx]
  | cons c cs ih =>
    have hc := ha c (by simp)
    obtain ⟨h1, h2⟩ := ih (fun d hd => ha d (by simp [hd]))
    simp [hc, h1, h2]

theorem readsBasic_header {u p : PyStr} (hu : IsLatin1 u) (hp : IsLatin1 p) : ∃ header, basicHeader u p = .ok header ∧
    ReadsBasic header ((u ++ ':' :: p).takeWhile (· ≠ ':')) (((u ++ ':' :: p).dropWhile (· ≠ ':')).drop 1) := by
  refine ⟨_, by simp only [basicHeader, latin1_ok hu, latin1_ok hp, bind, Except.bind, pure, Except.pure]; rfl, ?_⟩
  refine ⟨_, congrArg _ (C99_base64 _), ?_⟩
  rw [List.map_append, List.map_append, latin1_back hu, latin1_back hp]
  rw [show (ascii ":".toList).map (fun x => Char.ofNat x.toNat) = [':'] from by decide +kernel, List.append_assoc]
  exact ⟨rfl, rfl⟩

/-- C86. With basic authentication the server reads the credentials from every request.
Missing: characters outside Latin-1 and colons in the name (`C86_basic_false`). -/
theorem C86_basic_partial {env : Environ} {s : HttpSettings} {session : HttpSession} (ha : s.auth = "basic".toList)
    (h : buildSession env s = .ok session) :
    ∃ u p, s.username = some u ∧ s.password = some p ∧ session.cert = none ∧
      (IsLatin1 u → IsLatin1 p → ':' ∉ u → ∀ later, ∃ header, firstAuthorization later session = .ok (some header) ∧
        ReadsBasic header u p) := by
  obtain ⟨-, -, -, -, auth, cert, more, h1, rfl, rfl, h4⟩ := buildSession_keeps (by rw [ha]; decide) h
  unfold AuthOf at h1
  rw [if_neg (by rw [ha]; decide), if_pos ha] at h1
  obtain ⟨hc, -, u, p, hu, hp, hau⟩ := h1
  refine ⟨u, p, hu, hp, hc, ?_⟩
  intro lu lp hcol later
  obtain ⟨header, e1, e2⟩ := readsBasic_header lu lp
  obtain ⟨t1, t2⟩ := basic_stop (fun c => decide (c ≠ ':')) u p ':'
    (fun c hcu => by simp only [ne_eq, decide_not, Bool.not_eq_true', decide_eq_false_iff_not]; exact fun he => hcol (he ▸ hcu)) (by simp)
  refine ⟨header, ?_, ?_⟩
  · unfold firstAuthorization
    rw [hau]
    simp only [e1]
    rfl
  · rw [t1, t2] at e2; exact e2

example : IsLatin1 "Jürgen".toList ∧ ':' ∉ "Jürgen".toList ∧ ¬ IsLatin1 "zażółć".toList := by
  unfold IsLatin1; decide +kernel

/-- C86 is false of other characters: the request cannot be built. With a colon in the name the server reads another name. -/
theorem C86_basic_false {env : Environ} {s : HttpSettings} {session : HttpSession} (ha : s.auth = "basic".toList)
    (h : buildSession env s = .ok session) {u p : PyStr} (hu : s.username = some u) (hp : s.password = some p) :
    (¬ IsLatin1 u ∨ ¬ IsLatin1 p → ∀ later, firstAuthorization later session = .error .unicodeError) ∧
    (IsLatin1 u → IsLatin1 p → ':' ∈ u → ∀ later, ∃ header u' p', firstAuthorization later session = .ok (some header) ∧
      ReadsBasic header u' p' ∧ u' ≠ u) := by
  obtain ⟨-, -, -, -, auth, cert, more, h1, rfl, rfl, h4⟩ := buildSession_keeps (by rw [ha]; decide) h
  unfold AuthOf at h1
  rw [if_neg (by rw [ha]; decide), if_pos ha] at h1
  obtain ⟨hc, -, u', p', hu', hp', hau⟩ := h1
  obtain rfl : u' = u := Option.some.inj (hu'.symm.trans hu)
  obtain rfl : p' = p := Option.some.inj (hp'.symm.trans hp)
  refine ⟨?_, ?_⟩
  · intro hn later
    unfold firstAuthorization
    rw [hau]
    have : basicHeader u' p' = .error .unicodeError := by
      unfold basicHeader
      by_cases lu : IsLatin1 u'
      · rcases hn with hn | hn
        · exact absurd lu hn
        · rw [latin1_ok lu, latin1_error hn]; rfl
      · rw [latin1_error lu]; rfl
    simp only [this]
    rfl
  · intro lu lp hcol later
    obtain ⟨header, e1, e2⟩ := readsBasic_header lu lp
    refine ⟨header, _, _, ?_, e2, ?_⟩
    · unfold firstAuthorization
      rw [hau]
      simp only [e1]
      rfl
    · intro he
      have : ':' ∈ (u' ++ ':' :: p').takeWhile (fun c => decide (c ≠ ':')) := by rw [he]; exact hcol
      have hall := List.all_takeWhile (p := fun c => decide (c ≠ ':')) (l := u' ++ ':' :: p')
      have := List.all_eq_true.1 hall _ this
      simp at this

/-- C86 is false of certificates if the netrc file has credentials for the server: these are sent, and nothing says that the certificate is the
identity. -/
theorem C86_netrc_false {env later : Environ} {s : HttpSettings} {session : HttpSession} (ha : s.auth = "certificate".toList)
    (h : buildSession env s = .ok session) {u p : PyStr} (hn : later.netrc = some (u, p)) (lu : IsLatin1 u) (lp : IsLatin1 p) (hcol : ':' ∉ u) :
    ∃ header, firstAuthorization later session = .ok (some header) ∧ ReadsBasic header u p := by
  obtain ⟨-, -, -, -, auth, cert, more, h1, rfl, rfl, h4⟩ := buildSession_keeps (by rw [ha]; decide) h
  unfold AuthOf at h1
  rw [if_pos ha] at h1
  obtain ⟨header, e1, e2⟩ := readsBasic_header lu lp
  obtain ⟨t1, t2⟩ := basic_stop (fun c => decide (c ≠ ':')) u p ':'
    (fun c hcu => by simp only [ne_eq, decide_not, Bool.not_eq_true', decide_eq_false_iff_not]; exact fun he => hcol (he ▸ hcu)) (by simp)
  refine ⟨header, ?_, ?_⟩
  · unfold firstAuthorization
    rw [h1.1, hn]
    simp only [e1]
    rfl
  · rw [t1, t2] at e2; exact e2

example : ∃ session, buildSession {} withCertificate = .ok session ∧ session.cert = some (.text "c".toList, .text "k".toList) ∧
    session.httpsAdapter.keyPassword = .text "s".toList := ⟨_, rfl, by decide +kernel, by decide +kernel⟩

/-- C86. The other authentications send nothing before the server asks for it, whatever the netrc file says. -/
theorem C86_unasked {env : Environ} {s : HttpSettings} {session : HttpSession}
    (ha : s.auth ∈ ["negotiate".toList, "kerberos".toList, "ntlm".toList, "credssp".toList]) (h : buildSession env s = .ok session)
    (later : Environ) : firstAuthorization later session = .ok none := by
  have ha' : s.auth ∈ supportedAuths ∧ ¬ s.auth = "certificate".toList ∧ ¬ s.auth = "basic".toList := by
    simp only [List.mem_cons, List.not_mem_nil, or_false] at ha
    rcases ha with h | h | h | h <;> rw [h] <;> decide
  obtain ⟨-, -, -, -, auth, cert, more, h1, rfl, rfl, h4⟩ := buildSession_keeps ha'.1 h
  unfold AuthOf at h1
  rw [if_neg ha'.2.1, if_neg ha'.2.2] at h1
  obtain ⟨-, rfl, h1⟩ := h1
  have hh : lookupKey "Authorization".toList session.headers = none := by rw [h4]; rfl
  unfold firstAuthorization
  split at h1
  · obtain ⟨u, p, -, -, h1⟩ := h1
    rw [h1]; simp only [hh]
  · rw [h1]; simp only [hh]

/-- C86. Whatever the settings, the requests ask for content that is not transformed, and both adapters retry as configured. -/
theorem C86_always {env : Environ} {s : HttpSettings} {session : HttpSession} (ha : s.auth ∈ supportedAuths)
    (h : buildSession env s = .ok session) :
    session.headers.find? (fun e => e.1 = "Accept-Encoding".toList) = some ("Accept-Encoding".toList, "identity".toList) ∧
      session.httpAdapter.retries = ⟨s.retries, s.retries, s.retries⟩ ∧ session.httpsAdapter.retries = ⟨s.retries, s.retries, s.retries⟩ := by
  obtain ⟨-, -, h1, h2, auth, cert, more, -, -, -, h4⟩ := buildSession_keeps ha h
  exact ⟨by rw [h4]; rfl, by rw [h1]; rfl, by rw [h2]; rfl⟩

/-! ### C87 -/

/-- C87, partial: without a proxy, a new connection is refused exactly while a scope that disables them is open, and it can read the key of the
certificate.
Missing: proxies (`C87_proxy_false`); scope objects that are entered twice (C61). -/
theorem C87_connections_partial {env : Environ} {s : HttpSettings} {session : HttpSession} (ha : s.auth ∈ supportedAuths)
    (h : buildSession env s = .ok session) (later : Environ) (host : PyStr) (hp : proxyOf later session (serverAt s host) = none)
    (ops : List CtxOp) (hops : Scopes.none.Proper ops) (c : Nat) :
    openConnection later session (serverAt s host) c (ctxRun .init ops).1 =
      if (Scopes.none.after ops).disabled c then .error .newConnectionDisabled
      else .ok ⟨if s.ssl then optionOr s "certificate_key_password" .none else .none, true⟩ := by
  obtain ⟨-, -, h1, h2, -⟩ := buildSession_keeps ha h
  obtain ⟨hinit⟩ := ctxInv_init
  obtain ⟨⟨hinv⟩, -⟩ := ctxRun_inv hinit ops hops
  have hd := hinv.disabled c
  have hm : (session.adapter (serverAt s host)).keyPassword = if s.ssl then optionOr s "certificate_key_password" .none else .none := by
    unfold HttpSession.adapter serverAt
    cases s.ssl with
    | true => exact (by rw [h2]; exact attribute_eq s "certificate_key_password" (by decide +kernel))
    | false => exact (by rw [h1]; rfl)
  unfold openConnection
  simp only [hp, HttpAdapter.manager, if_true, hm, ctxStep]
  cases hv : (ctxRun .init ops).1.var c with
  | none =>
    rw [hv] at hd
    rw [← hd]; rfl
  | some o =>
    rw [hv] at hd
    rw [← hd]; rfl

/-- C87 is false of proxies: the connections are made although this is disabled, and without the password of the key. -/
theorem C87_proxy_false {env : Environ} {s : HttpSettings} {session : HttpSession} (ha : s.auth ∈ supportedAuths)
    (h : buildSession env s = .ok session) {p : PyStr} (hne : p ≠ []) (hp : s.proxy = some p) (later : Environ) (host : PyStr)
    (c : Nat) (state : CtxState) : openConnection later session (serverAt s host) c state = .ok ⟨.none, false⟩ := by
  have := (C86_proxy ha h host).1 p later hne hp
  unfold openConnection
  simp only [this, HttpAdapter.manager]
  rfl

example : ∃ session, buildSession {} { withCertificate with proxy := some "http://p:8080".toList } = .ok session ∧
    openConnection {} session ⟨true, "h".toList⟩ 0 (ctxRun .init [.enter 0 7]).1 = .ok ⟨.none, false⟩ ∧
    (ctxStep (ctxRun .init [.enter 0 7]).1 (.connect 0)).2 = .error .newConnectionDisabled := by
  refine ⟨_, rfl, by decide +kernel, by decide +kernel⟩

/-- C87, partial: if the server does not redirect, a message goes to its address only. -/
theorem C87_place_partial (url : PyStr) (body : Option Bytes) (answers : List Answer)
    (h : ∀ a ∈ answers.head?, a.location = none ∨ a.status ∉ [301, 302, 303, 307, 308]) : follow url body answers = [⟨url, body⟩] := by
  cases answers with
  | nil => rfl
  | cons a rest =>
    unfold follow
    rcases h a (by simp) with h | h
    · rw [h]
    · cases a.location with
      | none => rfl
      | some n => simp only []; rw [if_neg h]

example : follow "https://h/wsman".toList (some [1]) [⟨200, none⟩, ⟨307, some "http://x/".toList⟩] = [⟨"https://h/wsman".toList, some [1]⟩] := by
  decide +kernel

/-- C87 is false of redirects: the server can have any message sent to any other place, also without TLS. -/
theorem C87_redirect_false (url next : PyStr) (message : Bytes) (status : Nat) (hs : status = 307 ∨ status = 308) (rest : List Answer) :
    ⟨next, some message⟩ ∈ follow url (some message) (⟨status, some next⟩ :: rest) := by
  unfold follow
  simp only []
  have h1 : status ∈ [301, 302, 303, 307, 308] := by rcases hs with rfl | rfl <;> decide
  rw [if_pos h1, if_pos hs]
  apply List.mem_cons_of_mem
  cases rest with
  | nil => simp [follow]
  | cons a rest =>
    unfold follow
    split
    · simp
    · split <;> simp

end Verif
