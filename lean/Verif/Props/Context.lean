import Verif.Model.Context
import Verif.Props.HttpSession
import Verif.Props.Endpoint
/-
C88: the security context is made for the server and bound to its certificate.
-/
namespace Verif

/-! ### Specification -/

/-- A text that can stand for a host in an address. -/
def HostText (h : PyStr) : Prop := h ≠ [] ∧ ∀ c ∈ h, c ∉ ['/', '?', '#', '@', '[', ']', '%']

/-- RFC 5929, 4.1: the hash function for the certificate, from those that its signature algorithm uses. -/
def rfc5929 : List String → Option String
  | ["md5"] => some "sha256"
  | ["sha1"] => some "sha256"
  | [h] => some h
  | _ => none

/-! ### Lemmas -/

theorem takeWhile_whole {p : α → Bool} {l : List α} (h : ∀ x ∈ l, p x = true) : l.takeWhile p = l ∧ l.dropWhile p = [] := by
  induction l with
  | nil => simp
  | cons a l ih =>
    have := ih fun x hx => h x (by simp [hx])
    simp [h a (by simp), this]

theorem partition_absent {c : Char} {s : PyStr} (h : c ∉ s) : partitionAt c s = (s, none) := by
  obtain ⟨h1, h2⟩ := takeWhile_whole (p := fun x => decide (x ≠ c)) (l := s)
    (fun x hx => by simp only [ne_eq, decide_not, Bool.not_eq_true', decide_eq_false_iff_not]; rintro rfl; exact h hx)
  unfold partitionAt
  rw [h1, h2]

theorem partition_first {c : Char} {s r : PyStr} (h : c ∉ s) : partitionAt c (s ++ c :: r) = (s, some r) := by
  obtain ⟨h1, h2⟩ := takeWhile_stop (p := fun x => decide (x ≠ c)) (l := s) (a := c) (r := r)
    (fun x hx => by simp only [ne_eq, decide_not, Bool.not_eq_true', decide_eq_false_iff_not]; rintro rfl; exact h hx) (by simp)
  unfold partitionAt
  rw [h1, h2]

theorem afterLast_absent {c : Char} {s : PyStr} (h : c ∉ s) : afterLast c s = s := by
  obtain ⟨h1, -⟩ := takeWhile_whole (p := fun x => decide (x ≠ c)) (l := s.reverse)
    (fun x hx => by
      simp only [ne_eq, decide_not, Bool.not_eq_true', decide_eq_false_iff_not]; rintro rfl; exact h (List.mem_reverse.1 hx))
  unfold afterLast
  rw [h1, List.reverse_reverse]

theorem netloc_of (ssl : Bool) (n path : PyStr) (h : ∀ c ∈ n, c ∉ ['/', '?', '#']) :
    urlNetloc ((if ssl then "https".toList else "http".toList) ++ "://".toList ++ n ++ "/".toList ++ path) = n := by
  have e : (if ssl then "https".toList else "http".toList) ++ "://".toList ++ n ++ "/".toList ++ path =
      (if ssl then "https".toList else "http".toList) ++ (':' :: '/' :: '/' :: (n ++ '/' :: path)) := by simp
  rw [e]
  unfold urlNetloc
  have hs : ((if ssl then "https".toList else "http".toList) ++ (':' :: '/' :: '/' :: (n ++ '/' :: path))).dropWhile (fun c => decide (c ≠ ':')) =
      ':' :: '/' :: '/' :: (n ++ '/' :: path) :=
    (takeWhile_stop (by cases ssl <;> decide) (by decide)).2
  rw [hs]
  exact (takeWhile_stop (fun c hc => by simpa using h c hc) (by decide)).1

theorem digit_ok {port : Nat} {c : Char} (h : c ∈ pyStrNat port) : c ∉ ['/', '?', '#', '@', '[', ']', '%'] := by
  have := (pyStrNat_decimal port).2 c h
  intro hc
  simp only [List.mem_cons, List.not_mem_nil, or_false] at hc
  rcases hc with rfl | rfl | rfl | rfl | rfl | rfl | rfl <;> revert this <;> decide

theorem hostText_not {h : PyStr} (hh : HostText h) {c : Char} (hc : c ∈ ['/', '?', '#', '@', '[', ']', '%']) : c ∉ h :=
  fun hm => hh.2 c hm hc

/-- The host of an address with a name. -/
theorem hostname_name (ssl : Bool) {h : PyStr} (hh : HostText h) (hcol : ':' ∉ h) (port : Nat) (path : PyStr) :
    getHostname ((if ssl then "https".toList else "http".toList) ++ "://".toList ++ h ++ ":".toList ++ pyStrNat port ++ "/".toList ++ path) =
      .ok (some (asciiLower h)) := by
  have hn : ∀ c ∈ h ++ (":".toList ++ pyStrNat port), c ∉ ['/', '?', '#', '@', '[', ']', '%'] := by
    intro c hc
    rcases List.mem_append.1 hc with hc | hc
    · exact hh.2 c hc
    · rcases List.mem_append.1 hc with hc | hc
      · simp only [List.mem_cons, List.not_mem_nil, or_false] at hc ⊢
        have : c = ':' := by simpa using hc
        subst this; decide
      · exact digit_ok hc
  have hnet := netloc_of ssl (h ++ (":".toList ++ pyStrNat port)) path (fun c hc hm => hn c hc (by
    simp only [List.mem_cons, List.not_mem_nil, or_false] at hm ⊢
    rcases hm with h | h | h <;> simp [h]))
  have abs : ∀ {c : Char}, c ∈ ['/', '?', '#', '@', '[', ']', '%'] → c ∉ h ++ (":".toList ++ pyStrNat port) := fun hc hm => hn _ hm hc
  unfold getHostname
  rw [show (if ssl then "https".toList else "http".toList) ++ "://".toList ++ h ++ ":".toList ++ pyStrNat port ++ "/".toList ++ path =
    (if ssl then "https".toList else "http".toList) ++ "://".toList ++ (h ++ (":".toList ++ pyStrNat port)) ++ "/".toList ++ path by simp, hnet]
  simp only [afterLast_absent (abs (c := '@') (by decide)), partition_absent (abs (c := '[') (by decide))]
  rw [if_neg (by
    have h1 := abs (c := '[') (by decide)
    have h2 := abs (c := ']') (by decide)
    rintro (⟨h, -⟩ | ⟨h, -⟩)
    · exact h1 h
    · exact h2 h)]
  rw [show ":".toList ++ pyStrNat port = ':' :: pyStrNat port from rfl, partition_first hcol]
  cases h with
  | nil => exact absurd rfl hh.1
  | cons a as =>
    simp only [partition_absent (hostText_not hh (c := '%') (by decide))]

/-- The host of an address with an address in brackets. -/
theorem hostname_literal (ssl : Bool) {h : PyStr} (hh : HostText h) (port : Nat) (path : PyStr) :
    getHostname ((if ssl then "https".toList else "http".toList) ++ "://".toList ++ ("[".toList ++ h ++ "]".toList) ++ ":".toList ++
      pyStrNat port ++ "/".toList ++ path) = .ok (some (asciiLower h)) := by
  have hn : ∀ c ∈ '[' :: (h ++ (']' :: (':' :: pyStrNat port))), c ∉ ['/', '?', '#', '@'] := by
    intro c hc hm
    have hm' : c ∈ ['/', '?', '#', '@', '[', ']', '%'] := by
      simp only [List.mem_cons, List.not_mem_nil, or_false] at hm ⊢
      rcases hm with h | h | h | h <;> simp [h]
    rcases List.mem_cons.1 hc with rfl | hc
    · revert hm; decide
    · rcases List.mem_append.1 hc with hc | hc
      · exact hh.2 c hc hm'
      · rcases List.mem_cons.1 hc with rfl | hc
        · revert hm; decide
        · rcases List.mem_cons.1 hc with rfl | hc
          · revert hm; decide
          · exact digit_ok hc hm'
  have hnet := netloc_of ssl ('[' :: (h ++ (']' :: (':' :: pyStrNat port)))) path (fun c hc hm => hn c hc (by
    simp only [List.mem_cons, List.not_mem_nil, or_false] at hm ⊢
    rcases hm with h | h | h <;> simp [h]))
  unfold getHostname
  rw [show (if ssl then "https".toList else "http".toList) ++ "://".toList ++ ("[".toList ++ h ++ "]".toList) ++ ":".toList ++ pyStrNat port ++
    "/".toList ++ path = (if ssl then "https".toList else "http".toList) ++ "://".toList ++ ('[' :: (h ++ (']' :: (':' :: pyStrNat port)))) ++
      "/".toList ++ path by simp, hnet]
  simp only [afterLast_absent (fun hm => hn '@' hm (by decide))]
  rw [if_neg (by simp)]
  have : partitionAt '[' ('[' :: (h ++ (']' :: (':' :: pyStrNat port)))) = ([], some (h ++ (']' :: (':' :: pyStrNat port)))) :=
    partition_first (s := []) (by simp)
  rw [this]
  simp only [partition_first (hostText_not hh (c := ']') (by decide))]
  cases h with
  | nil => exact absurd rfl hh.1
  | cons a as =>
    simp only [partition_absent (hostText_not hh (c := '%') (by decide))]

theorem toLower_ascii {c : Char} (h : c.toNat < 128) : c.toLower.toNat < 128 := by
  have : ∀ n : Fin 128, (Char.ofNat n.val).toLower.toNat < 128 := by decide +kernel
  have := this ⟨c.toNat, h⟩
  rwa [Char.ofNat_toNat] at this

/-- The characters that cannot stand in hosts are no letters. -/
theorem toLower_special {c : Char} (h : c.toLower ∈ [':', '/', '?', '#', '@', '[', ']', '%', '.']) : c.toLower = c := by
  by_cases hc : c.toNat < 128
  · have : ∀ n : Fin 128, (Char.ofNat n.val).toLower ∈ [':', '/', '?', '#', '@', '[', ']', '%', '.'] → (Char.ofNat n.val).toLower = Char.ofNat n.val := by
      decide +kernel
    have := this ⟨c.toNat, hc⟩
    rw [Char.ofNat_toNat] at this
    exact this h
  · unfold Char.toLower
    split
    · rename_i hu
      have h2 := hu.2
      have : c.toNat ≤ 90 := by
        have := UInt32.le_iff_toNat_le.1 h2
        exact this
      omega
    · rfl

theorem lower_hostText {h : PyStr} (hh : HostText h) : HostText (asciiLower h) := by
  refine ⟨?_, ?_⟩
  · intro he; exact hh.1 (List.map_eq_nil_iff.1 he)
  · intro c hc hm
    obtain ⟨d, hd, rfl⟩ := List.mem_map.1 hc
    have := toLower_special (c := d) (by
      simp only [List.mem_cons, List.not_mem_nil, or_false] at hm ⊢
      rcases hm with h | h | h | h | h | h | h <;> simp [h])
    rw [this] at hm
    exact hh.2 d hd hm

theorem lower_colon {h : PyStr} (hh : ':' ∉ h) : ':' ∉ asciiLower h := by
  intro hc
  obtain ⟨d, hd, he⟩ := List.mem_map.1 hc
  have := toLower_special (c := d) (by rw [he]; decide)
  rw [this] at he
  exact hh (he ▸ hd)

theorem lower_lower (h : PyStr) : asciiLower (asciiLower h) = asciiLower h := by
  unfold asciiLower
  rw [List.map_map]
  apply List.map_congr_left
  intro c _
  simp only [Function.comp_apply]
  by_cases hc : c.toNat < 128
  · have : ∀ n : Fin 128, (Char.ofNat n.val).toLower.toLower = (Char.ofNat n.val).toLower := by decide +kernel
    have := this ⟨c.toNat, hc⟩
    rwa [Char.ofNat_toNat] at this
  · have : c.toLower = c := by
      unfold Char.toLower
      split
      · rename_i hu
        have := UInt32.le_iff_toNat_le.1 hu.2
        exact absurd (show c.toNat ≤ 90 from this) (by omega)
      · rfl
    rw [this, this]

theorem split_ne (s : PyStr) : splitLabels s ≠ [] := by
  induction s with
  | nil => simp [splitLabels]
  | cons c cs ih =>
    unfold splitLabels
    split
    · simp
    · split <;> simp

theorem join_cons_cons (c : Char) (l : PyStr) (ls : List PyStr) : joinLabels ((c :: l) :: ls) = c :: joinLabels (l :: ls) := by
  cases ls <;> rfl

/-- Labels of a lower case name. -/
theorem join_lower (s : PyStr) : joinLabels ((splitLabels s).map asciiLower) = asciiLower s := by
  induction s with
  | nil => rfl
  | cons c cs ih =>
    unfold splitLabels
    split
    · rename_i hc
      subst hc
      cases hs : splitLabels cs with
      | nil => exact absurd hs (split_ne cs)
      | cons l ls =>
        rw [hs] at ih
        simp only [List.map_cons, joinLabels] at ih ⊢
        rw [ih]
        rfl
    · cases hs : splitLabels cs with
      | nil => exact absurd hs (split_ne cs)
      | cons l ls =>
        rw [hs] at ih
        simp only [List.map_cons] at ih ⊢
        rw [show asciiLower (c :: l) = c.toLower :: asciiLower l from rfl, join_cons_cons, ih]
        rfl

theorem split_chars {s : PyStr} : ∀ l ∈ splitLabels s, ∀ c ∈ l, c ∈ s := by
  induction s with
  | nil => intro l hl c hc; simp [splitLabels] at hl; subst hl; exact absurd hc (by simp)
  | cons a as ih =>
    intro l hl c hc
    unfold splitLabels at hl
    split at hl
    · rcases List.mem_cons.1 hl with rfl | hl
      · exact absurd hc (by simp)
      · exact List.mem_cons_of_mem _ (ih l hl c hc)
    · split at hl
      · rcases List.mem_cons.1 hl with rfl | hl
        · exact List.mem_cons.2 (.inl (by simpa using hc))
        · exact absurd hl (by simp)
      · rename_i x xs hs
        rcases List.mem_cons.1 hl with rfl | hl
        · rcases List.mem_cons.1 hc with rfl | hc
          · simp
          · exact List.mem_cons_of_mem _ (ih x (by simp [hs]) c hc)
        · exact List.mem_cons_of_mem _ (ih l (by simp [hs, hl]) c hc)

theorem prepare_ascii (idna : PyStr → Option PyStr) {ls : List PyStr} (h : ∀ l ∈ ls, isAscii l = true) :
    prepareLabels idna ls = .ok (ls.map asciiLower) := by
  induction ls with
  | nil => rfl
  | cons l ls ih =>
    unfold prepareLabels
    rw [if_pos (h l (by simp)), ih fun x hx => h x (by simp [hx])]
    rfl

theorem prepare_name (idna : PyStr → Option PyStr) {s : PyStr} (h : isAscii s = true) (hb : '[' ∉ s) : prepareHost idna s = .ok (asciiLower s) := by
  have hl : ∀ l ∈ splitLabels s, isAscii l = true := by
    intro l hl
    unfold isAscii at h ⊢
    rw [List.all_eq_true] at h ⊢
    exact fun c hc => h c (split_chars l hl c hc)
  unfold prepareHost
  split
  · exact absurd (by simp) hb
  · rw [prepare_ascii idna hl]
    show Except.ok (joinLabels _) = _
    rw [join_lower]

/-! ### C88 -/

/-- A value that counts as true: not None, False, zero or the empty text. -/
def CountsTrue (v : OptVal) : Prop := v ∉ [OptVal.none, .bool false, .int 0, .text []]

theorem counts_true (v : OptVal) : CountsTrue v ↔ v.truthy = true := by
  cases v with
  | none => simp [CountsTrue, OptVal.truthy]
  | bool b => cases b <;> simp [CountsTrue, OptVal.truthy]
  | int n => simp [CountsTrue, OptVal.truthy]
  | text s => simp [CountsTrue, OptVal.truthy]

theorem counts_false {v : OptVal} (h : ¬ CountsTrue v) : v.truthy = false := by
  rw [counts_true] at h
  simpa using h

theorem newContext_ok (digest : PyStr → Bytes → Bytes) (a : NegotiateAuth) {scheme protocol url host : PyStr}
    (hp : chooseProtocol a.provider scheme = .ok protocol) (hu : getHostname url = .ok (some host)) (c : Connection) :
    ∃ args, newContext digest a scheme url c = .ok (some host, args) ∧ args.protocol = protocol ∧
      (¬ CountsTrue a.hostnameOverride → args.hostname = .text host) ∧ args.username = a.username ∧ args.password = a.password := by
  unfold newContext
  simp only [hp, hu, bind, Except.bind, pure, Except.pure]
  refine ⟨_, rfl, rfl, ?_, rfl, rfl⟩
  intro ho
  simp only [counts_false ho]
  rfl

/-- The host of the endpoint as it is meant: the address if the server is one, otherwise the name. -/
def meantHost (ipv6 : PyStr → Option PyStr) (server : PyStr) : PyStr := (ipv6 server).getD server

/-- C88, partial: the context is made for the host of the endpoint, and found there when it is needed for encryption.
Missing: names outside ASCII (`C88_idn_false`), redirects (`C88_redirect_false`). -/
theorem C88_found_partial (digest : PyStr → Bytes → Bytes) (idna ipv6 : PyStr → Option PyStr) (ssl : Bool) (server : PyStr) (port : Nat)
    (path : PyStr) (a : NegotiateAuth) {scheme protocol : PyStr} (hp : chooseProtocol a.provider scheme = .ok protocol) (c : Connection)
    (hh : HostText (meantHost ipv6 server)) (hname : ipv6 server = none → ':' ∉ server ∧ isAscii server = true) :
    ∃ url args, preparedEndpoint idna ipv6 ssl server port path = .ok url ∧
      newContext digest a scheme url c = .ok (some (asciiLower (meantHost ipv6 server)), args) ∧ args.protocol = protocol ∧
      (¬ CountsTrue a.hostnameOverride → args.hostname = .text (asciiLower (meantHost ipv6 server))) ∧
      lookupContext [(some (asciiLower (meantHost ipv6 server)), args)] (createEndpoint ipv6 ssl server port path) = .ok args := by
  unfold meantHost at hh ⊢
  cases h6 : ipv6 server with
  | none =>
    rw [h6] at hh
    simp only [Option.getD_none] at hh ⊢
    obtain ⟨hcol, hasc⟩ := hname h6
    have hu := hostname_name ssl (lower_hostText hh) (lower_colon hcol) port path
    rw [lower_lower] at hu
    obtain ⟨args, n1, n2, n3, -, -⟩ := newContext_ok digest a hp hu c
    refine ⟨_, args, ?_, n1, n2, n3, ?_⟩
    · unfold preparedEndpoint
      rw [h6]
      simp only [prepare_name idna hasc (hostText_not hh (by decide)), bind, Except.bind, pure, Except.pure]
    · unfold lookupContext createEndpoint
      rw [h6]
      simp only [hostname_name ssl hh hcol port path, bind, Except.bind]
      simp
  | some x =>
    rw [h6] at hh
    simp only [Option.getD_some] at hh ⊢
    have hu := hostname_literal ssl (lower_hostText hh) port path
    rw [lower_lower] at hu
    obtain ⟨args, n1, n2, n3, -, -⟩ := newContext_ok digest a hp hu c
    refine ⟨_, args, ?_, n1, n2, n3, ?_⟩
    · unfold preparedEndpoint
      rw [h6]
      simp only [prepareHost, show "[".toList ++ x ++ "]".toList = '[' :: (x ++ "]".toList) from rfl, bind, Except.bind, pure, Except.pure]
      rw [show asciiLower ('[' :: (x ++ "]".toList)) = "[".toList ++ asciiLower x ++ "]".toList by
        simp [asciiLower, List.map_append, show Char.toLower '[' = '[' from by decide, show Char.toLower ']' = ']' from by decide]]
    · unfold lookupContext createEndpoint
      rw [h6]
      simp only [hostname_literal ssl hh port path, bind, Except.bind]
      simp

example : HostText "srv-1.Example.com".toList ∧ ':' ∉ "srv-1.Example.com".toList ∧ isAscii "srv-1.Example.com".toList = true ∧
    HostText "2001:db8::1".toList ∧ chooseProtocol "negotiate".toList "Kerberos".toList = .ok "kerberos".toList := by
  unfold HostText; decide +kernel

theorem joined_chars {ls : List PyStr} {c : Char} (h : c ∈ joinLabels ls) : c = '.' ∨ ∃ l ∈ ls, c ∈ l := by
  induction ls with
  | nil => exact absurd h (by simp [joinLabels])
  | cons l ls ih =>
    cases ls with
    | nil => exact .inr ⟨l, by simp, h⟩
    | cons k ks =>
      rcases List.mem_append.1 (show c ∈ l ++ '.' :: joinLabels (k :: ks) from h) with h | h
      · exact .inr ⟨l, by simp, h⟩
      · rcases List.mem_cons.1 h with h | h
        · exact .inl h
        · rcases ih h with h | ⟨l', h1, h2⟩
          · exact .inl h
          · exact .inr ⟨l', by simp [h1], h2⟩

theorem joined_ne {ls : List PyStr} {l : PyStr} (h : l ∈ ls) (hl : l ≠ []) : joinLabels ls ≠ [] := by
  induction ls with
  | nil => exact absurd h (by simp)
  | cons k ks ih =>
    cases ks with
    | nil =>
      have : l = k := by simpa using h
      subst this; exact hl
    | cons j js => simp [joinLabels]

/-- Each prepared label is the lower case of one, or made by IDNA. -/
theorem prepared_labels {idna : PyStr → Option PyStr} {ls : List PyStr} (h : ∀ l ∈ ls, isAscii l = false → idna l ≠ none) :
    ∃ ps, prepareLabels idna ls = .ok ps ∧ (∀ p ∈ ps, ∃ l ∈ ls, (isAscii l = true ∧ p = asciiLower l) ∨ idna l = some p) ∧
      ∀ l ∈ ls, isAscii l = false → ∃ p ∈ ps, idna l = some p := by
  induction ls with
  | nil => exact ⟨[], rfl, by simp, by simp⟩
  | cons l ls ih =>
    obtain ⟨ps, h1, h2, h3⟩ := ih fun x hx => h x (by simp [hx])
    have lift : ∀ p ∈ ps, ∃ l' ∈ l :: ls, (isAscii l' = true ∧ p = asciiLower l') ∨ idna l' = some p := by
      intro p hp
      obtain ⟨l', ha, hb⟩ := h2 p hp
      exact ⟨l', by simp [ha], hb⟩
    cases ha : isAscii l with
    | true =>
      refine ⟨asciiLower l :: ps, by simp only [prepareLabels, ha, if_true, h1, bind, Except.bind, pure, Except.pure], ?_, ?_⟩
      · intro p hp
        rcases List.mem_cons.1 hp with rfl | hp
        · exact ⟨l, by simp, .inl ⟨ha, rfl⟩⟩
        · exact lift p hp
      · intro l' hl' hn
        rcases List.mem_cons.1 hl' with rfl | hl'
        · rw [ha] at hn; exact absurd hn (by simp)
        · obtain ⟨p, hp, he⟩ := h3 l' hl' hn
          exact ⟨p, by simp [hp], he⟩
    | false =>
      obtain ⟨x, hx⟩ := Option.ne_none_iff_exists'.1 (h l (by simp) ha)
      refine ⟨x :: ps, by simp only [prepareLabels, ha, hx, h1, bind, Except.bind, pure, Except.pure]; rfl, ?_, ?_⟩
      · intro p hp
        rcases List.mem_cons.1 hp with rfl | hp
        · exact ⟨l, by simp, .inr hx⟩
        · exact lift p hp
      · intro l' hl' hn
        rcases List.mem_cons.1 hl' with rfl | hl'
        · exact ⟨x, by simp, hx⟩
        · obtain ⟨p, hp, he⟩ := h3 l' hl' hn
          exact ⟨p, by simp [hp], he⟩

theorem split_covers {s : PyStr} {c : Char} (hc : c ∈ s) (hd : c ≠ '.') : ∃ l ∈ splitLabels s, c ∈ l := by
  induction s with
  | nil => exact absurd hc (by simp)
  | cons a as ih =>
    unfold splitLabels
    rcases List.mem_cons.1 hc with rfl | hc
    · rw [if_neg hd]
      cases hs : splitLabels as with
      | nil => exact absurd hs (split_ne as)
      | cons l ls => exact ⟨c :: l, by simp, by simp⟩
    · obtain ⟨l, hl, hm⟩ := ih hc
      split
      · exact ⟨l, by simp [hl], hm⟩
      · cases hs : splitLabels as with
        | nil => exact absurd hs (split_ne as)
        | cons k ks =>
          rw [hs] at hl
          rcases List.mem_cons.1 hl with rfl | hl
          · exact ⟨a :: l, by simp, by simp [hm]⟩
          · exact ⟨l, by simp [hl], hm⟩

/-- C88 is false of names outside ASCII: the context is kept under the name that requests sent, and looked up under the one of the endpoint. So no
message can be encrypted. -/
theorem C88_idn_false (digest : PyStr → Bytes → Bytes) {idna ipv6 : PyStr → Option PyStr} (ssl : Bool) {server : PyStr} (port : Nat)
    (path : PyStr) (a : NegotiateAuth) {scheme protocol : PyStr} (hp : chooseProtocol a.provider scheme = .ok protocol) (c : Connection)
    (h6 : ipv6 server = none) (hh : HostText server) (hcol : ':' ∉ server) (hasc : isAscii server = false)
    (hidna : ∀ l x, idna l = some x → isAscii x = true ∧ HostText x ∧ ':' ∉ x)
    (hall : ∀ l ∈ splitLabels server, isAscii l = false → idna l ≠ none) :
    ∃ url key args, preparedEndpoint idna ipv6 ssl server port path = .ok url ∧ newContext digest a scheme url c = .ok (key, args) ∧
      lookupContext [(key, args)] (createEndpoint ipv6 ssl server port path) = .error .keyError := by
  obtain ⟨ps, h1, h2, h3⟩ := prepared_labels hall
  obtain ⟨d, hd, hbig⟩ : ∃ d ∈ server, ¬ d.toNat < 128 := by
    unfold isAscii at hasc
    rw [List.all_eq_false] at hasc
    obtain ⟨d, hd, hn⟩ := hasc
    exact ⟨d, hd, by simpa using hn⟩
  have hdot : d ≠ '.' := by rintro rfl; exact hbig (by decide)
  obtain ⟨l, hl, hdl⟩ := split_covers hd hdot
  have hlasc : isAscii l = false := by
    unfold isAscii
    rw [List.all_eq_false]
    exact ⟨d, hdl, by simpa using hbig⟩
  obtain ⟨q, hq, hqe⟩ := h3 l hl hlasc
  have chars : ∀ x ∈ joinLabels ps, x.toNat < 128 ∧ x ∉ ['/', '?', '#', '@', '[', ']', '%'] ∧ x ≠ ':' := by
    intro x hx
    rcases joined_chars hx with rfl | ⟨p, hpp, hxp⟩
    · decide
    · obtain ⟨l', hl', hcase⟩ := h2 p hpp
      rcases hcase with ⟨ha, rfl⟩ | hi
      · obtain ⟨y, hy, rfl⟩ := List.mem_map.1 hxp
        have hys := split_chars l' hl' y hy
        have hya : y.toNat < 128 := by
          have := List.all_eq_true.1 ha y hy
          simpa using this
        refine ⟨toLower_ascii hya, ?_, ?_⟩
        · intro hm
          have := toLower_special (c := y) (by
            simp only [List.mem_cons, List.not_mem_nil, or_false] at hm ⊢
            rcases hm with h | h | h | h | h | h | h <;> simp [h])
          rw [this] at hm
          exact hh.2 y hys hm
        · intro hm
          have := toLower_special (c := y) (by rw [hm]; decide)
          rw [this] at hm
          exact hcol (hm ▸ hys)
      · obtain ⟨i1, i2, i3⟩ := hidna l' p hi
        refine ⟨?_, i2.2 x hxp, fun he => i3 (he ▸ hxp)⟩
        have := List.all_eq_true.1 i1 x hxp
        simpa using this
  have hjoin : HostText (joinLabels ps) := ⟨joined_ne hq (hidna l q hqe).2.1.1, fun x hx => (chars x hx).2.1⟩
  have hjcol : ':' ∉ joinLabels ps := fun hx => (chars ':' hx).2.2 rfl
  have hu := hostname_name ssl hjoin hjcol port path
  have hsrv := hostname_name ssl hh hcol port path
  obtain ⟨args, n1, -⟩ := newContext_ok digest a hp hu c
  refine ⟨_, _, args, ?_, n1, ?_⟩
  · unfold preparedEndpoint
    rw [h6]
    have hph : prepareHost idna server = .ok (joinLabels ps) := by
      unfold prepareHost
      split
      · exact absurd (List.mem_cons_self) (hostText_not hh (c := '[') (by decide))
      · rw [h1]; rfl
    simp only [hph, bind, Except.bind, pure, Except.pure]
  · unfold lookupContext createEndpoint
    rw [h6]
    simp only [hsrv, bind, Except.bind]
    rw [List.find?_cons_of_neg]
    · rfl
    · simp only [decide_eq_true_eq, Option.some.injEq]
      intro he
      have hm : d.toLower ∈ asciiLower server := List.mem_map.2 ⟨d, hd, rfl⟩
      rw [← he] at hm
      obtain ⟨y, hy, hyd⟩ := List.mem_map.1 hm
      have h128 := toLower_ascii (chars y hy).1
      rw [hyd] at h128
      have : d.toLower = d := by
        unfold Char.toLower
        split
        · rename_i hu
          have := UInt32.le_iff_toNat_le.1 hu.2
          exact absurd (show d.toNat ≤ 90 from this) (by omega)
        · rfl
      rw [this] at h128
      exact hbig h128

example : splitLabels "bücher.example".toList = ["bücher".toList, "example".toList] ∧ HostText "bücher.example".toList ∧
    isAscii "bücher.example".toList = false ∧
    (preparedEndpoint (fun l => if l = "bücher".toList then some "xn--bcher-kva".toList else none) (fun _ => none) false "bücher.example".toList 5985
      "wsman".toList).toOption = some "http://xn--bcher-kva.example:5985/wsman".toList := by
  unfold HostText; decide +kernel

/-- C88. The context gets the credentials, the service, the delegation and the wrapping of the settings, and the name given for the host. -/
theorem C88_settings {env : Environ} {s : HttpSettings} {session : HttpSession}
    (ha : s.auth ∈ ["negotiate".toList, "kerberos".toList, "ntlm".toList]) (h : buildSession env s = .ok session)
    (digest : PyStr → Bytes → Bytes) {scheme url : PyStr} {c : Connection} {key : Option PyStr} {args : ContextArgs} :
    ∃ a, session.auth = .negotiate a ∧ (newContext digest a scheme url c = .ok (key, args) →
      args.username = s.username ∧ args.password = s.password ∧ args.service = optionOr s "negotiate_service" (.text "host".toList) ∧
      (args.delegate = true ↔ ∃ v, argument s "negotiate_delegate" = some v ∧ CountsTrue v) ∧ args.wrapping = s.wrapRequired ∧
      ∀ name rest, argument s "negotiate_hostname_override" = some (.text (name :: rest)) → args.hostname = .text (name :: rest)) := by
  refine ⟨_, (C86_negotiate_partial ha h).1, ?_⟩
  intro hc
  unfold newContext at hc
  simp only [bind, Except.bind, pure, Except.pure] at hc
  cases hp : chooseProtocol s.auth scheme with
  | error e => rw [hp] at hc; exact absurd hc (by simp)
  | ok protocol =>
    rw [hp] at hc
    simp only [] at hc
    cases hu : getHostname url with
    | error e => rw [hu] at hc; exact absurd hc (by simp)
    | ok host =>
      rw [hu] at hc
      simp only [Except.ok.injEq, Prod.mk.injEq] at hc
      obtain ⟨-, rfl⟩ := hc
      refine ⟨rfl, rfl, rfl, ?_, rfl, ?_⟩
      · simp only [optionOr]
        cases hd : argument s "negotiate_delegate" with
        | none => simp [OptVal.truthy]
        | some v => simp [counts_true]
      · intro name rest hn
        simp only [optionOr, hn]
        rfl

/-- C88. With TLS the context is bound to the certificate as RFC 5929 says, for every signature algorithm for which it says it; the default is to
do so, and without TLS, or if it is not wanted, there is no binding. -/
theorem C88_bindings {env : Environ} {s : HttpSettings} {session : HttpSession}
    (ha : s.auth ∈ ["negotiate".toList, "kerberos".toList, "ntlm".toList]) (h : buildSession env s = .ok session)
    (digest : PyStr → Bytes → Bytes) {scheme url : PyStr} {c : Connection} {key : Option PyStr} {args : ContextArgs} :
    ∃ a, session.auth = .negotiate a ∧ (newContext digest a scheme url c = .ok (key, args) →
      (argument s "negotiate_send_cbt" = some (.bool false) → args.bindings = none) ∧ (c.certificate = none → args.bindings = none) ∧
      ∀ cert hashes hash, (argument s "negotiate_send_cbt" = none ∨ argument s "negotiate_send_cbt" = some (.bool true)) → c.socket = true →
        c.certificate = some cert → cert.signatureHash = some (hashes.head?.map String.toList) → rfc5929 hashes = some hash →
        args.bindings = some (ascii "tls-server-end-point:".toList ++ digest hash.toList cert.der)) := by
  refine ⟨_, (C86_negotiate_partial ha h).1, ?_⟩
  intro hc
  unfold newContext at hc
  simp only [bind, Except.bind, pure, Except.pure] at hc
  cases hp : chooseProtocol s.auth scheme with
  | error e => rw [hp] at hc; exact absurd hc (by simp)
  | ok protocol =>
    rw [hp] at hc
    simp only [] at hc
    cases hu : getHostname url with
    | error e => rw [hu] at hc; exact absurd hc (by simp)
    | ok host =>
      rw [hu] at hc
      simp only [Except.ok.injEq, Prod.mk.injEq] at hc
      obtain ⟨-, rfl⟩ := hc
      refine ⟨?_, ?_, ?_⟩
      · intro hn
        simp only [optionOr, hn]
        rfl
      · intro hn
        have : cbtData digest c = none := by unfold cbtData; rw [hn]; simp
        simp only [this]
        split <;> rfl
      · intro cert hashes hash hs hsock hcert hsig hrfc
        have hb : (optionOr s "negotiate_send_cbt" (.bool true)).truthy = true := by
          rcases hs with hs | hs <;> simp only [optionOr, hs] <;> rfl
        have hhash : certificateHash digest cert = digest hash.toList cert.der := by
          unfold certificateHash
          rw [hsig]
          cases hashes with
          | nil => exact absurd hrfc (by simp [rfc5929])
          | cons x xs =>
            cases xs with
            | cons y ys => exact absurd hrfc (by unfold rfc5929; split <;> simp_all)
            | nil =>
              simp only [List.head?_cons, Option.map_some, Option.getD_some]
              by_cases h1 : x = "md5"
              · subst h1
                simp only [rfc5929, Option.some.injEq] at hrfc
                subst hrfc; rfl
              · by_cases h2 : x = "sha1"
                · subst h2
                  simp only [rfc5929, Option.some.injEq] at hrfc
                  subst hrfc; rfl
                · have hx : rfc5929 [x] = some x := by
                    unfold rfc5929
                    split
                    · rename_i he; exact absurd (by simpa using he) h1
                    · rename_i he; exact absurd (by simpa using he) h2
                    · rename_i he; simp only [List.cons.injEq, and_true] at he; rw [he]
                    · rename_i he; exact absurd rfl (he x)
                  rw [hx] at hrfc
                  obtain rfl := Option.some.inj hrfc
                  rw [if_neg (by
                    simp only [List.mem_cons, List.not_mem_nil, or_false, not_or]
                    exact ⟨fun h => h1 (String.toList_inj.1 h), fun h => h2 (String.toList_inj.1 h)⟩)]
        have : cbtData digest c = some (ascii "tls-server-end-point:".toList ++ digest hash.toList cert.der) := by
          unfold cbtData
          rw [hsock, hcert, if_pos rfl, Option.map_some, hhash]
        simp only [hb, this, if_true]
        rfl

example : rfc5929 ["sha1"] = some "sha256" ∧ rfc5929 ["sha512"] = some "sha512" ∧ rfc5929 [] = none := by decide +kernel

/-- C88 is false of redirects: the server can have the client authenticate to any other one. -/
theorem C88_redirect_false (digest : PyStr → Bytes → Bytes) (a : NegotiateAuth) {scheme protocol : PyStr}
    (hp : chooseProtocol a.provider scheme = .ok protocol) (ho : ¬ CountsTrue a.hostnameOverride) (c : Connection) (url : PyStr)
    (body : Option Bytes) {other : PyStr} (hh : HostText other) (hcol : ':' ∉ other) (port : Nat) (path : PyStr) (ssl : Bool) (status : Nat)
    (hs : status ∈ [301, 302, 303, 307, 308]) (ipv6 : PyStr → Option PyStr) (h6 : ipv6 other = none) :
    ∃ args, contextsMade digest a scheme c url body [⟨status, some (createEndpoint ipv6 ssl other port path)⟩, ⟨401, none⟩] =
      .ok [(some (asciiLower other), args)] ∧ args.hostname = .text (asciiLower other) ∧ args.username = a.username ∧
      args.password = a.password := by
  have hu := hostname_name ssl hh hcol port path
  have h401 : status ≠ 401 := by rintro rfl; revert hs; decide
  obtain ⟨args, n1, n2, n3, n4, n5⟩ := newContext_ok digest a hp hu c
  refine ⟨args, ?_, n3 ho, n4, n5⟩
  unfold contextsMade
  simp only [follow, hs, if_true, List.zip_cons_cons, List.zip_nil_right, List.filter_cons, h401, decide_true, decide_false,
    Bool.false_eq_true, if_false, List.filter_nil, List.mapM_cons, List.mapM_nil]
  unfold createEndpoint
  rw [h6]
  simp only [n1, bind, Except.bind, pure, Except.pure]

end Verif
