import Verif.Model.Errors
import Verif.Props.TransportInvoke
import Verif.Lemmas.Numbers
/-
C90: what the errors say.
-/
namespace Verif

/-! ### Reading a message -/

/-- The parts of a text between the separators ", ". -/
def commaParts : PyStr → List PyStr
  | ',' :: ' ' :: cs => [] :: commaParts cs
  | c :: cs =>
    match commaParts cs with
    | [] => [[c]]
    | p :: ps => (c :: p) :: ps
  | [] => [[]]

/-- What a person finds under a label in the message of a fault: the text after the label in the first part that begins with it,
between the parentheses. -/
def readDetail (label : String) (message : PyStr) : Option PyStr :=
  let start := "Received a WSManFault message. (".toList
  let label := label.toList ++ ": ".toList
  ((commaParts (message.drop start.length).dropLast).find? label.isPrefixOf).map (List.drop label.length)

theorem commaParts_free {p : PyStr} (h : ',' ∉ p) : commaParts p = [p] := by
  induction p with
  | nil => rfl
  | cons c cs ih =>
    have hc : c ≠ ',' := fun e => h (e ▸ List.mem_cons_self)
    rw [commaParts, ih (fun e => h (List.mem_cons_of_mem _ e))]
    intro cs' hcs
    exact absurd hcs hc

theorem commaParts_append {p s : PyStr} (h : ',' ∉ p) : commaParts (p ++ ',' :: ' ' :: s) = p :: commaParts s := by
  induction p with
  | nil => rw [List.nil_append, commaParts]
  | cons c cs ih =>
    have hc : c ≠ ',' := fun e => h (e ▸ List.mem_cons_self)
    rw [List.cons_append, commaParts, ih (fun e => h (List.mem_cons_of_mem _ e))]
    intro cs' hcs
    exact absurd hcs hc

theorem commaParts_join {ps : List PyStr} (hne : ps ≠ []) (h : ∀ p ∈ ps, ',' ∉ p) : commaParts (joinWith ", ".toList ps) = ps := by
  induction ps with
  | nil => exact absurd rfl hne
  | cons p ps ih =>
    cases ps with
    | nil => exact commaParts_free (h p List.mem_cons_self)
    | cons q qs =>
      have e : joinWith ", ".toList (p :: q :: qs) = p ++ ',' :: ' ' :: joinWith ", ".toList (q :: qs) := by
        rw [joinWith, List.append_assoc]; rfl
      rw [e, commaParts_append (h p List.mem_cons_self), ih (by simp) (fun p hp => h p (List.mem_cons_of_mem _ hp))]

theorem infix_join {sep p : PyStr} {ps : List PyStr} (h : p ∈ ps) : p <:+: joinWith sep ps := by
  induction ps with
  | nil => cases h
  | cons q qs ih =>
    cases qs with
    | nil =>
      rw [List.mem_singleton] at h
      rw [h]
      exact List.infix_rfl
    | cons r rs =>
      rw [joinWith]
      rcases List.mem_cons.1 h with rfl | h
      · exact ⟨[], sep ++ joinWith sep (r :: rs), by simp⟩
      · exact (ih h).trans ⟨q ++ sep, [], by simp⟩

/-! ### Faults -/

/-- The detail of one label. -/
def piece (label : String) (v : Option PyStr) : List PyStr := v.toList.map (label.toList ++ ·)

theorem addDetail_piece (label : String) (v : Option PyStr) (d : List PyStr) : addDetail label v d = d ++ piece label v := by
  cases v <;> simp [addDetail, piece]

/-- The details of a fault. -/
def pieces (c m r p a f : Option PyStr) : List PyStr :=
  piece "Code: " c ++ piece "Machine: " m ++ piece "Reason: " r ++ piece "Provider: " p ++ piece "Provider Path: " a ++ piece "Provider Fault: " f

/-- A list of details, and what is said if there are none. -/
def orNone (d : List PyStr) : List PyStr := if d = [] then ["No details returned by the server".toList] else d

theorem faultMessage_pieces (code : Option (PyStr ⊕ Int)) (machine reason provider path fault : Option PyStr) :
    faultMessage code machine reason provider path fault =
      "Received a WSManFault message. (".toList ++ joinWith ", ".toList
        (orNone (pieces ((codeTrue code).map codeText) (textTrue machine) (textTrue reason) (textTrue provider) (textTrue path) (textTrue fault))) ++
          ")".toList := by
  have e : ∀ c m r p a f, addDetail "Provider Fault: " f (addDetail "Provider Path: " a (addDetail "Provider: " p (addDetail "Reason: " r
      (addDetail "Machine: " m (addDetail "Code: " c []))))) = pieces c m r p a f := by
    intro c m r p a f
    rw [addDetail_piece, addDetail_piece, addDetail_piece, addDetail_piece, addDetail_piece, addDetail_piece, List.nil_append, pieces]
  unfold faultMessage
  simp only [e]
  generalize pieces _ _ _ _ _ _ = d
  cases d with
  | nil => rfl
  | cons x xs => rw [orNone, if_neg (by simp), if_neg (by simp)]

theorem find_own (label : String) (v : Option PyStr) : ((piece label v).find? label.toList.isPrefixOf).map (List.drop label.toList.length) = v := by
  cases v with
  | none => rfl
  | some v =>
    have h : label.toList.isPrefixOf (label.toList ++ v) = true := by
      rw [List.isPrefixOf_iff_prefix]; exact List.prefix_append _ _
    simp only [piece, Option.toList_some, List.map_cons, List.map_nil, List.find?_cons, h, Option.map_some, List.drop_left]

theorem find_other (label other : String) (v : Option PyStr) (h : ∀ v, label.toList.isPrefixOf (other.toList ++ v) = false) :
    (piece other v).find? label.toList.isPrefixOf = none := by
  cases v with
  | none => rfl
  | some v => simp only [piece, Option.toList_some, List.map_cons, List.map_nil, List.find?_cons, h, List.find?_nil]

theorem piece_free {label : String} {v : Option PyStr} (hl : ',' ∉ label.toList) (hv : ∀ t ∈ v, ',' ∉ t) : ∀ p ∈ piece label v, ',' ∉ p := by
  intro p hp hc
  cases v with
  | none => cases hp
  | some t =>
    simp only [piece, Option.toList_some, List.map_cons, List.map_nil, List.mem_singleton] at hp
    rw [hp, List.mem_append] at hc
    exact hc.elim hl (hv t rfl)

theorem read_message {parts : List PyStr} (label : String) (hne : parts ≠ []) (h : ∀ p ∈ parts, ',' ∉ p) :
    readDetail label ("Received a WSManFault message. (".toList ++ joinWith ", ".toList parts ++ ")".toList) =
      (parts.find? (label.toList ++ ": ".toList).isPrefixOf).map (List.drop (label.toList ++ ": ".toList).length) := by
  unfold readDetail
  have e : ("Received a WSManFault message. (".toList ++ joinWith ", ".toList parts ++ ")".toList).drop "Received a WSManFault message. (".toList.length =
      joinWith ", ".toList parts ++ [')'] := by
    rw [List.append_assoc, List.drop_left]; rfl
  simp only [e, List.dropLast_concat, commaParts_join hne h]

theorem find_pieces {c m r p a f : Option PyStr} :
    ((pieces c m r p a f).find? "Code: ".toList.isPrefixOf).map (List.drop "Code: ".toList.length) = c ∧
    ((pieces c m r p a f).find? "Machine: ".toList.isPrefixOf).map (List.drop "Machine: ".toList.length) = m ∧
    ((pieces c m r p a f).find? "Reason: ".toList.isPrefixOf).map (List.drop "Reason: ".toList.length) = r ∧
    ((pieces c m r p a f).find? "Provider: ".toList.isPrefixOf).map (List.drop "Provider: ".toList.length) = p ∧
    ((pieces c m r p a f).find? "Provider Path: ".toList.isPrefixOf).map (List.drop "Provider Path: ".toList.length) = a ∧
    ((pieces c m r p a f).find? "Provider Fault: ".toList.isPrefixOf).map (List.drop "Provider Fault: ".toList.length) = f := by
  unfold pieces
  simp only [List.find?_append]
  refine ⟨?_, ?_, ?_, ?_, ?_, ?_⟩
  · rw [find_other "Code: " "Machine: " _ (fun _ => rfl), find_other "Code: " "Reason: " _ (fun _ => rfl), find_other "Code: " "Provider: " _ (fun _ => rfl),
      find_other "Code: " "Provider Path: " _ (fun _ => rfl), find_other "Code: " "Provider Fault: " _ (fun _ => rfl)]
    simp only [Option.or_none]; exact find_own _ _
  · rw [find_other "Machine: " "Code: " _ (fun _ => rfl), find_other "Machine: " "Reason: " _ (fun _ => rfl), find_other "Machine: " "Provider: " _ (fun _ => rfl),
      find_other "Machine: " "Provider Path: " _ (fun _ => rfl), find_other "Machine: " "Provider Fault: " _ (fun _ => rfl)]
    simp only [Option.or_none, Option.none_or]; exact find_own _ _
  · rw [find_other "Reason: " "Code: " _ (fun _ => rfl), find_other "Reason: " "Machine: " _ (fun _ => rfl), find_other "Reason: " "Provider: " _ (fun _ => rfl),
      find_other "Reason: " "Provider Path: " _ (fun _ => rfl), find_other "Reason: " "Provider Fault: " _ (fun _ => rfl)]
    simp only [Option.or_none, Option.none_or]; exact find_own _ _
  · rw [find_other "Provider: " "Code: " _ (fun _ => rfl), find_other "Provider: " "Machine: " _ (fun _ => rfl), find_other "Provider: " "Reason: " _ (fun _ => rfl),
      find_other "Provider: " "Provider Path: " _ (fun _ => rfl), find_other "Provider: " "Provider Fault: " _ (fun _ => rfl)]
    simp only [Option.or_none, Option.none_or]; exact find_own _ _
  · rw [find_other "Provider Path: " "Code: " _ (fun _ => rfl), find_other "Provider Path: " "Machine: " _ (fun _ => rfl),
      find_other "Provider Path: " "Reason: " _ (fun _ => rfl), find_other "Provider Path: " "Provider: " _ (fun _ => rfl),
      find_other "Provider Path: " "Provider Fault: " _ (fun _ => rfl)]
    simp only [Option.or_none, Option.none_or]; exact find_own _ _
  · rw [find_other "Provider Fault: " "Code: " _ (fun _ => rfl), find_other "Provider Fault: " "Machine: " _ (fun _ => rfl),
      find_other "Provider Fault: " "Reason: " _ (fun _ => rfl), find_other "Provider Fault: " "Provider: " _ (fun _ => rfl),
      find_other "Provider Fault: " "Provider Path: " _ (fun _ => rfl)]
    simp only [Option.none_or]; exact find_own _ _

/-- The code of a fault as far as it says something: a text that is not empty, or a number other than 0, in decimal. -/
inductive GivenCode : Option (PyStr ⊕ Int) → Option PyStr → Prop where
  | none : GivenCode none none
  | empty : GivenCode (some (.inl [])) none
  | zero : GivenCode (some (.inr 0)) none
  | text {s : PyStr} : s ≠ [] → GivenCode (some (.inl s)) (some s)
  | number {n : Int} {s : PyStr} : n ≠ 0 → s = pyStrInt n → GivenCode (some (.inr n)) (some s)

/-- Another detail of a fault as far as it says something. -/
inductive Given : Option PyStr → Option PyStr → Prop where
  | none : Given none none
  | empty : Given (some []) none
  | text {s : PyStr} : s ≠ [] → Given (some s) (some s)

theorem given_code {c : Option (PyStr ⊕ Int)} {t : Option PyStr} (h : GivenCode c t) : (codeTrue c).map codeText = t := by
  cases h with
  | none => rfl
  | empty => rfl
  | zero => rfl
  | text h =>
    rename_i s
    cases s with
    | nil => exact absurd rfl h
    | cons x xs => rfl
  | number h e =>
    rename_i n s
    have : codeTrue (some (.inr n)) = some (.inr n) := by
      unfold codeTrue
      split
      · rename_i e; cases e
      · rename_i e; cases e; exact absurd rfl h
      · rfl
    rw [this, e]; rfl

theorem given_text {v t : Option PyStr} (h : Given v t) : textTrue v = t := by
  cases h with
  | none => rfl
  | empty => rfl
  | text h =>
    rename_i s
    cases s with
    | nil => exact absurd rfl h
    | cons x xs => rfl

/-- C90, partial: what a fault says can be read from the message of its error, every detail under its own label: those without a value
are not there. Missing: details with a comma, see `C90_comma_false`; the code 0, see `C90_zero_false`. -/
theorem C90_fault_partial {code : Option (PyStr ⊕ Int)} {machine reason provider path fault c m r p a f : Option PyStr} (hc : GivenCode code c)
    (hm : Given machine m) (hr : Given reason r) (hp : Given provider p) (ha : Given path a) (hf : Given fault f)
    (plain : ∀ v ∈ [c, m, r, p, a, f], ∀ t ∈ v, ',' ∉ t) :
    let message := faultMessage code machine reason provider path fault
    readDetail "Code" message = c ∧ readDetail "Machine" message = m ∧ readDetail "Reason" message = r ∧ readDetail "Provider" message = p ∧
      readDetail "Provider Path" message = a ∧ readDetail "Provider Fault" message = f := by
  intro message
  have hmsg : message = "Received a WSManFault message. (".toList ++ joinWith ", ".toList (orNone (pieces c m r p a f)) ++ ")".toList := by
    rw [← given_code hc, ← given_text hm, ← given_text hr, ← given_text hp, ← given_text ha, ← given_text hf]
    exact faultMessage_pieces _ _ _ _ _ _
  have hfree : ∀ x ∈ pieces c m r p a f, ',' ∉ x := by
    intro x hx
    unfold pieces at hx
    simp only [List.mem_append] at hx
    rcases hx with ((((h | h) | h) | h) | h) | h
    · exact piece_free (by decide) (plain c (by simp)) x h
    · exact piece_free (by decide) (plain m (by simp)) x h
    · exact piece_free (by decide) (plain r (by simp)) x h
    · exact piece_free (by decide) (plain p (by simp)) x h
    · exact piece_free (by decide) (plain a (by simp)) x h
    · exact piece_free (by decide) (plain f (by simp)) x h
  obtain ⟨f1, f2, f3, f4, f5, f6⟩ := find_pieces (c := c) (m := m) (r := r) (p := p) (a := a) (f := f)
  have key : ∀ (label full : String) (v : Option PyStr), full.toList = label.toList ++ ": ".toList →
      full.toList.isPrefixOf "No details returned by the server".toList = false →
      ((pieces c m r p a f).find? full.toList.isPrefixOf).map (List.drop full.toList.length) = v → readDetail label message = v := by
    intro label full v hfull hno h
    rw [hmsg, read_message label, ← hfull]
    · by_cases hd : pieces c m r p a f = []
      · rw [hd] at h
        rw [← h, orNone, if_pos hd, List.find?_cons, hno]
      · rw [orNone, if_neg hd, h]
    · unfold orNone; split
      · simp
      · assumption
    · intro x hx
      unfold orNone at hx
      split at hx
      · rw [List.mem_singleton] at hx; rw [hx]; decide
      · exact hfree x hx
  exact ⟨key "Code" "Code: " c rfl rfl f1, key "Machine" "Machine: " m rfl rfl f2, key "Reason" "Reason: " r rfl rfl f3,
    key "Provider" "Provider: " p rfl rfl f4, key "Provider Path" "Provider Path: " a rfl rfl f5, key "Provider Fault" "Provider Fault: " f rfl rfl f6⟩

/-- C90: with or without commas, every detail that says something stands in the message after its label. -/
theorem C90_contains {code : Option (PyStr ⊕ Int)} {machine reason provider path fault c m r p a f : Option PyStr} (hc : GivenCode code c)
    (hm : Given machine m) (hr : Given reason r) (hp : Given provider p) (ha : Given path a) (hf : Given fault f) :
    ∀ d ∈ [("Code: ", c), ("Machine: ", m), ("Reason: ", r), ("Provider: ", p), ("Provider Path: ", a), ("Provider Fault: ", f)], ∀ v ∈ d.2,
      d.1.toList ++ v <:+: faultMessage code machine reason provider path fault := by
  intro d hd v hv
  rw [faultMessage_pieces, given_code hc, given_text hm, given_text hr, given_text hp, given_text ha, given_text hf]
  have hin : d.1.toList ++ v ∈ pieces c m r p a f := by
    have own : d.1.toList ++ v ∈ piece d.1 d.2 := by
      have : d.2 = some v := hv
      rw [this]
      simp [piece]
    unfold pieces
    simp only [List.mem_append]
    simp only [List.mem_cons, List.not_mem_nil, or_false] at hd
    rcases hd with rfl | rfl | rfl | rfl | rfl | rfl
    · exact .inl (.inl (.inl (.inl (.inl own))))
    · exact .inl (.inl (.inl (.inl (.inr own))))
    · exact .inl (.inl (.inl (.inr own)))
    · exact .inl (.inl (.inr own))
    · exact .inl (.inr own)
    · exact .inr own
  have hne : pieces c m r p a f ≠ [] := List.ne_nil_of_mem hin
  rw [orNone, if_neg hne]
  exact (infix_join hin).trans ⟨_, _, rfl⟩

/-- C90, partial: the message of the error for a fault document of the server names the code, the machine, the reason, the provider and its
message of the document, for every header and all texts without commas. Missing: as for `C90_fault_partial`. -/
theorem C90_server_partial (env : TransportEnv) (cfg : TransportCfg) (action : WSManAction) (id : PyStr) (message : Bytes) (w : TWorld) (r : HttpResponse)
    (text : Bytes) (hready : ReadyFor env cfg message w) (hr : Receives env cfg w r text) (h1 : 400 ≤ r.status) (h2 : r.status < 600) (h3 : r.status ≠ 401)
    (header : List Elem) (p : FaultParts) (code : Int) (machine reason fault : PyStr)
    (hp : env.parse text = some (soapFault header p [wsmanDetail p (pyStrInt code)]))
    (hcode : code ≠ 0) (hm : p.machine = some machine) (hr' : p.message = some reason) (hf : p.providerFault = some fault)
    (ne : machine ≠ [] ∧ pyStrip reason ≠ [] ∧ p.provider ≠ [] ∧ p.path ≠ [] ∧ pyStrip fault ≠ [])
    (plain : ∀ t ∈ [machine, reason, p.provider, p.path, fault], ',' ∉ t) :
    ∃ c m rs pr pa pf, (wsmanInvoke env cfg action id message w).1 = .raised (.fault c m rs pr pa pf) ∧
      let said := faultMessage c m rs pr pa pf
      readDetail "Code" said = some (pyStrInt code) ∧ readDetail "Machine" said = some machine ∧ readDetail "Reason" said = some (pyStrip reason) ∧
      readDetail "Provider" said = some p.provider ∧ readDetail "Provider Path" said = some p.path ∧ readDetail "Provider Fault" said = some (pyStrip fault) := by
  have h := sendLoop_received hready hr (.inr h3) action.readRetries
  rw [if_pos ⟨h1, h2⟩, if_neg h3] at h
  rw [wsmanInvoke_fst, h]
  dsimp only
  rw [hp]
  dsimp only
  rw [parseFault_detail]
  have strip : ∀ m : PyStr, pyStrip m ≠ [] → stripText (some m) = some (pyStrip m) ∧ m ≠ [] := by
    intro m hm
    cases m with
    | nil => exact absurd rfl hm
    | cons c cs => exact ⟨rfl, by simp⟩
  have hfirst : firstText p.message p.reason = some reason := by
    rw [hr']
    cases reason with
    | nil => exact absurd rfl (strip _ ne.2.1).2
    | cons c cs => rfl
  have hdigits : ',' ∉ pyStrInt code := by
    have hn : ∀ n : Nat, ',' ∉ pyStrNat n := by
      intro n hc
      have := (pyStrNat_decimal n).2 _ hc
      exact absurd this (by decide)
    unfold pyStrInt
    split
    · intro hc
      rcases List.mem_cons.1 hc with h | h
      · exact absurd h (by decide)
      · exact hn _ h
    · exact hn _
  have hstrip : ∀ m : PyStr, ',' ∉ m → ',' ∉ pyStrip m := by
    intro m hm hc
    unfold pyStrip at hc
    rw [List.mem_reverse] at hc
    exact hm ((List.dropWhile_sublist _).mem (List.mem_reverse.1 ((List.dropWhile_sublist _).mem hc)))
  have hcd : faultCode (pyStrInt code) = .inr code := by unfold faultCode; rw [pyInt_pyStrInt]
  refine ⟨_, _, _, _, _, _, rfl, ?_⟩
  rw [hcd, hm, hfirst, hf, (strip _ ne.2.1).1, (strip _ ne.2.2.2.2).1]
  refine C90_fault_partial (.number hcode rfl) (.text ne.1) (.text ne.2.1) (.text ne.2.2.1) (.text ne.2.2.2.1) (.text ne.2.2.2.2) ?_
  intro v hv t ht
  simp only [List.mem_cons, List.not_mem_nil, or_false] at hv
  rcases hv with rfl | rfl | rfl | rfl | rfl | rfl <;> (cases ht)
  · exact hdigits
  · exact plain _ (by simp)
  · exact hstrip _ (plain _ (by simp))
  · exact plain _ (by simp)
  · exact plain _ (by simp)
  · exact hstrip _ (plain _ (by simp))

/-- C90 is false for the code 0: the message is that of a fault without a code. -/
theorem C90_zero_false (machine reason provider path fault : Option PyStr) :
    faultMessage (some (.inr 0)) machine reason provider path fault = faultMessage none machine reason provider path fault := rfl

/-- C90 is false for details with commas: the message of a fault whose reason contains the text of another detail is that of a fault with
this detail. -/
theorem C90_comma_false (code : Option (PyStr ⊕ Int)) (machine path : Option PyStr) {reason provider : PyStr} (h1 : reason ≠ []) (h2 : provider ≠ [])
    (fault : Option PyStr) : faultMessage code machine (some (reason ++ ", Provider: ".toList ++ provider)) none path fault =
      faultMessage code machine (some reason) (some provider) path fault := by
  rw [faultMessage_pieces, faultMessage_pieces, given_text (.text h1), given_text (.text h2), given_text .none,
    given_text (.text (s := reason ++ ", Provider: ".toList ++ provider) (by simp [h1]))]
  generalize (codeTrue code).map codeText = c
  generalize textTrue machine = m
  generalize textTrue path = a
  generalize textTrue fault = f
  have join : ∀ (pre post : List PyStr) (x y : PyStr), joinWith ", ".toList (pre ++ (x ++ ", ".toList ++ y) :: post) = joinWith ", ".toList (pre ++ x :: y :: post) := by
    intro pre post x y
    induction pre with
    | nil =>
      cases post with
      | nil => simp [joinWith]
      | cons q qs => simp [joinWith]
    | cons q qs ih =>
      have hc : ∀ l l' : List PyStr, l ≠ [] → l' ≠ [] → joinWith ", ".toList l = joinWith ", ".toList l' →
          joinWith ", ".toList (q :: l) = joinWith ", ".toList (q :: l') := by
        intro l l' hl hl' e
        cases l with
        | nil => exact absurd rfl hl
        | cons a as =>
          cases l' with
          | nil => exact absurd rfl hl'
          | cons b bs => rw [joinWith, joinWith, e]
      exact hc _ _ (by simp) (by simp) ih
  have e1 : pieces c m (some (reason ++ ", Provider: ".toList ++ provider)) none a f =
      (piece "Code: " c ++ piece "Machine: " m) ++ (("Reason: ".toList ++ reason) ++ ", ".toList ++ ("Provider: ".toList ++ provider)) ::
        (piece "Provider Path: " a ++ piece "Provider Fault: " f) := by
    simp [pieces, piece]
  have e2 : pieces c m (some reason) (some provider) a f =
      (piece "Code: " c ++ piece "Machine: " m) ++ ("Reason: ".toList ++ reason) :: ("Provider: ".toList ++ provider) ::
        (piece "Provider Path: " a ++ piece "Provider Fault: " f) := by
    simp [pieces, piece]
  rw [orNone, if_neg (by rw [e1]; simp), orNone, if_neg (by rw [e2]; simp), e1, e2, join]

/-! ### Errors of the transport -/

theorem span_eq {p : Char → Bool} {a a' : PyStr} {x x' : Char} {r r' : PyStr} (ha : ∀ c ∈ a, p c = true) (ha' : ∀ c ∈ a', p c = true)
    (hx : p x = false) (hx' : p x' = false) (h : a ++ x :: r = a' ++ x' :: r') : a = a' ∧ x :: r = x' :: r' := by
  induction a generalizing a' with
  | nil =>
    cases a' with
    | nil => exact ⟨rfl, h⟩
    | cons c cs =>
      rw [List.nil_append, List.cons_append, List.cons.injEq] at h
      rw [h.1, ha' c List.mem_cons_self] at hx
      cases hx
  | cons c cs ih =>
    cases a' with
    | nil =>
      rw [List.nil_append, List.cons_append, List.cons.injEq] at h
      rw [← h.1, ha c List.mem_cons_self] at hx'
      cases hx'
    | cons d ds =>
      rw [List.cons_append, List.cons_append, List.cons.injEq] at h
      obtain ⟨k1, k2⟩ := ih (fun x hx => ha x (List.mem_cons_of_mem _ hx)) (fun x hx => ha' x (List.mem_cons_of_mem _ hx)) h.2
      exact ⟨by rw [h.1, k1], k2⟩

/-- C90: two errors of the transport say the same only if the status and the content of the response are the same. -/
theorem C90_transport {code code' : Nat} {text text' : PyStr} (h : transportMessage code text = transportMessage code' text') :
    code = code' ∧ text = text' := by
  unfold transportMessage at h
  simp only [List.append_assoc] at h
  have h := List.append_cancel_left h
  have e : ∀ t : PyStr, ", Content: '".toList ++ (t ++ "'".toList) = ',' :: (" Content: '".toList ++ (t ++ "'".toList)) := fun _ => rfl
  rw [e, e] at h
  obtain ⟨h1, h2⟩ := span_eq (p := Char.isDigit) (pyStrNat_decimal code).2 (pyStrNat_decimal code').2 (by decide) (by decide) h
  constructor
  · have := pyInt_pyStrNat code
    rw [h1, pyInt_pyStrNat, Except.ok.injEq] at this
    omega
  · rw [List.cons.injEq] at h2
    exact List.append_cancel_right (List.append_cancel_left h2.2)

/-! ### Errors of a state -/

/-- A state has a name: the states of [MS-PSRP] 2.2.3.4 (0 to 9) and 2.2.3.5 (0 to 6). -/
def HasName (count : Nat) (state : Int) : Prop := 0 ≤ state ∧ state < count

/-- Two tables of distinct names without quotes and commas. -/
theorem names_ok : ∀ t ∈ [(poolStateNames, 10), (pipeStateNames, 7)], (∀ n : Nat, n < t.2 → ∃ s, stateText t.1 n = .ok s ∧ '\'' ∉ s ∧ ',' ∉ s) ∧
    (∀ n < t.2, ∀ k < t.2, stateText t.1 n = stateText t.1 k → n = k) := by
  intro t ht
  simp only [List.mem_cons, List.not_mem_nil, or_false] at ht
  rcases ht with rfl | rfl
  · constructor
    · intro n hn
      match n, hn with
      | 0, _ | 1, _ | 2, _ | 3, _ | 4, _ | 5, _ | 6, _ | 7, _ | 8, _ | 9, _ => exact ⟨_, rfl, by decide, by decide⟩
    · decide +kernel
  · constructor
    · intro n hn
      match n, hn with
      | 0, _ | 1, _ | 2, _ | 3, _ | 4, _ | 5, _ | 6, _ => exact ⟨_, rfl, by decide, by decide⟩
    · decide +kernel

/-- The tables of the two kinds of states, with the number of their states. -/
def stateTables : List (List (Int × String) × Nat) := [(poolStateNames, 10), (pipeStateNames, 7)]

theorem state_name {t : List (Int × String) × Nat} (ht : t ∈ stateTables) {e : Int} (he : HasName t.2 e) :
    ∃ s, stateText t.1 e = .ok s ∧ '\'' ∉ s ∧ ',' ∉ s := by
  have := (names_ok t ht).1 e.toNat (by have := he.1; have := he.2; omega)
  rwa [Int.toNat_of_nonneg he.1] at this

theorem state_inj {t : List (Int × String) × Nat} (ht : t ∈ stateTables) {e e' : Int} (he : HasName t.2 e) (he' : HasName t.2 e')
    (h : stateText t.1 e = stateText t.1 e') : e = e' := by
  have h1 := he.1; have h2 := he.2; have h3 := he'.1; have h4 := he'.2
  have := (names_ok t ht).2 e.toNat (by omega) e'.toNat (by omega) (by rw [Int.toNat_of_nonneg h1, Int.toNat_of_nonneg h3]; exact h)
  omega

theorem state_names {t : List (Int × String) × Nat} (ht : t ∈ stateTables) {es : List Int} (hes : ∀ e ∈ es, HasName t.2 e) :
    ∃ ns, es.mapM (stateText t.1) = .ok ns ∧ (es ≠ [] → ns ≠ []) ∧ ∀ s ∈ ns, ',' ∉ s := by
  induction es with
  | nil => exact ⟨[], rfl, by simp, by simp⟩
  | cons e es ih =>
    obtain ⟨s, hs, -, hc⟩ := state_name ht (hes e List.mem_cons_self)
    obtain ⟨ns, hn, -, hcs⟩ := ih (fun e he => hes e (List.mem_cons_of_mem _ he))
    refine ⟨s :: ns, ?_, by simp, ?_⟩
    · rw [List.mapM_cons, hs, hn]; rfl
    · intro x hx
      rcases List.mem_cons.1 hx with rfl | hx
      · exact hc
      · exact hcs x hx

theorem states_inj {t : List (Int × String) × Nat} (ht : t ∈ stateTables) {es es' : List Int} (hes : ∀ e ∈ es, HasName t.2 e)
    (hes' : ∀ e ∈ es', HasName t.2 e) (h : es.mapM (stateText t.1) = es'.mapM (stateText t.1)) : es = es' := by
  induction es generalizing es' with
  | nil =>
    cases es' with
    | nil => rfl
    | cons e es' =>
      obtain ⟨s, hs, -⟩ := state_name ht (hes' e List.mem_cons_self)
      obtain ⟨ns, hn, -⟩ := state_names ht (fun e he => hes' e (List.mem_cons_of_mem _ he))
      rw [List.mapM_cons, hs, hn] at h
      cases h
  | cons e es ih =>
    obtain ⟨s, hs, -⟩ := state_name ht (hes e List.mem_cons_self)
    obtain ⟨ns, hn, -⟩ := state_names ht (fun e he => hes e (List.mem_cons_of_mem _ he))
    cases es' with
    | nil =>
      rw [List.mapM_cons, hs, hn] at h
      cases h
    | cons e' es' =>
      obtain ⟨s', hs', -⟩ := state_name ht (hes' e' List.mem_cons_self)
      obtain ⟨ns', hn', -⟩ := state_names ht (fun e he => hes' e (List.mem_cons_of_mem _ he))
      rw [List.mapM_cons, hs, hn, List.mapM_cons, hs', hn'] at h
      have h : (Except.ok (s :: ns) : Except PyErr (List PyStr)) = .ok (s' :: ns') := h
      rw [Except.ok.injEq, List.cons.injEq] at h
      rw [state_inj ht (hes e List.mem_cons_self) (hes' e' List.mem_cons_self) (by rw [hs, hs', h.1]),
        ih (fun e he => hes e (List.mem_cons_of_mem _ he)) (fun e he => hes' e (List.mem_cons_of_mem _ he)) (by rw [hn, hn', h.2])]

/-- C90, partial: an error about a state, of a pool or of a pipeline, says which call was refused, in which state, and which states it
expects: two of them say the same only if all three are the same. Missing: states without a name, see `C90_state_false`. -/
theorem C90_state_partial {t : List (Int × String) × Nat} (ht : t ∈ stateTables) {current current' : Int} {expected expected' : List Int}
    {action action' : PyStr} (h1 : HasName t.2 current) (h1' : HasName t.2 current') (h2 : ∀ e ∈ expected, HasName t.2 e) (h2' : ∀ e ∈ expected', HasName t.2 e)
    (h3 : expected ≠ []) (h3' : expected' ≠ []) (h4 : '\'' ∉ action) (h4' : '\'' ∉ action') :
    (∃ m, stateMessage t.1 current expected action = .ok m) ∧
    (stateMessage t.1 current expected action = stateMessage t.1 current' expected' action' →
      current = current' ∧ expected = expected' ∧ action = action') := by
  obtain ⟨s, hs, hq, -⟩ := state_name ht h1
  obtain ⟨s', hs', hq', -⟩ := state_name ht h1'
  obtain ⟨ns, hn, hne, hc⟩ := state_names ht h2
  obtain ⟨ns', hn', hne', hc'⟩ := state_names ht h2'
  have e : ∀ (cur : PyStr) (exp : List PyStr) (act : PyStr), "Cannot '".toList ++ act ++ "' on the current state '".toList ++ cur ++ "', expecting state(s): '".toList ++
      joinWith ", ".toList exp ++ "'".toList = "Cannot '".toList ++ (act ++ '\'' :: (" on the current state '".toList ++ (cur ++ '\'' ::
        (", expecting state(s): '".toList ++ (joinWith ", ".toList exp ++ "'".toList))))) := by
    intro cur exp act
    simp only [List.append_assoc]
    rfl
  have key : ∀ {cur : Int} {exp : List Int} {c : PyStr} {x : List PyStr} (act : PyStr), stateText t.1 cur = .ok c → exp.mapM (stateText t.1) = .ok x →
      stateMessage t.1 cur exp act = .ok ("Cannot '".toList ++ (act ++ '\'' :: (" on the current state '".toList ++ (c ++ '\'' ::
        (", expecting state(s): '".toList ++ (joinWith ", ".toList x ++ "'".toList)))))) := by
    intro cur exp c x act hcur hexp
    unfold stateMessage; rw [hcur, hexp]; exact congrArg _ (e c x act)
  have hm := key action hs hn
  have hm' := key action' hs' hn'
  refine ⟨⟨_, hm⟩, fun h => ?_⟩
  rw [hm, hm', Except.ok.injEq] at h
  have free : ∀ a : PyStr, '\'' ∉ a → ∀ c ∈ a, (c != '\'') = true := by
    intro a ha c hc
    rw [bne_iff_ne]
    intro e
    exact ha (e ▸ hc)
  obtain ⟨k1, k2⟩ := span_eq (p := (· != '\'')) (free _ h4) (free _ h4') (by decide) (by decide) (List.append_cancel_left h)
  rw [List.cons.injEq] at k2
  obtain ⟨k3, k4⟩ := span_eq (p := (· != '\'')) (free _ hq) (free _ hq') (by decide) (by decide) (List.append_cancel_left k2.2)
  rw [List.cons.injEq] at k4
  have k5 := List.append_cancel_right (List.append_cancel_left k4.2)
  refine ⟨state_inj ht h1 h1' (by rw [hs, hs', k3]), states_inj ht h2 h2' ?_, k1⟩
  rw [hn, hn', ← commaParts_join (hne h3) hc, ← commaParts_join (hne' h3') hc', k5]

theorem unnamed {t : List (Int × String) × Nat} (ht : t ∈ stateTables) {n : Int} (hn : ¬ HasName t.2 n) : stateText t.1 n = .error .keyError := by
  have hkeys : ∀ t ∈ stateTables, ∀ k ∈ t.1, 0 ≤ k.1 ∧ k.1 < t.2 := by decide
  have : t.1.find? (·.1 = n) = none := by
    rw [List.find?_eq_none]
    intro k hk h
    rw [decide_eq_true_eq] at h
    have := hkeys t ht k hk
    rw [h] at this
    exact hn this
  unfold stateText
  rw [this]

/-- C90 is false for a state without a name, which a server can send: the pool takes it over, the calls that need another state are
refused, but the error says nothing: asking for its text raises `KeyError`. -/
theorem C90_state_false (w : World) {n : Int} (hn : ¬ HasName 10 n) :
    ∃ w', processPoolState n w = (.ok (), w') ∧ w'.pool.state = n ∧ disconnectPool w' = (.raised .invalidPoolState, w') ∧
      ∀ expected action, stateMessage poolStateNames n expected action = .error .keyError := by
  have ne : ∀ k : Int, 0 ≤ k → k < 10 → n ≠ k := by
    intro k h1 h2 e
    exact hn ⟨by omega, by omega⟩
  refine ⟨{ w with pool := { w.pool with state := n } }, ?_, rfl, ?_, fun expected action => ?_⟩
  · show (if n = PoolState.broken then raise .invalidPSRPOperation else pure () : PoolM Unit) _ = _
    rw [if_neg (show n ≠ PoolState.broken from ne 5 (by decide) (by decide))]
    rfl
  · show (if n = PoolState.disconnected then pure () else if n ≠ PoolState.opened then raise .invalidPoolState else _ : PoolM Unit) _ = _
    rw [if_neg (show n ≠ PoolState.disconnected from ne 9 (by decide) (by decide)),
      if_pos (show n ≠ PoolState.opened from ne 2 (by decide) (by decide))]
    rfl
  · unfold stateMessage
    rw [unnamed (t := (poolStateNames, 10)) (by simp [stateTables]) hn]
    rfl

/-- C90 is false for a pipeline in the same way. -/
theorem C90_pipeline_false (w : World) (i : Nat) {n : Int} (hn : ¬ HasName 7 n) :
    ∃ w', processPipelineState i n none w = (.ok (), w') ∧ (w'.pipes i).state = n ∧ stopPipe i w' = (.raised .invalidPipelineState, w') ∧
      ∀ expected action, stateMessage pipeStateNames n expected action = .error .keyError := by
  have ne : ∀ k : Int, 0 ≤ k → k < 7 → n ≠ k := by
    intro k h1 h2 e
    exact hn ⟨by omega, by omega⟩
  have hst : ((w.setPipe i { w.pipes i with state := n }).pipes i).state = n := by
    show (if i = i then { w.pipes i with state := n } else w.pipes i).state = n
    rw [if_pos rfl]
  refine ⟨w.setPipe i { w.pipes i with state := n }, ?_, hst, ?_, fun expected action => ?_⟩
  · show (if n = PipeState.failed then modifyPipe i (fun p => { p with hadErrors := true }) else pure () : PoolM Unit) _ = _
    rw [if_neg (show n ≠ PipeState.failed from ne 5 (by decide) (by decide))]
    rfl
  · show (if ((w.setPipe i { w.pipes i with state := n }).pipes i).state = PipeState.stopping ∨
        ((w.setPipe i { w.pipes i with state := n }).pipes i).state = PipeState.stopped then pure ()
      else if ((w.setPipe i { w.pipes i with state := n }).pipes i).state ≠ PipeState.running then raise .invalidPipelineState else _ : PoolM Unit) _ = _
    rw [hst, if_neg (show ¬ (n = PipeState.stopping ∨ n = PipeState.stopped) from fun h => h.elim (ne 2 (by decide) (by decide)) (ne 3 (by decide) (by decide))),
      if_pos (show n ≠ PipeState.running from ne 1 (by decide) (by decide))]
    rfl
  · unfold stateMessage
    rw [unnamed (t := (pipeStateNames, 7)) (by simp [stateTables]) hn]
    rfl

/-! ### Errors of a script -/

/-- C90: a copy or fetch whose script had errors raises one error with what failed and the text of every error. -/
theorem C90_script {message : PyStr} (hm : message ≠ []) (errors : List PyStr) : ∃ text, handlePsError message true errors = some text ∧
    message <+: text ∧ ∀ e ∈ errors, e <:+: text := by
  refine ⟨_, if_pos ⟨hm, rfl⟩, ⟨_, (List.append_assoc _ _ _).symm⟩, fun e he => ?_⟩
  exact (infix_join (sep := "\n".toList) he).trans ⟨message ++ ": ".toList, [], by simp⟩

/-- C90: a script without errors raises none. -/
theorem C90_script_fine (message : PyStr) (errors : List PyStr) : handlePsError message false errors = none :=
  if_neg (fun h => Bool.noConfusion h.2)

/-! ### Concrete cases -/

/-- The text for a fault with all details, and for one without any. -/
example : String.ofList (faultMessage (some (.inr 2150858793)) (some "host".toList) (some "Access is denied.".toList) (some "WMI".toList) (some "wmi.dll".toList)
    (some "0x5".toList)) = "Received a WSManFault message. (Code: 2150858793, Machine: host, Reason: Access is denied., Provider: WMI, Provider Path: wmi.dll, Provider Fault: 0x5)" ∧
    String.ofList (faultMessage none none none none none none) = "Received a WSManFault message. (No details returned by the server)" := by
  decide +kernel

/-- A fault that meets the hypotheses of `C90_fault_partial`. -/
example : readDetail "Reason" (faultMessage (some (.inl "w:AccessDenied".toList)) none (some "denied".toList) (some []) none none) = some "denied".toList :=
  (C90_fault_partial (.text (by decide)) .none (.text (by decide)) .empty .none .none (by decide)).2.2.1

/-- A response with such a fault document meets the hypotheses of `C90_server_partial`. -/
example : (soapFault [] ⟨"s:Sender".toList, none, none, some "host".toList, some " Access is denied. ".toList, "WMI".toList, "wmi.dll".toList, some "0x5".toList⟩
    [wsmanDetail ⟨"s:Sender".toList, none, none, some "host".toList, some " Access is denied. ".toList, "WMI".toList, "wmi.dll".toList, some "0x5".toList⟩
      (pyStrInt 5)] |> parseFault) = .fault (some (.inr 5)) (some "host".toList) (some "Access is denied.".toList) (some "WMI".toList) (some "wmi.dll".toList)
        (some "0x5".toList) := by
  decide +kernel

example : String.ofList (transportMessage 500 "broken".toList) = "Bad HTTP response returned from the server. Code: 500, Content: 'broken'" := by
  decide +kernel

/-- The names of the states, and the text of a refused call. -/
example : ((List.range 10).map fun (n : Nat) => (stateText poolStateNames n).toOption.map String.ofList) =
    ["BeforeOpen", "Opening", "Opened", "Closed", "Closing", "Broken", "NegotiationSent", "NegotiationSucceeded", "Connecting", "Disconnected"].map some ∧
    ((List.range 7).map fun (n : Nat) => (stateText pipeStateNames n).toOption.map String.ofList) =
    ["NotStarted", "Running", "Stopping", "Stopped", "Completed", "Failed", "Disconnected"].map some ∧
    (stateMessage pipeStateNames 1 [0, 3, 4, 5] "start a PowerShell pipeline".toList).toOption.map String.ofList =
      some "Cannot 'start a PowerShell pipeline' on the current state 'Running', expecting state(s): 'NotStarted, Stopped, Completed, Failed'" := by
  decide +kernel

example : HasName 10 9 ∧ ¬ HasName 10 10 ∧ ¬ HasName 7 7 ∧ ¬ HasName 7 (-1) := by unfold HasName; decide

example : (handlePsError "Failed to copy file".toList true ["no such path".toList, "denied".toList]).map String.ofList =
    some "Failed to copy file: no such path\ndenied" := by
  decide +kernel

end Verif
