import Verif.Props.ResponseHeaders
import Verif.Lemmas.Transport
import Verif.Lemmas.Numbers
import Verif.Props.TransportSend
/-
C49, C51: the response to a WSMan call.
-/
namespace Verif

/-! ### Results and the last response -/

/-- What holds if the program returns. -/
def Post (x : TM α) (w : TWorld) (Q : α → TWorld → Prop) : Prop := ∀ a w1, x w = (.ok a, w1) → Q a w1

theorem post_bind {x : TM α} {f : α → TM β} {w : TWorld} {Q : β → TWorld → Prop} (h : Post x w fun a w1 => Post (f a) w1 Q) :
    Post (x >>= f) w Q := by
  intro b w2 hb
  rw [tbind_run] at hb
  cases hx : x w with
  | mk r w1 =>
    rw [hx] at hb
    cases r with
    | ok a => exact h a w1 hx b w2 hb
    | raised e => simp at hb
    | waiting => simp at hb

theorem post_pure {a : α} {w : TWorld} {Q : α → TWorld → Prop} (h : Q a w) : Post (TM.pure a) w Q := by
  intro b w1 hb
  simp only [TM.pure, Prod.mk.injEq, TRes.ok.injEq] at hb
  rw [← hb.1, ← hb.2]
  exact h

theorem post_tlift {x : Except PyErr α} {w : TWorld} {Q : α → TWorld → Prop} (h : ∀ a, x = .ok a → Q a w) : Post (tlift x) w Q := by
  intro b w1 hb
  unfold tlift at hb
  cases x with
  | error e => simp at hb
  | ok a =>
    simp only [Prod.mk.injEq, TRes.ok.injEq] at hb
    rw [← hb.1, ← hb.2]
    exact h a rfl

theorem post_traise {e : PyErr} {w : TWorld} {Q : α → TWorld → Prop} : Post (traise e : TM α) w Q := by
  intro b w1 hb
  simp [traise] at hb

theorem post_tget {w : TWorld} {Q : TWorld → TWorld → Prop} (h : Q w w) : Post tget w Q := by
  intro b w1 hb
  simp only [tget, Prod.mk.injEq, TRes.ok.injEq] at hb
  rw [← hb.1, ← hb.2]
  exact h

theorem post_tmodify {f : TWorld → TWorld} {w : TWorld} {Q : Unit → TWorld → Prop} (h : Q () (f w)) : Post (tmodify f) w Q := by
  intro b w1 hb
  simp only [tmodify, Prod.mk.injEq] at hb
  rw [← hb.2]
  exact h

theorem post_step {env : TransportEnv} {c : Nat} {input : Option Bytes} {w : TWorld} {Q : Option Bytes × Bool → TWorld → Prop}
    (h : ∀ o w1, w1.log = w.log → Q o w1) : Post (stepContext env c input) w Q := by
  intro b w1 hb
  have := tlift_log (env.step c (((w.fed ++ [(c, input)]).filter (·.1 = c)).map (·.2))) { w with fed := w.fed ++ [(c, input)] }
  unfold stepContext at hb
  dsimp only at hb
  rw [hb] at this
  exact h b w1 (by have h2 := congrArg TWorld.log this; exact h2)

theorem post_adapterSend (env : TransportEnv) (cfg : TransportCfg) (body : Option Bytes) (auth : Option PyStr) (w : TWorld) :
    Post (adapterSend env cfg body auth) w fun r w1 => LastResponse w1 r := by
  intro r w1 h
  obtain ⟨h1, -, -, h4⟩ := adapterLoop_spec env.retryStatus body auth w.outcomes (.initial cfg.reconnectionRetries)
    cfg.reconnectionRetries rfl ⟨Int.le_refl _, Int.le_refl _⟩
  simp only [adapterSend, Prod.mk.injEq] at h
  cases hl : (adapterLoop env.retryStatus body auth (.initial cfg.reconnectionRetries) w.outcomes).2.1.getLast? with
  | none => exact absurd (List.getLast?_eq_none_iff.mp hl) h1.nonempty
  | some e =>
    refine ⟨e, ?_, (h4 e hl).2.1 r h.1⟩
    rw [← h.2]
    simp [List.getLast?_append, hl]

theorem post_authLoop (env : TransportEnv) (cfg : TransportCfg) (c : Nat) (scheme : PyStr) (body : Option Bytes) (fuel : Nat) :
    ∀ out complete response w, LastResponse w response →
      Post (authLoop env cfg c scheme body fuel out complete response) w fun r w1 => LastResponse w1 r := by
  induction fuel with
  | zero => intro out complete response w _ a w1 h; simp [authLoop] at h
  | succ fuel ih =>
    intro out complete response w hl
    unfold authLoop
    split
    · exact post_pure hl
    · refine post_bind (post_tlift fun _ _ => post_bind fun r w1 hr => post_bind (post_tlift fun token _ => ?_))
      have hr := post_adapterSend _ _ _ _ _ r w1 hr
      split
      · exact post_pure hr
      · exact post_pure hr
      · refine post_bind (post_step fun o w2 h2 => ih _ _ _ _ ?_)
        unfold LastResponse at hr ⊢
        rw [h2]
        exact hr

theorem post_sessionSend (env : TransportEnv) (cfg : TransportCfg) (body : Option Bytes) (w : TWorld) :
    Post (sessionSend env cfg body) w fun r w1 => LastResponse w1 r := by
  unfold sessionSend
  refine post_bind fun r w1 hr => ?_
  have hr := post_adapterSend _ _ _ _ _ r w1 hr
  cases cfg.provider with
  | none => exact post_pure hr
  | some provider =>
    dsimp only
    split
    · unfold handle401
      refine post_bind (post_tlift fun _ _ => post_bind (post_tlift fun _ _ => post_bind (post_tget ?_)))
      refine post_bind (post_tmodify (post_bind (post_step fun o w2 h2 => post_bind (post_tget (post_bind fun r2 w3 h3 => ?_)))))
      refine post_bind (post_tmodify (post_pure ?_))
      refine post_authLoop _ _ _ _ _ _ _ _ _ _ ?_ r2 w3 h3
      unfold LastResponse at hr ⊢
      rw [h2]
      exact hr
    · exact post_pure hr

theorem sealed_iff (r : HttpResponse) : ("multipart/encrypted;".toList.isPrefixOf r.contentType ||
    "multipart/x-multi-encrypted;".toList.isPrefixOf r.contentType) = true ↔ r.sealed := by
  rw [Bool.or_eq_true, List.isPrefixOf_iff_prefix, List.isPrefixOf_iff_prefix]
  unfold HttpResponse.sealed
  constructor
  · rintro (⟨t, h⟩ | ⟨t, h⟩)
    · exact ⟨t, .inl h.symm⟩
    · exact ⟨t, .inr h.symm⟩
  · rintro ⟨t, h | h⟩
    · exact .inl ⟨t, h.symm⟩
    · exact .inr ⟨t, h.symm⟩

theorem post_responseContent (env : TransportEnv) (r : HttpResponse) (w : TWorld) :
    Post (responseContent env r) w fun content w1 => ContentOf env r content ∧ w1.log = w.log := by
  unfold responseContent
  split
  · rename_i hs
    rw [sealed_iff] at hs
    cases hf : findBoundary r.contentType with
    | none => exact post_traise
    | some boundary =>
      refine post_bind (post_tget ?_)
      cases he : w.encryption with
      | none => exact post_traise
      | some cp =>
        refine post_bind (post_tmodify (post_bind (post_tlift fun plain hp => ?_)))
        split
        · rename_i hd
          exact post_pure ⟨.inr ⟨hs, _, _, _, (findBoundary_iff _ _).1 hf, hp, hd⟩, rfl⟩
        · exact post_traise
  · rename_i hs
    rw [sealed_iff] at hs
    exact post_pure ⟨.inl ⟨hs, rfl⟩, rfl⟩

/-- What holds if the program raises an error: either it is known by its class, or it carries a status, and then `Q` holds. -/
def Fail (x : TM α) (w : TWorld) (Q : Nat → Bytes → TWorld → Prop) : Prop :=
  ∀ e w1, x w = (.raised e, w1) → (∃ p, e = .py p) ∨ ∃ code text, e = .http code text ∧ Q code text w1

theorem fail_bind {x : TM α} {f : α → TM β} {w : TWorld} {Q : Nat → Bytes → TWorld → Prop} (hx : Fail x w Q)
    (h : ∀ a w1, x w = (.ok a, w1) → Fail (f a) w1 Q) : Fail (x >>= f) w Q := by
  intro e' w2 hb
  rw [tbind_run] at hb
  cases hxw : x w with
  | mk r w1 =>
    rw [hxw] at hb
    cases r with
    | ok a => exact h a w1 hxw e' w2 hb
    | raised e =>
      simp only [Prod.mk.injEq, TRes.raised.injEq] at hb
      refine hx e' w2 ?_
      rw [hxw, hb.1, hb.2]
    | waiting => simp at hb

theorem fail_tlift {x : Except PyErr α} {w : TWorld} {Q : Nat → Bytes → TWorld → Prop} : Fail (tlift x) w Q := by
  intro e w1 h
  unfold tlift at h
  cases x with
  | ok a => simp at h
  | error e' => simp only [Prod.mk.injEq, TRes.raised.injEq] at h; exact .inl ⟨e', h.1.symm⟩

theorem fail_pure {a : α} {w : TWorld} {Q : Nat → Bytes → TWorld → Prop} : Fail (TM.pure a) w Q := by
  intro e w1 h; simp [TM.pure] at h

theorem fail_traise {e : PyErr} {w : TWorld} {Q : Nat → Bytes → TWorld → Prop} : Fail (traise e : TM α) w Q := by
  intro e' w1 h; simp only [traise, Prod.mk.injEq, TRes.raised.injEq] at h; exact .inl ⟨e, h.1.symm⟩

theorem fail_tget {w : TWorld} {Q : Nat → Bytes → TWorld → Prop} : Fail tget w Q := by
  intro e w1 h; simp [tget] at h

theorem fail_tmodify {f : TWorld → TWorld} {w : TWorld} {Q : Nat → Bytes → TWorld → Prop} : Fail (tmodify f) w Q := by
  intro e w1 h; simp [tmodify] at h

theorem fail_step {env : TransportEnv} {c : Nat} {input : Option Bytes} {w : TWorld} {Q : Nat → Bytes → TWorld → Prop} :
    Fail (stepContext env c input) w Q := fun e w1 h => fail_tlift e w1 h

theorem adapterLoop_py (retryStatus : Nat → Bool) (body : Option Bytes) (auth : Option PyStr) (os : List NetOutcome) : ∀ (r : Retry) e,
    (adapterLoop retryStatus body auth r os).1 = .raised e → ∃ p, e = .py p := by
  induction os with
  | nil => intro r e h; simp [adapterLoop] at h
  | cons o os ih =>
    intro r e h
    have again : ∀ (r' : Retry) (err : PyErr) (entry : NetEntry),
        (if r'.exhausted then ((.raised (.py err), [entry], os) : TRes HttpResponse × List NetEntry × List NetOutcome) else
          let (r, entries, os) := adapterLoop retryStatus body auth r' os
          (r, entry :: entries, os)).1 = .raised e → ∃ p, e = .py p := by
      intro r' err entry h
      split at h
      · simp only [TRes.raised.injEq] at h; exact ⟨_, h.symm⟩
      · exact ih _ _ h
    unfold adapterLoop at h
    cases o with
    | connectTimeout => exact again _ _ _ h
    | connectFailed => exact again _ _ _ h
    | readTimeout => simp only [TRes.raised.injEq] at h; exact ⟨_, h.symm⟩
    | aborted => simp only [TRes.raised.injEq] at h; exact ⟨_, h.symm⟩
    | response rsp =>
      dsimp only at h
      split at h
      · exact again _ _ _ h
      · simp at h

theorem fail_adapterSend {env : TransportEnv} {cfg : TransportCfg} {body : Option Bytes} {auth : Option PyStr} {w : TWorld}
    {Q : Nat → Bytes → TWorld → Prop} : Fail (adapterSend env cfg body auth) w Q := by
  intro e w1 h
  simp only [adapterSend, Prod.mk.injEq] at h
  exact .inl (adapterLoop_py _ _ _ _ _ _ h.1)

theorem fail_authLoop (env : TransportEnv) (cfg : TransportCfg) (c : Nat) (scheme : PyStr) (body : Option Bytes)
    (Q : Nat → Bytes → TWorld → Prop) (fuel : Nat) : ∀ out complete response w,
      Fail (authLoop env cfg c scheme body fuel out complete response) w Q := by
  induction fuel with
  | zero => intro out complete response w e w1 h; simp [authLoop] at h
  | succ fuel ih =>
    intro out complete response w
    unfold authLoop
    split
    · exact fail_pure
    · refine fail_bind fail_tlift fun _ _ _ => fail_bind fail_adapterSend fun _ _ _ => fail_bind fail_tlift fun token _ _ => ?_
      split
      · exact fail_pure
      · exact fail_pure
      · exact fail_bind fail_step fun _ _ _ => ih _ _ _ _

theorem fail_sessionSend (env : TransportEnv) (cfg : TransportCfg) (body : Option Bytes) (w : TWorld) (Q : Nat → Bytes → TWorld → Prop) :
    Fail (sessionSend env cfg body) w Q := by
  unfold sessionSend
  refine fail_bind fail_adapterSend fun r w1 _ => ?_
  cases cfg.provider with
  | none => exact fail_pure
  | some provider =>
    dsimp only
    split
    · unfold handle401
      exact fail_bind fail_tlift fun _ _ _ => fail_bind fail_tlift fun _ _ _ => fail_bind fail_tget fun _ _ _ => fail_bind fail_tmodify fun _ _ _ =>
        fail_bind fail_step fun _ _ _ => fail_bind fail_tget fun _ _ _ => fail_bind (fail_authLoop _ _ _ _ _ _ _ _ _ _ _) fun _ _ _ =>
          fail_bind fail_tmodify fun _ _ _ => fail_pure
    · exact fail_pure

theorem fail_responseContent (env : TransportEnv) (r : HttpResponse) (w : TWorld) (Q : Nat → Bytes → TWorld → Prop) :
    Fail (responseContent env r) w Q := by
  unfold responseContent
  split
  · cases findBoundary r.contentType with
    | none => exact fail_traise
    | some boundary =>
      refine fail_bind fail_tget fun w1 _ _ => ?_
      cases w1.encryption with
      | none => exact fail_traise
      | some cp =>
        refine fail_bind fail_tmodify fun _ _ _ => fail_bind fail_tlift fun _ _ _ => ?_
        split
        · exact fail_pure
        · exact fail_traise
  · exact fail_pure

/-- The content is the content of the last response, which reports success. -/
def Success (env : TransportEnv) (content : Bytes) (w : TWorld) : Prop :=
  ∃ r, LastResponse w r ∧ ¬ (400 ≤ r.status ∧ r.status < 600) ∧ ContentOf env r content

/-- The code and the text are those of the last response, which reports an error other than 401. -/
def Failure (env : TransportEnv) (code : Nat) (text : Bytes) (w : TWorld) : Prop :=
  ∃ r, LastResponse w r ∧ r.status = code ∧ 400 ≤ code ∧ code < 600 ∧ code ≠ 401 ∧ ContentOf env r text

theorem sendRequest_result (env : TransportEnv) (cfg : TransportCfg) (body : Option Bytes) (w : TWorld) :
    Post (sendRequest env cfg body) w (Success env) ∧ Fail (sendRequest env cfg body) w (Failure env) := by
  unfold sendRequest
  constructor
  · refine post_bind fun r w1 hr => post_bind fun content w2 hc => ?_
    have hr := post_sessionSend _ _ _ _ r w1 hr
    have hc := post_responseContent _ _ _ content w2 hc
    have hl : LastResponse w2 r := by unfold LastResponse at hr ⊢; rw [hc.2]; exact hr
    split
    · split
      · exact post_traise
      · intro a w3 h; simp at h
    · rename_i hs
      exact post_pure ⟨r, hl, hs, hc.1⟩
  · refine fail_bind (fail_sessionSend _ _ _ _ _) fun r w1 hr => fail_bind (fail_responseContent _ _ _ _) fun content w2 hc => ?_
    have hr := post_sessionSend _ _ _ _ r w1 hr
    have hc := post_responseContent _ _ _ content w2 hc
    have hl : LastResponse w2 r := by unfold LastResponse at hr ⊢; rw [hc.2]; exact hr
    split
    · rename_i hs
      split
      · exact fail_traise
      · rename_i h401
        intro e w3 h
        simp only [Prod.mk.injEq, TRes.raised.injEq] at h
        obtain ⟨rfl, rfl⟩ := h
        exact .inr ⟨_, _, rfl, r, hl, rfl, hs.1, hs.2, h401, hc.1⟩
    · exact fail_pure

theorem post_unless {x : TM α} {w : TWorld} {last : Bool} {Q : α → TWorld → Prop} (h : Post x w Q) :
    Post (unlessTimeout last x) w fun o w1 => ∀ a, o = some a → Q a w1 := by
  intro o w1 ho a ha
  subst ha
  unfold unlessTimeout at ho
  cases hx : x w with
  | mk r w2 =>
    rw [hx] at ho
    cases r with
    | ok b =>
      simp only [Prod.mk.injEq, TRes.ok.injEq, Option.some.injEq] at ho
      rw [← ho.1, ← ho.2]
      exact h b w2 hx
    | raised e =>
      dsimp only at ho
      split at ho <;> simp at ho
    | waiting => simp at ho

theorem fail_unless {x : TM α} {w : TWorld} {last : Bool} {Q : Nat → Bytes → TWorld → Prop} (h : Fail x w Q) :
    Fail (unlessTimeout last x) w Q := by
  intro e' w1 ho
  unfold unlessTimeout at ho
  cases hx : x w with
  | mk r w2 =>
    rw [hx] at ho
    cases r with
    | ok b => simp at ho
    | raised e =>
      dsimp only at ho
      split at ho
      · simp at ho
      · simp only [Prod.mk.injEq, TRes.raised.injEq] at ho
        exact h e' w1 (by rw [hx, ho.1, ho.2])
    | waiting => simp at ho

theorem sendRound_result (env : TransportEnv) (cfg : TransportCfg) (message : Bytes) (last : Bool) (w : TWorld) :
    Post (sendRound env cfg message last) w (fun o w1 => ∀ a, o = some a → Success env a w1) ∧
    Fail (sendRound env cfg message last) w (Failure env) := by
  have hpay : ∀ w, Fail (requestPayload env cfg message) w (Failure env) := by
    intro w
    unfold requestPayload
    split
    · refine fail_bind fail_tget fun w1 _ _ => ?_
      cases w1.encryption with
      | none => exact fail_traise
      | some cp => exact fail_bind fail_tmodify fun _ _ _ => fail_bind fail_tlift fun _ _ _ => fail_pure
    · exact fail_pure
  have hstart : ∀ w, Fail startEncryption w (Failure env) := by
    intro w
    unfold startEncryption
    refine fail_bind fail_tget fun w1 _ _ => ?_
    split
    · exact fail_traise
    · exact fail_traise
    · exact fail_tmodify
  have hseal : ∀ w, Post (sendSealed env cfg message last) w (fun o w1 => ∀ a, o = some a → Success env a w1) ∧
      Fail (sendSealed env cfg message last) w (Failure env) := by
    intro w
    unfold sendSealed
    constructor
    · refine post_bind fun body w1 _ => post_bind fun o w2 ho => ?_
      have ho := post_unless (sendRequest_result env cfg (some body) w1).1 o w2 ho
      cases o with
      | none => exact post_bind (post_tmodify (post_pure (by simp)))
      | some c => exact post_pure ho
    · refine fail_bind (hpay _) fun body w1 _ => fail_bind (fail_unless (sendRequest_result env cfg (some body) w1).2) fun o w2 ho => ?_
      cases o with
      | none => exact fail_bind fail_tmodify fun _ _ _ => fail_pure
      | some c => exact fail_pure
  by_cases h : cfg.wrapRequired = true ∧ w.encryption = none
  · unfold Post Fail
    rw [sendRound_auth h]
    constructor
    · refine post_bind fun o w1 ho => ?_
      cases o with
      | none => exact post_pure (by simp)
      | some c => exact post_bind fun _ w2 _ => (hseal w2).1
    · refine fail_bind (fail_unless (sendRequest_result _ _ _ _).2) fun o w1 ho => ?_
      cases o with
      | none => exact fail_pure
      | some c => exact fail_bind (hstart _) fun _ w2 _ => (hseal w2).2
  · unfold Post Fail
    rw [sendRound_direct h]
    exact hseal w

theorem sendLoop_result (env : TransportEnv) (cfg : TransportCfg) (message : Bytes) (left : Nat) : ∀ w,
    Post (sendLoop env cfg message left) w (Success env) ∧ Fail (sendLoop env cfg message left) w (Failure env) := by
  induction left with
  | zero =>
    intro w
    have hr := sendRound_result env cfg message true w
    unfold sendLoop
    constructor
    · refine post_bind fun o w1 ho => ?_
      have ho := hr.1 o w1 ho
      cases o with
      | none => intro a w2 h; simp at h
      | some c => exact post_pure (ho c rfl)
    · refine fail_bind hr.2 fun o w1 ho => ?_
      cases o with
      | none => intro a w2 h; simp at h
      | some c => exact fail_pure
  | succ left ih =>
    intro w
    have hr := sendRound_result env cfg message false w
    unfold sendLoop
    constructor
    · refine post_bind fun o w1 ho => ?_
      have ho := hr.1 o w1 ho
      cases o with
      | none => exact (ih w1).1
      | some c => exact post_pure (ho c rfl)
    · refine fail_bind hr.2 fun o w1 ho => ?_
      cases o with
      | none => exact (ih w1).2
      | some c => exact fail_pure

/-! ### C49 -/

theorem find_eq (path : List PyStr) : ∀ e : Elem, e.find path = (elemsAt path e).head? := by
  induction path with
  | nil => intro e; simp [Elem.find, elemsAt]
  | cons t ts ih =>
    intro e
    have key : ∀ ks : List Elem, Elem.find.go t (fun k => k.find ts) ks = ((ks.filter fun k => k.tag = t).flatMap (elemsAt ts)).head? := by
      intro ks
      induction ks with
      | nil => simp [Elem.find.go]
      | cons k ks ihk =>
        unfold Elem.find.go
        by_cases hk : k.tag = t
        · rw [if_pos hk, List.filter_cons_of_pos (by simp [hk]), List.flatMap_cons, List.head?_append, ih k, ihk]
          cases (elemsAt ts k).head? <;> simp
        · rw [if_neg hk, List.filter_cons_of_neg (by simp [hk]), ihk]
    exact key e.kids

theorem relatesTo_iff (x : Elem) (id : PyStr) : some ("uuid:".toList ++ id) = relatesTo x ↔ RelatesTo x id := by
  unfold relatesTo RelatesTo
  rw [find_eq]
  cases (elemsAt ["s:Header".toList, "wsa:RelatesTo".toList] x).head? with
  | none => simp
  | some r => simp [eq_comm]

/-- C49: a call returns a document only if the first RelatesTo element of its header names the id of the request; the document is that of the
last response, which reported success. -/
theorem C49_accepted (env : TransportEnv) (cfg : TransportCfg) (action : WSManAction) (id : PyStr) (message : Bytes) (w w' : TWorld) (x : Elem)
    (h : wsmanInvoke env cfg action id message w = (.ok x, w')) :
    RelatesTo x id ∧ ∃ r content, LastResponse w' r ∧ ¬ (400 ≤ r.status ∧ r.status < 600) ∧ ContentOf env r content ∧ env.parse content = some x := by
  have hs := (sendLoop_result env cfg message action.readRetries w).1
  unfold wsmanInvoke at h
  cases hl : sendLoop env cfg message action.readRetries w with
  | mk r w1 =>
    rw [hl] at h
    cases r with
    | waiting => simp at h
    | raised e => cases e with
      | http code text => dsimp only at h; cases hp : env.parse text <;> rw [hp] at h <;> simp at h
      | py e => simp at h
      | fault => simp at h
    | ok content =>
      dsimp only at h
      cases hp : env.parse content with
      | none => rw [hp] at h; simp at h
      | some y =>
        rw [hp] at h
        dsimp only at h
        split at h
        · simp at h
        · rename_i hr
          simp only [Prod.mk.injEq, TRes.ok.injEq] at h
          obtain ⟨rfl, rfl⟩ := h
          obtain ⟨r, h1, h2, h3⟩ := hs content w1 hl
          exact ⟨(relatesTo_iff _ _).mp (Classical.byContradiction hr), r, content, h1, h2, h3, hp⟩

/-! ### C51 -/

/-- C51: an error with a status is raised only for a last response with this status, 400 to 599 and not 401, and the text is its content, which is no
XML. -/
theorem C51_error (env : TransportEnv) (cfg : TransportCfg) (action : WSManAction) (id : PyStr) (message : Bytes) (w w' : TWorld)
    (code : Nat) (text : Bytes) (h : wsmanInvoke env cfg action id message w = (.raised (.http code text), w')) :
    env.parse text = none ∧
      ∃ r, LastResponse w' r ∧ r.status = code ∧ 400 ≤ code ∧ code < 600 ∧ code ≠ 401 ∧ ContentOf env r text := by
  have hs := (sendLoop_result env cfg message action.readRetries w).2
  unfold wsmanInvoke at h
  cases hl : sendLoop env cfg message action.readRetries w with
  | mk r w1 =>
    rw [hl] at h
    cases r with
    | waiting => simp at h
    | ok content =>
      dsimp only at h
      cases hp : env.parse content with
      | none => rw [hp] at h; simp at h
      | some y => rw [hp] at h; dsimp only at h; split at h <;> simp at h
    | raised e => cases e with
      | py e => simp at h
      | fault => simp at h
      | http code' text' =>
        dsimp only at h
        cases hp : env.parse text' with
        | some y => rw [hp] at h; simp [parseFault] at h
        | none =>
          rw [hp] at h
          simp only [Prod.mk.injEq, TRes.raised.injEq, TErr.http.injEq] at h
          obtain ⟨⟨rfl, rfl⟩, rfl⟩ := h
          rcases hs _ _ hl with ⟨p, h⟩ | ⟨code, text, h, hf⟩
          · simp at h
          · simp only [TErr.http.injEq] at h
            obtain ⟨rfl, rfl⟩ := h
            exact ⟨hp, hf⟩

/-- A response to a message on a transport that is ready. -/
theorem sendLoop_received {env : TransportEnv} {cfg : TransportCfg} {message : Bytes} {w : TWorld} {r : HttpResponse} {text : Bytes}
    (hready : ReadyFor env cfg message w) (hr : Receives env cfg w r text) (hp : cfg.provider = none ∨ r.status ≠ 401) (left : Nat) :
    (sendLoop env cfg message left w).1 =
      if 400 ≤ r.status ∧ r.status < 600 then
        if r.status = 401 then .raised (.py .authenticationError) else .raised (.http r.status text)
      else .ok text := by
  obtain ⟨rest, hout⟩ := hr.arrives
  -- the payload
  have hpay : ∃ body w1, requestPayload env cfg message w = (.ok body, w1) ∧ w1.outcomes = w.outcomes ∧ w1.encryption = w.encryption ∧
      w1.sealCalls = w.sealCalls + (if cfg.wrapRequired then 1 else 0) := by
    unfold requestPayload
    rcases hready with hw | ⟨c, p, rr, he, hm⟩
    · rw [if_neg (by simp [hw])]
      exact ⟨message, w, rfl, rfl, rfl, by simp [hw]⟩
    · by_cases hw : cfg.wrapRequired = true
      · rw [if_pos hw, tbind_run]
        simp only [tget, he, tbind_run, tmodify, tlift, hm]
        obtain ⟨ct, b⟩ := rr
        exact ⟨b, _, rfl, rfl, rfl, by simp [hw]⟩
      · rw [if_neg hw]
        exact ⟨message, w, rfl, rfl, rfl, by simp [hw]⟩
  obtain ⟨body, w1, hb, hb1, hb2, hb3⟩ := hpay
  -- the request
  have hsend : ∃ w2, sessionSend env cfg (some body) w1 = (.ok r, w2) ∧ w2.encryption = w1.encryption ∧ w2.sealCalls = w1.sealCalls := by
    have ha : adapterSend env cfg (some body) none w1 = (.ok r, { w1 with outcomes := rest, log := w1.log ++ [⟨some body, none, some (.response r)⟩] }) := by
      unfold adapterSend
      rw [hb1, hout]
      simp [adapterLoop, hr.final]
    unfold sessionSend
    rw [tbind_run, ha]
    cases hcp : cfg.provider with
    | none => exact ⟨_, rfl, rfl, rfl⟩
    | some provider =>
      dsimp only
      rw [hcp] at hp
      rw [if_neg (by simpa using hp)]
      exact ⟨_, rfl, rfl, rfl⟩
  obtain ⟨w2, hs, hs1, hs2⟩ := hsend
  have hcontent : ∃ w3, responseContent env r w2 = (.ok text, w3) := by
    unfold responseContent
    rcases hr.content with ⟨hns, ht⟩ | ⟨hsd, hw, c, p, b, he, hf, hu, hd⟩
    · rw [if_neg (by rw [sealed_iff]; exact hns), ht]
      exact ⟨w2, rfl⟩
    · rw [if_pos (by rw [sealed_iff]; exact hsd), (findBoundary_iff _ _).2 hf]
      dsimp only
      rw [tbind_run]
      have he2 : w2.encryption = some (c, p) := by rw [hs1, hb2, he]
      have hk : w2.sealCalls = w.sealCalls + 1 := by rw [hs2, hb3, if_pos hw]
      simp only [tget, he2, tbind_run, tmodify, tlift, hk, hu, hd, if_true]
      exact ⟨_, rfl⟩
  obtain ⟨w3, hc⟩ := hcontent
  have hreq : (sendRequest env cfg (some body) w1).1 = if 400 ≤ r.status ∧ r.status < 600 then
        if r.status = 401 then .raised (.py .authenticationError) else .raised (.http r.status text)
      else .ok text := by
    unfold sendRequest
    rw [tbind_run, hs]
    dsimp only
    rw [tbind_run, hc]
    dsimp only
    split
    · split <;> rfl
    · rfl
  have hround : ∀ last, (sendRound env cfg message last w).1 = if 400 ≤ r.status ∧ r.status < 600 then
        if r.status = 401 then .raised (.py .authenticationError) else .raised (.http r.status text)
      else .ok (some text) := by
    intro last
    have hd : ¬ (cfg.wrapRequired = true ∧ w.encryption = none) := by
      rintro ⟨h1, h2⟩
      rcases hready with h | ⟨c, p, rr, he, -⟩
      · rw [h1] at h; cases h
      · rw [h2] at he; cases he
    rw [sendRound_direct hd]
    unfold sendSealed
    rw [tbind_run, hb]
    dsimp only
    rw [tbind_run]
    unfold unlessTimeout
    cases hx : sendRequest env cfg (some body) w1 with
    | mk res w4 =>
      rw [hx] at hreq
      dsimp only at hreq
      subst hreq
      by_cases h1 : 400 ≤ r.status ∧ r.status < 600
      · by_cases h2 : r.status = 401
        · simp [h2, isTimeout]
        · simp [h1, h2, isTimeout]
      · simp only [h1, if_false]
        rfl
  cases left with
  | zero =>
    unfold sendLoop
    rw [tbind_run]
    have := hround true
    cases hx : sendRound env cfg message true w with
    | mk res w4 =>
      rw [hx] at this
      dsimp only at this
      subst this
      by_cases h1 : 400 ≤ r.status ∧ r.status < 600
      · by_cases h2 : r.status = 401
        · simp [h2]
        · simp [h1, h2]
      · simp only [h1, if_false]
        rfl
  | succ left =>
    unfold sendLoop
    rw [tbind_run]
    have := hround false
    cases hx : sendRound env cfg message false w with
    | mk res w4 =>
      rw [hx] at this
      dsimp only at this
      subst this
      by_cases h1 : 400 ≤ r.status ∧ r.status < 600
      · by_cases h2 : r.status = 401
        · simp [h2]
        · simp [h1, h2]
      · simp only [h1, if_false]
        rfl

theorem wsmanInvoke_fst (env : TransportEnv) (cfg : TransportCfg) (action : WSManAction) (id : PyStr) (message : Bytes) (w : TWorld) :
    (wsmanInvoke env cfg action id message w).1 = match (sendLoop env cfg message action.readRetries w).1 with
      | .waiting => .waiting
      | .raised (.http code text) => match env.parse text with
        | none => .raised (.http code text)
        | some x => .raised (parseFault x)
      | .raised e => .raised e
      | .ok content => match env.parse content with
        | none => .raised (.py .parseError)
        | some x => if some ("uuid:".toList ++ id) ≠ relatesTo x then .raised (.py .winRMError) else .ok x := by
  unfold wsmanInvoke
  cases sendLoop env cfg message action.readRetries w with
  | mk r w1 => cases r with
    | waiting => rfl
    | raised e => cases e with
      | http code text => dsimp only; cases env.parse text <;> rfl
      | py e => rfl
      | fault => rfl
    | ok c =>
      dsimp only
      cases env.parse c with
      | none => rfl
      | some x => dsimp only; split <;> rfl

/-- C49, C51 for a response that arrives, for all contents and message ids: with a status that is no error, the document is returned unchanged exactly if it
relates to the id of this request, and otherwise an error is raised. -/
theorem C49_decided (env : TransportEnv) (cfg : TransportCfg) (action : WSManAction) (id : PyStr) (message : Bytes) (w : TWorld) (r : HttpResponse)
    (text : Bytes) (hready : ReadyFor env cfg message w) (hr : Receives env cfg w r text) (hs : ¬ (400 ≤ r.status ∧ r.status < 600)) :
    (∀ x, env.parse text = some x → RelatesTo x id → (wsmanInvoke env cfg action id message w).1 = .ok x) ∧
    (∀ x, env.parse text = some x → ¬ RelatesTo x id → (wsmanInvoke env cfg action id message w).1 = .raised (.py .winRMError)) ∧
    (env.parse text = none → (wsmanInvoke env cfg action id message w).1 = .raised (.py .parseError)) := by
  have h := sendLoop_received hready hr (.inr (by omega)) action.readRetries
  rw [if_neg hs] at h
  rw [wsmanInvoke_fst, h]
  dsimp only
  refine ⟨fun x hp hx => ?_, fun x hp hx => ?_, fun hp => by rw [hp]⟩
  · rw [hp]; dsimp only; rw [if_neg (by simpa using (relatesTo_iff x id).mpr hx)]
  · rw [hp]; dsimp only; rw [if_pos (by rw [ne_eq, relatesTo_iff]; exact hx)]

/-- C51 for an error that is no XML: the status and the text; and for 401. -/
theorem C51_plain (env : TransportEnv) (cfg : TransportCfg) (action : WSManAction) (id : PyStr) (message : Bytes) (w : TWorld) (r : HttpResponse)
    (text : Bytes) (hready : ReadyFor env cfg message w) (hr : Receives env cfg w r text) :
    (r.status = 401 → cfg.provider = none → (wsmanInvoke env cfg action id message w).1 = .raised (.py .authenticationError)) ∧
    (400 ≤ r.status → r.status < 600 → r.status ≠ 401 → env.parse text = none →
      (wsmanInvoke env cfg action id message w).1 = .raised (.http r.status text)) := by
  constructor
  · intro h401 hp
    have h := sendLoop_received hready hr (.inl hp) action.readRetries
    rw [if_pos (by omega), if_pos h401] at h
    rw [wsmanInvoke_fst, h]
  · intro h1 h2 h3 hp
    have h := sendLoop_received hready hr (.inr h3) action.readRetries
    rw [if_pos ⟨h1, h2⟩, if_neg h3] at h
    rw [wsmanInvoke_fst, h]
    dsimp only
    rw [hp]

/-- C51: whatever happened before, a call that ends with a response 401 raises an error that is neither a fault nor an error with a status. -/
theorem C51_unauthorized (env : TransportEnv) (cfg : TransportCfg) (action : WSManAction) (id : PyStr) (message : Bytes) (w : TWorld) (r : HttpResponse)
    (hl : LastResponse (wsmanInvoke env cfg action id message w).2 r) (h401 : r.status = 401) :
    (wsmanInvoke env cfg action id message w).1 = .waiting ∨ ∃ e, (wsmanInvoke env cfg action id message w).1 = .raised (.py e) := by
  have hlast : ∀ r', LastResponse (wsmanInvoke env cfg action id message w).2 r' → r' = r := by
    intro r' ⟨e', he', ho'⟩
    obtain ⟨e, he, ho⟩ := hl
    rw [he, Option.some.injEq] at he'
    subst he'
    rw [ho, Option.some.injEq, NetOutcome.response.injEq] at ho'
    exact ho'.symm
  have hworld : (wsmanInvoke env cfg action id message w).2 = (sendLoop env cfg message action.readRetries w).2 := by
    unfold wsmanInvoke
    cases sendLoop env cfg message action.readRetries w with
    | mk r w1 => cases r with
      | waiting => rfl
      | raised e => cases e with
        | http code text => dsimp only; cases env.parse text <;> rfl
        | py e => rfl
        | fault => rfl
      | ok c =>
        dsimp only
        cases env.parse c with
        | none => rfl
        | some x => dsimp only; split <;> rfl
  rw [hworld] at hlast
  obtain ⟨h1, h2⟩ := sendLoop_result env cfg message action.readRetries w
  rw [wsmanInvoke_fst]
  cases hs : sendLoop env cfg message action.readRetries w with
  | mk res w1 =>
    rw [hs] at hlast
    cases res with
    | waiting => exact .inl rfl
    | ok c =>
      obtain ⟨r', hr', hst, -⟩ := h1 c w1 hs
      rw [hlast r' hr'] at hst
      omega
    | raised e =>
      rcases h2 e w1 hs with ⟨p, rfl⟩ | ⟨code, text, rfl, r', hr', hst, -, -, hn, -⟩
      · exact .inr ⟨p, rfl⟩
      · rw [hlast r' hr'] at hst
        omega

/-- The code of a fault: a number if it is one. -/
def faultCode (c : PyStr) : PyStr ⊕ Int := match pyInt c with
  | .ok n => .inr n
  | .error _ => .inl c

/-- The first text that is there. -/
def firstText : Option PyStr → Option PyStr → Option PyStr
  | none, b => b
  | some [], b => b
  | some t, _ => some t

theorem parseFault_detail (header : List Elem) (p : FaultParts) (code : PyStr) :
    parseFault (soapFault header p [wsmanDetail p code]) = .fault (some (faultCode code)) p.machine
      (stripText (firstText p.message p.reason)) (some p.provider) (some p.path) (stripText p.providerFault) := by
  obtain ⟨value, subcode, reason, machine, message, provider, path, providerFault⟩ := p
  have h : ∀ r : PyStr ⊕ Int, r = faultCode code → parseFault (soapFault header ⟨value, subcode, reason, machine, message, provider, path, providerFault⟩
      [wsmanDetail ⟨value, subcode, reason, machine, message, provider, path, providerFault⟩ code]) = .fault (some r) machine
      (stripText (firstText message reason)) (some provider) (some path) (stripText providerFault) := by
    intro r hr
    unfold faultCode at hr
    cases hc : pyInt code <;> rw [hc] at hr <;> subst hr <;> cases machine <;> cases subcode <;> rcases message with _ | (_ | ⟨c, cs⟩) <;>
      simp [parseFault, soapFault, wsmanDetail, named, valued, Elem.find, Elem.find.go, Elem.kids, Elem.tag, Elem.attr, Elem.attrs, Elem.text, hc, firstText]
  exact h _ rfl

theorem parseFault_plain (header : List Elem) (p : FaultParts) :
    parseFault (soapFault header p []) = .fault (some (faultCode (p.subcode.getD p.value))) none (stripText p.reason) none none none := by
  obtain ⟨value, subcode, reason, machine, message, provider, path, providerFault⟩ := p
  cases subcode <;> simp [parseFault, soapFault, named, valued, Elem.find, Elem.find.go, Elem.kids, Elem.tag, Elem.text, stripText, faultCode] <;> split <;> simp [*]

/-- C51: a fault document in an error response, for all its texts and for every header. With the details of a WSMan fault: its code and its other parts are
reported; the reason is the message of the details, or else the one of the fault. Without them: the subcode, or else the value.
Missing from the property: error documents of other shapes, see `C51_document_false`. -/
theorem C51_fault_partial (env : TransportEnv) (cfg : TransportCfg) (action : WSManAction) (id : PyStr) (message : Bytes) (w : TWorld) (r : HttpResponse)
    (text : Bytes) (hready : ReadyFor env cfg message w) (hr : Receives env cfg w r text) (h1 : 400 ≤ r.status) (h2 : r.status < 600) (h3 : r.status ≠ 401)
    (header : List Elem) (p : FaultParts) :
    (∀ code : Int, env.parse text = some (soapFault header p [wsmanDetail p (pyStrInt code)]) →
      ∃ reason fault, (wsmanInvoke env cfg action id message w).1 =
        .raised (.fault (some (.inr code)) p.machine reason (some p.provider) (some p.path) fault) ∧
        (∀ m, p.message = some m → m ≠ [] → reason = some (pyStrip m)) ∧
        ((p.message = none ∨ p.message = some []) → ∀ m, p.reason = some m → m ≠ [] → reason = some (pyStrip m)) ∧
        (∀ m, p.providerFault = some m → m ≠ [] → fault = some (pyStrip m))) ∧
    (env.parse text = some (soapFault header p []) → ∀ code, (p.subcode = some code ∨ (p.subcode = none ∧ p.value = code)) → (∀ n, pyInt code ≠ .ok n) →
      ∃ reason, (wsmanInvoke env cfg action id message w).1 = .raised (.fault (some (.inl code)) none reason none none none) ∧
        (∀ m, p.reason = some m → m ≠ [] → reason = some (pyStrip m))) := by
  have h := sendLoop_received hready hr (.inr h3) action.readRetries
  rw [if_pos ⟨h1, h2⟩, if_neg h3] at h
  rw [wsmanInvoke_fst, h]
  dsimp only
  have strip : ∀ m : PyStr, m ≠ [] → stripText (some m) = some (pyStrip m) := by
    intro m hm
    cases m with
    | nil => exact absurd rfl hm
    | cons c cs => rfl
  constructor
  · intro code hp
    rw [hp]
    dsimp only
    rw [parseFault_detail]
    refine ⟨_, _, by unfold faultCode; rw [pyInt_pyStrInt], fun m hm hne => ?_, fun hm m hr hne => ?_, fun m hm hne => ?_⟩
    · rw [hm, ← strip m hne]
      cases m with
      | nil => exact absurd rfl hne
      | cons c cs => rfl
    · rw [← strip m hne]
      rcases hm with hm | hm <;> rw [hm, hr] <;> rfl
    · rw [hm, strip m hne]
  · intro hp code hcode hint
    rw [hp]
    dsimp only
    rw [parseFault_plain]
    have hcode : p.subcode.getD p.value = code := by rcases hcode with h | ⟨h, h'⟩ <;> simp [*]
    refine ⟨stripText p.reason, ?_, fun m hm hne => by rw [hm, strip m hne]⟩
    rw [hcode]
    unfold faultCode
    cases hc : pyInt code with
    | ok n => exact absurd hc (hint n)
    | error e => rfl

/-! ### Examples -/

/-- A response that relates to the id "a". -/
def relatedDoc : Elem := named "s:Envelope" [named "s:Header" [valued "wsa:RelatesTo" (some "uuid:a".toList)], named "s:Body" []]

/-- A fault with the code 5. -/
def accessDenied : FaultParts := ⟨"s:Sender".toList, some "w:AccessDenied".toList, some "denied".toList, none, some " Access is denied. ".toList, [], [], none⟩

/-- A world that parses three documents. -/
def docParse (b : Bytes) : Option Elem :=
  if b = [1] then some relatedDoc
  else if b = [2] then some (soapFault [] accessDenied [wsmanDetail accessDenied (pyStrInt 5)])
  else if b = [3] then some (named "html" [named "body" []])
  else none

def docEnv : TransportEnv := { demoEnv with parse := docParse }

def reply (status : Nat) (content : Bytes) : NetOutcome := .response { status := status, content := content }

/-- The kind of a result. -/
def resultTag : TRes Elem → Option (Option TErr)
  | .ok _ => some none
  | .raised e => some (some e)
  | .waiting => none

example : resultTag (wsmanInvoke docEnv (plainCfg 0) .get "a".toList [5] { outcomes := [reply 200 [1]] }).1 = some none := by decide +kernel
example : resultTag (wsmanInvoke docEnv (plainCfg 0) .get "b".toList [5] { outcomes := [reply 200 [1]] }).1 = some (some (.py .winRMError)) := by decide +kernel
example : resultTag (wsmanInvoke docEnv (plainCfg 0) .get "a".toList [5] { outcomes := [reply 500 [2]] }).1 =
    some (some (.fault (some (.inr 5)) none (some "Access is denied.".toList) (some []) (some []) none)) := by decide +kernel
example : resultTag (wsmanInvoke docEnv (plainCfg 0) .get "a".toList [5] { outcomes := [reply 404 [9]] }).1 = some (some (.http 404 [9])) := by decide +kernel
example : resultTag (wsmanInvoke docEnv (plainCfg 0) .get "a".toList [5] { outcomes := [reply 401 [9]] }).1 = some (some (.py .authenticationError)) := by
  decide +kernel

example : ReadyFor docEnv (plainCfg 0) [5] { outcomes := [reply 500 [2]] } ∧
    Receives docEnv (plainCfg 0) { outcomes := [reply 500 [2]] } { status := 500, content := [2] } [2] := by
  refine ⟨.inl rfl, ⟨⟨[], rfl⟩, rfl, .inl ⟨?_, rfl⟩⟩⟩
  rintro ⟨rest, h | h⟩ <;> simp at h

/-- A sealed answer on an encrypted transport. -/
def sealedType : PyStr := "multipart/encrypted;boundary=\"Encrypted Boundary\"".toList
def sealedReply : HttpResponse := { status := 200, contentType := sealedType, content := multipart .spnego [⟨1, [7], [254]⟩] }
def sealedWorld : TWorld := { outcomes := [.response sealedReply], encryption := some (0, .spnego) }

example : ReadyFor docEnv demoCfg [5] sealedWorld ∧ Receives docEnv demoCfg sealedWorld sealedReply [1] ∧ sealedReply.sealed := by
  have hs : sealedReply.sealed := ⟨"boundary=\"Encrypted Boundary\"".toList, .inl (by decide +kernel)⟩
  refine ⟨.inr ⟨0, .spnego, ("multipart/encrypted".toList, multipart .spnego [⟨1, [7], [250]⟩]), rfl, ?_⟩,
    ⟨⟨[], rfl⟩, by decide +kernel, .inr ⟨hs, rfl, 0, .spnego, "Encrypted Boundary".toList, rfl, ?_, ?_, rfl⟩⟩, hs⟩
  · decide +kernel
  · exact (findBoundary_iff _ _).1 (by decide +kernel)
  · decide +kernel

example : resultTag (wsmanInvoke docEnv demoCfg .get "a".toList [5] sealedWorld).1 = some none := by decide +kernel

/-- C51 is false for an error response with a document that has no fault, such as an XHTML page of a proxy: a WSMan fault without a code and without a
reason is raised, and the status and the text are lost. -/
theorem C51_document_false : resultTag (wsmanInvoke docEnv (plainCfg 0) .get "a".toList [5] { outcomes := [reply 404 [3]] }).1 =
    some (some (.fault none none none none none none)) := by decide +kernel

end Verif
