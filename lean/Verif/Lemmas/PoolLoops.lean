import Verif.Lemmas.PoolFacts
import Verif.Spec.Pool
/-
What holds after the receive loops of the pool.
-/
namespace Verif

/-- What holds after a program: `I` if it returned, and `I` or, depending on the error (none: it waits), `E` otherwise. -/
def Ends (I : World → Prop) (E : Option PyErr → World → Prop) (m : PoolM α) (w : World) : Prop :=
  match m w with
  | (.ok _, w') => I w'
  | (.raised e, w') => I w' ∨ E (some e) w'
  | (.waiting, w') => I w' ∨ E none w'

theorem ends_bind {I : World → Prop} {E : Option PyErr → World → Prop} {m : PoolM α} {f : α → PoolM β} {w : World}
    (hm : Ends I E m w) (hf : ∀ a w', m w = (.ok a, w') → I w' → Ends I E (f a) w') : Ends I E (m >>= f) w := by
  unfold Ends at *
  rw [bind_run]
  split at hm
  · rename_i a w' h
    rw [h]
    exact hf a w' h hm
  · rename_i e w' h
    rw [h]; exact hm
  · rename_i w' h
    rw [h]; exact hm

theorem ends_pure {I : World → Prop} {E : Option PyErr → World → Prop} {w : World} (a : α) (h : I w) :
    Ends I E (pure a) w := h

theorem ends_request {I : World → Prop} {E : Option PyErr → World → Prop} {w : World} (r : Request) (h : I (request r w).2) :
    Ends I E (request r) w := by
  unfold Ends
  split <;> rename_i hr <;> rw [hr] at h
  · exact h
  · exact .inl h
  · exact .inl h

theorem ends_parse {I : World → Prop} {E : Option PyErr → World → Prop} (asked pipe : Option Nat)
    (hmsg : ∀ w m, I w → Ends I E (handleLogged asked pipe m) w) (ms : List SrvMsg) :
    ∀ w, I w → Ends I E (parseResponses asked pipe ms) w := by
  induction ms with
  | nil => intro w h; exact ends_pure _ h
  | cons m ms ih =>
    intro w h
    refine ends_bind (hmsg w m h) fun o w' _ hw' => ?_
    exact ends_bind (ih w' hw') fun os w'' _ h2 => ends_pure _ h2

theorem ends_receiveUntil {I : World → Prop} {E : Option PyErr → World → Prop}
    (hreq : ∀ w c, I w → I (request (.receive c) w).2) (hmsg : ∀ w m, I w → Ends I E (handleLogged none none m) w)
    (done : World → Bool) (n : Nat) : ∀ w, I w → Ends I E (receiveUntil done n) w := by
  induction n with
  | zero => intro w h; exact .inl h
  | succ n ih =>
    intro w h
    show Ends I E (getW >>= fun w => if done w then pure () else do let _ ← receive none; receiveUntil done n) w
    refine ends_bind (I := I) h fun w0 w1 hw _ => ?_
    obtain ⟨rfl, rfl⟩ : w = w0 ∧ w = w1 := by simpa [getW] using hw
    split
    · exact ends_pure _ h
    · refine ends_bind ?_ fun _ w2 _ h2 => ih w2 h2
      show Ends I E (getW >>= _) w
      refine ends_bind (I := I) h fun w0 w1 hw _ => ?_
      obtain ⟨rfl, rfl⟩ : w = w0 ∧ w = w1 := by simpa [getW] using hw
      refine ends_bind (ends_request _ (hreq _ _ h)) fun reply w2 _ h2 => ?_
      exact ends_parse none none hmsg _ w2 h2

theorem ends_loopUntil {I : World → Prop} {E : Option PyErr → World → Prop}
    (hreq : ∀ w c, I w → I (request (.receive c) w).2) (hmsg : ∀ w m, I w → Ends I E (handleLogged none none m) w)
    (done : World → Bool) (w : World) (h : I w) : Ends I E (loopUntil done) w :=
  ends_receiveUntil hreq hmsg done _ w h

/-- The limits after some messages: only initialisation data changes the minimum; the maximum is also changed by answers to
other calls. -/
def LimitsKept (ci : Int) (w w' : World) (hs : List Handled) : Prop :=
  (∀ h ∈ hs, ¬ IsInitData h.msg) → w'.pool.min = w.pool.min ∧
    ((∀ h ∈ hs, ∀ c r, h.msg = .availability c r → c = ci) → w'.pool.max = w.pool.max)

theorem handleEffect_limits (pipe : Option Nat) (m : SrvMsg) (w : World) (hm : ¬ IsInitData m) :
    (handleEffect pipe m w).pool.min = w.pool.min ∧
      ((∀ c r, m ≠ .availability c r) → (handleEffect pipe m w).pool.max = w.pool.max) := by
  cases m <;> simp only [handleEffect]
  case initData a b => exact absurd ⟨a, b, rfl⟩ hm
  case availability c r =>
    refine ⟨?_, fun h => absurd rfl (h c r)⟩
    (repeat' split) <;> rfl
  all_goals refine ⟨?_, fun _ => ?_⟩ <;> (repeat' split) <;> first | rfl | simp only [hostEffect_pool]

theorem answers_append (ci : Int) (a b : List Handled) : answers ci (a ++ b) = answers ci a ++ answers ci b := by
  simp [answers]

theorem answers_other (ci : Int) (asked : Option Nat) (found : Bool) (m : SrvMsg) (h : ∀ r, m ≠ .availability ci r) :
    answers ci [⟨asked, found, m⟩] = [] := by
  unfold answers
  cases m
  case availability c r =>
    simp only [List.filterMap_cons, List.filterMap_nil]
    rw [if_neg]
    intro hc; exact h r (by rw [hc])
  all_goals rfl

theorem answers_self (ci : Int) (asked : Option Nat) (found : Bool) (r : CiVal) :
    answers ci [⟨asked, found, .availability ci r⟩] = [r] := by
  simp [answers]

theorem handleEffect_table (pipe : Option Nat) (m : SrvMsg) (w : World) (ci : Int) (h : ∀ r, m ≠ .availability ci r) :
    (handleEffect pipe m w).pool.ciTable ci = w.pool.ciTable ci := by
  cases m <;> simp only [handleEffect]
  case availability c r =>
    have hc : ci ≠ c := fun hc => h r (by rw [hc])
    (repeat' split) <;> simp [World.withPool, Pool.setCi, hc]
  all_goals (repeat' split) <;> first | rfl | simp only [hostEffect_pool]

/-- While a call waits for its answer. -/
def Waiting (k : CiKind) (ci : Int) (w0 w : World) : Prop :=
  ∃ hs, w.handled = w0.handled ++ hs ∧ LimitsKept ci w0 w hs ∧
    ((answers ci hs = [] ∧ w.pool.ciTable ci = some (.handler k)) ∨
      ∃ v, answers ci hs = [v] ∧ v.truthy = true ∧ w.pool.ciTable ci = some (.value v))

/-- After an error in a handler. -/
def Refused (ci : Int) (w0 : World) (e : Option PyErr) (w : World) : Prop :=
  ∃ hs, w.handled = w0.handled ++ hs ∧ LimitsKept ci w0 w hs ∧
    ∀ r, (answers ci hs).head? = some r → r.truthy = false → e = some .invalidPSRPOperation

theorem Waiting.refused {k : CiKind} {ci : Int} {w0 w : World} (h : Waiting k ci w0 w) (e : Option PyErr) : Refused ci w0 e w := by
  obtain ⟨hs, hh, hl, h⟩ := h
  refine ⟨hs, hh, hl, fun r hr hf => ?_⟩
  rcases h with ⟨ha, _⟩ | ⟨v, ha, ht, _⟩
  · rw [ha] at hr; simp at hr
  · rw [ha] at hr
    simp only [List.head?_cons, Option.some.injEq] at hr
    rw [hr, hf] at ht; simp at ht

theorem waiting_request {k : CiKind} {ci : Int} {w0 w : World} (r : Request) (h : Waiting k ci w0 w) :
    Waiting k ci w0 (request r w).2 := by
  obtain ⟨hs, hh, hl, h⟩ := h
  refine ⟨hs, by rw [request_handled, hh], ?_, ?_⟩
  · intro hi; rw [request_pool]; exact hl hi
  · rw [request_pool]; exact h

theorem limitsKept_message {ci : Int} {w0 w : World} {hs : List Handled} (asked pipe : Option Nat) (m : SrvMsg)
    (hl : LimitsKept ci w0 w hs) (hmax : ∀ r, m = .availability ci r → (handleEffect pipe m w).pool.max = w.pool.max) :
    LimitsKept ci w0 (handleLogged asked pipe m w).2 (hs ++ [⟨asked, pipe.isSome, m⟩]) := by
  intro hi
  have hm : ¬ IsInitData m := hi ⟨asked, pipe.isSome, m⟩ (by simp)
  obtain ⟨h1, h2⟩ := hl fun h hh => hi h (by simp [hh])
  obtain ⟨e1, e2⟩ := handleEffect_limits pipe m w hm
  rw [message_pool]
  refine ⟨by rw [e1, h1], fun hf => ?_⟩
  rw [← h2 fun h hh => hf h (by simp [hh])]
  by_cases hc : ∃ c r, m = .availability c r
  · obtain ⟨c, r, rfl⟩ := hc
    have := hf ⟨asked, pipe.isSome, .availability c r⟩ (by simp) c r rfl
    exact hmax r (by rw [this])
  · exact e2 fun c r hm => hc ⟨c, r, hm⟩

theorem ends_message {k : CiKind} (hk : k ≠ .avail) {ci : Int} {w0 : World} (w : World) (m : SrvMsg) (h : Waiting k ci w0 w) :
    Ends (Waiting k ci w0) (Refused ci w0) (handleLogged none none m) w := by
  obtain ⟨hs, hh, hl, ht⟩ := h
  have hnew : (handleLogged none none m w).2.handled = w0.handled ++ (hs ++ [⟨none, false, m⟩]) := by
    rw [message_handled, hh, List.append_assoc]; rfl
  by_cases hm : ∃ r, m = .availability ci r
  · obtain ⟨r, rfl⟩ := hm
    have hlim : LimitsKept ci w0 (handleLogged none none (.availability ci r) w).2 (hs ++ [⟨none, false, .availability ci r⟩]) := by
      refine limitsKept_message none none _ hl fun r' _ => ?_
      rcases ht with ⟨_, ht⟩ | ⟨v, _, _, ht⟩ <;> simp only [handleEffect, ht]
      cases k with
      | avail => exact absurd rfl hk
      | _ => split <;> rfl
    rcases ht with ⟨ha, ht⟩ | ⟨v, ha, hv, ht⟩
    · have hrun : handleLogged none none (.availability ci r) w =
          (if r.truthy then .ok none else .raised .invalidPSRPOperation, (handleLogged none none (.availability ci r) w).2) := by
        refine Prod.ext ?_ rfl
        simp only [handleLogged, bind_run, modifyW, handle, processAvailability, getW, ht, ciHandler]
        cases k with
        | avail => exact absurd rfl hk
        | _ => cases r.truthy <;> rfl
      unfold Ends
      rw [hrun]
      cases hr : r.truthy with
      | true =>
        refine ⟨_, hnew, hlim, .inr ⟨r, by rw [answers_append, ha, answers_self]; rfl, hr, ?_⟩⟩
        rw [message_pool]
        simp only [handleEffect, ht]
        cases k with
        | avail => exact absurd rfl hk
        | _ => simp [hr, World.withPool, Pool.setCi]
      | false => exact .inr ⟨_, hnew, hlim, fun _ _ _ => rfl⟩
    · have hrun : handleLogged none none (.availability ci r) w =
          (.raised .typeError, (handleLogged none none (.availability ci r) w).2) := by
        refine Prod.ext ?_ rfl
        simp only [handleLogged, bind_run, modifyW, handle, processAvailability, getW, ht, raise]
      unfold Ends
      rw [hrun]
      refine .inr ⟨_, hnew, hlim, fun r' hr' hf => ?_⟩
      rw [answers_append, ha] at hr'
      simp only [List.cons_append, List.head?_cons, Option.some.injEq] at hr'
      rw [hr', hf] at hv; simp at hv
  · have hm : ∀ r, m ≠ .availability ci r := fun r h => hm ⟨r, h⟩
    have hI : Waiting k ci w0 (handleLogged none none m w).2 := by
      refine ⟨_, hnew, limitsKept_message none none m hl (fun r h => absurd h (hm r)), ?_⟩
      rw [answers_append, answers_other ci none false m hm, List.append_nil, message_pool, handleEffect_table none m w ci hm]
      exact ht
    unfold Ends
    split <;> rename_i hx <;> rw [hx] at hI
    · exact hI
    · exact .inl hI
    · exact .inl hI

/-- A call that asks and waits for a boolean answer. -/
theorem asked_loop {k : CiKind} (hk : k ≠ .avail) (msg : Nat → OutMsg) (g : Nat → Pool → Pool) (w : World) :
    ∃ w2 hs, w2.handled = w.handled ++ hs ∧ LimitsKept w.pool.ciCounter w w2 hs ∧
      ((do let ci ← ask k msg; loopUntil (gotBool ci); modifyPool (g ci) : PoolM Unit) w =
          (.ok (), { w2 with pool := g w.pool.ciCounter w2.pool }) ∧ answers w.pool.ciCounter hs = [.bool true] ∨
        ((do let ci ← ask k msg; loopUntil (gotBool ci); modifyPool (g ci) : PoolM Unit) w).1 ≠ .ok () ∧
        ((do let ci ← ask k msg; loopUntil (gotBool ci); modifyPool (g ci) : PoolM Unit) w).2 = w2 ∧
        ∀ r, (answers w.pool.ciCounter hs).head? = some r → r.truthy = false →
          ((do let ci ← ask k msg; loopUntil (gotBool ci); modifyPool (g ci) : PoolM Unit) w).1 =
            .raised .invalidPSRPOperation) := by
  have hask : Waiting k w.pool.ciCounter w (ask k msg w).2 := by
    rw [ask_world]
    refine waiting_request _ ⟨[], by simp [World.asking, World.withPool], fun _ => ⟨rfl, fun _ => rfl⟩, .inl ⟨rfl, ?_⟩⟩
    simp [World.asking, World.withPool, Pool.setCi]
  have hpost : ∀ e w', Waiting k w.pool.ciCounter w w' ∨ Refused w.pool.ciCounter w e w' → Refused w.pool.ciCounter w e w' :=
    fun e w' h => h.elim (fun h => h.refused e) id
  rw [bind_run]
  cases ha : ask k msg w with
  | mk res w1 =>
    rw [ha] at hask
    cases res with
    | ok ci =>
      obtain ⟨rfl, _, _⟩ := ask_ok ha
      dsimp only
      have hend := ends_loopUntil (fun w c h => waiting_request (.receive c) h) (ends_message hk) (gotBool w.pool.ciCounter) w1 hask
      unfold Ends at hend
      rw [bind_run]
      cases hl : loopUntil (gotBool w.pool.ciCounter) w1 with
      | mk res w2 =>
        rw [hl] at hend
        cases res with
        | ok a =>
          obtain ⟨hs, hh, hlim, ht⟩ := hend
          refine ⟨w2, hs, hh, hlim, .inl ⟨rfl, ?_⟩⟩
          have hd := loopUntil_done hl
          unfold gotBool at hd
          rcases ht with ⟨_, ht⟩ | ⟨v, hv, htr, ht⟩
          · rw [ht] at hd; simp at hd
          · rw [ht] at hd
            cases v with
            | bool b => simp only [CiVal.truthy] at htr; rw [htr] at hv; exact hv
            | _ => simp at hd
        | raised e =>
          obtain ⟨hs, hh, hlim, hr⟩ := hpost _ _ hend
          refine ⟨w2, hs, hh, hlim, .inr ⟨by simp, rfl, fun r h1 h2 => ?_⟩⟩
          have := hr r h1 h2
          simp only [Option.some.injEq] at this
          rw [this]
        | waiting =>
          obtain ⟨hs, hh, hlim, hr⟩ := hpost _ _ hend
          exact ⟨w2, hs, hh, hlim, .inr ⟨by simp, rfl, fun r h1 h2 => by simpa using hr r h1 h2⟩⟩
    | raised e =>
      obtain ⟨hs, hh, hlim, hr⟩ := hask.refused none
      exact ⟨w1, hs, hh, hlim, .inr ⟨by simp, rfl, fun r h1 h2 => by simpa using hr r h1 h2⟩⟩
    | waiting =>
      obtain ⟨hs, hh, hlim, hr⟩ := hask.refused none
      exact ⟨w1, hs, hh, hlim, .inr ⟨by simp, rfl, fun r h1 h2 => by simpa using hr r h1 h2⟩⟩

end Verif
