import Verif.Model.Wire
import Verif.Lemmas.SerializerIds
import Verif.Lemmas.XmlRead
import Verif.Lemmas.Message
/-
Helper lemmas: CLIXML documents as text.
-/
namespace Verif

/-! ### The tags that are written -/

/-- Tags with a name in the table. -/
def Tag.known (t : Tag) : Bool := (tagNames.lookup t).isSome

/-- Trees whose tags all have names. -/
def AllKnown (xs : List Xml) : Prop := ∀ e ∈ elemsAll xs, e.tag.known = true

theorem known_nil : AllKnown [] := by intro e h; cases h

theorem known_append {xs ys : List Xml} (h1 : AllKnown xs) (h2 : AllKnown ys) : AllKnown (xs ++ ys) := by
  intro e h
  rw [elemsAll_append, List.mem_append] at h
  exact h.elim (h1 e) (h2 e)

theorem known_wrap {xs : List Xml} (h : AllKnown xs) (t : Tag) (r n x : Option PyStr) (ht : t.known = true) : AllKnown [.node t r n x xs] := by
  intro e he
  simp only [elemsAll, Xml.elems, List.append_nil, List.mem_cons] at he
  rcases he with rfl | he
  · exact ht
  · exact h e he

theorem known_leaf (t : Tag) (r n x : Option PyStr) (ht : t.known = true) : AllKnown [.node t r n x []] := known_wrap known_nil t r n x ht

theorem known_leaves {α : Type} (l : List α) (f : α → Xml) (h : ∀ a ∈ l, AllKnown [f a]) : AllKnown (l.map f) := by
  induction l with
  | nil => exact known_nil
  | cons a l ih =>
    have := known_append (h a (by simp)) (ih fun b hb => h b (by simp [hb]))
    simpa using this

theorem known_group {p : Prop} [Decidable p] {t : Tag} {xs : List Xml} (h : AllKnown xs) (ht : t.known = true) :
    AllKnown (if p then [] else [.node t none none none xs]) := by
  split
  · exact known_nil
  · exact known_wrap h t _ _ _ ht

theorem known_tn {types : List PyStr} {st st' : SerState} {x : Xml} (h : createTn types st = .ok (x, st')) : AllKnown [x] := by
  unfold createTn at h
  split at h
  · simp at h
  · split at h
    · simp only [Except.ok.injEq, Prod.mk.injEq] at h
      obtain ⟨rfl, -⟩ := h
      exact known_wrap (known_leaves _ _ fun t _ => known_leaf .T none none (some t) (by decide)) _ _ _ _ (by decide)
    · simp only [Except.ok.injEq, Prod.mk.injEq] at h
      obtain ⟨rfl, -⟩ := h
      exact known_leaf _ _ _ _ (by decide)

theorem known_tnOpt {types : List PyStr} {st st' : SerState} {xs : List Xml} (h : createTnOpt types st = .ok (xs, st')) : AllKnown xs := by
  unfold createTnOpt at h
  split at h
  · simp only [Except.ok.injEq, Prod.mk.injEq] at h
    obtain ⟨rfl, -⟩ := h
    exact known_nil
  · obtain ⟨⟨x, st1⟩, h1, h⟩ := bind_ok h
    have h := pure_ok h
    simp only [Prod.mk.injEq] at h
    obtain ⟨rfl, -⟩ := h
    exact known_tn h1

theorem packable_known {t : Tag} (h : packable t = true) : t.known = true := by
  cases t <;> first | decide | simp [packable] at h

theorem known_scalar {m : Meta} {s : Scalar} {ox : Option Xml} (h : serScalar m s = .ok ox) : AllKnown (kidsOf ox) := by
  unfold serScalar at h
  split at h
  · simp at h
  · rename_i hp
    have hp : m.tag.known = true := packable_known (by simpa using hp)
    split at h
    · split at h
      · simp only [Except.ok.injEq] at h; subst h; exact known_nil
      · simp only [Except.ok.injEq] at h; subst h; exact known_leaf _ _ _ _ (by decide)
    · split at h
      · simp at h
      · obtain ⟨t, h1, h⟩ := bind_ok h
        have h := pure_ok h
        subst h
        exact known_leaf _ _ _ _ hp

theorem known_toString (o : Option PyStr) : AllKnown (toStringKids o) := by
  cases o
  · exact known_nil
  · exact known_leaf _ _ _ _ (by decide)

theorem known_setName {x : Xml} (n : Option PyStr) (h : AllKnown [x]) : AllKnown [x.setName n] := by
  cases x with
  | node t r nm tx ks =>
    intro e he
    simp only [Xml.setName, elemsAll, Xml.elems, List.append_nil, List.mem_cons] at he h
    rcases he with rfl | he
    · exact h (.node t r nm tx ks) (by simp [elemsAll, Xml.elems])
    · exact h e (by simp [elemsAll, Xml.elems, he])

/-- Whatever is written has known tags. -/
def WritesKnown (v : PyVal) : Prop := ∀ m st ox st', ser m v st = .ok (ox, st') → AllKnown (kidsOf ox)

theorem known_list {xs : List PyVal} (hx : ∀ v ∈ xs, WritesKnown v) : ∀ e st ks st', serList e xs st = .ok (ks, st') → AllKnown ks := by
  induction xs with
  | nil =>
    intro e st ks st' h
    simp only [serList, Except.ok.injEq, Prod.mk.injEq] at h
    obtain ⟨rfl, rfl⟩ := h
    exact known_nil
  | cons v vs ih =>
    intro e st ks st' h
    rw [serList] at h
    obtain ⟨⟨x, st1⟩, h1, h⟩ := bind_ok h
    obtain ⟨⟨ks', st2⟩, h2, h⟩ := bind_ok h
    have h := pure_ok h
    simp only [Prod.mk.injEq] at h
    obtain ⟨rfl, rfl⟩ := h
    exact known_append (hx v (by simp) _ _ _ _ h1) (ih (fun v hv => hx v (List.mem_cons_of_mem _ hv)) _ _ _ _ h2)

theorem known_queue {xs : List PyVal} (hx : ∀ v ∈ xs, WritesKnown v) : ∀ e st ks st', serQueue e xs st = .ok (ks, st') → AllKnown ks := by
  induction xs with
  | nil =>
    intro e st ks st' h
    simp only [serQueue, Except.ok.injEq, Prod.mk.injEq] at h
    obtain ⟨rfl, rfl⟩ := h
    exact known_nil
  | cons v vs ih =>
    intro e st ks st' h
    rw [serQueue] at h
    obtain ⟨⟨x, st1⟩, h1, h⟩ := bind_ok h
    obtain ⟨⟨ks', st2⟩, h2, h⟩ := bind_ok h
    have h := pure_ok h
    simp only [Prod.mk.injEq] at h
    obtain ⟨rfl, rfl⟩ := h
    exact known_append (hx v (by simp) _ _ _ _ h1) (ih (fun v hv => hx v (List.mem_cons_of_mem _ hv)) _ _ _ _ h2)

theorem known_stack {xs : List PyVal} (hx : ∀ v ∈ xs, WritesKnown v) : ∀ e st ks st', serStack e xs st = .ok (ks, st') → AllKnown ks := by
  induction xs with
  | nil =>
    intro e st ks st' h
    simp only [serStack, Except.ok.injEq, Prod.mk.injEq] at h
    obtain ⟨rfl, rfl⟩ := h
    exact known_nil
  | cons v vs ih =>
    intro e st ks st' h
    rw [serStack] at h
    obtain ⟨⟨ks', st1⟩, h1, h⟩ := bind_ok h
    obtain ⟨⟨x, st2⟩, h2, h⟩ := bind_ok h
    have h := pure_ok h
    simp only [Prod.mk.injEq] at h
    obtain ⟨rfl, rfl⟩ := h
    exact known_append (ih (fun v hv => hx v (List.mem_cons_of_mem _ hv)) _ _ _ _ h1) (hx v (by simp) _ _ _ _ h2)

theorem known_entries {es : List (PyVal × PyVal)} (hx : ∀ e ∈ es, WritesKnown e.1 ∧ WritesKnown e.2) : ∀ km vm st ks st',
    serEntries km vm es st = .ok (ks, st') → AllKnown ks := by
  induction es with
  | nil =>
    intro km vm st ks st' h
    simp only [serEntries, Except.ok.injEq, Prod.mk.injEq] at h
    obtain ⟨rfl, rfl⟩ := h
    exact known_nil
  | cons e es ih =>
    obtain ⟨k, v⟩ := e
    intro km vm st ks st' h
    rw [serEntries] at h
    obtain ⟨⟨x, st1⟩, h1, h⟩ := bind_ok h
    obtain ⟨⟨y, st2⟩, h2, h⟩ := bind_ok h
    obtain ⟨⟨ks', st3⟩, h3, h⟩ := bind_ok h
    have h := pure_ok h
    simp only [Prod.mk.injEq] at h
    obtain ⟨rfl, rfl⟩ := h
    have w1 := (hx (k, v) (by simp)).1 _ _ _ _ h1
    have w2 := (hx (k, v) (by simp)).2 _ _ _ _ h2
    have w3 := ih (fun e he => hx e (List.mem_cons_of_mem _ he)) _ _ _ _ _ h3
    exact known_append (known_wrap (known_append w1 w2) .En none none none (by decide)) w3

theorem known_sets {xs : List PyVal} (hx : ∀ v ∈ xs, WritesKnown v) : ∀ st ks st', serSets xs st = .ok (ks, st') → AllKnown ks := by
  induction xs with
  | nil =>
    intro st ks st' h
    simp only [serSets, Except.ok.injEq, Prod.mk.injEq] at h
    obtain ⟨rfl, rfl⟩ := h
    exact known_nil
  | cons v vs ih =>
    intro st ks st' h
    rw [serSets] at h
    split at h
    · obtain ⟨⟨x, st1⟩, h1, h⟩ := bind_ok h
      simp only [Except.ok.injEq, Prod.mk.injEq] at h1
      obtain ⟨rfl, rfl⟩ := h1
      obtain ⟨⟨ks', st2⟩, h2, h⟩ := bind_ok h
      have h := pure_ok h
      simp only [Prod.mk.injEq] at h
      obtain ⟨rfl, rfl⟩ := h
      exact known_append (known_leaf _ _ _ _ (by decide)) (ih (fun v hv => hx v (List.mem_cons_of_mem _ hv)) _ _ _ h2)
    · obtain ⟨⟨x, st1⟩, h1, h⟩ := bind_ok h
      obtain ⟨⟨ks', st2⟩, h2, h⟩ := bind_ok h
      have h := pure_ok h
      simp only [Prod.mk.injEq] at h
      obtain ⟨rfl, rfl⟩ := h
      exact known_append (hx v (by simp) _ _ _ _ h1) (ih (fun v hv => hx v (List.mem_cons_of_mem _ hv)) _ _ _ h2)

theorem known_named {xs : List (PyStr × PyVal)} (hx : ∀ v ∈ xs, WritesKnown v.2) : ∀ st ks st', serNamed xs st = .ok (ks, st') → AllKnown ks := by
  induction xs with
  | nil =>
    intro st ks st' h
    simp only [serNamed, Except.ok.injEq, Prod.mk.injEq] at h
    obtain ⟨rfl, rfl⟩ := h
    exact known_nil
  | cons e vs ih =>
    obtain ⟨k, v⟩ := e
    intro st ks st' h
    rw [serNamed] at h
    split at h
    · obtain ⟨⟨x, st1⟩, h1, h⟩ := bind_ok h
      simp only [Except.ok.injEq, Prod.mk.injEq] at h1
      obtain ⟨rfl, rfl⟩ := h1
      obtain ⟨⟨ks', st2⟩, h2, h⟩ := bind_ok h
      have h := pure_ok h
      simp only [Prod.mk.injEq] at h
      obtain ⟨rfl, rfl⟩ := h
      exact known_append (known_leaf _ _ _ _ (by decide)) (ih (fun v hv => hx v (List.mem_cons_of_mem _ hv)) _ _ _ h2)
    · obtain ⟨⟨x, st1⟩, h1, h⟩ := bind_ok h
      obtain ⟨⟨ks', st2⟩, h2, h⟩ := bind_ok h
      have h := pure_ok h
      simp only [Prod.mk.injEq] at h
      obtain ⟨rfl, rfl⟩ := h
      exact known_append (hx (k, v) (by simp) _ _ _ _ h1) (ih (fun v hv => hx v (List.mem_cons_of_mem _ hv)) _ _ _ h2)

theorem known_props {xs : List (Meta × PyVal)} (hx : ∀ v ∈ xs, WritesKnown v.2) : ∀ st ks st', serProps xs st = .ok (ks, st') → AllKnown ks := by
  induction xs with
  | nil =>
    intro st ks st' h
    simp only [serProps, Except.ok.injEq, Prod.mk.injEq] at h
    obtain ⟨rfl, rfl⟩ := h
    exact known_nil
  | cons e vs ih =>
    obtain ⟨k, v⟩ := e
    intro st ks st' h
    rw [serProps] at h
    split at h
    · obtain ⟨⟨x, st1⟩, h1, h⟩ := bind_ok h
      simp only [Except.ok.injEq, Prod.mk.injEq] at h1
      obtain ⟨rfl, rfl⟩ := h1
      obtain ⟨⟨ks', st2⟩, h2, h⟩ := bind_ok h
      have h := pure_ok h
      simp only [Prod.mk.injEq] at h
      obtain ⟨rfl, rfl⟩ := h
      exact known_append (known_leaf _ _ _ _ (by decide)) (ih (fun v hv => hx v (List.mem_cons_of_mem _ hv)) _ _ _ h2)
    · obtain ⟨⟨x, st1⟩, h1, h⟩ := bind_ok h
      obtain ⟨⟨ks', st2⟩, h2, h⟩ := bind_ok h
      have h := pure_ok h
      simp only [Prod.mk.injEq] at h
      obtain ⟨rfl, rfl⟩ := h
      exact known_append (hx (k, v) (by simp) _ _ _ _ h1) (ih (fun v hv => hx v (List.mem_cons_of_mem _ hv)) _ _ _ h2)

theorem writesKnown (v : PyVal) : WritesKnown v := by
  match v with
  | .sc s =>
    intro m st ox st' h
    rw [ser] at h
    obtain ⟨x, h1, h⟩ := bind_ok h
    have h := pure_ok h
    simp only [Prod.mk.injEq] at h
    obtain ⟨rfl, rfl⟩ := h
    exact known_scalar h1
  | .tagged t s =>
    intro m st ox st' h
    rw [ser] at h
    split at h
    · obtain ⟨x, h1, h⟩ := bind_ok h
      have h := pure_ok h
      simp only [Prod.mk.injEq] at h
      obtain ⟨rfl, rfl⟩ := h
      exact known_scalar h1
    · simp at h
  | .list xs =>
    have ih : ∀ v ∈ xs, WritesKnown v := fun v _ => writesKnown v
    intro m st ox st' h
    rw [ser] at h
    dsimp only at h
    split at h
    · rename_i htag
      obtain ⟨⟨tn, st1⟩, h1, h⟩ := bind_ok h
      obtain ⟨⟨ks, st2⟩, h2, h⟩ := bind_ok h
      have h := pure_ok h
      simp only [Prod.mk.injEq] at h
      obtain ⟨rfl, rfl⟩ := h
      refine known_setName _ (known_wrap (known_append (known_tn h1) (known_wrap (known_list ih _ _ _ _ h2) _ _ _ _ ?_)) _ _ _ _ (by decide))
      rcases htag with h | h <;> rw [h] <;> decide
    · split at h
      · split at h
        · obtain ⟨⟨tn, st1⟩, h1, h⟩ := bind_ok h
          obtain ⟨⟨ks, st2⟩, h2, h⟩ := bind_ok h
          have h := pure_ok h
          simp only [Prod.mk.injEq] at h
          obtain ⟨rfl, rfl⟩ := h
          exact known_setName _ (known_wrap (known_append (known_tn h1) (known_wrap (known_stack ih _ _ _ _ h2) _ _ _ _ (by decide))) _ _ _ _
            (by decide))
        · simp at h
      · simp at h
  | .queue xs =>
    have ih : ∀ v ∈ xs, WritesKnown v := fun v _ => writesKnown v
    intro m st ox st' h
    rw [ser] at h
    dsimp only at h
    split at h
    · obtain ⟨⟨tn, st1⟩, h1, h⟩ := bind_ok h
      obtain ⟨⟨ks, st2⟩, h2, h⟩ := bind_ok h
      have h := pure_ok h
      simp only [Prod.mk.injEq] at h
      obtain ⟨rfl, rfl⟩ := h
      exact known_setName _ (known_wrap (known_append (known_tn h1) (known_wrap (known_queue ih _ _ _ _ h2) _ _ _ _ (by decide))) _ _ _ _
        (by decide))
    · simp at h
  | .dict es =>
    have ih : ∀ e ∈ es, WritesKnown e.1 ∧ WritesKnown e.2 := fun e he =>
      have h1 := List.sizeOf_lt_of_mem he
      have h2 : sizeOf e = 1 + sizeOf e.1 + sizeOf e.2 := by cases e; rfl
      ⟨writesKnown e.1, writesKnown e.2⟩
    intro m st ox st' h
    rw [ser] at h
    dsimp only at h
    split at h
    · obtain ⟨⟨tn, st1⟩, h1, h⟩ := bind_ok h
      obtain ⟨⟨ks, st2⟩, h2, h⟩ := bind_ok h
      have h := pure_ok h
      simp only [Prod.mk.injEq] at h
      obtain ⟨rfl, rfl⟩ := h
      exact known_setName _ (known_wrap (known_append (known_tn h1) (known_wrap (known_entries ih _ _ _ _ _ h2) _ _ _ _ (by decide))) _ _ _ _
        (by decide))
    · simp at h
  | .generic oid types toStr sets ext adp =>
    have ih1 : ∀ v ∈ sets, WritesKnown v := fun v _ => writesKnown v
    have ih2 : ∀ e ∈ ext, WritesKnown e.2 := fun e he =>
      have h1 := List.sizeOf_lt_of_mem he
      have h2 : sizeOf e = 1 + sizeOf e.1 + sizeOf e.2 := by cases e; rfl
      writesKnown e.2
    have ih3 : ∀ e ∈ adp, WritesKnown e.2 := fun e he =>
      have h1 := List.sizeOf_lt_of_mem he
      have h2 : sizeOf e = 1 + sizeOf e.1 + sizeOf e.2 := by cases e; rfl
      writesKnown e.2
    intro m st ox st' h
    rw [ser] at h
    dsimp only at h
    split at h
    · obtain ⟨⟨tn, st1⟩, h1, h⟩ := bind_ok h
      obtain ⟨⟨ks, st2⟩, h2, h⟩ := bind_ok h
      obtain ⟨⟨es, st3⟩, h3, h⟩ := bind_ok h
      obtain ⟨⟨as, st4⟩, h4, h⟩ := bind_ok h
      have h := pure_ok h
      simp only [Prod.mk.injEq] at h
      obtain ⟨rfl, rfl⟩ := h
      exact known_setName _ (known_wrap (known_append (known_append (known_append (known_append (known_tnOpt h1) (known_toString _))
        (known_sets ih1 _ _ _ h2)) (known_group (known_named ih2 _ _ _ h3) (by decide))) (known_group (known_named ih3 _ _ _ h4) (by decide)))
        _ _ _ _ (by decide))
    · split at h
      · simp only [Except.ok.injEq, Prod.mk.injEq] at h
        obtain ⟨rfl, rfl⟩ := h
        exact known_setName _ (known_leaf _ _ _ _ (by decide))
      · simp at h
  | .typed oid types toStr sets ext adp =>
    have ih1 : ∀ e ∈ sets, WritesKnown e.2 := fun e he =>
      have h1 := List.sizeOf_lt_of_mem he
      have h2 : sizeOf e = 1 + sizeOf e.1 + sizeOf e.2 := by cases e; rfl
      writesKnown e.2
    have ih2 : ∀ e ∈ ext, WritesKnown e.2 := fun e he =>
      have h1 := List.sizeOf_lt_of_mem he
      have h2 : sizeOf e = 1 + sizeOf e.1 + sizeOf e.2 := by cases e; rfl
      writesKnown e.2
    have ih3 : ∀ e ∈ adp, WritesKnown e.2 := fun e he =>
      have h1 := List.sizeOf_lt_of_mem he
      have h2 : sizeOf e = 1 + sizeOf e.1 + sizeOf e.2 := by cases e; rfl
      writesKnown e.2
    intro m st ox st' h
    rw [ser] at h
    dsimp only at h
    split at h
    · obtain ⟨⟨tn, st1⟩, h1, h⟩ := bind_ok h
      obtain ⟨⟨ks, st2⟩, h2, h⟩ := bind_ok h
      obtain ⟨⟨es, st3⟩, h3, h⟩ := bind_ok h
      obtain ⟨⟨as, st4⟩, h4, h⟩ := bind_ok h
      have h := pure_ok h
      simp only [Prod.mk.injEq] at h
      obtain ⟨rfl, rfl⟩ := h
      exact known_setName _ (known_wrap (known_append (known_append (known_append (known_append (known_tnOpt h1) (known_toString _))
        (known_props ih1 _ _ _ h2)) (known_group (known_props ih2 _ _ _ h3) (by decide))) (known_group (known_props ih3 _ _ _ h4) (by decide)))
        _ _ _ _ (by decide))
    · split at h <;> simp at h
  | .raw x =>
    intro m st ox st' h
    simp [ser] at h
termination_by sizeOf v
decreasing_by
  all_goals first
    | (have := List.sizeOf_lt_of_mem ‹_ ∈ _›; simp; omega)
    | (simp; omega)

theorem known_serialize {m : Meta} {v : PyVal} {x : Xml} (h : serialize m v = .ok (some x)) : AllKnown [x] := by
  unfold serialize at h
  obtain ⟨⟨ox, st⟩, h1, h⟩ := bind_ok h
  have h := pure_ok h
  subst h
  exact writesKnown v m _ _ _ h1

/-! ### Trees and elements -/

theorem tag_text {t : Tag} (h : t.known = true) : Tag.ofText t.text = t ∧ GoodName t.text ∧ ':' ∉ t.text := by
  have all : tagNames.all (fun e => Tag.ofText e.1.text == e.1 && (!e.1.text.isEmpty && e.1.text.all nameChar) && !e.1.text.contains ':') = true := by
    decide +kernel
  cases hl : tagNames.lookup t with
  | none => simp [Tag.known, hl] at h
  | some n =>
    have hm : (t, n) ∈ tagNames := by
      revert hl
      generalize tagNames = l
      induction l with
      | nil => intro h; cases h
      | cons e l ih =>
        intro hl
        rw [List.lookup_cons] at hl
        split at hl
        · rename_i he
          simp only [beq_iff_eq] at he
          cases hl
          simp [he]
        · exact List.mem_cons_of_mem _ (ih hl)
    have := List.all_eq_true.mp all _ hm
    simp only [Bool.and_eq_true, beq_iff_eq, Bool.not_eq_true', List.isEmpty_eq_false_iff, List.all_eq_true] at this
    refine ⟨this.1.1, ⟨this.1.2.1, this.1.2.2⟩, fun hc => ?_⟩
    have h2 := this.2
    rw [← Bool.not_eq_true, List.contains_iff_mem] at h2
    exact h2 hc

/-- Children of known trees are known. -/
theorem known_kids {t : Tag} {r n x : Option PyStr} {ks : List Xml} (h : AllKnown [.node t r n x ks]) : t.known = true ∧ AllKnown ks := by
  constructor
  · exact h (.node t r n x ks) (by simp [elemsAll, Xml.elems])
  · intro e he
    exact h e (by simp [elemsAll, Xml.elems, he])

theorem known_cons {k : Xml} {ks : List Xml} (h : AllKnown (k :: ks)) : AllKnown [k] ∧ AllKnown ks := by
  constructor <;> intro e he <;> refine h e ?_
  · simp only [elemsAll, List.append_nil] at he; simp [elemsAll, he]
  · simp [elemsAll, he]

theorem legal_safe {c : Char} (h : XmlSafe c) : legalXmlChar c = true ∧ c ≠ '\r' := by
  refine ⟨?_, h.2⟩
  have := h.1
  simp only [IsXmlChar] at this
  have hv : c.toNat < 0x110000 := by
    have := c.valid
    simp only [UInt32.isValidChar, Nat.isValidChar] at this
    simp only [Char.toNat]
    omega
  simp only [legalXmlChar, Bool.or_eq_true, decide_eq_true_eq, Bool.and_eq_true]
  omega

theorem elem_attrs (r n : Option PyStr) (h1 : ∀ s, r = some s → ∀ c ∈ s, XmlSafe c) (h2 : ∀ s, n = some s → ∀ c ∈ s, XmlSafe c) :
    let as := (r.map fun v => ("RefId".toList, v)).toList ++ (n.map fun v => ("N".toList, v)).toList
    (as.map (·.1)).Nodup ∧ (∀ a ∈ as, GoodName a.1 ∧ ∀ c ∈ a.2, legalXmlChar c = true) ∧ as.lookup "RefId".toList = r ∧
      as.lookup "N".toList = n ∧ as.filterMap (fun a => prefixOf a.1) = [] := by
  have g1 : GoodName "RefId".toList := ⟨by decide, by decide⟩
  have g2 : GoodName "N".toList := ⟨by decide, by decide⟩
  cases r <;> cases n <;>
    simp only [Option.map, Option.toList, List.nil_append, List.cons_append, List.map, List.mem_cons, List.not_mem_nil, or_false, forall_eq_or_imp,
      forall_eq, List.append_nil]
  · exact ⟨List.nodup_nil, fun a h => h.elim, rfl, rfl, rfl⟩
  · exact ⟨by decide, ⟨g2, fun c hc => (legal_safe (h2 _ rfl c hc)).1⟩, rfl, rfl, rfl⟩
  · exact ⟨by decide, ⟨g1, fun c hc => (legal_safe (h1 _ rfl c hc)).1⟩, rfl, rfl, rfl⟩
  · exact ⟨by decide, ⟨⟨g1, fun c hc => (legal_safe (h1 _ rfl c hc)).1⟩, g2, fun c hc => (legal_safe (h2 _ rfl c hc)).1⟩, rfl, rfl, rfl⟩

mutual
theorem elem_readable : ∀ x : Xml, AllKnown [x] → x.Sendable → x.elem.Readable ∧ x.elem.prefixes = [] ∧ x.elem.normal.xml = x.reparse
  | .node t r n x ks, hk, hs => by
    obtain ⟨ht, hks⟩ := known_kids hk
    obtain ⟨t1, t2, t3⟩ := tag_text ht
    rw [Xml.Sendable] at hs
    obtain ⟨s1, s2, s3, s4⟩ := hs
    obtain ⟨a1, a2, a3, a4, a5⟩ := elem_attrs r n s1 s2
    obtain ⟨k1, k2, k3⟩ := elem_readableAll ks hks s4
    refine ⟨⟨t2, a1, a2, ?_, k1⟩, ?_, ?_⟩
    · intro c hc
      cases x with
      | none => cases hc
      | some s => exact legal_safe (s3 s rfl c hc)
    · rw [Xml.elem, Elem.prefixes, a5, k2, prefixOf, if_neg t3]; rfl
    · rw [Xml.elem, Elem.normal, Elem.xml, t1, a3, a4, k3]
      cases x with
      | none => rfl
      | some s => cases s <;> rfl
theorem elem_readableAll : ∀ xs : List Xml, AllKnown xs → (∀ k ∈ xs, k.Sendable) →
    ReadableKids (elemAll xs) ∧ prefixesKids (elemAll xs) = [] ∧ xmlAll (normalKids (elemAll xs)) = reparseAll xs
  | [], _, _ => ⟨trivial, rfl, rfl⟩
  | x :: xs, hk, hs => by
    obtain ⟨h1, h2⟩ := known_cons hk
    obtain ⟨a1, a2, a3⟩ := elem_readable x h1 (hs x (by simp))
    obtain ⟨b1, b2, b3⟩ := elem_readableAll xs h2 (fun k hk => hs k (by simp [hk]))
    refine ⟨⟨a1, b1⟩, ?_, ?_⟩
    · rw [elemAll, prefixesKids, a2, b2]; rfl
    · rw [elemAll, normalKids, xmlAll, a3, b3, reparseAll]
end

theorem no_declarations {e : Elem} (h : e.prefixes = []) : declarations e = [] := by
  unfold declarations
  rw [h]
  simp

theorem document_text {x : Xml} (hk : AllKnown [x]) (hs : x.Sendable) :
    decodeUtf8 (xmlBytes x) = some (x.elem.print) ∧ xmlOfText x.elem.print = some x.reparse := by
  obtain ⟨h1, h2, h3⟩ := elem_readable x hk hs
  have hp : printDocument x.elem = x.elem.print := by
    rw [printDocument, no_declarations h2]
    cases x; rfl
  refine ⟨by rw [xmlBytes, hp, decode_utf8], ?_⟩
  rw [xmlOfText, read_print h1, Option.map_some, h3]

theorem print_cons (e : Elem) : ∃ r, e.print = '<' :: r := by cases e; exact ⟨_, by rw [Elem.print]⟩

/-- A body written as XML starts with "<" and not with a byte order mark. -/
theorem xmlBytes_start {x : Xml} : (xmlBytes x).take 3 ≠ bom ∧ xmlBytes x ≠ [] := by
  obtain ⟨r, hr⟩ := print_cons (.node x.elem.tag (declarations x.elem ++ x.elem.attrs) x.elem.text x.elem.kids)
  have : xmlBytes x = 60 :: utf8 r := by
    rw [xmlBytes, printDocument, hr, utf8, List.flatMap_cons]
    rfl
  rw [this]
  refine ⟨fun h => ?_, by simp⟩
  rw [List.take_succ_cons, bom] at h
  injection h with h _
  revert h; decide

end Verif
