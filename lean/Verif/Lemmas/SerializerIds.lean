import Verif.Spec.Serializer
import Verif.Lemmas.Serializer
/-
Helper lemmas for CLIXML documents: numbering of objects and type names.
-/
namespace Verif

/-- The element has the number it should have when `a` objects and `b` type name definitions came before it. -/
def Numbered (a b : Nat) (e : Xml) : Prop :=
  (e.tag = .Obj → e.refId = some (pyStrNat a)) ∧ (e.tag = .TN → e.refId = some (pyStrNat b)) ∧
  (e.tag = .TNRef → ∃ i, i < b ∧ e.refId = some (pyStrNat i)) ∧ (e.tag = .Ref → ∃ i, i < a ∧ e.refId = some (pyStrNat i))

def cnt (t : Tag) (es : List Xml) : Nat := es.countP (fun e => e.tag = t)

def NumberedAll (a b : Nat) : List Xml → Prop
  | [] => True
  | e :: es => Numbered a b e ∧ NumberedAll (a + cnt .Obj [e]) (b + cnt .TN [e]) es

theorem cnt_append (t : Tag) (es fs : List Xml) : cnt t (es ++ fs) = cnt t es + cnt t fs := by simp [cnt]
theorem cnt_cons (t : Tag) (e : Xml) (fs : List Xml) : cnt t (e :: fs) = cnt t [e] + cnt t fs := by
  rw [← cnt_append]; rfl

theorem numberedAll_append (a b : Nat) (es fs : List Xml) (h1 : NumberedAll a b es)
    (h2 : NumberedAll (a + cnt .Obj es) (b + cnt .TN es) fs) : NumberedAll a b (es ++ fs) := by
  induction es generalizing a b with
  | nil => simpa [cnt] using h2
  | cons e es ih =>
    refine ⟨h1.1, ih _ _ h1.2 ?_⟩
    rw [cnt_cons .Obj, cnt_cons .TN] at h2
    simpa [Nat.add_assoc] using h2

theorem elemsAll_append (xs ys : List Xml) : elemsAll (xs ++ ys) = elemsAll xs ++ elemsAll ys := by
  induction xs with
  | nil => rfl
  | cons x xs ih => simp [elemsAll, ih]

/-- The writer's tables only hold numbers that have been given out. -/
def TablesOk (st : SerState) : Prop :=
  (∀ e ∈ st.tn, e.2 < st.tnId) ∧ (∀ e ∈ st.objs, ∃ i, i < st.objId ∧ e.1 = pyStrNat i)

/-- Writing `xs` in state `st` leads to `st'`. -/
def Wrote (st st' : SerState) (xs : List Xml) : Prop :=
  NumberedAll st.objId st.tnId (elemsAll xs) ∧ st'.objId = st.objId + cnt .Obj (elemsAll xs) ∧
    st'.tnId = st.tnId + cnt .TN (elemsAll xs) ∧ TablesOk st'

theorem Wrote.nil {st : SerState} (h : TablesOk st) : Wrote st st [] := ⟨trivial, by simp [elemsAll, cnt], by simp [elemsAll, cnt], h⟩

theorem Wrote.append {a b c : SerState} {xs ys : List Xml} (h1 : Wrote a b xs) (h2 : Wrote b c ys) : Wrote a c (xs ++ ys) := by
  obtain ⟨p1, p2, p3, -⟩ := h1
  obtain ⟨q1, q2, q3, q4⟩ := h2
  refine ⟨?_, ?_, ?_, q4⟩
  · rw [elemsAll_append]
    rw [p2, p3] at q1
    exact numberedAll_append _ _ _ _ p1 q1
  · rw [elemsAll_append, cnt_append, q2, p2]; omega
  · rw [elemsAll_append, cnt_append, q3, p3]; omega

/-- An element without number around written ones. -/
theorem Wrote.wrap {a b : SerState} {xs : List Xml} (h : Wrote a b xs) (t : Tag) (r n x : Option PyStr)
    (h1 : t ≠ .Obj) (h2 : t ≠ .TN) (h3 : t ≠ .TNRef) (h4 : t ≠ .Ref) : Wrote a b [.node t r n x xs] := by
  obtain ⟨p1, p2, p3, p4⟩ := h
  have c1 : cnt .Obj [.node t r n x xs] = 0 := by simp [cnt, Xml.tag, h1]
  have c2 : cnt .TN [.node t r n x xs] = 0 := by simp [cnt, Xml.tag, h2]
  refine ⟨?_, ?_, ?_, p4⟩
  · simp only [elemsAll, Xml.elems, List.append_nil]
    refine ⟨⟨fun h => absurd h h1, fun h => absurd h h2, fun h => absurd h h3, fun h => absurd h h4⟩, ?_⟩
    rw [c1, c2]; exact p1
  · simp only [elemsAll, Xml.elems, List.append_nil]
    rw [cnt_cons, c1, p2]; omega
  · simp only [elemsAll, Xml.elems, List.append_nil]
    rw [cnt_cons, c2, p3]; omega

theorem Wrote.leaf {st : SerState} (h : TablesOk st) (t : Tag) (r n x : Option PyStr) (h1 : t ≠ .Obj) (h2 : t ≠ .TN)
    (h3 : t ≠ .TNRef) (h4 : t ≠ .Ref) : Wrote st st [.node t r n x []] := (Wrote.nil h).wrap t r n x h1 h2 h3 h4

/-- A numbered object around written elements. -/
theorem Wrote.obj {a b : SerState} {xs : List Xml} (h : Wrote (newObjId a).2 b xs) (name : Option PyStr) :
    Wrote a b [(Xml.node .Obj (some (newObjId a).1) none none xs).setName name] := by
  obtain ⟨p1, p2, p3, p4⟩ := h
  simp only [newObjId] at p1 p2 p3 ⊢
  have c1 : ∀ x, cnt .Obj [.node .Obj (some (pyStrNat a.objId)) x none xs] = 1 := fun _ => by simp [cnt, Xml.tag]
  have c2 : ∀ x, cnt .TN [.node .Obj (some (pyStrNat a.objId)) x none xs] = 0 := fun _ => by simp [cnt, Xml.tag]
  refine ⟨?_, ?_, ?_, p4⟩
  · simp only [elemsAll, Xml.setName, Xml.elems, List.append_nil]
    refine ⟨⟨fun _ => rfl, fun h => (nomatch h), fun h => (nomatch h), fun h => (nomatch h)⟩, ?_⟩
    rw [c1, c2]; exact p1
  · simp only [elemsAll, Xml.setName, Xml.elems, List.append_nil]
    rw [cnt_cons, c1, p2]; omega
  · simp only [elemsAll, Xml.setName, Xml.elems, List.append_nil]
    rw [cnt_cons, c2, p3]; omega

theorem mem_of_lookup {β : Type} {l : List (PyStr × β)} {k : PyStr} {b : β} (h : l.lookup k = some b) : (k, b) ∈ l := by
  induction l with
  | nil => simp at h
  | cons e l ih =>
    obtain ⟨x, y⟩ := e
    simp only [List.lookup] at h
    split at h
    · rename_i hx
      simp only [Option.some.injEq] at h
      simp [← h, eq_of_beq hx]
    · exact List.mem_cons_of_mem _ (ih h)

theorem wrote_tn {types : List PyStr} {st st' : SerState} {x : Xml} (hi : TablesOk st)
    (h : createTn types st = .ok (x, st')) : Wrote st st' [x] := by
  unfold createTn at h
  split at h
  · simp at h
  · rename_i main tail
    split at h
    · simp only [Except.ok.injEq, Prod.mk.injEq] at h
      obtain ⟨rfl, rfl⟩ := h
      have hT : ∀ l : List PyStr, NumberedAll st.objId (st.tnId + 1) (elemsAll (l.map (fun t => Xml.node .T none none (some t) []))) ∧
          cnt .Obj (elemsAll (l.map (fun t => Xml.node .T none none (some t) []))) = 0 ∧
          cnt .TN (elemsAll (l.map (fun t => Xml.node .T none none (some t) []))) = 0 := by
        intro l
        induction l with
        | nil => exact ⟨trivial, rfl, rfl⟩
        | cons t l ih =>
          simp only [List.map_cons, elemsAll, Xml.elems, List.cons_append, List.nil_append]
          refine ⟨⟨⟨fun h => (nomatch h), fun h => (nomatch h), fun h => (nomatch h), fun h => (nomatch h)⟩, ?_⟩, ?_, ?_⟩
          · exact ih.1
          · rw [cnt_cons, ih.2.1]; rfl
          · rw [cnt_cons, ih.2.2]; rfl
      have hT := hT (main :: tail)
      refine ⟨?_, ?_, ?_, ?_, ?_⟩
      · simp only [elemsAll, Xml.elems, List.append_nil]
        exact ⟨⟨fun h => (nomatch h), fun _ => rfl, fun h => (nomatch h), fun h => (nomatch h)⟩, hT.1⟩
      · simp only [elemsAll, Xml.elems, List.append_nil]
        rw [cnt_cons, hT.2.1]; rfl
      · simp only [elemsAll, Xml.elems, List.append_nil]
        rw [cnt_cons, hT.2.2]; rfl
      · intro e he
        simp only [List.mem_append, List.mem_singleton] at he
        rcases he with he | rfl
        · exact Nat.lt_succ_of_lt (hi.1 e he)
        · exact Nat.lt_succ_self _
      · exact hi.2
    · rename_i i hl
      simp only [Except.ok.injEq, Prod.mk.injEq] at h
      obtain ⟨rfl, rfl⟩ := h
      have := hi.1 _ (mem_of_lookup hl)
      refine ⟨?_, rfl, rfl, hi⟩
      simp only [elemsAll, Xml.elems, List.append_nil]
      exact ⟨⟨fun h => (nomatch h), fun h => (nomatch h), fun _ => ⟨i, this, rfl⟩, fun h => (nomatch h)⟩, trivial⟩

theorem wrote_tnOpt {types : List PyStr} {st st' : SerState} {xs : List Xml} (hi : TablesOk st)
    (h : createTnOpt types st = .ok (xs, st')) : Wrote st st' xs := by
  unfold createTnOpt at h
  split at h
  · simp only [Except.ok.injEq, Prod.mk.injEq] at h
    obtain ⟨rfl, rfl⟩ := h
    exact Wrote.nil hi
  · cases hc : createTn types st with
    | error e => rw [hc] at h; simp [bind, Except.bind] at h
    | ok r =>
      obtain ⟨x, st1⟩ := r
      rw [hc] at h
      simp only [bind, Except.bind, pure, Except.pure, Except.ok.injEq, Prod.mk.injEq] at h
      obtain ⟨rfl, rfl⟩ := h
      exact wrote_tn hi hc

theorem wrote_ref {st : SerState} {v : PyVal} {r : PyStr} (hi : TablesOk st) (h : refFor st v = some r) (n : Option PyStr) :
    Wrote st st [.node .Ref (some r) n none []] := by
  unfold refFor at h
  split at h
  · unfold findRef at h
    rw [Option.map_eq_some_iff] at h
    obtain ⟨e, he, rfl⟩ := h
    obtain ⟨i, hlt, hr⟩ := hi.2 e (List.mem_of_find?_eq_some he)
    refine ⟨?_, rfl, rfl, hi⟩
    simp only [elemsAll, Xml.elems, List.append_nil]
    exact ⟨⟨fun h => (nomatch h), fun h => (nomatch h), fun h => (nomatch h), fun _ => ⟨i, hlt, by rw [← hr]; rfl⟩⟩, trivial⟩
  · simp at h

theorem packable_tag {m : Meta} {s : Scalar} {t : PyStr} (h : packScalar m.tag s = .ok t) :
    m.tag ≠ .Obj ∧ m.tag ≠ .TN ∧ m.tag ≠ .TNRef ∧ m.tag ≠ .Ref := by
  generalize m.tag = g at h
  refine ⟨?_, ?_, ?_, ?_⟩ <;> (rintro rfl; simp [packScalar] at h)

theorem wrote_scalar {m : Meta} {s : Scalar} {st : SerState} {ox : Option Xml} (hi : TablesOk st)
    (h : serScalar m s = .ok ox) : Wrote st st (kidsOf ox) := by
  unfold serScalar at h
  split at h
  · simp at h
  · split at h
    · split at h
      · simp only [Except.ok.injEq] at h
        subst h
        exact Wrote.nil hi
      · simp only [Except.ok.injEq] at h
        subst h
        exact Wrote.leaf hi _ _ _ _ (by decide) (by decide) (by decide) (by decide)
    · split at h
      · simp at h
      obtain ⟨t, ht, h⟩ := except_bind_ok h
      simp only [pure, Except.pure, Except.ok.injEq] at h
      subst h
      obtain ⟨h1, h2, h3, h4⟩ := packable_tag ht
      exact Wrote.leaf hi _ _ _ _ h1 h2 h3 h4

theorem wrote_toString {st : SerState} (hi : TablesOk st) (o : Option PyStr) : Wrote st st (toStringKids o) := by
  cases o
  · exact Wrote.nil hi
  · exact Wrote.leaf hi _ _ _ _ (by decide) (by decide) (by decide) (by decide)

theorem tablesOk_obj {st : SerState} (hi : TablesOk st) : TablesOk (newObjId st).2 :=
  ⟨hi.1, fun e he => by
    obtain ⟨i, hlt, h⟩ := hi.2 e he
    exact ⟨i, Nat.lt_succ_of_lt hlt, h⟩⟩

theorem tablesOk_objs {st : SerState} (hi : TablesOk st) (oid : Nat) :
    TablesOk { (newObjId st).2 with objs := (newObjId st).2.objs ++ [((newObjId st).1, oid)] } := by
  refine ⟨hi.1, fun e he => ?_⟩
  simp only [List.mem_append, List.mem_singleton] at he
  rcases he with he | rfl
  · obtain ⟨i, hlt, h⟩ := hi.2 e he
    exact ⟨i, Nat.lt_succ_of_lt hlt, h⟩
  · exact ⟨st.objId, Nat.lt_succ_self _, rfl⟩

theorem wrote_group {a b : SerState} {p : Prop} [Decidable p] {t : Tag} {xs : List Xml} (h : Wrote a b xs) (h0 : p → xs = [])
    (h1 : t ≠ .Obj) (h2 : t ≠ .TN) (h3 : t ≠ .TNRef) (h4 : t ≠ .Ref) :
    Wrote a b (if p then [] else [.node t none none none xs]) := by
  split
  · rename_i hp
    rw [h0 hp] at h; exact h
  · exact h.wrap t _ _ _ h1 h2 h3 h4

theorem Wrote.tables {a b : SerState} {xs : List Xml} (h : Wrote a b xs) : TablesOk b := h.2.2.2

theorem bind_ok {α β : Type} {x : Except PyErr α} {f : α → Except PyErr β} {b : β} (h : (x >>= f) = .ok b) :
    ∃ a, x = .ok a ∧ f a = .ok b := except_bind_ok h

theorem pure_ok {α : Type} {a b : α} (h : (pure a : Except PyErr α) = .ok b) : a = b := by
  simpa [pure, Except.pure] using h

/-- What is to be shown of each value: whatever is written is numbered correctly. -/
def WritesOk (v : PyVal) : Prop :=
  ∀ m st ox st', ser m v st = .ok (ox, st') → TablesOk st → Wrote st st' (kidsOf ox)

theorem wrote_list {xs : List PyVal} (hx : ∀ v ∈ xs, WritesOk v) : ∀ e st ks st', serList e xs st = .ok (ks, st') →
    TablesOk st → Wrote st st' ks := by
  induction xs with
  | nil =>
    intro e st ks st' h hi
    simp only [serList, Except.ok.injEq, Prod.mk.injEq] at h
    obtain ⟨rfl, rfl⟩ := h
    exact Wrote.nil hi
  | cons v vs ih =>
    intro e st ks st' h hi
    rw [serList] at h
    obtain ⟨⟨x, st1⟩, h1, h⟩ := bind_ok h
    obtain ⟨⟨ks', st2⟩, h2, h⟩ := bind_ok h
    have h := pure_ok h
    simp only [Prod.mk.injEq] at h
    obtain ⟨rfl, rfl⟩ := h
    have w1 := hx v (by simp) _ _ _ _ h1 hi
    exact w1.append (ih (fun v hv => hx v (List.mem_cons_of_mem _ hv)) _ _ _ _ h2 w1.tables)

theorem wrote_queue {xs : List PyVal} (hx : ∀ v ∈ xs, WritesOk v) : ∀ e st ks st', serQueue e xs st = .ok (ks, st') →
    TablesOk st → Wrote st st' ks := by
  induction xs with
  | nil =>
    intro e st ks st' h hi
    simp only [serQueue, Except.ok.injEq, Prod.mk.injEq] at h
    obtain ⟨rfl, rfl⟩ := h
    exact Wrote.nil hi
  | cons v vs ih =>
    intro e st ks st' h hi
    rw [serQueue] at h
    obtain ⟨⟨x, st1⟩, h1, h⟩ := bind_ok h
    obtain ⟨⟨ks', st2⟩, h2, h⟩ := bind_ok h
    have h := pure_ok h
    simp only [Prod.mk.injEq] at h
    obtain ⟨rfl, rfl⟩ := h
    have w1 := hx v (by simp) _ _ _ _ h1 hi
    exact w1.append (ih (fun v hv => hx v (List.mem_cons_of_mem _ hv)) _ _ _ _ h2 w1.tables)

theorem wrote_stack {xs : List PyVal} (hx : ∀ v ∈ xs, WritesOk v) : ∀ e st ks st', serStack e xs st = .ok (ks, st') →
    TablesOk st → Wrote st st' ks := by
  induction xs with
  | nil =>
    intro e st ks st' h hi
    simp only [serStack, Except.ok.injEq, Prod.mk.injEq] at h
    obtain ⟨rfl, rfl⟩ := h
    exact Wrote.nil hi
  | cons v vs ih =>
    intro e st ks st' h hi
    rw [serStack] at h
    obtain ⟨⟨ks', st1⟩, h1, h⟩ := bind_ok h
    obtain ⟨⟨x, st2⟩, h2, h⟩ := bind_ok h
    have h := pure_ok h
    simp only [Prod.mk.injEq] at h
    obtain ⟨rfl, rfl⟩ := h
    have w1 := ih (fun v hv => hx v (List.mem_cons_of_mem _ hv)) _ _ _ _ h1 hi
    exact w1.append (hx v (by simp) _ _ _ _ h2 w1.tables)

theorem wrote_entries {es : List (PyVal × PyVal)} (hx : ∀ e ∈ es, WritesOk e.1 ∧ WritesOk e.2) : ∀ km vm st ks st',
    serEntries km vm es st = .ok (ks, st') → TablesOk st → Wrote st st' ks := by
  induction es with
  | nil =>
    intro km vm st ks st' h hi
    simp only [serEntries, Except.ok.injEq, Prod.mk.injEq] at h
    obtain ⟨rfl, rfl⟩ := h
    exact Wrote.nil hi
  | cons e es ih =>
    obtain ⟨k, v⟩ := e
    intro km vm st ks st' h hi
    rw [serEntries] at h
    obtain ⟨⟨x, st1⟩, h1, h⟩ := bind_ok h
    obtain ⟨⟨y, st2⟩, h2, h⟩ := bind_ok h
    obtain ⟨⟨ks', st3⟩, h3, h⟩ := bind_ok h
    have h := pure_ok h
    simp only [Prod.mk.injEq] at h
    obtain ⟨rfl, rfl⟩ := h
    have w1 := (hx (k, v) (by simp)).1 _ _ _ _ h1 hi
    have w2 := (hx (k, v) (by simp)).2 _ _ _ _ h2 w1.tables
    have w3 := ih (fun e he => hx e (List.mem_cons_of_mem _ he)) _ _ _ _ _ h3 w2.tables
    exact ((w1.append w2).wrap .En none none none (by decide) (by decide) (by decide) (by decide)).append w3

theorem wrote_sets {xs : List PyVal} (hx : ∀ v ∈ xs, WritesOk v) : ∀ st ks st', serSets xs st = .ok (ks, st') →
    TablesOk st → Wrote st st' ks := by
  induction xs with
  | nil =>
    intro st ks st' h hi
    simp only [serSets, Except.ok.injEq, Prod.mk.injEq] at h
    obtain ⟨rfl, rfl⟩ := h
    exact Wrote.nil hi
  | cons v vs ih =>
    intro st ks st' h hi
    rw [serSets] at h
    have : ∃ x st1, Wrote st st1 (kidsOf x) ∧ ∃ ks' , serSets vs st1 = .ok (ks', st') ∧ ks = kidsOf x ++ ks' := by
      split at h
      · rename_i r hr
        obtain ⟨⟨x, st1⟩, h1, h⟩ := bind_ok h
        simp only [Except.ok.injEq, Prod.mk.injEq] at h1
        obtain ⟨rfl, rfl⟩ := h1
        obtain ⟨⟨ks', st2⟩, h2, h⟩ := bind_ok h
        have h := pure_ok h
        simp only [Prod.mk.injEq] at h
        obtain ⟨rfl, rfl⟩ := h
        exact ⟨_, _, wrote_ref hi hr _, _, h2, rfl⟩
      · obtain ⟨⟨x, st1⟩, h1, h⟩ := bind_ok h
        obtain ⟨⟨ks', st2⟩, h2, h⟩ := bind_ok h
        have h := pure_ok h
        simp only [Prod.mk.injEq] at h
        obtain ⟨rfl, rfl⟩ := h
        exact ⟨_, _, hx v (by simp) _ _ _ _ h1 hi, _, h2, rfl⟩
    obtain ⟨x, st1, w1, ks', h2, rfl⟩ := this
    exact w1.append (ih (fun v hv => hx v (List.mem_cons_of_mem _ hv)) _ _ _ h2 w1.tables)

theorem wrote_named {xs : List (PyStr × PyVal)} (hx : ∀ v ∈ xs, WritesOk v.2) : ∀ st ks st', serNamed xs st = .ok (ks, st') →
    TablesOk st → Wrote st st' ks := by
  induction xs with
  | nil =>
    intro st ks st' h hi
    simp only [serNamed, Except.ok.injEq, Prod.mk.injEq] at h
    obtain ⟨rfl, rfl⟩ := h
    exact Wrote.nil hi
  | cons e vs ih =>
    obtain ⟨k, v⟩ := e
    intro st ks st' h hi
    rw [serNamed] at h
    have : ∃ x st1, Wrote st st1 (kidsOf x) ∧ ∃ ks' , serNamed vs st1 = .ok (ks', st') ∧ ks = kidsOf x ++ ks' := by
      split at h
      · rename_i r hr
        obtain ⟨⟨x, st1⟩, h1, h⟩ := bind_ok h
        simp only [Except.ok.injEq, Prod.mk.injEq] at h1
        obtain ⟨rfl, rfl⟩ := h1
        obtain ⟨⟨ks', st2⟩, h2, h⟩ := bind_ok h
        have h := pure_ok h
        simp only [Prod.mk.injEq] at h
        obtain ⟨rfl, rfl⟩ := h
        exact ⟨_, _, wrote_ref hi hr _, _, h2, rfl⟩
      · obtain ⟨⟨x, st1⟩, h1, h⟩ := bind_ok h
        obtain ⟨⟨ks', st2⟩, h2, h⟩ := bind_ok h
        have h := pure_ok h
        simp only [Prod.mk.injEq] at h
        obtain ⟨rfl, rfl⟩ := h
        exact ⟨_, _, hx (k, v) (by simp) _ _ _ _ h1 hi, _, h2, rfl⟩
    obtain ⟨x, st1, w1, ks', h2, rfl⟩ := this
    exact w1.append (ih (fun v hv => hx v (List.mem_cons_of_mem _ hv)) _ _ _ h2 w1.tables)

theorem wrote_props {xs : List (Meta × PyVal)} (hx : ∀ v ∈ xs, WritesOk v.2) : ∀ st ks st', serProps xs st = .ok (ks, st') →
    TablesOk st → Wrote st st' ks := by
  induction xs with
  | nil =>
    intro st ks st' h hi
    simp only [serProps, Except.ok.injEq, Prod.mk.injEq] at h
    obtain ⟨rfl, rfl⟩ := h
    exact Wrote.nil hi
  | cons e vs ih =>
    obtain ⟨k, v⟩ := e
    intro st ks st' h hi
    rw [serProps] at h
    have : ∃ x st1, Wrote st st1 (kidsOf x) ∧ ∃ ks' , serProps vs st1 = .ok (ks', st') ∧ ks = kidsOf x ++ ks' := by
      split at h
      · rename_i r hr
        obtain ⟨⟨x, st1⟩, h1, h⟩ := bind_ok h
        simp only [Except.ok.injEq, Prod.mk.injEq] at h1
        obtain ⟨rfl, rfl⟩ := h1
        obtain ⟨⟨ks', st2⟩, h2, h⟩ := bind_ok h
        have h := pure_ok h
        simp only [Prod.mk.injEq] at h
        obtain ⟨rfl, rfl⟩ := h
        exact ⟨_, _, wrote_ref hi hr _, _, h2, rfl⟩
      · obtain ⟨⟨x, st1⟩, h1, h⟩ := bind_ok h
        obtain ⟨⟨ks', st2⟩, h2, h⟩ := bind_ok h
        have h := pure_ok h
        simp only [Prod.mk.injEq] at h
        obtain ⟨rfl, rfl⟩ := h
        exact ⟨_, _, hx (k, v) (by simp) _ _ _ _ h1 hi, _, h2, rfl⟩
    obtain ⟨x, st1, w1, ks', h2, rfl⟩ := this
    exact w1.append (ih (fun v hv => hx v (List.mem_cons_of_mem _ hv)) _ _ _ h2 w1.tables)

theorem named_nil {xs : List (PyStr × PyVal)} {st st' : SerState} {ks : List Xml} (h : serNamed xs st = .ok (ks, st'))
    (h0 : xs = []) : ks = [] := by
  subst h0
  simp only [serNamed, Except.ok.injEq, Prod.mk.injEq] at h
  exact h.1.symm

theorem props_nil {xs : List (Meta × PyVal)} {st st' : SerState} {ks : List Xml} (h : serProps xs st = .ok (ks, st'))
    (h0 : xs = []) : ks = [] := by
  subst h0
  simp only [serProps, Except.ok.injEq, Prod.mk.injEq] at h
  exact h.1.symm

theorem writesOk (v : PyVal) : WritesOk v := by
  match v with
  | .sc s =>
    intro m st ox st' h hi
    rw [ser] at h
    obtain ⟨x, h1, h⟩ := bind_ok h
    have h := pure_ok h
    simp only [Prod.mk.injEq] at h
    obtain ⟨rfl, rfl⟩ := h
    exact wrote_scalar hi h1
  | .tagged t s =>
    intro m st ox st' h hi
    rw [ser] at h
    split at h
    · obtain ⟨x, h1, h⟩ := bind_ok h
      have h := pure_ok h
      simp only [Prod.mk.injEq] at h
      obtain ⟨rfl, rfl⟩ := h
      exact wrote_scalar hi h1
    · simp at h
  | .list xs =>
    have ih : ∀ v ∈ xs, WritesOk v := fun v _ => writesOk v
    intro m st ox st' h hi
    rw [ser] at h
    dsimp only at h
    split at h
    · rename_i htag
      obtain ⟨⟨tn, st1⟩, h1, h⟩ := bind_ok h
      obtain ⟨⟨ks, st2⟩, h2, h⟩ := bind_ok h
      have h := pure_ok h
      simp only [Prod.mk.injEq] at h
      obtain ⟨rfl, rfl⟩ := h
      have w1 := wrote_tn (tablesOk_obj hi) h1
      have w2 := wrote_list ih _ _ _ _ h2 w1.tables
      refine Wrote.obj (w1.append (w2.wrap _ _ _ _ ?_ ?_ ?_ ?_)) _
      all_goals rcases htag with h | h <;> rw [h] <;> decide
    · split at h
      · split at h
        · obtain ⟨⟨tn, st1⟩, h1, h⟩ := bind_ok h
          obtain ⟨⟨ks, st2⟩, h2, h⟩ := bind_ok h
          have h := pure_ok h
          simp only [Prod.mk.injEq] at h
          obtain ⟨rfl, rfl⟩ := h
          have w1 := wrote_tn (tablesOk_obj hi) h1
          have w2 := wrote_stack ih _ _ _ _ h2 w1.tables
          exact Wrote.obj (w1.append (w2.wrap _ _ _ _ (by decide) (by decide) (by decide) (by decide))) _
        · simp at h
      · simp at h
  | .queue xs =>
    have ih : ∀ v ∈ xs, WritesOk v := fun v _ => writesOk v
    intro m st ox st' h hi
    rw [ser] at h
    dsimp only at h
    split at h
    · obtain ⟨⟨tn, st1⟩, h1, h⟩ := bind_ok h
      obtain ⟨⟨ks, st2⟩, h2, h⟩ := bind_ok h
      have h := pure_ok h
      simp only [Prod.mk.injEq] at h
      obtain ⟨rfl, rfl⟩ := h
      have w1 := wrote_tn (tablesOk_obj hi) h1
      have w2 := wrote_queue ih _ _ _ _ h2 w1.tables
      exact Wrote.obj (w1.append (w2.wrap _ _ _ _ (by decide) (by decide) (by decide) (by decide))) _
    · simp at h
  | .dict es =>
    have ih : ∀ e ∈ es, WritesOk e.1 ∧ WritesOk e.2 := fun e he =>
      have h1 := List.sizeOf_lt_of_mem he
      have h2 : sizeOf e = 1 + sizeOf e.1 + sizeOf e.2 := by cases e; rfl
      ⟨writesOk e.1, writesOk e.2⟩
    intro m st ox st' h hi
    rw [ser] at h
    dsimp only at h
    split at h
    · obtain ⟨⟨tn, st1⟩, h1, h⟩ := bind_ok h
      obtain ⟨⟨ks, st2⟩, h2, h⟩ := bind_ok h
      have h := pure_ok h
      simp only [Prod.mk.injEq] at h
      obtain ⟨rfl, rfl⟩ := h
      have w1 := wrote_tn (tablesOk_obj hi) h1
      have w2 := wrote_entries ih _ _ _ _ _ h2 w1.tables
      exact Wrote.obj (w1.append (w2.wrap _ _ _ _ (by decide) (by decide) (by decide) (by decide))) _
    · simp at h
  | .generic oid types toStr sets ext adp =>
    have ih1 : ∀ v ∈ sets, WritesOk v := fun v _ => writesOk v
    have ih2 : ∀ e ∈ ext, WritesOk e.2 := fun e he =>
      have h1 := List.sizeOf_lt_of_mem he
      have h2 : sizeOf e = 1 + sizeOf e.1 + sizeOf e.2 := by cases e; rfl
      writesOk e.2
    have ih3 : ∀ e ∈ adp, WritesOk e.2 := fun e he =>
      have h1 := List.sizeOf_lt_of_mem he
      have h2 : sizeOf e = 1 + sizeOf e.1 + sizeOf e.2 := by cases e; rfl
      writesOk e.2
    intro m st ox st' h hi
    rw [ser] at h
    dsimp only at h
    split at h
    · obtain ⟨⟨tn, st1⟩, h1, h⟩ := bind_ok h
      obtain ⟨⟨ks, st2⟩, h2, h⟩ := bind_ok h
      obtain ⟨⟨es, st3⟩, h3, h⟩ := bind_ok h
      obtain ⟨⟨as, st4⟩, h4, h⟩ := bind_ok h
      have h := pure_ok h
      simp only [Prod.mk.injEq] at h
      obtain ⟨rfl, rfl⟩ := h
      have w1 := wrote_tnOpt (tablesOk_objs hi oid) h1
      have w2 := wrote_sets ih1 _ _ _ h2 w1.tables
      have w3 := wrote_named ih2 _ _ _ h3 w2.tables
      have w4 := wrote_named ih3 _ _ _ h4 w3.tables
      have g3 : Wrote st2 st3 (if ext = [] then [] else [.node .MS none none none es]) :=
        wrote_group w3 (named_nil h3) (by decide) (by decide) (by decide) (by decide)
      have g4 : Wrote st3 st4 (if adp = [] then [] else [.node .Props none none none as]) :=
        wrote_group w4 (named_nil h4) (by decide) (by decide) (by decide) (by decide)
      have w := ((((w1.append (wrote_toString w1.tables toStr)).append w2).append g3).append g4)
      exact Wrote.obj (a := st) w _
    · split at h
      · simp only [Except.ok.injEq, Prod.mk.injEq] at h
        obtain ⟨rfl, rfl⟩ := h
        exact Wrote.obj (a := st) (Wrote.nil (tablesOk_obj hi)) _
      · simp at h
  | .typed oid types toStr sets ext adp =>
    have ih1 : ∀ e ∈ sets, WritesOk e.2 := fun e he =>
      have h1 := List.sizeOf_lt_of_mem he
      have h2 : sizeOf e = 1 + sizeOf e.1 + sizeOf e.2 := by cases e; rfl
      writesOk e.2
    have ih2 : ∀ e ∈ ext, WritesOk e.2 := fun e he =>
      have h1 := List.sizeOf_lt_of_mem he
      have h2 : sizeOf e = 1 + sizeOf e.1 + sizeOf e.2 := by cases e; rfl
      writesOk e.2
    have ih3 : ∀ e ∈ adp, WritesOk e.2 := fun e he =>
      have h1 := List.sizeOf_lt_of_mem he
      have h2 : sizeOf e = 1 + sizeOf e.1 + sizeOf e.2 := by cases e; rfl
      writesOk e.2
    intro m st ox st' h hi
    rw [ser] at h
    dsimp only at h
    split at h
    · obtain ⟨⟨tn, st1⟩, h1, h⟩ := bind_ok h
      obtain ⟨⟨ks, st2⟩, h2, h⟩ := bind_ok h
      obtain ⟨⟨es, st3⟩, h3, h⟩ := bind_ok h
      obtain ⟨⟨as, st4⟩, h4, h⟩ := bind_ok h
      have h := pure_ok h
      simp only [Prod.mk.injEq] at h
      obtain ⟨rfl, rfl⟩ := h
      have w1 := wrote_tnOpt (tablesOk_obj hi) h1
      have w2 := wrote_props ih1 _ _ _ h2 w1.tables
      have w3 := wrote_props ih2 _ _ _ h3 w2.tables
      have w4 := wrote_props ih3 _ _ _ h4 w3.tables
      have g3 : Wrote st2 st3 (if ext = [] then [] else [.node .MS none none none es]) :=
        wrote_group w3 (props_nil h3) (by decide) (by decide) (by decide) (by decide)
      have g4 : Wrote st3 st4 (if adp = [] then [] else [.node .Props none none none as]) :=
        wrote_group w4 (props_nil h4) (by decide) (by decide) (by decide) (by decide)
      have w := ((((w1.append (wrote_toString w1.tables toStr)).append w2).append g3).append g4)
      exact Wrote.obj (a := st) w _
    · split at h <;> simp at h
  | .raw x =>
    intro m st ox st' h hi
    simp [ser] at h
termination_by sizeOf v
decreasing_by
  all_goals first
    | (have := List.sizeOf_lt_of_mem ‹_ ∈ _›; simp; omega)
    | (simp; omega)

end Verif
