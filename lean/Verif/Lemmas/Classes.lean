import Verif.Lemmas.SerializerNest
/-
Lemmas about reading typed objects.
-/
namespace Verif

theorem deLook_none (t : Tag) (n : Option PyStr) (m : DMeta) (kids : List Xml) (st : DeState) :
    deLook none t n m kids st = (kids.find? (fieldMatch t n)).map (fun x => deser m x st) := by
  induction kids with
  | nil => simp [deLook]
  | cons x xs ih =>
    cases x with | node tg r nm tx ks =>
    rw [deLook, List.find?_cons]
    by_cases h : fieldMatch t n (.node tg r nm tx ks) = true
    · simp [h]
    · simp [h, ih]

/-- What `deLook` does: the first element on the path, deserialized. -/
theorem deLook_eq (inside : Option Tag) (t : Tag) (n : Option PyStr) (m : DMeta) (kids : List Xml) (st : DeState) :
    deLook inside t n m kids st = (findField inside t n kids).map (fun x => deser m x st) := by
  cases inside with
  | none => exact deLook_none t n m kids st
  | some g =>
    unfold findField
    dsimp only
    induction kids with
    | nil => simp [deLook]
    | cons x xs ih =>
      cases x with | node tg r nm tx ks =>
      rw [deLook]
      simp only [List.flatMap_cons, tag_node, kids_node, List.find?_append]
      by_cases h : tg = g
      · simp only [h, if_true, deLook_none]
        cases hf : ks.find? (fieldMatch t n) with
        | none => simpa using ih
        | some y => simp
      · simpa [h] using ih

/-- The first element for a field in a group of elements, in the order of the tags. -/
def fieldElem (inside : Option Tag) (f : Field) (kids : List Xml) : Option Xml :=
  (fieldTags f.write.tag).findSome? (fun t => findField inside t f.write.name kids)

/-- `readProp` in terms of the element that is found. -/
theorem readProp_eq (c : ClassDef) (f : Field) (inside : Option Tag) (kids : List Xml) (st : DeState) :
    readProp c f (fun t st => deLook inside t f.write.name f.read kids st) (fun t => findField inside t f.write.name kids) st =
      match fieldElem inside f kids with
      | some x => (deser f.read x st).map (fun r => ((f.write.readWith x, r.1), r.2))
      | none =>
        if f.write.optional then .ok ((f.write, .sc .none), st)
        else if (findField inside .Nil f.write.name kids).isSome then .ok ((f.write, .sc .none), st)
        else .error (missingField c) := by
  unfold readProp fieldElem
  simp only [deLook_eq, Option.isSome_map]
  generalize fieldTags f.write.tag = ts
  induction ts with
  | nil =>
    simp only [List.find?_nil, List.findSome?_nil]
    split
    · rfl
    · split
      · rename_i h; simp [h]
      · rename_i h; simp [h]
  | cons t ts ih =>
    rw [List.find?_cons, List.findSome?_cons]
    cases hf : findField inside t f.write.name kids with
    | none => simpa using ih
    | some x =>
      simp only [Option.isSome_some, hf, Option.map_some]
      cases deser f.read x st with
      | ok r => rfl
      | error e => rfl

end Verif
