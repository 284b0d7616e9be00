import Verif.Spec.Layout
import Verif.Lemmas.XmlEq
/-
The table of the model and that of `Spec.Layout` are the same.
-/
namespace Verif

/-- Tags of elements with text only. -/
def leafTag (t : Tag) : Bool := t ∉ [Tag.star, .Obj, .ObjDynamic, .LST, .IE, .QUE, .STK, .DCT]

/-- The metadata of an element inside a list or dictionary. -/
def innerMeta (t : Option Tag) (n : Option PyStr) : Meta := .plain (t.getD .star) n false

def innerFine (t : Option Tag) : Bool := match t with | none => true | some t => leafTag t || t == .Obj

def EntryDoc.meta (e : EntryDoc) : Meta := innerMeta e.tag (e.name.map String.toList)

/-- The metadata of a property. -/
def PropDoc.meta (p : PropDoc) : Meta :=
  match p.holds with
  | .value t => .plain t (p.name.map String.toList) p.optional
  | .object => .plain .Obj (p.name.map String.toList) p.optional
  | .dynamic => .plain .ObjDynamic (p.name.map String.toList) p.optional
  | .any => .plain .star (p.name.map String.toList) p.optional
  | .list e ts => .list .lst .LST (p.name.map String.toList) p.optional (innerMeta e none) (ts.map String.toList)
  | .dict k v ts => .dict .DCT (p.name.map String.toList) p.optional k.meta v.meta (ts.map String.toList)

def Holds.fine : Holds → Bool
  | .value t => leafTag t
  | .object | .dynamic | .any => true
  | .list e _ => innerFine e
  | .dict k v _ => innerFine k.tag && innerFine v.tag

/-- What is compared of a class. -/
def ClassDef.shape (c : ClassDef) : List PyStr × List (PyStr × Meta) × List (PyStr × Meta) × List (PyStr × Meta) × Bool × Option PyStr × List (Int × PyStr) :=
  (c.types, c.extended.map (fun f => (f.attr, f.write)), c.adapted.map (fun f => (f.attr, f.write)), c.sets.map (fun f => (f.attr, f.write)),
    match c.text with
    | .attr d => (false, d, [])
    | .enum m => (true, none, m)
    | .flags _ => (true, none, []))

def Layout.shape (l : Layout) : List PyStr × List (PyStr × Meta) × List (PyStr × Meta) × List (PyStr × Meta) × Bool × Option PyStr × List (Int × PyStr) :=
  (l.types.map String.toList, l.extended.map (fun p => (p.attr.toList, p.meta)), l.adapted.map (fun p => (p.attr.toList, p.meta)),
    (if l.number then [valueProp] else []).map (fun p => (p.attr.toList, p.meta)), l.number, l.text.map String.toList, l.texts.map fun e => (e.1, e.2.toList))

set_option maxRecDepth 100000 in
theorem same_shapes : classes.map (fun e => (e.1, e.2.shape)) = layouts.map fun e => (e.1, e.2.shape) := by
  unfold classes layouts
  simp only [List.map_cons, List.map_nil]
  rfl

/-- The tags of the table are among those that the lemmas are about. -/
theorem table_fine : layouts.all (fun e => (e.2.extended ++ e.2.adapted).all fun p => p.holds.fine) = true := by decide +kernel

/-- Texts that need no escapes. -/
theorem table_plain : layouts.all (fun e => (e.2.texts.map (·.2) ++ e.2.text.toList).all fun t => serializeString t.toList == t.toList) = true := by
  decide +kernel

end Verif
