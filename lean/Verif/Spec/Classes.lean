import Verif.Spec.Serializer
/-
What it means for the attributes of an object to be of the kind its class declares, and for two objects to have the same
attributes.
-/
namespace Verif

/-- Scalars that a property with the tag can hold: text for the string tags, one character for C, truth values, integers of any
size, non-empty bytes, GUIDs, and non-empty XML text for the tags that are not decoded. DateTimes (DT), floats (Sg, Db) and secure
strings (SS) are not covered. -/
def TagFits (t : Tag) (s : Scalar) : Prop :=
  match s with
  | .str s =>
    (t ∈ [Tag.S, .URI, .XD, .SBK] ∧ PlainScalar (.str s)) ∨ (t = .C ∧ s.length = 1) ∨
      (t ∈ [Tag.Version, .TS, .D] ∧ s ≠ [] ∧ ∀ c ∈ s, XmlSafe c)
  | .bool _ => t = .B
  | .int _ => t ∈ [Tag.By, .SB, .U16, .I16, .U32, .I32, .U64, .I64]
  | .bytes b => t = .BA ∧ b ≠ []
  | .guid _ => t = .G
  | .none => False

/-- The declared properties, with some values. -/
def Declared (fs : List Field) (vs : List (Meta × PyVal)) : Prop := vs.map Prod.fst = fs.map Field.write

/-- The number in an Enum. -/
def numberIn : List (Meta × PyVal) → Option Int
  | (_, .sc (.int i)) :: _ => some i
  | _ => none

/-- The text that belongs to an object: a fixed one, or the name of the number in it (flags are not
negative). -/
def TextFits (k : TextKind) (sets : List (Meta × PyVal)) (text : Option PyStr) : Prop :=
  match k with
  | .attr d => text = d
  | .enum m => text = m.lookup ((numberIn sets).getD 0) ∧ text.isSome
  | .flags f => text = some (f ((numberIn sets).map Int.toNat)) ∧ ∀ i, numberIn sets = some i → 0 ≤ i

/-- Two properties that cannot be confused: different names, or a missing name for an optional object beside a primitive. -/
def apart (f g : Field) : Bool :=
  (f.write.name.isSome && f.write.name != g.write.name) ||
    (f.write.name.isNone && f.write.optional && f.write.tag == .Obj &&
      g.write.tag ∈ [Tag.S, .C, .B, .By, .SB, .U16, .I16, .U32, .I32, .U64, .I64, .BA, .G, .URI, .Version, .TS, .D])

/-- Any two of the properties are apart. -/
def allApart : List Field → Bool
  | [] => true
  | f :: fs => fs.all (fun g => apart f g && apart g f) && allApart fs

/-- Classes whose objects can be told apart by their properties: none of them read-only, no two with one name, and either one
number, extended properties or adapted properties. -/
def ClassDef.readable (c : ClassDef) : Bool :=
  c.readOnly.isEmpty && allApart c.extended && allApart c.adapted &&
    (if c.sets.isEmpty then c.extended.isEmpty || c.adapted.isEmpty
      else c.sets == [⟨"value".toList, .plain .I32 none false, .plain .I32⟩] && c.extended.isEmpty && c.adapted.isEmpty)

/-- Values of the kind that a property declares, possibly None. -/
inductive Fits : Meta → DMeta → PyVal → Prop
  | none {m : Meta} {r : DMeta} : Fits m r (.sc .none)
  | scalar {t : Tag} {n : Option PyStr} {o : Bool} {s : Scalar} (h : TagFits t s) : Fits (.plain t n o) (.plain t) (.sc s)
  | any {n : Option PyStr} {o : Bool} {v : PyVal} (h : PlainValue v) : Fits (.plain .star n o) (.plain .star) v
  | list {t : Tag} {n : Option PyStr} {o : Bool} {ts : List PyStr} {xs : List PyVal}
      (h : ∀ x ∈ xs, ∃ s, x = .sc s ∧ (s = .none ∨ TagFits t s)) :
      Fits (.list .lst .LST n o (.plain t none false) ts) (.list (.plain t)) (.list xs)
  | anyList {n : Option PyStr} {o : Bool} {ts : List PyStr} {xs : List PyVal} (h : ∀ x ∈ xs, PlainValue x) :
      Fits (.list .lst .LST n o (.plain .star none false) ts) (.list (.plain .star)) (.list xs)
  | dict {n : Option PyStr} {o : Bool} {ts : List PyStr} {es : List (PyVal × PyVal)} (h : PlainValue (.dict es)) :
      Fits (.dict .DCT n o (.plain .star (some "Key".toList) false) (.plain .star (some "Value".toList) false) ts) .dict (.dict es)
  | obj {t : Tag} {n : Option PyStr} {o : Bool} {name : PyStr} {c : ClassDef} {oid : Nat} {text : Option PyStr}
      {sets ext adp : List (Meta × PyVal)} (ht : t = .Obj ∨ t = .star) (hc : findClass name = some c) (hr : c.readable = true)
      (hs : Declared c.sets sets) (he : Declared c.extended ext) (ha : Declared c.adapted adp) (hx : TextFits c.text sets text)
      (fs : ∀ p ∈ c.sets.zip sets, Fits p.1.write p.1.read p.2.2) (fe : ∀ p ∈ c.extended.zip ext, Fits p.1.write p.1.read p.2.2)
      (fa : ∀ p ∈ c.adapted.zip adp, Fits p.1.write p.1.read p.2.2) :
      Fits (.plain t n o) (.cls name) (.typed oid c.types text sets ext adp)

mutual
/-- The attributes of an object, without its identity and the bookkeeping in its metadata. -/
def PyVal.forget : PyVal → PyVal
  | .typed _ ts tx s e a => .typed 0 ts tx (forgetAll s) (forgetAll e) (forgetAll a)
  | .sc s => .sc s
  | .tagged t s => .tagged t s
  | .list xs => .list xs
  | .dict es => .dict es
  | .queue xs => .queue xs
  | .generic o ts tx s e a => .generic o ts tx s e a
  | .raw x => .raw x
def forgetAll : List (Meta × PyVal) → List (Meta × PyVal)
  | [] => []
  | (_, v) :: r => (.star, v.forget) :: forgetAll r
end

/-- An attribute of an object of a class. -/
def attrOf (c : ClassDef) (v : PyVal) (attr : PyStr) : Option PyVal :=
  match v with
  | .typed _ _ _ s e a => ((((c.sets.zip s) ++ (c.extended.zip e) ++ (c.adapted.zip a)).map
      (fun p => (p.1.attr, p.2.2))).lookup attr)
  | _ => none

/-- The elements among which a property of an object is looked for: all children, or those of the children with a tag. -/
def membersIn (inside : Option Tag) (kids : List Xml) : List Xml :=
  match inside with
  | none => kids
  | some g => (kids.filter (fun k => k.tag = g)).flatMap Xml.kids

/-- An element with the name and one of the tags; "*" stands for any tag. -/
def IsFor (tags : List Tag) (name : Option PyStr) (x : Xml) : Prop :=
  (.star ∈ tags ∨ x.tag ∈ tags) ∧ (name = none ∨ x.name = name)

/-- The tags of elements that carry a property: containers and generic objects are written as Obj or Ref. -/
def carriers (t : Tag) : List Tag :=
  match t with
  | .DCT | .LST | .IE | .QUE | .STK | .ObjDynamic => [.Obj, .Ref]
  | t => [t]

/-- The element that a property is read from: no earlier one is for it, except that an Obj is preferred to a Ref. -/
def FirstFor (tags : List Tag) (name : Option PyStr) (es : List Xml) (x : Xml) : Prop :=
  ∃ pre post, es = pre ++ x :: post ∧ IsFor tags name x ∧ ∀ y ∈ pre, IsFor tags name y → x.tag = .Obj ∧ y.tag = .Ref

end Verif
