import Verif.Model.Strings
import Verif.Model.Base64
import Verif.Model.Message
/-
The CLIXML serializer on XML trees (src/pypsrp/serializer.py 55-170, 371-611, 805-878; metadata classes in
src/pypsrp/complex_objects.py 10-95).

A document is a tree of elements with the two attributes that are used, RefId and N. Its text is in `Model/Wire`; the one thing
that printing and parsing change is that an empty text becomes no text (`Xml.reparse`, shown by C84).
-/
namespace Verif

/-- Element and metadata tags. `star` is the "*" of an ObjectMeta without tag, `other` any tag outside the tables. -/
inductive Tag where
  | star | S | ToString | C | B | DT | TS | By | SB | U16 | I16 | U32 | I32 | U64 | I64 | Sg | Db | D | BA | G | URI
  | Version | XD | SBK | SS | Obj | ObjDynamic | LST | IE | QUE | STK | DCT | Nil | Ref | En | TN | T | TNRef | MS | Props
  | other (s : PyStr)
  deriving DecidableEq, Repr

/-- An XML element. -/
inductive Xml where
  | node (tag : Tag) (refId name text : Option PyStr) (kids : List Xml)

def Xml.tag : Xml → Tag | .node t _ _ _ _ => t
def Xml.refId : Xml → Option PyStr | .node _ r _ _ _ => r
def Xml.name : Xml → Option PyStr | .node _ _ n _ _ => n
def Xml.text : Xml → Option PyStr | .node _ _ _ t _ => t
def Xml.kids : Xml → List Xml | .node _ _ _ _ ks => ks

/-- `element.attrib["N"] = name`. -/
def Xml.setName (name : Option PyStr) : Xml → Xml
  | .node t r n x ks => .node t r (match name with | some _ => name | none => n) x ks

/-- Values that are written as one element with text. -/
inductive Scalar where
  | none
  | bool (b : Bool)
  | int (i : Int)
  | str (s : PyStr)
  | bytes (b : Bytes)
  | guid (u : UUID)
  deriving DecidableEq

/-- complex_objects.py 10-95: `ObjectMeta`, `ListMeta`/`QueueMeta`/`StackMeta` (told apart by `kind`) and
`DictionaryMeta`. The `object` slot of ObjectMeta is not used when serializing. -/
inductive ListKind where
  | lst | que | stk
  deriving DecidableEq, Repr

inductive Meta where
  | plain (tag : Tag) (name : Option PyStr) (optional : Bool)
  | list (kind : ListKind) (tag : Tag) (name : Option PyStr) (optional : Bool) (elem : Meta) (types : List PyStr)
  | dict (tag : Tag) (name : Option PyStr) (optional : Bool) (key value : Meta) (types : List PyStr)
  deriving DecidableEq

/-- complex_objects.py 12-17 `ObjectMeta()`. -/
def Meta.star : Meta := .plain .star none false

def Meta.tag : Meta → Tag
  | .plain t _ _ => t
  | .list _ t _ _ _ _ => t
  | .dict t _ _ _ _ _ => t

def Meta.name : Meta → Option PyStr
  | .plain _ n _ => n
  | .list _ _ n _ _ _ => n
  | .dict _ n _ _ _ _ => n

def Meta.optional : Meta → Bool
  | .plain _ _ o => o
  | .list _ _ _ o _ _ => o
  | .dict _ _ o _ _ _ => o

def Meta.setTag (t : Tag) : Meta → Meta
  | .plain _ n o => .plain t n o
  | .list k _ n o e ts => .list k t n o e ts
  | .dict _ n o k v ts => .dict t n o k v ts

/-- complex_objects.py 41 default `list_types`. -/
def listTypes : List PyStr := ["System.Object[]".toList, "System.Array".toList, "System.Object".toList]
/-- complex_objects.py 55. -/
def stackTypes : List PyStr := ["System.Collections.Stack".toList, "System.Object".toList]
/-- complex_objects.py 68. -/
def queueTypes : List PyStr := ["System.Collections.Queue".toList, "System.Object".toList]
/-- complex_objects.py 93. -/
def dictTypes : List PyStr := ["System.Collections.Hashtable".toList, "System.Object".toList]

/-- Python values. `generic` is a GenericComplexObject, `typed` any other ComplexObject with its property metadata;
`oid` is the object's identity (no class of the library defines `__eq__`, so `==` on objects is identity). Properties of
a generic object are listed in key order (serializer.py 463 sorts them). `tagged` is a TaggedValue around a scalar. `raw`
is the text of an element that `deserialize` did not understand. A list under a stack's metadata is a stack. -/
inductive PyVal where
  | sc (s : Scalar)
  | tagged (t : Tag) (s : Scalar)
  | list (xs : List PyVal)
  | dict (es : List (PyVal × PyVal))
  | queue (xs : List PyVal)
  | generic (oid : Nat) (types : List PyStr) (toStr : Option PyStr) (sets : List PyVal)
      (extended adapted : List (PyStr × PyVal))
  | typed (oid : Nat) (types : List PyStr) (toStr : Option PyStr) (sets extended adapted : List (Meta × PyVal))
  | raw (x : Xml)

/-- serializer.py 56-60: counters and tables while serializing; `tn` maps the main type to its id, `objs` maps RefIds
to the identity of the generic objects written so far. -/
structure SerState where
  objId : Nat
  objs : List (PyStr × Nat)
  tnId : Nat
  tn : List (PyStr × Nat)
  deriving DecidableEq

/-- serializer.py 805-809 `_clear`. -/
def SerState.clear : SerState := ⟨0, [], 0, []⟩

/-- serializer.py 371-407 `_get_tag_from_value`. None is a value of another type, so "S". -/
def scalarTag : Scalar → Tag
  | .none => .S
  | .bool _ => .B
  | .int _ => .I32
  | .str _ => .S
  | .bytes _ => .BA
  | .guid _ => .G

/-- serializer.py 105-109, 371-407: the tag of a value. -/
def naturalTag : PyVal → Tag
  | .sc s => scalarTag s
  | .tagged t _ => t
  | .list _ => .LST
  | .dict _ => .DCT
  | .queue _ => .QUE
  | .generic .. => .ObjDynamic
  | .typed .. => .Obj
  | .raw _ => .S

/-- serializer.py 104-109: `metadata.tag` is assigned when it is "*", and keeps that value afterwards. -/
def Meta.settle (m : Meta) (v : PyVal) : Meta := if m.tag = .star then m.setTag (naturalTag v) else m

/-- A lower case hexadecimal digit. -/
def hexDigitLower (n : Nat) : Char := if n < 10 then Char.ofNat (48 + n) else Char.ofNat (87 + n)

/-- The two hexadecimal digits of a byte. -/
def hexByte (b : UInt8) : PyStr := [hexDigitLower (b.toNat / 16), hexDigitLower (b.toNat % 16)]

/-- `str(uuid)`: 8-4-4-4-12 lower case hexadecimal digits. -/
def UUID.toStr (u : UUID) : PyStr :=
  let h := u.bytes.flatMap hexByte
  h.take 8 ++ '-' :: (h.drop 8).take 4 ++ '-' :: (h.drop 12).take 4 ++ '-' :: (h.drop 16).take 4 ++ '-' :: h.drop 20

/-- `str(v)`; for bytes it is their repr, which is not modelled. -/
def pyStrScalar : Scalar → Except PyErr PyStr
  | .none => .ok "None".toList
  | .bool true => .ok "True".toList
  | .bool false => .ok "False".toList
  | .int i => .ok (pyStrInt i)
  | .str s => .ok s
  | .bytes _ => .error .notModelled
  | .guid u => .ok u.toStr

/-- serializer.py 564-588 `_serialize_string` with `to_unicode` (581): bytes would be decoded as UTF-8 (not modelled),
other types have no `decode`. -/
def serializeStringOf : Scalar → Except PyErr PyStr
  | .str s => .ok (serializeString s)
  | .bytes _ => .error .notModelled
  | _ => .error .attributeError

/-- serializer.py 111-144, the entries that produce text, for a value that is not None. Secure strings are modelled in
`Model.SecureString`. -/
def packScalar (t : Tag) (s : Scalar) : Except PyErr PyStr :=
  match t with
  | .S | .URI | .XD | .SBK => serializeStringOf s
  | .ToString => .error .typeError
  | .C => match s with
    | .str [c] => .ok (pyStrNat c.toNat)
    | .bytes [b] => .ok (pyStrNat b.toNat)
    | _ => .error .typeError
  | .B => match s with
    | .bool true => .ok "true".toList
    | .bool false => .ok "false".toList
    | .int i => .ok (pyStrInt i)
    | .guid u => .ok u.toStr
    | _ => .error .notModelled
  | .TS | .By | .SB | .U16 | .I16 | .U32 | .I32 | .U64 | .I64 | .Sg | .Db | .D | .G | .Version => pyStrScalar s
  | .BA => match s with
    | .bytes b => .ok (b64Encode b)
    | _ => .error .typeError
  | _ => .error .notModelled

/-- Whether the tag is a key of the table at serializer.py 111-144 (otherwise KeyError). -/
def packable : Tag → Bool
  | .star | .Nil | .Ref | .En | .TN | .T | .TNRef | .MS | .Props | .other _ => false
  | _ => true

/-- serializer.py 148-166 for scalars: `none` when an optional value is None. Tag DT packs to None, so naming the element
raises; without a name, appending it raises, or None is returned (both not modelled). -/
def serScalar (m : Meta) (s : Scalar) : Except PyErr (Option Xml) :=
  if packable m.tag = false then .error .keyError
  else match s with
    | .none => if m.optional then .ok none else .ok (some (.node .Nil none m.name none []))
    | s => if m.tag = .DT ∧ m.name.isSome then .error .attributeError else do
      let t ← packScalar m.tag s
      return some (.node m.tag none m.name (some t) [])

/-- serializer.py 811-814 `_get_obj_id`. -/
def newObjId (st : SerState) : PyStr × SerState := (pyStrNat st.objId, { st with objId := st.objId + 1 })

/-- serializer.py 833-849 `_create_tn`. The table is keyed on the first type only; `types[0]` raises IndexError on an
empty list. -/
def createTn (types : List PyStr) (st : SerState) : Except PyErr (Xml × SerState) :=
  match types with
  | [] => .error .indexError
  | main :: _ =>
    match st.tn.lookup main with
    | none =>
      .ok (.node .TN (some (pyStrNat st.tnId)) none none (types.map (fun t => .node .T none none (some t) [])),
        { st with tnId := st.tnId + 1, tn := st.tn ++ [(main, st.tnId)] })
    | some i => .ok (.node .TNRef (some (pyStrNat i)) none none [], st)

/-- serializer.py 416-417, 448-449: type names only if there are any. -/
def createTnOpt (types : List PyStr) (st : SerState) : Except PyErr (List Xml × SerState) :=
  match types with
  | [] => .ok ([], st)
  | _ => do
    let (x, st) ← createTn types st
    return ([x], st)

/-- serializer.py 421, 452. -/
def toStringKids : Option PyStr → List Xml
  | none => []
  | some s => [.node .ToString none none (some (serializeString s)) []]

/-- serializer.py 525-527, 479-481: the metadata of the elements and the type names for a list or queue. For a
DictionaryMeta with tag LST the list metadata is made up as for a plain one. -/
def listElem : Meta → Meta
  | .list _ _ _ _ e _ => e
  | _ => .star
def listTypesOf : Meta → List PyStr
  | .list _ _ _ _ _ ts => ts
  | _ => listTypes
/-- serializer.py 479-480: a metadata that is not a QueueMeta is replaced. -/
def queueElem : Meta → Meta
  | .list .que _ _ _ e _ => e
  | _ => .star
def queueTypesOf : Meta → List PyStr
  | .list .que _ _ _ _ ts => ts
  | _ => queueTypes
/-- serializer.py 542-544. -/
def dictKey : Meta → Meta
  | .dict _ _ _ k _ _ => k
  | _ => .plain .star (some "Key".toList) false
def dictValue : Meta → Meta
  | .dict _ _ _ _ v _ => v
  | _ => .plain .star (some "Value".toList) false
def dictTypesOf : Meta → List PyStr
  | .dict _ _ _ _ _ ts => ts
  | _ => dictTypes

/-- serializer.py 858-864: the RefId under which an object has been written. -/
def findRef (st : SerState) (oid : Nat) : Option PyStr := (st.objs.find? (fun e => e.2 == oid)).map (·.1)

/-- The identity of a ComplexObject. -/
def PyVal.oid? : PyVal → Option Nat
  | .generic o _ _ _ _ _ => some o
  | .typed o _ _ _ _ _ => some o
  | _ => none

/-- serializer.py 858-864: the RefId to refer to instead of writing the object again. -/
def refFor (st : SerState) (v : PyVal) : Option PyStr :=
  match v.oid? with
  | some o => findRef st o
  | none => none

/-- One element or nothing as a list of children. -/
def kidsOf : Option Xml → List Xml
  | none => []
  | some x => [x]

mutual
/-- serializer.py 72-166 `serialize` with clear=False, 409-562. Values of one kind under a tag of another kind are not
modelled unless listed. -/
def ser (m0 : Meta) : PyVal → SerState → Except PyErr (Option Xml × SerState)
  | .sc s, st => do
    let x ← serScalar (m0.settle (.sc s)) s
    return (x, st)
  | .tagged t s, st =>
    -- 105-107: the tagged value is only opened when the metadata has no tag
    if m0.tag = .star then do
      let x ← serScalar (m0.settle (.tagged t s)) s
      return (x, st)
    else .error .notModelled
  | .list xs, st =>
    let m := m0.settle (.list xs)
    if m.tag = .LST ∨ m.tag = .IE then do
      let (rid, st) := newObjId st
      let (tn, st) ← createTn (listTypesOf m) st
      let (ks, st) ← serList (listElem m) xs st
      return (some ((Xml.node .Obj (some rid) none none [tn, .node m.tag none none none ks]).setName m.name), st)
    else if m.tag = .STK then
      match m with
      | .list _ _ name _ e types => do
        let (rid, st) := newObjId st
        let (tn, st) ← createTn types st
        let (ks, st) ← serStack e xs st
        return (some ((Xml.node .Obj (some rid) none none [tn, .node .STK none none none ks]).setName name), st)
      | _ => .error .attributeError
    else .error .notModelled
  | .queue xs, st =>
    let m := m0.settle (.queue xs)
    if m.tag = .QUE then do
      let (rid, st) := newObjId st
      let (tn, st) ← createTn (queueTypesOf m) st
      let (ks, st) ← serQueue (queueElem m) xs st
      return (some ((Xml.node .Obj (some rid) none none [tn, .node .QUE none none none ks]).setName m.name), st)
    else .error .notModelled
  | .dict es, st =>
    let m := m0.settle (.dict es)
    if m.tag = .DCT then do
      let (rid, st) := newObjId st
      let (tn, st) ← createTn (dictTypesOf m) st
      let (ks, st) ← serEntries (dictKey m) (dictValue m) es st
      return (some ((Xml.node .Obj (some rid) none none [tn, .node .DCT none none none ks]).setName m.name), st)
    else .error .notModelled
  | .generic oid types toStr sets ext adp, st =>
    let m := m0.settle (.generic oid types toStr sets ext adp)
    if m.tag = .ObjDynamic then do
      let (rid, st) := newObjId st
      let st := { st with objs := st.objs ++ [(rid, oid)] }
      let (tn, st) ← createTnOpt types st
      let (ks, st) ← serSets sets st
      let (es, st) ← serNamed ext st
      let (as, st) ← serNamed adp st
      return (some ((Xml.node .Obj (some rid) none none (tn ++ toStringKids toStr ++ ks ++
        (if ext = [] then [] else [.node .MS none none none es]) ++
        (if adp = [] then [] else [.node .Props none none none as]))).setName m.name), st)
    else if m.tag = .Obj then
      -- 409-436: the attributes that start with an underscore are those of the base class, complex_objects.py 99-105
      let (rid, st) := newObjId st
      .ok (some ((Xml.node .Obj (some rid) none none []).setName m.name), st)
    else .error .notModelled
  | .typed oid types toStr sets ext adp, st =>
    let m := m0.settle (.typed oid types toStr sets ext adp)
    if m.tag = .Obj then do
      let (rid, st) := newObjId st
      let (tn, st) ← createTnOpt types st
      let (ks, st) ← serProps sets st
      let (es, st) ← serProps ext st
      let (as, st) ← serProps adp st
      return (some ((Xml.node .Obj (some rid) none none (tn ++ toStringKids toStr ++ ks ++
        (if ext = [] then [] else [.node .MS none none none es]) ++
        (if adp = [] then [] else [.node .Props none none none as]))).setName m.name), st)
    else if m.tag = .ObjDynamic then .error .attributeError
    else .error .notModelled
  | .raw _, _ => .error .notModelled

/-- serializer.py 530-532: each element with its own copy of the element metadata. -/
def serList (e : Meta) : List PyVal → SerState → Except PyErr (List Xml × SerState)
  | [], st => .ok ([], st)
  | v :: vs, st => do
    let (x, st) ← ser e v st
    let (ks, st) ← serList e vs st
    return (kidsOf x ++ ks, st)

/-- serializer.py 484-489: the element metadata is shared, so its tag is that of the first element from then on. -/
def serQueue (e : Meta) : List PyVal → SerState → Except PyErr (List Xml × SerState)
  | [], st => .ok ([], st)
  | v :: vs, st => do
    let (x, st) ← ser e v st
    let (ks, st) ← serQueue (e.settle v) vs st
    return (kidsOf x ++ ks, st)

/-- serializer.py 502-507: popped from the end, with a shared element metadata. An IndexError raised inside an element
(only possible for element metadata with an empty type list) would also end the loop; that is not modelled. -/
def serStack (e : Meta) : List PyVal → SerState → Except PyErr (List Xml × SerState)
  | [], st => .ok ([], st)
  | v :: vs, st => do
    let (ks, st) ← serStack e vs st
    let (x, st) ← ser (match vs.getLast? with | some l => e.settle l | none => e) v st
    return (ks ++ kidsOf x, st)

/-- serializer.py 555-560. -/
def serEntries (km vm : Meta) : List (PyVal × PyVal) → SerState → Except PyErr (List Xml × SerState)
  | [], st => .ok ([], st)
  | (k, v) :: es, st => do
    let (x, st) ← ser km k st
    let (y, st) ← ser vm v st
    let (ks, st) ← serEntries km vm es st
    return (.node .En none none none (kidsOf x ++ kidsOf y) :: ks, st)

/-- serializer.py 454-455 with 851-868 `_create_obj`. -/
def serSets : List PyVal → SerState → Except PyErr (List Xml × SerState)
  | [], st => .ok ([], st)
  | v :: vs, st => do
    let (x, st) ← match refFor st v with
      | some r => .ok (some (Xml.node .Ref (some r) none none []), st)
      | none => ser .star v st
    let (ks, st) ← serSets vs st
    return (kidsOf x ++ ks, st)

/-- serializer.py 462-466 with `_create_obj(parent, prop, key=key)`. -/
def serNamed : List (PyStr × PyVal) → SerState → Except PyErr (List Xml × SerState)
  | [], st => .ok ([], st)
  | (k, v) :: vs, st => do
    let (x, st) ← match refFor st v with
      | some r => .ok (some (Xml.node .Ref (some r) (some k) none []), st)
      | none => ser (.plain .star (some k) false) v st
    let (ks, st) ← serNamed vs st
    return (kidsOf x ++ ks, st)

/-- serializer.py 423-433 with `_create_obj(parent, attr_value, meta=property_meta)`: a reference gets no name. -/
def serProps : List (Meta × PyVal) → SerState → Except PyErr (List Xml × SerState)
  | [], st => .ok ([], st)
  | (m, v) :: vs, st => do
    let (x, st) ← match refFor st v with
      | some r => .ok (some (Xml.node .Ref (some r) none none []), st)
      | none => ser m v st
    let (ks, st) ← serProps vs st
    return (kidsOf x ++ ks, st)
end

/-- serializer.py 483-489: what is left in the caller's queue afterwards: elements are taken out one by one, until it is
empty or one of them cannot be serialized. -/
def queueLeft (e : Meta) : List PyVal → SerState → List PyVal
  | [], _ => []
  | v :: vs, st =>
    match ser e v st with
    | .error _ => vs
    | .ok (_, st) => queueLeft (e.settle v) vs st

/-- serializer.py 501-507: the same for a stack, given in popping order. -/
def stackLeft (e : Meta) (xs : List PyVal) (st : SerState) : List PyVal := (queueLeft e xs.reverse st).reverse

/-- serializer.py 72-166 `serialize(value, metadata)` as called by users and by `Message.pack`, with clear=True. -/
def serialize (m : Meta) (v : PyVal) : Except PyErr (Option Xml) := do
  let (x, _) ← ser m v .clear
  return x

mutual
/-- What a tree looks like after being written as text and parsed again: an empty text is no text. -/
def Xml.reparse : Xml → Xml
  | .node t r n x ks => .node t r n (match x with | some [] => none | x => x) (reparseAll ks)
def reparseAll : List Xml → List Xml
  | [] => []
  | x :: xs => x.reparse :: reparseAll xs
end

end Verif
