import Verif.Model.Classes
/-
The CLIXML deserializer on XML trees (src/pypsrp/serializer.py 168-369, 613-760, 816-831).
-/
namespace Verif

/-- serializer.py 232-301 `structures`. -/
def structures : List (PyStr × DMeta) := [
  ("Selected.Microsoft.PowerShell.Commands.GenericMeasureInfo".toList, .cls "CommandMetadataCount".toList),
  ("System.Array".toList, .list (.plain .star)),
  ("System.Collections.ArrayList".toList, .list (.plain .star)),
  ("System.Collections.Hashtable".toList, .dict),
  ("System.Collections.Generic.List".toList, .list (.plain .star)),
  ("System.Collections.Queue".toList, .queue),
  ("System.Collections.Stack".toList, .stack),
  ("System.ConsoleColor".toList, .cls "Color".toList),
  ("System.Management.Automation.CommandOrigin".toList, .cls "CommandOrigin".toList),
  ("System.Management.Automation.DebugRecord".toList, .cls "DebugRecord".toList),
  ("System.Management.Automation.ErrorRecord".toList, .cls "ErrorRecordMessage".toList),
  ("System.Management.Automation.Host.Coordinates".toList, .cls "Coordinates".toList),
  ("System.Management.Automation.Host.KeyInfo".toList, .cls "KeyInfoDotNet".toList),
  ("System.Management.Automation.Host.Size".toList, .cls "Size".toList),
  ("System.Management.Automation.InformationalRecord".toList, .cls "InformationalRecord".toList),
  ("System.Management.Automation.InformationRecord".toList, .cls "InformationRecord".toList),
  ("System.Management.Automation.ParameterMetadata".toList, .cls "ParameterMetadata".toList),
  ("System.Management.Automation.ProgressRecordType".toList, .cls "ProgressRecordType".toList),
  ("System.Management.Automation.PSBoundParametersDictionary".toList, .dict),
  ("System.Management.Automation.PSCredential".toList, .cls "PSCredential".toList),
  ("System.Management.Automation.PSObject".toList, .dynamic),
  ("System.Management.Automation.PSPrimitiveDictionary".toList, .dict),
  ("System.Management.Automation.PSTypeName".toList, .plain .S),
  ("System.Management.Automation.Remoting.RemoteHostMethodId".toList, .cls "HostMethodIdentifier".toList),
  ("System.Management.Automation.Runspaces.ApartmentState".toList, .cls "ApartmentState".toList),
  ("System.Management.Automation.Runspaces.PipelineResultTypes".toList, .cls "PipelineResultTypes".toList),
  ("System.Management.Automation.Runspaces.PSThreadOptions".toList, .cls "PSThreadOptions".toList),
  ("System.Management.Automation.Runspaces.RemoteStreamOptions".toList, .cls "RemoteStreamOptions".toList),
  ("System.Management.Automation.SessionStateEntryVisibility".toList, .cls "SessionStateEntryVisibility".toList),
  ("System.Management.Automation.VerboseRecord".toList, .cls "VerboseRecord".toList),
  ("System.Management.Automation.WarningRecord".toList, .cls "WarningRecord".toList),
  ("System.Globalization.CultureInfo".toList, .cls "CultureInfo".toList),
  ("System.Object".toList, .dynamic),
  ("System.String".toList, .plain .S), ("System.Char".toList, .plain .C), ("System.Boolean".toList, .plain .B),
  ("System.DateTime".toList, .plain .DT), ("System.Byte".toList, .plain .By), ("System.SByte".toList, .plain .SB),
  ("System.UInt16".toList, .plain .U16), ("System.Int16".toList, .plain .I16), ("System.UInt32".toList, .plain .U32),
  ("System.Int32".toList, .plain .I32), ("System.UInt64".toList, .plain .U64), ("System.Int64".toList, .plain .I64),
  ("System.Single".toList, .plain .Sg), ("System.Double".toList, .plain .Db), ("System.Decimal".toList, .plain .D),
  ("System.Guid".toList, .plain .G), ("System.Uri".toList, .plain .URI), ("System.Version".toList, .plain .Version),
  ("System.Xml.XmlDocument".toList, .plain .XD), ("System.Management.Automation.ScriptBlock".toList, .plain .SBK),
  ("System.Security.SecureString".toList, .plain .SS)]

/-- `s[i:-1]`. -/
def sliceDropLast (i : Nat) (s : PyStr) : PyStr := s.dropLast.drop i

/-- serializer.py 309-333: a type name cut down to the name looked up, whether it is a list, or `none` for a generic
dictionary, which ends the search. -/
def parseTypeName (t0 : PyStr) : Option (PyStr × Bool) :=
  let t := if "Deserialized.System.".toList.isPrefixOf t0 then t0.drop 13 else t0
  if "[]".toList.isSuffixOf t then some (t.dropLast.dropLast, true)
  else if "System.Collections.Generic.List`1[[".toList.isPrefixOf t then
    some ((splitChar ',' (sliceDropLast 35 t)).headD [], true)
  else if "System.Collections.ObjectModel.Collection`1[[".toList.isPrefixOf t then
    some ((splitChar ',' (sliceDropLast 45 t)).headD [], true)
  else if "System.Collections.ObjectModel.ReadOnlyCollection`1[[".toList.isPrefixOf t then
    some ((splitChar ',' (sliceDropLast 53 t)).headD [], true)
  else if "System.Collections.Generic.Dictionary`2[[".toList.isPrefixOf t then none
  else some (t, false)

/-- serializer.py 307-340: the metadata found for the type names of an object. The key and value metadata of a generic
dictionary are not kept: `_deserialize_dct` does not use them. (Line 331 raises IndexError when the type name has no
second argument; not modelled.) -/
def metaForTypes : List PyStr → Option DMeta
  | [] => none
  | t :: ts =>
    match parseTypeName t with
    | none => some .dict
    | some (n, isList) =>
      match structures.lookup n with
      | some m => some (if isList then .list m else m)
      | none => metaForTypes ts

/-- serializer.py 56-60 while deserializing: RefId to type names and RefId to objects. -/
structure DeState where
  tn : List (PyStr × List PyStr)
  objs : List (PyStr × PyVal)

def DeState.clear : DeState := ⟨[], []⟩

/-- dict item assignment, newest first. -/
def assign {β : Type} (l : List (PyStr × β)) (k : PyStr) (v : β) : List (PyStr × β) := (k, v) :: l

/-- `element.findall("TN/T")` texts, `e.text or ""`. -/
def tnTexts (kids : List Xml) : List PyStr :=
  kids.flatMap (fun k => if k.tag = .TN then (k.kids.filter (fun t => t.tag = .T)).map (fun t => t.text.getD []) else [])

/-- serializer.py 816-831 `_get_types_from_obj`. -/
def getTypes (kids : List Xml) (st : DeState) : Except PyErr (List PyStr × DeState) := do
  let types := tnTexts kids
  let st ← if types ≠ [] then
      match kids.find? (fun k => k.tag = .TN) with
      | some k => match k.refId with
        | some r => .ok { st with tn := assign st.tn r types }
        | none => .error PyErr.keyError
      | none => .error .attributeError
    else .ok st
  match kids.find? (fun k => k.tag = .TNRef) with
  | none => return (types, st)
  | some k =>
    match k.refId with
    | none => .error .keyError
    | some r =>
      match st.tn.lookup r with
      | some ts => return (ts, st)
      | none => .error .keyError

/-- `uuid.UUID(text)`: hyphens and surrounding braces are dropped, 32 hexadecimal digits must remain. The prefixes
"urn:" and "uuid:" that Python also drops are not modelled. -/
def parseUUID (s : PyStr) : Except PyErr UUID :=
  let h := (s.filter (fun c => c ≠ '{' ∧ c ≠ '}')).filter (fun c => c ≠ '-')
  match unhexlify h with
  | .ok b => if hb : b.length = 16 then .ok ⟨b, hb⟩ else .error .valueError
  | .error _ => .error .valueError

/-- ASCII lower case of a string, used to compare with "true". -/
def lowerAscii (s : PyStr) : PyStr := s.map (fun c => if 'A' ≤ c ∧ c ≤ 'Z' then Char.ofNat (c.toNat + 32) else c)

/-- `int(d.text)`. -/
def intOf (text : Option PyStr) : Except PyErr PyVal :=
  match text with
  | none => .error .typeError
  | some s => do
    let i ← pyInt s
    return .sc (.int i)

/-- `d.text` as a value. -/
def textVal : Option PyStr → PyVal
  | none => .sc .none
  | some s => .sc (.str s)

/-- serializer.py 196-228: the primitive elements; `none` for tags outside the table. Floats are not modelled, secure
strings are in `Model.SecureString`. -/
def unpackPrim (tag : Tag) (refId text : Option PyStr) (st : DeState) : Option (Except PyErr PyVal) :=
  match tag with
  | .S | .ToString | .URI | .XD | .SBK => some (do
      let s ← deserializeString text
      return .sc (.str s))
  | .C => some (match text with
    | none => .error .typeError
    | some s => do
      let i ← pyInt s
      if 0 ≤ i ∧ i.toNat.isValidChar then return .sc (.str [Char.ofNat i.toNat]) else .error .valueError)
  | .B => some (match text with
    | none => .error .attributeError
    | some s => .ok (.sc (.bool (lowerAscii s == "true".toList))))
  | .DT | .TS | .D | .Version => some (.ok (textVal text))
  | .By | .SB | .U16 | .I16 | .U32 | .I32 | .U64 | .I64 => some (intOf text)
  | .Sg | .Db | .SS => some (.error .notModelled)
  | .BA => some (match text with
    | none => .error .typeError
    | some s => do
      let b ← b64DecodeStr s
      return .sc (.bytes b))
  | .G => some (match text with
    | none => .error .typeError
    | some s => do
      let u ← parseUUID s
      return .sc (.guid u))
  | .Nil => some (.ok (.sc .none))
  | .Ref => some (match refId with
    | none => .error .keyError
    | some r => match st.objs.lookup r with
      | some v => .ok v
      | none => .error .keyError)
  | _ => none

/-- serializer.py 188-190: a "*" tag takes the element's tag. -/
def DMeta.settle (m : DMeta) (t : Tag) : DMeta := if m = .plain .star then .plain t else m

/-- serializer.py 231, 303-340: the metadata used for an object; `none` when no type is known. -/
def chooseMeta (m : DMeta) (types : List PyStr) : Option DMeta :=
  match m with
  | .plain t => metaForTypes (if t = .Obj ∧ types = [] then ["System.Object".toList] else types)
  | m => some m

/-- Python's `==` on values that can be dictionary keys: numbers and booleans compare by value. -/
def keyEq : PyVal → PyVal → Bool
  | .sc (.bool a), .sc (.int i) => (if a then 1 else 0) == i
  | .sc (.int i), .sc (.bool a) => (if a then 1 else 0) == i
  | .sc a, .sc b => a == b
  | _, _ => false

/-- `dictionary[key] = value`: an equal key keeps its place and its first form. -/
def dictSet (d : List (PyVal × PyVal)) (k v : PyVal) : List (PyVal × PyVal) :=
  if d.any (fun e => keyEq e.1 k) then d.map (fun e => if keyEq e.1 k then (e.1, v) else e) else d ++ [(k, v)]

/-- Whether a value can be a dictionary key (lists, dictionaries are not hashable). -/
def hashable : PyVal → Bool
  | .list _ | .dict _ => false
  | _ => true

/-- A generic object under construction, serializer.py 111-118. The identity of objects made by the deserializer is
not used; it is 0. -/
structure DynObj where
  types : List PyStr := []
  toStr : Option PyStr := none
  sets : List PyVal := []
  ext : List (PyStr × PyVal) := []
  adp : List (PyStr × PyVal) := []

/-- dict item assignment keeping insertion order. -/
def setNamed (l : List (PyStr × PyVal)) (k : PyStr) (v : PyVal) : List (PyStr × PyVal) :=
  if l.any (fun e => e.1 == k) then l.map (fun e => if e.1 == k then (k, v) else e) else l ++ [(k, v)]

/-- The finished object. -/
def DynObj.val (o : DynObj) : PyVal := .generic 0 o.types o.toStr o.sets o.ext o.adp

/-- serializer.py 635-638: the tags looked for. -/
def fieldTags (t : Tag) : List Tag := if t ∈ [Tag.DCT, .LST, .IE, .QUE, .STK, .ObjDynamic] then [.Obj, .Ref] else [t]

/-- serializer.py 633, 642: one step of the path, `tag[@N='name']`, on a child. -/
def fieldMatch (t : Tag) (n : Option PyStr) (x : Xml) : Bool := (t == .star || x.tag == t) && (n == none || x.name == n)

/-- serializer.py 642, 647, `element.find(prop_tag + tag + property_filter)`: `inside` is Props or MS, or `none` for the children themselves. -/
def findField (inside : Option Tag) (t : Tag) (n : Option PyStr) (kids : List Xml) : Option Xml :=
  match inside with
  | none => kids.find? (fieldMatch t n)
  | some g => (kids.flatMap (fun k => if k.tag = g then k.kids else [])).find? (fieldMatch t n)

/-- serializer.py 188-190: the metadata of the new object after an element was read with it. -/
def Meta.readWith (m : Meta) (x : Xml) : Meta :=
  match m with
  | .plain .star n o => .plain x.tag n o
  | .list k t n o (.plain .star n' o') ts =>
    match (x.kids.find? (fun y => y.tag = .LST)).bind (fun y => y.kids.head?) with
    | some y => .list k t n o (.plain y.tag n' o') ts
    | none => m
  | m => m

/-- serializer.py 648-654: the error for a missing property; line 649 asks the object for its text, which an Enum without 0
does not have. -/
def missingField (c : ClassDef) : PyErr :=
  match c.text with
  | .enum m => if (m.lookup 0).isNone then .keyError else .serializationError
  | _ => .serializationError

/-- serializer.py 640-657: the value of one property, with the metadata the object then has for it. `look t` deserializes the
first element with the tag for the property, `find t` is that element. -/
def readProp (c : ClassDef) (f : Field) (look : Tag → DeState → Option (Except PyErr (PyVal × DeState)))
    (find : Tag → Option Xml) (st : DeState) : Except PyErr ((Meta × PyVal) × DeState) :=
  match (fieldTags f.write.tag).find? (fun t => (look t st).isSome) with
  | some t =>
    match look t st, find t with
    | some (.ok (v, st)), some x => .ok ((f.write.readWith x, v), st)
    | some (.error e), _ => .error e
    | _, _ => .error .notModelled
  | none =>
    if f.write.optional then .ok ((f.write, .sc .none), st)
    else match find .Nil with
      | some _ => .ok ((f.write, .sc .none), st)
      | none => .error (missingField c)

/-- serializer.py 625-659 `deserialize_property`. -/
def readProps (c : ClassDef) (look : Field → Tag → DeState → Option (Except PyErr (PyVal × DeState)))
    (find : Field → Tag → Option Xml) : List Field → DeState → Except PyErr (List (Meta × PyVal) × DeState)
  | [], st => .ok ([], st)
  | f :: fs, st => do
    let (v, st) ← readProp c f (look f) (find f) st
    if f.attr ∈ c.readOnly then .error .attributeError
    else do
      let (vs, st) ← readProps c look find fs st
      .ok (v :: vs, st)

/-- serializer.py 621-623: the text of the element ToString, if there is one. -/
def readText (kids : List Xml) : Except PyErr (Option PyStr) :=
  match kids.find? (fun k => k.tag = .ToString) with
  | none => .ok none
  | some k => do
    let s ← deserializeString k.text
    return some s

/-- serializer.py 623, complex_objects.py 141-152: `obj._to_string` of the object that was read. That of an Enum is computed from its value when it is asked for; it is `none`
here when that would raise KeyError. -/
def objText (c : ClassDef) (read : Option PyStr) (sets : List (Meta × PyVal)) : Option PyStr :=
  let value : Option Int := match sets with
    | (_, .sc (.int i)) :: _ => some i
    | _ => none
  match c.text with
  | .attr d => read.or d
  | .enum m => m.lookup (value.getD 0)
  | .flags f => some (f (value.map Int.toNat))

mutual
/-- serializer.py 168-369 `deserialize` with clear=False on a parsed element, 613-665 `_deserialize_obj`. Classes
outside the table are not modelled. References to an object from inside itself are not modelled: the object is
entered into the table when it is complete. -/
def deser (m0 : DMeta) : Xml → DeState → Except PyErr (PyVal × DeState)
  | .node tag refId name text kids, st => do
    let m := m0.settle tag
    let (types, st) ← getTypes kids st
    match unpackPrim tag refId text st with
    | some r => do
      let v ← r
      return (v, st)
    | none =>
      let (v, st) ← match chooseMeta m types with
        | none => .ok (PyVal.raw (.node tag refId name text kids), st)
        | some (.cls name) =>
          match findClass name, refId with
          | none, _ => .error .notModelled
          | some _, none => .error .keyError
          | some c, some _ => do
            let text ← readText kids
            let (sets, st) ← readProps c (fun f t st => deLook none t f.write.name f.read kids st)
              (fun f t => findField none t f.write.name kids) c.sets st
            let (adp, st) ← readProps c (fun f t st => deLook (some .Props) t f.write.name f.read kids st)
              (fun f t => findField (some .Props) t f.write.name kids) c.adapted st
            let (ext, st) ← readProps c (fun f t st => deLook (some .MS) t f.write.name f.read kids st)
              (fun f t => findField (some .MS) t f.write.name kids) c.extended st
            .ok (.typed 0 c.types (objText c text sets) sets ext adp, st)
        | some .dynamic =>
          match refId with
          | none => .error .keyError
          | some _ => do
            let (o, st) ← deDyn {} kids st
            .ok (o.val, st)
        | some (.list e) => do
          let (vs, st) ← deFind .LST true e kids st
          .ok (.list vs, st)
        | some .queue => do
          let (vs, st) ← deFind .QUE false (.plain .star) kids st
          .ok (.queue vs, st)
        | some .stack => do
          let (vs, st) ← deFind .STK false (.plain .star) kids st
          .ok (.list vs, st)
        | some .dict => do
          let (d, st) ← deDct [] kids st
          .ok (.dict d, st)
        | some (.plain _) => .ok (.raw (.node tag refId name text kids), st)
      if tag = .Obj then
        match refId with
        | some r => return (v, { st with objs := assign st.objs r v })
        | none => .error .keyError
      else return (v, st)

/-- serializer.py 642-644, 657: the first element on the path, if there is one, deserialized with the metadata. -/
def deLook (inside : Option Tag) (t : Tag) (n : Option PyStr) (m : DMeta) :
    List Xml → DeState → Option (Except PyErr (PyVal × DeState))
  | [], _ => none
  | .node tg r nm tx ks :: xs, st =>
    match inside with
    | none =>
      if fieldMatch t n (.node tg r nm tx ks) then some (deser m (.node tg r nm tx ks) st) else deLook none t n m xs st
    | some g =>
      if tg = g then
        match deLook none t n m ks st with
        | some res => some res
        | none => deLook (some g) t n m xs st
      else deLook (some g) t n m xs st

/-- serializer.py 732-744 `_deserialize_list_values`: the first child with the tag. -/
def deFind (t : Tag) (shared : Bool) (m : DMeta) : List Xml → DeState → Except PyErr (List PyVal × DeState)
  | [], st => .ok ([], st)
  | .node tag _ _ _ ks :: xs, st => if tag = t then deAll shared m ks st else deFind t shared m xs st

/-- serializer.py 742-744: the metadata object of a list is shared by the entries, so a "*" takes the tag of the first.
For queues and stacks `value_meta` is None and every entry gets a fresh one. -/
def deAll (shared : Bool) (m : DMeta) : List Xml → DeState → Except PyErr (List PyVal × DeState)
  | [], st => .ok ([], st)
  | x :: xs, st => do
    let (v, st) ← deser m x st
    let (vs, st) ← deAll shared (if shared then m.settle x.tag else m) xs st
    return (v :: vs, st)

/-- serializer.py 746-760 `_deserialize_dct`, the children named DCT. -/
def deDct (d : List (PyVal × PyVal)) : List Xml → DeState → Except PyErr (List (PyVal × PyVal) × DeState)
  | [], st => .ok (d, st)
  | .node tag _ _ _ ks :: xs, st => do
    let (d, st) ← if tag = .DCT then deEntries d ks st else .ok (d, st)
    deDct d xs st

/-- serializer.py 752-758, the children named En. -/
def deEntries (d : List (PyVal × PyVal)) : List Xml → DeState → Except PyErr (List (PyVal × PyVal) × DeState)
  | [], st => .ok (d, st)
  | .node tag _ _ _ ks :: xs, st =>
    if tag = .En then do
      let (k, st) ← deNamed "Key".toList ks st
      let (v, st) ← deNamed "Value".toList ks st
      if hashable k then deEntries (dictSet d k v) xs st else .error .typeError
    else deEntries d xs st

/-- serializer.py 753-757: the first child with the name; if there is none, `deserialize("")` returns "". -/
def deNamed (n : PyStr) : List Xml → DeState → Except PyErr (PyVal × DeState)
  | [], st => .ok (.sc (.str []), st)
  | .node t r nm tx ks :: xs, st =>
    if nm = some n then deser (.plain .star) (.node t r nm tx ks) st else deNamed n xs st

/-- serializer.py 675-697, the children of a generic object. -/
def deDyn (o : DynObj) : List Xml → DeState → Except PyErr (DynObj × DeState)
  | [], st => .ok (o, st)
  | .node t r nm tx ks :: xs, st =>
    if t = .TN then
      -- 677-679
      match r with
      | none => .error .keyError
      | some r =>
        let types := o.types ++ ks.map (fun k => k.text.getD [])
        deDyn { o with types } xs { st with tn := assign st.tn r types }
    else if t = .TNRef then
      match r with
      | none => .error .keyError
      | some r => match st.tn.lookup r with
        | none => .error .keyError
        | some types => deDyn { o with types } xs st
    else if t = .Props then do
      let (adp, st) ← deProps o.adp ks st
      deDyn { o with adp } xs st
    else if t = .MS then do
      let (ext, st) ← deProps o.ext ks st
      deDyn { o with ext } xs st
    else if t = .ToString then do
      let s ← deserializeString tx
      deDyn { o with toStr := some s } xs st
    else do
      let (v, st) ← deser (.plain .star) (.node t r nm tx ks) st
      deDyn { o with sets := o.sets ++ [v] } xs st

/-- serializer.py 683-691. -/
def deProps (l : List (PyStr × PyVal)) : List Xml → DeState → Except PyErr (List (PyStr × PyVal) × DeState)
  | [], st => .ok (l, st)
  | .node t r nm tx ks :: xs, st =>
    match nm with
    | none => .error .keyError
    | some k => do
      let (v, st) ← deser (.plain .star) (.node t r nm tx ks) st
      deProps (setNamed l k v) xs st
end

/-- serializer.py 168-369 `deserialize(element)` with clear=True. -/
def deserialize (x : Xml) : Except PyErr PyVal := do
  let (v, _) ← deser (.plain .star) x .clear
  return v

end Verif
