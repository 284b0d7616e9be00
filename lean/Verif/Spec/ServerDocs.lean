import Verif.Spec.Serializer
import Verif.Spec.Utils
/-
Documents as a PowerShell server writes them ([MS-PSRP] 2.2.5), for C96: the values, the type names by which they are known, and
the relation between a value and its documents. A value has many documents: ids are free, escapes are free, an object that was
written before may be referred to, type names may be repeated or referred to.
-/
namespace Verif

/-- What a server sends: null, primitive values, objects with type names, a primitive value inside, a text, adapted and extended
properties, lists and dictionaries. -/
inductive SVal where
  | null
  | prim (v : Scalar)
  | obj (types : List PyStr) (base : Option Scalar) (text : Option PyStr) (adapted extended : List (PyStr × SVal))
  | list (items : List SVal)
  | dict (entries : List (Scalar × SVal))

mutual
/-- The Python value that is meant. -/
def SVal.value : SVal → PyVal
  | .null => .sc .none
  | .prim v => .sc v
  | .obj types base text adp ext => .generic 0 types text (base.toList.map .sc) (namedValues ext) (namedValues adp)
  | .list vs => .list (valuesOf vs)
  | .dict es => .dict (entryValues es)
def valuesOf : List SVal → List PyVal
  | [] => []
  | v :: vs => v.value :: valuesOf vs
def namedValues : List (PyStr × SVal) → List (PyStr × PyVal)
  | [] => []
  | (n, v) :: vs => (n, v.value) :: namedValues vs
def entryValues : List (Scalar × SVal) → List (PyVal × PyVal)
  | [] => []
  | (k, v) :: vs => (.sc k, v.value) :: entryValues vs
end

/-! ### type names -/

/-- Types that say nothing about the form of an object. -/
def genericNames : List String := ["System.Object", "System.Management.Automation.PSObject"]

/-- Types that are lists. -/
def listNames : List String := ["System.Array", "System.Collections.ArrayList"]

/-- Types that are dictionaries. -/
def dictNames : List String := ["System.Collections.Hashtable", "System.Management.Automation.PSBoundParametersDictionary",
  "System.Management.Automation.PSPrimitiveDictionary"]

/-- Types of primitive values. -/
def primNames : List String := ["System.String", "System.Char", "System.Boolean", "System.DateTime", "System.Byte", "System.SByte",
  "System.UInt16", "System.Int16", "System.UInt32", "System.Int32", "System.UInt64", "System.Int64", "System.Single", "System.Double",
  "System.Decimal", "System.Guid", "System.Uri", "System.Version", "System.Xml.XmlDocument", "System.Management.Automation.ScriptBlock"]

/-- Types with a meaning of their own, which are the subject of C79, C80 and C18. -/
def specialNames : List String := ["Selected.Microsoft.PowerShell.Commands.GenericMeasureInfo", "System.Collections.Generic.List",
  "System.Collections.Queue", "System.Collections.Stack", "System.ConsoleColor", "System.Management.Automation.CommandOrigin",
  "System.Management.Automation.DebugRecord", "System.Management.Automation.ErrorRecord", "System.Management.Automation.Host.Coordinates",
  "System.Management.Automation.Host.KeyInfo", "System.Management.Automation.Host.Size", "System.Management.Automation.InformationalRecord",
  "System.Management.Automation.InformationRecord", "System.Management.Automation.ParameterMetadata",
  "System.Management.Automation.ProgressRecordType", "System.Management.Automation.PSCredential", "System.Management.Automation.PSTypeName",
  "System.Management.Automation.Remoting.RemoteHostMethodId", "System.Management.Automation.Runspaces.ApartmentState",
  "System.Management.Automation.Runspaces.PipelineResultTypes", "System.Management.Automation.Runspaces.PSThreadOptions",
  "System.Management.Automation.Runspaces.RemoteStreamOptions", "System.Management.Automation.SessionStateEntryVisibility",
  "System.Management.Automation.VerboseRecord", "System.Management.Automation.WarningRecord", "System.Globalization.CultureInfo",
  "System.Security.SecureString"]

def knownNames : List String := genericNames ++ listNames ++ dictNames ++ primNames ++ specialNames

/-- How the names of generic lists begin. -/
def listPrefixes : List String := ["System.Collections.Generic.List`1[[", "System.Collections.ObjectModel.Collection`1[[",
  "System.Collections.ObjectModel.ReadOnlyCollection`1[["]

def dictPrefix : String := "System.Collections.Generic.Dictionary`2[["

/-- A system type that was deserialized by the server counts as the type itself. -/
def plainType (t : PyStr) : PyStr := if "Deserialized.System.".toList <+: t then t.drop 13 else t

/-- The name is one of these. -/
def OneOf (names : List String) (t : PyStr) : Prop := ∃ n ∈ names, t = n.toList

/-- A type that the library does not know. -/
def Foreign (t : PyStr) : Prop :=
  ¬ OneOf knownNames (plainType t) ∧ (∀ e, plainType t = e ++ "[]".toList → ¬ OneOf knownNames e) ∧
    (∀ p ∈ listPrefixes, ¬ p.toList <+: plainType t) ∧ ¬ dictPrefix.toList <+: plainType t

/-- The first type that is not foreign has the property. -/
def FirstKnown (P : PyStr → Prop) (types : List PyStr) : Prop :=
  ∃ before t after, types = before ++ t :: after ∧ (∀ u ∈ before, Foreign u) ∧ P (plainType t)

/-- An array or a generic list of one of these. -/
def ListOf (names : List String) (t : PyStr) : Prop :=
  ∃ e ∈ names, t = e.toList ++ "[]".toList ∨ ∃ p ∈ listPrefixes, ∃ c rest, t = p.toList ++ e.toList ++ ',' :: c :: rest ∧ ¬ "[]".toList <:+ t

/-- Type names of an object without a special form. -/
def GenericTypes (types : List PyStr) : Prop := types = [] ∨ FirstKnown (OneOf genericNames) types

/-- Type names of a list of objects. -/
def ObjectListTypes (types : List PyStr) : Prop := FirstKnown (ListOf genericNames) types

/-- Type names of other lists. -/
def ListTypes (types : List PyStr) : Prop := FirstKnown (fun t => OneOf listNames t ∨ ListOf primNames t) types

/-- Type names of a dictionary. -/
def DictTypes (types : List PyStr) : Prop :=
  FirstKnown (fun t => OneOf dictNames t ∨ (dictPrefix.toList <+: t ∧ ¬ "[]".toList <:+ t)) types

/-! ### documents -/

/-- The text of an element for a string, with any escapes. -/
def TextMeans (text : Option PyStr) (s : PyStr) : Prop :=
  (text = none ∧ s = []) ∨ ∃ t pieces, text = some t ∧ utf16 t = pieces.flatMap Piece.written ∧ utf16 s = pieces.map Piece.meant ∧
    (∀ p ∈ pieces, p.Valid) ∧ Unambiguous pieces

/-- The capital letters and their small ones. -/
def letterPairs : List (Char × Char) := "ABCDEFGHIJKLMNOPQRSTUVWXYZ".toList.zip "abcdefghijklmnopqrstuvwxyz".toList

/-- The first text is the second one with some letters in capitals. -/
inductive Capitalised : PyStr → PyStr → Prop
  | nil : Capitalised [] []
  | same {c : Char} {s t : PyStr} : Capitalised s t → Capitalised (c :: s) (c :: t)
  | capital {c l : Char} {s t : PyStr} : (c, l) ∈ letterPairs → Capitalised s t → Capitalised (c :: s) (l :: t)

/-- The element for a primitive value: its tag and its text. Numbers with fractions are not modelled. -/
inductive PrimWritten : Tag → Option PyStr → Scalar → Prop
  | text {t : Tag} {x : Option PyStr} {s : PyStr} : t ∈ [Tag.S, .URI, .XD, .SBK] → TextMeans x s → PrimWritten t x (.str s)
  | whole {t : Tag} {s : PyStr} : t ∈ [Tag.By, .SB, .U16, .I16, .U32, .I32, .U64, .I64] → IsDecimal s → PrimWritten t (some s) (.int (decimalValue s))
  | negative {t : Tag} {s : PyStr} : t ∈ [Tag.SB, .I16, .I32, .I64] → IsDecimal s → PrimWritten t (some ('-' :: s)) (.int (-(decimalValue s : Int)))
  | bool {s : PyStr} {b : Bool} : Capitalised s (if b then "true".toList else "false".toList) → PrimWritten .B (some s) (.bool b)
  | char {s : PyStr} {c : Char} : IsDecimal s → decimalValue s = c.toNat → PrimWritten .C (some s) (.str [c])
  | other {t : Tag} {s : PyStr} : t ∈ [Tag.DT, .TS, .D, .Version] → PrimWritten t (some s) (.str s)
  | bytes {b : Bytes} : b ≠ [] → PrimWritten .BA (some (b64Encode b)) (.bytes b)
  | guid {u : UUID} : PrimWritten .G (some u.toStr) (.guid u)

/-- What the server has written so far: type names and objects by their ids. -/
structure SrvState where
  tn : List (PyStr × List PyStr) := []
  objs : List (PyStr × SVal) := []

/-- The type names of an object: none, all of them with a new id, or the id of the same names. -/
inductive TypesWritten : SrvState → List PyStr → List Xml → SrvState → Prop
  | none {s : SrvState} : TypesWritten s [] [] s
  | new {s : SrvState} {r : PyStr} {ts : List PyStr} : ts ≠ [] →
      TypesWritten s ts [.node .TN (some r) none none (ts.map fun t => .node .T none none (some t) [])] { s with tn := (r, ts) :: s.tn }
  | again {s : SrvState} {r : PyStr} {ts : List PyStr} : ts ≠ [] → s.tn.lookup r = some ts →
      TypesWritten s ts [.node .TNRef (some r) none none []] s

/-- A group of properties may be left out if it has none. -/
def GroupOf (t : Tag) (es part : List Xml) : Prop := part = [.node t none none none es] ∨ (es = [] ∧ part = [])

/-- The text of an object. -/
def ObjText : Option PyStr → List Xml → Prop
  | none, part => part = []
  | some s, part => ∃ x, part = [.node .ToString none none x []] ∧ TextMeans x s

/-- The primitive value of an object. -/
def ObjBase : Option Scalar → List Xml → Prop
  | none, part => part = []
  | some v, part => ∃ t x, part = [.node t none none x []] ∧ PrimWritten t x v

/-- Where an element is: on its own or as a property, in a list of objects, in another list. -/
inductive Place where
  | property
  | objects
  | list
  deriving DecidableEq

/-- What may be written out in the place. In a list of objects there are only these; in other lists objects have type names. -/
def Place.Fits : Place → SVal → Prop
  | .property, _ => True
  | .objects, .obj .. => True
  | .objects, _ => False
  | .list, .obj types .. => types ≠ []
  | .list, _ => True

/-- Parts of the element of a list or dictionary that are not its items. -/
def Besides (t : Tag) (rest : List Xml) : Prop := ∀ x ∈ rest, x.tag ≠ .TN ∧ x.tag ≠ .TNRef ∧ x.tag ≠ t

mutual
/-- The documents of a value. In a list of objects any type names are possible. -/
inductive Written : SrvState → Place → SVal → Option PyStr → Xml → SrvState → Prop
  | null {s : SrvState} {p : Place} {n : Option PyStr} : Written s p .null n (.node .Nil none n none []) s
  | prim {s : SrvState} {p : Place} {n : Option PyStr} {t : Tag} {x : Option PyStr} {v : Scalar} : PrimWritten t x v →
      Written s p (.prim v) n (.node t none n x []) s
  | ref {s : SrvState} {p : Place} {n : Option PyStr} {r : PyStr} {v : SVal} : s.objs.lookup r = some v →
      Written s p v n (.node .Ref (some r) n none []) s
  | obj {s s1 s2 s3 : SrvState} {p : Place} {n : Option PyStr} {r : PyStr} {types : List PyStr} {base : Option Scalar} {text : Option PyStr}
      {adp ext : List (PyStr × SVal)} {tx bx sx ax ex ag eg mid : List Xml} :
      p.Fits (.obj types base text adp ext) → (p = .objects ∨ GenericTypes types) → TypesWritten s types tx s1 → ObjBase base bx → ObjText text sx →
      (mid = bx ++ sx ∨ mid = sx ++ bx) → (adp.map (·.1)).Nodup → (ext.map (·.1)).Nodup →
      WrittenProps s1 adp ax s2 → WrittenProps s2 ext ex s3 → GroupOf .Props ax ag → GroupOf .MS ex eg →
      Written s p (.obj types base text adp ext) n (.node .Obj (some r) n none (tx ++ mid ++ ag ++ eg))
        { s3 with objs := (r, .obj types base text adp ext) :: s3.objs }
  | list {s s1 s2 : SrvState} {p q : Place} {n : Option PyStr} {r : PyStr} {types : List PyStr} {items : List SVal} {tx xs rest : List Xml} :
      p.Fits (.list items) → ((q = .objects ∧ ObjectListTypes types) ∨ (q = .list ∧ ListTypes types)) → TypesWritten s types tx s1 →
      WrittenItems s1 q items xs s2 → Besides .LST rest →
      Written s p (.list items) n (.node .Obj (some r) n none (tx ++ .node .LST none none none xs :: rest))
        { s2 with objs := (r, .list items) :: s2.objs }
  | dict {s s1 s2 : SrvState} {p : Place} {n : Option PyStr} {r : PyStr} {types : List PyStr} {entries : List (Scalar × SVal)}
      {tx xs rest : List Xml} : p.Fits (.dict entries) → DictTypes types → TypesWritten s types tx s1 →
      entries.Pairwise (fun a b => DifferentKeys (.sc a.1) (.sc b.1)) → WrittenEntries s1 entries xs s2 → Besides .DCT rest →
      Written s p (.dict entries) n (.node .Obj (some r) n none (tx ++ .node .DCT none none none xs :: rest))
        { s2 with objs := (r, .dict entries) :: s2.objs }

inductive WrittenProps : SrvState → List (PyStr × SVal) → List Xml → SrvState → Prop
  | nil {s : SrvState} : WrittenProps s [] [] s
  | cons {s s1 s2 : SrvState} {n : PyStr} {v : SVal} {ps : List (PyStr × SVal)} {x : Xml} {xs : List Xml} :
      Written s .property v (some n) x s1 → WrittenProps s1 ps xs s2 → WrittenProps s ((n, v) :: ps) (x :: xs) s2

inductive WrittenItems : SrvState → Place → List SVal → List Xml → SrvState → Prop
  | nil {s : SrvState} {q : Place} : WrittenItems s q [] [] s
  | cons {s s1 s2 : SrvState} {q : Place} {v : SVal} {vs : List SVal} {x : Xml} {xs : List Xml} :
      Written s q v none x s1 → WrittenItems s1 q vs xs s2 → WrittenItems s q (v :: vs) (x :: xs) s2

inductive WrittenEntries : SrvState → List (Scalar × SVal) → List Xml → SrvState → Prop
  | nil {s : SrvState} : WrittenEntries s [] [] s
  | cons {s s1 s2 : SrvState} {t : Tag} {kx : Option PyStr} {k : Scalar} {v : SVal} {es : List (Scalar × SVal)} {x : Xml} {xs : List Xml} :
      PrimWritten t kx k → Written s .property v (some "Value".toList) x s1 → WrittenEntries s1 es xs s2 →
      WrittenEntries s ((k, v) :: es) (.node .En none none none [.node t none (some "Key".toList) kx [], x] :: xs) s2
end

end Verif
