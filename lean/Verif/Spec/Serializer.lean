import Verif.Model.Deserializer
import Verif.Spec.Strings
/-
Specifications for CLIXML documents.
-/
namespace Verif

/-- A character that survives as XML text or attribute (a carriage return would come back as a line feed). -/
def XmlSafe (c : Char) : Prop := IsXmlChar c ∧ c ≠ '\r'

/-- All texts and attributes of a document can be carried by XML. -/
def Xml.Sendable : Xml → Prop
  | .node _ r n t ks =>
    (∀ s, r = some s → ∀ c ∈ s, XmlSafe c) ∧ (∀ s, n = some s → ∀ c ∈ s, XmlSafe c) ∧
    (∀ s, t = some s → ∀ c ∈ s, XmlSafe c) ∧ ∀ k ∈ ks, k.Sendable

/-- Scalars that are expected to survive: any bool, integer, GUID and None; non-empty byte strings; strings without the
two noncharacters U+FFFE and U+FFFF and without the shifted pattern of C13. -/
def PlainScalar : Scalar → Prop
  | .str s => ¬ HasShiftedPattern s ∧ ∀ c ∈ s, c.toNat ≠ 0xFFFE ∧ c.toNat ≠ 0xFFFF
  | .bytes b => b ≠ []
  | _ => True

/-- The number a key stands for: for Python, True is 1 and False is 0. -/
def keyNumber : PyVal → Option Int
  | .sc (.bool b) => some (if b then 1 else 0)
  | .sc (.int i) => some i
  | _ => none

/-- Keys that are different for Python. -/
def DifferentKeys (a b : PyVal) : Prop := a ≠ b ∧ ∀ i, keyNumber a = some i → keyNumber b ≠ some i

/-- Nested values: scalars, lists of scalars, and dictionaries from scalars to nested values whose keys are different
for Python. -/
inductive PlainValue : PyVal → Prop
  | sc {s : Scalar} (h : PlainScalar s) : PlainValue (.sc s)
  | list {xs : List PyVal} (h : ∀ x ∈ xs, ∃ s, x = .sc s ∧ PlainScalar s) : PlainValue (.list xs)
  | dict {es : List (PyVal × PyVal)} (hk : ∀ e ∈ es, ∃ s, e.1 = .sc s ∧ PlainScalar s)
      (hd : es.Pairwise (fun a b => DifferentKeys a.1 b.1)) (hv : ∀ e ∈ es, PlainValue e.2) : PlainValue (.dict es)

mutual
/-- All elements of a document in document order: the element itself, then its children from left to right. -/
def Xml.elems : Xml → List Xml
  | .node t r n x ks => .node t r n x ks :: elemsAll ks
def elemsAll : List Xml → List Xml
  | [] => []
  | x :: xs => x.elems ++ elemsAll xs
end

/-- The RefIds of the elements with a tag, in order (`none` for one without RefId). -/
def refIds (t : Tag) (es : List Xml) : List (Option PyStr) := (es.filter (fun e => e.tag = t)).map Xml.refId

/-- Every element tagged `t` refers to the RefId of an element tagged `u` that comes before it. -/
def RefersBack (t u : Tag) (es : List Xml) : Prop :=
  ∀ before e after, es = before ++ e :: after → e.tag = t → ∃ d ∈ before, d.tag = u ∧ d.refId ≠ none ∧ d.refId = e.refId

/-- The kinds of scalars. None counts as a string. -/
def kindOf : Scalar → Nat
  | .none => 0 | .str _ => 0 | .bool _ => 1 | .int _ => 2 | .bytes _ => 3 | .guid _ => 4

/-- Scalars that are all of the kind of the first one, or None. -/
def Uniform : List Scalar → Prop
  | [] => True
  | a :: as => ∀ b ∈ as, b = .none ∨ kindOf b = kindOf a

/-- An object that has nothing but type names. -/
def bare (types : List PyStr) : PyVal := .generic 0 types none [] [] []

end Verif
