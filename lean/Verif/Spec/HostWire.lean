import Verif.Model.HostWire
import Verif.Spec.Docs
import Verif.Spec.Host
import Verif.Spec.PoolWire
import Verif.Spec.ServerDocs
/-
Specifications for the documents of host calls ([MS-PSRP] 2.2.2.27, 2.2.2.28, 2.2.2.15, 2.2.2.16, 2.2.6).
-/
namespace Verif

/-- 2.2.6: the document of a method id: an object with a number, with any type names, with or without a text. -/
inductive MethodWritten : SrvState → Int → Xml → SrvState → Prop
  | intro {s s1 : SrvState} {r : PyStr} {types : List PyStr} {tx sx mid : List Xml} {text : Option PyStr} {mi : Int} :
      TypesWritten s types tx s1 → ObjText text sx →
      (mid = .node .I32 none none (some (pyStrInt mi)) [] :: sx ∨ mid = sx ++ [.node .I32 none none (some (pyStrInt mi)) []]) →
      MethodWritten s mi (.node .Obj (some r) (some "mi".toList) none (tx ++ mid)) s1

/-- The document of the arguments: a list with any type names. Objects without type names are possible if the first argument is an object. -/
inductive ArgumentsWritten : SrvState → List SVal → Xml → Prop
  | intro {s s1 s2 : SrvState} {r : PyStr} {types : List PyStr} {items : List SVal} {tx xs rest : List Xml} :
      TypesWritten s types tx s1 →
      (WrittenItems s1 .list items xs s2 ∨ (WrittenItems s1 .property items xs s2 ∧ xs.head?.map Xml.tag = some .Obj)) → Besides .LST rest →
      ArgumentsWritten s items (.node .Obj (some r) (some "mp".toList) none (tx ++ .node .LST none none none xs :: rest))

/-- The bytes of a call of the method `mi` with these arguments. -/
def CallMessage (kind : MsgKind) (ci mi : Int) (items : List SVal) (bytes : Bytes) : Prop :=
  ∃ es x1 x2 s1, MessageProps kind es bytes ∧ Says es .I64 "ci" (pyStrInt ci) ∧ SaysObj es "mi" x1 ∧ MethodWritten {} mi x1 s1 ∧
    SaysObj es "mp" x2 ∧ ArgumentsWritten s1 items x2

/-- The argument of a method: null, a text, a number, a truth value, or an object with numbers as properties. -/
inductive IsArg : SVal → HVal → Prop
  | null : IsArg .null .none
  | text {s : PyStr} : IsArg (.prim (.str s)) (.str s)
  | number {i : Int} : IsArg (.prim (.int i)) (.int i)
  | truth {b : Bool} : IsArg (.prim (.bool b)) (.bool b)
  | obj {types : List PyStr} {base : Option Scalar} {text : Option PyStr} {adapted : List (PyStr × SVal)} {ps : List (PyStr × Int)} :
      IsArg (.obj types base text adapted (ps.map fun p => (p.1, .prim (.int p.2)))) (.obj (text.getD []) ps)

/-- All arguments. -/
inductive AreArgs : List SVal → List HVal → Prop
  | nil : AreArgs [] []
  | cons {v : SVal} {a : HVal} {vs : List SVal} {as : List HVal} : IsArg v a → AreArgs vs as → AreArgs (v :: vs) (a :: as)

namespace Docs

/-- System.ConsoleColor. -/
def colorNames : List String := ["Black", "DarkBlue", "DarkGreen", "DarkCyan", "DarkRed", "DarkMagenta", "DarkYellow", "Gray", "DarkGray", "Blue",
  "Green", "Cyan", "Red", "Magenta", "Yellow", "White"]

/-- A structure of the host: its type names and two numbers. -/
def pairDoc (n : Option String) (type : String) (a b : Doc) : Doc :=
  .node .Obj (n.map String.toList) ([type, "System.ValueType", "System.Object"].map String.toList) none [.node .Props none [] none [a, b]]

end Docs

open Docs in
/-- The document of what a method returned. -/
inductive ResultDoc : HVal → Doc → Prop
  | text {s : PyStr} : ResultDoc (.str s) (text (some "mr") s)
  | number {i : Int} : ResultDoc (.int i) (number (some "mr") i)
  | truth {b : Bool} : ResultDoc (.bool b) (truth (some "mr") b)
  | guid {n : Nat} {u : UUID} : u.bytes = bigEndian 16 n → ResultDoc (.uuid n) (leaf .G (some "mr") u.toStr)
  | version {s : PyStr} : ResultDoc (.version s) (leaf .Version (some "mr") s)
  | color {i : Nat} {name : String} : colorNames[i]? = some name → ResultDoc (.color (some i)) (enumerated (some "mr") "System.ConsoleColor" name i)
  | coordinates {x y : Int} : ResultDoc (.coordinates x y)
      (pairDoc (some "mr") "System.Management.Automation.Host.Coordinates" (Docs.number (some "X") x) (Docs.number (some "Y") y))
  | size {h w : Int} : ResultDoc (.size h w)
      (pairDoc (some "mr") "System.Management.Automation.Host.Size" (Docs.number (some "Width") w) (Docs.number (some "Height") h))

end Verif
