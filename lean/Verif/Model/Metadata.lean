import Verif.Model.Classes
import Verif.Model.Wire
/-
The metadata of commands (src/pypsrp/powershell.py 414-460): the message that asks for it, and the objects made of the answers.
The run of the pipeline is `getMetadata` in Model/Pool.
-/
namespace Verif

/-- The `names` argument: a string or a list of strings. -/
inductive NamesArg where
  | one (s : PyStr)
  | many (l : List PyStr)

/-- powershell.py 444-445. -/
def NamesArg.list : NamesArg → List PyStr
  | .one s => [s]
  | .many l => l

/-- An optional list of strings. -/
def textsVal : Option (List PyStr) → PyVal
  | none => .sc .none
  | some l => .list (l.map fun s => .sc (.str s))

/-- The keyword arguments of `GetCommandMetadata`, powershell.py 447, messages.py 581-587. -/
def metadataArgs (names : NamesArg) (types : Int) (namespaces : Option (List PyStr)) (arguments : PyVal) (a : PyStr) : PyVal :=
  if a = "names".toList then textsVal (some names.list)
  else if a = "command_type".toList then .sc (.int types)
  else if a = "namespace".toList then textsVal namespaces
  else if a = "argument_list".toList then arguments
  else .sc .none

/-- powershell.py 447: the message. -/
def metadataRequest (oid : Nat) (names : NamesArg) (types : Int) (namespaces : Option (List PyStr)) (arguments : PyVal) : Except PyErr PyVal :=
  match findClass "GetCommandMetadata".toList with
  | none => .error .notModelled
  | some c => instanceOf c oid (construct c (metadataArgs names types namespaces arguments))

/-- serializer.py 366-367: only objects have the attribute `_xml`, which is their text (complex_objects.py 105). -/
def hasXml : PyVal → Bool
  | .generic .. => true
  | .typed .. => true
  | _ => false

/-- powershell.py 460: the text of each object is read again, as a CommandMetadata. -/
def convertAll : List (PyStr × PyVal) → Except PyErr (List PyVal)
  | [] => .ok []
  | (text, v) :: rest =>
    if hasXml v then do
      let m ← deserializeText (.cls "CommandMetadata".toList) text
      let ms ← convertAll rest
      return m :: ms
    else .error .attributeError

/-- powershell.py 449-460: what the pipeline wrote, with the texts; the first object is dropped. -/
def convertMetadata : List (PyStr × PyVal) → Except PyErr (List PyVal)
  | [] => .error .indexError
  | _ :: rest => convertAll rest

end Verif
