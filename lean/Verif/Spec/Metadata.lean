import Verif.Model.Metadata
/-
Specifications for the metadata of commands: [MS-PSRP] 2.2.2.14 (GET_COMMAND_METADATA), 2.2.3.21 (CommandMetadataCount), 2.2.3.22
(CommandMetadata).
-/
namespace Verif

/-- A string in a list. -/
def stringElem (s : PyStr) : Xml := .node .S none none (some (serializeString s)) []

/-- Names of .NET types, with a number for later references. -/
def typeNames (ref : PyStr) (l : List PyStr) : Xml := .node .TN (some ref) none none (l.map fun t => .node .T none none (some t) [])

/-- A property with a list of strings. -/
def stringsProp (ref tn : String) (name : String) (types : List String) (l : List PyStr) : Xml :=
  .node .Obj (some ref.toList) (some name.toList) none [typeNames tn.toList (types.map String.toList), .node .LST none none none (l.map stringElem)]

/-- 2.2.2.14: the document that asks for the commands with one of these names, these types and in one of these namespaces. -/
def metadataDoc (names : List PyStr) (types : Int) (namespaces : Option (List PyStr)) : Xml :=
  .node .Obj (some ['0']) none none [.node .MS none none none [
    stringsProp "1" "0" "Name" ["System.String[]", "System.Array", "System.Object"] names,
    .node .I32 none (some "CommandType".toList) (some (pyStrInt types)) [],
    match namespaces with
    | none => .node .Nil none (some "Namespace".toList) none []
    | some l => stringsProp "2" "1" "Namespace" ["System.Object[]", "System.Array", "System.Object"] l,
    .node .Nil none (some "ArgumentList".toList) none []]]

/-- The first property of this name and type has this text, or none, as an empty string. -/
def SaysText (es : List Xml) (tag : Tag) (name : String) (text : Option PyStr) : Prop :=
  ∃ pre post r, es = pre ++ .node tag r (some name.toList) text [] :: post ∧ ∀ y ∈ pre, ¬ (y.tag = tag ∧ y.name = some name.toList)

/-- A string property. -/
def SaysString (es : List Xml) (name : String) (s : PyStr) : Prop := ∃ text, SaysText es .S name text ∧ deserializeString text = .ok s

end Verif
