import Verif.Model.Namespaces
/-
Specification of namespaces after "Namespaces in XML 1.0": what a document means apart from its choice of prefixes.
-/
namespace Verif

/-- What the prefixes stand for; the empty one stands for element names without prefix. -/
abbrev NsScope := PyStr → Option PyStr

/-- The attribute that declares a prefix. -/
def declaring (p : PyStr) : PyStr := if p = [] then "xmlns".toList else "xmlns:".toList ++ p

/-- The scope inside a tag with these attributes. -/
def NsScope.inside (sc : NsScope) (attrs : List (PyStr × PyStr)) : NsScope := fun p => (attrs.lookup (declaring p)).or (sc p)

/-- Outside of all elements only "xml" is declared. -/
def outermost : NsScope := fun p => if p = "xml".toList then some "http://www.w3.org/XML/1998/namespace".toList else none

/-- A name without colon. -/
def PlainName (s : PyStr) : Prop := s ≠ [] ∧ ':' ∉ s ∧ '{' ∉ s ∧ '}' ∉ s

/-- The declarations are allowed ("xml" is not declared again). -/
def GoodDeclarations (attrs : List (PyStr × PyStr)) : Prop :=
  ∀ p uri, (declaring p, uri) ∈ attrs → (p = [] ∨ (PlainName p ∧ p ≠ "xml".toList ∧ p ≠ "xmlns".toList ∧ uri ≠ [])) ∧ '}' ∉ uri ∧
    uri ≠ "http://www.w3.org/XML/1998/namespace".toList ∧ uri ≠ "http://www.w3.org/2000/xmlns/".toList

/-- The written name stands for this name in this namespace, the empty one for none. Attributes without prefix have no namespace. -/
def StandsFor (sc : NsScope) (element : Bool) (written uri name : PyStr) : Prop :=
  PlainName name ∧ ((∃ p, PlainName p ∧ written = p ++ ':' :: name ∧ sc p = some uri ∧ uri ≠ []) ∨
    (written = name ∧ uri = if element then (sc []).getD [] else []))

/-- How the library calls this name: by the prefix of its table, by the namespace if it is not in the table. -/
def CalledInLibrary (uri name called : PyStr) : Prop :=
  (uri = [] ∧ called = name) ∨ (∃ p, (p, uri) ∈ wsmanNamespaces ∧ called = p ++ ':' :: name) ∨
    (uri ≠ [] ∧ (∀ d ∈ wsmanNamespaces, d.2 ≠ uri) ∧ called = '{' :: (uri ++ '}' :: name))

/-- The attributes without the declarations. -/
inductive WrittenAttrs (sc : NsScope) : List (PyStr × PyStr) → List (PyStr × PyStr) → Prop
  | nil : WrittenAttrs sc [] []
  | declaration {p uri as bs} : WrittenAttrs sc as bs → WrittenAttrs sc ((declaring p, uri) :: as) bs
  | attr {written uri name called value as bs} : (∀ p, written ≠ declaring p) → StandsFor sc false written uri name →
      CalledInLibrary uri name called → WrittenAttrs sc as bs → WrittenAttrs sc ((written, value) :: as) ((called, value) :: bs)

mutual
/-- The first element, as it is written, is the second one as the library calls it. -/
inductive WrittenAs : NsScope → Elem → Elem → Prop
  | node {sc tag attrs text kids uri name called bs ls} : GoodDeclarations attrs → StandsFor (sc.inside attrs) true tag uri name →
      CalledInLibrary uri name called → WrittenAttrs (sc.inside attrs) attrs bs → (bs.map (·.1)).Nodup →
      WrittenKids (sc.inside attrs) kids ls → WrittenAs sc (.node tag attrs text kids) (.node called bs text ls)

inductive WrittenKids : NsScope → List Elem → List Elem → Prop
  | nil {sc} : WrittenKids sc [] []
  | cons {sc k l ks ls} : WrittenAs sc k l → WrittenKids sc ks ls → WrittenKids sc (k :: ks) (l :: ls)
end

/-- What the prefixes of the table stand for. -/
def libraryScope : NsScope := fun p => wsmanNamespaces.lookup p

/-- The namespaces of the documents, [MS-WSMV] 2.2.1 and [DSP0226] annex A, [MS-PSRP] 3.1.5.3.1 for `pwsh`, and XML itself. -/
def protocolNamespaces : List (String × String) :=
  [("cim", "http://schemas.dmtf.org/wbem/wscim/1/common"),
   ("wsman", "http://schemas.dmtf.org/wbem/wsman/1/wsman.xsd"),
   ("wsmid", "http://schemas.dmtf.org/wbem/wsman/identify/1/wsmanidentity.xsd"),
   ("pwsh", "http://schemas.microsoft.com/powershell"),
   ("i", "http://schemas.microsoft.com/wbem/wsman/1/cim/interactive.xsd"),
   ("cfg", "http://schemas.microsoft.com/wbem/wsman/1/config"),
   ("plugin", "http://schemas.microsoft.com/wbem/wsman/1/config/PluginConfiguration"),
   ("cert", "http://schemas.microsoft.com/wbem/wsman/1/config/service/certmapping"),
   ("m", "http://schemas.microsoft.com/wbem/wsman/1/machineid"),
   ("sub", "http://schemas.microsoft.com/wbem/wsman/1/subscription"),
   ("rsp", "http://schemas.microsoft.com/wbem/wsman/1/windows/shell"),
   ("wsmv", "http://schemas.microsoft.com/wbem/wsman/1/wsman.xsd"),
   ("wsmanfault", "http://schemas.microsoft.com/wbem/wsman/1/wsmanfault"),
   ("wsa", "http://schemas.xmlsoap.org/ws/2004/08/addressing"),
   ("wse", "http://schemas.xmlsoap.org/ws/2004/08/eventing"),
   ("wsen", "http://schemas.xmlsoap.org/ws/2004/09/enumeration"),
   ("wsp", "http://schemas.xmlsoap.org/ws/2004/09/policy"),
   ("wst", "http://schemas.xmlsoap.org/ws/2004/09/transfer"),
   ("wsdl", "http://schemas.xmlsoap.org/wsdl"),
   ("xs", "http://www.w3.org/2001/XMLSchema"),
   ("xsi", "http://www.w3.org/2001/XMLSchema-instance"),
   ("s", "http://www.w3.org/2003/05/soap-envelope"),
   ("xml", "http://www.w3.org/XML/1998/namespace")]

/-- A text that is a document with these elements, whatever its prefixes. -/
def DocumentOf (text : PyStr) (e : Elem) : Prop := ∃ raw, readDocument text = some raw ∧ WrittenAs outermost raw e

end Verif
