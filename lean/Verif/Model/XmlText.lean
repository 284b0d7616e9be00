import Verif.Model.Transport
/-
How xml.etree.ElementTree writes a document: `ET.tostring(element, encoding="utf-8", method="xml")`, used at
src/pypsrp/wsman.py 489 and 545 and src/pypsrp/messages.py 132. From the documentation and source of the standard library:
no declaration for UTF-8, namespace declarations on the root only, sorted by prefix, and short tags for elements without
content. Elements have no tail text here because the library never sets one.
-/
namespace Verif

/-- wsman.py 51-75 `NAMESPACES`, registered at 238-239, in the order of the prefixes. -/
def registeredNamespaces : List (PyStr × PyStr) :=
  [("cert", "http://schemas.microsoft.com/wbem/wsman/1/config/service/certmapping"),
    ("cfg", "http://schemas.microsoft.com/wbem/wsman/1/config"),
    ("cim", "http://schemas.dmtf.org/wbem/wscim/1/common"),
    ("i", "http://schemas.microsoft.com/wbem/wsman/1/cim/interactive.xsd"),
    ("m", "http://schemas.microsoft.com/wbem/wsman/1/machineid"),
    ("plugin", "http://schemas.microsoft.com/wbem/wsman/1/config/PluginConfiguration"),
    ("pwsh", "http://schemas.microsoft.com/powershell"),
    ("rsp", "http://schemas.microsoft.com/wbem/wsman/1/windows/shell"),
    ("s", "http://www.w3.org/2003/05/soap-envelope"),
    ("sub", "http://schemas.microsoft.com/wbem/wsman/1/subscription"),
    ("wsa", "http://schemas.xmlsoap.org/ws/2004/08/addressing"),
    ("wsdl", "http://schemas.xmlsoap.org/wsdl"),
    ("wse", "http://schemas.xmlsoap.org/ws/2004/08/eventing"),
    ("wsen", "http://schemas.xmlsoap.org/ws/2004/09/enumeration"),
    ("wsman", "http://schemas.dmtf.org/wbem/wsman/1/wsman.xsd"),
    ("wsmanfault", "http://schemas.microsoft.com/wbem/wsman/1/wsmanfault"),
    ("wsmid", "http://schemas.dmtf.org/wbem/wsman/identify/1/wsmanidentity.xsd"),
    ("wsmv", "http://schemas.microsoft.com/wbem/wsman/1/wsman.xsd"),
    ("wsp", "http://schemas.xmlsoap.org/ws/2004/09/policy"),
    ("wst", "http://schemas.xmlsoap.org/ws/2004/09/transfer"),
    ("xs", "http://www.w3.org/2001/XMLSchema"),
    ("xsi", "http://www.w3.org/2001/XMLSchema-instance")].map fun e => (e.1.toList, e.2.toList)

/-- `_escape_cdata`, one character. -/
def escapeTextChar (c : Char) : PyStr :=
  if c = '&' then "&amp;".toList
  else if c = '<' then "&lt;".toList
  else if c = '>' then "&gt;".toList
  else [c]

/-- `_escape_cdata`. The replacements are one after the other in Python, "&" first, which is the same. -/
def escapeText (s : PyStr) : PyStr := s.flatMap escapeTextChar

/-- `_escape_attrib`, one character. -/
def escapeAttrChar (c : Char) : PyStr :=
  if c = '&' then "&amp;".toList
  else if c = '<' then "&lt;".toList
  else if c = '>' then "&gt;".toList
  else if c = '"' then "&quot;".toList
  else if c = '\r' then "&#13;".toList
  else if c = '\n' then "&#10;".toList
  else if c = '\t' then "&#09;".toList
  else [c]

/-- `_escape_attrib`. -/
def escapeAttr (s : PyStr) : PyStr := s.flatMap escapeAttrChar

/-- One attribute: `write(" %s=\"%s\"" % (qnames[k], v))`. -/
def printAttr (a : PyStr × PyStr) : PyStr := ' ' :: (a.1 ++ '=' :: '"' :: (escapeAttr a.2 ++ ['"']))

def printAttrs (as : List (PyStr × PyStr)) : PyStr := as.flatMap printAttr

/-- `if text or len(elem)`. -/
def hasContent (text : Option PyStr) (kids : List Elem) : Bool := !(text.getD []).isEmpty || !kids.isEmpty

mutual
/-- `_serialize_xml` below the root. -/
def Elem.print : Elem → PyStr
  | .node tag attrs text kids =>
    '<' :: (tag ++ printAttrs attrs ++
      if hasContent text kids then '>' :: (escapeText (text.getD []) ++ printKids kids ++ '<' :: '/' :: (tag ++ ['>'])) else " />".toList)

def printKids : List Elem → PyStr
  | [] => []
  | k :: ks => k.print ++ printKids ks
end

/-- The prefix of a name. -/
def prefixOf (name : PyStr) : Option PyStr := if ':' ∈ name then some (name.takeWhile (· ≠ ':')) else none

mutual
/-- `_namespaces`: the prefixes of all tags and attributes. -/
def Elem.prefixes : Elem → List PyStr
  | .node tag attrs _ kids => (prefixOf tag).toList ++ attrs.filterMap (fun a => prefixOf a.1) ++ prefixesKids kids

def prefixesKids : List Elem → List PyStr
  | [] => []
  | k :: ks => k.prefixes ++ prefixesKids ks
end

/-- The declarations on the root. The prefix "xml" is never declared; it is not in the table. -/
def declarations (e : Elem) : List (PyStr × PyStr) :=
  (registeredNamespaces.filter fun n => n.1 ∈ e.prefixes).map fun n => ("xmlns:".toList ++ n.1, n.2)

/-- `ET.tostring` before encoding. -/
def printDocument (e : Elem) : PyStr :=
  Elem.print (.node e.tag (declarations e ++ e.attrs) e.text e.kids)

/-- The UTF-8 form of a text. -/
def utf8 (s : PyStr) : Bytes := s.flatMap String.utf8EncodeChar

end Verif
