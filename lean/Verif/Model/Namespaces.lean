import Verif.Model.Shell
import Verif.Spec.XmlRead
/-
Namespaces of documents, which Model/Transport leaves to `TransportEnv.parse`: `ET.fromstring` (src/pypsrp/wsman.py 511 and 626), the table
`NAMESPACES` (wsman.py 51-75), and the paths that `find` and `findall` take with that table (wsman.py 270-413, 436, 512, 634-659, shell.py
249-262, 348, 372-376, 423, powershell.py 347, 488-518, 1529).

The reader without namespaces is `readDocument`; the rules for namespaces are those of expat, after "Namespaces in XML 1.0".
-/
namespace Verif

/-- wsman.py 74: the namespace of `xml:lang`. -/
def xmlUri : PyStr := "http://www.w3.org/XML/1998/namespace".toList

/-- The namespace of declarations, "Namespaces in XML" 3. -/
def xmlnsUri : PyStr := "http://www.w3.org/2000/xmlns/".toList

/-- wsman.py 51-75 `NAMESPACES`. -/
def wsmanNamespaces : List (PyStr × PyStr) := ("xml".toList, xmlUri) :: registeredNamespaces

/-- How ElementTree writes a name with a namespace. -/
def clarkName (uri name : PyStr) : PyStr := '{' :: (uri ++ '}' :: name)

/-- The prefix that an attribute declares; the empty one stands for names without prefix. -/
def declaredPrefix (name : PyStr) : Option PyStr :=
  if name = "xmlns".toList then some []
  else if "xmlns:".toList.isPrefixOf name ∧ name ≠ "xmlns:".toList then some (name.drop 6)
  else none

/-- The declarations in a tag. -/
def declaredIn (attrs : List (PyStr × PyStr)) : List (PyStr × PyStr) := attrs.filterMap fun a => (declaredPrefix a.1).map fun p => (p, a.2)

/-- expat's `addBinding`: "xmlns" cannot be declared, "xml" only as what it is, and nothing else as the two reserved namespaces. Only
names without prefix may be freed of a namespace. A namespace with the character that separates it from the name is refused. -/
def goodDeclaration (d : PyStr × PyStr) : Bool :=
  d.1 ≠ "xmlns".toList && (d.1 = "xml".toList) == (d.2 = xmlUri) && d.2 ≠ xmlnsUri && (d.1 = [] || d.2 ≠ []) && '}' ∉ d.2 && ':' ∉ d.1

/-- The name of an element or attribute; the scope has the declarations, the innermost first. Braces are no characters of names. -/
def resolveName (scope : List (PyStr × PyStr)) (element : Bool) (name : PyStr) : Option PyStr :=
  if '{' ∈ name ∨ '}' ∈ name then none
  else if ':' ∈ name then
    let p := name.takeWhile (· ≠ ':')
    let l := (name.dropWhile (· ≠ ':')).drop 1
    if p = [] ∨ l = [] ∨ ':' ∈ l then none else (scope.lookup p).map fun uri => clarkName uri l
  else if element then
    match scope.lookup [] with
    | none => some name
    | some [] => some name
    | some uri => some (clarkName uri name)
  else some name

/-- The attributes that are no declarations, with their names. -/
def resolveAttrs (scope : List (PyStr × PyStr)) : List (PyStr × PyStr) → Option (List (PyStr × PyStr))
  | [] => some []
  | a :: as =>
    if (declaredPrefix a.1).isSome then resolveAttrs scope as
    else do
      let name ← resolveName scope false a.1
      let as ← resolveAttrs scope as
      return (name, a.2) :: as

mutual
/-- The elements with the names that ElementTree gives them. -/
def resolveElem (scope : List (PyStr × PyStr)) : Elem → Option Elem
  | .node tag attrs text kids =>
    if (declaredIn attrs).all goodDeclaration then do
      let tag ← resolveName (declaredIn attrs ++ scope) true tag
      let as ← resolveAttrs (declaredIn attrs ++ scope) attrs
      if (as.map (·.1)).Nodup then do
        let ks ← resolveChildren (declaredIn attrs ++ scope) kids
        return .node tag as text ks
      else none
    else none

def resolveChildren (scope : List (PyStr × PyStr)) : List Elem → Option (List Elem)
  | [] => some []
  | k :: ks => do
    let k ← resolveElem scope k
    let ks ← resolveChildren scope ks
    return k :: ks
end

/-- `ET.fromstring`, `none` for a ParseError. -/
def fromString (b : Bytes) : Option Elem :=
  (decodeUtf8 b).bind fun s => (readDocument s).bind (resolveElem [("xml".toList, xmlUri)])

/-- One step of a path: `xpath_tokenizer` of ElementTree replaces a prefix by the namespace in the table. `none` for a SyntaxError. -/
def pathStep (s : PyStr) : Option PyStr :=
  if ':' ∈ s then (wsmanNamespaces.lookup (s.takeWhile (· ≠ ':'))).map fun uri => clarkName uri ((s.dropWhile (· ≠ ':')).drop 1)
  else some s

/-- All steps of a path. -/
def pathSteps : List PyStr → Option (List PyStr)
  | [] => some []
  | s :: ss => do
    let t ← pathStep s
    let ts ← pathSteps ss
    return t :: ts

/-- `element.find(path, namespaces=NAMESPACES)`. -/
def Elem.findNs (e : Elem) (path : List PyStr) : Option (Option Elem) := (pathSteps path).map e.find

/-- `element.findall(path, namespaces=NAMESPACES)`. -/
def Elem.findAllNs (e : Elem) (path : List PyStr) : Option (List Elem) := (pathSteps path).map e.findAll

/-- The name in the other modules: with the prefix of the table instead of the namespace. -/
def libraryName : PyStr → PyStr
  | '{' :: s =>
    match wsmanNamespaces.find? (·.2 = s.takeWhile (· ≠ '}')) with
    | some d => d.1 ++ ':' :: (s.dropWhile (· ≠ '}')).drop 1
    | none => '{' :: s
  | s => s

mutual
/-- The elements as the other modules have them. -/
def Elem.inLibrary : Elem → Elem
  | .node tag attrs text kids => .node (libraryName tag) (attrs.map fun a => (libraryName a.1, a.2)) text (inLibraryKids kids)

def inLibraryKids : List Elem → List Elem
  | [] => []
  | k :: ks => k.inLibrary :: inLibraryKids ks
end

/-- What stands for `TransportEnv.parse`. -/
def parseWsman (b : Bytes) : Option Elem := (fromString b).map Elem.inLibrary

end Verif
