import Verif.Model.XmlText
/-
A reader for the XML that is written here, after the XML 1.0 recommendation: line ends are normalised first (2.11), characters
have to be legal (2.2), references are replaced (4.1, 4.6), white space in attribute values becomes a space (3.3.3).
Comments, CDATA sections, processing instructions, document types and text after a child element are refused, as are character
references other than those of the three white space characters.
-/
namespace Verif

/-- XML 1.0, 2.2 `Char`. -/
def legalXmlChar (c : Char) : Bool :=
  c.toNat = 9 || c.toNat = 10 || c.toNat = 13 || (32 ≤ c.toNat && c.toNat ≤ 0xD7FF) || (0xE000 ≤ c.toNat && c.toNat ≤ 0xFFFD) ||
    (0x10000 ≤ c.toNat && c.toNat ≤ 0x10FFFF)

/-- XML 1.0, 2.11: a carriage return with or without a line feed is a line feed. `after` says that one was just read. -/
def normaliseLines (after : Bool) : PyStr → PyStr
  | [] => []
  | c :: s =>
    if c = '\r' then '\n' :: normaliseLines true s
    else if c = '\n' && after then normaliseLines false s
    else c :: normaliseLines false s

/-- What a reference stands for. -/
def reference (name : PyStr) : Option Char :=
  if name = "amp".toList then some '&'
  else if name = "lt".toList then some '<'
  else if name = "gt".toList then some '>'
  else if name = "quot".toList then some '"'
  else if name = "apos".toList then some '\''
  else if name = "#13".toList then some '\r'
  else if name = "#10".toList then some '\n'
  else if name = "#09".toList then some '\t'
  else none

/-- Replace the references. `plain` says what becomes of other characters. In a reference the first argument is what was read of it. -/
def expand (plain : Char → Char) : Option PyStr → PyStr → Option PyStr
  | none, [] => some []
  | some _, [] => none
  | none, c :: s =>
    if c = '&' then expand plain (some []) s
    else if legalXmlChar c then (expand plain none s).map (plain c :: ·) else none
  | some r, c :: s =>
    if c = ';' then (reference r).bind fun d => (expand plain none s).map (d :: ·) else expand plain (some (r ++ [c])) s

/-- The text of an element. -/
def expandText (s : PyStr) : Option PyStr := expand id none s

/-- The value of an attribute. -/
def expandValue (s : PyStr) : Option PyStr :=
  if '<' ∈ s then none else expand (fun c => if c = '\t' ∨ c = '\n' ∨ c = '\r' then ' ' else c) none s

def nameChar (c : Char) : Bool := c ≠ ' ' && c ≠ '>' && c ≠ '/' && c ≠ '=' && c ≠ '<' && c ≠ '"' && c ≠ '&' && c ≠ '\r' && c ≠ '\n' && c ≠ '\t'

/-- The rest after a given text. -/
def afterText (pattern : PyStr) : PyStr → Option PyStr := fun s => if pattern <+: s then some (s.drop pattern.length) else none

/-- Attributes up to the end of the tag, and whether the element ends there. No name may occur twice (3.1). -/
def readAttrs : Nat → PyStr → Option (List (PyStr × PyStr) × Bool × PyStr)
  | 0, _ => none
  | n + 1, s =>
    match afterText ">".toList s with
    | some r => some ([], false, r)
    | none =>
      match (afterText " />".toList s).or (afterText "/>".toList s) with
      | some r => some ([], true, r)
      | none => do
        let s ← afterText " ".toList s
        let name := s.takeWhile nameChar
        if name = [] then none
        else do
          let s ← afterText "=\"".toList (s.dropWhile nameChar)
          let value ← expandValue (s.takeWhile (· ≠ '"'))
          let s ← afterText "\"".toList (s.dropWhile (· ≠ '"'))
          let (as, short, rest) ← readAttrs n s
          if name ∈ as.map (·.1) then none else some ((name, value) :: as, short, rest)

/-- `None` for no text, as ElementTree does. -/
def textOf (t : PyStr) : Option PyStr := if t = [] then none else some t

mutual
/-- An element. -/
def readElem : Nat → PyStr → Option (Elem × PyStr)
  | 0, _ => none
  | n + 1, s => do
    let s ← afterText "<".toList s
    let tag := s.takeWhile nameChar
    if tag = [] then none
    else do
      let (attrs, short, s) ← readAttrs (s.length + 1) (s.dropWhile nameChar)
      if short then return (.node tag attrs none [], s)
      else do
        let text ← expandText (s.takeWhile (· ≠ '<'))
        let (kids, s) ← readKids n (s.dropWhile (· ≠ '<'))
        let s ← afterText ("</".toList ++ tag ++ ">".toList) s
        return (.node tag attrs (textOf text) kids, s)

/-- Elements up to the end of their parent. -/
def readKids : Nat → PyStr → Option (List Elem × PyStr)
  | 0, _ => none
  | n + 1, s =>
    if "</".toList <+: s then some ([], s)
    else do
      let (k, s) ← readElem n s
      let (ks, s) ← readKids n s
      return (k :: ks, s)
end

/-- A document: one element and nothing after it. -/
def readDocument (s : PyStr) : Option Elem :=
  match readElem (s.length + 1) (normaliseLines false s) with
  | some (e, []) => some e
  | _ => none

/-- The characters of bytes in UTF-8. -/
def decodeUtf8 (b : Bytes) : Option PyStr := b.toByteArray.utf8Decode?.map Array.toList

mutual
/-- The element as ElementTree gives it after reading: no text rather than an empty one. -/
def Elem.normal : Elem → Elem
  | .node tag attrs text kids => .node tag attrs (textOf (text.getD [])) (normalKids kids)

def normalKids : List Elem → List Elem
  | [] => []
  | k :: ks => k.normal :: normalKids ks
end

/-- A name that needs no care. -/
def GoodName (s : PyStr) : Prop := s ≠ [] ∧ ∀ c ∈ s, nameChar c = true

mutual
/-- Names are names, attributes have different ones, texts and values are made of legal characters, and texts have no carriage return. -/
def Elem.Readable : Elem → Prop
  | .node tag attrs text kids => GoodName tag ∧ (attrs.map (·.1)).Nodup ∧ (∀ a ∈ attrs, GoodName a.1 ∧ ∀ c ∈ a.2, legalXmlChar c = true) ∧
    (∀ c ∈ text.getD [], legalXmlChar c = true ∧ c ≠ '\r') ∧ ReadableKids kids

def ReadableKids : List Elem → Prop
  | [] => True
  | k :: ks => k.Readable ∧ ReadableKids ks
end

end Verif
