import Verif.Model.Strings
import Verif.Model.Transport
/-
`Client.sanitise_clixml` (src/pypsrp/client.py 297-320). The XML parser is a parameter; tags are written as ElementTree has
them, with the namespace in braces.
-/
namespace Verif

/-- `str.replace(pattern, "")`. -/
def removeText (pattern : PyStr) (hp : pattern ≠ []) (s : PyStr) : PyStr :=
  if _h : pattern.isPrefixOf s = true then removeText pattern hp (s.drop pattern.length)
  else match s with
    | [] => []
    | c :: cs => c :: removeText pattern hp cs
termination_by s.length
decreasing_by
  · have h1 := (List.isPrefixOf_iff_prefix.mp _h).length_le
    have h2 := List.length_pos_iff.mpr hp
    simp only [List.length_drop]
    omega
  · simp

/-- client.py 315: `element.tag.replace("Objs", "")[1:-1]`. -/
def clixmlNamespace (tag : PyStr) : PyStr := ((removeText "Objs".toList (by decide) tag).drop 1).dropLast

/-- client.py 317-319: the texts of `element.findall("{%s}S[@S='Error']" % namespace)`. Exact for namespaces without braces. -/
def clixmlErrors (namespace_ : PyStr) (root : Elem) : List PyStr :=
  (root.kids.filter fun e => e.tag = '{' :: (namespace_ ++ "}S".toList) ∧ e.attr "S".toList = some "Error".toList).map fun e => e.text.getD []

/-- client.py 297-320 `sanitise_clixml` of a str: `str.index` raises `ValueError`. -/
def sanitiseClixml (parse : PyStr → Except PyErr Elem) (clixml : PyStr) : Except PyErr PyStr :=
  if "#< CLIXML".toList.isPrefixOf clixml then
    match (clixml.drop 2).dropWhile (· ≠ '<') with
    | [] => .error .valueError
    | output => do
      let element ← parse output
      deserializeString (some (clixmlErrors (clixmlNamespace element.tag) element).flatten)
  else .ok clixml

end Verif
