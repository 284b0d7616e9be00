import Verif.Spec.Host
/-
Specifications for the calls that the default host classes get: how many arguments each method takes ([MS-PSRP] 2.2.3.17), which methods
are not supported, which do nothing, and what the attributes are.
-/
namespace Verif

/-- What the default classes promise of a method. -/
inductive CallKind where
  | acts | nothing | unsupported
  deriving DecidableEq, Repr

/-- The number of arguments and the kind of each method, in the order of the ids from 1. -/
def callTable : List (Nat × CallKind) := [
  (0, .acts), (0, .acts), (0, .acts), (0, .acts), (0, .acts), (1, .acts), (0, .unsupported), (0, .unsupported), (0, .nothing), (0, .nothing),
  (0, .unsupported), (0, .unsupported), (1, .acts), (3, .acts), (0, .acts), (1, .acts), (3, .acts), (1, .acts), (1, .acts), (2, .nothing),
  (1, .acts), (1, .acts), (3, .unsupported), (4, .unsupported), (6, .unsupported), (4, .unsupported),
  (0, .acts), (1, .acts), (0, .acts), (1, .acts), (0, .acts), (1, .acts), (0, .acts), (1, .acts), (0, .acts), (1, .acts), (0, .acts), (1, .acts),
  (0, .acts), (1, .acts), (0, .acts), (1, .acts), (0, .acts), (0, .acts), (0, .acts), (1, .unsupported), (0, .nothing), (2, .nothing),
  (2, .nothing), (1, .unsupported), (4, .nothing)]

/-- The text of a value in a message. -/
inductive SaysValue : HVal → PyStr → Prop
  | none : SaysValue .none "None".toList
  | yes : SaysValue (.bool true) "True".toList
  | no : SaysValue (.bool false) "False".toList
  | text (t : PyStr) : SaysValue (.str t) t
  | object (t : PyStr) (ext : List (PyStr × Int)) : SaysValue (.obj t ext) t
  | number (n : Nat) : SaysValue (.int n) (Nat.repr n).toList
  | negative (n : Nat) : SaysValue (.int (-(n + 1 : Nat))) ('-' :: (Nat.repr (n + 1)).toList)

/-- The methods that write a line with a label. -/
inductive Labels : Int → PyStr → Prop
  | debug : Labels 19 "DEBUG: ".toList
  | verbose : Labels 21 "VERBOSE: ".toList
  | warning : Labels 22 "WARNING: ".toList

/-- The attribute of the host that a method without arguments returns. -/
inductive Identity : Int → DefaultHost → HVal → Prop
  | name (s : DefaultHost) : Identity 1 s s.name
  | version (s : DefaultHost) : Identity 2 s (.version s.version)
  | instance (s : DefaultHost) : Identity 3 s (.uuid s.instanceId)
  | culture (s : DefaultHost) : Identity 4 s s.culture
  | uiCulture (s : DefaultHost) : Identity 5 s s.uiCulture

end Verif
