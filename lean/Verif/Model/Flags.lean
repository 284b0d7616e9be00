import Verif.Model.Utils
/-
Flag enumerations rendered as text (src/pypsrp/complex_objects.py 359-399, 1130-1175).
-/
namespace Verif

/-- The loop shared by both `_to_string` properties (lines 387-395 and 1162-1170): the names whose flag is set in
`self.value or 0`. Values are natural numbers (the flags are sent as a non-negative Int32). -/
def flagNames (stringMap : List (PyStr × Nat)) (value : Nat) : List PyStr :=
  (stringMap.filter (fun p => value &&& p.2 == p.2)).map (·.1)

/-- complex_objects.py 387-392. -/
def remoteStreamMap : List (PyStr × Nat) :=
  [("AddInvocationInfoToErrorRecord".toList, 1), ("AddInvocationInfoToWarningRecord".toList, 2),
   ("AddInvocationInfoToDebugRecord".toList, 4), ("AddInvocationInfoToVerboseRecord".toList, 8)]

/-- complex_objects.py 382-397 `RemoteStreamOptions._to_string`; `none` is Python's None. -/
def remoteStreamText (value : Option Nat) : PyStr :=
  if value = some 15 then "AddInvocationInfo".toList
  else joinWith ", ".toList (flagNames remoteStreamMap (value.getD 0))

/-- complex_objects.py 1157-1167. -/
def commandTypeMap : List (PyStr × Nat) :=
  [("Alias".toList, 0x0001), ("Function".toList, 0x0002), ("Filter".toList, 0x0004), ("Cmdlet".toList, 0x0008),
   ("ExternalScript".toList, 0x0010), ("Application".toList, 0x0020), ("Script".toList, 0x0040),
   ("Workflow".toList, 0x0080), ("Configuration".toList, 0x0100)]

/-- complex_objects.py 1152-1171 `CommandType._to_string`. -/
def commandTypeText (value : Option Nat) : PyStr :=
  if value = some 0x1FF then "All".toList
  else joinWith ", ".toList (flagNames commandTypeMap (value.getD 0))

end Verif
