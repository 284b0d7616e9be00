import Verif.Model.Serializer
import Verif.Model.Host
import Verif.Model.Flags
/-
The classes of CLIXML objects and PSRP messages: their properties and what their constructors assign
(src/pypsrp/complex_objects.py 98-1659, src/pypsrp/messages.py 231-944).

Not in the table: Pipeline, Command, CommandParameter and Array, whose properties are computed or have setters (Pipeline and
Array are in `Model.Commands`).
-/
namespace Verif

/-- Metadata while deserializing. `plain tag` is an ObjectMeta without class, `dynamic` the ObjectMeta("ObjDynamic",
object=GenericComplexObject), `cls name` an ObjectMeta("Obj", object=name). -/
inductive DMeta where
  | plain (tag : Tag)
  | dynamic
  | cls (name : PyStr)
  | list (elem : DMeta)
  | queue
  | stack
  | dict
  deriving DecidableEq

/-- A property of a class: the attribute and its ObjectMeta, as the serializer uses it (`write`) and as the deserializer
does (`read`). An ObjectMeta("*", object=name) is read as `cls name`; the one such list (CommandParameter) is not in the table. -/
structure Field where
  attr : PyStr
  write : Meta
  read : DMeta
  deriving DecidableEq

/-- What a constructor assigns to an attribute. -/
inductive Init where
  /-- the keyword argument of that name, None by default -/
  | kw (name : PyStr)
  /-- a constant -/
  | const (s : Scalar)
  /-- whether the keyword argument is not None -/
  | given (name : PyStr)
  deriving DecidableEq

/-- Where `_to_string` comes from: an attribute with a default, the table of an Enum (complex_objects.py 141-152) or the flags
of RemoteStreamOptions and CommandType, whose setters do nothing. -/
inductive TextKind where
  | attr (default : Option PyStr)
  | enum (stringMap : List (Int × PyStr))
  | flags (text : Option Nat → PyStr)

/-- A class: `_types`, `_property_sets`, `_adapted_properties`, `_extended_properties`, the assignments of `__init__` and the
attributes that are Python properties without setter. -/
structure ClassDef where
  types : List PyStr := []
  sets : List Field := []
  adapted : List Field := []
  extended : List Field := []
  text : TextKind := .attr none
  init : List (PyStr × Init) := []
  readOnly : List PyStr := []

/-! ### Abbreviations for the table -/

/-- `(attr, ObjectMeta(tag, name=name, optional=optional))`. -/
def prim (attr : String) (tag : Tag) (name : String) (optional : Bool := false) : Field :=
  ⟨attr.toList, .plain tag (some name.toList) optional, .plain tag⟩
/-- `(attr, ObjectMeta("Obj", name=name, optional=optional, object=cls))`. -/
def objOf (attr name cls : String) (optional : Bool := false) : Field :=
  ⟨attr.toList, .plain .Obj (some name.toList) optional, .cls cls.toList⟩
/-- `(attr, ObjectMeta(name=name, optional=optional))`. -/
def anyOf (attr name : String) (optional : Bool := false) : Field := prim attr .star name optional
/-- `(attr, ObjectMeta("ObjDynamic", name=name, object=GenericComplexObject, optional=optional))`. -/
def dynOf (attr name : String) (optional : Bool := false) : Field :=
  ⟨attr.toList, .plain .ObjDynamic (some name.toList) optional, .dynamic⟩
/-- `(attr, ListMeta(name=name, optional=optional, list_value_meta=ObjectMeta(tag), list_types=types))`. -/
def listOf (attr name : String) (tag : Tag) (types : List PyStr := listTypes) (optional : Bool := false) : Field :=
  ⟨attr.toList, .list .lst .LST (some name.toList) optional (.plain tag none false) types, .list (.plain tag)⟩
/-- `(attr, DictionaryMeta(name=name, optional=optional, dict_key_meta=key, dict_types=types))`. -/
def dictOf (attr name : String) (types : List PyStr := dictTypes) (optional : Bool := false)
    (key : Meta := .plain .star (some "Key".toList) false) : Field :=
  ⟨attr.toList, .dict .DCT (some name.toList) optional key (.plain .star (some "Value".toList) false) types, .dict⟩
/-- `self.attr = kwargs.get("attr")` (or a positional parameter of that name, None by default). -/
def same (attr : String) : PyStr × Init := (attr.toList, .kw attr.toList)

/-- complex_objects.py 124-139 `Enum.__init__`. -/
def enumClass (type : String) (text : TextKind) : ClassDef :=
  { types := [type.toList, "System.Enum".toList, "System.ValueType".toList, "System.Object".toList]
    sets := [⟨"value".toList, .plain .I32 none false, .plain .I32⟩]
    text := text
    init := [same "value"] }

/-- A `string_map` from its entries. -/
def stringMap (l : List (Int × String)) : TextKind := .enum (l.map (fun e => (e.1, e.2.toList)))

/-- complex_objects.py 816-823: type names of the bound parameters. -/
def boundTypes : List PyStr := ["System.Management.Automation.PSBoundParametersDictionary".toList,
  ("System.Collections.Generic.Dictionary`2[[System.String, mscorlib, Version=4.0.0.0, Culture=neutral, " ++
    "PublicKeyToken=b77a5c561934e089],[System.Object, mscorlib, Version=4.0.0.0, Culture=neutral, " ++
    "PublicKeyToken=b77a5c561934e089]]").toList, "System.Object".toList]
/-- complex_objects.py 832-837. -/
def unboundTypes : List PyStr := [("System.Collections.Generic.List`1[[System.Object, mscorlib, Version=4.0.0.0, " ++
  "Culture=neutral, PublicKeyToken=b77a5c561934e089]]").toList, "System.Object".toList]
/-- complex_objects.py 859. -/
def iterationTypes : List PyStr := ["System.In32[]".toList, "System.Array".toList, "System.Object".toList]
/-- complex_objects.py 890-895. -/
def collectionTypes : List PyStr := [("System.Collections.ObjectModel.ReadOnlyCollection`1[[System.Int32, mscorlib, " ++
  "Version=4.0.0.0, Culture=neutral, PublicKeyToken=b77a5c561934e089]]").toList, "System.Object".toList]

/-- complex_objects.py 809-884 and 944-1019: the properties about the invocation, the same in ErrorRecord and
InformationalRecord. -/
def invocationFields : List Field := [
  prim "invocation_name" .S "InvocationInfo_InvocationName" true,
  dictOf "invocation_bound_parameters" "InvocationInfo_BoundParameters" boundTypes true (.plain .S none false),
  listOf "invocation_unbound_arguments" "InvocationInfo_UnboundArguments" .star unboundTypes true,
  objOf "invocation_command_origin" "InvocationInfo_CommandOrigin" "CommandOrigin" true,
  prim "invocation_expecting_input" .B "InvocationInfo_ExpectingInput" true,
  prim "invocation_line" .S "InvocationInfo_Line" true,
  prim "invocation_offset_in_line" .I32 "InvocationInfo_OffsetInLine" true,
  prim "invocation_position_message" .S "InvocationInfo_PositionMessage" true,
  prim "invocation_script_name" .S "InvocationInfo_ScriptName" true,
  prim "invocation_script_line_number" .I32 "InvocationInfo_ScriptLineNumber" true,
  prim "invocation_history_id" .I64 "InvocationInfo_HistoryId" true,
  prim "invocation_pipeline_length" .I32 "InvocationInfo_PipelineLength" true,
  prim "invocation_pipeline_position" .I32 "InvocationInfo_PipelinePosition" true,
  listOf "invocation_pipeline_iteration_info" "InvocationInfo_PipelineIterationInfo" .I32 iterationTypes true,
  objOf "command_type" "CommandInfo_CommandType" "CommandType" true,
  prim "command_definition" .S "CommandInfo_Definition" true,
  prim "command_name" .S "CommandInfo_Name" true,
  objOf "command_visibility" "CommandInfo_Visibility" "SessionStateEntryVisibility" true]

/-- The attributes of `invocationFields`, all of them assigned from arguments of the same name. -/
def invocationInit : List (PyStr × Init) := invocationFields.map (fun f => (f.attr, .kw f.attr))

/-- complex_objects.py 782-930 `ErrorRecord`. -/
def errorRecord : ClassDef where
  types := ["System.Management.Automation.ErrorRecord".toList, "System.Object".toList]
  extended := [
    anyOf "exception" "Exception" true,
    anyOf "target_object" "TargetObject" true,
    prim "invocation" .B "SerializeExtendedInfo",
    dynOf "invocation_info" "InvocationInfo" true,
    prim "fq_error" .S "FullyQualifiedErrorId",
    prim "category" .I32 "ErrorCategory_Category",
    prim "activity" .S "ErrorCategory_Activity" true,
    prim "reason" .S "ErrorCategory_Reason" true,
    prim "target_name" .S "ErrorCategory_TargetName" true,
    prim "target_type" .S "ErrorCategory_TargetType" true,
    prim "message" .S "ErrorCategory_Message" true,
    prim "details_message" .S "ErrorDetails_Message" true,
    prim "action" .S "ErrorDetails_RecommendedAction" true,
    prim "script_stacktrace" .S "ErrorDetails_ScriptStackTrace" true,
    prim "extended_info_present" .B "SerializeExtendedInfo"] ++ invocationFields ++
    [listOf "pipeline_iteration_info" "PipelineIterationInfo" .I32 collectionTypes true]
  init := [same "exception", same "target_info", same "invocation", same "fq_error", same "category", same "activity",
    same "reason", same "target_name", same "target_type", same "message", same "details_message", same "action",
    same "pipeline_iteration_info"] ++ invocationInit ++ [("extended_info_present".toList, .given "invocation".toList)]

/-- complex_objects.py 933-1054 `InformationalRecord`; the subclasses put their own type first (messages.py 742-775). -/
def informationalRecord (own : List PyStr) : ClassDef where
  types := own ++ ["System.Management.Automation.InformationRecord".toList, "System.Object".toList]
  extended := [
    prim "message" .S "InformationalRecord_Message",
    prim "invocation" .B "InformationalRecord_SerializeInvocationInfo"] ++ invocationFields ++
    [listOf "pipeline_iteration_info" "InformationalRecord_PipelineIterationInfo" .I32 collectionTypes true]
  init := [same "message", same "pipeline_iteration_info"] ++ invocationInit ++ [("invocation".toList, .const (.bool false))]

/-- messages.py 617-663: calls and responses of a host, the same for pools and pipelines (869-882). -/
def hostCall : ClassDef where
  extended := [prim "ci" .I64 "ci", objOf "mi" "mi" "HostMethodIdentifier", listOf "mp" "mp" .star]
  init := [same "ci", same "mi", same "mp"]
def hostResponse : ClassDef where
  extended := [prim "ci" .I64 "ci", objOf "mi" "mi" "HostMethodIdentifier", anyOf "mr" "mr", objOf "me" "me" "ErrorRecord" true]
  init := [same "ci", same "mi", same "mr", same "me"]

/-- The classes by name. -/
def classes : List (String × ClassDef) := [
  -- complex_objects.py 156-175
  ("Coordinates", {
    types := ["System.Management.Automation.Host.Coordinates".toList, "System.ValueType".toList, "System.Object".toList]
    adapted := [prim "x" .I32 "X", prim "y" .I32 "Y"]
    init := [same "x", same "y"] }),
  -- complex_objects.py 178-194
  ("Size", {
    types := ["System.Management.Automation.Host.Size".toList, "System.ValueType".toList, "System.Object".toList]
    adapted := [prim "width" .I32 "Width", prim "height" .I32 "Height"]
    init := [same "width", same "height"] }),
  -- complex_objects.py 197-243
  ("Color", enumClass "System.ConsoleColor" (stringMap [(0, "Black"), (1, "DarkBlue"), (2, "DarkGreen"), (3, "DarkCyan"),
    (4, "DarkRed"), (5, "DarkMagenta"), (6, "DarkYellow"), (7, "Gray"), (8, "DarkGray"), (9, "Blue"), (10, "Green"),
    (11, "Cyan"), (12, "Red"), (13, "Magenta"), (14, "Yellow"), (15, "White")])),
  -- complex_objects.py 316-335
  ("PSThreadOptions", enumClass "System.Management.Automation.Runspaces.PSThreadOptions"
    (stringMap [(0, "Default"), (1, "UseNewThread"), (2, "ReuseThread"), (3, "UseCurrentThread")])),
  -- complex_objects.py 338-356
  ("ApartmentState", enumClass "System.Management.Automation.Runspaces.ApartmentState"
    (stringMap [(0, "STA"), (1, "MTA"), (2, "UNKNOWN")])),
  -- complex_objects.py 359-399
  ("RemoteStreamOptions", enumClass "System.Management.Automation.Runspaces.RemoteStreamOptions" (.flags remoteStreamText)),
  -- complex_objects.py 660-726
  ("_HostDefaultData", {
    extended := [dictOf "_host_dict" "data" dictTypes false (.plain .I32 (some "Key".toList) false)]
    init := [same "raw_ui"]
    readOnly := ["_host_dict".toList] }),
  -- complex_objects.py 729-779
  ("HostInfo", {
    extended := [objOf "_host_data" "_hostDefaultData" "_HostDefaultData" true, prim "_is_host_null" .B "_isHostNull",
      prim "_is_host_ui_null" .B "_isHostUINull", prim "_is_host_raw_ui_null" .B "_isHostRawUINull",
      prim "_use_runspace_host" .B "_useRunspaceHost"]
    init := [same "host"]
    readOnly := ["_host_data".toList, "_is_host_null".toList, "_is_host_ui_null".toList, "_is_host_raw_ui_null".toList,
      "_use_runspace_host".toList] }),
  ("ErrorRecord", errorRecord),
  ("InformationalRecord", informationalRecord []),
  -- complex_objects.py 1057-1127
  ("HostMethodIdentifier", enumClass "System.Management.Automation.Remoting.RemoteHostMethodId"
    (.enum (methodNames.zipIdx.map (fun e => ((e.2 : Int) + 1, e.1))))),
  -- complex_objects.py 1130-1175
  ("CommandType", enumClass "System.Management.Automation.CommandTypes" (.flags commandTypeText)),
  -- complex_objects.py 1178-1194; it assigns `types`, not `_types`
  ("CommandMetadataCount", { extended := [prim "count" .I32 "Count"], init := [same "count"] }),
  -- complex_objects.py 1197-1246; it assigns `types`, not `_types`
  ("CommandMetadata", {
    extended := [prim "name" .S "Name", prim "namespace" .S "Namespace", prim "help_uri" .S "HelpUri",
      objOf "command_type" "CommandType" "CommandType",
      listOf "output_type" "OutputType" .S [("System.Collections.ObjectModel.ReadOnlyCollection`1[[System.Management.Automation.PSTypeName, " ++
        "System.Management.Automation, Version=3.0.0.0, Culture=neutral, PublicKeyToken=31bf3856ad364e35]]").toList],
      ⟨"parameters".toList, .dict .DCT (some "Parameters".toList) false (.plain .S none false) (.plain .Obj none false) dictTypes, .dict⟩]
    init := [same "name", same "namespace", same "help_uri", same "command_type", same "output_type", same "parameters"] }),
  -- complex_objects.py 1249-1287; it assigns `types`, not `_types`
  ("ParameterMetadata", {
    adapted := [prim "name" .S "Name", prim "parameter_type" .S "ParameterType",
      listOf "aliases" "Aliases" .S [("System.Collections.ObjectModel.Collection`1[[System.String, mscorlib, " ++
        "Version=4.0.0.0, Culture=neutral, PublicKeyToken=b77a5c561934e089]]").toList, "System.Object".toList],
      prim "switch_parameter" .B "SwitchParameter", prim "dynamic" .B "IsDynamic"]
    init := [same "name", same "parameter_type", same "aliases", same "switch_parameter", same "dynamic"] }),
  -- complex_objects.py 1290-1313
  ("PSCredential", {
    types := ["System.Management.Automation.PSCredential".toList, "System.Object".toList]
    adapted := [prim "username" .S "UserName", prim "password" .SS "Password"]
    text := .attr (some "System.Management.Automation.PSCredential".toList)
    init := [same "username", same "password"] }),
  -- complex_objects.py 1316-1341
  ("KeyInfo", {
    extended := [prim "code" .I32 "virtualKeyCode" true, prim "character" .C "character", prim "state" .I32 "controlKeyState",
      prim "key_down" .B "keyDown"]
    init := [same "code", same "character", same "state", same "key_down"] }),
  -- complex_objects.py 1344-1369
  ("KeyInfoDotNet", {
    types := ["System.Management.Automation.Host.KeyInfo".toList, "System.ValueType".toList, "System.Object".toList]
    adapted := [prim "code" .I32 "VirtualKeyCode", prim "character" .C "Character", prim "state" .S "ControlKeyState",
      prim "key_down" .B "KeyDown"]
    init := [same "code", same "character", same "state", same "key_down"] }),
  -- complex_objects.py 1392-1415
  ("BufferCell", {
    adapted := [prim "character" .C "character", objOf "foreground_color" "foregroundColor" "Color",
      objOf "background_color" "backgroundColor" "Color", prim "cell_type" .I32 "bufferCellType"]
    init := [same "character", same "foreground_color", same "background_color", same "cell_type"] }),
  -- complex_objects.py 1526-1541
  ("CommandOrigin", enumClass "System.Management.Automation.CommandOrigin" (stringMap [(0, "Runspace"), (1, "Internal")])),
  -- complex_objects.py 1544-1598 with the default protocol_version_2=False
  ("PipelineResultTypes", enumClass "System.Management.Automation.Runspaces.PipelineResultTypes"
    (stringMap [(0, "None"), (1, "Output"), (2, "Error"), (3, "Warning"), (4, "Verbose"), (5, "Debug"), (6, "Information"),
      (7, "All"), (8, "Null")])),
  -- complex_objects.py 1601-1620; the argument ietf_language_tag goes to an attribute of another name (1617)
  ("CultureInfo", {
    adapted := [prim "lcid" .I32 "LCID", prim "name" .S "Name", prim "display_name" .S "DisplayName",
      prim "ietf_language_tag" .S "IetfLanguageTag", prim "three_letter_iso_name" .S "ThreeLetterISOLanguageName",
      prim "three_letter_windows_name" .S "ThreeLetterWindowsLanguageName",
      prim "two_letter_iso_language_name" .S "TwoLetterISOLanguageName"]
    init := [same "lcid", same "name", same "display_name", ("ieft_language_tag".toList, .kw "ietf_language_tag".toList),
      same "three_letter_iso_name", same "three_letter_windows_name", same "two_letter_iso_language_name"] }),
  -- complex_objects.py 1623-1641
  ("ProgressRecordType", enumClass "System.Management.Automation.ProgressRecordType"
    (stringMap [(0, "Processing"), (1, "Completed")])),
  -- complex_objects.py 1644-1659
  ("SessionStateEntryVisibility", enumClass "System.Management.Automation.SessionStateEntryVisibility"
    (stringMap [(0, "Public"), (1, "Private")])),
  -- messages.py 231-261
  ("SessionCapability", {
    extended := [prim "protocol_version" .Version "protocolversion", prim "ps_version" .Version "PSVersion",
      prim "serialization_version" .Version "SerializationVersion", prim "time_zone" .BA "TimeZone" true]
    init := [same "protocol_version", same "ps_version", same "serialization_version", same "time_zone"] }),
  -- messages.py 264-312
  ("InitRunspacePool", {
    extended := [prim "min_runspaces" .I32 "MinRunspaces", prim "max_runspaces" .I32 "MaxRunspaces",
      objOf "thread_options" "PSThreadOptions" "PSThreadOptions", objOf "apartment_state" "ApartmentState" "ApartmentState",
      objOf "host_info" "HostInfo" "HostInfo",
      dictOf "application_arguments" "ApplicationArguments" ["System.Management.Automation.PSPrimitiveDictionary".toList,
        "System.Collections.Hashtable".toList, "System.Object".toList]]
    init := [same "min_runspaces", same "max_runspaces", same "thread_options", same "apartment_state", same "host_info",
      same "application_arguments"] }),
  -- messages.py 315-331
  ("PublicKey", { extended := [prim "public_key" .S "PublicKey"], init := [same "public_key"] }),
  -- messages.py 334-348
  ("EncryptedSessionKey", { extended := [prim "session_key" .S "EncryptedSessionKey"], init := [same "session_key"] }),
  -- messages.py 362-383
  ("SetMaxRunspaces", {
    extended := [prim "max_runspaces" .I32 "MaxRunspaces", prim "ci" .I64 "CI"], init := [same "max_runspaces", same "ci"] }),
  -- messages.py 386-407
  ("SetMinRunspaces", {
    extended := [prim "min_runspaces" .I32 "MinRunspaces", prim "ci" .I64 "CI"], init := [same "min_runspaces", same "ci"] }),
  -- messages.py 410-427
  ("RunspaceAvailability", {
    extended := [anyOf "response" "SetMinMaxRunspacesResponse", prim "ci" .I64 "ci"], init := [same "response", same "ci"] }),
  -- messages.py 430-447; the error record has no name
  ("RunspacePoolStateMessage", {
    extended := [prim "state" .I32 "RunspaceState", ⟨"error_record".toList, .plain .Obj none true, .cls "ErrorRecord".toList⟩]
    init := [same "state", same "error_record"] }),
  -- messages.py 497-512
  ("GetAvailableRunspaces", { extended := [prim "ci" .I64 "ci"], init := [same "ci"] }),
  -- messages.py 515-560
  ("UserEvent", {
    extended := [prim "event_id" .I32 "PSEventArgs.EventIdentifier", prim "source_id" .S "PSEventArgs.SourceIdentifier",
      prim "time" .DT "PSEventArgs.TimeGenerated", anyOf "sender" "PSEventArgs.Sender", anyOf "args" "PSEventArgs.SourceArgs",
      anyOf "data" "PSEventArgs.MessageData", prim "computer" .S "PSEventArgs.ComputerName",
      prim "runspace_id" .G "PSEventArgs.RunspaceId"]
    init := [same "event_id", same "source_id", same "time", same "sender", same "args", same "data", same "computer",
      same "runspace_id"] }),
  -- messages.py 563-575
  ("ApplicationPrivateData", { extended := [dictOf "data" "ApplicationPrivateData"], init := [same "data"] }),
  -- messages.py 578-614
  ("GetCommandMetadata", {
    extended := [listOf "names" "Name" .S ["System.String[]".toList, "System.Array".toList, "System.Object".toList],
      ⟨"command_type".toList, .plain .star (some "CommandType".toList) false, .cls "CommandType".toList⟩,
      anyOf "namespace" "Namespace", listOf "argument_list" "ArgumentList" .star]
    init := [same "names", same "command_type", same "namespace", same "argument_list"] }),
  ("RunspacePoolHostCall", hostCall),
  ("RunspacePoolHostResponse", hostResponse),
  -- messages.py 683-691
  ("EndOfPipelineInput", {}),
  -- messages.py 709-719
  ("ErrorRecordMessage", errorRecord),
  -- messages.py 722-739; the error record has no class
  ("PipelineState", {
    extended := [prim "state" .I32 "PipelineState", prim "error_record" .Obj "ExceptionAsErrorRecord" true]
    init := [same "state", same "error_record"] }),
  ("DebugRecord", informationalRecord ["System.Management.Automation.DebugRecord".toList]),
  ("VerboseRecord", informationalRecord ["System.Management.Automation.VerboseRecord".toList]),
  ("WarningRecord", informationalRecord ["System.Management.Automation.WarningRecord".toList]),
  -- messages.py 778-816
  ("ProgressRecord", {
    extended := [prim "activity" .S "Activity", prim "activity_id" .I32 "ActivityId", prim "description" .S "StatusDescription",
      prim "current_operation" .S "CurrentOperation", prim "parent_activity_id" .I32 "ParentActivityId",
      prim "percent_complete" .I32 "PercentComplete", objOf "progress_type" "Type" "ProgressRecordType",
      prim "seconds_remaining" .I32 "SecondsRemaining"]
    init := [same "activity", same "activity_id", same "description", same "current_operation", same "parent_activity_id",
      same "percent_complete", same "progress_type", same "seconds_remaining"] }),
  -- messages.py 819-866
  ("InformationRecord", {
    types := ["System.Management.Automation.InformationRecord".toList, "System.Object".toList]
    extended := [anyOf "message_data" "MessageData", prim "source" .S "Source", prim "time_generated" .DT "TimeGenerated",
      listOf "tags" "Tags" .S, prim "user" .S "User", prim "computer" .S "Computer", prim "pid" .U32 "ProcessId",
      prim "native_thread_id" .U32 "NativeThreadId", prim "managed_thread_id" .U32 "ManagedThreadId",
      prim "write_information_stream" .B "WriteInformationStream" true]
    init := [same "message_data", same "source", same "time_generated", same "tags", same "user", same "computer", same "pid",
      same "native_thread_id", same "managed_thread_id", same "write_information_stream"] }),
  ("PipelineHostCall", hostCall),
  ("PipelineHostResponse", hostResponse),
  -- messages.py 885-906
  ("ConnectRunspacePool", {
    extended := [prim "min_runspaces" .I32 "MinRunspaces" true, prim "max_runspaces" .I32 "MaxRunspaces" true]
    init := [same "min_runspaces", same "max_runspaces"] }),
  -- messages.py 909-926
  ("RunspacePoolInitData", {
    extended := [prim "min_runspaces" .I32 "MinRunspaces", prim "max_runspaces" .I32 "MaxRunspaces"]
    init := [same "min_runspaces", same "max_runspaces"] }),
  -- messages.py 929-944
  ("ResetRunspaceState", { extended := [prim "ci" .I64 "ci"], init := [same "ci"] })]

/-- A class by name. -/
def findClass (name : PyStr) : Option ClassDef := (classes.find? (fun e => e.1.toList == name)).map (·.2)

/-! ### Building an object -/

/-- The attributes after `cls(**kwargs)`. -/
def construct (c : ClassDef) (kwargs : PyStr → PyVal) : List (PyStr × PyVal) :=
  c.init.map (fun e => (e.1, match e.2 with
    | .kw n => kwargs n
    | .const s => .sc s
    | .given n => .sc (.bool (match kwargs n with | .sc .none => false | _ => true))))

/-- `getattr(value, attr)` for the properties of one kind, serializer.py 423-430. -/
def getFields (attrs : List (PyStr × PyVal)) : List Field → Except PyErr (List (Meta × PyVal))
  | [] => .ok []
  | f :: fs => match attrs.lookup f.attr with
    | none => .error .attributeError
    | some v => do
      let vs ← getFields attrs fs
      return (f.write, v) :: vs

/-- The `value` of an Enum as Python's `self.value or 0` sees it. -/
def enumValue (attrs : List (PyStr × PyVal)) : Option Int :=
  match attrs.lookup "value".toList with
  | some (.sc (.int i)) => some i
  | _ => none

/-- `value._to_string` of a new object. Values of enumerations are integers or None, and those
of flags are not negative. -/
def classText (c : ClassDef) (attrs : List (PyStr × PyVal)) : Except PyErr (Option PyStr) :=
  match c.text with
  | .attr d => .ok d
  | .enum m => match m.lookup ((enumValue attrs).getD 0) with
    | some s => .ok (some s)
    | none => .error .keyError
  | .flags f => .ok (some (f ((enumValue attrs).map Int.toNat)))

/-- What the serializer gets from an object (serializer.py 416-436): its types, text and properties. A property without
attribute raises AttributeError; the library reports it after writing the properties before it. -/
def instanceOf (c : ClassDef) (oid : Nat) (attrs : List (PyStr × PyVal)) : Except PyErr PyVal := do
  let text ← classText c attrs
  let sets ← getFields attrs c.sets
  let ext ← getFields attrs c.extended
  let adp ← getFields attrs c.adapted
  return .typed oid c.types text sets ext adp

end Verif
