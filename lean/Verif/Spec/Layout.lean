import Verif.Spec.Classes
/-
What the documents of the classes look like: type names, properties, and the texts of numbers. The table is a transcription of its own of
src/pypsrp/complex_objects.py 98-1659 and src/pypsrp/messages.py 231-944, class by class, not made from `Model.Classes`.
-/
namespace Verif

/-- An element inside a dictionary: its tag, if fixed, and its name. -/
structure EntryDoc where
  tag : Option Tag
  name : Option String

/-- What a property holds. -/
inductive Holds where
  /-- a value in an element with this tag -/
  | value (t : Tag)
  /-- an object of a class -/
  | object
  /-- an object of no class -/
  | dynamic
  | any
  /-- a list with the type names; the elements may have a fixed tag -/
  | list (elem : Option Tag) (types : List String)
  | dict (key value : EntryDoc) (types : List String)

/-- A property: the attribute, the name in the document, what it holds, and whether it is left out for None. -/
structure PropDoc where
  attr : String
  name : Option String
  holds : Holds
  optional : Bool

structure Layout where
  types : List String := []
  extended : List PropDoc := []
  adapted : List PropDoc := []
  /-- an enumeration: the document has a number -/
  number : Bool := false
  /-- the texts of the numbers -/
  texts : List (Int × String) := []
  /-- the text of every object -/
  text : Option String := none

/-- [MS-PSRP] 2.2.3.15: error records. -/
def errorProps : List PropDoc := [
  ⟨"exception", some "Exception", .any, true⟩,
  ⟨"target_object", some "TargetObject", .any, true⟩,
  ⟨"invocation", some "SerializeExtendedInfo", .value .B, false⟩,
  ⟨"invocation_info", some "InvocationInfo", .dynamic, true⟩,
  ⟨"fq_error", some "FullyQualifiedErrorId", .value .S, false⟩,
  ⟨"category", some "ErrorCategory_Category", .value .I32, false⟩,
  ⟨"activity", some "ErrorCategory_Activity", .value .S, true⟩,
  ⟨"reason", some "ErrorCategory_Reason", .value .S, true⟩,
  ⟨"target_name", some "ErrorCategory_TargetName", .value .S, true⟩,
  ⟨"target_type", some "ErrorCategory_TargetType", .value .S, true⟩,
  ⟨"message", some "ErrorCategory_Message", .value .S, true⟩,
  ⟨"details_message", some "ErrorDetails_Message", .value .S, true⟩,
  ⟨"action", some "ErrorDetails_RecommendedAction", .value .S, true⟩,
  ⟨"script_stacktrace", some "ErrorDetails_ScriptStackTrace", .value .S, true⟩,
  ⟨"extended_info_present", some "SerializeExtendedInfo", .value .B, false⟩,
  ⟨"invocation_name", some "InvocationInfo_InvocationName", .value .S, true⟩,
  ⟨"invocation_bound_parameters", some "InvocationInfo_BoundParameters", .dict ⟨some .S, none⟩ ⟨none,
    some "Value"⟩ ["System.Management.Automation.PSBoundParametersDictionary",
    "System.Collections.Generic.Dictionary`2[[System.String, mscorlib, Version=4.0.0.0, Culture=neutral, PublicKeyToken=b77a5c561934e089],[System.Object, mscorlib, Version=4.0.0.0, Culture=neutral, PublicKeyToken=b77a5c561934e089]]",
    "System.Object"], true⟩,
  ⟨"invocation_unbound_arguments", some "InvocationInfo_UnboundArguments",
    .list none ["System.Collections.Generic.List`1[[System.Object, mscorlib, Version=4.0.0.0, Culture=neutral, PublicKeyToken=b77a5c561934e089]]",
    "System.Object"], true⟩,
  ⟨"invocation_command_origin", some "InvocationInfo_CommandOrigin", .object, true⟩,
  ⟨"invocation_expecting_input", some "InvocationInfo_ExpectingInput", .value .B, true⟩,
  ⟨"invocation_line", some "InvocationInfo_Line", .value .S, true⟩,
  ⟨"invocation_offset_in_line", some "InvocationInfo_OffsetInLine", .value .I32, true⟩,
  ⟨"invocation_position_message", some "InvocationInfo_PositionMessage", .value .S, true⟩,
  ⟨"invocation_script_name", some "InvocationInfo_ScriptName", .value .S, true⟩,
  ⟨"invocation_script_line_number", some "InvocationInfo_ScriptLineNumber", .value .I32, true⟩,
  ⟨"invocation_history_id", some "InvocationInfo_HistoryId", .value .I64, true⟩,
  ⟨"invocation_pipeline_length", some "InvocationInfo_PipelineLength", .value .I32, true⟩,
  ⟨"invocation_pipeline_position", some "InvocationInfo_PipelinePosition", .value .I32, true⟩,
  ⟨"invocation_pipeline_iteration_info", some "InvocationInfo_PipelineIterationInfo", .list (some .I32) ["System.In32[]", "System.Array", "System.Object"],
    true⟩,
  ⟨"command_type", some "CommandInfo_CommandType", .object, true⟩,
  ⟨"command_definition", some "CommandInfo_Definition", .value .S, true⟩,
  ⟨"command_name", some "CommandInfo_Name", .value .S, true⟩,
  ⟨"command_visibility", some "CommandInfo_Visibility", .object, true⟩,
  ⟨"pipeline_iteration_info", some "PipelineIterationInfo",
    .list (some .I32) ["System.Collections.ObjectModel.ReadOnlyCollection`1[[System.Int32, mscorlib, Version=4.0.0.0, Culture=neutral, PublicKeyToken=b77a5c561934e089]]",
    "System.Object"], true⟩]

/-- [MS-PSRP] 2.2.3.16: informational records. -/
def informationalProps : List PropDoc := [
  ⟨"message", some "InformationalRecord_Message", .value .S, false⟩,
  ⟨"invocation", some "InformationalRecord_SerializeInvocationInfo", .value .B, false⟩,
  ⟨"invocation_name", some "InvocationInfo_InvocationName", .value .S, true⟩,
  ⟨"invocation_bound_parameters", some "InvocationInfo_BoundParameters", .dict ⟨some .S, none⟩ ⟨none,
    some "Value"⟩ ["System.Management.Automation.PSBoundParametersDictionary",
    "System.Collections.Generic.Dictionary`2[[System.String, mscorlib, Version=4.0.0.0, Culture=neutral, PublicKeyToken=b77a5c561934e089],[System.Object, mscorlib, Version=4.0.0.0, Culture=neutral, PublicKeyToken=b77a5c561934e089]]",
    "System.Object"], true⟩,
  ⟨"invocation_unbound_arguments", some "InvocationInfo_UnboundArguments",
    .list none ["System.Collections.Generic.List`1[[System.Object, mscorlib, Version=4.0.0.0, Culture=neutral, PublicKeyToken=b77a5c561934e089]]",
    "System.Object"], true⟩,
  ⟨"invocation_command_origin", some "InvocationInfo_CommandOrigin", .object, true⟩,
  ⟨"invocation_expecting_input", some "InvocationInfo_ExpectingInput", .value .B, true⟩,
  ⟨"invocation_line", some "InvocationInfo_Line", .value .S, true⟩,
  ⟨"invocation_offset_in_line", some "InvocationInfo_OffsetInLine", .value .I32, true⟩,
  ⟨"invocation_position_message", some "InvocationInfo_PositionMessage", .value .S, true⟩,
  ⟨"invocation_script_name", some "InvocationInfo_ScriptName", .value .S, true⟩,
  ⟨"invocation_script_line_number", some "InvocationInfo_ScriptLineNumber", .value .I32, true⟩,
  ⟨"invocation_history_id", some "InvocationInfo_HistoryId", .value .I64, true⟩,
  ⟨"invocation_pipeline_length", some "InvocationInfo_PipelineLength", .value .I32, true⟩,
  ⟨"invocation_pipeline_position", some "InvocationInfo_PipelinePosition", .value .I32, true⟩,
  ⟨"invocation_pipeline_iteration_info", some "InvocationInfo_PipelineIterationInfo", .list (some .I32) ["System.In32[]", "System.Array", "System.Object"],
    true⟩,
  ⟨"command_type", some "CommandInfo_CommandType", .object, true⟩,
  ⟨"command_definition", some "CommandInfo_Definition", .value .S, true⟩,
  ⟨"command_name", some "CommandInfo_Name", .value .S, true⟩,
  ⟨"command_visibility", some "CommandInfo_Visibility", .object, true⟩,
  ⟨"pipeline_iteration_info", some "InformationalRecord_PipelineIterationInfo",
    .list (some .I32) ["System.Collections.ObjectModel.ReadOnlyCollection`1[[System.Int32, mscorlib, Version=4.0.0.0, Culture=neutral, PublicKeyToken=b77a5c561934e089]]",
    "System.Object"], true⟩]

/-- [MS-PSRP] 2.2.2.15, 2.2.2.27: calls of the host. -/
def hostCallProps : List PropDoc := [
  ⟨"ci", some "ci", .value .I64, false⟩,
  ⟨"mi", some "mi", .object, false⟩,
  ⟨"mp", some "mp", .list none ["System.Object[]", "System.Array", "System.Object"], false⟩]

/-- [MS-PSRP] 2.2.2.16, 2.2.2.28: answers of the host. -/
def hostResponseProps : List PropDoc := [
  ⟨"ci", some "ci", .value .I64, false⟩,
  ⟨"mi", some "mi", .object, false⟩,
  ⟨"mr", some "mr", .any, false⟩,
  ⟨"me", some "me", .object, true⟩]

/-- The classes: the type names, the extended and adapted properties in the order of the document, and the texts of numbers. -/
def layouts : List (String × Layout) := [
  ("Coordinates", {
    types := ["System.Management.Automation.Host.Coordinates", "System.ValueType", "System.Object"],
    adapted := [
      ⟨"x", some "X", .value .I32, false⟩,
      ⟨"y", some "Y", .value .I32, false⟩] }),
  ("Size", {
    types := ["System.Management.Automation.Host.Size", "System.ValueType", "System.Object"],
    adapted := [
      ⟨"width", some "Width", .value .I32, false⟩,
      ⟨"height", some "Height", .value .I32, false⟩] }),
  ("Color", {
    types := ["System.ConsoleColor", "System.Enum", "System.ValueType", "System.Object"],
    number := true, texts := [(0, "Black"), (1, "DarkBlue"), (2, "DarkGreen"), (3, "DarkCyan"), (4, "DarkRed"), (5, "DarkMagenta"), (6, "DarkYellow"), (7,
      "Gray"), (8, "DarkGray"), (9, "Blue"), (10, "Green"), (11, "Cyan"), (12, "Red"), (13, "Magenta"), (14, "Yellow"), (15, "White")] }),
  ("PSThreadOptions", {
    types := ["System.Management.Automation.Runspaces.PSThreadOptions", "System.Enum", "System.ValueType", "System.Object"],
    number := true, texts := [(0, "Default"), (1, "UseNewThread"), (2, "ReuseThread"), (3, "UseCurrentThread")] }),
  ("ApartmentState", {
    types := ["System.Management.Automation.Runspaces.ApartmentState", "System.Enum", "System.ValueType", "System.Object"],
    number := true, texts := [(0, "STA"), (1, "MTA"), (2, "UNKNOWN")] }),
  ("RemoteStreamOptions", {
    types := ["System.Management.Automation.Runspaces.RemoteStreamOptions", "System.Enum", "System.ValueType", "System.Object"],
    number := true }),
  ("_HostDefaultData", {
    types := [],
    extended := [
      ⟨"_host_dict", some "data", .dict ⟨some .I32, some "Key"⟩ ⟨none, some "Value"⟩ ["System.Collections.Hashtable", "System.Object"], false⟩] }),
  ("HostInfo", {
    types := [],
    extended := [
      ⟨"_host_data", some "_hostDefaultData", .object, true⟩,
      ⟨"_is_host_null", some "_isHostNull", .value .B, false⟩,
      ⟨"_is_host_ui_null", some "_isHostUINull", .value .B, false⟩,
      ⟨"_is_host_raw_ui_null", some "_isHostRawUINull", .value .B, false⟩,
      ⟨"_use_runspace_host", some "_useRunspaceHost", .value .B, false⟩] }),
  ("ErrorRecord", {
    types := ["System.Management.Automation.ErrorRecord", "System.Object"],
    extended := errorProps }),
  ("InformationalRecord", {
    types := ["System.Management.Automation.InformationRecord", "System.Object"],
    extended := informationalProps }),
  ("HostMethodIdentifier", {
    types := ["System.Management.Automation.Remoting.RemoteHostMethodId", "System.Enum", "System.ValueType", "System.Object"],
    number := true, texts := [(1, "GetName"), (2, "GetVersion"), (3, "GetInstanceId"), (4, "GetCurrentCulture"), (5, "GetCurrentUICulture"), (6,
      "SetShouldExit"), (7, "EnterNestedPrompt"), (8, "ExitNestedPrompt"), (9, "NotifyBeginApplication"), (10, "NotifyEndApplication"), (11, "ReadLine"),
      (12, "ReadLineAsSecureString"), (13, "Write1"), (14, "Write2"), (15, "WriteLine1"), (16, "WriteLine2"), (17, "WriteLine3"), (18, "WriteErrorLine"),
      (19, "WriteDebugLine"), (20, "WriteProgress"), (21, "WriteVerboseLine"), (22, "WriteWarningLine"), (23, "Prompt"), (24, "PromptForCredential1"), (25,
      "PromptForCredential2"), (26, "PromptForChoice"), (27, "GetForegroundColor"), (28, "SetForegroundColor"), (29, "GetBackgroundColor"), (30,
      "SetBackgroundColor"), (31, "GetCursorPosition"), (32, "SetCursorPosition"), (33, "GetWindowPosition"), (34, "SetWindowPosition"), (35,
      "GetCursorSize"), (36, "SetCursorSize"), (37, "GetBufferSize"), (38, "SetBufferSize"), (39, "GetWindowSize"), (40, "SetWindowSize"), (41,
      "GetWindowTitle"), (42, "SetWindowTitle"), (43, "GetMaxWindowSize"), (44, "GetMaxPhysicalWindowSize"), (45, "GetKeyAvailable"), (46, "ReadKey"), (47,
      "FlushInputBuffer"), (48, "SetBufferContents1"), (49, "SetBufferContents2"), (50, "GetBufferContents"), (51, "ScrollBufferContents"), (52,
      "PushRunspace"), (53, "PopRunspace"), (54, "GetIsRunspacePushed"), (55, "GetRunspce"), (56, "PromptForChoiceMultipleSelection")] }),
  ("CommandType", {
    types := ["System.Management.Automation.CommandTypes", "System.Enum", "System.ValueType", "System.Object"],
    number := true }),
  ("CommandMetadataCount", {
    types := [],
    extended := [
      ⟨"count", some "Count", .value .I32, false⟩] }),
  ("CommandMetadata", {
    types := [],
    extended := [
      ⟨"name", some "Name", .value .S, false⟩,
      ⟨"namespace", some "Namespace", .value .S, false⟩,
      ⟨"help_uri", some "HelpUri", .value .S, false⟩,
      ⟨"command_type", some "CommandType", .object, false⟩,
      ⟨"output_type", some "OutputType",
        .list (some .S) ["System.Collections.ObjectModel.ReadOnlyCollection`1[[System.Management.Automation.PSTypeName, System.Management.Automation, Version=3.0.0.0, Culture=neutral, PublicKeyToken=31bf3856ad364e35]]"],
        false⟩,
      ⟨"parameters", some "Parameters", .dict ⟨some .S, none⟩ ⟨some .Obj, none⟩ ["System.Collections.Hashtable", "System.Object"], false⟩] }),
  ("ParameterMetadata", {
    types := [],
    adapted := [
      ⟨"name", some "Name", .value .S, false⟩,
      ⟨"parameter_type", some "ParameterType", .value .S, false⟩,
      ⟨"aliases", some "Aliases",
        .list (some .S) ["System.Collections.ObjectModel.Collection`1[[System.String, mscorlib, Version=4.0.0.0, Culture=neutral, PublicKeyToken=b77a5c561934e089]]",
        "System.Object"], false⟩,
      ⟨"switch_parameter", some "SwitchParameter", .value .B, false⟩,
      ⟨"dynamic", some "IsDynamic", .value .B, false⟩] }),
  ("PSCredential", {
    types := ["System.Management.Automation.PSCredential", "System.Object"],
    adapted := [
      ⟨"username", some "UserName", .value .S, false⟩,
      ⟨"password", some "Password", .value .SS, false⟩],
    text := some "System.Management.Automation.PSCredential" }),
  ("KeyInfo", {
    types := [],
    extended := [
      ⟨"code", some "virtualKeyCode", .value .I32, true⟩,
      ⟨"character", some "character", .value .C, false⟩,
      ⟨"state", some "controlKeyState", .value .I32, false⟩,
      ⟨"key_down", some "keyDown", .value .B, false⟩] }),
  ("KeyInfoDotNet", {
    types := ["System.Management.Automation.Host.KeyInfo", "System.ValueType", "System.Object"],
    adapted := [
      ⟨"code", some "VirtualKeyCode", .value .I32, false⟩,
      ⟨"character", some "Character", .value .C, false⟩,
      ⟨"state", some "ControlKeyState", .value .S, false⟩,
      ⟨"key_down", some "KeyDown", .value .B, false⟩] }),
  ("BufferCell", {
    types := [],
    adapted := [
      ⟨"character", some "character", .value .C, false⟩,
      ⟨"foreground_color", some "foregroundColor", .object, false⟩,
      ⟨"background_color", some "backgroundColor", .object, false⟩,
      ⟨"cell_type", some "bufferCellType", .value .I32, false⟩] }),
  ("CommandOrigin", {
    types := ["System.Management.Automation.CommandOrigin", "System.Enum", "System.ValueType", "System.Object"],
    number := true, texts := [(0, "Runspace"), (1, "Internal")] }),
  ("PipelineResultTypes", {
    types := ["System.Management.Automation.Runspaces.PipelineResultTypes", "System.Enum", "System.ValueType", "System.Object"],
    number := true, texts := [(0, "None"), (1, "Output"), (2, "Error"), (3, "Warning"), (4, "Verbose"), (5, "Debug"), (6, "Information"), (7, "All"), (8,
      "Null")] }),
  ("CultureInfo", {
    types := [],
    adapted := [
      ⟨"lcid", some "LCID", .value .I32, false⟩,
      ⟨"name", some "Name", .value .S, false⟩,
      ⟨"display_name", some "DisplayName", .value .S, false⟩,
      ⟨"ietf_language_tag", some "IetfLanguageTag", .value .S, false⟩,
      ⟨"three_letter_iso_name", some "ThreeLetterISOLanguageName", .value .S, false⟩,
      ⟨"three_letter_windows_name", some "ThreeLetterWindowsLanguageName", .value .S, false⟩,
      ⟨"two_letter_iso_language_name", some "TwoLetterISOLanguageName", .value .S, false⟩] }),
  ("ProgressRecordType", {
    types := ["System.Management.Automation.ProgressRecordType", "System.Enum", "System.ValueType", "System.Object"],
    number := true, texts := [(0, "Processing"), (1, "Completed")] }),
  ("SessionStateEntryVisibility", {
    types := ["System.Management.Automation.SessionStateEntryVisibility", "System.Enum", "System.ValueType", "System.Object"],
    number := true, texts := [(0, "Public"), (1, "Private")] }),
  ("SessionCapability", {
    types := [],
    extended := [
      ⟨"protocol_version", some "protocolversion", .value .Version, false⟩,
      ⟨"ps_version", some "PSVersion", .value .Version, false⟩,
      ⟨"serialization_version", some "SerializationVersion", .value .Version, false⟩,
      ⟨"time_zone", some "TimeZone", .value .BA, true⟩] }),
  ("InitRunspacePool", {
    types := [],
    extended := [
      ⟨"min_runspaces", some "MinRunspaces", .value .I32, false⟩,
      ⟨"max_runspaces", some "MaxRunspaces", .value .I32, false⟩,
      ⟨"thread_options", some "PSThreadOptions", .object, false⟩,
      ⟨"apartment_state", some "ApartmentState", .object, false⟩,
      ⟨"host_info", some "HostInfo", .object, false⟩,
      ⟨"application_arguments", some "ApplicationArguments", .dict ⟨none, some "Key"⟩ ⟨none,
        some "Value"⟩ ["System.Management.Automation.PSPrimitiveDictionary", "System.Collections.Hashtable", "System.Object"], false⟩] }),
  ("PublicKey", {
    types := [],
    extended := [
      ⟨"public_key", some "PublicKey", .value .S, false⟩] }),
  ("EncryptedSessionKey", {
    types := [],
    extended := [
      ⟨"session_key", some "EncryptedSessionKey", .value .S, false⟩] }),
  ("SetMaxRunspaces", {
    types := [],
    extended := [
      ⟨"max_runspaces", some "MaxRunspaces", .value .I32, false⟩,
      ⟨"ci", some "CI", .value .I64, false⟩] }),
  ("SetMinRunspaces", {
    types := [],
    extended := [
      ⟨"min_runspaces", some "MinRunspaces", .value .I32, false⟩,
      ⟨"ci", some "CI", .value .I64, false⟩] }),
  ("RunspaceAvailability", {
    types := [],
    extended := [
      ⟨"response", some "SetMinMaxRunspacesResponse", .any, false⟩,
      ⟨"ci", some "ci", .value .I64, false⟩] }),
  ("RunspacePoolStateMessage", {
    types := [],
    extended := [
      ⟨"state", some "RunspaceState", .value .I32, false⟩,
      ⟨"error_record", none, .object, true⟩] }),
  ("GetAvailableRunspaces", {
    types := [],
    extended := [
      ⟨"ci", some "ci", .value .I64, false⟩] }),
  ("UserEvent", {
    types := [],
    extended := [
      ⟨"event_id", some "PSEventArgs.EventIdentifier", .value .I32, false⟩,
      ⟨"source_id", some "PSEventArgs.SourceIdentifier", .value .S, false⟩,
      ⟨"time", some "PSEventArgs.TimeGenerated", .value .DT, false⟩,
      ⟨"sender", some "PSEventArgs.Sender", .any, false⟩,
      ⟨"args", some "PSEventArgs.SourceArgs", .any, false⟩,
      ⟨"data", some "PSEventArgs.MessageData", .any, false⟩,
      ⟨"computer", some "PSEventArgs.ComputerName", .value .S, false⟩,
      ⟨"runspace_id", some "PSEventArgs.RunspaceId", .value .G, false⟩] }),
  ("ApplicationPrivateData", {
    types := [],
    extended := [
      ⟨"data", some "ApplicationPrivateData", .dict ⟨none, some "Key"⟩ ⟨none, some "Value"⟩ ["System.Collections.Hashtable", "System.Object"], false⟩] }),
  ("GetCommandMetadata", {
    types := [],
    extended := [
      ⟨"names", some "Name", .list (some .S) ["System.String[]", "System.Array", "System.Object"], false⟩,
      ⟨"command_type", some "CommandType", .any, false⟩,
      ⟨"namespace", some "Namespace", .any, false⟩,
      ⟨"argument_list", some "ArgumentList", .list none ["System.Object[]", "System.Array", "System.Object"], false⟩] }),
  ("RunspacePoolHostCall", {
    types := [],
    extended := hostCallProps }),
  ("RunspacePoolHostResponse", {
    types := [],
    extended := hostResponseProps }),
  ("EndOfPipelineInput", {
    types := [] }),
  ("ErrorRecordMessage", {
    types := ["System.Management.Automation.ErrorRecord", "System.Object"],
    extended := errorProps }),
  ("PipelineState", {
    types := [],
    extended := [
      ⟨"state", some "PipelineState", .value .I32, false⟩,
      ⟨"error_record", some "ExceptionAsErrorRecord", .object, true⟩] }),
  ("DebugRecord", {
    types := ["System.Management.Automation.DebugRecord", "System.Management.Automation.InformationRecord", "System.Object"],
    extended := informationalProps }),
  ("VerboseRecord", {
    types := ["System.Management.Automation.VerboseRecord", "System.Management.Automation.InformationRecord", "System.Object"],
    extended := informationalProps }),
  ("WarningRecord", {
    types := ["System.Management.Automation.WarningRecord", "System.Management.Automation.InformationRecord", "System.Object"],
    extended := informationalProps }),
  ("ProgressRecord", {
    types := [],
    extended := [
      ⟨"activity", some "Activity", .value .S, false⟩,
      ⟨"activity_id", some "ActivityId", .value .I32, false⟩,
      ⟨"description", some "StatusDescription", .value .S, false⟩,
      ⟨"current_operation", some "CurrentOperation", .value .S, false⟩,
      ⟨"parent_activity_id", some "ParentActivityId", .value .I32, false⟩,
      ⟨"percent_complete", some "PercentComplete", .value .I32, false⟩,
      ⟨"progress_type", some "Type", .object, false⟩,
      ⟨"seconds_remaining", some "SecondsRemaining", .value .I32, false⟩] }),
  ("InformationRecord", {
    types := ["System.Management.Automation.InformationRecord", "System.Object"],
    extended := [
      ⟨"message_data", some "MessageData", .any, false⟩,
      ⟨"source", some "Source", .value .S, false⟩,
      ⟨"time_generated", some "TimeGenerated", .value .DT, false⟩,
      ⟨"tags", some "Tags", .list (some .S) ["System.Object[]", "System.Array", "System.Object"], false⟩,
      ⟨"user", some "User", .value .S, false⟩,
      ⟨"computer", some "Computer", .value .S, false⟩,
      ⟨"pid", some "ProcessId", .value .U32, false⟩,
      ⟨"native_thread_id", some "NativeThreadId", .value .U32, false⟩,
      ⟨"managed_thread_id", some "ManagedThreadId", .value .U32, false⟩,
      ⟨"write_information_stream", some "WriteInformationStream", .value .B, true⟩] }),
  ("PipelineHostCall", {
    types := [],
    extended := hostCallProps }),
  ("PipelineHostResponse", {
    types := [],
    extended := hostResponseProps }),
  ("ConnectRunspacePool", {
    types := [],
    extended := [
      ⟨"min_runspaces", some "MinRunspaces", .value .I32, true⟩,
      ⟨"max_runspaces", some "MaxRunspaces", .value .I32, true⟩] }),
  ("RunspacePoolInitData", {
    types := [],
    extended := [
      ⟨"min_runspaces", some "MinRunspaces", .value .I32, false⟩,
      ⟨"max_runspaces", some "MaxRunspaces", .value .I32, false⟩] }),
  ("ResetRunspaceState", {
    types := [],
    extended := [
      ⟨"ci", some "ci", .value .I64, false⟩] })]

/-- The element with type names, or a reference to an earlier one. -/
def TypesElem (types : List String) (x : Xml) : Prop :=
  (∃ r, x = .node .TN (some r) none none (types.map fun t => .node .T none none (some t.toList) [])) ∨ ∃ r, x = .node .TNRef (some r) none none []

/-- A written element inside a list or dictionary has the tag or is null. -/
def TagIs (t : Option Tag) (x : Xml) : Prop := ∀ t', t = some t' → x.tag = t' ∨ x.tag = .Nil

/-- The element of a property that is not None. -/
def Holds.Shape : Holds → PyVal → Xml → Prop
  | .value t, _, x => x.tag = t ∧ x.kids = []
  | .object, _, x => x.tag = .Obj
  | .dynamic, _, x => x.tag = .Obj ∨ x.tag = .ObjDynamic
  | .any, _, _ => True
  | .list e ts, v, x => ∀ vs, v = .list vs → x.tag = .Obj ∧
      ∃ tn ks, x.kids = [tn, .node .LST none none none ks] ∧ TypesElem ts tn ∧ ks.length = vs.length ∧ ∀ k ∈ ks, TagIs e k ∧ k.name = none
  | .dict key val ts, v, x => ∀ es, v = .dict es → x.tag = .Obj ∧
      ∃ tn ks, x.kids = [tn, .node .DCT none none none ks] ∧ TypesElem ts tn ∧ ks.length = es.length ∧
        ∀ k ∈ ks, ∃ a b, k = .node .En none none none [a, b] ∧ TagIs key.tag a ∧ a.name = key.name.map String.toList ∧
          TagIs val.tag b ∧ b.name = val.name.map String.toList

/-- None, also inside a TaggedValue. -/
def PyVal.isNull : PyVal → Bool
  | .sc .none | .tagged _ .none => true
  | _ => false

/-- What is written for a property. An object that was written before is referred to, without a name. -/
def WroteProp (attrs : List (PyStr × PyVal)) (p : PropDoc) (part : List Xml) : Prop :=
  match attrs.lookup p.attr.toList with
  | none => False
  | some v => if v.isNull then part = if p.optional then [] else [.node .Nil none (p.name.map String.toList) none []] else
      (∃ x, part = [x] ∧ x.name = p.name.map String.toList ∧ p.holds.Shape v x) ∨
      (v.oid?.isSome = true ∧ ∃ r, part = [.node .Ref (some r) none none []])

/-- The elements of a group of properties: those of every property, in order, and no others. -/
inductive WroteProps (attrs : List (PyStr × PyVal)) : List PropDoc → List Xml → Prop
  | nil : WroteProps attrs [] []
  | cons {p : PropDoc} {ps : List PropDoc} {part es : List Xml} : WroteProp attrs p part → WroteProps attrs ps es → WroteProps attrs (p :: ps) (part ++ es)

/-- A group of properties is an element with them, if there are any. -/
def groupElem (t : Tag) (ps : List PropDoc) (es : List Xml) : List Xml := if ps.isEmpty then [] else [.node t none none none es]

/-- The element with the type names, the first in the document. -/
def typesElem (types : List String) : List Xml :=
  if types.isEmpty then [] else [.node .TN (some ['0']) none none (types.map fun t => .node .T none none (some t.toList) [])]

def sayElem (t : String) : List Xml := [.node .ToString none none (some t.toList) []]

/-- The text of an object: that of the class, or the name of its number, where None counts as 0. -/
def Layout.TextIs (l : Layout) (attrs : List (PyStr × PyVal)) (part : List Xml) : Prop :=
  if l.number then ∀ i, (attrs.lookup "value".toList = some (.sc (.int i)) ∨ attrs.lookup "value".toList = some (.sc .none) ∧ i = 0) →
    l.texts ≠ [] → ∃ t, l.texts.lookup i = some t ∧ part = sayElem t
  else part = match l.text with | none => [] | some t => sayElem t

/-- The number of an enumeration. -/
def valueProp : PropDoc := ⟨"value", none, .value .I32, false⟩

end Verif
