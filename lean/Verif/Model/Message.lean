import Verif.Model.Utils
/-
PSRP messages: type numbers, header packing and unpacking (src/pypsrp/messages.py 37-228) and UUIDs.
-/
namespace Verif

/-- A `uuid.UUID`: its 16 bytes in the order of `UUID.bytes`. -/
structure UUID where
  bytes : Bytes
  len : bytes.length = 16
  deriving DecidableEq

/-- `uuid.UUID(bytes=b"\x00" * 16)`, messages.py 107. -/
def UUID.zero : UUID := ⟨List.replicate 16 0, by simp⟩

/-- The byte order of `UUID.bytes_le`: the first three fields are reversed. -/
def swapLE (b : Bytes) : Bytes :=
  (b.take 4).reverse ++ ((b.drop 4).take 2).reverse ++ ((b.drop 6).take 2).reverse ++ b.drop 8

/-- `UUID.bytes_le`. -/
def UUID.bytesLe (u : UUID) : Bytes := swapLE u.bytes

theorem swapLE_length (b : Bytes) : (swapLE b).length = b.length := by
  simp only [swapLE, List.length_append, List.length_reverse, List.length_take, List.length_drop]; omega

/-- `uuid.UUID(bytes_le=b)`: ValueError unless there are 16 bytes. -/
def UUID.ofBytesLe (b : Bytes) : Except PyErr UUID :=
  if h : b.length = 16 then .ok ⟨swapLE b, by rw [swapLE_length, h]⟩ else .error .valueError

/-- The message classes of messages.py 231-944. -/
inductive MsgKind where
  | sessionCapability
  | initRunspacePool
  | publicKey
  | encryptedSessionKey
  | publicKeyRequest
  | setMaxRunspaces
  | setMinRunspaces
  | runspaceAvailability
  | runspacePoolStateMessage
  | createPipeline
  | getAvailableRunspaces
  | userEvent
  | applicationPrivateData
  | getCommandMetadata
  | runspacePoolHostCall
  | runspacePoolHostResponse
  | pipelineInput
  | endOfPipelineInput
  | pipelineOutput
  | errorRecordMessage
  | pipelineState
  | debugRecord
  | verboseRecord
  | warningRecord
  | progressRecord
  | informationRecord
  | pipelineHostCall
  | pipelineHostResponse
  | connectRunspacePool
  | runspacePoolInitData
  | resetRunspaceState
  deriving DecidableEq, Repr

/-- messages.py 51-81 `MessageType`. -/
inductive MessageType where
  | SESSION_CAPABILITY
  | INIT_RUNSPACEPOOL
  | PUBLIC_KEY
  | ENCRYPTED_SESSION_KEY
  | PUBLIC_KEY_REQUEST
  | CONNECT_RUNSPACEPOOL
  | RUNSPACEPOOL_INIT_DATA
  | RESET_RUNSPACE_STATE
  | SET_MAX_RUNSPACES
  | SET_MIN_RUNSPACES
  | RUNSPACE_AVAILABILITY
  | RUNSPACEPOOL_STATE
  | CREATE_PIPELINE
  | GET_AVAILABLE_RUNSPACES
  | USER_EVENT
  | APPLICATION_PRIVATE_DATA
  | GET_COMMAND_METADATA
  | RUNSPACEPOOL_HOST_CALL
  | RUNSPACEPOOL_HOST_RESPONSE
  | PIPELINE_INPUT
  | END_OF_PIPELINE_INPUT
  | PIPELINE_OUTPUT
  | ERROR_RECORD
  | PIPELINE_STATE
  | DEBUG_RECORD
  | VERBOSE_RECORD
  | WARNING_RECORD
  | PROGRESS_RECORD
  | INFORMATION_RECORD
  | PIPELINE_HOST_CALL
  | PIPELINE_HOST_RESPONSE
  deriving DecidableEq, Repr

/-- The value of each `MessageType` constant, messages.py 51-81. -/
def MessageType.value : MessageType → Nat
  | .SESSION_CAPABILITY => 0x00010002
  | .INIT_RUNSPACEPOOL => 0x00010004
  | .PUBLIC_KEY => 0x00010005
  | .ENCRYPTED_SESSION_KEY => 0x00010006
  | .PUBLIC_KEY_REQUEST => 0x00010007
  | .CONNECT_RUNSPACEPOOL => 0x00010008
  | .RUNSPACEPOOL_INIT_DATA => 0x002100B
  | .RESET_RUNSPACE_STATE => 0x0002100C
  | .SET_MAX_RUNSPACES => 0x00021002
  | .SET_MIN_RUNSPACES => 0x00021003
  | .RUNSPACE_AVAILABILITY => 0x00021004
  | .RUNSPACEPOOL_STATE => 0x00021005
  | .CREATE_PIPELINE => 0x00021006
  | .GET_AVAILABLE_RUNSPACES => 0x00021007
  | .USER_EVENT => 0x00021008
  | .APPLICATION_PRIVATE_DATA => 0x00021009
  | .GET_COMMAND_METADATA => 0x0002100A
  | .RUNSPACEPOOL_HOST_CALL => 0x00021100
  | .RUNSPACEPOOL_HOST_RESPONSE => 0x00021101
  | .PIPELINE_INPUT => 0x00041002
  | .END_OF_PIPELINE_INPUT => 0x00041003
  | .PIPELINE_OUTPUT => 0x00041004
  | .ERROR_RECORD => 0x00041005
  | .PIPELINE_STATE => 0x00041006
  | .DEBUG_RECORD => 0x00041007
  | .VERBOSE_RECORD => 0x00041008
  | .WARNING_RECORD => 0x00041009
  | .PROGRESS_RECORD => 0x00041010
  | .INFORMATION_RECORD => 0x00041011
  | .PIPELINE_HOST_CALL => 0x00041100
  | .PIPELINE_HOST_RESPONSE => 0x00041101

/-- The `MESSAGE_TYPE` attribute of each class (first line of each class, messages.py 232-930). -/
def MsgKind.messageType : MsgKind → MessageType
  | .sessionCapability => .SESSION_CAPABILITY
  | .initRunspacePool => .INIT_RUNSPACEPOOL
  | .publicKey => .PUBLIC_KEY
  | .encryptedSessionKey => .ENCRYPTED_SESSION_KEY
  | .publicKeyRequest => .PUBLIC_KEY_REQUEST
  | .setMaxRunspaces => .SET_MAX_RUNSPACES
  | .setMinRunspaces => .SET_MIN_RUNSPACES
  | .runspaceAvailability => .RUNSPACE_AVAILABILITY
  | .runspacePoolStateMessage => .RUNSPACEPOOL_STATE
  | .createPipeline => .CREATE_PIPELINE
  | .getAvailableRunspaces => .GET_AVAILABLE_RUNSPACES
  | .userEvent => .USER_EVENT
  | .applicationPrivateData => .APPLICATION_PRIVATE_DATA
  | .getCommandMetadata => .GET_COMMAND_METADATA
  | .runspacePoolHostCall => .RUNSPACEPOOL_HOST_CALL
  | .runspacePoolHostResponse => .RUNSPACEPOOL_HOST_RESPONSE
  | .pipelineInput => .PIPELINE_INPUT
  | .endOfPipelineInput => .END_OF_PIPELINE_INPUT
  | .pipelineOutput => .PIPELINE_OUTPUT
  | .errorRecordMessage => .ERROR_RECORD
  | .pipelineState => .PIPELINE_STATE
  | .debugRecord => .DEBUG_RECORD
  | .verboseRecord => .VERBOSE_RECORD
  | .warningRecord => .WARNING_RECORD
  | .progressRecord => .PROGRESS_RECORD
  | .informationRecord => .INFORMATION_RECORD
  | .pipelineHostCall => .PIPELINE_HOST_CALL
  | .pipelineHostResponse => .PIPELINE_HOST_RESPONSE
  | .connectRunspacePool => .CONNECT_RUNSPACEPOOL
  | .runspacePoolInitData => .RUNSPACEPOOL_INIT_DATA
  | .resetRunspaceState => .RESET_RUNSPACE_STATE

/-- The dictionary of messages.py 167-199, in source order. -/
def unpackTable : List (Nat × MsgKind) := [
  (MessageType.SESSION_CAPABILITY.value, .sessionCapability),
  (MessageType.INIT_RUNSPACEPOOL.value, .initRunspacePool),
  (MessageType.PUBLIC_KEY.value, .publicKey),
  (MessageType.ENCRYPTED_SESSION_KEY.value, .encryptedSessionKey),
  (MessageType.PUBLIC_KEY_REQUEST.value, .publicKeyRequest),
  (MessageType.SET_MAX_RUNSPACES.value, .setMaxRunspaces),
  (MessageType.SET_MIN_RUNSPACES.value, .setMinRunspaces),
  (MessageType.RUNSPACE_AVAILABILITY.value, .runspaceAvailability),
  (MessageType.RUNSPACEPOOL_STATE.value, .runspacePoolStateMessage),
  (MessageType.CREATE_PIPELINE.value, .createPipeline),
  (MessageType.GET_AVAILABLE_RUNSPACES.value, .getAvailableRunspaces),
  (MessageType.USER_EVENT.value, .userEvent),
  (MessageType.APPLICATION_PRIVATE_DATA.value, .applicationPrivateData),
  (MessageType.GET_COMMAND_METADATA.value, .getCommandMetadata),
  (MessageType.RUNSPACEPOOL_HOST_CALL.value, .runspacePoolHostCall),
  (MessageType.RUNSPACEPOOL_HOST_RESPONSE.value, .runspacePoolHostResponse),
  (MessageType.PIPELINE_INPUT.value, .pipelineInput),
  (MessageType.END_OF_PIPELINE_INPUT.value, .endOfPipelineInput),
  (MessageType.PIPELINE_OUTPUT.value, .pipelineOutput),
  (MessageType.ERROR_RECORD.value, .errorRecordMessage),
  (MessageType.PIPELINE_STATE.value, .pipelineState),
  (MessageType.DEBUG_RECORD.value, .debugRecord),
  (MessageType.VERBOSE_RECORD.value, .verboseRecord),
  (MessageType.WARNING_RECORD.value, .warningRecord),
  (MessageType.PROGRESS_RECORD.value, .progressRecord),
  (MessageType.INFORMATION_RECORD.value, .informationRecord),
  (MessageType.PIPELINE_HOST_CALL.value, .pipelineHostCall),
  (MessageType.PIPELINE_HOST_RESPONSE.value, .pipelineHostResponse),
  (MessageType.CONNECT_RUNSPACEPOOL.value, .connectRunspacePool),
  (MessageType.RUNSPACEPOOL_INIT_DATA.value, .runspacePoolInitData),
  (MessageType.RESET_RUNSPACE_STATE.value, .resetRunspaceState)]

/-- Looking up the dictionary: for equal keys the last entry counts; KeyError for other numbers. -/
def lookupKind (n : Nat) : Except PyErr MsgKind :=
  match unpackTable.reverse.find? (fun e => e.1 == n) with
  | some e => .ok e.2
  | none => .error .keyError

/-- The parts of a `Message` that go on the wire. `body` is the serialized body; converting it from and to objects is
the serializer's part and UTF-8 decoding of the received body is not modelled here. -/
structure Msg where
  destination : Nat
  kind : MsgKind
  rpid : UUID
  pid : UUID
  body : Bytes
  deriving DecidableEq

/-- messages.py 84-113 `Message.__init__`: absent ids become the all-zero UUID. The text form of the ids is not
modelled. -/
def Msg.make (destination : Nat) (rpid pid : Option UUID) (kind : MsgKind) (body : Bytes) : Msg :=
  { destination, kind, rpid := rpid.getD .zero, pid := pid.getD .zero, body }

/-- messages.py 116-135: the body that `pack` sends. `serialized` is what `serialize` returns for the data (None
included); `noLimits` says that both runspace limits of a ConnectRunspacePool are None. -/
def packBody (kind : MsgKind) (noLimits : Bool) (serialized : Option Bytes) : Bytes :=
  if kind.messageType = .PUBLIC_KEY_REQUEST then [60, 83, 32, 47, 62] -- <S />
  else if kind.messageType = .END_OF_PIPELINE_INPUT then []
  else if kind.messageType = .PIPELINE_INPUT then serialized.getD []
  else if kind.messageType = .CONNECT_RUNSPACEPOOL ∧ noLimits then [60, 83, 32, 47, 62]
  else serialized.getD []

/-- messages.py 138-147, the end of `Message.pack`. -/
def Msg.pack (m : Msg) : Except PyErr Bytes := do
  let dest ← packLE 4 m.destination
  let ty ← packLE 4 m.kind.messageType.value
  return dest ++ ty ++ m.rpid.bytesLe ++ m.pid.bytesLe ++ m.body

/-- The UTF-8 byte order mark. -/
def bom : Bytes := [0xef, 0xbb, 0xbf]

/-- messages.py 149-199, `Message.unpack` up to the choice of the class. -/
def Msg.unpack (data : Bytes) : Except PyErr Msg := do
  let destination ← unpackLE 4 (data.take 4)
  let ty ← unpackLE 4 ((data.drop 4).take 4)
  let rpid ← UUID.ofBytesLe ((data.drop 8).take 16)
  let pid ← UUID.ofBytesLe ((data.drop 24).take 16)
  let body := if (data.drop 40).take 3 = bom then data.drop 43 else data.drop 40
  let kind ← lookupKind ty
  return { destination, kind, rpid, pid, body }

end Verif
