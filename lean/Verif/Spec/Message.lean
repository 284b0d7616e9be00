import Verif.Model.Message
/-
Specification of message headers: the type numbers of MS-PSRP 2.2.1 and the field layout.
-/
namespace Verif

/-- [MS-PSRP] 2.2.1: the number of each message kind. -/
def MsgKind.number : MsgKind → Nat
  | .sessionCapability => 0x00010002
  | .initRunspacePool => 0x00010004
  | .publicKey => 0x00010005
  | .encryptedSessionKey => 0x00010006
  | .publicKeyRequest => 0x00010007
  | .connectRunspacePool => 0x00010008
  | .runspacePoolInitData => 0x0002100B
  | .resetRunspaceState => 0x0002100C
  | .setMaxRunspaces => 0x00021002
  | .setMinRunspaces => 0x00021003
  | .runspaceAvailability => 0x00021004
  | .runspacePoolStateMessage => 0x00021005
  | .createPipeline => 0x00021006
  | .getAvailableRunspaces => 0x00021007
  | .userEvent => 0x00021008
  | .applicationPrivateData => 0x00021009
  | .getCommandMetadata => 0x0002100A
  | .runspacePoolHostCall => 0x00021100
  | .runspacePoolHostResponse => 0x00021101
  | .pipelineInput => 0x00041002
  | .endOfPipelineInput => 0x00041003
  | .pipelineOutput => 0x00041004
  | .errorRecordMessage => 0x00041005
  | .pipelineState => 0x00041006
  | .debugRecord => 0x00041007
  | .verboseRecord => 0x00041008
  | .warningRecord => 0x00041009
  | .progressRecord => 0x00041010
  | .informationRecord => 0x00041011
  | .pipelineHostCall => 0x00041100
  | .pipelineHostResponse => 0x00041101

/-- The number denoted by big endian bytes. -/
def beValue (b : Bytes) : Nat := b.foldl (fun n x => 256 * n + x.toNat) 0

/-- The number denoted by little endian bytes. -/
def leValue (b : Bytes) : Nat := b.foldr (fun x n => x.toNat + 256 * n) 0

/-- A GUID as .NET stores it: three little endian integers, which are the first 4, 2 and 2 bytes of the UUID read big
endian, and eight bytes in order. -/
def IsDotNetGuid (b : Bytes) (u : UUID) : Prop :=
  b.length = 16 ∧ leValue (b.take 4) = beValue (u.bytes.take 4) ∧
    leValue ((b.drop 4).take 2) = beValue ((u.bytes.drop 4).take 2) ∧
    leValue ((b.drop 6).take 2) = beValue ((u.bytes.drop 6).take 2) ∧ b.drop 8 = u.bytes.drop 8

end Verif
