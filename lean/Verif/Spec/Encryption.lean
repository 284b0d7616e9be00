import Verif.Model.Encryption
/-
Specification for WinRM message encryption.
-/
namespace Verif

/-- The name of the boundary in the requests and in the responses of WinRM servers. -/
def winrmBoundary : Bytes := ascii "Encrypted Boundary".toList

/-- The bytes contain `--`, white space, and the boundary. -/
def HasBoundary (w : Bytes) : Prop :=
  ∃ before space after, w = before ++ [45, 45] ++ space ++ winrmBoundary ++ after ∧ ∀ b ∈ space, b ∈ ([9, 10, 11, 12, 13, 32] : Bytes)

/-- The bytes contain the line that introduces the binary part. -/
def HasMarker (w : Bytes) : Prop := ∃ before after, w = before ++ ascii "\tContent-Type: application/octet-stream\r\n".toList ++ after

/-- What a sealed message looks like in the body: length of the header, header, data. -/
def sealedBytes (header data : Bytes) : Bytes := leEnc 4 header.length ++ header ++ data

/-- A part of a body: the declared length, the header and the data of the sealed message. -/
structure SealedPart where
  declared : Nat
  header : Bytes
  data : Bytes

/-- A part can be told apart from its surroundings. -/
def SealedPart.Clean (s : SealedPart) : Prop :=
  s.header.length < 2 ^ 31 ∧ ¬ HasBoundary (sealedBytes s.header s.data) ∧ ¬ HasMarker (sealedBytes s.header s.data)

/-- [MS-WSMV] 2.2.9.1: the types of sealed content. -/
def sealingType : SealProtocol → String
  | .credSSP => "application/HTTP-CredSSP-session-encrypted"
  | .kerberos => "application/HTTP-Kerberos-session-encrypted"
  | .spnego => "application/HTTP-SPNEGO-session-encrypted"

/-- [MS-WSMV] 2.2.9.1: the lines before a sealed message. -/
def partLines (p : SealProtocol) (length : Nat) : PyStr :=
  "--Encrypted Boundary\r\n\tContent-Type: ".toList ++ (sealingType p).toList ++
  "\r\n\tOriginalContent: type=application/soap+xml;charset=UTF-8;Length=".toList ++ pyStrNat length ++
  "\r\n--Encrypted Boundary\r\n\tContent-Type: application/octet-stream\r\n".toList

/-- The multipart body with the given parts. -/
def multipart (p : SealProtocol) (parts : List SealedPart) : Bytes :=
  parts.flatMap (fun s => ascii (partLines p s.declared) ++ sealedBytes s.header s.data) ++ ascii "--Encrypted Boundary--\r\n".toList

/-- The context undoes what it sealed in its `k`th call, adds no padding, and the sealed bytes can be told apart from the
lines around them. -/
def SealContext.Undoes (ctx : SealContext) (k : Nat) (piece : Bytes) : Prop :=
  ∃ header data, ctx.wrap k piece = (header, data, 0) ∧ ctx.unwrap k header data = .ok piece ∧ header.length < 2 ^ 31 ∧
    ¬ HasBoundary (sealedBytes header data) ∧ ¬ HasMarker (sealedBytes header data)

/-- The parts a context makes of pieces, from its `k`th call on. -/
def sealedParts (ctx : SealContext) (k : Nat) : List Bytes → List SealedPart
  | [] => []
  | m :: ms => ⟨m.length + (ctx.wrap k m).2.2, (ctx.wrap k m).1, (ctx.wrap k m).2.1⟩ :: sealedParts ctx (k + 1) ms

end Verif
