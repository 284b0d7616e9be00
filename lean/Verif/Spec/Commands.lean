import Verif.Model.Commands
import Verif.Spec.Utils
/-
Specifications for redirections, statements and arrays.
-/
namespace Verif

/-- The redirection of a stream. -/
def Command.redirection (c : Command) : MergeStream → ResultTypes
  | .error => c.mergeError
  | .warning => c.mergeWarning
  | .verbose => c.mergeVerbose
  | .debug => c.mergeDebug
  | .information => c.mergeInformation

/-- MS-PSRP 2.2.3.12: the protocol version that brought the redirection of a stream. -/
def MergeStream.since : MergeStream → List Nat
  | .error => []
  | .warning => [2, 2]
  | .verbose => [2, 2]
  | .debug => [2, 2]
  | .information => [2, 3]

/-- A server of this version supports the redirection. Errors can be redirected since ever. -/
def Supports (version : List Nat) (s : MergeStream) : Prop := s = .error ∨ VersionGe version s.since

/-- Two commands that differ at most in redirections (and the two fields that say the same to old servers). -/
def Command.SameButMerges (a b : Command) : Prop :=
  a.cmd = b.cmd ∧ a.version = b.version ∧ a.isScript = b.isScript ∧ a.useLocalScope = b.useLocalScope ∧
    a.mergePrevious = b.mergePrevious ∧ a.args = b.args ∧ a.endOfStatement = b.endOfStatement

/-- The call of a stream. -/
def mergeStream (s : MergeStream) : PyStr → PyStr → List Command → Edited :=
  match s with
  | .error => mergeError
  | .warning => mergeWarning
  | .verbose => mergeVerbose
  | .debug => mergeDebug
  | .information => mergeInformation

/-- The name under which a redirection is sent. -/
def MergeStream.property : MergeStream → String
  | .error => "MergeError"
  | .warning => "MergeWarning"
  | .verbose => "MergeVerbose"
  | .debug => "MergeDebug"
  | .information => "MergeInformation"

/-- The calls that build a pipeline. -/
inductive BuildOp where
  | add (cmd : PyStr) (isScript : Bool) (useLocalScope : Option Bool)
  | parameter (name : Option PyStr) (value : ArgVal)
  | statement
  | merge (s : MergeStream) (to : PyStr)
  | mergeAll (to : PyStr)
  | mergePrevious (enabled : Bool)
  | mergeReset

def BuildOp.run (protocol : PyStr) : BuildOp → List Command → Edited
  | .add cmd isScript useLocalScope => addCmdlet protocol cmd isScript useLocalScope
  | .parameter name value => addParameter name value
  | .statement => addStatement
  | .merge s to => mergeStream s protocol to
  | .mergeAll to => Verif.mergeAll protocol to
  | .mergePrevious enabled => Verif.mergePrevious enabled
  | .mergeReset => Verif.mergeReset protocol

/-- The commands after some calls, with errors caught by the caller. -/
def build (protocol : PyStr) (ops : List BuildOp) : List Command := ops.foldl (fun cs op => (op.run protocol cs).2) []

/-- Command `i` is the last one of its statement. -/
def EndsAt (cs : List (Cmd α)) (i : Nat) : Prop := ∃ h : i < cs.length, cs[i].ends = true ∨ i + 1 = cs.length

/-- A rectangular array with the given dimensions. -/
def Rect : List Nat → Arr α → Prop
  | [], .elem _ => True
  | n :: dims, .list l => l.length = n ∧ ∀ a ∈ l, Rect dims a
  | _, _ => False

end Verif
