import Lean
import Verif.Props.Base64Net
import Verif.Props.Base64Text
import Verif.Props.ClassRead
import Verif.Props.Classes
import Verif.Props.Client
import Verif.Props.Clixml
import Verif.Props.Context
import Verif.Props.CreatePipeline
import Verif.Props.Docs
import Verif.Props.Encodings
import Verif.Props.Encryption
import Verif.Props.Endpoint
import Verif.Props.Enumerate
import Verif.Props.EnvelopeSize
import Verif.Props.Errors
import Verif.Props.ExecuteCmd
import Verif.Props.Flags
import Verif.Props.Fragment
import Verif.Props.FragmentLayout
import Verif.Props.Host
import Verif.Props.HostCalls
import Verif.Props.HostWire
import Verif.Props.HttpSession
import Verif.Props.HttpShell
import Verif.Props.HttpWire
import Verif.Props.Layout
import Verif.Props.Merge
import Verif.Props.Message
import Verif.Props.Metadata
import Verif.Props.Namespaces
import Verif.Props.NumberTexts
import Verif.Props.Outgoing
import Verif.Props.PoolCalls
import Verif.Props.PoolDocs
import Verif.Props.PoolHost
import Verif.Props.PoolInput
import Verif.Props.PoolKeys
import Verif.Props.PoolManager
import Verif.Props.PoolOutput
import Verif.Props.PoolPipes
import Verif.Props.PoolStates
import Verif.Props.PoolStreams
import Verif.Props.PoolWire
import Verif.Props.Requests
import Verif.Props.ResponseHeaders
import Verif.Props.SecureString
import Verif.Props.Serializer
import Verif.Props.ServerConfig
import Verif.Props.ServerRead
import Verif.Props.Session
import Verif.Props.Shell
import Verif.Props.ShellBodies
import Verif.Props.Statements
import Verif.Props.Strings
import Verif.Props.TransportAuth
import Verif.Props.TransportInvoke
import Verif.Props.TransportSend
import Verif.Props.Utils
import Verif.Props.VersionTexts
import Verif.Props.WholeNumber
import Verif.Props.Wire
import Verif.Props.With
import Verif.Props.XmlText
/-
Build-time audit: every theorem of this project whose name starts with `C` and two digits depends only on
`propext`, `Classical.choice` and `Quot.sound`. The build fails otherwise.
-/
open Lean Elab Command

/-- `Verif.C07_...`. -/
def Verif.isProperty (n : Name) : Bool :=
  match n with
  | .str (.str .anonymous "Verif") s =>
    match s.toList with
    | 'C' :: a :: b :: _ => a.isDigit && b.isDigit
    | _ => false
  | _ => false

run_cmd do
  let env ← getEnv
  let mut count : Nat := 0
  for (n, ci) in env.constants.map₁.toList do
    if Verif.isProperty n && ci.isTheorem then
      count := count + 1
      let axs ← liftCoreM (collectAxioms n)
      for a in axs do
        unless a == ``propext || a == ``Classical.choice || a == ``Quot.sound do
          throwError "{n} depends on {a}"
  logInfo m!"{count} property theorems audited"
