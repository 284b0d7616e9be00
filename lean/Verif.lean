import Verif.Lemmas.Base64
import Verif.Lemmas.Bytes
import Verif.Lemmas.ClassBuild
import Verif.Lemmas.ClassRound
import Verif.Lemmas.ClassTable
import Verif.Lemmas.Classes
import Verif.Lemmas.Client
import Verif.Lemmas.CreatePipeline
import Verif.Lemmas.Docs
import Verif.Lemmas.Encryption
import Verif.Lemmas.Envelope
import Verif.Lemmas.Fragment
import Verif.Lemmas.FragmentOrder
import Verif.Lemmas.FragmentRecv
import Verif.Lemmas.FragmentSend
import Verif.Lemmas.FragmentUse
import Verif.Lemmas.HostWire
import Verif.Lemmas.Layout
import Verif.Lemmas.LayoutTable
import Verif.Lemmas.Message
import Verif.Lemmas.Metadata
import Verif.Lemmas.Namespaces
import Verif.Lemmas.Numbers
import Verif.Lemmas.PoolDocs
import Verif.Lemmas.PoolFacts
import Verif.Lemmas.PoolLoops
import Verif.Lemmas.PoolReturns
import Verif.Lemmas.PoolSteps
import Verif.Lemmas.PoolWire
import Verif.Lemmas.Seen
import Verif.Lemmas.Serializer
import Verif.Lemmas.SerializerIds
import Verif.Lemmas.SerializerNest
import Verif.Lemmas.SerializerRound
import Verif.Lemmas.ServerDocs
import Verif.Lemmas.ServerRead
import Verif.Lemmas.Shell
import Verif.Lemmas.Strings
import Verif.Lemmas.StringsEscape
import Verif.Lemmas.StringsShift
import Verif.Lemmas.Transport
import Verif.Lemmas.Utils
import Verif.Lemmas.Wire
import Verif.Lemmas.WithBlocks
import Verif.Lemmas.XmlEq
import Verif.Lemmas.XmlRead
import Verif.Model.Base64
import Verif.Model.Bytes
import Verif.Model.Classes
import Verif.Model.Client
import Verif.Model.Clixml
import Verif.Model.Commands
import Verif.Model.Context
import Verif.Model.CreatePipeline
import Verif.Model.Deserializer
import Verif.Model.Encryption
import Verif.Model.Endpoint
import Verif.Model.Enumerate
import Verif.Model.Envelope
import Verif.Model.Errors
import Verif.Model.Flags
import Verif.Model.Fragment
import Verif.Model.Host
import Verif.Model.HostWire
import Verif.Model.HttpSession
import Verif.Model.HttpShell
import Verif.Model.HttpWire
import Verif.Model.Message
import Verif.Model.Metadata
import Verif.Model.Namespaces
import Verif.Model.Outgoing
import Verif.Model.Pool
import Verif.Model.PoolManager
import Verif.Model.PoolWire
import Verif.Model.SecureString
import Verif.Model.Serializer
import Verif.Model.ServerConfig
import Verif.Model.Session
import Verif.Model.Shell
import Verif.Model.Strings
import Verif.Model.Transport
import Verif.Model.Utils
import Verif.Model.Wire
import Verif.Model.With
import Verif.Model.XmlText
import Verif.Props.Base64Net
import Verif.Props.Base64Text
import Verif.Props.ClassRead
import Verif.Props.Classes
import Verif.Props.Client
import Verif.Props.Clixml
import Verif.Props.Context
import Verif.Props.CreatePipeline
import Verif.Props.Docs
import Verif.Props.Encodings
import Verif.Props.Encryption
import Verif.Props.Endpoint
import Verif.Props.Enumerate
import Verif.Props.EnvelopeSize
import Verif.Props.Errors
import Verif.Props.ExecuteCmd
import Verif.Props.Flags
import Verif.Props.Fragment
import Verif.Props.FragmentLayout
import Verif.Props.Host
import Verif.Props.HostCalls
import Verif.Props.HostWire
import Verif.Props.HttpSession
import Verif.Props.HttpShell
import Verif.Props.HttpWire
import Verif.Props.Layout
import Verif.Props.Merge
import Verif.Props.Message
import Verif.Props.Metadata
import Verif.Props.Namespaces
import Verif.Props.NumberTexts
import Verif.Props.Outgoing
import Verif.Props.PoolCalls
import Verif.Props.PoolDocs
import Verif.Props.PoolHost
import Verif.Props.PoolInput
import Verif.Props.PoolKeys
import Verif.Props.PoolManager
import Verif.Props.PoolOutput
import Verif.Props.PoolPipes
import Verif.Props.PoolStates
import Verif.Props.PoolStreams
import Verif.Props.PoolWire
import Verif.Props.Requests
import Verif.Props.ResponseHeaders
import Verif.Props.SecureString
import Verif.Props.Serializer
import Verif.Props.ServerConfig
import Verif.Props.ServerRead
import Verif.Props.Session
import Verif.Props.Shell
import Verif.Props.ShellBodies
import Verif.Props.Statements
import Verif.Props.Strings
import Verif.Props.TransportAuth
import Verif.Props.TransportInvoke
import Verif.Props.TransportSend
import Verif.Props.Utils
import Verif.Props.VersionTexts
import Verif.Props.WholeNumber
import Verif.Props.Wire
import Verif.Props.With
import Verif.Props.XmlText
import Verif.Spec.Base64Text
import Verif.Spec.Classes
import Verif.Spec.Client
import Verif.Spec.Commands
import Verif.Spec.Docs
import Verif.Spec.Encodings
import Verif.Spec.Encryption
import Verif.Spec.Envelope
import Verif.Spec.Fragment
import Verif.Spec.FragmentLayout
import Verif.Spec.Host
import Verif.Spec.HostCalls
import Verif.Spec.HostWire
import Verif.Spec.HttpShell
import Verif.Spec.HttpWire
import Verif.Spec.Layout
import Verif.Spec.Message
import Verif.Spec.Metadata
import Verif.Spec.Namespaces
import Verif.Spec.Outgoing
import Verif.Spec.Pool
import Verif.Spec.PoolManager
import Verif.Spec.PoolWire
import Verif.Spec.ResponseHeaders
import Verif.Spec.Seen
import Verif.Spec.Serializer
import Verif.Spec.ServerDocs
import Verif.Spec.Shell
import Verif.Spec.Strings
import Verif.Spec.Transport
import Verif.Spec.Utils
import Verif.Spec.WholeNumber
import Verif.Spec.XmlRead
import Verif.Audit
