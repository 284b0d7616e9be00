import Verif.Spec.Transport
import Verif.Model.Envelope
/-
How a server reads a request: paths into the document.
-/
namespace Verif

/-- The texts of the elements at a path. -/
def textsAt (path : List String) (e : Elem) : List (Option PyStr) := (elemsAt (path.map String.toList) e).map Elem.text

/-- The values of an attribute of the elements at a path. -/
def attrsAt (path : List String) (name : String) (e : Elem) : List (Option PyStr) :=
  (elemsAt (path.map String.toList) e).map fun x => x.attr name.toList

/-- An option or selector as the server reads it: its name, its value and the other attributes. -/
structure Entry where
  name : Option PyStr
  value : Option PyStr
  extra : List (PyStr × PyStr)
  deriving DecidableEq

def entriesAt (path : List String) (e : Elem) : List Entry :=
  (elemsAt (path.map String.toList) e).map fun x => ⟨x.attr "Name".toList, x.text, x.attrs.filter fun a => a.1 ≠ "Name".toList⟩

/-- The options and selectors of a request. -/
def optionsOf (e : Elem) : List Entry := entriesAt ["s:Header", "wsman:OptionSet", "wsman:Option"] e
def selectorsOf (e : Elem) : List Entry := entriesAt ["s:Header", "wsman:SelectorSet", "wsman:Selector"] e

/-- The names of the operations: WS-Transfer, WS-Enumeration and the shell operations of MS-WSMV. -/
def actionName : WSManAction → String × String
  | .get => ("http://schemas.xmlsoap.org/ws/2004/09/transfer/", "Get")
  | .put => ("http://schemas.xmlsoap.org/ws/2004/09/transfer/", "Put")
  | .create => ("http://schemas.xmlsoap.org/ws/2004/09/transfer/", "Create")
  | .delete => ("http://schemas.xmlsoap.org/ws/2004/09/transfer/", "Delete")
  | .enumerate => ("http://schemas.xmlsoap.org/ws/2004/09/enumeration/", "Enumerate")
  | .pull => ("http://schemas.xmlsoap.org/ws/2004/09/enumeration/", "Pull")
  | .command => ("http://schemas.microsoft.com/wbem/wsman/1/windows/shell/", "Command")
  | .connect => ("http://schemas.microsoft.com/wbem/wsman/1/windows/shell/", "Connect")
  | .disconnect => ("http://schemas.microsoft.com/wbem/wsman/1/windows/shell/", "Disconnect")
  | .receive => ("http://schemas.microsoft.com/wbem/wsman/1/windows/shell/", "Receive")
  | .reconnect => ("http://schemas.microsoft.com/wbem/wsman/1/windows/shell/", "Reconnect")
  | .send => ("http://schemas.microsoft.com/wbem/wsman/1/windows/shell/", "Send")
  | .signal => ("http://schemas.microsoft.com/wbem/wsman/1/windows/shell/", "Signal")

/-- What every request says about itself. -/
structure Headers (e : Elem) (c : Conn) (messageId : PyStr) (action : WSManAction) (uri : Option PyStr) : Prop where
  action : textsAt ["s:Header", "wsa:Action"] e = [some ((actionName action).1.toList ++ (actionName action).2.toList)]
  resource : textsAt ["s:Header", "wsman:ResourceURI"] e = [uri]
  message : textsAt ["s:Header", "wsa:MessageID"] e = [some ("uuid:".toList ++ messageId.map Char.toUpper)]
  session : textsAt ["s:Header", "wsmv:SessionId"] e = [some ("uuid:".toList ++ c.sessionId.map Char.toUpper)]
  address : textsAt ["s:Header", "wsa:To"] e = [some c.endpoint]
  reply : textsAt ["s:Header", "wsa:ReplyTo", "wsa:Address"] e = [some "http://schemas.xmlsoap.org/ws/2004/08/addressing/role/anonymous".toList]
  locale : attrsAt ["s:Header", "wsman:Locale"] "xml:lang" e = [some c.locale]
  dataLocale : attrsAt ["s:Header", "wsmv:DataLocale"] "xml:lang" e = [some c.dataLocale]
  size : textsAt ["s:Header", "wsman:MaxEnvelopeSize"] e = [some (toString c.maxEnvelope).toList]

end Verif
