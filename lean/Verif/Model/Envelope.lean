import Verif.Model.XmlText
import Verif.Model.Shell
import Verif.Model.Session
/-
The envelopes of WSMan requests (src/pypsrp/wsman.py 444-489, 522-618, 677-731) and those of shells and pools
(src/pypsrp/shell.py 109-318, src/pypsrp/powershell.py 557-565, 1522-1536).
-/
namespace Verif

/-- What a WSMan object contributes to a request (wsman.py 209-236). `sessionId` is the text of a uuid, `messageId` arguments
below are those of new ones. -/
structure Conn where
  endpoint : PyStr
  locale : PyStr := "en-US".toList
  dataLocale : PyStr := "en-US".toList
  sessionId : PyStr
  maxEnvelope : Int := 153600
  operationTimeout : Int := 20

/-- wsman.py 76-104 `WSManAction`. -/
def WSManAction.uri : WSManAction → PyStr
  | .get => "http://schemas.xmlsoap.org/ws/2004/09/transfer/Get".toList
  | .put => "http://schemas.xmlsoap.org/ws/2004/09/transfer/Put".toList
  | .create => "http://schemas.xmlsoap.org/ws/2004/09/transfer/Create".toList
  | .delete => "http://schemas.xmlsoap.org/ws/2004/09/transfer/Delete".toList
  | .enumerate => "http://schemas.xmlsoap.org/ws/2004/09/enumeration/Enumerate".toList
  | .pull => "http://schemas.xmlsoap.org/ws/2004/09/enumeration/Pull".toList
  | .command => "http://schemas.microsoft.com/wbem/wsman/1/windows/shell/Command".toList
  | .connect => "http://schemas.microsoft.com/wbem/wsman/1/windows/shell/Connect".toList
  | .disconnect => "http://schemas.microsoft.com/wbem/wsman/1/windows/shell/Disconnect".toList
  | .receive => "http://schemas.microsoft.com/wbem/wsman/1/windows/shell/Receive".toList
  | .reconnect => "http://schemas.microsoft.com/wbem/wsman/1/windows/shell/Reconnect".toList
  | .send => "http://schemas.microsoft.com/wbem/wsman/1/windows/shell/Send".toList
  | .signal => "http://schemas.microsoft.com/wbem/wsman/1/windows/shell/Signal".toList

/-- wsman.py 677-719 `_WSManSet.pack`. `{**attributes, "Name": key}`: a name among the attributes keeps its place. -/
def setPack (element child : String) (mustUnderstand : Bool) (values : List WSManValue) : Elem :=
  .node element.toList (if mustUnderstand then [("s:mustUnderstand".toList, "true".toList)] else []) none
    (values.map fun v => .node child.toList
      (if v.attributes.any (·.1 = "Name".toList) then v.attributes.map fun a => if a.1 = "Name".toList then (a.1, v.name) else a
        else v.attributes ++ [("Name".toList, v.name)]) (some v.value) [])

/-- wsman.py 722-724 `OptionSet`. -/
def optionSet (values : List WSManValue) : Elem := setPack "wsman:OptionSet" "wsman:Option" true values

/-- wsman.py 727-729 `SelectorSet`. -/
def selectorSet (values : List (PyStr × PyStr)) : Elem :=
  setPack "wsman:SelectorSet" "wsman:Selector" false (values.map fun v => ⟨v.1, v.2, []⟩)

def mustUnderstand (b : Bool) : PyStr × PyStr := ("s:mustUnderstand".toList, if b then "true".toList else "false".toList)

/-- `str(timeout or self.operation_timeout)`: 0 is false. -/
def timeoutText (c : Conn) (timeout : Option Int) : PyStr :=
  match timeout with
  | none => pyStrInt c.operationTimeout
  | some t => if t = 0 then pyStrInt c.operationTimeout else pyStrInt t

/-- wsman.py 559-618 `_create_header`. -/
def createHeader (c : Conn) (messageId : PyStr) (action : WSManAction) (uri : Option PyStr) (options : Option (List WSManValue))
    (selectors : Selectors) (timeout : Option Int) : Elem :=
  .node "s:Header".toList [] none <|
    [.node "wsa:Action".toList [mustUnderstand true] (some action.uri) [],
      .node "wsmv:DataLocale".toList [mustUnderstand false, ("xml:lang".toList, c.dataLocale)] none [],
      .node "wsman:Locale".toList [mustUnderstand false, ("xml:lang".toList, c.locale)] none [],
      .node "wsman:MaxEnvelopeSize".toList [mustUnderstand true] (some (pyStrInt c.maxEnvelope)) [],
      .node "wsa:MessageID".toList [] (some ("uuid:".toList ++ asciiUpper messageId)) [],
      .node "wsman:OperationTimeout".toList [] (some (seconds (timeoutText c timeout))) [],
      .node "wsa:ReplyTo".toList [] none
        [.node "wsa:Address".toList [mustUnderstand true] (some "http://schemas.xmlsoap.org/ws/2004/08/addressing/role/anonymous".toList) []],
      .node "wsman:ResourceURI".toList [mustUnderstand true] uri [],
      .node "wsmv:SessionId".toList [mustUnderstand false] (some ("uuid:".toList ++ asciiUpper c.sessionId)) [],
      .node "wsa:To".toList [] (some c.endpoint) []] ++
    (options.map optionSet).toList ++ (selectors.map selectorSet).toList

/-- wsman.py 470-489: the envelope of a request. -/
def envelope (c : Conn) (messageId : PyStr) (action : WSManAction) (uri : Option PyStr) (resource : Option Elem)
    (options : Option (List WSManValue)) (selectors : Selectors) (timeout : Option Int) : Elem :=
  .node "s:Envelope".toList [] none
    [createHeader c messageId action uri options selectors timeout, .node "s:Body".toList [] none resource.toList]

/-- wsman.py 477-483: the timeout of the HTTP request, none for that of the session. -/
def httpTimeout (timeout : Option Int) : Option Int :=
  match timeout with
  | none => none
  | some t => if t = 0 then none else some (t + 2)

/-- wsman.py 905-909: how long the HTTP request waits for data; `readTimeout` is that of the connection. -/
def readWait (readTimeout : Int) (timeout : Option Int) : Int := (httpTimeout timeout).getD readTimeout

/-- wsman.py 489: the bytes that are sent. -/
def envelopeBytes (c : Conn) (messageId : PyStr) (action : WSManAction) (uri : Option PyStr) (resource : Option Elem)
    (options : Option (List WSManValue)) (selectors : Selectors) (timeout : Option Int) : Bytes :=
  utf8 (printDocument (envelope c messageId action uri resource options selectors timeout))

/-- wsman.py 528: `"00000000-0000-0000-0000-000000000000"`. -/
def emptyUuid : PyStr := "00000000-0000-0000-0000-000000000000".toList

/-- wsman.py 528-545: the envelope for the calculation of sizes. Its body is not in an element of its own. -/
def skeletonEnvelope (c : Conn) (messageId : PyStr) : Elem :=
  .node "s:Envelope".toList [] none
    [createHeader c messageId .send (some "http://schemas.microsoft.com/wbem/wsman/1/windows/shell/cmd".toList) none
        (some [("ShellId".toList, emptyUuid)]) none,
      .node "rsp:Send".toList [] none
        [.node "rsp:Stream".toList [("Name".toList, "stdin".toList), ("CommandId".toList, emptyUuid)] (some []) []]]

/-- wsman.py 522-557 `_calc_envelope_size`. -/
def payloadSize (c : Conn) (messageId : PyStr) (maxEnvelope : Int) : Int :=
  calcEnvelopeSize (utf8 (printDocument (skeletonEnvelope c messageId))).length maxEnvelope

/-- The request of a shell: shell.py 109-117 (delete), 136-153 (command), 167-208 (create), 233-247 (receive), 289-300 (send),
312-318 (signal). -/
def ShellReq.envelope (c : Conn) (messageId : PyStr) : ShellReq → Elem
  | .create uri s => Verif.envelope c messageId .create uri (some (createBody s)) (if createOptions s = [] then none else some (createOptions s)) none none
  | .delete uri sel => Verif.envelope c messageId .delete uri none none sel none
  | .command uri sel x args noShell id =>
    Verif.envelope c messageId .command uri (ShellReq.command uri sel x args noShell id).body
      (some [⟨"WINRS_SKIP_CMD_SHELL".toList, pyStrBool noShell, []⟩]) sel none
  | .receive uri sel st id =>
    Verif.envelope c messageId .receive uri (ShellReq.receive uri sel st id).body
      (some [⟨"WSMAN_CMDSHELL_OPTION_KEEPALIVE".toList, pyStrBool true, []⟩]) sel none
  | .send uri sel st t id last => Verif.envelope c messageId .send uri (ShellReq.send uri sel st t id last).body none sel none
  | .signal uri sel code id => Verif.envelope c messageId .signal uri (ShellReq.signal uri sel code id).body none sel none

/-- powershell.py 88: `PROTOCOL_VERSION`. -/
def protocolVersionText : PyStr := "2.3".toList

/-- powershell.py 149-158: the shell of a runspace pool. -/
def poolShell (configuration id : PyStr) (noProfile : Bool) (idleTimeout : Option PyStr) : WinRS :=
  { resourceUri := some ("http://schemas.microsoft.com/powershell/".toList ++ configuration), id := some id,
    inputStreams := "stdin pr".toList, outputStreams := some "stdout".toList, noProfile, idleTimeOut := idleTimeout }

/-- powershell.py 560-565 with shell.py 167-208: the create request of a runspace pool; `block` is the first block. -/
def poolCreateEnvelope (c : Conn) (messageId : PyStr) (s : WinRS) (block : Bytes) : Elem :=
  Verif.envelope c messageId .create s.resourceUri
    (some (.node "rsp:Shell".toList (createBody s).attrs none ((createBody s).kids ++
      [.node "creationXml".toList [("xmlns".toList, "http://schemas.microsoft.com/powershell".toList)] (some (b64Encode block)) []])))
    (some (⟨"protocolversion".toList, protocolVersionText, [("MustComply".toList, "true".toList)]⟩ :: createOptions s)) none none

end Verif
