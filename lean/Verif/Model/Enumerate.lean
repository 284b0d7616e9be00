import Verif.Model.Envelope
/-
Pools found on the server: `RunspacePool.get_runspace_pools` and the requests that disconnect from, connect to and reconnect to a pool
(src/pypsrp/powershell.py 300-383, 463-528, 1148-1166), `WinRS._get_shell` (src/pypsrp/shell.py 320-354).

The connection is a list of answers, as in Model/Shell. What the messages in an answer do to a pool is in Model/Pool.
-/
namespace Verif

/-- The arguments of `WSMan.invoke` (wsman.py 444-453). -/
structure WsReq where
  action : WSManAction
  uri : Option PyStr
  resource : Option Elem := none
  options : Option (List WSManValue) := none
  selectors : Selectors := none
  timeout : Option Int := none

/-- wsman.py 470-489. -/
def WsReq.envelope (c : Conn) (messageId : PyStr) (r : WsReq) : Elem :=
  Verif.envelope c messageId r.action r.uri r.resource r.options r.selectors r.timeout

/-- A connection: the answers to come and the requests so far. -/
structure WsWorld where
  replies : List (Except PyErr Elem)
  sent : List WsReq := []

/-- Programs that use a connection. -/
def WM (α : Type) := WsWorld → Res α × WsWorld

instance : Monad WM where
  pure a := fun w => (.ok a, w)
  bind x f := fun w =>
    match x w with
    | (.ok a, w1) => f a w1
    | (.raised e, w1) => (.raised e, w1)
    | (.waiting, w1) => (.waiting, w1)

def wraise (e : PyErr) : WM α := fun w => (.raised e, w)
def wlift (x : Except PyErr α) : WM α := fun w =>
  match x with
  | .ok a => (.ok a, w)
  | .error e => (.raised e, w)

/-- A request and the body of its answer. -/
def wsInvoke (r : WsReq) : WM Elem := fun w =>
  match w.replies with
  | [] => (.waiting, { w with sent := w.sent ++ [r] })
  | .error e :: rest => (.raised e, { replies := rest, sent := w.sent ++ [r] })
  | .ok body :: rest => (.ok body, { replies := rest, sent := w.sent ++ [r] })

/-- `str(value)` of a text or None (wsman.py 715). -/
def pyStrOf : Option PyStr → PyStr
  | none => "None".toList
  | some s => s

/-- The attributes of a `PowerShell` object that these functions use (powershell.py 952-965). -/
structure FoundPipe where
  id : Option PyStr
  commandId : Option PyStr
  state : PipeState
  fromDisconnect : Bool := false

/-- The attributes of a `RunspacePool` object that these functions use (powershell.py 145-182). `pipelines` is a dict in its order. -/
structure FoundPool where
  id : Option PyStr
  shell : WinRS
  state : PoolState
  newClient : Bool
  pipelines : List (Option PyStr × FoundPipe) := []

/-- powershell.py 482-484, and 504-512 with the filter for a shell. -/
def enumerateBody (filter : Option (List (PyStr × PyStr))) : Elem :=
  .node "wsen:Enumerate".toList [] none <|
    [.node "wsman:OptimizeEnumeration".toList [] none [], .node "wsman:MaxElements".toList [] (some "32000".toList) []] ++
    match filter with
    | none => []
    | some sel => [.node "wsman:Filter".toList
        [("Dialect".toList, "http://schemas.dmtf.org/wbem/wsman/1/wsman/SelectorFilter".toList)] none [selectorSet sel]]

def shellUri : PyStr := "http://schemas.microsoft.com/wbem/wsman/1/windows/shell".toList
def commandUri : PyStr := "http://schemas.microsoft.com/wbem/wsman/1/windows/shell/Command".toList

/-- `element.find(tag).text`: `AttributeError` if there is no such child. -/
def childText (tag : String) (e : Elem) : Except PyErr (Option PyStr) :=
  match e.find [tag.toList] with
  | none => .error .attributeError
  | some c => .ok c.text

/-- `d[key] = value` of a dict. -/
def dictPut [DecidableEq κ] (k : κ) (v : α) : List (κ × α) → List (κ × α)
  | [] => [(k, v)]
  | (k', v') :: rest => if k' = k then (k, v) :: rest else (k', v') :: dictPut k v rest

/-- powershell.py 516-524: the pipelines of a listing of commands. -/
def readPipelines : List Elem → List (Option PyStr × FoundPipe) → Except PyErr (List (Option PyStr × FoundPipe))
  | [], acc => .ok acc
  | e :: es, acc => do
    let id ← childText "rsp:CommandId" e
    readPipelines es (dictPut id { id, commandId := id, state := .disconnected } acc)

/-- powershell.py 493: `RunspacePool(connection)` and 494-502: as it is left for a shell with this id. The uuid of the new object is
replaced at once. -/
def foundPool (id : Option PyStr) (pipelines : List (Option PyStr × FoundPipe)) : FoundPool where
  id := id
  shell := { poolShell "Microsoft.PowerShell".toList [] false none with id := id, opened := true }
  state := .disconnected
  newClient := true
  pipelines := pipelines

/-- powershell.py 491-527: the loop over the shells. -/
def readPools : List Elem → WM (List FoundPool)
  | [] => pure []
  | e :: es => do
    let id ← wlift (childText "rsp:ShellId" e)
    let body ← wsInvoke { action := .enumerate, uri := some commandUri, resource := some (enumerateBody (some [("ShellId".toList, pyStrOf id)])) }
    let pipelines ← wlift (readPipelines (body.findAll ["wsen:EnumerateResponse".toList, "wsman:Items".toList, "rsp:Command".toList]) [])
    let rest ← readPools es
    return foundPool id pipelines :: rest

/-- powershell.py 463-528 `get_runspace_pools`. -/
def getRunspacePools : WM (List FoundPool) := do
  let body ← wsInvoke { action := .enumerate, uri := some shellUri, resource := some (enumerateBody none) }
  readPools (body.findAll ["wsen:EnumerateResponse".toList, "wsman:Items".toList, "rsp:Shell".toList])

/-- powershell.py 333-334: the data of a connection, the first block of each of the two messages. -/
def connectData (o : OutState) (capability connect : Bytes) : Except PyErr (Bytes × OutState) := do
  let (blocks1, o1) ← fragment o capability none
  let (blocks2, o2) ← fragment o1 connect none
  match blocks1, blocks2 with
  | b1 :: _, b2 :: _ => return (b1 ++ b2, o2)
  | _, _ => .error .indexError

/-- powershell.py 336-345: the request that connects to a pool of another client. -/
def connectRequest (p : FoundPool) (data : Bytes) : WsReq where
  action := .connect
  uri := p.shell.resourceUri
  resource := some (.node "rsp:Connect".toList [] none
    [.node "connectXml".toList [("xmlns".toList, "http://schemas.microsoft.com/powershell".toList)] (some (b64Encode data)) []])
  options := some [⟨"protocolversion".toList, protocolVersionText, [("MustComply".toList, "true".toList)]⟩]
  selectors := some [("ShellId".toList, pyStrOf p.id)]

/-- The request of a shell operation as arguments of `invoke`: shell.py 114, 153, 209, 245-247, 300, 318. -/
def ShellReq.toWs (r : ShellReq) : WsReq :=
  match r with
  | .create uri s => { action := .create, uri, resource := r.body, options := if createOptions s = [] then none else some (createOptions s) }
  | .delete uri sel => { action := .delete, uri, selectors := sel }
  | .command uri sel _ _ noShell _ =>
    { action := .command, uri, resource := r.body, options := some [⟨"WINRS_SKIP_CMD_SHELL".toList, pyStrBool noShell, []⟩], selectors := sel }
  | .receive uri sel _ _ =>
    { action := .receive, uri, resource := r.body, options := some [⟨"WSMAN_CMDSHELL_OPTION_KEEPALIVE".toList, pyStrBool true, []⟩], selectors := sel }
  | .send uri sel _ _ _ _ => { action := .send, uri, resource := r.body, selectors := sel }
  | .signal uri sel _ _ => { action := .signal, uri, resource := r.body, selectors := sel }

/-- powershell.py 712-740: the request of `_receive` for a pool, the streams it asks for are `stdout`. -/
def poolReceive (s : WinRS) : WsReq := (ShellReq.receive s.resourceUri s.selectors "stdout".toList none).toWs

/-- powershell.py 329-353 `_connect_new_client`. `parse` is `_parse_responses`, which changes the pool's state (Model/Pool); the answer to
the last request is handled there, too. -/
def connectNewClient (parse : Bytes → Except PyErr PoolState) (data : Bytes) (p : FoundPool) : WM FoundPool := do
  let body ← wsInvoke (connectRequest p data)
  match body.find ["rsp:ConnectResponse".toList, "pwsh:connectResponseXml".toList] with
  | none => wraise .attributeError
  | some e =>
    match e.text with
    | none => wraise .typeError
    | some t => do
      let fragments ← wlift (b64DecodeStr t)
      let state ← wlift (parse fragments)
      let shell := { p.shell with id := p.id, selectors := some [("ShellId".toList, pyStrOf p.id)] }
      let _ ← wsInvoke (poolReceive shell)
      return { p with shell, state }

/-- `self.shell.id or ""`. -/
def idOrEmpty : Option PyStr → PyStr
  | none => []
  | some s => s

/-- powershell.py 323-326: the request that reconnects to an own pool. -/
def reconnectRequest (p : FoundPool) : WsReq where
  action := .reconnect
  uri := p.shell.resourceUri
  selectors := some [("ShellId".toList, idOrEmpty p.shell.id)]

/-- powershell.py 376-380: the request that disconnects from a pool. -/
def disconnectRequest (p : FoundPool) : WsReq where
  action := .disconnect
  uri := p.shell.resourceUri
  resource := some (.node "rsp:Disconnect".toList [] none [])
  selectors := some [("ShellId".toList, idOrEmpty p.shell.id)]

/-- powershell.py 1159-1163: the request that connects to a pipeline. -/
def connectPipeRequest (p : FoundPool) (id : PyStr) : WsReq where
  action := .connect
  uri := p.shell.resourceUri
  resource := some (.node "rsp:Connect".toList [("CommandId".toList, id)] none [])
  selectors := p.shell.selectors

/-- powershell.py 300-327 `connect`. -/
def FoundPool.connect (parse : Bytes → Except PyErr PoolState) (data : Bytes) (p : FoundPool) : WM FoundPool :=
  if p.state = .opened then pure p
  else if p.state ≠ .disconnected then wraise .invalidPoolState
  else if p.newClient then do
    let p ← connectNewClient parse data p
    return { p with newClient := false }
  else do
    let _ ← wsInvoke (reconnectRequest p)
    return { p with state := .opened }

/-- powershell.py 366-383 `disconnect`. -/
def FoundPool.disconnect (p : FoundPool) : WM FoundPool :=
  if p.state = .disconnected then pure p
  else if p.state ≠ .opened then wraise .invalidPoolState
  else do
    let _ ← wsInvoke (disconnectRequest p)
    return { p with state := .disconnected, pipelines := p.pipelines.map fun e => (e.1, { e.2 with state := .disconnected }) }

/-- powershell.py 286-298 `close`, with shell.py 109-117. -/
def FoundPool.close (p : FoundPool) : WM FoundPool :=
  if p.state = .closed ∨ p.state = .closing ∨ p.state = .broken then pure p
  else if p.shell.opened then do
    let _ ← wsInvoke (ShellReq.delete p.shell.resourceUri p.shell.selectors).toWs
    return { p with state := .closed, shell := { p.shell with id := none, opened := false } }
  else return { p with state := .closed }

/-- powershell.py 355-364 `create_disconnected_power_shells`. -/
def FoundPool.disconnectedPipes (p : FoundPool) : List FoundPipe :=
  (p.pipelines.map (·.2)).filter fun x => x.state = .disconnected

/-- powershell.py 1148-1166 `connect_async`. An id that is None cannot be printed (`TypeError` in `ET.tostring`, before the request). -/
def FoundPipe.connectAsync (p : FoundPool) (x : FoundPipe) : WM FoundPipe :=
  if x.state ≠ .disconnected then wraise .invalidPipelineState
  else
    match x.id with
    | none => wraise .typeError
    | some id => do
      let _ ← wsInvoke (connectPipeRequest p id)
      return { x with state := .running, fromDisconnect := true }

/-- shell.py 347-352: the fields of a shell. `child.tag.replace("{rsp}", "")` takes the prefix off; exact for tags with one prefix. -/
def shellFields : List Elem → List (PyStr × Option PyStr) → List (PyStr × Option PyStr)
  | [], acc => acc
  | e :: es, acc =>
    shellFields es (dictPut (if "rsp:".toList.isPrefixOf e.tag then e.tag.drop 4 else e.tag) e.text acc)

/-- shell.py 320-354 `_get_shell`. -/
def getShell (s : WinRS) (timeout : Option Int) : WM (List (PyStr × Option PyStr)) := do
  let body ← wsInvoke { action := .get, uri := some shellUri, selectors := s.selectors, timeout }
  match body.find ["rsp:Shell".toList] with
  | none => pure []
  | some shell => pure (shellFields shell.kids [])

end Verif
