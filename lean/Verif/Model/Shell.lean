import Verif.Model.Pool
import Verif.Model.Transport
import Verif.Model.Base64
/-
WinRS shells and processes (src/pypsrp/shell.py) and `Client.execute_cmd` (src/pypsrp/client.py 145-179).

WSMan is a list of answers, one for each request: a body or an exception; when the list is used up the program waits. The XML
of the requests is represented by the values that go into it; bodies of responses are elements as in Model/Transport.
-/
namespace Verif

/-- shell.py 19-22: `CommandState`. -/
def CommandState.done : PyStr := "http://schemas.microsoft.com/wbem/wsman/1/windows/shell/CommandState/Done".toList
def CommandState.pending : PyStr := "http://schemas.microsoft.com/wbem/wsman/1/windows/shell/CommandState/Pending".toList

/-- shell.py 33: `SignalCode.CTRL_C`. -/
def ctrlC : PyStr := "http://schemas.microsoft.com/wbem/wsman/1/windows/shell/signal/ctrl_c".toList

abbrev Selectors := Option (List (PyStr × PyStr))

/-- shell.py 76-96: the attributes of `WinRS`. Numbers (idle timeout, lifetime, code page) are given by their text: the
timeout may be replaced by a text of the server. -/
structure WinRS where
  opened : Bool := false
  id : Option PyStr := none
  resourceUri : Option PyStr
  environment : Option (List (PyStr × PyStr)) := none
  inputStreams : PyStr := "stdin".toList
  outputStreams : Option PyStr := some "stdout stderr".toList
  codepage : Option PyStr := none
  lifetime : Option PyStr := none
  name : Option PyStr := none
  noProfile : Bool := false
  workingDirectory : Option PyStr := none
  idleTimeOut : Option PyStr := none
  owner : Option PyStr := none
  clientIp : Option PyStr := none
  shellRunTime : Option PyStr := none
  shellInactivity : Option PyStr := none
  selectors : Selectors := none
  deriving DecidableEq, Repr

/-- The requests of a shell: the values that go into their XML (`ShellReq.body`). For create these are attributes of the shell. -/
inductive ShellReq where
  | create (uri : Option PyStr) (shell : WinRS)
  | delete (uri : Option PyStr) (selectors : Selectors)
  | command (uri : Option PyStr) (selectors : Selectors) (executable : PyStr) (arguments : List PyStr) (noShell : Bool)
      (commandId : Option PyStr)
  | receive (uri : Option PyStr) (selectors : Selectors) (stream : PyStr) (commandId : Option PyStr)
  | send (uri : Option PyStr) (selectors : Selectors) (stream : PyStr) (text : PyStr) (commandId : Option PyStr) (last : Option Bool)
  | signal (uri : Option PyStr) (selectors : Selectors) (code : PyStr) (commandId : PyStr)
  deriving DecidableEq, Repr

/-- `ET.SubElement(parent, tag).text = text`. -/
def textElem (tag : String) (text : Option PyStr) : Elem := .node tag.toList [] text []

/-- The same if the value is not None. -/
def optElem (tag : String) (value : Option PyStr) : List Elem :=
  match value with
  | none => []
  | some t => [textElem tag (some t)]

/-- `"PT%sS" % value`. -/
def seconds (value : PyStr) : PyStr := "PT".toList ++ value ++ "S".toList

/-- An attribute that is only there if the value is not None. -/
def optAttr (name : String) (value : Option PyStr) : List (PyStr × PyStr) :=
  match value with
  | none => []
  | some v => [(name.toList, v)]

/-- shell.py 177-180: the environment in a create request. -/
def environmentElem : Option (List (PyStr × PyStr)) → List Elem
  | none => []
  | some env => [.node "rsp:Environment".toList [] none
      (env.map fun v => .node "rsp:Variable".toList [("Name".toList, v.1)] (some v.2) [])]

/-- shell.py 171-196: the body of a create request, without `open_content`. -/
def createBody (s : WinRS) : Elem :=
  .node "rsp:Shell".toList (optAttr "ShellId" s.id) none <|
    [textElem "rsp:InputStreams" (some s.inputStreams), textElem "rsp:OutputStreams" s.outputStreams] ++
    environmentElem s.environment ++
    optElem "rsp:IdleTimeOut" (s.idleTimeOut.map seconds) ++ optElem "rsp:Lifetime" (s.lifetime.map seconds) ++
    optElem "rsp:Name" s.name ++ optElem "rsp:WorkingDirectory" s.workingDirectory

/-- wsman.py 704-711 `add_option`: an entry of an option or selector set. -/
structure WSManValue where
  name : PyStr
  value : PyStr
  attributes : List (PyStr × PyStr) := []
  deriving DecidableEq, Repr

/-- shell.py 200-207: the options of a create request, without `base_options`. -/
def createOptions (s : WinRS) : List WSManValue :=
  (if s.noProfile then [⟨"WINRS_NOPROFILE".toList, "TRUE".toList, [("MustComply".toList, "true".toList)]⟩] else []) ++
    (match s.codepage with
      | none => []
      | some c => [⟨"WINRS_CODEPAGE".toList, c, []⟩])

/-- `str(b)`. -/
def pyStrBool (b : Bool) : PyStr := if b then "True".toList else "False".toList

/-- The body of a request: shell.py 171-196 (create), 139-149 (command), 236-240 (receive), 291-299 (send), 314-317 (signal).
A delete request has none. -/
def ShellReq.body : ShellReq → Option Elem
  | .create _ s => some (createBody s)
  | .delete _ _ => none
  | .command _ _ executable arguments _ commandId => some <|
      .node "rsp:CommandLine".toList (optAttr "CommandId" commandId) none <|
        textElem "rsp:Command" (some executable) :: arguments.map fun a => textElem "rsp:Arguments" (some a)
  | .receive _ _ stream commandId => some <|
      .node "rsp:Receive".toList [] none [.node "rsp:DesiredStream".toList (optAttr "CommandId" commandId) (some stream) []]
  | .send _ _ stream text commandId last => some <|
      .node "rsp:Send".toList [] none [.node "rsp:Stream".toList
        (("Name".toList, stream) :: (optAttr "End" (last.map pyStrBool) ++ optAttr "CommandId" commandId)) (some text) []]
  | .signal _ _ code commandId => some <|
      .node "rsp:Signal".toList [("CommandId".toList, commandId)] none [textElem "rsp:Code" (some code)]

/-- The shell and its connection: the answers to come, and the requests so far with whether they were answered. -/
structure ShellWorld where
  shell : WinRS
  replies : List (Except PyErr Elem)
  sent : List (ShellReq × Bool) := []

/-- Programs that use a shell. -/
def SM (α : Type) := ShellWorld → Res α × ShellWorld

instance : Monad SM where
  pure a := fun w => (.ok a, w)
  bind x f := fun w =>
    match x w with
    | (.ok a, w1) => f a w1
    | (.raised e, w1) => (.raised e, w1)
    | (.waiting, w1) => (.waiting, w1)

def sget : SM ShellWorld := fun w => (.ok w, w)
def smodify (f : WinRS → WinRS) : SM Unit := fun w => (.ok (), { w with shell := f w.shell })
def swait : SM α := fun w => (.waiting, w)
def sraise (e : PyErr) : SM α := fun w => (.raised e, w)
def slift (x : Except PyErr α) : SM α := fun w =>
  match x with
  | .ok a => (.ok a, w)
  | .error e => (.raised e, w)

/-- A WSMan request and its answer (wsman.py 444-520, in detail in Model/Transport). -/
def wsman (r : ShellReq) : SM Elem := fun w =>
  match w.replies with
  | [] => (.waiting, { w with sent := w.sent ++ [(r, false)] })
  | .error e :: rest => (.raised e, { w with replies := rest, sent := w.sent ++ [(r, false)] })
  | .ok body :: rest => (.ok body, { w with replies := rest, sent := w.sent ++ [(r, true)] })

/-- shell.py 370-374: `setattr` for every field that the response has. -/
def setField (path : PyStr) (set : Option PyStr → WinRS → WinRS) (body : Elem) (s : WinRS) : WinRS :=
  match body.find ["rsp:Shell".toList, path] with
  | some e => set e.text s
  | none => s

/-- shell.py 379-381: the selectors of the response, as far as they have names, and whether all have. -/
def readSelectors : List Elem → List (PyStr × PyStr) × Bool
  | [] => ([], true)
  | e :: es =>
    match e.attr "Name".toList with
    | none => ([], false)
    | some n => ((n, e.text.getD []) :: (readSelectors es).1, (readSelectors es).2)

/-- shell.py 356-381 `_parse_shell_create`. A selector without name raises `KeyError` and leaves those before it. -/
def parseShellCreate (body : Elem) : SM Unit := do
  smodify (setField "rsp:ShellId".toList (fun t s => { s with id := t }) body)
  smodify (setField "rsp:ResourceUri".toList (fun t s => { s with resourceUri := t }) body)
  smodify (setField "rsp:Owner".toList (fun t s => { s with owner := t }) body)
  smodify (setField "rsp:ClientIP".toList (fun t s => { s with clientIp := t }) body)
  smodify (setField "rsp:IdleTimeOut".toList (fun t s => { s with idleTimeOut := t }) body)
  smodify (setField "rsp:OutputStreams".toList (fun t s => { s with outputStreams := t }) body)
  smodify (setField "rsp:ShellRunTime".toList (fun t s => { s with shellRunTime := t }) body)
  smodify (setField "rsp:ShellInactivity".toList (fun t s => { s with shellInactivity := t }) body)
  match body.find ["wst:ResourceCreated".toList, "wsa:ReferenceParameters".toList, "wsman:SelectorSet".toList] with
  | none => pure ()
  | some set => do
    let l := readSelectors set.kids
    smodify fun s => { s with selectors := some l.1 }
    if l.2 then pure () else sraise .keyError

/-- shell.py 155-211 `WinRS.open`. -/
def winrsOpen : SM Unit := do
  let w ← sget
  if w.shell.opened then pure ()
  else do
    let body ← wsman (.create w.shell.resourceUri w.shell)
    parseShellCreate body
    smodify fun s => { s with opened := true }

/-- shell.py 109-117 `WinRS.close`. -/
def winrsClose : SM Unit := do
  let w ← sget
  if !w.shell.opened then pure ()
  else do
    let _ ← wsman (.delete w.shell.resourceUri w.shell.selectors)
    smodify fun s => { s with id := none, opened := false }

/-- shell.py 119-153 `WinRS.command`. -/
def winrsCommand (executable : PyStr) (arguments : Option (List PyStr)) (noShell : Bool) (commandId : Option PyStr) : SM Elem := do
  let w ← sget
  wsman (.command w.shell.resourceUri w.shell.selectors executable (arguments.getD []) noShell commandId)

/-- `element.findall("a/b/c")`. -/
def Elem.findAll (e : Elem) : List PyStr → List Elem
  | [] => [e]
  | t :: ts => go t (fun k => k.findAll ts) e.kids
where
  /-- the matches below the children with the tag -/
  go (t : PyStr) (rest : Elem → List Elem) : List Elem → List Elem
    | [] => []
    | k :: ks => if k.tag = t then rest k ++ go t rest ks else go t rest ks

/-- A dict of buffers, in the order of the streams. -/
abbrev Buffers := List (PyStr × Bytes)

/-- `buffer[name] += value`: `KeyError` for a name that is not in the dict. -/
def Buffers.add (name : PyStr) (value : Bytes) : Buffers → Except PyErr Buffers
  | [] => .error .keyError
  | (n, b) :: rest => if n = name then .ok ((n, b ++ value) :: rest) else (Buffers.add name value rest).map ((n, b) :: ·)

/-- shell.py 262-269: the loop over the streams of a response. -/
def addStreams (buffer : Buffers) : List Elem → Except PyErr Buffers
  | [] => .ok buffer
  | s :: rest =>
    match s.text with
    | none => addStreams buffer rest
    | some text => do
      let value ← b64Decode text
      match s.attr "Name".toList with
      | none => .error .keyError
      | some name => do
        let buffer ← buffer.add name value
        addStreams buffer rest

/-- `str.split()`. -/
def splitSpaces (cur : PyStr) : PyStr → List PyStr
  | [] => if cur = [] then [] else [cur.reverse]
  | c :: cs =>
    if isPySpace c then if cur = [] then splitSpaces [] cs else cur.reverse :: splitSpaces [] cs
    else splitSpaces (c :: cur) cs

/-- shell.py 249-252: the state in a response. -/
def receiveState (body : Elem) : Except PyErr PyStr :=
  match body.find ["rsp:ReceiveResponse".toList, "rsp:CommandState".toList] with
  | none => .ok CommandState.pending
  | some e =>
    match e.attr "State".toList with
    | none => .error .keyError
    | some s => .ok s

/-- `text or "0"`. -/
def orZero : Option PyStr → PyStr
  | none => ['0']
  | some [] => ['0']
  | some t => t

/-- shell.py 254-257: the exit code in a response. -/
def receiveCode (body : Elem) : Except PyErr (Option Int) :=
  match body.find ["rsp:ReceiveResponse".toList, "rsp:CommandState".toList, "rsp:ExitCode".toList] with
  | none => .ok none
  | some e => (pyInt (orZero e.text)).map some

/-- shell.py 249-271 after the request: state, exit code and buffers of a response. -/
def parseReceive (stream : PyStr) (body : Elem) : Except PyErr (PyStr × Option Int × Buffers) := do
  let state ← receiveState body
  let rc ← receiveCode body
  let buffers ← addStreams ((splitSpaces [] stream).map fun n => (n, [])) (body.findAll ["rsp:ReceiveResponse".toList, "rsp:Stream".toList])
  return (state, rc, buffers)

/-- shell.py 213-271 `WinRS.receive`. The timeout is not modelled here. -/
def winrsReceive (stream : PyStr) (commandId : Option PyStr) : SM (PyStr × Option Int × Buffers) := do
  let w ← sget
  let body ← wsman (.receive w.shell.resourceUri w.shell.selectors stream commandId)
  slift (parseReceive stream body)

/-- shell.py 273-300 `WinRS.send`. -/
def winrsSend (stream : PyStr) (data : Bytes) (commandId : Option PyStr) (last : Option Bool) : SM Elem := do
  let w ← sget
  wsman (.send w.shell.resourceUri w.shell.selectors stream (b64Encode data) commandId last)

/-- shell.py 302-318 `WinRS.signal`. -/
def winrsSignal (code commandId : PyStr) : SM Elem := do
  let w ← sget
  wsman (.signal w.shell.resourceUri w.shell.selectors code commandId)

/-- shell.py 407-413: the attributes of `Process`. -/
structure Proc where
  id : Option PyStr := none
  noShell : Bool := false
  executable : PyStr
  arguments : Option (List PyStr) := none
  state : PyStr := CommandState.pending
  rc : Option Int := none
  stdout : Bytes := []
  stderr : Bytes := []
  deriving DecidableEq, Repr

/-- shell.py 415-423 `begin_invoke`. -/
def Proc.begin (p : Proc) : SM Proc := do
  let body ← winrsCommand p.executable p.arguments p.noShell none
  return { p with id := (body.find ["rsp:CommandResponse".toList, "rsp:CommandId".toList]).bind Elem.text }

/-- `buffer[name]`. -/
def Buffers.get (b : Buffers) (name : PyStr) : Except PyErr Bytes :=
  match b.lookup name with
  | some v => .ok v
  | none => .error .keyError

/-- shell.py 439-459 `poll_invoke`. An exception leaves the process as it was (442 assigns after the call), so that it is enough to
return the new one. -/
def Proc.poll (p : Proc) : SM Proc := fun w =>
  match winrsReceive "stdout stderr".toList p.id w with
  | (.raised e, w1) => if e = .wsManFault (some 2150858793) then (.ok p, w1) else (.raised e, w1)
  | (.waiting, w1) => (.waiting, w1)
  | (.ok (state, rc, buffers), w1) =>
    match buffers.get "stdout".toList, buffers.get "stderr".toList with
    | .ok o, .ok e => (.ok { p with state, rc, stdout := p.stdout ++ o, stderr := p.stderr ++ e }, w1)
    | .error e, _ => (.raised e, w1)
    | _, .error e => (.raised e, w1)

/-- shell.py 425-430 `end_invoke`; every poll uses an answer. -/
def Proc.pollUntilDone : Nat → Proc → SM Proc
  | 0, p => if p.state = CommandState.done then pure p else swait
  | n + 1, p =>
    if p.state = CommandState.done then pure p
    else do
      let p ← p.poll
      Proc.pollUntilDone n p

/-- shell.py 425-430 `end_invoke`. -/
def Proc.finish (p : Proc) : SM Proc := do
  let w ← sget
  Proc.pollUntilDone (w.replies.length + 1) p

/-- shell.py 432-437 `invoke`. -/
def Proc.invoke (p : Proc) : SM Proc := do
  let p ← p.begin
  p.finish

/-- shell.py 471-477 `Process.signal`. -/
def Proc.signal (p : Proc) (code : PyStr) : SM Unit := do
  let _ ← winrsSignal code (p.id.getD [])
  pure ()

/-- shell.py 461-469 `Process.send`. -/
def Proc.send (p : Proc) (data : Bytes) (last : Bool) : SM Unit := do
  let _ ← winrsSend "stdin".toList data p.id (some last)
  pure ()

/-- shell.py 101-107 `__exit__` after the body of a `with`: an exception of the body or of `close` gets out, the latter first; while
the body waits nothing more is sent. -/
def closing (body : SM α) : SM α := fun w =>
  match body w with
  | (.waiting, w1) => (.waiting, w1)
  | (.ok a, w1) =>
    match winrsClose w1 with
    | (.ok _, w2) => (.ok a, w2)
    | (.raised e, w2) => (.raised e, w2)
    | (.waiting, w2) => (.waiting, w2)
  | (.raised e, w1) =>
    match winrsClose w1 with
    | (.ok _, w2) => (.raised e, w2)
    | (.raised e', w2) => (.raised e', w2)
    | (.waiting, w2) => (.waiting, w2)

/-- `with shell: body`: shell.py 97-107. -/
def withShell (body : SM α) : SM α := do
  winrsOpen
  closing body

/-- client.py 173-176: the shell's part of `execute_cmd`. -/
def runCmd (command : PyStr) : SM Proc := withShell do
  let p ← ({ executable := command } : Proc).invoke
  p.signal ctrlC
  pure p

/-- client.py 145-179 `execute_cmd`, on a new shell; `decode` is the codec of the encoding. -/
def executeCmd (decode : Bytes → Except PyErr PyStr) (command : PyStr) : SM (PyStr × PyStr × Int) := do
  let p ← runCmd command
  let out ← slift (decode p.stdout)
  let err ← slift (decode p.stderr)
  return (out, err, p.rc.getD (-1))

/-- The shell of `execute_cmd`: client.py 173. -/
def newShell (environment : Option (List (PyStr × PyStr))) : WinRS :=
  { resourceUri := some "http://schemas.microsoft.com/wbem/wsman/1/windows/shell/cmd".toList, environment }

/-- Calls of `open` and `close`. -/
inductive ShellOp where
  | open | close
  deriving DecidableEq, Repr

/-- A history of calls; exceptions are caught by the caller. -/
def runShell (w : ShellWorld) : List ShellOp → ShellWorld
  | [] => w
  | .open :: ops => runShell (winrsOpen w).2 ops
  | .close :: ops => runShell (winrsClose w).2 ops

end Verif
