import Verif.Model.CreatePipeline
import Verif.Model.Host
import Verif.Model.PoolWire
/-
Host calls as documents: `RunspacePool._process_host_call` (src/pypsrp/powershell.py 797-825) from the message of the server to the value that
is given to the serializer. Model/Pool has the same function on messages without their content; here the call is read from its document
and the answer is written.
-/
namespace Verif

/-- What a host method gets for a value of a message. Only integers are kept of the extended properties of an object, as in Model/Host;
lists, dictionaries and bytes are not modelled there. -/
def hostArg : PyVal → Except PyErr HVal
  | .sc .none => .ok .none
  | .sc (.str s) => .ok (.str s)
  | .sc (.int i) => .ok (.int i)
  | .sc (.bool b) => .ok (.bool b)
  | .generic _ _ text _ ext _ => .ok (.obj (text.getD []) (ext.filterMap fun e => match e.2 with
      | .sc (.int i) => some (e.1, i)
      | _ => none))
  | _ => .error .notModelled

def hostArgs : List PyVal → Except PyErr (List HVal)
  | [] => .ok []
  | v :: vs => do
    let a ← hostArg v
    let as ← hostArgs vs
    return a :: as

/-- `uuid.UUID(int=n)`. -/
def UUID.ofNat (n : Nat) : UUID := ⟨(List.range 16).map fun i => UInt8.ofNat (n / 256 ^ (15 - i)), by simp⟩

/-- An instance of a class of the table. -/
def newInstance (cls : String) (attrs : List (PyStr × PyVal)) : Except PyErr PyVal :=
  match findClass cls.toList with
  | some c => instanceOf c 0 attrs
  | none => .error .notModelled

/-- What a host method returned, as the serializer sees it. A version is an element (host.py 133-149), which the serializer only gives a name
(serializer.py 92-99): that is what a TaggedValue becomes. The text of a color is looked up when it is written (complex_objects.py 148); a
color without value has the text of 0. Objects of the server are not modelled as results. -/
def HVal.val : HVal → Except PyErr PyVal
  | .none => .ok (.sc .none)
  | .str s => .ok (.sc (.str s))
  | .int i => .ok (.sc (.int i))
  | .bool b => .ok (.sc (.bool b))
  | .color (some i) => enumInstance "Color" i
  | .color Option.none => newInstance "Color" [("value".toList, .sc .none)]
  | .coordinates x y => newInstance "Coordinates" [("x".toList, .sc (.int x)), ("y".toList, .sc (.int y))]
  | .size height width => newInstance "Size" [("width".toList, .sc (.int width)), ("height".toList, .sc (.int height))]
  | .uuid n => .ok (.sc (.guid (UUID.ofNat n)))
  | .version s => .ok (.tagged .Version (.str s))
  | .obj _ _ => .error .notModelled

/-- powershell.py 815-818: `msg = response_obj()` and its attributes; `me` stays None (messages.py 629-663). -/
def hostResponseVal (ci mi mr : PyVal) : PyVal :=
  extendedObj ((hostResponse.extended.map (·.write)).zip [ci, mi, mr, .sc .none])

/-- The attribute `value` of an Enum that was read. -/
def enumNumber : PyVal → Option Int
  | .typed _ _ _ ((_, .sc (.int i)) :: _) _ _ => some i
  | _ => none

/-- powershell.py 803-823 with a host: the object that is sent, if one is, and the state of the host. What is raised by the serializer because
of a color without a name is raised here, before anything is sent as well. -/
def answerCall (h : HostImpl σ) (kind : MsgKind) (v : PyVal) (s : σ) : Except PyErr (Option PyVal) × σ :=
  match dataAttr kind v "ci", dataAttr kind v "mi", dataAttr kind v "mp" with
  | some ci, some mi, some (.list mp) =>
    match hostArgs mp with
    | .error e => (.error e, s)
    | .ok args =>
      match runMethod h (enumNumber mi) args s with
      | (.error e, s) => (.error e, s)
      | (.ok .none, s) => (.ok none, s)
      | (.ok r, s) => ((r.val).map fun mr => some (hostResponseVal ci mi mr), s)
  | _, _, _ => (.error .notModelled, s)

/-- A message of the server with a host call. -/
def answerMessage (h : HostImpl σ) (data : Bytes) (s : σ) : Except PyErr (Option PyVal) × σ :=
  match unpackMessage data with
  | .error e => (.error e, s)
  | .ok u => match u.data with
    | some v => answerCall h u.kind v s
    | none => (.error .notModelled, s)

end Verif
