import Verif.Lemmas.HostWire
import Verif.Props.Docs
import Verif.Props.HostCalls
import Verif.Props.ServerRead
/-
C98: host calls and their answers as documents.
-/
namespace Verif
open Docs

/-- C98: the bytes of a host call, for the pool or for a pipeline, are read as the call: its number, the id of the method and the arguments. -/
theorem C98_call (rd : Reader) {ci mi : Int} {items : List SVal} {bytes : Bytes} :
    (CallMessage .pipelineHostCall ci mi items bytes →
      srvMsg rd bytes = .ok (.pipelineHostCall { ci, mi, mp := items.map fun v => rd.name v.value })) ∧
    (CallMessage .runspacePoolHostCall ci mi items bytes →
      srvMsg rd bytes = .ok (.poolHostCall { ci, mi, mp := items.map fun v => rd.name v.value })) := by
  constructor <;> intro h
  · obtain ⟨u, v, h1, h2, h3, h4, h5, h6⟩ := call_read (.inl rfl) h
    simp only [srvMsg, h1, h2, h3, bind, Except.bind, readMessage, readHostCall, numberAttr, h4, h5, h6, methodVal, List.map_map]
    rfl
  · obtain ⟨u, v, h1, h2, h3, h4, h5, h6⟩ := call_read (.inr rfl) h
    simp only [srvMsg, h1, h2, h3, bind, Except.bind, readMessage, readHostCall, numberAttr, h4, h5, h6, methodVal, List.map_map]
    rfl

/-- What happens on a call of a method that the host has. -/
theorem answer_eq {h : HostImpl σ} {s : σ} {kind : MsgKind} (hk : kind = .pipelineHostCall ∨ kind = .runspacePoolHostCall) {ci : Int} {n : Nat} {part : HostPart}
    {name : String} (hn : IsMethod n part name) {f : HostMethod σ} (hf : h.Has s part name f) {items : List SVal} {args : List HVal} (ha : AreArgs items args)
    {bytes : Bytes} (hb : CallMessage kind ci n items bytes) : answerMessage h bytes s = match f args s with
      | (.error e, s) => (.error e, s)
      | (.ok .none, s) => (.ok none, s)
      | (.ok r, s) => ((r.val).map fun mr => some (hostResponseVal (.sc (.int ci)) (methodVal n) mr), s) := by
  obtain ⟨u, v, h1, h2, h3, h4, h5, h6⟩ := call_read hk hb
  have hrun := C62_method h s args hn hf
  simp only [answerMessage, h1, h2, h3, answerCall, h4, h5, h6, args_read ha]
  rw [show enumNumber (methodVal n) = some (n : Int) from rfl, hrun]
  rcases f args s with ⟨_ | r, s'⟩
  · rfl
  · cases r <;> rfl

/-- C98: the answer to a host call has the number and the method of the call and the value that the method of the host returned for the arguments of the
call, and nothing else. -/
theorem C98_answer {h : HostImpl σ} {s s' : σ} {kind : MsgKind} (hk : kind = .pipelineHostCall ∨ kind = .runspacePoolHostCall) {ci : Int} {n : Nat}
    {part : HostPart} {name : String} (hn : IsMethod n part name) {f : HostMethod σ} (hf : h.Has s part name f) {items : List SVal} {args : List HVal}
    (ha : AreArgs items args) {bytes : Bytes} (hb : CallMessage kind ci n items bytes) {r : HVal} (hr : f args s = (.ok r, s')) {d : Doc} (hd : ResultDoc r d) :
    ∃ v x, answerMessage h bytes s = (.ok (some v), s') ∧ serialize .star v = .ok (some x) ∧
      (resolve x []).1 = members none [leaf .I64 (some "ci") (pyStrInt ci),
        enumerated (some "mi") "System.Management.Automation.Remoting.RemoteHostMethodId" name n, d] := by
  obtain ⟨hne, mr, hmr, hdoc⟩ := answer_doc hd
  have hp := doc_obj (t := .star)
    (.cons (m := metaOf .I64 "ci") (u := []) (us := []) (doc_leaf (m := metaOf .I64 "ci") (s := .int ci) (t := .I64) (tx := pyStrInt ci) (by simp) rfl)
      (.cons (u := []) (us := []) (method_doc hn) (.cons (u := []) (us := []) hdoc
        (.skip (m := .plain .Obj (some "me".toList) true) rfl rfl .nil)))) (by simp) (by simp) (.inr rfl) none false
  obtain ⟨x, h1, h2⟩ := doc_message hp
  refine ⟨_, x, ?_, h1, h2⟩
  rw [answer_eq hk hn hf ha hb, hr]
  cases r <;> first | exact absurd rfl hne | (simp only [hmr, Except.map]; rfl)

/-- C98: a method that returns null is not answered, and if a method raises, so does the handling of the call, and nothing is sent. -/
theorem C98_silent {h : HostImpl σ} {s s' : σ} {kind : MsgKind} (hk : kind = .pipelineHostCall ∨ kind = .runspacePoolHostCall) {ci : Int} {n : Nat}
    {part : HostPart} {name : String} (hn : IsMethod n part name) {f : HostMethod σ} (hf : h.Has s part name f) {items : List SVal} {args : List HVal}
    (ha : AreArgs items args) {bytes : Bytes} (hb : CallMessage kind ci n items bytes) :
    (f args s = (.ok .none, s') → answerMessage h bytes s = (.ok none, s')) ∧
    (∀ e, f args s = (.error e, s') → answerMessage h bytes s = (.error e, s')) := by
  refine ⟨fun hr => ?_, fun e hr => ?_⟩ <;> rw [answer_eq hk hn hf ha hb, hr]

/-- C98 is false of colors without a name, such as -1 for the color of the terminal: the default host takes it, and the next question for the color fails. -/
theorem C98_color_false (s : DefaultHost) (hu : s.ui = true) {raw : RawUi} (hr : s.raw = some raw) {kind : MsgKind}
    (hk : kind = .pipelineHostCall ∨ kind = .runspacePoolHostCall) {ci ci' : Int} {bytes bytes' : Bytes}
    (hset : CallMessage kind ci 28 [.prim (.int (-1))] bytes) (hget : CallMessage kind ci' 27 [] bytes') :
    ∃ s', answerMessage defaultHost bytes s = (.ok none, s') ∧ answerMessage defaultHost bytes' s' = (.error .keyError, s') := by
  refine ⟨{ s with raw := some { raw with foreground := .color (some (-1)) } }, ?_, ?_⟩
  · refine (C98_silent hk (n := 28) (part := .rawUi) (name := "SetForegroundColor") (by decide +kernel)
      (f := rawSet fun v r => .ok { r with foreground := toColor v }) ⟨hu, by simp [defaultHost, hr], rfl⟩ (.cons .number .nil) hset).1 ?_
    simp only [rawSet, oneArg, hr, toColor]
  · have := answer_eq (h := defaultHost) (s := { s with raw := some { raw with foreground := .color (some (-1)) } }) hk (n := 27) (part := .rawUi)
      (name := "GetForegroundColor") (by decide +kernel) (f := rawGet (·.foreground)) ⟨hu, by simp [defaultHost], rfl⟩ .nil hget
    rw [this]
    simp only [rawGet, noArgs]
    rfl

/-- The arguments of WriteProgress: a number, and a record, which a server sends without type names. -/
def progressArgs : Xml := .node .Obj (some "2".toList) (some "mp".toList) none [tnElem "1" alTypes, .node .LST none none none
  [.node .I64 none none (some "1".toList) [], .node .Obj (some "3".toList) none none [.node .MS none none none
    [.node .S none (some "Activity".toList) (some "a".toList) []]]]]

/-- C98 is false of the method WriteProgress: its record arrives as the text of its document. -/
theorem C98_progress_false : itemKinds ((deser (.list (.plain .star)) progressArgs .clear).map (·.1)) = [.other, .raw] := by decide +kernel

/-! ### Witnesses -/

/-- A call of SetCursorPosition. -/
def demoCall : Bytes := demoMessage [0x00, 0x11, 0x04, 0] ("<Obj RefId=\"0\"><MS><I64 N=\"ci\">7</I64><Obj RefId=\"1\" N=\"mi\"><TN RefId=\"0\"><T>System.Enum</T></TN>" ++
  "<ToString>SetCursorPosition</ToString><I32>32</I32></Obj><Obj RefId=\"2\" N=\"mp\"><TN RefId=\"1\"><T>System.Collections.ArrayList</T>" ++
  "<T>System.Object</T></TN><LST><Obj RefId=\"3\"><MS><I32 N=\"x\">3</I32><I32 N=\"y\">4</I32></MS></Obj></LST></Obj></MS></Obj>")

theorem plain_I32 {n : Option PyStr} {s : SrvState} {p : Place} (i : Nat) (t : PyStr) (hd : IsDecimal t) (hv : decimalValue t = i) :
    Written s p (.prim (.int i)) n (.node .I32 none n (some t) []) s := by
  subst hv
  exact .prim (.whole (by simp) hd)

theorem demo_call : CallMessage .pipelineHostCall 7 32 [.obj [] none none [] [("x".toList, .prim (.int 3)), ("y".toList, .prim (.int 4))]] demoCall := by
  refine ⟨[demoProp .I64 "ci" "7",
    .node .Obj (some "1".toList) (some "mi".toList) none ([.node .TN (some "0".toList) none none (["System.Enum".toList].map fun t => .node .T none none (some t) [])] ++
      [.node .ToString none none (some "SetCursorPosition".toList) [], .node .I32 none none (some (pyStrInt 32)) []]),
    .node .Obj (some "2".toList) (some "mp".toList) none ([.node .TN (some "1".toList) none none
        (["System.Collections.ArrayList".toList, "System.Object".toList].map fun t => .node .T none none (some t) [])] ++
      .node .LST none none none [.node .Obj (some "3".toList) none none ([] ++ [] ++ [] ++ [.node .MS none none none
        [.node .I32 none (some "x".toList) (some "3".toList) [], .node .I32 none (some "y".toList) (some "4".toList) []]])] :: [])],
    _, _, { tn := [("0".toList, ["System.Enum".toList])] }, demo_props rfl (by decide +kernel) (by decide +kernel) (by decide +kernel),
    ⟨[], _, none, by rw [show pyStrInt 7 = "7".toList by decide +kernel]; rfl, by simp⟩, ⟨[_], [_], rfl, rfl, rfl, by decide +kernel⟩, ?_, ⟨[_, _], [], rfl, rfl, rfl, by decide +kernel⟩, ?_⟩
  · exact .intro (text := some "SetCursorPosition".toList) (sx := [.node .ToString none none (some "SetCursorPosition".toList) []]) (.new (by simp))
      ⟨_, rfl, plain_text (by decide +kernel)⟩ (.inr rfl)
  · refine .intro (.new (by simp)) (.inr ⟨.cons (.obj (tx := []) (bx := []) (sx := []) (ax := []) (ag := []) (mid := []) trivial (.inr (.inl rfl)) .none rfl rfl (.inl rfl)
      (by simp) (by decide +kernel) .nil
      (.cons (plain_I32 3 "3".toList (by unfold IsDecimal; decide +kernel) (by decide +kernel)) (.cons (plain_I32 4 "4".toList (by unfold IsDecimal; decide +kernel) (by decide +kernel)) .nil))
      (.inr ⟨rfl, rfl⟩) (.inl rfl)) .nil, rfl⟩) (by intro x hx; simp at hx)

example : IsMethod 32 .rawUi "SetCursorPosition" ∧ ∃ f, defaultHost.Has demoHost .rawUi "SetCursorPosition" f := ⟨by decide +kernel, _, rfl, rfl, rfl⟩
example : AreArgs [.obj [] none none [] [("x".toList, .prim (.int 3)), ("y".toList, .prim (.int 4))]] [.obj [] [("x".toList, 3), ("y".toList, 4)]] :=
  .cons (.obj (ps := [("x".toList, 3), ("y".toList, 4)]) (text := none)) .nil

/-- The call of the example sets the position, and there is no answer. -/
example : (answerMessage defaultHost demoCall demoHost).1 = .ok none ∧
    (answerMessage defaultHost demoCall demoHost).2.raw.map (·.cursorPosition) = some (.coordinates 3 4) := by
  have := (C98_silent (.inl rfl) (n := 32) (part := .rawUi) (name := "SetCursorPosition") (h := defaultHost) (s := demoHost) (by decide +kernel)
    ⟨rfl, rfl, rfl⟩ (.cons (.obj (ps := [("x".toList, 3), ("y".toList, 4)]) (text := none)) .nil) demo_call).1 rfl
  rw [this]
  exact ⟨rfl, rfl⟩

/-- An answer. -/
example : ResultDoc (.size 11 12) (pairDoc (some "mr") "System.Management.Automation.Host.Size" (number (some "Width") 12) (number (some "Height") 11)) := .size
example : ResultDoc (.color (some 12)) (enumerated (some "mr") "System.ConsoleColor" "Red" 12) := .color (i := 12) (by decide +kernel)

end Verif
