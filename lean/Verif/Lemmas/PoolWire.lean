import Verif.Spec.PoolWire
import Verif.Lemmas.FragmentRecv
import Verif.Lemmas.Numbers
import Verif.Lemmas.Shell
/-
Lemmas for the answers of the server.
-/
namespace Verif

theorem bigEndian_leEnc (w n : Nat) : bigEndian w n = (leEnc w n).reverse := by
  induction w generalizing n with
  | zero => rfl
  | succ w ih =>
    rw [bigEndian, leEnc, List.reverse_cons, ih]
    congr 2
    rw [UInt8.ofNat_mod_size.symm]

theorem fragmentBytes_wire (f : Fragment) : fragmentBytes f = f.wire := by
  simp only [fragmentBytes, Fragment.wire, Fragment.flag, bigEndian_leEnc, List.append_assoc]

theorem flatMap_wires (fs : List Fragment) : fs.flatMap fragmentBytes = wires fs := by
  unfold wires
  rw [List.flatMap_def]
  congr 1
  exact List.map_congr_left fun f _ => fragmentBytes_wire f

/-! ### Receive responses -/

theorem addStreams_stdout {es : List Elem} {gs : List (List Fragment)}
    (h : Carries es (gs.map fun g => (.stdout, g.flatMap fragmentBytes))) : ∀ o : Bytes,
    addStreams [("stdout".toList, o)] es = .ok [("stdout".toList, o ++ wires gs.flatten)] := by
  generalize hc : gs.map (fun g => (ProcStream.stdout, g.flatMap fragmentBytes)) = cs at h
  induction h generalizing gs with
  | nil =>
    intro o
    have : gs = [] := by simpa using hc
    subst this
    simp [addStreams, wires]
  | @chunk x es s b cs hn ht _ ih =>
    intro o
    cases gs with
    | nil => simp at hc
    | cons g gs =>
      simp only [List.map_cons, List.cons.injEq, Prod.mk.injEq] at hc
      obtain ⟨⟨rfl, rfl⟩, hc⟩ := hc
      unfold addStreams
      rw [ht]
      simp only [b64Decode_encode, hn, bind, Except.bind, ProcStream.name, Buffers.add, if_true, ih hc]
      rw [flatMap_wires]
      simp [wires]
  | empty ht _ ih =>
    intro o
    unfold addStreams
    rw [ht]
    exact ih hc o

theorem stdoutOf_brings {body : Elem} {fs : List Fragment} (h : Brings body fs) : stdoutOf body = .ok (wires fs) := by
  obtain ⟨⟨gs, rfl, h1⟩, h2, h3⟩ := h
  have hsplit : (splitSpaces [] "stdout".toList).map (fun n => (n, ([] : Bytes))) = [("stdout".toList, [])] := by decide +kernel
  have hst : ∃ s, receiveState body = .ok s := by
    unfold receiveState
    rw [find_eq]
    cases hc : (elemsAt ["rsp:ReceiveResponse".toList, "rsp:CommandState".toList] body).head? with
    | none => exact ⟨_, rfl⟩
    | some e =>
      obtain ⟨s, hs⟩ := Option.isSome_iff_exists.mp (h2 e hc)
      exact ⟨s, by dsimp only; rw [hs]⟩
  have hco : ∃ c, receiveCode body = .ok c := by
    unfold receiveCode
    rw [find_eq]
    cases hc : (elemsAt ["rsp:ReceiveResponse".toList, "rsp:CommandState".toList, "rsp:ExitCode".toList] body).head? with
    | none => exact ⟨_, rfl⟩
    | some e =>
      obtain ⟨c, hs⟩ := h3 e hc
      refine ⟨some c, ?_⟩
      simp only [hs, orZero_int, pyInt_pyStrInt, Except.map]
  obtain ⟨s, hs⟩ := hst
  obtain ⟨c, hc⟩ := hco
  unfold stdoutOf parseReceive
  rw [hsplit, findAll_eq, addStreams_stdout h1, hs, hc]
  simp [bind, Except.bind, pure, Except.pure]

/-! ### The replies -/

theorem srvMsgs_map {rd : Reader} {data : Nat → Bytes} {msg : Nat → SrvMsg} :
    ∀ {os : List Nat}, (∀ o ∈ os, srvMsg rd (data o) = .ok (msg o)) → srvMsgs rd (os.map data) = .ok (os.map msg)
  | [], _ => rfl
  | o :: os, h => by
    rw [List.map_cons, srvMsgs, h o (by simp), srvMsgs_map fun o ho => h o (by simp [ho])]
    rfl

theorem completes_map (msg : Nat → SrvMsg) (fs : List Fragment) :
    completes msg fs = ((fs.filter (·.end_)).map Fragment.objectId).map msg := by
  rw [List.map_map]; rfl

theorem onWire_bring {rd : Reader} {msg : Nat → SrvMsg} (data : Nat → Bytes) {rs : List WireReply} {gs : List (List Fragment)}
    (h : Bring rs gs) : ∀ b, (∀ f ∈ gs.flatten, f.Fits) → (∀ o, ObjInv data b gs.flatten o) →
    (∀ f ∈ gs.flatten, srvMsg rd (data f.objectId) = .ok (msg f.objectId)) →
    onWire rd b rs = List.zipWith (WireReply.tells msg) rs gs := by
  induction h with
  | nil => exact fun b _ _ _ => rfl
  | @data r body fs rs gs he hb hbr _ ih =>
    intro b hfit hinv hmsg
    rw [List.flatten_cons] at hfit hinv hmsg
    obtain ⟨b', hinv', hd⟩ := defragList_part data gs.flatten fs b hinv
    have hm : srvMsgs rd ((fs.filter (·.end_)).map fun f => data f.objectId) = .ok (completes msg fs) := by
      rw [show (fun f : Fragment => data f.objectId) = data ∘ Fragment.objectId from rfl, ← List.map_map, completes_map]
      refine srvMsgs_map fun o ho => ?_
      obtain ⟨f, hf, rfl⟩ := List.mem_map.mp ho
      exact hmsg f (List.mem_append_left _ (List.mem_filter.mp hf).1)
    have hr : readReply rd b r = (b', r.tells msg fs) := by
      unfold readReply WireReply.tells
      simp only [he, hb, stdoutOf_brings hbr, defragment, defragLoop_wires b fs [] (fun f hf => hfit f (List.mem_append_left _ hf)), hd, hm]
    rw [onWire, hr, List.zipWith_cons_cons]
    congr 1
    exact ih b' (fun f hf => hfit f (List.mem_append_right _ hf)) hinv' (fun f hf => hmsg f (List.mem_append_right _ hf))
  | @other r rs gs ho _ ih =>
    intro b hfit hinv hmsg
    rw [List.flatten_cons, List.nil_append] at hfit hinv hmsg
    have hr : readReply rd b r = (b, r.tells msg []) := by
      unfold readReply WireReply.tells
      cases he : r.error with
      | some e => rfl
      | none =>
        have hb : r.body = none := by
          rcases ho with ho | ho
          · rw [he] at ho; cases ho
          · exact ho
        rw [hb]
    rw [onWire, hr, List.zipWith_cons_cons]
    congr 1
    exact ih b hfit hinv hmsg

theorem onWire_sends {rd : Reader} {msg : Nat → SrvMsg} {rs : List WireReply} {gs : List (List Fragment)}
    (h : Bring rs gs) (hs : Sends rd msg gs.flatten) : onWire rd noBuffers rs = List.zipWith (WireReply.tells msg) rs gs := by
  have hex : ∀ o, ∃ data, ofObject o gs.flatten = [] ∨ Fragmentation o data (ofObject o gs.flatten) ∧ srvMsg rd data = .ok (msg o) := by
    intro o
    rcases hs.objects o with h | ⟨d, h⟩
    · exact ⟨[], .inl h⟩
    · exact ⟨d, .inr h⟩
  refine onWire_bring (fun o => (hex o).choose) h noBuffers hs.fits (fun o => ?_) (fun f hf => ?_)
  · left
    refine ⟨rfl, ?_⟩
    rcases (hex o).choose_spec with h | ⟨h, _⟩
    · exact .inl h
    · obtain ⟨ds, h1, h2, h3⟩ := h.eq_mkRun
      exact .inr ⟨ds, h1, h3, h2⟩
  · rcases (hex f.objectId).choose_spec with h | ⟨_, h⟩
    · exfalso
      have : f ∈ ofObject f.objectId gs.flatten := List.mem_filter.mpr ⟨hf, by simp⟩
      rw [h] at this
      cases this
    · exact h

theorem Bring.length {rs : List WireReply} {gs : List (List Fragment)} (h : Bring rs gs) : rs.length = gs.length := by
  induction h with
  | nil => rfl
  | data _ _ _ _ ih => simp [ih]
  | other _ _ ih => simp [ih]

theorem Bring.append {rs rs' : List WireReply} {gs gs' : List (List Fragment)} (h : Bring rs gs) (h' : Bring rs' gs') :
    Bring (rs ++ rs') (gs ++ gs') := by
  induction h with
  | nil => exact h'
  | data a b c _ ih => exact .data a b c ih
  | other a _ ih => exact .other a ih

theorem completes_append (msg : Nat → SrvMsg) (a b : List Fragment) : completes msg (a ++ b) = completes msg a ++ completes msg b := by
  unfold completes; rw [List.filter_append, List.map_append]

/-- The messages of all answers. -/
theorem received_tells {msg : Nat → SrvMsg} {rs : List WireReply} {gs : List (List Fragment)} (h : Bring rs gs) :
    received (List.zipWith (WireReply.tells msg) rs gs) = completes msg gs.flatten := by
  induction h with
  | nil => rfl
  | @data r body fs rs gs h1 h2 _ _ ih =>
    rw [List.zipWith_cons_cons, List.flatten_cons, completes_append, ← ih]
    show (if (r.tells msg fs).error = none then (r.tells msg fs).msgs else []) ++ _ = _
    unfold WireReply.tells
    rw [h1, h2]
    rfl
  | @other r rs gs h1 _ ih =>
    rw [List.zipWith_cons_cons, List.flatten_cons, completes_append, ← ih]
    show (if (r.tells msg []).error = none then (r.tells msg []).msgs else []) ++ _ = _
    unfold WireReply.tells
    cases he : r.error with
    | some e => rfl
    | none =>
      rw [he] at h1
      have hb : r.body = none := by simpa using h1
      rw [hb]
      rfl

theorem tells_error (msg : Nat → SrvMsg) (r : WireReply) (fs : List Fragment) : (r.tells msg fs).error = r.error := by
  unfold WireReply.tells
  cases r.error <;> cases r.body <;> rfl

theorem zipWith_tells_error {msg : Nat → SrvMsg} {P : Option PyErr → Prop} {rs : List WireReply} {gs : List (List Fragment)}
    (h : ∀ r ∈ rs, P r.error) : ∀ r ∈ List.zipWith (WireReply.tells msg) rs gs, P r.error := by
  induction rs generalizing gs with
  | nil => simp
  | cons r rs ih =>
    cases gs with
    | nil => simp
    | cons g gs =>
      intro x hx
      rw [List.zipWith_cons_cons, List.mem_cons] at hx
      rcases hx with rfl | hx
      · rw [tells_error]; exact h r (by simp)
      · exact ih (fun r hr => h r (by simp [hr])) x hx

/-- The last answer brings the last message. -/
theorem deliver_tells {msg : Nat → SrvMsg} {rs : List WireReply} {gs : List (List Fragment)} {ms : List SrvMsg} (h : Bring rs gs)
    (hm : completes msg gs.flatten = ms) (he : EndsMessage gs) : Deliver (List.zipWith (WireReply.tells msg) rs gs) ms := by
  refine ⟨(received_tells h).trans hm, ?_⟩
  clear hm
  obtain ⟨g, hg, f, hf, hend⟩ := he
  induction h with
  | nil => simp at hg
  | @data r body fs rs gs h1 h2 _ h4 ih =>
    cases gs with
    | nil =>
      obtain rfl : rs = [] := List.length_eq_zero_iff.1 h4.length
      simp only [List.getLast?_singleton, Option.some.injEq] at hg
      subst hg
      refine ⟨r.tells msg fs, rfl, by rw [tells_error, h1], ?_⟩
      unfold WireReply.tells
      rw [h1, h2]
      intro hc
      have : msg f.objectId ∈ completes msg fs := List.mem_map.2 ⟨f, List.mem_filter.2 ⟨hf, hend⟩, rfl⟩
      rw [show completes msg fs = [] from hc] at this
      simp at this
    | cons g' gs =>
      rw [List.getLast?_cons_cons] at hg
      obtain ⟨x, hx, hx'⟩ := ih hg
      cases rs with
      | nil => simp at hx
      | cons r' rs => exact ⟨x, by rw [List.zipWith_cons_cons, List.zipWith_cons_cons, List.getLast?_cons_cons, ← List.zipWith_cons_cons]; exact hx, hx'⟩
  | @other r rs gs h1 h4 ih =>
    cases gs with
    | nil =>
      simp only [List.getLast?_singleton, Option.some.injEq] at hg
      subst hg
      simp at hf
    | cons g' gs =>
      rw [List.getLast?_cons_cons] at hg
      obtain ⟨x, hx, hx'⟩ := ih hg
      cases rs with
      | nil => simp at hx
      | cons r' rs => exact ⟨x, by rw [List.zipWith_cons_cons, List.zipWith_cons_cons, List.getLast?_cons_cons, ← List.zipWith_cons_cons]; exact hx, hx'⟩

end Verif
