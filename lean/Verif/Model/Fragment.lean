import Verif.Model.Bytes
/-
Model of `Fragment` and `Fragmenter` (src/pypsrp/powershell.py 1635-1791).
-/
namespace Verif

/-- powershell.py 1748-1761 `Fragment.__init__`. Ids are Python ints; negative ids never occur (the
counter starts at 1, fragment ids at 0, and `struct.unpack(">Q")` is unsigned) so `Nat` is used. -/
structure Fragment where
  objectId : Nat
  fragmentId : Nat
  data : Bytes
  start : Bool
  end_ : Bool
  deriving DecidableEq, Repr

/-- powershell.py 1763-1776 `Fragment.pack`. The steps happen in the order of the source; each
`struct.pack` may raise. -/
def Fragment.pack (f : Fragment) : Except PyErr Bytes := do
  let flag : Nat := (if f.start then 1 else 0) + (if f.end_ then 2 else 0)
  let a ← packBE 8 f.objectId
  let b ← packBE 8 f.fragmentId
  let c ← packBE 1 flag
  let d ← packBE 4 f.data.length
  return a ++ b ++ c ++ d ++ f.data

/-- powershell.py 1778-1791 `Fragment.unpack`. Slices clip silently, so a body shorter than the
declared length is accepted; a header shorter than 21 bytes raises `struct.error`. -/
def Fragment.unpack (data : Bytes) : Except PyErr (Fragment × Bytes) := do
  let objectId ← unpackBE 8 (data.take 8)
  let fragmentId ← unpackBE 8 ((data.drop 8).take 8)
  let flag ← unpackBE 1 ((data.drop 16).take 1)
  let length ← unpackBE 4 ((data.drop 17).take 4)
  let body := (data.drop 21).take length
  return ({ objectId, fragmentId, data := body, start := flag % 2 == 1, end_ := flag / 2 % 2 == 1 },
    data.drop (21 + length))

/-- powershell.py 1714: one entry of `incoming_buffer`, `{"data": ..., "id": ...}`. -/
structure InBuf where
  data : Bytes
  id : Nat
  deriving DecidableEq, Repr

/-- powershell.py 1641: `incoming_buffer`, a dict from object id to entry. -/
abbrev InBufs := Nat → Option InBuf

/-- dict item assignment / deletion. -/
def InBufs.set (b : InBufs) (k : Nat) (v : Option InBuf) : InBufs :=
  fun k' => if k' = k then v else b k'

/-- powershell.py 1636-1644: the sending half of `Fragmenter` (`outgoing_counter`, `max_size`). -/
structure OutState where
  counter : Nat
  maxSize : Int
  deriving DecidableEq, Repr

/-- powershell.py 1636-1644 `Fragmenter.__init__`: the 21 byte header is subtracted. -/
def OutState.init (maxPayload : Int) : OutState := { counter := 1, maxSize := maxPayload - 21 }

/-- powershell.py 1743-1745, the loop of `_byte_iterator` for a positive step: consecutive slices with
a flag that is true when the slice reaches the end of the data. -/
def chunksFlag (n : Nat) (data : Bytes) : List (Bytes × Bool) :=
  if h : 0 < n ∧ data ≠ [] then
    (data.take n, decide (data.length ≤ n)) :: chunksFlag n (data.drop n)
  else []
  termination_by data.length
  decreasing_by
    obtain ⟨h1, h2⟩ := h
    have := List.length_pos_iff.mpr h2
    simp only [List.length_drop]; omega

/-- powershell.py 1738-1745 `_byte_iterator`: `range(0, len, step)` raises `ValueError` for step 0 and is
empty for a negative step. -/
def byteIterator (data : Bytes) (step : Int) : Except PyErr (List (Bytes × Bool)) :=
  if step = 0 then .error .valueError
  else if step < 0 then .ok []
  else .ok (chunksFlag step.toNat data)

/-- powershell.py 1670-1674: the loop that turns the slices into packed fragments. -/
def packPieces (objectId : Nat) (fragmentId : Nat) (start : Bool) :
    List (Bytes × Bool) → Except PyErr (List Bytes)
  | [] => .ok []
  | (d, e) :: rest => do
    let p ← (Fragment.mk objectId fragmentId d start e).pack
    let ps ← packPieces objectId (fragmentId + 1) false rest
    return p :: ps

/-- powershell.py 1646-1677 `Fragmenter.fragment`. `msg` is the packed message (`Message.pack`, modelled
separately). The counter is only advanced when nothing raised. -/
def fragment (o : OutState) (msg : Bytes) (remaining : Option Int) : Except PyErr (List Bytes × OutState) := do
  match remaining with
  | some r =>
    let first := sliceTo msg r
    let rest := msg.drop first.length
    let p ← (Fragment.mk o.counter 0 first true (rest == [])).pack
    let pieces ← byteIterator rest o.maxSize
    let ps ← packPieces o.counter 1 false pieces
    return (p :: ps, { o with counter := o.counter + 1 })
  | none =>
    let pieces ← byteIterator msg o.maxSize
    let ps ← packPieces o.counter 0 true pieces
    return (ps, { o with counter := o.counter + 1 })

/-- powershell.py 1688-1701: the loop of `fragment_multiple`; `frags` is the list built so far. -/
def fragmentMultipleLoop (o : OutState) (remaining : Int) (frags : List Bytes) :
    List Bytes → Except PyErr (List Bytes × OutState)
  | [] => .ok (frags, o)
  | msg :: msgs => do
    let (bf, o') ← fragment o msg (some remaining)
    -- line 1693-1694: append the first block fragment to the last one and pop it
    let (frags1, bf1) ←
      if remaining ≠ o.maxSize ∧ frags ≠ [] then
        match bf with
        | [] => .error PyErr.indexError
        | b :: bs => .ok (frags.dropLast ++ [frags.getLastD [] ++ b], bs)
      else .ok (frags, bf)
    let frags2 := frags1 ++ bf1
    -- line 1699: `fragments[-1]` raises IndexError on an empty list
    match frags2.getLast? with
    | none => .error .indexError
    | some last =>
      let r : Int := o.maxSize - last.length
      let r := if r ≤ 0 then o.maxSize else r
      fragmentMultipleLoop o' r frags2 msgs

/-- powershell.py 1679-1703 `Fragmenter.fragment_multiple`. -/
def fragmentMultiple (o : OutState) (msgs : List Bytes) : Except PyErr (List Bytes × OutState) :=
  fragmentMultipleLoop o o.maxSize [] msgs

/-- One use of the fragmenter by the pool or a pipeline: a single message (powershell.py 225, 266, 333, 402,
602, 645, 821, 1522) or a batch (558, 1276). -/
inductive Send where
  | single (msg : Bytes)
  | batch (msgs : List Bytes)

/-- The messages of one use. -/
def Send.messages : Send → List Bytes
  | .single m => [m]
  | .batch ms => ms

/-- The fragmenter call of one use. -/
def Send.run (o : OutState) : Send → Except PyErr (List Bytes × OutState)
  | .single m => fragment o m none
  | .batch ms => fragmentMultiple o ms

/-- A sequence of uses of one fragmenter; returns the list of blocks of each use. -/
def sends (o : OutState) : List Send → Except PyErr (List (List Bytes) × OutState)
  | [] => .ok ([], o)
  | s :: ss => do
    let (bs, o1) ← s.run o
    let (bss, o2) ← sends o1 ss
    return (bs :: bss, o2)

/-- powershell.py 1712-1733: processing one received fragment. Returns the new buffer and the completed
message, if any; the buffer is returned also when `FragmentError` is raised, since the entry created on
line 1715 stays. -/
def defragStep (b : InBufs) (f : Fragment) : InBufs × Except PyErr (Option Bytes) :=
  let (entry, b) := match b f.objectId with
    | some e => (e, b)
    | none => (InBuf.mk [] 0, b.set f.objectId (some (InBuf.mk [] 0)))
  if f.fragmentId ≠ entry.id then (b, .error .fragmentError)
  else if f.start && f.end_ then (b.set f.objectId none, .ok (some f.data))
  else if f.start then (b.set f.objectId (some { data := f.data, id := entry.id + 1 }), .ok none)
  else if f.end_ then (b.set f.objectId none, .ok (some (entry.data ++ f.data)))
  else (b.set f.objectId (some { data := entry.data ++ f.data, id := entry.id + 1 }), .ok none)

/-- `Fragment.unpack` always consumes at least the header. -/
theorem Fragment.unpack_shorter {data rest : Bytes} {f : Fragment}
    (h : Fragment.unpack data = .ok (f, rest)) (hd : data ≠ []) : rest.length < data.length := by
  unfold Fragment.unpack at h
  simp only [bind, Except.bind, pure, Except.pure] at h
  repeat' split at h
  all_goals first | (simp at h; done) | skip
  simp only [Except.ok.injEq, Prod.mk.injEq] at h
  rw [← h.2]
  have := List.length_pos_iff.mpr hd
  simp only [List.length_drop]; omega

/-- powershell.py 1705-1733: the loop of `defragment` over the received bytes. When an exception is raised
the messages completed so far in this call are lost (the local list is dropped) but the buffer keeps its
state, so the buffer is returned in both cases. -/
def defragLoop (b : InBufs) (data : Bytes) (done : List Bytes) : InBufs × Except PyErr (List Bytes) :=
  if hd : data = [] then (b, .ok done)
  else
    match h : Fragment.unpack data with
    | .error e => (b, .error e)
    | .ok (f, rest) =>
      match defragStep b f with
      | (b', .error e) => (b', .error e)
      | (b', .ok none) => defragLoop b' rest done
      | (b', .ok (some m)) => defragLoop b' rest (done ++ [m])
  termination_by data.length
  decreasing_by all_goals exact Fragment.unpack_shorter h hd

/-- powershell.py 1705-1736 `Fragmenter.defragment`, without the final `Message.unpack` of each completed
message (modelled in `Model.Message`). -/
def defragment (b : InBufs) (data : Bytes) : InBufs × Except PyErr (List Bytes) := defragLoop b data []

/-- A sequence of `defragment` calls, one for each receive, stopping at the first exception
(`RunspacePool._receive`, powershell.py 739-747). Returns the messages of each call. -/
def receives (b : InBufs) : List Bytes → InBufs × Except PyErr (List (List Bytes))
  | [] => (b, .ok [])
  | d :: ds =>
    match defragment b d with
    | (b', .error e) => (b', .error e)
    | (b', .ok ms) =>
      match receives b' ds with
      | (b'', .error e) => (b'', .error e)
      | (b'', .ok rest) => (b'', .ok (ms :: rest))

end Verif
