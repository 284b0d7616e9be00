import Verif.Model.Fragment
/-
What a user expects of fragments: a short specification that does not use the sending or receiving code
(only the data type `Fragment` and, for `Parses`, the wire format of one fragment).
-/
namespace Verif

/-- The concatenated data of a list of fragments. -/
def payload (fs : List Fragment) : Bytes := (fs.map (·.data)).flatten

/-- `fs` carries message `m` under object id `o`: at least one fragment, all with that object id, fragment
ids 0,1,2,..., the start flag on the first only, the end flag on the last only, and the data in order. -/
structure Fragmentation (o : Nat) (m : Bytes) (fs : List Fragment) : Prop where
  nonempty : fs ≠ []
  object : ∀ f ∈ fs, f.objectId = o
  ids : fs.map (·.fragmentId) = List.range fs.length
  starts : fs.map (·.start) = (List.range fs.length).map (fun i => i == 0)
  ends : fs.map (·.end_) = (List.range fs.length).map (fun i => i + 1 == fs.length)
  data : payload fs = m

/-- Messages with their fragmentations, object ids counting up from `c`. -/
def FragmentsOf : Nat → List Bytes → List (List Fragment) → Prop
  | _, [], [] => True
  | c, m :: ms, fs :: fss => Fragmentation c m fs ∧ FragmentsOf (c + 1) ms fss
  | _, _, _ => False

/-- The fragments of one object within a stream. -/
def ofObject (o : Nat) (fs : List Fragment) : List Fragment := fs.filter (fun f => f.objectId == o)

/-- The fragments of one object count up from `i`, starting again at 0 after each end fragment. -/
def CountsFrom : Nat → List Fragment → Prop
  | _, [] => True
  | i, f :: fs => f.fragmentId = i ∧ CountsFrom (if f.end_ then 0 else i + 1) fs

instance : ∀ i fs, Decidable (CountsFrom i fs)
  | _, [] => .isTrue trivial
  | i, f :: fs =>
    have := instDecidableCountsFrom (if f.end_ then 0 else i + 1) fs
    inferInstanceAs (Decidable (_ ∧ _))

/-- `data` is a sequence of fragments on the wire. -/
inductive Parses : Bytes → List Fragment → Prop
  | nil : Parses [] []
  | cons {data rest f fs} : data ≠ [] → Fragment.unpack data = .ok (f, rest) → Parses rest fs → Parses data (f :: fs)

/-- A list of received byte strings, each a sequence of whole fragments. -/
inductive ParsesAll : List Bytes → List Fragment → Prop
  | nil : ParsesAll [] []
  | cons {data ds fs gs} : Parses data fs → ParsesAll ds gs → ParsesAll (data :: ds) (fs ++ gs)

/-- The fields of a fragment fit their wire fields: 8 byte ids, 4 byte length. -/
def Fragment.Fits (f : Fragment) : Prop :=
  f.objectId < 2 ^ 64 ∧ f.fragmentId < 2 ^ 64 ∧ f.data.length < 2 ^ 32

instance (f : Fragment) : Decidable f.Fits := by unfold Fragment.Fits; infer_instance

/-- The last `n` elements. -/
def lastN {α : Type} (n : Nat) (l : List α) : List α := l.drop (l.length - n)

/-- The messages completed by `rest` after `seen`: each end fragment, with fragment id `k`, completes the message
made of the last `k+1` fragments of its object. -/
def completed (seen : List Fragment) : List Fragment → List Bytes
  | [] => []
  | f :: rest =>
    (if f.end_ then [payload (lastN (f.fragmentId + 1) (ofObject f.objectId (seen ++ [f])))] else []) ++
      completed (seen ++ [f]) rest

/-- No partial message is held. -/
def noBuffers : InBufs := fun _ => none

end Verif
