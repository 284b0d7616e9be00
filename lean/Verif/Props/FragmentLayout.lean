import Verif.Props.Encodings
import Verif.Props.Fragment
import Verif.Spec.FragmentLayout
/-
C01: the bytes of a fragment against the layout of the protocol.
-/
namespace Verif

theorem flag_bits (s e : Bool) (x : UInt8) : bytesValue [x] = (if s then 1 else 0) + (if e then 2 else 0) ↔
    bitsOf x = [false, false, false, false, false, false, e, s] := by
  have h : ∀ (s e : Bool) (x : Fin 256), bytesValue [UInt8.ofNat x.val] = (if s then 1 else 0) + (if e then 2 else 0) ↔
      bitsOf (UInt8.ofNat x.val) = [false, false, false, false, false, false, e, s] := by decide +kernel
  have := h s e ⟨x.toNat, x.toNat_lt⟩
  simpa using this

/-- C01: a fragment packs to these bytes exactly if they are its bytes in the protocol. -/
theorem C01_layout (f : Fragment) (b : Bytes) : f.pack = .ok b ↔ FragmentBytes f b := by
  constructor
  · intro h
    unfold Fragment.pack at h
    simp only [bind, Except.bind] at h
    cases h1 : packBE 8 f.objectId with
    | error e => rw [h1] at h; cases h
    | ok a =>
    cases h2 : packBE 8 f.fragmentId with
    | error e => rw [h1, h2] at h; cases h
    | ok i =>
    cases h3 : packBE 1 ((if f.start then 1 else 0) + (if f.end_ then 2 else 0)) with
    | error e => rw [h1, h2, h3] at h; cases h
    | ok c =>
    cases h4 : packBE 4 f.data.length with
    | error e => rw [h1, h2, h3, h4] at h; cases h
    | ok d =>
    rw [h1, h2, h3, h4] at h
    cases h
    obtain ⟨l1, v1⟩ := ((C99_fields _ _).1 _).1 h1
    obtain ⟨l2, v2⟩ := ((C99_fields _ _).1 _).1 h2
    obtain ⟨l3, v3⟩ := ((C99_fields _ _).1 _).1 h3
    obtain ⟨l4, v4⟩ := ((C99_fields _ _).1 _).1 h4
    have e1 : a ++ i ++ c ++ d ++ f.data = a ++ (i ++ (c ++ (d ++ f.data))) := by simp
    have t1 : (a ++ (i ++ (c ++ (d ++ f.data)))).drop 8 = i ++ (c ++ (d ++ f.data)) := List.drop_left' l1
    have t2 : (a ++ (i ++ (c ++ (d ++ f.data)))).drop 16 = c ++ (d ++ f.data) := by
      rw [show 16 = 8 + 8 from rfl, ← List.drop_drop, t1]; exact List.drop_left' l2
    have t3 : (a ++ (i ++ (c ++ (d ++ f.data)))).drop 17 = d ++ f.data := by
      rw [show 17 = 16 + 1 from rfl, ← List.drop_drop, t2]; exact List.drop_left' l3
    have t4 : (a ++ (i ++ (c ++ (d ++ f.data)))).drop 21 = f.data := by
      rw [show 21 = 17 + 4 from rfl, ← List.drop_drop, t3]; exact List.drop_left' l4
    rw [e1]
    match c, l3 with
    | [x], _ =>
    refine ⟨?_, ?_, ⟨x, ?_, (flag_bits ..).1 v3⟩, ?_, t4, ?_⟩
    · rw [List.take_left' l1, v1]
    · rw [t1, List.take_left' l2, v2]
    · rw [t2]; rfl
    · rw [t3, List.take_left' l4, v4]
    · simp only [List.length_append, l1, l2, l4, List.length_cons, List.length_nil]; omega
  · intro h
    obtain ⟨x, hx, hb⟩ := h.flags
    have hs := h.size
    have p1 : packBE 8 f.objectId = .ok (b.take 8) := ((C99_fields _ _).1 _).2 ⟨by rw [List.length_take]; omega, h.object⟩
    have p2 : packBE 8 f.fragmentId = .ok ((b.drop 8).take 8) :=
      ((C99_fields _ _).1 _).2 ⟨by rw [List.length_take, List.length_drop]; omega, h.fragment⟩
    have p3 : packBE 1 ((if f.start then 1 else 0) + (if f.end_ then 2 else 0)) = .ok ((b.drop 16).take 1) :=
      ((C99_fields _ _).1 _).2 ⟨by rw [hx]; rfl, by rw [hx]; exact (flag_bits ..).2 hb⟩
    have p4 : packBE 4 f.data.length = .ok ((b.drop 17).take 4) :=
      ((C99_fields _ _).1 _).2 ⟨by rw [List.length_take, List.length_drop]; omega, h.length⟩
    unfold Fragment.pack
    simp only [bind, Except.bind, p1, p2, p3, p4, pure, Except.pure]
    congr 1
    have j : ∀ n k, b.take n ++ (b.drop n).take k = b.take (n + k) := fun n k => List.take_add.symm
    rw [j 8 8, j 16 1, j 17 4, ← h.data, List.take_append_drop]

/-- C01: the bytes of a fragment in the protocol, followed by anything, are read as the fragment. -/
theorem C01_read (f : Fragment) (b rest : Bytes) (h : FragmentBytes f b) : Fragment.unpack (b ++ rest) = .ok (f, rest) := by
  have hp := (C01_layout f b).2 h
  have hf : f.Fits := (pack_ok_iff hp).1
  obtain ⟨p, h1, h2⟩ := C01_pack_unpack f rest hf
  rw [hp] at h1
  cases h1
  exact h2

example : FragmentBytes ⟨258, 1, [7], true, false⟩ [0, 0, 0, 0, 0, 0, 1, 2, 0, 0, 0, 0, 0, 0, 0, 1, 1, 0, 0, 0, 1, 7] :=
  ⟨by decide +kernel, by decide +kernel, ⟨1, rfl, by decide +kernel⟩, by decide +kernel, rfl, rfl⟩

end Verif
