import Verif.Lemmas.Bytes
import Verif.Spec.Message
/-
Lemmas for the message header.
-/
namespace Verif

theorem swapLE_swapLE {b : Bytes} (h : b.length = 16) : swapLE (swapLE b) = b := by
  match b, h with
  | [_, _, _, _, _, _, _, _, _, _, _, _, _, _, _, _], _ => rfl

theorem UUID.ofBytesLe_bytesLe (u : UUID) : UUID.ofBytesLe u.bytesLe = .ok u := by
  have hl : u.bytesLe.length = 16 := by rw [UUID.bytesLe, swapLE_length, u.len]
  unfold UUID.ofBytesLe
  rw [dif_pos hl]
  congr 1
  cases u with
  | mk b h => simp only [UUID.bytesLe, swapLE_swapLE h]

theorem UUID.bytesLe_ofBytesLe {b : Bytes} {u : UUID} (h : UUID.ofBytesLe b = .ok u) : u.bytesLe = b := by
  unfold UUID.ofBytesLe at h
  split at h
  · rename_i hl
    simp only [Except.ok.injEq] at h
    subst h
    exact swapLE_swapLE hl
  · simp at h

theorem UUID.bytesLe_length (u : UUID) : u.bytesLe.length = 16 := by rw [UUID.bytesLe, swapLE_length, u.len]

theorem beValue_foldl (b : Bytes) (n : Nat) :
    b.foldl (fun n x => 256 * n + x.toNat) n = n * 256 ^ b.length + beValue b := by
  induction b generalizing n with
  | nil => simp [beValue]
  | cons x xs ih =>
    simp only [beValue, List.foldl_cons, List.length_cons]
    rw [ih, ih (256 * 0 + x.toNat)]
    rw [Nat.pow_succ, Nat.mul_zero, Nat.zero_add]
    rw [← Nat.add_assoc, Nat.add_mul]
    congr 2
    rw [Nat.mul_comm 256 n, Nat.mul_assoc, Nat.mul_comm 256 (256 ^ _)]

theorem beValue_concat (b : Bytes) (x : UInt8) : beValue (b ++ [x]) = 256 * beValue b + x.toNat := by
  simp [beValue]

theorem leValue_reverse (b : Bytes) : leValue b.reverse = beValue b := by
  simp only [leValue, List.foldr_reverse, beValue]
  congr 1
  funext n x; omega

theorem leValue_eq_leDec (b : Bytes) : leValue b = leDec b := by
  induction b with
  | nil => rfl
  | cons x xs ih => simp only [leValue, List.foldr_cons, leDec] at *; rw [ih]

theorem isDotNetGuid_bytesLe (u : UUID) : IsDotNetGuid u.bytesLe u := by
  obtain ⟨b, h⟩ := u
  have e : ∀ b : Bytes, b.length = 16 → (swapLE b).take 4 = (b.take 4).reverse ∧
      ((swapLE b).drop 4).take 2 = ((b.drop 4).take 2).reverse ∧
      ((swapLE b).drop 6).take 2 = ((b.drop 6).take 2).reverse ∧ (swapLE b).drop 8 = b.drop 8 := by
    intro b h
    match b, h with
    | [_, _, _, _, _, _, _, _, _, _, _, _, _, _, _, _], _ => exact ⟨rfl, rfl, rfl, rfl⟩
  obtain ⟨h1, h2, h3, h4⟩ := e b h
  refine ⟨UUID.bytesLe_length ⟨b, h⟩, ?_, ?_, ?_, h4⟩
  · simp only [UUID.bytesLe]; rw [h1, leValue_reverse]
  · simp only [UUID.bytesLe]; rw [h2, leValue_reverse]
  · simp only [UUID.bytesLe]; rw [h3, leValue_reverse]

theorem messageType_value (k : MsgKind) : k.messageType.value = k.number := by
  cases k <;> rfl

theorem number_lt (k : MsgKind) : k.number < 256 ^ 4 := by cases k <;> decide

theorem number_inj {a b : MsgKind} (h : a.number = b.number) : a = b := by
  have key : ∀ a : MsgKind, (unpackTable.find? (fun e => e.1 == a.number)).map (·.2) = some a := by
    intro a; cases a <;> decide
  have h1 := key a
  rw [h, key b] at h1
  exact (Option.some.inj h1).symm

theorem lookupKind_number (k : MsgKind) : lookupKind k.number = .ok k := by cases k <;> decide

theorem lookupKind_other {n : Nat} (h : ∀ k : MsgKind, k.number ≠ n) : lookupKind n = .error .keyError := by
  unfold lookupKind
  have : unpackTable.reverse.find? (fun e => e.1 == n) = none := by
    rw [List.find?_eq_none]
    intro e he
    have hm : e ∈ unpackTable := by simpa using he
    have hk : ∀ e ∈ unpackTable, e.1 = e.2.number := by decide
    simp only [beq_iff_eq]
    rw [hk e hm]
    exact h _
  rw [this]

end Verif
