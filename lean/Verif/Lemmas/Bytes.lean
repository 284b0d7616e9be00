import Verif.Model.Bytes
namespace Verif

@[simp] theorem leEnc_length (w n : Nat) : (leEnc w n).length = w := by
  induction w generalizing n with
  | zero => rfl
  | succ w ih => simp [leEnc, ih]

theorem leDec_leEnc (w n : Nat) : leDec (leEnc w n) = n % 256 ^ w := by
  induction w generalizing n with
  | zero => simp [leEnc, leDec, Nat.mod_one]
  | succ w ih =>
    simp only [leEnc, leDec, ih, UInt8.toNat_ofNat']
    rw [show (256 : Nat) ^ (w + 1) = 256 * 256 ^ w by rw [Nat.pow_succ, Nat.mul_comm], Nat.mod_mul]
    simp

theorem leDec_leEnc_of_lt {w n : Nat} (h : n < 256 ^ w) : leDec (leEnc w n) = n := by
  rw [leDec_leEnc, Nat.mod_eq_of_lt h]

theorem leDec_lt (bs : Bytes) : leDec bs < 256 ^ bs.length := by
  induction bs with
  | nil => simp [leDec]
  | cons b bs ih =>
    simp only [leDec, List.length_cons, Nat.pow_succ]
    have := b.toNat_lt
    omega

theorem leEnc_leDec (bs : Bytes) : leEnc bs.length (leDec bs) = bs := by
  induction bs with
  | nil => rfl
  | cons b bs ih =>
    simp only [leDec, List.length_cons, leEnc]
    have hb := b.toNat_lt
    have h1 : (b.toNat + 256 * leDec bs) % 256 = b.toNat := by omega
    have h2 : (b.toNat + 256 * leDec bs) / 256 = leDec bs := by omega
    rw [h1, h2, ih]
    simp

theorem packBE_ok {w n : Nat} (h : n < 256 ^ w) : packBE w n = .ok (leEnc w n).reverse := by
  simp [packBE, h]

theorem packBE_err {w n : Nat} (h : ¬ n < 256 ^ w) : packBE w n = .error .structError := by
  simp [packBE, h]

theorem unpackBE_enc {w n : Nat} (h : n < 256 ^ w) : unpackBE w (leEnc w n).reverse = .ok n := by
  simp [unpackBE, leDec_leEnc_of_lt h]

theorem packLE_ok {w n : Nat} (h : n < 256 ^ w) : packLE w n = .ok (leEnc w n) := by
  simp [packLE, h]

theorem unpackLE_enc {w n : Nat} (h : n < 256 ^ w) : unpackLE w (leEnc w n) = .ok n := by
  simp [unpackLE, leDec_leEnc_of_lt h]

theorem take_append_eq {α} {a b : List α} {n : Nat} (h : a.length = n) : (a ++ b).take n = a := by
  subst h; simp

theorem drop_append_eq {α} {a b : List α} {n : Nat} (h : a.length = n) : (a ++ b).drop n = b := by
  subst h; simp

end Verif
