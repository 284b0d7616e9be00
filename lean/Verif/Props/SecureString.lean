import Verif.Model.SecureString
import Verif.Lemmas.StringsShift
import Verif.Lemmas.Base64
import Verif.Props.Base64Text
import Verif.Lemmas.Bytes
/-
C19, C20: secure strings and the public key blob.
-/
namespace Verif

theorem swapPairs_flatMap (us : List UInt16) : swapPairs (us.flatMap (fun u => (unitBytes u).reverse)) = us.flatMap unitBytes := by
  induction us with
  | nil => rfl
  | cons u us ih => simp [unitBytes, swapPairs] at ih ⊢; exact ih

theorem decodeLE_encodeLE (s : PyStr) : decodeUtf16LE (encodeUtf16LE s) = .ok s := by
  unfold decodeUtf16LE encodeUtf16LE
  rw [swapPairs_flatMap, bytesUnits_unitBytes]
  simp only [bind, Except.bind, unitsChars_utf16]

/-- C19. What is encrypted is a whole number of blocks, at least one, and starts with the text. -/
theorem C19_whole_blocks (block : Nat) (hb : 0 < block) (data : Bytes) :
    block ∣ (pkcs7Pad block data).length ∧ data.length < (pkcs7Pad block data).length ∧
      (pkcs7Pad block data).take data.length = data := by
  have hm := Nat.mod_lt data.length hb
  have hd := Nat.div_add_mod data.length block
  have hlen : (pkcs7Pad block data).length = data.length + (block - data.length % block) := by simp [pkcs7Pad]
  refine ⟨?_, by omega, by simp [pkcs7Pad]⟩
  rw [hlen]
  refine ⟨data.length / block + 1, ?_⟩
  rw [Nat.mul_add]
  omega

theorem unpad_pad {block : Nat} (hb : 0 < block) (hb2 : block < 256) (data : Bytes) :
    pkcs7Unpad block (pkcs7Pad block data) = .ok data := by
  have hm := Nat.mod_lt data.length hb
  have h1 : (pkcs7Pad block data).length % block = 0 := Nat.mod_eq_zero_of_dvd (C19_whole_blocks block hb data).1
  unfold pkcs7Unpad
  rw [if_neg (by omega)]
  generalize hn : block - data.length % block = n at *
  have hp : pkcs7Pad block data = data ++ List.replicate n (UInt8.ofNat n) := by simp [pkcs7Pad, hn]
  have hl : (pkcs7Pad block data).getLast? = some (UInt8.ofNat n) := by
    rw [hp, List.getLast?_append, List.getLast?_replicate, if_neg (by omega)]; rfl
  have ht : (UInt8.ofNat n).toNat = n := by
    rw [UInt8.toNat_ofNat']; omega
  rw [hl]
  simp only [ht]
  rw [if_neg (by omega), hp]
  simp

/-- C19. With a key, a secure string decrypts to the original text, for any block size of 1 to 255 bytes and any cipher
whose decryption undoes its encryption on whole blocks. -/
theorem C19_roundtrip (c : BlockCipher) (hb : 0 < c.block ∧ c.block < 256)
    (hc : ∀ b : Bytes, c.block ∣ b.length → c.decrypt (c.encrypt b) = b) (s : PyStr) :
    ∃ t, serializeSecureString (some c) s = .ok t ∧ deserializeSecureString (some c) (some t) = .ok (.text s) := by
  refine ⟨_, rfl, ?_⟩
  simp only [deserializeSecureString, Option.getD_some, b64DecodeStr_encode, bind, Except.bind,
    hc _ (C19_whole_blocks c.block hb.1 _).1, unpad_pad hb.1 hb.2, decodeLE_encodeLE, pure, Except.pure]

theorem bytesUnits_inv : ∀ (b : Bytes) (us : List UInt16), bytesUnits b = .ok us → b = us.flatMap unitBytes
  | [], us, h => by simp only [bytesUnits, Except.ok.injEq] at h; subst h; rfl
  | [_], us, h => by simp [bytesUnits] at h
  | a :: l :: bs, us, h => by
    simp only [bytesUnits, bind, Except.bind] at h
    cases hb : bytesUnits bs with
    | error e => rw [hb] at h; simp at h
    | ok ws =>
      rw [hb] at h
      simp only [pure, Except.pure, Except.ok.injEq] at h
      subst h
      have ha := a.toNat_lt
      have hl := l.toNat_lt
      rw [List.flatMap_cons, ← bytesUnits_inv bs ws hb]
      have hn : (UInt16.ofNat (256 * a.toNat + l.toNat)).toNat = 256 * a.toNat + l.toNat := by
        rw [UInt16.toNat_ofNat']; omega
      simp only [unitBytes, hn, List.cons_append, List.nil_append]
      rw [show (256 * a.toNat + l.toNat) / 256 = a.toNat by omega, show (256 * a.toNat + l.toNat) % 256 = l.toNat by omega,
        UInt8.ofNat_toNat, UInt8.ofNat_toNat]

theorem charUnits_bmp {u : UInt16} (h1 : isHighSurrogate u = false) (h2 : isLowSurrogate u = false) : charUnits (Char.ofNat u.toNat) = [u] := by
  have hu := u.toNat_lt
  simp only [isHighSurrogate, isLowSurrogate, Bool.and_eq_false_iff, decide_eq_false_iff_not] at h1 h2
  have hc : (Char.ofNat u.toNat).toNat = u.toNat := by
    exact char_toNat_ofNat (by unfold Nat.isValidChar; omega)
  unfold charUnits
  rw [hc, if_pos (by omega), UInt16.ofNat_toNat]

theorem charUnits_pair {u v : UInt16} (h1 : isHighSurrogate u = true) (h2 : isLowSurrogate v = true) :
    charUnits (Char.ofNat (0x10000 + (u.toNat - 0xD800) * 0x400 + (v.toNat - 0xDC00))) = [u, v] := by
  simp only [isHighSurrogate, isLowSurrogate, Bool.and_eq_true, decide_eq_true_eq] at h1 h2
  have hc : (Char.ofNat (0x10000 + (u.toNat - 0xD800) * 0x400 + (v.toNat - 0xDC00))).toNat =
      0x10000 + (u.toNat - 0xD800) * 0x400 + (v.toNat - 0xDC00) := by
    exact char_toNat_ofNat (by unfold Nat.isValidChar; omega)
  unfold charUnits
  rw [hc, if_neg (by omega)]
  simp only [List.cons.injEq, and_true]
  constructor
  · rw [← UInt16.toNat_inj, UInt16.toNat_ofNat']; omega
  · rw [← UInt16.toNat_inj, UInt16.toNat_ofNat']; omega

theorem unitsChars_inv : ∀ (us : List UInt16) (s : PyStr), unitsChars us = .ok s → us = utf16 s
  | [], s, h => by simp only [unitsChars, Except.ok.injEq] at h; subst h; rfl
  | [u], s, h => by
    unfold unitsChars at h
    split at h
    · simp at h
    · rename_i hn
      simp only [Bool.or_eq_true, not_or, Bool.not_eq_true] at hn
      injection h with h
      subst h
      simp [utf16, charUnits_bmp hn.1 hn.2]
  | u :: v :: us, s, h => by
    unfold unitsChars at h
    simp only [bind, Except.bind] at h
    split at h
    · split at h
      · rename_i h1 h2
        cases hr : unitsChars us with
        | error e => rw [hr] at h; simp at h
        | ok cs =>
          rw [hr] at h
          simp only [pure, Except.pure, Except.ok.injEq] at h
          subst h
          rw [utf16, List.flatMap_cons, charUnits_pair h1 h2, ← utf16, ← unitsChars_inv us cs hr]
          rfl
      · simp at h
    · split at h
      · simp at h
      · rename_i h1 h2
        cases hr : unitsChars (v :: us) with
        | error e => rw [hr] at h; simp at h
        | ok cs =>
          rw [hr] at h
          simp only [pure, Except.pure, Except.ok.injEq] at h
          subst h
          rw [utf16, List.flatMap_cons, charUnits_bmp (by simpa using h1) (by simpa using h2), ← utf16, ← unitsChars_inv (v :: us) cs hr]
          rfl

theorem swapPairs_twice : ∀ b : Bytes, swapPairs (swapPairs b) = b
  | [] => rfl
  | [_] => rfl
  | a :: b :: bs => by simp only [swapPairs, swapPairs_twice bs]

theorem swapPairs_units (us : List UInt16) : swapPairs (us.flatMap unitBytes) = us.flatMap (fun u => (unitBytes u).reverse) := by
  rw [← swapPairs_flatMap, swapPairs_twice]

theorem decodeLE_inv {b : Bytes} {s : PyStr} (h : decodeUtf16LE b = .ok s) : b = encodeUtf16LE s := by
  simp only [decodeUtf16LE, bind, Except.bind] at h
  cases hb : bytesUnits (swapPairs b) with
  | error e => rw [hb] at h; simp at h
  | ok us =>
    rw [hb] at h
    have h1 := bytesUnits_inv _ _ hb
    have h2 := unitsChars_inv _ _ h
    rw [← swapPairs_twice b, h1, h2, swapPairs_units]
    rfl

theorem unpad_inv {block : Nat} {data text : Bytes} (h : pkcs7Unpad block data = .ok text) : data = pkcs7Pad block text := by
  unfold pkcs7Unpad at h
  split at h
  · simp at h
  · rename_i hm
    cases hl : data.getLast? with
    | none => rw [hl] at h; simp at h
    | some n =>
      rw [hl] at h
      simp only [] at h
      split at h
      · simp at h
      · rename_i hn
        split at h
        · rename_i hd
          injection h with h
          have hlen : n.toNat ≤ data.length := by
            have := congrArg List.length hd
            simp only [List.length_drop, List.length_replicate] at this
            omega
          have ht : text.length = data.length - n.toNat := by rw [← h]; simp
          have hb : block - text.length % block = n.toNat := by
            have e : text.length + n.toNat = data.length := by omega
            have hm' : (text.length + n.toNat) % block = 0 := by rw [e]; omega
            have hb0 : 0 < block := by omega
            have hlt := Nat.mod_lt text.length hb0
            rw [Nat.add_mod] at hm'
            by_cases hnb : n.toNat = block
            · rw [hnb, Nat.mod_self, Nat.add_zero, Nat.mod_mod] at hm'
              omega
            · rw [Nat.mod_eq_of_lt (a := n.toNat) (by omega)] at hm'
              have hle : block ≤ text.length % block + n.toNat := by
                apply Classical.byContradiction
                intro hc
                rw [Nat.mod_eq_of_lt (by omega)] at hm'
                omega
              rw [Nat.mod_eq_sub_mod hle, Nat.mod_eq_of_lt (by omega)] at hm'
              omega
          unfold pkcs7Pad
          rw [hb, UInt8.ofNat_toNat, ← h, ← hd, List.take_append_drop]
        · simp at h

/-- C19. Nothing else is read as the text: what is decrypted must be the padded text. So a damaged message is either refused or decrypts to
the padded form of another text. -/
theorem C19_only (c : BlockCipher) (t : Option PyStr) (s : PyStr) (h : deserializeSecureString (some c) t = .ok (.text s)) :
    ∃ b, Base64Ascii (t.getD []) b ∧ c.decrypt b = pkcs7Pad c.block (encodeUtf16LE s) := by
  simp only [deserializeSecureString, bind, Except.bind] at h
  cases hb : b64DecodeStr (t.getD []) with
  | error e => rw [hb] at h; simp at h
  | ok b =>
    rw [hb] at h
    simp only [] at h
    cases hp : pkcs7Unpad c.block (c.decrypt b) with
    | error e => rw [hp] at h; simp at h
    | ok p =>
      rw [hp] at h
      simp only [] at h
      cases hs : decodeUtf16LE p with
      | error e => rw [hs] at h; simp at h
      | ok s' =>
        rw [hs] at h
        simp only [pure, Except.pure, Except.ok.injEq, SecureResult.text.injEq] at h
        subst h
        exact ⟨b, ((C105_string _).1 b).1 hb, by rw [unpad_inv hp, decodeLE_inv hs]⟩

example : deserializeSecureString (some ⟨16, List.reverse, List.reverse⟩) (some "Dg4ODg4ODg4ODg4ODg4AYQ==".toList) = .ok (.text "a".toList) := by
  decide +kernel

/-- C19. Without a key no secure string is produced. -/
theorem C19_no_key (s : PyStr) : serializeSecureString none s = .error .serializationError := rfl

/-- A cipher that meets the hypotheses: reversal of the data. -/
example : ∃ c : BlockCipher, c.block = 16 ∧ (∀ b : Bytes, c.block ∣ b.length → c.decrypt (c.encrypt b) = b) ∧
    serializeSecureString (some c) "a".toList = .ok "Dg4ODg4ODg4ODg4ODg4AYQ==".toList :=
  ⟨⟨16, List.reverse, List.reverse⟩, rfl, by simp, by decide +kernel⟩

/-! ### C20 -/

theorem leDec_ofDigits (n k : Nat) :
    leDec ((List.range k).map (fun i => UInt8.ofNat ((n >>> (i * 8)) &&& 0xFF))) = n % 256 ^ k := by
  induction k generalizing n with
  | zero => simp [leDec, Nat.mod_one]
  | succ k ih =>
    rw [List.range_succ_eq_map, List.map_cons, List.map_map, leDec]
    have : ((fun i => UInt8.ofNat ((n >>> (i * 8)) &&& 0xFF)) ∘ Nat.succ) = (fun i => UInt8.ofNat (((n / 256) >>> (i * 8)) &&& 0xFF)) := by
      funext i
      simp only [Function.comp_apply]
      congr 2
      rw [show n / 256 = n >>> 8 from by rw [Nat.shiftRight_eq_div_pow], ← Nat.shiftRight_add]
      congr 1
      simp [Nat.succ_mul, Nat.add_comm]
    rw [this, ih]
    have h0 : (UInt8.ofNat ((n >>> (0 * 8)) &&& 0xFF)).toNat = n % 256 := by
      rw [UInt8.toNat_ofNat', Nat.zero_mul, Nat.shiftRight_zero, show (0xFF : Nat) = 2 ^ 8 - 1 from rfl, Nat.and_two_pow_sub_one_eq_mod]
      omega
    rw [h0, Nat.pow_succ, Nat.mul_comm (256 ^ k) 256, Nat.mod_mul]

set_option exponentiation.threshold 4096 in
/-- C20. The blob is 276 bytes long, announces a 2048 bit RSA1 public key in its first 16 bytes, and has the exponent and
the modulus as little endian numbers at 16 and 20. -/
theorem C20_blob (e n : Nat) (he : e < 2 ^ 32) (hn : n < 2 ^ 2048) :
    ∃ b, publicKeyBlob e n = .ok b ∧ b.length = 276 ∧ (b.drop 8).take 4 = "RSA1".toUTF8.toList ∧
      leDec ((b.drop 12).take 4) = 2048 ∧ leDec ((b.drop 16).take 4) = e ∧ leDec (b.drop 20) = n := by
  have hp : packLE 4 e = .ok (leEnc 4 e) := packLE_ok (by omega)
  have hl : (leEnc 4 e).length = 4 := by simp [leEnc]
  refine ⟨blobHeader ++ leEnc 4 e ++ modulusBytes n, ?_, ?_, ?_, ?_, ?_, ?_⟩
  · simp only [publicKeyBlob, hp, bind, Except.bind, pure, Except.pure]
  · simp [hl, blobHeader, modulusBytes]
  · simp only [blobHeader, List.cons_append, List.drop_succ_cons, List.drop_zero, List.take_succ_cons, List.take_zero]
    decide +kernel
  · simp only [blobHeader, List.cons_append, List.drop_succ_cons, List.drop_zero, List.take_succ_cons, List.take_zero]
    decide
  · rw [List.append_assoc, drop_append_eq (by rfl), take_append_eq hl, leDec_leEnc_of_lt (by omega)]
  · rw [drop_append_eq (by simp [hl, blobHeader]), modulusBytes, leDec_ofDigits, Nat.mod_eq_of_lt]
    have h2048 : (256 : Nat) ^ 256 = 2 ^ 2048 := by
      rw [show (256 : Nat) = 2 ^ 8 from rfl, ← Nat.pow_mul]
    rw [h2048]
    exact hn

/-- C20. An exponent that does not fit raises. -/
theorem C20_exponent_too_big (e n : Nat) (he : 2 ^ 32 ≤ e) : publicKeyBlob e n = .error .structError := by
  have : packLE 4 e = .error .structError := by
    unfold packLE
    rw [if_neg (by omega)]
  simp only [publicKeyBlob, this, bind, Except.bind]

example : (65537 : Nat) < 2 ^ 32 := by decide

/-- C20. The session key the pool uses is what its private key decrypts from the part after the 12 byte header, byte
order reversed: if the server sent `header ++ reverse (encryption of key)`, the key is found. -/
theorem C20_session_key (rsaDecrypt : Bytes → Except PyErr Bytes) (header enc key : Bytes) (hh : header.length = 12)
    (hk : rsaDecrypt enc = .ok key) : sessionKey rsaDecrypt (b64Encode (header ++ enc.reverse)) = .ok key := by
  simp only [sessionKey, b64DecodeStr_encode, bind, Except.bind, drop_append_eq hh, List.reverse_reverse, hk]

end Verif
