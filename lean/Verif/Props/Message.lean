import Verif.Lemmas.Message
/-
C10, C11: message headers and type numbers.
-/
namespace Verif

theorem unpack_parts {d t : Nat} {r p : UUID} {rest : Bytes} (hd : d < 2 ^ 32) (ht : t < 2 ^ 32) :
    Msg.unpack (leEnc 4 d ++ leEnc 4 t ++ r.bytesLe ++ p.bytesLe ++ rest) =
      (match lookupKind t with
        | .error e => .error e
        | .ok k => .ok ⟨d, k, r, p, if rest.take 3 = bom then rest.drop 3 else rest⟩) := by
  generalize hD : leEnc 4 d = D
  generalize hT : leEnc 4 t = T
  generalize hR : r.bytesLe = R
  generalize hP : p.bytesLe = P
  have lD : D.length = 4 := by rw [← hD]; simp
  have lT : T.length = 4 := by rw [← hT]; simp
  have lR : R.length = 16 := by rw [← hR, UUID.bytesLe_length]
  have lP : P.length = 16 := by rw [← hP, UUID.bytesLe_length]
  have e1 : (D ++ T ++ R ++ P ++ rest).take 4 = D := by
    rw [List.append_assoc, List.append_assoc, List.append_assoc]; exact take_append_eq lD
  have e2 : ((D ++ T ++ R ++ P ++ rest).drop 4).take 4 = T := by
    rw [List.append_assoc, List.append_assoc, List.append_assoc, drop_append_eq lD]; exact take_append_eq lT
  have e3 : ((D ++ T ++ R ++ P ++ rest).drop 8).take 16 = R := by
    rw [List.append_assoc, List.append_assoc, drop_append_eq (by simp [lD, lT])]; exact take_append_eq lR
  have e4 : ((D ++ T ++ R ++ P ++ rest).drop 24).take 16 = P := by
    rw [List.append_assoc, drop_append_eq (by simp [lD, lT, lR])]; exact take_append_eq lP
  have e5 : (D ++ T ++ R ++ P ++ rest).drop 40 = rest := drop_append_eq (by simp [lD, lT, lR, lP])
  have e6 : (D ++ T ++ R ++ P ++ rest).drop 43 = rest.drop 3 := by
    rw [← e5, List.drop_drop, e5]
  unfold Msg.unpack
  rw [e1, e2, e3, e4, e5, e6, ← hD, ← hT, ← hR, ← hP, UUID.ofBytesLe_bytesLe, UUID.ofBytesLe_bytesLe,
    unpackLE_enc hd, unpackLE_enc ht]
  simp only [bind, Except.bind, pure, Except.pure]
  cases lookupKind t <;> rfl

/-- C10. Packing a message succeeds when the destination fits its field, and unpacking gives back the destination,
kind, ids and body. A body of the client never starts with a byte order mark (it is XML or empty). -/
theorem C10_roundtrip (d : Nat) (rpid pid : Option UUID) (k : MsgKind) (body : Bytes) (hd : d < 2 ^ 32)
    (hb : body.take 3 ≠ bom) :
    ∃ bytes, (Msg.make d rpid pid k body).pack = .ok bytes ∧
      Msg.unpack bytes = .ok { destination := d, kind := k, rpid := rpid.getD .zero, pid := pid.getD .zero, body } := by
  refine ⟨leEnc 4 d ++ leEnc 4 k.number ++ (rpid.getD .zero).bytesLe ++ (pid.getD .zero).bytesLe ++ body, ?_, ?_⟩
  · simp only [Msg.make, Msg.pack, messageType_value, packLE_ok (w := 4) hd, packLE_ok (number_lt k), bind, Except.bind, pure,
      Except.pure]
  · rw [unpack_parts hd (number_lt k), lookupKind_number]
    simp only [if_neg hb]

/-- C10. A received message whose body is preceded by a byte order mark is read without the mark. -/
theorem C10_byte_order_mark (d : Nat) (rpid pid : UUID) (k : MsgKind) (body : Bytes) (hd : d < 2 ^ 32) :
    ∃ bytes, (Msg.make d (some rpid) (some pid) k (bom ++ body)).pack = .ok bytes ∧
      Msg.unpack bytes = .ok { destination := d, kind := k, rpid, pid, body } := by
  refine ⟨leEnc 4 d ++ leEnc 4 k.number ++ rpid.bytesLe ++ pid.bytesLe ++ (bom ++ body), ?_, ?_⟩
  · simp only [Msg.make, Msg.pack, messageType_value, packLE_ok (w := 4) hd, packLE_ok (number_lt k), bind, Except.bind, pure,
      Except.pure, Option.getD]
  · rw [unpack_parts hd (number_lt k), lookupKind_number]
    have : (bom ++ body).take 3 = bom := take_append_eq rfl
    simp only [this, if_true]
    congr 1

/-- C10. The layout on the wire: little endian destination and type number, the two ids as .NET GUIDs, the body. -/
theorem C10_layout (d : Nat) (rpid pid : UUID) (k : MsgKind) (body bytes : Bytes)
    (h : (Msg.make d (some rpid) (some pid) k body).pack = .ok bytes) :
    leValue (bytes.take 4) = d ∧ leValue ((bytes.drop 4).take 4) = k.number ∧
      IsDotNetGuid ((bytes.drop 8).take 16) rpid ∧ IsDotNetGuid ((bytes.drop 24).take 16) pid ∧ bytes.drop 40 = body := by
  have hd : d < 256 ^ 4 := by
    refine Classical.byContradiction fun hc => ?_
    simp [Msg.make, Msg.pack, packLE, hc, bind, Except.bind] at h
  simp only [Msg.make, Msg.pack, messageType_value, packLE_ok hd, packLE_ok (number_lt k), bind, Except.bind, pure,
      Except.pure, Option.getD, Except.ok.injEq] at h
  subst h
  have lR := UUID.bytesLe_length rpid
  have lP := UUID.bytesLe_length pid
  refine ⟨?_, ?_, ?_, ?_, ?_⟩
  · rw [List.append_assoc, List.append_assoc, List.append_assoc, take_append_eq (by simp), leValue_eq_leDec,
      leDec_leEnc_of_lt hd]
  · rw [List.append_assoc, List.append_assoc, List.append_assoc, drop_append_eq (by simp), take_append_eq (by simp),
      leValue_eq_leDec, leDec_leEnc_of_lt (number_lt k)]
  · rw [List.append_assoc, List.append_assoc, drop_append_eq (by simp), take_append_eq lR]
    exact isDotNetGuid_bytesLe rpid
  · rw [List.append_assoc, drop_append_eq (by simp [lR]), take_append_eq lP]
    exact isDotNetGuid_bytesLe pid
  · exact drop_append_eq (by simp [lR, lP])

/-- C10. Any received bytes are accepted exactly when the header is complete and the type number is known. -/
theorem C10_accepts_iff (bytes : Bytes) :
    (∃ m, Msg.unpack bytes = .ok m) ↔ 40 ≤ bytes.length ∧ ∃ k : MsgKind, k.number = leValue ((bytes.drop 4).take 4) := by
  constructor
  · rintro ⟨m, h⟩
    unfold Msg.unpack at h
    simp only [bind, Except.bind, pure, Except.pure] at h
    split at h
    · simp at h
    rename_i d hd
    split at h
    · simp at h
    rename_i t ht
    split at h
    · simp at h
    rename_i r hr
    split at h
    · simp at h
    rename_i p hp
    split at h
    · simp at h
    rename_i k hk
    have hlen : ((bytes.drop 24).take 16).length = 16 := by
      unfold UUID.ofBytesLe at hp
      split at hp
      · assumption
      · simp at hp
    refine ⟨by simp only [List.length_take, List.length_drop] at hlen; omega, ?_⟩
    have hte : leValue ((bytes.drop 4).take 4) = t := by
      unfold unpackLE at ht
      split at ht
      · rw [leValue_eq_leDec]; exact Except.ok.inj ht
      · simp at ht
    rw [hte]
    refine Classical.byContradiction fun hc => ?_
    rw [lookupKind_other (fun k he => hc ⟨k, he⟩)] at hk
    simp at hk
  · rintro ⟨hlen, k, hk⟩
    have l1 : (bytes.take 4).length = 4 := by simp; omega
    have l2 : ((bytes.drop 4).take 4).length = 4 := by simp; omega
    have l3 : ((bytes.drop 8).take 16).length = 16 := by simp; omega
    have l4 : ((bytes.drop 24).take 16).length = 16 := by simp; omega
    unfold Msg.unpack unpackLE UUID.ofBytesLe
    rw [leValue_eq_leDec] at hk
    simp only [l1, l2, l3, l4, if_true, dif_pos, bind, Except.bind, pure, Except.pure, ← hk, lookupKind_number]
    exact ⟨_, rfl⟩

/-- C10. An end-of-input message has an empty body, a public key request and a connect without limits an empty string
element, and every other message the serialized data. -/
theorem C10_bodies (k : MsgKind) (noLimits : Bool) (data : Option Bytes) :
    packBody k noLimits data =
      match k with
      | .endOfPipelineInput => []
      | .publicKeyRequest => [60, 83, 32, 47, 62]
      | .connectRunspacePool => if noLimits then [60, 83, 32, 47, 62] else data.getD []
      | _ => data.getD [] := by
  cases k <;> cases noLimits <;> rfl

/-- C11. Every message kind is sent with the number MS-PSRP gives it. -/
theorem C11_sent_number (d : Nat) (rpid pid : UUID) (k : MsgKind) (body bytes : Bytes)
    (h : (Msg.make d (some rpid) (some pid) k body).pack = .ok bytes) :
    leValue ((bytes.drop 4).take 4) = k.number := (C10_layout d rpid pid k body bytes h).2.1

/-- C11. No two message kinds share a number. -/
theorem C11_numbers_distinct (a b : MsgKind) (h : a.messageType.value = b.messageType.value) : a = b := by
  rw [messageType_value, messageType_value] at h
  exact number_inj h

/-- C11. A received number is mapped to a kind exactly when it is that kind's number; every other number is rejected. -/
theorem C11_received_number (n : Nat) :
    (∀ k : MsgKind, lookupKind n = .ok k ↔ k.number = n) ∧
      ((∀ k : MsgKind, k.number ≠ n) → lookupKind n = .error .keyError) := by
  refine ⟨fun k => ⟨fun h => ?_, fun h => h ▸ lookupKind_number k⟩, lookupKind_other⟩
  refine Classical.byContradiction fun hc => ?_
  by_cases hex : ∃ k' : MsgKind, k'.number = n
  · obtain ⟨k', hk'⟩ := hex
    rw [← hk', lookupKind_number] at h
    exact hc (Except.ok.inj h ▸ hk')
  · rw [lookupKind_other (fun k' he => hex ⟨k', he⟩)] at h
    simp at h

example : lookupKind 0x0002100B = .ok .runspacePoolInitData ∧ lookupKind 0x00010003 = .error .keyError := by decide
example : (Msg.make 2 none (some .zero) .pipelineInput [60, 83, 47, 62]).body.take 3 ≠ bom := by decide

end Verif
