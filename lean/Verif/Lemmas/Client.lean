import Verif.Spec.Client
import Verif.Lemmas.Base64
/-
Lemmas for copy and fetch.
-/
namespace Verif

theorem hexByte_eq (b : UInt8) : hexByte b =
    ["0123456789abcdef".toList.getD (b.toNat / 16) ' ', "0123456789abcdef".toList.getD (b.toNat % 16) ' '] := by
  have key : ∀ n : Fin 16, hexDigitLower n.val = "0123456789abcdef".toList.getD n.val ' ' := by decide +kernel
  have hb := b.toNat_lt
  unfold hexByte
  rw [key ⟨b.toNat / 16, by omega⟩, key ⟨b.toNat % 16, by omega⟩]

theorem hexDigest_eq (d : Bytes) : hexDigest d = lowerHex d := by
  unfold hexDigest lowerHex
  congr 1
  funext b
  exact hexByte_eq b

theorem hexDigit_lower : ∀ n : Fin 16, hexDigit n.val ≠ '-' ∧ netLower (hexDigit n.val) = "0123456789abcdef".toList.getD n.val ' ' := by
  decide +kernel

theorem netHash_eq (d : Bytes) : netHash d = lowerHex d := by
  unfold netHash
  fun_induction bitConverter d with
  | case1 => rfl
  | case2 b =>
    have hb := b.toNat_lt
    obtain ⟨h1, h2⟩ := hexDigit_lower ⟨b.toNat / 16, by omega⟩
    obtain ⟨h3, h4⟩ := hexDigit_lower ⟨b.toNat % 16, by omega⟩
    dsimp only at h1 h2 h3 h4
    simp only [List.filter_cons, ne_eq, h1, not_false_eq_true, decide_true, if_true, h3, List.filter_nil, List.map_cons, h2, h4, List.map_nil]
    simp only [lowerHex, List.flatMap_cons, List.flatMap_nil, List.append_nil]
  | case3 b bs _ ih =>
    have hb := b.toNat_lt
    obtain ⟨h1, h2⟩ := hexDigit_lower ⟨b.toNat / 16, by omega⟩
    obtain ⟨h3, h4⟩ := hexDigit_lower ⟨b.toNat % 16, by omega⟩
    dsimp only at h1 h2 h3 h4
    simp only [List.filter_cons, ne_eq, h1, not_false_eq_true, decide_true, if_true, h3, List.map_cons, h2, h4, not_true_eq_false,
      decide_false, Bool.false_eq_true, if_false]
    rw [show ((bitConverter bs).filter fun x => decide ¬ x = '-').map netLower = lowerHex bs from ih]
    simp only [lowerHex, List.flatMap_cons, List.cons_append, List.nil_append]

/-- A hash is lower case ASCII. -/
theorem lowerHex_chars (d : Bytes) : ∀ c ∈ lowerHex d, c.toNat < 128 ∧ netLower c = c ∧ c.toLower = c := by
  have key : ∀ n : Fin 16, ("0123456789abcdef".toList.getD n.val ' ').toNat < 128 ∧
      netLower ("0123456789abcdef".toList.getD n.val ' ') = "0123456789abcdef".toList.getD n.val ' ' ∧
      ("0123456789abcdef".toList.getD n.val ' ').toLower = "0123456789abcdef".toList.getD n.val ' ' := by decide +kernel
  intro c hc
  obtain ⟨b, _, hb⟩ := List.mem_flatMap.1 hc
  have hlt := b.toNat_lt
  simp only [List.mem_cons, List.not_mem_nil, or_false] at hb
  rcases hb with rfl | rfl
  · exact key ⟨b.toNat / 16, by omega⟩
  · exact key ⟨b.toNat % 16, by omega⟩

theorem lowerHex_inj {a b : Bytes} (h : lowerHex a = lowerHex b) : a = b := by
  induction a generalizing b with
  | nil =>
    cases b with
    | nil => rfl
    | cons y b => simp [lowerHex] at h
  | cons x a ih =>
    cases b with
    | nil => simp [lowerHex] at h
    | cons y b =>
      simp only [lowerHex, List.flatMap_cons, List.cons_append, List.nil_append, List.cons.injEq] at h
      obtain ⟨h1, h2, h3⟩ := h
      have key : ∀ m n : Fin 16, "0123456789abcdef".toList.getD m.val ' ' = "0123456789abcdef".toList.getD n.val ' ' → m = n := by
        decide +kernel
      have hx := x.toNat_lt
      have hy := y.toNat_lt
      have e1 := congrArg Fin.val (key ⟨x.toNat / 16, by omega⟩ ⟨y.toNat / 16, by omega⟩ h1)
      have e2 := congrArg Fin.val (key ⟨x.toNat % 16, by omega⟩ ⟨y.toNat % 16, by omega⟩ h2)
      dsimp only at e1 e2
      rw [ih h3, UInt8.toNat_inj.1 (show x.toNat = y.toNat by omega)]

theorem netLower_byte (b : UInt8) : netLower (Char.ofNat b.toNat) = (Char.ofNat b.toNat).toLower := by
  have key : ∀ n : Fin 256, netLower (Char.ofNat n.val) = (Char.ofNat n.val).toLower := by decide +kernel
  exact key ⟨b.toNat, b.toNat_lt⟩

theorem sameHash_iff (d e : Bytes) : sameHash (netHash d) e = true ↔ SameText (lowerHex d) e := by
  unfold sameHash SameText
  rw [netHash_eq, beq_iff_eq]
  have h1 : (lowerHex d).map netLower = lowerHex d := by
    conv => rhs; rw [← List.map_id (lowerHex d)]
    exact List.map_congr_left fun c hc => (lowerHex_chars d c hc).2.1
  rw [h1]
  have h2 : (e.map fun b => netLower (Char.ofNat b.toNat)) = e.map fun x => (Char.ofNat x.toNat).toLower :=
    List.map_congr_left fun b _ => netLower_byte b
  rw [h2]

theorem sameText_ascii (d : Bytes) : SameText (lowerHex d) (asciiBytes (lowerHex d)) := by
  unfold SameText asciiBytes
  rw [List.map_map]
  conv => rhs; rw [← List.map_id (lowerHex d)]
  refine List.map_congr_left fun c hc => ?_
  obtain ⟨h1, _, h3⟩ := lowerHex_chars d c hc
  have : (UInt8.ofNat c.toNat).toNat = c.toNat := by simp; omega
  simp only [Function.comp_apply, this, Char.ofNat_toNat, id_eq]
  exact h3

/-! ### Reading -/

theorem fileReads_nil (size : Int) (n : Nat) : fileReads size (n + 1) [] = [[]] := by
  simp [fileReads, fileRead]

theorem readBuffer_done (sha1 : Bytes → Bytes) (total : Nat) (seen : Bytes) (h : seen ≠ []) :
    readBuffer sha1 total seen [[]] = [] := by
  simp [readBuffer, h]

/-- The rest of a file, read in chunks. -/
theorem readBuffer_chunks (sha1 : Bytes → Bytes) (size : Nat) (hs : 0 < size) : ∀ (n : Nat) (seen rest : Bytes) (total : Nat),
    rest ≠ [] → rest.length < n → total = seen.length + rest.length → ∃ chunks : List Bytes,
    (readBuffer sha1 total seen (fileReads size n rest)).flatten = chunks.map b64Encode ++ [hashItem sha1 (seen ++ rest)] ∧
    chunks.flatten = rest ∧ ∀ c ∈ chunks, c.length ≤ size := by
  intro n
  induction n with
  | zero => intro seen rest total _ h; omega
  | succ n ih =>
    intro seen rest total hr hn ht
    have hpos : 0 < rest.length := List.length_pos_iff.2 hr
    have hne : rest.take size ≠ [] := by
      intro h
      rcases List.take_eq_nil_iff.1 h with h | h
      · omega
      · exact hr h
    have hread : fileRead size rest = (rest.take size, rest.drop size) := by
      unfold fileRead
      rw [if_neg (by omega)]
      rfl
    unfold fileReads
    simp only [hread, if_neg hne]
    unfold readBuffer
    simp only [if_neg hne]
    by_cases hd : rest.drop size = []
    · have hle : rest.length ≤ size := by
        have := congrArg List.length hd
        simp at this; omega
      have htake : rest.take size = rest := List.take_of_length_le hle
      have hlen : (seen ++ rest).length = total := by simp [ht]
      rw [hd, htake, if_pos hlen]
      obtain ⟨m, rfl⟩ : ∃ m, n = m + 1 := ⟨n - 1, by omega⟩
      rw [fileReads_nil, readBuffer_done _ _ _ (by simp [hr])]
      exact ⟨[rest], by simp, by simp, by simpa using hle⟩
    · have hlt : size < rest.length := by
        rcases Nat.lt_or_ge size rest.length with h | h
        · exact h
        · exact absurd (List.drop_of_length_le h) hd
      have hlen : ¬ (seen ++ rest.take size).length = total := by
        simp [ht]; omega
      obtain ⟨chunks, h1, h2, h3⟩ := ih (seen ++ rest.take size) (rest.drop size) total hd (by simp; omega) (by simp [ht]; omega)
      rw [if_neg hlen]
      refine ⟨rest.take size :: chunks, ?_, ?_, ?_⟩
      · rw [List.flatten_cons, h1, List.append_assoc, List.take_append_drop]
        simp
      · rw [List.flatten_cons, h2, List.take_append_drop]
      · intro c hc
        rcases List.mem_cons.1 hc with rfl | hc
        · simp; omega
        · exact h3 c hc

theorem copyInput_items (sha1 : Bytes → Bytes) (maxPayload : Int) (file : Bytes) (hp : 84 ≤ maxPayload) : ∃ chunks : List Bytes,
    (copyInput sha1 maxPayload file).flatten = chunks.map b64Encode ++ [b64Encode (asciiBytes (lowerHex (sha1 file)))] ∧
    chunks.flatten = file ∧ ∀ c ∈ chunks, (c.length : Int) ≤ copyBufferSize maxPayload := by
  unfold copyInput
  have hh : ∀ seen, hashItem sha1 seen = b64Encode (asciiBytes (lowerHex (sha1 seen))) := by
    intro seen; unfold hashItem; rw [hexDigest_eq]; rfl
  by_cases hf : file = []
  · subst hf
    rw [fileReads_nil]
    refine ⟨[[]], ?_, rfl, ?_⟩
    · simp [readBuffer, hh, b64Encode]
    · intro c hc
      simp only [List.mem_singleton] at hc
      subst hc
      unfold copyBufferSize
      have := Int.tdiv_nonneg (a := (maxPayload - 82) * 3) (b := 4) (by omega) (by omega)
      simpa using this
  · obtain ⟨size, hsz⟩ : ∃ size : Nat, copyBufferSize maxPayload = size ∧ 0 < size := by
      unfold copyBufferSize
      rw [Int.tdiv_eq_ediv_of_nonneg (by omega)]
      exact ⟨((maxPayload - 82) * 3 / 4).toNat, by omega, by omega⟩
    rw [hsz.1]
    obtain ⟨chunks, h1, h2, h3⟩ := readBuffer_chunks sha1 size hsz.2 (file.length + 1) [] file file.length hf (by omega) (by simp)
    rw [List.nil_append, hh] at h1
    exact ⟨chunks, h1, h2, fun c hc => by have := h3 c hc; omega⟩

/-! ### The remote script of copy -/

/-- The process block, if it does not fail. -/
theorem copyProcess_ok (faults : CopyFaults) : ∀ (items : List PyStr) (bytes : Option Bytes) (fd : Bytes),
    (copyProcess faults bytes fd items).1 = true → ∃ parts : List Bytes, items.map netFromBase64 = parts.map some ∧
    (copyProcess faults bytes fd items).2.2 ++ (copyProcess faults bytes fd items).2.1.getD [] = fd ++ bytes.getD [] ++ parts.flatten ∧
    (copyProcess faults bytes fd items).2.1 = (if items = [] then bytes else parts.getLast?) := by
  intro items
  induction items with
  | nil => intro bytes fd _; exact ⟨[], by simp [copyProcess]⟩
  | cons item items ih =>
    intro bytes fd h
    unfold copyProcess at h ⊢
    have step : ∀ (b' : Bytes) (fd' : Bytes), netFromBase64 item = some b' → (copyProcess faults (some b') fd' items).1 = true →
        fd' = fd ++ bytes.getD [] → ∃ parts : List Bytes, (item :: items).map netFromBase64 = parts.map some ∧
        (copyProcess faults (some b') fd' items).2.2 ++ (copyProcess faults (some b') fd' items).2.1.getD [] =
          fd ++ bytes.getD [] ++ parts.flatten ∧
        (copyProcess faults (some b') fd' items).2.1 = (if item :: items = [] then bytes else parts.getLast?) := by
      intro b' fd' hb hok hfd
      obtain ⟨parts, h1, h2, h3⟩ := ih (some b') fd' hok
      refine ⟨b' :: parts, by simp [hb, h1], ?_, ?_⟩
      · rw [h2, hfd]; simp
      · rw [h3, if_neg (List.cons_ne_nil item items)]
        by_cases hi : items = []
        · rw [if_pos hi]
          rw [hi] at h1
          have : parts = [] := by simpa using h1.symm
          rw [this]; rfl
        · rw [if_neg hi]
          have : parts ≠ [] := by
            intro hp; rw [hp] at h1; simp at h1; exact hi h1
          rw [List.getLast?_cons]
          cases hg : parts.getLast? with
          | none => exact absurd (List.getLast?_eq_none_iff.1 hg) this
          | some x => simp
    cases bytes with
    | some b =>
      dsimp only at h ⊢
      by_cases hw : faults.write fd.length = true
      · rw [if_pos hw] at h; simp at h
      · rw [if_neg hw] at h ⊢
        cases hb : netFromBase64 item with
        | none => rw [hb] at h; simp at h
        | some b' =>
          rw [hb] at h
          exact step b' (fd ++ b) hb h rfl
    | none =>
      dsimp only at h ⊢
      cases hb : netFromBase64 item with
      | none => rw [hb] at h; simp at h
      | some b' =>
        rw [hb] at h
        exact step b' fd hb h (by simp)

/-- What the script has written and taken as the hash at its end. -/
theorem copyProcess_received (faults : CopyFaults) (items : List PyStr) (hash : Bytes)
    (h : (copyProcess faults none [] items).1 = true) (hb : (copyProcess faults none [] items).2.1 = some hash) :
    Received items (copyProcess faults none [] items).2.2 hash := by
  obtain ⟨parts, h1, h2, h3⟩ := copyProcess_ok faults items none [] h
  rw [hb] at h2 h3
  by_cases hi : items = []
  · rw [if_pos hi] at h3; simp at h3
  · rw [if_neg hi] at h3
    obtain ⟨ps, rfl⟩ := List.getLast?_eq_some_iff.1 h3.symm
    refine ⟨ps, h1, ?_⟩
    simpa using h2.symm

/-- The process block does not fail if the items are base64 and writing does not. -/
theorem copyProcess_succeeds (faults : CopyFaults) (hw : ∀ n, faults.write n = false) : ∀ (items : List PyStr) (bytes : Option Bytes) (fd : Bytes),
    (∀ i ∈ items, (netFromBase64 i).isSome = true) → (copyProcess faults bytes fd items).1 = true := by
  intro items
  induction items with
  | nil => intro bytes fd _; rfl
  | cons item items ih =>
    intro bytes fd h
    obtain ⟨b', hb'⟩ := Option.isSome_iff_exists.1 (h item List.mem_cons_self)
    have ih := fun b fd => ih b fd fun i hi => h i (List.mem_cons_of_mem _ hi)
    unfold copyProcess
    cases bytes with
    | some b => simp [hw, hb', ih]
    | none => simp [hb', ih]

end Verif
