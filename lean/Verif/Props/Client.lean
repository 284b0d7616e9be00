import Verif.Lemmas.Client
import Verif.Props.Base64Text
/-
C55 and C56: copy. C57 and C58: fetch. C67: execute_ps.
-/
namespace Verif

/-! ### C55 -/

/-- C55, partial: for every file the items are, in base64, chunks of the file in order and then the hexadecimal SHA1 of the whole file, and
every chunk in base64 leaves room for 71 bytes in the payload: 21 for the fragment, 40 for the message, 3 for the byte order
mark and 7 for `<S></S>`. Missing: payload limits below 84 (`C55_small_false`). -/
theorem C55_items_partial (sha1 : Bytes → Bytes) (maxPayload : Int) (file : Bytes) (hp : 84 ≤ maxPayload) : ∃ chunks : List Bytes,
    (copyInput sha1 maxPayload file).flatten = (chunks ++ [asciiBytes (lowerHex (sha1 file))]).map base64Of ∧
    chunks.flatten = file ∧ ∀ item ∈ (copyInput sha1 maxPayload file).flatten.dropLast, (item.length : Int) + 71 ≤ maxPayload := by
  obtain ⟨chunks, h1, h2, h3⟩ := copyInput_items sha1 maxPayload file hp
  refine ⟨chunks, ?_, h2, ?_⟩
  · rw [h1]
    rw [show b64Encode = base64Of from funext C99_base64, List.map_append]; rfl
  · rw [h1, List.dropLast_concat]
    intro item hi
    obtain ⟨c, hc, rfl⟩ := List.mem_map.1 hi
    have := h3 c hc
    unfold copyBufferSize at this
    rw [Int.tdiv_eq_ediv_of_nonneg (by omega)] at this
    rw [b64Encode_length]
    omega

example : (copyInput id 84 [1, 2]).flatten.map b64Decode = [.ok [1], .ok [2], .ok (asciiBytes "0102".toList)] := by decide +kernel

/-- C55, partial: a file that is copied without faults is the file that is installed. -/
theorem C55_installed_partial (sha1 : Bytes → Bytes) (maxPayload : Int) (file : Bytes) (hp : 84 ≤ maxPayload) (fs : Files) :
    copyScript sha1 {} (copyInput sha1 maxPayload file).flatten fs = (.ok (), { temp := none, dest := some file }) := by
  obtain ⟨chunks, h1, h2, _⟩ := copyInput_items sha1 maxPayload file hp
  have hitems : ∀ i ∈ (copyInput sha1 maxPayload file).flatten, (netFromBase64 i).isSome = true := by
    rw [h1]
    intro i hi
    rcases List.mem_append.1 hi with hi | hi
    · obtain ⟨c, _, rfl⟩ := List.mem_map.1 hi
      rw [netFromBase64_encode]; rfl
    · rw [List.mem_singleton.1 hi, netFromBase64_encode]; rfl
  have hok := copyProcess_succeeds {} (fun _ => rfl) _ none [] hitems
  obtain ⟨parts, h3, h4, h5⟩ := copyProcess_ok {} _ none [] hok
  have hparts : parts = chunks ++ [asciiBytes (lowerHex (sha1 file))] := by
    rw [h1] at h3
    simp only [List.map_append, List.map_map, List.map_cons, List.map_nil, netFromBase64_encode] at h3
    have hm : chunks.map (netFromBase64 ∘ b64Encode) = chunks.map some := List.map_congr_left fun c _ => netFromBase64_encode c
    rw [hm] at h3
    have : (chunks ++ [asciiBytes (lowerHex (sha1 file))]).map some = parts.map some := by simpa using h3
    exact ((List.map_inj_right fun _ _ => Option.some.inj).1 this).symm
  have hne : (copyInput sha1 maxPayload file).flatten ≠ [] := by rw [h1]; simp
  rw [if_neg hne, hparts, List.getLast?_concat] at h5
  rw [h5, hparts] at h4
  have h6 : (copyProcess {} none [] (copyInput sha1 maxPayload file).flatten).2.2 = file := by
    simp only [Option.getD_some, Option.getD_none, List.flatten_append, List.flatten_cons, List.flatten_nil, List.append_nil,
      List.nil_append, h2] at h4
    exact List.append_cancel_right h4
  unfold copyScript
  simp only [Bool.false_eq_true, if_false, hok, Bool.not_true, h5, h6]
  unfold copyEnd
  have hsame : sameHash (netHash (sha1 file)) (asciiBytes (lowerHex (sha1 file))) = true := (sameHash_iff _ _).2 (sameText_ascii _)
  simp [hsame]

/-- C55 is false of the code for small payload limits: a file that is not empty is sent as an empty one, with its hash. -/
theorem C55_small_false : ∃ (maxPayload : Int) (file : Bytes), file ≠ [] ∧ ∀ sha1, copyInput sha1 maxPayload file = copyInput sha1 maxPayload [] :=
  ⟨83, [1], by simp, fun _ => rfl⟩

/-- C55: a payload limit further below reads the whole file at once. -/
theorem C55_negative_false (sha1 : Bytes → Bytes) (maxPayload : Int) (file : Bytes) (hp : maxPayload ≤ 80) (hf : file ≠ []) :
    (copyInput sha1 maxPayload file).flatten.head? = some (b64Encode file) := by
  have hneg : copyBufferSize maxPayload < 0 := by
    unfold copyBufferSize
    have h1 : Int.tdiv ((maxPayload - 82) * 3) 4 = -(((82 - maxPayload) * 3) / 4) := by
      have : (maxPayload - 82) * 3 = -((82 - maxPayload) * 3) := by omega
      rw [this, Int.neg_tdiv, Int.tdiv_eq_ediv_of_nonneg (by omega)]
    rw [h1]; omega
  unfold copyInput fileReads
  simp only [fileRead, if_pos hneg, if_neg hf]
  unfold readBuffer
  simp [hf]

/-! ### C56 -/

/-- The end block. -/
theorem copyEnd_dest (sha1 : Bytes → Bytes) (faults : CopyFaults) (bytes : Option Bytes) (data : Bytes) (fs : Files) (ht : fs.temp = some data) :
    ((copyEnd sha1 faults bytes data fs).1 = .failed ∧ (copyEnd sha1 faults bytes data fs).2 = fs) ∨
    (∃ hash, bytes = some hash ∧ SameText (lowerHex (sha1 data)) hash ∧
      (((copyEnd sha1 faults bytes data fs).1 = .ok () ∧ (copyEnd sha1 faults bytes data fs).2 = ⟨none, some data⟩) ∨
       (faults.move = true ∧ (copyEnd sha1 faults bytes data fs).1 = .failed ∧ (copyEnd sha1 faults bytes data fs).2 = ⟨fs.temp, none⟩))) := by
  unfold copyEnd
  by_cases h1 : faults.resolve = true
  · simp [h1]
  · cases bytes with
    | none => simp [h1]
    | some hash =>
      by_cases h2 : sameHash (netHash (sha1 data)) hash = true
      · by_cases h3 : faults.delete = true
        · simp [h1, h2, h3]
        · right
          refine ⟨hash, rfl, (sameHash_iff _ _).1 h2, ?_⟩
          by_cases h4 : faults.move = true
          · right; simp [h1, h2, h3, h4]
          · left; simp [h1, h2, h3, h4, ht]
      · left; simp [h1, h2]

/-- C56: whatever reaches the script and whatever fails, the destination changes only if the SHA1 of the data received is the hash
received last; it is then the data, or lost because moving the file failed. -/
theorem C56_replaced (sha1 : Bytes → Bytes) (faults : CopyFaults) (items : List PyStr) (fs : Files)
    (h : (copyScript sha1 faults items fs).2.dest ≠ fs.dest) : ∃ data hash, Received items data hash ∧ SameText (lowerHex (sha1 data)) hash ∧
    ((copyScript sha1 faults items fs).2.dest = some data ∨ (faults.move = true ∧ (copyScript sha1 faults items fs).2.dest = none)) := by
  unfold copyScript at h ⊢
  by_cases h1 : faults.create = true
  · simp [h1] at h
  · by_cases h2 : faults.setup = true
    · simp [h1, h2] at h
    · by_cases h3 : (copyProcess faults none [] items).1 = true
      · by_cases h4 : faults.close = true
        · simp [h1, h2, h3, h4] at h
        · simp only [h1, h2, h3, h4, Bool.false_eq_true, if_false, Bool.not_true] at h ⊢
          have hdest : ∀ (e : Script Unit × Files), (if faults.cleanup = true then (Script.failed, e.2) else (e.1, { e.2 with temp := none })).2.dest = e.2.dest := by
            intro e; split <;> rfl
          rw [hdest] at h ⊢
          rcases copyEnd_dest sha1 faults (copyProcess faults none [] items).2.1 (copyProcess faults none [] items).2.2
            { fs with temp := some (copyProcess faults none [] items).2.2 } rfl with ⟨_, he⟩ | ⟨hash, hb, hs, he⟩
          · rw [he] at h; exact absurd rfl h
          · refine ⟨_, hash, copyProcess_received faults items hash h3 hb, hs, ?_⟩
            rcases he with ⟨_, he⟩ | ⟨hm, _, he⟩
            · left; rw [he]
            · right; exact ⟨hm, by rw [he]⟩
      · simp [h1, h2, h3] at h

/-- C56: otherwise the destination is what it was and the script fails. -/
theorem C56_kept (sha1 : Bytes → Bytes) (faults : CopyFaults) (items : List PyStr) (fs : Files)
    (h : ∀ data hash, Received items data hash → ¬ SameText (lowerHex (sha1 data)) hash) :
    (copyScript sha1 faults items fs).2.dest = fs.dest ∧ (copyScript sha1 faults items fs).1 = .failed := by
  constructor
  · refine Classical.byContradiction fun hne => ?_
    obtain ⟨data, hash, h1, h2, _⟩ := C56_replaced sha1 faults items fs hne
    exact h data hash h1 h2
  · unfold copyScript
    by_cases h1 : faults.create = true
    · simp [h1]
    · by_cases h2 : faults.setup = true
      · simp [h1, h2]
      · by_cases h3 : (copyProcess faults none [] items).1 = true
        · by_cases h4 : faults.close = true
          · simp [h1, h2, h3, h4]
          · by_cases h5 : faults.cleanup = true
            · simp [h1, h2, h3, h4, h5]
            · simp only [h1, h2, h3, h4, h5, Bool.false_eq_true, if_false, Bool.not_true]
              rcases copyEnd_dest sha1 faults (copyProcess faults none [] items).2.1 (copyProcess faults none [] items).2.2
                { fs with temp := some (copyProcess faults none [] items).2.2 } rfl with ⟨he, _⟩ | ⟨hash, hb, hs, _⟩
              · exact he
              · exact absurd hs (h _ _ (copyProcess_received faults items hash h3 hb))
        · simp [h1, h2, h3]

/-- C56: a script that succeeds has installed the data, and its hash was right. -/
theorem C56_success (sha1 : Bytes → Bytes) (faults : CopyFaults) (items : List PyStr) (fs : Files)
    (h : (copyScript sha1 faults items fs).1 = .ok ()) : ∃ data hash, Received items data hash ∧ SameText (lowerHex (sha1 data)) hash ∧
    (copyScript sha1 faults items fs).2 = { temp := none, dest := some data } := by
  unfold copyScript at h ⊢
  by_cases h1 : faults.create = true
  · simp [h1] at h
  · by_cases h2 : faults.setup = true
    · simp [h1, h2] at h
    · by_cases h3 : (copyProcess faults none [] items).1 = true
      · by_cases h4 : faults.close = true
        · simp [h1, h2, h3, h4] at h
        · by_cases h5 : faults.cleanup = true
          · simp [h1, h2, h3, h4, h5] at h
          · simp only [h1, h2, h3, h4, h5, Bool.false_eq_true, if_false, Bool.not_true] at h ⊢
            rcases copyEnd_dest sha1 faults (copyProcess faults none [] items).2.1 (copyProcess faults none [] items).2.2
              { fs with temp := some (copyProcess faults none [] items).2.2 } rfl with ⟨he, _⟩ | ⟨hash, hb, hs, he⟩
            · rw [he] at h; simp at h
            · refine ⟨_, hash, copyProcess_received faults items hash h3 hb, hs, ?_⟩
              rcases he with ⟨_, he⟩ | ⟨_, he, _⟩
              · rw [he]
              · rw [he] at h; simp at h
      · simp [h1, h2, h3] at h

/-- C56, partial: no temporary file remains, whatever the items decode to and also if the destination cannot be replaced. Missing:
items that are not base64 (`C56_temp_false`), and failures to write, close or delete the temporary file. -/
theorem C56_temp_partial (sha1 : Bytes → Bytes) (faults : CopyFaults) (items : List PyStr) (fs : Files) (ht : fs.temp = none)
    (hs : faults.setup = false) (hw : ∀ n, faults.write n = false) (hc : faults.close = false) (hcl : faults.cleanup = false)
    (hi : ∀ i ∈ items, (netFromBase64 i).isSome = true) : (copyScript sha1 faults items fs).2.temp = none := by
  unfold copyScript
  by_cases h1 : faults.create = true
  · simp [h1, ht]
  · simp [h1, hs, hc, hcl, copyProcess_succeeds faults hw items none [] hi]

/-- C56 is false of the code: if an item is not base64, the script ends in its process block and the temporary file remains. -/
theorem C56_temp_false : ∃ items : List PyStr, ∀ sha1 dest, (copyScript sha1 {} items ⟨none, dest⟩).1 = .failed ∧
    (copyScript sha1 {} items ⟨none, dest⟩).2.temp ≠ none :=
  ⟨[['*']], fun _ _ => by simp [copyScript, copyProcess, show netFromBase64 ['*'] = none by decide +kernel]⟩

/-- C56: a destination is lost if the hash is right but the move fails after the old file has been deleted. -/
theorem C56_lost (sha1 : Bytes → Bytes) (maxPayload : Int) (file : Bytes) (hp : 84 ≤ maxPayload) (old : Bytes) :
    copyScript sha1 { move := true } (copyInput sha1 maxPayload file).flatten ⟨none, some old⟩ = (.failed, ⟨none, none⟩) := by
  obtain ⟨chunks, h1, _, _⟩ := copyInput_items sha1 maxPayload file hp
  have hok : copyScript sha1 {} (copyInput sha1 maxPayload file).flatten ⟨none, some old⟩ = (.ok (), ⟨none, some file⟩) :=
    C55_installed_partial sha1 maxPayload file hp _
  have hpr : ∀ items bytes fd, copyProcess { move := true } bytes fd items = copyProcess {} bytes fd items := by
    intro items
    induction items with
    | nil => intro bytes fd; rfl
    | cons i is ih =>
      intro bytes fd
      unfold copyProcess
      cases bytes with
      | some b => cases netFromBase64 i <;> simp [ih]
      | none => cases netFromBase64 i <;> simp [ih]
  unfold copyScript copyEnd at hok ⊢
  simp only [hpr, Bool.false_eq_true, if_false] at hok ⊢
  by_cases h3 : (copyProcess {} none [] (copyInput sha1 maxPayload file).flatten).1 = true
  · simp only [h3, Bool.not_true, Bool.false_eq_true, if_false] at hok ⊢
    cases hb : (copyProcess {} none [] (copyInput sha1 maxPayload file).flatten).2.1 with
    | none => rw [hb] at hok; simp at hok
    | some hash =>
      rw [hb] at hok
      dsimp only at hok ⊢
      by_cases h4 : sameHash (netHash (sha1 (copyProcess {} none [] (copyInput sha1 maxPayload file).flatten).2.2)) hash = true
      · simp [h4]
      · simp [h4] at hok
  · simp [h3] at hok

/-- Items for which the hypotheses hold: a hash in upper case, and a wrong one. -/
example : Received [b64Encode [1], b64Encode [171], b64Encode (asciiBytes "01AB".toList)] [1, 171] (asciiBytes "01AB".toList) ∧
    SameText (lowerHex (id [1, 171])) (asciiBytes "01AB".toList) ∧
    copyScript id {} [b64Encode [1], b64Encode [171], b64Encode (asciiBytes "01AB".toList)] ⟨none, some [7]⟩ = (.ok (), ⟨none, some [1, 171]⟩) :=
  ⟨⟨[[1], [171]], by decide +kernel⟩, by unfold SameText; decide +kernel, by decide +kernel⟩

example : copyScript id {} [b64Encode [1], b64Encode (asciiBytes "02".toList)] ⟨none, some [7]⟩ = (.failed, ⟨none, some [7]⟩) := by decide +kernel

/-! ### C57 -/

/-- C57: whatever the output of the script and whatever fails, the destination changes only if the SHA1 of the decoded bytes is the
hash that the server has reported; then what is copied there is what has been written of those bytes. -/
theorem C57_installed (sha1 : Bytes → Bytes) (faults : FetchFaults) (hadErrors : Bool) (output : List OutObj) (fs : Files)
    (h : (fetchLocal sha1 faults hadErrors output fs).2.dest ≠ fs.dest) : hadErrors = false ∧ ∃ first last bytes,
    output.head? = some (.str first) ∧ output.getLast? = some (.str last) ∧ Base64Ascii first bytes ∧ last = lowerHex (sha1 bytes) ∧
    ((fetchLocal sha1 faults hadErrors output fs).2.dest = some (bytes.take (faults.written bytes.length)) ∨
      faults.copy = some (fetchLocal sha1 faults hadErrors output fs).2.dest) := by
  unfold fetchLocal at h ⊢
  cases hadErrors with
  | true => simp at h
  | false =>
    simp only [Bool.false_eq_true, if_false] at h ⊢
    refine ⟨trivial, ?_⟩
    cases hh : output.head? with
    | none => rw [hh] at h; simp at h
    | some first =>
      cases hl : output.getLast? with
      | none => rw [hh, hl] at h; simp at h
      | some last =>
        rw [hh, hl] at h
        dsimp only at h ⊢
        by_cases hm : faults.mkstemp = true
        · simp [hm] at h
        · simp only [hm, Bool.false_eq_true, if_false] at h ⊢
          have hdest : ∀ r : Except PyErr Unit × Files, (if faults.close = true then (.error .osError, r.2) else
              if faults.remove = true then (.error .osError, r.2) else (r.1, { r.2 with temp := none }) : Except PyErr Unit × Files).2.dest = r.2.dest := by
            intro r; split
            · rfl
            · split <;> rfl
          rw [hdest] at h ⊢
          unfold fetchTry at h ⊢
          cases hd : b64DecodeObj first with
          | error e => rw [hd] at h; simp at h
          | ok bytes =>
            rw [hd] at h
            dsimp only at h ⊢
            by_cases hw : faults.writeFails = true
            · simp [hw] at h
            · simp only [hw, Bool.false_eq_true, if_false] at h ⊢
              by_cases hs : OutObj.str (hexDigest (sha1 bytes)) = last
              · simp only [ne_eq, hs, not_true_eq_false, if_false] at h ⊢
                cases first with
                | other => simp [b64DecodeObj] at hd
                | str first =>
                  refine ⟨first, hexDigest (sha1 bytes), bytes, rfl, by rw [hs], ?_, hexDigest_eq _, ?_⟩
                  · exact ((C105_string first).1 bytes).1 hd
                  · cases hc : faults.copy with
                    | none => left; rfl
                    | some left => right; rfl
              · simp [hs] at h

/-- C57, partial: if `os.write` writes all it is given, and copying does not fail, the destination is the decoded bytes. Missing: short
writes (`C57_write_false`), and `shutil.copy` failing midway. -/
theorem C57_bytes_partial (sha1 : Bytes → Bytes) (faults : FetchFaults) (hadErrors : Bool) (output : List OutObj) (fs : Files)
    (hw : ∀ n, faults.written n = n) (hc : faults.copy = none)
    (h : (fetchLocal sha1 faults hadErrors output fs).2.dest ≠ fs.dest) : ∃ first last bytes,
    output.head? = some (.str first) ∧ output.getLast? = some (.str last) ∧ Base64Ascii first bytes ∧ last = lowerHex (sha1 bytes) ∧
    (fetchLocal sha1 faults hadErrors output fs).2.dest = some bytes := by
  obtain ⟨_, first, last, bytes, h1, h2, h3, h4, h5⟩ := C57_installed sha1 faults hadErrors output fs h
  refine ⟨first, last, bytes, h1, h2, h3, h4, ?_⟩
  rcases h5 with h5 | h5
  · rw [h5, hw, List.take_length]
  · rw [hc] at h5; simp at h5

/-- C57 is false of the code: if `os.write` writes less than it is given, a truncated file is installed without error. -/
theorem C57_write_false : ∃ (faults : FetchFaults) (bytes : Bytes), ∀ sha1 fs, ∃ dest,
    fetchLocal sha1 faults false [.str (b64Encode bytes), .str (lowerHex (sha1 bytes))] fs = (.ok (), ⟨none, some dest⟩) ∧ dest ≠ bytes := by
  refine ⟨{ written := fun n => min n 1 }, [1, 2], fun sha1 fs => ⟨[1], ?_, by decide⟩⟩
  have hd : b64DecodeObj (.str (b64Encode [1, 2])) = .ok [1, 2] := by decide +kernel
  simp [fetchLocal, fetchTry, hd, hexDigest_eq]

/-- C57, partial: the temporary file is removed on every path. Missing: failures to close or remove it (`C57_temp_false`). -/
theorem C57_temp_partial (sha1 : Bytes → Bytes) (faults : FetchFaults) (hadErrors : Bool) (output : List OutObj) (fs : Files)
    (ht : fs.temp = none) (hc : faults.close = false) (hr : faults.remove = false) :
    (fetchLocal sha1 faults hadErrors output fs).2.temp = none := by
  unfold fetchLocal
  cases hadErrors with
  | true => simp [ht]
  | false =>
    cases output.head? with
    | none => simp [ht]
    | some first =>
      cases output.getLast? with
      | none => simp [ht]
      | some last =>
        by_cases hm : faults.mkstemp = true
        · simp [hm, ht]
        · simp [hm, hc, hr]

/-- C57 is false of the code: if closing the temporary file fails, it is not removed. -/
theorem C57_temp_false : ∃ (faults : FetchFaults) (output : List OutObj), faults.remove = false ∧ ∀ sha1 dest,
    (fetchLocal sha1 faults false output ⟨none, dest⟩).2.temp ≠ none :=
  ⟨{ close := true }, [.other], rfl, fun _ _ => by simp [fetchLocal, fetchTry, b64DecodeObj]⟩

/-- An output for which the destination changes. -/
example : fetchLocal id {} false [.str (b64Encode [1, 171]), .str "01ab".toList] ⟨none, some [7]⟩ = (.ok (), ⟨none, some [1, 171]⟩) := by
  decide +kernel

/-! ### C58 -/

theorem lowerHex_ascii (d : Bytes) : (lowerHex d).all (fun c => c.toNat < 128) = true := by
  rw [List.all_eq_true]
  intro c hc
  simpa using (lowerHex_chars d c hc).1

/-- C58, partial: a file that is not empty is stored as it is if the first read gives all of it. Missing: empty files
(`C58_empty_false`), reads that give less (`C58_read_false`) and files bigger than an array. -/
theorem C58_stored_partial (sha1 : Bytes → Bytes) (limit : Nat) (file : Bytes) (r : Nat) (reads : List Nat) (fs : Files)
    (hf : file ≠ []) (hl : file.length ≤ limit) (hr : file.length ≤ r) :
    fetch sha1 limit (r :: reads) {} file fs = some (.ok (), ⟨none, some file⟩) := by
  have hpos : 0 < file.length := List.length_pos_iff.2 hf
  have hs : fetchScript sha1 limit file (r :: reads) = .done [b64Encode file, lowerHex (sha1 file)] := by
    unfold fetchScript
    rw [if_neg (by omega)]
    unfold fetchLoop
    have h0 : fetchStop sha1 file.length 0 [] false [] = none := by
      unfold fetchStop
      rw [if_neg (by omega), if_neg (by omega)]
    rw [h0]
    have hmin : min r (min file.length file.length) = file.length := by omega
    simp only [hmin, Nat.sub_self, Nat.zero_add, List.drop_length, List.nil_append, readInto, List.take_length, List.replicate_zero,
      List.append_nil, netToBase64]
    have h1 : fetchStop sha1 0 file.length file true [b64Encode file] = some (.done [b64Encode file, lowerHex (sha1 file)]) := by
      simp [fetchStop, netHash_eq]
    cases reads <;> simp [fetchLoop, h1]
  unfold fetch
  rw [hs]
  have hd : b64DecodeObj (.str (b64Encode file)) = .ok file := by
    unfold b64DecodeObj
    exact b64DecodeStr_encode file
  simp [fetchLocal, fetchTry, hd, hexDigest_eq]

/-- What a script that ends has put out: some arrays of zeros, and then the file. -/
theorem fetchLoop_done (sha1 : Bytes → Bytes) (file : Bytes) (hf : file ≠ []) : ∀ (reads : List Nat) (k : Nat) (used : Bool) (out : List PyStr),
    fetchLoop sha1 file.length 0 file ((List.replicate k (List.replicate file.length (0 : UInt8))).flatten) used
      (List.replicate k (b64Encode (List.replicate file.length 0))) reads = .done out →
    ∃ j, k ≤ j ∧ out = List.replicate j (b64Encode (List.replicate file.length 0)) ++ [b64Encode file] ++
      [lowerHex (sha1 ((List.replicate j (List.replicate file.length (0 : UInt8))).flatten ++ file))] := by
  have hpos : 0 < file.length := List.length_pos_iff.2 hf
  intro reads
  induction reads with
  | nil =>
    intro k used out h
    unfold fetchLoop fetchStop at h
    rw [if_neg (by omega), if_neg (by omega)] at h
    simp at h
  | cons r reads ih =>
    intro k used out h
    unfold fetchLoop at h
    have h0 : ∀ hashed output, fetchStop sha1 file.length 0 hashed used output = none := by
      intro hashed output
      unfold fetchStop
      rw [if_neg (by omega), if_neg (by omega)]
    rw [h0] at h
    dsimp only at h
    by_cases hz : r = 0
    · subst hz
      simp only [Nat.zero_min, Nat.sub_zero, Nat.add_zero, List.drop_zero, readInto, List.take_zero, List.nil_append, netToBase64] at h
      have e1 : (List.replicate k (List.replicate file.length (0 : UInt8))).flatten ++ List.replicate file.length 0 =
          (List.replicate (k + 1) (List.replicate file.length (0 : UInt8))).flatten := by
        rw [List.replicate_succ', List.flatten_append]; simp
      have e2 : List.replicate k (b64Encode (List.replicate file.length 0)) ++ [b64Encode (List.replicate file.length 0)] =
          List.replicate (k + 1) (b64Encode (List.replicate file.length 0)) := (List.replicate_succ').symm
      rw [e1, e2] at h
      obtain ⟨j, hj, ho⟩ := ih (k + 1) true out h
      exact ⟨j, by omega, ho⟩
    · by_cases hfull : file.length ≤ r
      · have hmin : min r (min file.length file.length) = file.length := by omega
        simp only [hmin, Nat.sub_self, Nat.zero_add, List.drop_length, readInto, List.take_length, List.replicate_zero, List.append_nil,
          netToBase64] at h
        have h1 : ∀ hashed output, fetchStop sha1 0 file.length hashed true output = some (.done (output ++ [lowerHex (sha1 hashed)])) := by
          intro hashed output; simp [fetchStop, netHash_eq]
        refine ⟨k, Nat.le_refl _, ?_⟩
        cases reads <;> simp only [fetchLoop, h1, Option.getD_some, Fetched.done.injEq] at h <;> exact h.symm
      · exfalso
        have hmin : min r (min file.length file.length) = r := by omega
        rw [hmin] at h
        have h1 : ∀ hashed output, fetchStop sha1 (file.length - r) (0 + r) hashed true output = some (.failed output) := by
          intro hashed output
          unfold fetchStop
          rw [if_neg (by omega), if_pos (by omega)]
        cases reads <;> simp only [fetchLoop, h1, Option.getD_some] at h <;> simp at h

/-- C58: whatever the server's reads give, a fetch that succeeds has stored the file, if writing is complete, unless the SHA1 of zeros is
the SHA1 of more zeros and the file. -/
theorem C58_exact (sha1 : Bytes → Bytes) (limit : Nat) (file : Bytes) (reads : List Nat) (faults : FetchFaults) (fs fs' : Files)
    (hw : ∀ n, faults.written n = n) (hc : faults.copy = none) (hd : fs.dest = none)
    (h : fetch sha1 limit reads faults file fs = some (.ok (), fs')) : fs'.dest = some file ∨
    ∃ k, 0 < k ∧ sha1 (List.replicate file.length 0) = sha1 ((List.replicate k (List.replicate file.length (0 : UInt8))).flatten ++ file) := by
  unfold fetch at h
  cases hs : fetchScript sha1 limit file reads with
  | reading out => rw [hs] at h; simp at h
  | failed out => rw [hs] at h; simp [fetchLocal] at h
  | done out =>
    rw [hs] at h
    dsimp only at h
    have hf : file ≠ [] := by
      rintro rfl
      unfold fetchScript at hs
      simp only [List.length_nil, Nat.not_lt_zero, if_false] at hs
      cases reads <;> simp [fetchLoop, fetchStop] at hs
    have hlim : ¬ limit < file.length := by
      intro hlim
      unfold fetchScript at hs
      rw [if_pos hlim] at hs
      simp at hs
    unfold fetchScript at hs
    rw [if_neg hlim] at hs
    obtain ⟨j, _, hout⟩ := fetchLoop_done sha1 file hf reads 0 false out (by simpa using hs)
    have hh : (out.map OutObj.str).getLast? = some (.str (lowerHex (sha1 ((List.replicate j (List.replicate file.length (0 : UInt8))).flatten ++ file)))) := by
      rw [hout]; simp
    have hdest : fs'.dest ≠ fs.dest := by
      rw [hd]
      have hsome : ∀ x y : OutObj, ∀ f : Files, (fetchTry sha1 faults x y f).1 = .ok () → (fetchTry sha1 faults x y f).2.dest ≠ none := by
        intro x y f hok
        unfold fetchTry at hok ⊢
        cases hx : b64DecodeObj x with
        | error e => rw [hx] at hok; simp at hok
        | ok b =>
          rw [hx] at hok
          dsimp only at hok ⊢
          by_cases h1 : faults.writeFails = true
          · simp [h1] at hok
          · by_cases h2 : OutObj.str (hexDigest (sha1 b)) = y
            · simp [h1, h2, hc]
            · simp [h1, h2] at hok
      unfold fetchLocal at h
      simp only [Bool.false_eq_true, if_false, hh] at h
      cases hfst : (out.map OutObj.str).head? with
      | none => rw [hfst] at h; simp at h
      | some first =>
        rw [hfst] at h
        dsimp only at h
        by_cases hm : faults.mkstemp = true
        · simp [hm] at h
        · by_cases hcl : faults.close = true
          · simp [hm, hcl] at h
          · by_cases hrm : faults.remove = true
            · simp [hm, hcl, hrm] at h
            · simp only [hm, hcl, hrm, Bool.false_eq_true, if_false, Option.some.injEq, Prod.mk.injEq] at h
              rw [← h.2]
              exact hsome _ _ _ h.1
    have heq : fetchLocal sha1 faults false (out.map OutObj.str) fs = (.ok (), fs') := by simpa using h
    obtain ⟨first, last, bytes, h1, h2, h3, h4, h5⟩ := C57_bytes_partial sha1 faults false (out.map OutObj.str) fs hw hc (by rw [heq]; exact hdest)
    rw [heq] at h5
    rw [hh] at h2
    have hlast : last = lowerHex (sha1 ((List.replicate j (List.replicate file.length (0 : UInt8))).flatten ++ file)) := by
      simpa using h2.symm
    have hsha := lowerHex_inj (h4.symm.trans hlast)
    replace h3 := ((C105_string _).1 _).2 h3
    cases j with
    | zero =>
      left
      rw [hout] at h1
      have : first = b64Encode file := by simpa using h1.symm
      rw [this, b64DecodeStr_encode] at h3
      rw [h5, ← Except.ok.inj h3]
    | succ j =>
      right
      rw [hout] at h1
      have : first = b64Encode (List.replicate file.length 0) := by simpa [List.replicate_succ] using h1.symm
      rw [this, b64DecodeStr_encode] at h3
      exact ⟨j + 1, by omega, by rw [← Except.ok.inj h3] at hsha; exact hsha⟩

/-- C58 is false of the code: an empty file cannot be fetched. -/
theorem C58_empty_false (sha1 : Bytes → Bytes) (limit : Nat) (reads : List Nat) (faults : FetchFaults) (fs : Files) :
    fetch sha1 limit reads faults [] fs = some (.error .winRMError, fs) := by
  cases reads <;> simp [fetch, fetchScript, fetchLoop, fetchStop, fetchLocal]

/-- C58 is false of the code: a file cannot be fetched if the first read on the server gives some, but not all of it. -/
theorem C58_read_false (sha1 : Bytes → Bytes) (limit : Nat) (file : Bytes) (r : Nat) (reads : List Nat) (faults : FetchFaults) (fs : Files)
    (h0 : 0 < r) (hr : r < file.length) : fetch sha1 limit (r :: reads) faults file fs = some (.error .winRMError, fs) := by
  have hs : ∃ out, fetchScript sha1 limit file (r :: reads) = .failed out := by
    unfold fetchScript
    by_cases hl : limit < file.length
    · exact ⟨[], by rw [if_pos hl]⟩
    · rw [if_neg hl]
      unfold fetchLoop
      have h1 : fetchStop sha1 file.length 0 [] false [] = none := by
        unfold fetchStop
        rw [if_neg (by omega), if_neg (by omega)]
      rw [h1]
      have hmin : min r (min file.length file.length) = r := by omega
      simp only [hmin]
      have h2 : ∀ hashed output, fetchStop sha1 (file.length - r) (0 + r) hashed true output = some (.failed output) := by
        intro hashed output
        unfold fetchStop
        rw [if_neg (by omega), if_pos (by omega)]
      cases reads <;> exact ⟨_, by simp only [fetchLoop, h2, Option.getD_some]; rfl⟩
  obtain ⟨out, hs⟩ := hs
  unfold fetch
  rw [hs]
  rfl

example : fetch id 100 [5] {} [1, 2, 3] ⟨none, none⟩ = some (.ok (), ⟨none, some [1, 2, 3]⟩) := by decide +kernel

/-- Reads of nothing before the file: the hash does not match. -/
example : fetch id 100 [0, 5] {} [1, 2, 3] ⟨none, none⟩ = some (.error .winRMError, ⟨none, none⟩) := by decide +kernel

/-! ### C67 -/

/-- The commands for an entry of the environment. -/
def newItem (protocol : PyStr) (e : PyStr × PyStr) : Command :=
  { cmd := "New-Item".toList, version := protocol, isScript := some false, args := [(some "Path".toList, .str "env:".toList), (some "Name".toList, .str e.1), (some "Value".toList, .str e.2), (some "Force".toList, .bool true)] }

def outNull (protocol : PyStr) : Command :=
  { cmd := "Out-Null".toList, version := protocol, isScript := some false, endOfStatement := true }

def envCommands (protocol : PyStr) (e : PyStr × PyStr) : List Command := [newItem protocol e, outNull protocol]

/-- The commands for the script. -/
def invokeExpression (protocol script : PyStr) : Command :=
  { cmd := "Invoke-Expression".toList, version := protocol, isScript := some false, args := [(some "Command".toList, .str script)] }

def outString (protocol : PyStr) : Command :=
  { cmd := "Out-String".toList, version := protocol, isScript := some false, args := [(some "Stream".toList, .none)] }

theorem onLast_concat (f : Command → Command) (cs : List Command) (c : Command) : onLast f (cs ++ [c]) = (.ok (), cs ++ [f c]) := by
  simp [onLast]

theorem addCmdlet_ok (protocol cmd : PyStr) (cs : List Command) {a b : Bool} (h1 : versionEqualOrNewer protocol "2.2".toList = .ok a)
    (h2 : versionEqualOrNewer protocol "2.3".toList = .ok b) :
    addCmdlet protocol cmd false none cs = (.ok (), cs ++ [{ cmd, version := protocol, isScript := some false }]) := by
  unfold addCmdlet
  rw [h1, h2]

theorem andThen_ok (cs : List Command) (f : List Command → Edited) : Edited.andThen (.ok (), cs) f = f cs := rfl

theorem addParameter_append (name : Option PyStr) (v : ArgVal) (cs : List Command) (c : Command) :
    addParameter name v (cs ++ [c]) = (.ok (), cs ++ [{ c with args := c.args ++ [(name, v)] }]) := onLast_concat _ _ _

theorem addEnv_ok (protocol : PyStr) {a b : Bool} (h1 : versionEqualOrNewer protocol "2.2".toList = .ok a)
    (h2 : versionEqualOrNewer protocol "2.3".toList = .ok b) (e : PyStr × PyStr) (cs : List Command) :
    addEnv protocol e cs = (.ok (), cs ++ envCommands protocol e) := by
  unfold addEnv
  rw [addCmdlet_ok protocol _ _ h1 h2, andThen_ok, addParameter_append, andThen_ok, addParameter_append, andThen_ok, addParameter_append,
    andThen_ok, addParameter_append, andThen_ok, addCmdlet_ok protocol _ _ h1 h2, andThen_ok, addStatement, onLast_concat, List.append_assoc]
  rfl

theorem addEnvs_ok (protocol : PyStr) {a b : Bool} (h1 : versionEqualOrNewer protocol "2.2".toList = .ok a)
    (h2 : versionEqualOrNewer protocol "2.3".toList = .ok b) : ∀ (env : List (PyStr × PyStr)) (cs : List Command),
    addEnvs protocol env cs = (.ok (), cs ++ env.flatMap (envCommands protocol)) := by
  intro env
  induction env with
  | nil => intro cs; simp [addEnvs]
  | cons e env ih =>
    intro cs
    unfold addEnvs
    rw [addEnv_ok protocol h1 h2, andThen_ok, ih, List.flatMap_cons, List.append_assoc]

theorem statementLoop_first (cur : List α) : ∀ (cs : List (Cmd α)) (c : Cmd α) (rest : List (Cmd α)), (∀ x ∈ cs, x.ends = false) → c.ends = true →
    statementLoop cur (cs ++ c :: rest) = (cur ++ cs.map Cmd.body ++ [c.body]) :: statementLoop [] rest := by
  intro cs
  induction cs generalizing cur with
  | nil => intro c rest _ hc; simp [statementLoop, hc]
  | cons x cs ih =>
    intro c rest h hc
    rw [List.cons_append, statementLoop, if_neg (by rw [h x List.mem_cons_self]; simp), ih (cur ++ [x.body]) c rest (fun y hy => h y (List.mem_cons_of_mem _ hy)) hc]
    rw [List.map_cons]
    simp only [List.append_assoc, List.cons_append, List.nil_append]

theorem markLast_concat : ∀ (cs : List (Cmd α)) (c : Cmd α), markLast (cs ++ [c]) = some (cs ++ [{ c with ends := true }]) := by
  intro cs
  induction cs with
  | nil => intro c; rfl
  | cons x cs ih =>
    intro c
    cases cs with
    | nil => rfl
    | cons y cs =>
      have := ih c
      rw [List.cons_append] at this
      rw [List.cons_append, List.cons_append]
      unfold markLast
      rw [this]; rfl

/-- C67: for every environment and script, the pipeline of `execute_ps` has one statement for every entry in order, which sets the key
to the value, and then one that runs the script. -/
theorem C67_statements (protocol script : PyStr) (env : List (PyStr × PyStr)) {a b : Bool}
    (h1 : versionEqualOrNewer protocol "2.2".toList = .ok a) (h2 : versionEqualOrNewer protocol "2.3".toList = .ok b) :
    ∃ cs stmts, executePs protocol script env = (.ok (), cs) ∧ getStatements (cs.map asCmd) = .ok stmts ∧
      stmts.map (·.map commandLine) = env.map (fun e => setsEnv e.1 e.2) ++ [runsScript script] := by
  have hex : executePs protocol script env = (.ok (), env.flatMap (envCommands protocol) ++ [invokeExpression protocol script, outString protocol]) := by
    unfold executePs
    rw [addEnvs_ok protocol h1 h2, andThen_ok, addCmdlet_ok protocol _ _ h1 h2, andThen_ok, addParameter_append, andThen_ok,
      addCmdlet_ok protocol _ _ h1 h2, andThen_ok, addParameter_append, List.append_assoc, List.nil_append]
    rfl
  have hloop : ∀ (env : List (PyStr × PyStr)) (rest : List (Cmd Command)),
      statementLoop [] ((env.flatMap (envCommands protocol)).map asCmd ++ rest) = env.map (envCommands protocol) ++ statementLoop [] rest := by
    intro env
    induction env with
    | nil => intro rest; rfl
    | cons e env ih =>
      intro rest
      rw [List.flatMap_cons, List.map_append, List.append_assoc]
      have := statementLoop_first [] [asCmd (newItem protocol e)] (asCmd (outNull protocol))
        ((env.flatMap (envCommands protocol)).map asCmd ++ rest) (fun x hx => by rw [List.mem_singleton.1 hx]; rfl) rfl
      have hl : (envCommands protocol e).map asCmd ++ ((env.flatMap (envCommands protocol)).map asCmd ++ rest) =
          [asCmd (newItem protocol e)] ++ asCmd (outNull protocol) :: ((env.flatMap (envCommands protocol)).map asCmd ++ rest) := rfl
      rw [hl, this, ih]
      rfl
  refine ⟨_, env.map (envCommands protocol) ++ [[invokeExpression protocol script, outString protocol]], hex, ?_, ?_⟩
  · unfold getStatements
    rw [List.map_append]
    have := markLast_concat ((env.flatMap (envCommands protocol)).map asCmd ++ [asCmd (invokeExpression protocol script)]) (asCmd (outString protocol))
    rw [List.append_assoc] at this
    rw [show [invokeExpression protocol script, outString protocol].map asCmd =
       [asCmd (invokeExpression protocol script)] ++ [asCmd (outString protocol)] from rfl, this]
    dsimp only
    rw [List.append_assoc, hloop]
    rfl
  · simp only [List.map_append, List.map_map, List.map_cons, List.map_nil]
    rfl

example : versionEqualOrNewer "2.3".toList "2.2".toList = .ok true ∧ versionEqualOrNewer "2.3".toList "2.3".toList = .ok true := by decide +kernel

example : ((executePs "2.3".toList "x".toList [("A".toList, "1".toList)]).2.map commandLine).length = 4 := by decide +kernel

end Verif
