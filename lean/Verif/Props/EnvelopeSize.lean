import Verif.Lemmas.Envelope
import Verif.Lemmas.FragmentUse
import Verif.Lemmas.Numbers
import Verif.Props.Session
/-
C74: requests fit the envelope size that they announce.
-/
namespace Verif

/-- The arithmetic of the limit: `over` bytes above the limit are allowed for. -/
theorem fits_envelope {sk header n over : Nat} {m : Int} (h : (n : Int) ≤ calcEnvelopeSize sk m + over) (h0 : 0 ≤ calcEnvelopeSize sk m)
    (hh : header + 4 * ((over + 2) / 3) ≤ sk + 254) : (header : Int) + (4 * ((n + 2) / 3) : Nat) ≤ m := by
  unfold calcEnvelopeSize at h h0
  by_cases hs : 0 ≤ (m - ((sk : Int) + 256)) * 3
  · rw [Int.tdiv_eq_ediv_of_nonneg hs] at h h0
    omega
  · have hneg : (m - ((sk : Int) + 256)) * 3 = -((((sk : Int) + 256) - m) * 3) := by omega
    rw [hneg, Int.neg_tdiv, Int.tdiv_eq_ediv_of_nonneg (by omega)] at h h0
    have := Nat.div_le_div_right (c := 3) (show n + 2 ≤ over + 2 by omega)
    omega

/-- The resource of a pool: powershell.py 148. -/
def poolUri (configuration : PyStr) : PyStr := "http://schemas.microsoft.com/powershell/".toList ++ configuration

theorem poolUri_size (configuration : PyStr) : textSize (escapeText (poolUri configuration)) = 40 + textSize (escapeText configuration) := by
  have h : Plain "http://schemas.microsoft.com/powershell/".toList := by decide +kernel
  have e : escapeText (poolUri configuration) = "http://schemas.microsoft.com/powershell/".toList ++ escapeText configuration :=
    (escapeText_append _ _).trans (congrArg (· ++ _) (plain_escape h))
  have k : textSize "http://schemas.microsoft.com/powershell/".toList = 40 := by decide +kernel
  rw [e, textSize_append, k]

theorem poolUri_ne (configuration : PyStr) : poolUri configuration ≠ [] := List.append_ne_nil_of_left_ne_nil (by decide) _

theorem size_b64 (b : Bytes) : textSize (escapeText (b64Encode b)) = 4 * ((b.length + 2) / 3) := by
  rw [plain_escape (plain_b64 b), plain_size (plain_b64 b), b64Encode_length]

/-- The size of an element with base64 text. -/
def leafSize (tag : PyStr) (attrs : List (PyStr × PyStr)) (b : Bytes) : Nat := textSize (Elem.print (.node tag attrs (some (b64Encode b)) []))

theorem b64Encode_ne {b : Bytes} (h : b ≠ []) : b64Encode b ≠ [] := by
  intro e
  have := b64Encode_length b
  have := List.length_pos_iff.mpr h
  rw [e, List.length_nil] at *
  omega

theorem leafSize_eq (tag : PyStr) (attrs : List (PyStr × PyStr)) {b : Bytes} (h : b ≠ []) :
    leafSize tag attrs b = 2 * textSize tag + 5 + textSize (printAttrs attrs) + 4 * ((b.length + 2) / 3) := by
  rw [leafSize, size_leaf _ _ _ (b64Encode_ne h), size_b64]

theorem leafSize_le (tag : PyStr) (attrs : List (PyStr × PyStr)) (b : Bytes) :
    leafSize tag attrs b ≤ 2 * textSize tag + 5 + textSize (printAttrs attrs) + 4 * ((b.length + 2) / 3) := by
  by_cases h : b = []
  · subst h
    have e : b64Encode [] = [] := rfl
    rw [leafSize, e, Elem.print, if_neg (by decide)]
    simp only [textSize_cons, textSize_append]
    have h1 : ('<' : Char).utf8Size = 1 := rfl
    have h2 : textSize " />".toList = 3 := by decide
    omega
  · exact Nat.le_of_eq (leafSize_eq tag attrs h)

/-! ### The requests that carry blocks -/

/-- The element with the block in a send request. -/
def streamAttrs (stream : PyStr) (cid : Option PyStr) : List (PyStr × PyStr) := ("Name".toList, stream) :: optAttr "CommandId" cid

/-- A send request of a pool. -/
def sendRequest' (uri id stream : PyStr) (b : Bytes) (cid : Option PyStr) : ShellReq :=
  .send (some uri) (some [("ShellId".toList, id)]) stream (b64Encode b) cid none

theorem size_send (c : Conn) (u : UUID) (uri id stream : PyStr) (b : Bytes) (cid : Option PyStr) (hu : uri ≠ []) (hid : id ≠ []) :
    textSize (printDocument ((sendRequest' uri id stream b cid).envelope c u.toStr)) =
      932 + headerRest c + textSize (escapeText (pyStrInt c.maxEnvelope)) + textSize (escapeText uri) + textSize (escapeText id) +
        leafSize "rsp:Stream".toList (streamAttrs stream cid) b := by
  have hd : textSize (printAttrs (declarations ((sendRequest' uri id stream b cid).envelope c u.toStr))) = 305 := by
    cases cid with
    | none =>
      have he : ((sendRequest' uri id stream b none).envelope c u.toStr).prefixes =
        ((sendRequest' [] [] [] [] none).envelope ⟨[], [], [], [], 0, 0⟩ []).prefixes := rfl
      rw [declarations_congr he]
      decide +kernel
    | some cid =>
      have he : ((sendRequest' uri id stream b (some cid)).envelope c u.toStr).prefixes =
        ((sendRequest' [] [] [] [] (some [])).envelope ⟨[], [], [], [], 0, 0⟩ []).prefixes := rfl
      rw [declarations_congr he]
      decide +kernel
  rw [sendRequest', ShellReq.envelope, Verif.envelope] at hd ⊢
  rw [size_document _ _ hd, size_header _ _ _ _ hu, size_selector _ hid]
  have hb : textSize (Elem.print (.node "s:Body".toList [] none
      (ShellReq.send (some uri) (some [("ShellId".toList, id)]) stream (b64Encode b) cid none).body.toList)) =
      38 + leafSize "rsp:Stream".toList (streamAttrs stream cid) b := by
    show textSize (Elem.print (.node "s:Body".toList [] none [.node "rsp:Send".toList [] none [.node "rsp:Stream".toList
        (streamAttrs stream cid) (some (b64Encode b)) []]])) = _
    rw [size_print _ _ _ _ rfl, size_kids, size_print _ _ _ _ rfl, size_kids, ← leafSize]
    have k0 : textSize (printKids []) = 0 := rfl
    have k1 : textSize (printAttrs []) = 0 := rfl
    have k2 : textSize (escapeText ((none : Option PyStr).getD [])) = 0 := rfl
    have k3 : textSize "s:Body".toList = 6 := by decide
    have k4 : textSize "rsp:Send".toList = 8 := by decide
    rw [k0, k1, k2, k3, k4]
    omega
  have k1 : WSManAction.send.uri.length = 60 := by decide +kernel
  have k4 : textSize (printKids ((none : Option (List WSManValue)).map optionSet).toList) = 0 := rfl
  rw [k1, k4, hb]
  omega

/-- The command request of a pipeline: powershell.py 1527-1528. -/
def commandRequest (uri id : PyStr) (b : Bytes) (cid : PyStr) : ShellReq :=
  .command (some uri) (some [("ShellId".toList, id)]) [] [b64Encode b] false (some cid)

theorem size_command (c : Conn) (u : UUID) (uri id : PyStr) (b : Bytes) (cid : PyStr) (hu : uri ≠ []) (hid : id ≠ []) :
    textSize (printDocument ((commandRequest uri id b cid).envelope c u.toStr)) =
      1098 + headerRest c + textSize (escapeText (pyStrInt c.maxEnvelope)) + textSize (escapeText uri) + textSize (escapeText id) +
        textSize (escapeAttr cid) + leafSize "rsp:Arguments".toList [] b := by
  have hd : textSize (printAttrs (declarations ((commandRequest uri id b cid).envelope c u.toStr))) = 305 := by
    have he : ((commandRequest uri id b cid).envelope c u.toStr).prefixes =
      ((commandRequest [] [] [] []).envelope ⟨[], [], [], [], 0, 0⟩ []).prefixes := rfl
    rw [declarations_congr he]
    decide +kernel
  rw [commandRequest, ShellReq.envelope, Verif.envelope] at hd ⊢
  rw [size_document _ _ hd, size_header _ _ _ _ hu, size_selector _ hid]
  have hb : textSize (Elem.print (.node "s:Body".toList [] none
      (ShellReq.command (some uri) (some [("ShellId".toList, id)]) [] [b64Encode b] false (some cid)).body.toList)) =
      80 + textSize (escapeAttr cid) + leafSize "rsp:Arguments".toList [] b := by
    show textSize (Elem.print (.node "s:Body".toList [] none [.node "rsp:CommandLine".toList [("CommandId".toList, cid)] none
      [.node "rsp:Command".toList [] (some []) [], .node "rsp:Arguments".toList [] (some (b64Encode b)) []]])) = _
    rw [size_print _ _ _ _ rfl, size_kids, size_print _ _ _ _ rfl, size_kids, size_kids, ← leafSize, size_attrs, size_attr]
    have k0 : textSize (printKids []) = 0 := rfl
    have k1 : textSize (printAttrs []) = 0 := rfl
    have k2 : textSize (escapeText ((none : Option PyStr).getD [])) = 0 := rfl
    have k3 : textSize "s:Body".toList = 6 := by decide
    have k4 : textSize "rsp:CommandLine".toList = 15 := by decide
    have k5 : textSize (Elem.print (.node "rsp:Command".toList [] (some []) [])) = 15 := by decide +kernel
    have k6 : textSize "CommandId".toList = 9 := by decide
    rw [k0, k1, k2, k3, k4, k5, k6]
    omega
  have k1 : WSManAction.command.uri.length = 63 := by decide +kernel
  have k4 : textSize (printKids ((some [⟨"WINRS_SKIP_CMD_SHELL".toList, pyStrBool false, []⟩] : Option (List WSManValue)).map optionSet).toList) = 121 := by
    decide +kernel
  rw [k1, k4, hb]
  omega

/-- The element with the block in a create request. -/
def creationAttrs : List (PyStr × PyStr) := [("xmlns".toList, "http://schemas.microsoft.com/powershell".toList)]

/-- What an idle timeout adds to a create request. -/
def idleExtra : Option PyStr → Nat
  | none => 0
  | some t => 38 + textSize (escapeText t)

/-- What the two optional settings add to a create request. -/
def createExtra (noProfile : Bool) (idle : Option PyStr) : Nat :=
  (if noProfile then 74 else 0) + idleExtra idle

theorem create_declarations (c : Conn) (u : UUID) (configuration id : PyStr) (noProfile : Bool) (idle : Option PyStr) (b : Bytes) :
    textSize (printAttrs (declarations (poolCreateEnvelope c u.toStr (poolShell configuration id noProfile idle) b))) = 305 := by
  cases noProfile <;> cases idle
  · have he : (poolCreateEnvelope c u.toStr (poolShell configuration id false none) b).prefixes =
      (poolCreateEnvelope ⟨[], [], [], [], 0, 0⟩ [] (poolShell [] [] false none) []).prefixes := rfl
    rw [declarations_congr he]
    decide +kernel
  · rename_i t
    have he : (poolCreateEnvelope c u.toStr (poolShell configuration id false (some t)) b).prefixes =
      (poolCreateEnvelope ⟨[], [], [], [], 0, 0⟩ [] (poolShell [] [] false (some [])) []).prefixes := rfl
    rw [declarations_congr he]
    decide +kernel
  · have he : (poolCreateEnvelope c u.toStr (poolShell configuration id true none) b).prefixes =
      (poolCreateEnvelope ⟨[], [], [], [], 0, 0⟩ [] (poolShell [] [] true none) []).prefixes := rfl
    rw [declarations_congr he]
    decide +kernel
  · rename_i t
    have he : (poolCreateEnvelope c u.toStr (poolShell configuration id true (some t)) b).prefixes =
      (poolCreateEnvelope ⟨[], [], [], [], 0, 0⟩ [] (poolShell [] [] true (some [])) []).prefixes := rfl
    rw [declarations_congr he]
    decide +kernel

/-- The options of a create request of a pool. -/
def createValues (s : WinRS) : List WSManValue :=
  ⟨"protocolversion".toList, protocolVersionText, [("MustComply".toList, "true".toList)]⟩ :: createOptions s

theorem size_createValues (configuration id : PyStr) (noProfile : Bool) (idle : Option PyStr) :
    textSize (printKids ((some (createValues (poolShell configuration id noProfile idle)) : Option (List WSManValue)).map optionSet).toList) =
      132 + (if noProfile then 74 else 0) := by
  cases noProfile
  · show textSize (printKids [optionSet [⟨"protocolversion".toList, protocolVersionText, [("MustComply".toList, "true".toList)]⟩]]) = 132
    decide +kernel
  · show textSize (printKids [optionSet [⟨"protocolversion".toList, protocolVersionText, [("MustComply".toList, "true".toList)]⟩,
      ⟨"WINRS_NOPROFILE".toList, "TRUE".toList, [("MustComply".toList, "true".toList)]⟩]]) = 206
    decide +kernel

theorem size_body (e : Elem) : textSize (Elem.print (.node "s:Body".toList [] none (some e).toList)) = 17 + textSize e.print := by
  show textSize (Elem.print (.node "s:Body".toList [] none [e])) = _
  rw [size_print _ _ _ _ rfl, size_kids]
  have k0 : textSize (printKids []) = 0 := rfl
  have k1 : textSize (printAttrs []) = 0 := rfl
  have k2 : textSize (escapeText ((none : Option PyStr).getD [])) = 0 := rfl
  have k3 : textSize "s:Body".toList = 6 := by decide
  rw [k0, k1, k2, k3]
  omega

theorem size_idle (idle : Option PyStr) : textSize (printKids (optElem "rsp:IdleTimeOut" (idle.map seconds))) = idleExtra idle := by
  cases idle with
  | none => rfl
  | some t =>
    show textSize (printKids [.node "rsp:IdleTimeOut".toList [] (some (seconds t)) []]) = 38 + textSize (escapeText t)
    rw [size_kids, size_leaf _ _ _ (by simp [seconds]), seconds, escapeText_append, escapeText_append, textSize_append, textSize_append]
    have k0 : textSize (printKids []) = 0 := rfl
    have k1 : textSize (printAttrs []) = 0 := rfl
    have a1 : textSize "rsp:IdleTimeOut".toList = 15 := by decide
    have a2 : textSize (escapeText "PT".toList) = 2 := by decide
    have a3 : textSize (escapeText "S".toList) = 1 := by decide
    rw [a1, a2, a3, k0, k1]
    omega

theorem createBody_pool (configuration id : PyStr) (noProfile : Bool) (idle : Option PyStr) :
    createBody (poolShell configuration id noProfile idle) = .node "rsp:Shell".toList [("ShellId".toList, id)] none
      (textElem "rsp:InputStreams" (some "stdin pr".toList) :: textElem "rsp:OutputStreams" (some "stdout".toList) ::
        optElem "rsp:IdleTimeOut" (idle.map seconds)) := by
  simp only [createBody, poolShell, optAttr, optElem, environmentElem, Option.map_none, List.append_nil, List.cons_append, List.nil_append]

theorem size_shell (configuration id : PyStr) (noProfile : Bool) (idle : Option PyStr) (b : Bytes) :
    textSize (Elem.print (.node "rsp:Shell".toList (createBody (poolShell configuration id noProfile idle)).attrs none
      ((createBody (poolShell configuration id noProfile idle)).kids ++ [.node "creationXml".toList creationAttrs (some (b64Encode b)) []]))) =
      124 + textSize (escapeAttr id) + idleExtra idle + leafSize "creationXml".toList creationAttrs b := by
  have hc : ∀ (l : List Elem) (x : Elem), hasContent none (l ++ [x]) = true := by
    intro l x; simp [hasContent]
  rw [createBody_pool, Elem.attrs, Elem.kids]
  rw [size_print _ _ _ _ (hc _ _), printKids_append, textSize_append, size_kids, size_kids, size_kids, ← leafSize, size_attrs, size_attr, size_idle]
  have k0 : textSize (printKids []) = 0 := rfl
  have k1 : textSize (printAttrs []) = 0 := rfl
  have k2 : textSize (escapeText ((none : Option PyStr).getD [])) = 0 := rfl
  have k3 : textSize "rsp:Shell".toList = 9 := by decide
  have k4 : textSize "ShellId".toList = 7 := by decide
  have k5 : textSize (textElem "rsp:InputStreams" (some "stdin pr".toList)).print = 45 := by decide +kernel
  have k6 : textSize (textElem "rsp:OutputStreams" (some "stdout".toList)).print = 45 := by decide +kernel
  rw [k0, k1, k2, k3, k4, k5, k6]
  omega

theorem size_create (c : Conn) (u : UUID) (configuration id : PyStr) (noProfile : Bool) (idle : Option PyStr) (b : Bytes) :
    textSize (printDocument (poolCreateEnvelope c u.toStr (poolShell configuration id noProfile idle) b)) =
      1113 + headerRest c + textSize (escapeText (pyStrInt c.maxEnvelope)) + textSize (escapeText configuration) + textSize (escapeAttr id) +
        createExtra noProfile idle + leafSize "creationXml".toList creationAttrs b := by
  have hd := create_declarations c u configuration id noProfile idle b
  have hs := size_shell configuration id noProfile idle b
  have ho := size_createValues configuration id noProfile idle
  have hr : (poolShell configuration id noProfile idle).resourceUri = some (poolUri configuration) := rfl
  have hh := size_header c u .create (poolUri configuration) (poolUri_ne configuration)
    (some (createValues (poolShell configuration id noProfile idle))) none
  rw [poolUri_size, ho] at hh
  have k1 : WSManAction.create.uri.length = 53 := by decide +kernel
  have k4 : textSize (printKids ((none : Selectors).map selectorSet).toList) = 0 := rfl
  rw [k1, k4] at hh
  rw [poolCreateEnvelope, Verif.envelope, ← createValues, ← creationAttrs, hr] at hd ⊢
  generalize poolShell configuration id noProfile idle = s at *
  rw [size_document _ _ hd, hh, size_body, hs]
  unfold createExtra
  omega

theorem int_size (n : Int) : textSize (escapeText (pyStrInt n)) = (pyStrInt n).length := by
  rw [plain_escape (plain_int n), plain_size (plain_int n)]

theorem headerRest_max (c : Conn) (m : Int) : headerRest { c with maxEnvelope := m } = headerRest c := rfl

/-- The size of what goes over the wire. -/
def wireSize (e : Elem) : Int := (utf8 (printDocument e)).length

/-- The bytes that a text takes in an XML text, those of an attribute. -/
def xmlSize (t : PyStr) : Nat := (utf8 (escapeText t)).length
def attrSize (t : PyStr) : Nat := (utf8 (escapeAttr t)).length

/-- C74, partial: a send request of a pool with a block within the payload limit, even with the 21 bytes that blocks may have
above it (C08), fits the envelope size that it announces: for every connection, limit `m` set on it (`update_max_payload_size`
calculates with the old limit in the header), stream name of up to 5 bytes, ids of up to 36 bytes (those of uuids).
Missing: configuration names of more than 217 bytes, see `C74_configuration_false`. -/
theorem C74_send_partial (c : Conn) (m : Int) (u v : UUID) (configuration id stream : PyStr) (cid : Option PyStr) (b : Bytes)
    (hid : id ≠ []) (hids : xmlSize id ≤ 36) (hst : attrSize stream ≤ 5) (hcid : ∀ x ∈ cid, attrSize x ≤ 36)
    (hcfg : xmlSize configuration + (pyStrInt m).length ≤ 217 + (pyStrInt c.maxEnvelope).length)
    (hpos : 0 ≤ payloadSize c u.toStr m) (hb : (b.length : Int) ≤ payloadSize c u.toStr m + 21) :
    wireSize ((ShellReq.send (some (poolUri configuration)) (some [("ShellId".toList, id)]) stream (b64Encode b) cid none).envelope
      { c with maxEnvelope := m } v.toStr) ≤ m := by
  unfold xmlSize attrSize at *
  rw [utf8_length] at *
  have hs := size_send { c with maxEnvelope := m } v (poolUri configuration) id stream b cid (poolUri_ne _) hid
  rw [headerRest_max, poolUri_size, int_size] at hs
  have hl := leafSize_le "rsp:Stream".toList (streamAttrs stream cid) b
  have k1 : textSize "rsp:Stream".toList = 10 := by decide
  have k2 : textSize (printAttrs (streamAttrs stream cid)) ≤ 62 := by
    have n1 : textSize "Name".toList = 4 := by decide
    have n2 : textSize "CommandId".toList = 9 := by decide
    have n3 : textSize (printAttrs []) = 0 := rfl
    cases cid with
    | none =>
      rw [streamAttrs, size_attrs, size_attr, optAttr, n1, n3]
      omega
    | some x =>
      have := hcid x rfl
      rw [utf8_length] at this
      rw [streamAttrs, size_attrs, size_attr, optAttr, size_attrs, size_attr, n1, n2, n3]
      omega
  have hk := size_skeleton c u
  rw [int_size] at hk
  unfold payloadSize at hb hpos
  rw [utf8_length, hk] at hb hpos
  unfold wireSize
  rw [utf8_length, ← sendRequest', hs]
  generalize headerRest c = R at *
  have := fits_envelope (header := 957 + R + (pyStrInt m).length + (40 + textSize (escapeText configuration)) + textSize (escapeText id) +
    textSize (printAttrs (streamAttrs stream cid))) (over := 21) hb hpos (by omega)
  rw [k1] at hl
  have hmm : ({ c with maxEnvelope := m } : Conn).maxEnvelope = m := rfl
  rw [hmm]
  omega

/-- C74, partial: the same for the command request that carries the first block of a pipeline.
Missing: configuration names of more than 71 bytes. -/
theorem C74_command_partial (c : Conn) (m : Int) (u v : UUID) (configuration id cid : PyStr) (b : Bytes)
    (hid : id ≠ []) (hids : xmlSize id ≤ 36) (hcid : attrSize cid ≤ 36)
    (hcfg : xmlSize configuration + (pyStrInt m).length ≤ 71 + (pyStrInt c.maxEnvelope).length)
    (hpos : 0 ≤ payloadSize c u.toStr m) (hb : (b.length : Int) ≤ payloadSize c u.toStr m + 21) :
    wireSize ((ShellReq.command (some (poolUri configuration)) (some [("ShellId".toList, id)]) [] [b64Encode b] false (some cid)).envelope
      { c with maxEnvelope := m } v.toStr) ≤ m := by
  unfold xmlSize attrSize at *
  rw [utf8_length] at *
  have hs := size_command { c with maxEnvelope := m } v (poolUri configuration) id b cid (poolUri_ne _) hid
  rw [headerRest_max, poolUri_size, int_size] at hs
  have hl := leafSize_le "rsp:Arguments".toList [] b
  have k1 : textSize "rsp:Arguments".toList = 13 := by decide
  have k2 : textSize (printAttrs []) = 0 := rfl
  have hk := size_skeleton c u
  rw [int_size] at hk
  unfold payloadSize at hb hpos
  rw [utf8_length, hk] at hb hpos
  unfold wireSize
  rw [utf8_length, ← commandRequest, hs]
  generalize headerRest c = R at *
  have := fits_envelope (header := 1129 + R + (pyStrInt m).length + (40 + textSize (escapeText configuration)) + textSize (escapeText id) +
    textSize (escapeAttr cid)) (over := 21) hb hpos (by omega)
  rw [k1, k2] at hl
  have hmm : ({ c with maxEnvelope := m } : Conn).maxEnvelope = m := rfl
  rw [hmm]
  omega

theorem creationAttrs_size : textSize (printAttrs creationAttrs) = 48 := by decide +kernel

/-- C74, partial: the create request of a pool with the first block.
Missing: configuration names of more than 116 bytes, less 74 with `no_profile` and less 38 and the digits with an idle timeout. -/
theorem C74_create_partial (c : Conn) (u v : UUID) (configuration id : PyStr) (noProfile : Bool) (idle : Option PyStr) (b : Bytes)
    (hids : attrSize id ≤ 36)
    (hcfg : xmlSize configuration + (if noProfile then 74 else 0) + (idle.elim 0 fun t => 38 + xmlSize t) ≤ 116)
    (hpos : 0 ≤ payloadSize c u.toStr c.maxEnvelope) (hb : (b.length : Int) ≤ payloadSize c u.toStr c.maxEnvelope) :
    wireSize (poolCreateEnvelope c v.toStr (poolShell configuration id noProfile idle) b) ≤ c.maxEnvelope := by
  unfold xmlSize attrSize at *
  rw [utf8_length] at *
  have hs := size_create c v configuration id noProfile idle b
  rw [int_size] at hs
  have hl := leafSize_le "creationXml".toList creationAttrs b
  have k1 : textSize "creationXml".toList = 11 := by decide
  have hx : createExtra noProfile idle = (if noProfile then 74 else 0) + (idle.elim 0 fun t => 38 + (utf8 (escapeText t)).length) := by
    unfold createExtra
    cases idle with
    | none => rfl
    | some t => simp only [idleExtra, Option.elim, utf8_length]
  have hk := size_skeleton c u
  rw [int_size] at hk
  unfold payloadSize at hb hpos
  rw [utf8_length, hk] at hb hpos
  unfold wireSize
  rw [utf8_length, hs]
  generalize headerRest c = R at *
  have := fits_envelope (header := 1188 + R + (pyStrInt c.maxEnvelope).length + textSize (escapeText configuration) + textSize (escapeAttr id) +
    createExtra noProfile idle) (over := 0) (by simpa using hb) hpos (by omega)
  rw [k1, creationAttrs_size] at hl
  omega

/-- A full block beside a header that is 258 bytes larger than the skeleton does not fit. -/
theorem exceeds_envelope {sk header n : Nat} {m : Int} (h : (n : Int) = calcEnvelopeSize sk m)
    (hh : sk + 258 ≤ header) : m < (header : Int) + (4 * ((n + 2) / 3) : Nat) := by
  unfold calcEnvelopeSize at h
  by_cases hs : 0 ≤ (m - ((sk : Int) + 256)) * 3
  · rw [Int.tdiv_eq_ediv_of_nonneg hs] at h
    omega
  · omega

/-- C74 is false in general: with `no_profile` and an idle timeout a create request with a full block is always too large, for
every connection and limit and every configuration name of at least that of the default one's length. -/
theorem C74_create_false (c : Conn) (u v : UUID) (configuration id t : PyStr) (b : Bytes)
    (hids : attrSize id = 36) (hcfg : 20 ≤ xmlSize configuration) (hne : b ≠ [])
    (hb : (b.length : Int) = payloadSize c u.toStr c.maxEnvelope) :
    c.maxEnvelope < wireSize (poolCreateEnvelope c v.toStr (poolShell configuration id true (some t)) b) := by
  unfold xmlSize attrSize at *
  rw [utf8_length] at *
  have hs := size_create c v configuration id true (some t) b
  rw [int_size] at hs
  have hl := leafSize_eq "creationXml".toList creationAttrs hne
  have k1 : textSize "creationXml".toList = 11 := by decide
  have hx : createExtra true (some t) = 74 + (38 + textSize (escapeText t)) := rfl
  have hk := size_skeleton c u
  rw [int_size] at hk
  unfold payloadSize at hb
  rw [utf8_length, hk] at hb
  unfold wireSize
  rw [utf8_length, hs]
  generalize headerRest c = R at *
  have := exceeds_envelope (header := 1188 + R + (pyStrInt c.maxEnvelope).length + textSize (escapeText configuration) + textSize (escapeAttr id) +
    createExtra true (some t)) hb (by omega)
  rw [k1, creationAttrs_size] at hl
  omega

/-- C74 is false in general: with a configuration name of 249 bytes or more a send request with a full block does not fit. -/
theorem C74_configuration_false (c : Conn) (u v : UUID) (configuration id cid : PyStr) (b : Bytes)
    (hid : id ≠ []) (hids : xmlSize id = 36) (hcid : attrSize cid = 36) (hcfg : 249 ≤ xmlSize configuration) (hne : b ≠ [])
    (hb : (b.length : Int) = payloadSize c u.toStr c.maxEnvelope) :
    c.maxEnvelope < wireSize ((ShellReq.send (some (poolUri configuration)) (some [("ShellId".toList, id)]) "stdin".toList (b64Encode b)
      (some cid) none).envelope c v.toStr) := by
  unfold xmlSize attrSize at *
  rw [utf8_length] at *
  have hs := size_send c v (poolUri configuration) id "stdin".toList b (some cid) (poolUri_ne _) hid
  rw [poolUri_size, int_size] at hs
  have hl := leafSize_eq "rsp:Stream".toList (streamAttrs "stdin".toList (some cid)) hne
  have k1 : textSize "rsp:Stream".toList = 10 := by decide
  have k2 : textSize (printAttrs (streamAttrs "stdin".toList (some cid))) = 62 := by
    have n1 : textSize "Name".toList = 4 := by decide
    have n2 : textSize "CommandId".toList = 9 := by decide
    have n3 : textSize (printAttrs []) = 0 := rfl
    have n4 : textSize (escapeAttr "stdin".toList) = 5 := by decide
    rw [streamAttrs, size_attrs, size_attr, optAttr, size_attrs, size_attr, n1, n2, n3, n4]
    omega
  have hk := size_skeleton c u
  rw [int_size] at hk
  unfold payloadSize at hb
  rw [utf8_length, hk] at hb
  unfold wireSize
  rw [utf8_length, ← sendRequest', hs]
  generalize headerRest c = R at *
  have := exceeds_envelope (header := 957 + R + (pyStrInt c.maxEnvelope).length + (40 + textSize (escapeText configuration)) + textSize (escapeText id) +
    textSize (printAttrs (streamAttrs "stdin".toList (some cid)))) hb (by omega)
  rw [k1] at hl
  omega

/-- C74, partial: every block of every message that is sent after the capability exchange, whatever the server's version, fits
in a send request of the connection. Missing: as for `C74_send_partial`. -/
theorem C74_blocks_partial (c : Conn) (u v : UUID) (n : Nat) (version : PyStr) (c' : ConnSizes) (o' o'' : OutState) (ss : List Send)
    (bss : List (List Bytes)) (configuration id : PyStr) (cid : Option PyStr) (skeleton : Nat)
    (hsk : skeleton = (utf8 (printDocument (skeletonEnvelope c u.toStr))).length)
    (h : processSessionCapability skeleton (ConnSizes.init skeleton c.maxEnvelope)
      ⟨n, (OutState.init (ConnSizes.init skeleton c.maxEnvelope).maxPayload).maxSize⟩ version = .ok (c', o'))
    (hsize : 21 < c'.maxPayload) (hmsg : ∀ s ∈ ss, ∀ m ∈ s.messages, m ≠ []) (hs : sends o' ss = .ok (bss, o''))
    (hid : id ≠ []) (hids : xmlSize id ≤ 36) (hcid : ∀ x ∈ cid, attrSize x ≤ 36) (hcfg : xmlSize configuration ≤ 217) :
    ∀ bs ∈ bss, ∀ b ∈ bs,
      wireSize ((ShellReq.send (some (poolUri configuration)) (some [("ShellId".toList, id)]) "stdin".toList (b64Encode b) cid none).envelope
        { c with maxEnvelope := c'.maxEnvelope } v.toStr) ≤ c'.maxEnvelope := by
  intro bs hbs b hb
  have hov := C08_overrun_at_most_header_partial skeleton c.maxEnvelope n version c' o' o'' ss bss h hsize hmsg hs bs hbs b hb
  have hc : c'.maxPayload = payloadSize c u.toStr c'.maxEnvelope ∧ (pyStrInt c'.maxEnvelope).length = (pyStrInt c.maxEnvelope).length := by
    unfold payloadSize
    rw [← hsk]
    simp only [processSessionCapability, bind, Except.bind, pure, Except.pure] at h
    split at h
    · simp at h
    · split at h
      · rename_i hm
        simp only [Except.ok.injEq, Prod.mk.injEq] at h
        have e1 : c'.maxEnvelope = 512000 := by rw [← h.1, updateMaxPayloadSize]
        have e2 : c'.maxPayload = calcEnvelopeSize skeleton 512000 := by rw [← h.1, updateMaxPayloadSize]
        have k1 : (pyStrInt 512000).length = 6 := by decide +kernel
        have k2 : (pyStrInt 153600).length = 6 := by decide +kernel
        have e3 : c.maxEnvelope = 153600 := hm.2
        rw [e1, e2, e3, k1, k2]
        exact ⟨rfl, rfl⟩
      · simp only [Except.ok.injEq, Prod.mk.injEq] at h
        obtain ⟨rfl, -⟩ := h
        exact ⟨rfl, rfl⟩
  rw [hc.1] at hov hsize
  have hst : attrSize "stdin".toList ≤ 5 := by decide
  exact C74_send_partial c c'.maxEnvelope u v configuration id "stdin".toList cid b hid hids hst hcid (by omega) (by omega) hov

/-! ### Concrete cases -/

/-- A connection with the defaults of `WSMan`. -/
def sampleConn : Conn := { endpoint := "http://server:5985/wsman".toList, sessionId := emptyUuid }

theorem samplePayload : payloadSize sampleConn (UUID.toStr ⟨List.replicate 16 7, rfl⟩) 153600 = 113954 ∧
    payloadSize sampleConn (UUID.toStr ⟨List.replicate 16 7, rfl⟩) 512000 = 382754 := by
  decide +kernel

/-- The full block of the raised limit and the 21 bytes. -/
example : wireSize ((ShellReq.send (some (poolUri "Microsoft.PowerShell".toList)) (some [("ShellId".toList, emptyUuid)]) "stdin".toList
    (b64Encode (List.replicate 382775 1)) (some emptyUuid) none).envelope { sampleConn with maxEnvelope := 512000 }
      (UUID.toStr ⟨List.replicate 16 9, rfl⟩)) ≤ 512000 :=
  C74_send_partial sampleConn 512000 ⟨List.replicate 16 7, rfl⟩ ⟨List.replicate 16 9, rfl⟩ _ _ _ _ _ (by decide) (by decide +kernel)
    (by decide) (by decide +kernel) (by decide +kernel) (by rw [samplePayload.2]; decide) (by rw [samplePayload.2, List.length_replicate]; decide)

/-- A pool with the defaults opens within its limit, whatever the block. -/
example (b : Bytes) (hb : b.length ≤ 113954) : wireSize (poolCreateEnvelope sampleConn (UUID.toStr ⟨List.replicate 16 9, rfl⟩)
    (poolShell "Microsoft.PowerShell".toList emptyUuid true none) b) ≤ 153600 :=
  C74_create_partial sampleConn ⟨List.replicate 16 7, rfl⟩ ⟨List.replicate 16 9, rfl⟩ _ _ _ _ b (by decide +kernel) (by decide +kernel)
    (by rw [show sampleConn.maxEnvelope = 153600 from rfl, samplePayload.1]; decide)
    (by rw [show sampleConn.maxEnvelope = 153600 from rfl, samplePayload.1]; omega)

/-- With an idle timeout of a day it does not. -/
example : 153600 < wireSize (poolCreateEnvelope sampleConn (UUID.toStr ⟨List.replicate 16 9, rfl⟩)
    (poolShell "Microsoft.PowerShell".toList emptyUuid true (some "86400".toList)) (List.replicate 113954 1)) :=
  C74_create_false sampleConn ⟨List.replicate 16 7, rfl⟩ ⟨List.replicate 16 9, rfl⟩ _ _ _ _ (by decide +kernel) (by decide +kernel)
    (by rw [ne_eq, List.replicate_eq_nil_iff]; decide) (by rw [show sampleConn.maxEnvelope = 153600 from rfl, samplePayload.1, List.length_replicate]; rfl)

end Verif
