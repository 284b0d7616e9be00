import Verif.Model.ServerConfig
import Verif.Lemmas.Utils
import Verif.Props.WholeNumber
import Verif.Props.Enumerate
import Verif.Props.EnvelopeSize
/-
C89: the size limit that a connection learns from its server.
-/
namespace Verif

/-- The text of the limit in the configuration of a server: none if there is no such element or it is empty. -/
def limitOf (body : Elem) : Option PyStr :=
  ((elemsAt ["cfg:Config".toList, "cfg:MaxEnvelopeSizekb".toList] body).head?).bind Elem.text

/-- A request that asks for the configuration: a Get of the resource, without a body, options or selectors. -/
structure AsksConfig (r : WsReq) : Prop where
  named : ∀ c messageId, Headers (r.envelope c messageId) c messageId .get (some "http://schemas.microsoft.com/wbem/wsman/1/config".toList)
  bare : ∀ c messageId, elemsAt ["s:Body".toList] (r.envelope c messageId) = [.node "s:Body".toList [] none []]
  plain : ∀ c messageId, optionsOf (r.envelope c messageId) = [] ∧ selectorsOf (r.envelope c messageId) = []

/-- The send request of a pool. -/
def sendOf (c : Conn) (v : UUID) (configuration id stream : PyStr) (cid : Option PyStr) (b : Bytes) : Elem :=
  (ShellReq.send (some (poolUri configuration)) (some [("ShellId".toList, id)]) stream (b64Encode b) cid none).envelope c v.toStr

theorem asks_config : AsksConfig (configRequest "config".toList) where
  named c m := C75_headers c m .get (some "http://schemas.microsoft.com/wbem/wsman/1/config".toList) none none none none
  bare _ _ := rfl
  plain _ _ := ⟨rfl, rfl⟩

theorem update_none (s : Sized) (m : PyStr) (body : Elem) (rest : List (Except PyErr Elem)) (sent : List WsReq) :
    updateSizes s m none ⟨.ok body :: rest, sent⟩ =
      ((match configSize body with
        | .ok size => (.ok (), s.set m size)
        | .error e => (.raised e, s)), ⟨rest, sent ++ [configRequest "config".toList]⟩) := by
  have h : (wsInvoke (configRequest "config".toList) >>= fun body => wlift (configSize body)) ⟨.ok body :: rest, sent⟩ =
      wlift (configSize body) ⟨rest, sent ++ [configRequest "config".toList]⟩ := rfl
  simp only [updateSizes]
  rw [h]
  unfold wlift
  cases configSize body <;> rfl

theorem configSize_text {body : Elem} {t : PyStr} (h : limitOf body = some t) (hne : t ≠ []) :
    configSize body = (pyInt t).map (· * 1024) := by
  unfold limitOf at h
  unfold configSize
  rw [find_eq]
  cases he : (elemsAt ["cfg:Config".toList, "cfg:MaxEnvelopeSizekb".toList] body).head? with
  | none => rw [he] at h; cases h
  | some e =>
    rw [he] at h
    have h : e.text = some t := h
    simp only [h, Option.getD_some, if_neg hne, bind, Except.bind, pure, Except.pure, Except.map]

theorem configSize_absent {body : Elem} (h : limitOf body = none ∨ limitOf body = some []) : configSize body = .ok 0 := by
  have k : pyInt "0".toList = .ok 0 := by decide +kernel
  unfold limitOf at h
  unfold configSize
  rw [find_eq]
  cases he : (elemsAt ["cfg:Config".toList, "cfg:MaxEnvelopeSizekb".toList] body).head? with
  | none => simp only [if_true, k, bind, Except.bind, pure, Except.pure]; rfl
  | some e =>
    rw [he] at h
    have h : e.text = none ∨ e.text = some [] := h
    rcases h with h | h <;> (simp only [h, Option.getD_none, Option.getD_some, if_true, k, bind, Except.bind, pure, Except.pure]; rfl)

/-- A connection announces a limit, and every block within the payload size that goes with it, even with the 21 bytes that C08
allows, makes a send request within the limit: for stream names of up to 5 bytes, ids of up to 36 (those of uuids), configuration
names of up to 217 less the digits that the limit has more than the one before, `old`. -/
structure KeepsLimit (s : Sized) (old limit : Int) : Prop where
  announces : ∀ messageId action uri resource options selectors timeout,
    Headers (envelope s.conn messageId action uri resource options selectors timeout) { s.conn with maxEnvelope := limit } messageId action uri
  fits : ∀ (v : UUID) (configuration id stream : PyStr) (cid : Option PyStr) (b : Bytes), id ≠ [] → xmlSize id ≤ 36 → attrSize stream ≤ 5 →
    (∀ x ∈ cid, attrSize x ≤ 36) → xmlSize configuration + (pyStrInt limit).length ≤ 217 + (pyStrInt old).length →
    0 ≤ s.maxPayload → (b.length : Int) ≤ s.maxPayload + 21 → wireSize (sendOf s.conn v configuration id stream cid b) ≤ limit

theorem set_keeps (s : Sized) (u : UUID) (limit : Int) : KeepsLimit (s.set u.toStr limit) s.conn.maxEnvelope limit where
  announces := C75_headers _
  fits v configuration id stream cid b hid hids hst hcid hcfg hpos hb :=
    C74_send_partial s.conn limit u v configuration id stream cid b hid hids hst hcid hcfg hpos hb

/-- C89, partial: a connection that asks its server for the limit sends one request, which asks for the configuration, and keeps
from then on the limit of the server, `n` KiB for whatever text says `n`. Nothing else about the connection changes.
Missing: as for `C74_send_partial`. -/
theorem C89_learned_partial (s : Sized) (u : UUID) {body : Elem} {t : PyStr} {n : Int} (h : limitOf body = some t) (ht : WholeNumber t n)
    (rest : List (Except PyErr Elem)) (sent : List WsReq) :
    ∃ (s' : Sized) (r : WsReq), updateSizes s u.toStr none ⟨.ok body :: rest, sent⟩ = ((.ok (), s'), ⟨rest, sent ++ [r]⟩) ∧ AsksConfig r ∧
      KeepsLimit s' s.conn.maxEnvelope (n * 1024) ∧ { s'.conn with maxEnvelope := s.conn.maxEnvelope } = s.conn := by
  refine ⟨s.set u.toStr (n * 1024), configRequest "config".toList, ?_, asks_config, set_keeps _ _ _, rfl⟩
  rw [update_none, configSize_text h ht.ne_nil, ((C106_int t).1 n).2 ht]
  rfl

/-- C89: a limit that the caller gives is kept in the same way, and the server is not asked. -/
theorem C89_given (s : Sized) (u : UUID) (limit : Int) (w : WsWorld) : ∃ s', updateSizes s u.toStr (some limit) w = ((.ok (), s'), w) ∧
    KeepsLimit s' s.conn.maxEnvelope limit ∧ { s'.conn with maxEnvelope := s.conn.maxEnvelope } = s.conn :=
  ⟨_, rfl, set_keeps _ _ _, rfl⟩

/-! ### Answers that are no limit -/

/-- C89: if the request fails, or the limit in the answer is no whole number, the error is raised and the connection keeps its sizes. -/
theorem C89_error (s : Sized) (m : PyStr) (rest : List (Except PyErr Elem)) (sent : List WsReq) :
    (∀ e, ∃ r, updateSizes s m none ⟨.error e :: rest, sent⟩ = ((.raised e, s), ⟨rest, sent ++ [r]⟩) ∧ AsksConfig r) ∧
    ∀ (body : Elem) (t : PyStr), limitOf body = some t → t ≠ [] → (¬ ∃ n, WholeNumber t n) →
      ∃ r, updateSizes s m none ⟨.ok body :: rest, sent⟩ = ((.raised .valueError, s), ⟨rest, sent ++ [r]⟩) ∧ AsksConfig r := by
  refine ⟨fun e => ⟨_, rfl, asks_config⟩, fun body t h ht hb => ⟨configRequest "config".toList, ?_, asks_config⟩⟩
  rw [update_none, configSize_text h ht, (C106_int t).2 hb]
  rfl

/-- C89 is false for an answer without a limit, as that of a server with another layout of its configuration: the limit becomes 0
bytes without an error. A pool that is made with it turns every message into no blocks at all, so that the message is lost without
an error. -/
theorem C89_absent_false (s : Sized) (m : PyStr) {body : Elem} (h : limitOf body = none ∨ limitOf body = some [])
    (rest : List (Except PyErr Elem)) (sent : List WsReq) :
    ∃ s' w, updateSizes s m none ⟨.ok body :: rest, sent⟩ = ((.ok (), s'), w) ∧ s'.conn.maxEnvelope = 0 ∧ s'.maxPayload < 0 ∧
      ∀ msg : Bytes, ∃ o', fragment (OutState.init s'.maxPayload) msg none = .ok ([], o') := by
  have hneg : (s.set m 0).maxPayload < 0 := by
    show calcEnvelopeSize _ 0 < 0
    unfold calcEnvelopeSize
    generalize (utf8 (printDocument (skeletonEnvelope s.conn m))).length = k
    have e : (0 - ((k : Int) + 256)) * 3 = -(((k : Int) + 256) * 3) := by omega
    rw [e, Int.neg_tdiv, Int.tdiv_eq_ediv_of_nonneg (by omega)]
    omega
  refine ⟨s.set m 0, ⟨rest, sent ++ [configRequest "config".toList]⟩, by rw [update_none, configSize_absent h], rfl, hneg, fun msg =>
    ⟨{ OutState.init (s.set m 0).maxPayload with counter := 2 }, ?_⟩⟩
  have hb : byteIterator msg (OutState.init (s.set m 0).maxPayload).maxSize = .ok [] := by
    unfold byteIterator OutState.init
    simp only
    rw [if_neg (by omega), if_pos (by omega)]
  simp only [fragment, hb, bind, Except.bind, pure, Except.pure, packPieces]
  rfl

/-! ### The pools of the connection -/

theorem send_large {c : Conn} {v : UUID} {configuration id stream : PyStr} {cid : Option PyStr} {b : Bytes} (hid : id ≠ []) (hb : b ≠ []) :
    (b.length : Int) < wireSize (sendOf c v configuration id stream cid b) := by
  have hs := size_send c v (poolUri configuration) id stream b cid (poolUri_ne _) hid
  rw [leafSize_eq _ _ hb] at hs
  unfold wireSize sendOf
  rw [utf8_length, ← sendRequest', hs]
  omega

/-- C89 is false for the pools that exist already: they go on with the payload size of the connection at their time. If the server
allows less than that, the first block of every longer message makes a request above the limit. -/
theorem C89_stale_false (s : Sized) (u : UUID) {body : Elem} {t : PyStr} (h : limitOf body = some t) (ht : IsDecimal t)
    (hlow : (decimalValue t : Int) * 1024 ≤ s.maxPayload) (h21 : 21 < s.maxPayload) (rest : List (Except PyErr Elem)) (sent : List WsReq) :
    ∃ s' w, updateSizes s u.toStr none ⟨.ok body :: rest, sent⟩ = ((.ok (), s'), w) ∧ s'.conn.maxEnvelope = decimalValue t * 1024 ∧
      ∀ msg : Bytes, s.maxPayload ≤ (msg.length : Int) → msg.length < 2 ^ 32 → ∃ b bs o', fragment (OutState.init s.maxPayload) msg none = .ok (b :: bs, o') ∧
        ∀ (v : UUID) (configuration id stream : PyStr) (cid : Option PyStr), id ≠ [] →
          (decimalValue t : Int) * 1024 < wireSize (sendOf s'.conn v configuration id stream cid b) := by
  refine ⟨s.set u.toStr (decimalValue t * 1024), _, by rw [update_none, configSize_text h ht.1, pyInt_decimal ht]; rfl, rfl, fun msg hl hlt => ?_⟩
  obtain ⟨b, bs, o', h1, h2⟩ := first_block (n := 1) (P := s.maxPayload - 21) (by decide) (by omega) msg (by omega) hlt
  refine ⟨b, bs, o', h1, fun v configuration id stream cid hid => ?_⟩
  have hb : b ≠ [] := by
    intro hb
    rw [hb, List.length_nil] at h2
    omega
  have := send_large (c := (s.set u.toStr (decimalValue t * 1024)).conn) (v := v) (configuration := configuration) (stream := stream) (cid := cid) hid hb
  omega

/-- C89 is false for a limit of 150 KiB, the default of older servers: a pool takes it for a limit that nobody has set. The
capabilities of a server with protocol 2.2 or newer raise it to 512000 bytes, and the messages between the two become requests above
the limit of the server. -/
theorem C89_raised_false (s : Sized) (u : UUID) {body : Elem} (h : limitOf body = some "150".toList) (rest : List (Except PyErr Elem))
    (sent : List WsReq) (skeleton : Nat) (hsk : skeleton = (utf8 (printDocument (skeletonEnvelope s.conn u.toStr))).length)
    (hroom : skeleton ≤ 100000) (version : PyStr) (a : List Nat) (hv : Dotted version a) (hnew : VersionGe a [2, 2]) :
    ∃ s' w c' o', updateSizes s u.toStr none ⟨.ok body :: rest, sent⟩ = ((.ok (), s'), w) ∧
      processSessionCapability skeleton ⟨s'.conn.maxEnvelope, s'.maxPayload⟩ (OutState.init s'.maxPayload) version = .ok (c', o') ∧
      c'.maxEnvelope = 512000 ∧
      ∀ msg : Bytes, 150 * 1024 ≤ msg.length → msg.length ≤ 300000 → ∃ b o'', fragment o' msg none = .ok ([b], o'') ∧
        ∀ (v : UUID) (configuration id stream : PyStr) (cid : Option PyStr), id ≠ [] →
          150 * 1024 < wireSize (sendOf { s'.conn with maxEnvelope := c'.maxEnvelope } v configuration id stream cid b) := by
  have h22 : Dotted "2.2".toList [2, 2] :=
    ⟨[['2'], ['2']], by decide, by decide, by
      intro p hp
      simp only [List.mem_cons, List.not_mem_nil, or_false, or_self] at hp
      subst hp; exact ⟨by decide, by decide⟩, by decide⟩
  obtain ⟨res, hres, hiff⟩ := version_dotted hv h22
  rw [hiff.mpr hnew] at hres
  have k : configSize body = .ok 153600 := by
    rw [configSize_text h (by decide), show pyInt "150".toList = .ok 150 by decide +kernel]; rfl
  refine ⟨s.set u.toStr 153600, ⟨rest, sent ++ [configRequest "config".toList]⟩, updateMaxPayloadSize skeleton 512000,
    { OutState.init (s.set u.toStr 153600).maxPayload with maxSize := (updateMaxPayloadSize skeleton 512000).maxPayload },
    by rw [update_none, k], ?_, rfl, fun msg hl hu => ?_⟩
  · exact capability_raises hres
  · have hp : (300000 : Int) ≤ (updateMaxPayloadSize skeleton 512000).maxPayload := by
      unfold updateMaxPayloadSize calcEnvelopeSize
      simp only
      rw [Int.tdiv_eq_ediv_of_nonneg (by omega)]
      omega
    have hne : msg ≠ [] := by intro hm; rw [hm] at hl; simp at hl
    refine ⟨_, _, fragment_one hne (by decide : 1 < 2 ^ 64) (by omega) (by simp only; omega), fun v configuration id stream cid hid => ?_⟩
    have hw : (Fragment.mk 1 0 msg true true).wire ≠ [] := by
      intro hm
      have := congrArg List.length hm
      rw [Fragment.wire_length] at this
      simp at this
    have := send_large (c := { (s.set u.toStr 153600).conn with maxEnvelope := 512000 }) (v := v) (configuration := configuration) (stream := stream)
      (cid := cid) hid hw
    rw [Fragment.wire_length] at this
    exact Int.lt_of_le_of_lt (by simp only; omega) this

/-! ### Concrete cases -/

/-- The configuration of a server with this limit, among other settings. -/
def configured (limit : String) : Elem :=
  .node "s:Body".toList [] none [.node "cfg:Config".toList [] none
    [.node "cfg:MaxTimeoutms".toList [] (some "60000".toList) [], .node "cfg:MaxEnvelopeSizekb".toList [] (some limit.toList) [],
      .node "cfg:MaxBatchItems".toList [] (some "32000".toList) []]]

/-- A server with the limit of newer ones, 500 KiB. -/
example : limitOf (configured "500") = some "500".toList ∧ IsDecimal "500".toList ∧ decimalValue "500".toList * 1024 = 512000 ∧
    ((updateSizes (Sized.new sampleConn emptyUuid) (UUID.toStr ⟨List.replicate 16 7, rfl⟩) none ⟨[.ok (configured "500")], []⟩).1.2.conn.maxEnvelope,
      (updateSizes (Sized.new sampleConn emptyUuid) (UUID.toStr ⟨List.replicate 16 7, rfl⟩) none ⟨[.ok (configured "500")], []⟩).1.2.maxPayload) =
      (512000, 382754) := by
  refine ⟨by decide +kernel, ⟨by decide, by decide⟩, by decide +kernel, by decide +kernel⟩

/-- The hypotheses of the other theorems: a limit that is no number, an answer without one, a low one and the old default. -/
example : limitOf (configured "500 KB") = some "500 KB".toList ∧ (¬ ∃ n, WholeNumber "500 KB".toList n) ∧ WholeNumber " +1_500".toList 1500 ∧
    limitOf (.node "s:Body".toList [] none []) = none ∧ limitOf (configured "") = some [] ∧
    (decimalValue "100".toList : Int) * 1024 ≤ (Sized.new sampleConn (UUID.toStr ⟨List.replicate 16 7, rfl⟩)).maxPayload ∧
    limitOf (configured "150") = some "150".toList ∧
    (utf8 (printDocument (skeletonEnvelope sampleConn (UUID.toStr ⟨List.replicate 16 7, rfl⟩)))).length ≤ 100000 := by
  refine ⟨by decide +kernel, fun ⟨n, hn⟩ => ?_, ((C106_int _).1 _).1 (by decide +kernel), by decide +kernel, by decide +kernel, by decide +kernel,
    by decide +kernel, by decide +kernel⟩
  have := ((C106_int _).1 n).2 hn
  rw [show pyInt "500 KB".toList = .error .valueError by decide +kernel] at this
  cases this

end Verif
