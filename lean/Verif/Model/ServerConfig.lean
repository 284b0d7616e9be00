import Verif.Model.Enumerate
/-
The size limit that a connection learns from its server: `WSMan.get`, `get_server_config` and `update_max_payload_size`
(src/pypsrp/wsman.py 327-336, 415-442).
-/
namespace Verif

/-- wsman.py 233, 253: a connection with its two sizes; the size of the envelopes is that of the headers. -/
structure Sized where
  conn : Conn
  maxPayload : Int

/-- wsman.py 233-253: the sizes after the constructor; `messageId` is the id in the envelope that is measured. -/
def Sized.new (c : Conn) (messageId : PyStr) : Sized := ⟨c, payloadSize c messageId c.maxEnvelope⟩

/-- wsman.py 415-421 `get_server_config` and 335 in `get`. -/
def configRequest (uri : PyStr) : WsReq := { action := .get, uri := some ("http://schemas.microsoft.com/wbem/wsman/1/".toList ++ uri) }

/-- wsman.py 434-437: the size in the answer. A missing element, one without text and one with an empty text all count as 0. -/
def configSize (body : Elem) : Except PyErr Int := do
  let text := match body.find ["cfg:Config".toList, "cfg:MaxEnvelopeSizekb".toList] with
    | none => []
    | some e => e.text.getD []
  let kb ← pyInt (if text = [] then "0".toList else text)
  return kb * 1024

/-- wsman.py 439-441: both sizes are set together. -/
def Sized.set (s : Sized) (messageId : PyStr) (size : Int) : Sized :=
  ⟨{ s.conn with maxEnvelope := size }, payloadSize s.conn messageId size⟩

/-- wsman.py 423-442 `update_max_payload_size`: the connection afterwards, also if it raises. -/
def updateSizes (s : Sized) (messageId : PyStr) : Option Int → WsWorld → (Res Unit × Sized) × WsWorld
  | some size, w => ((.ok (), s.set messageId size), w)
  | none, w =>
    match (wsInvoke (configRequest "config".toList) >>= fun body => wlift (configSize body)) w with
    | (.ok size, w1) => ((.ok (), s.set messageId size), w1)
    | (.raised e, w1) => ((.raised e, s), w1)
    | (.waiting, w1) => ((.waiting, s), w1)

end Verif
