import Verif.Model.Strings
import Verif.Model.Base64
/-
Secure strings (src/pypsrp/serializer.py 590-611, 789-803) and the public key blob (src/pypsrp/powershell.py 572-611).
-/
namespace Verif

/-- The cipher object set after the key exchange (powershell.py 917-920): AES in CBC mode with a fixed IV, so that every
encryptor and decryptor starts from the same state. `block` is `algorithm.block_size` in bytes. -/
structure BlockCipher where
  block : Nat
  encrypt : Bytes → Bytes
  decrypt : Bytes → Bytes

/-- `cryptography`'s `PKCS7(block * 8).padder()`: update and finalize. -/
def pkcs7Pad (block : Nat) (data : Bytes) : Bytes :=
  data ++ List.replicate (block - data.length % block) (UInt8.ofNat (block - data.length % block))

/-- `cryptography`'s `PKCS7(block * 8).unpadder()`: update and finalize. ValueError when the data is not a positive
number of whole blocks, or when the last byte n is not in 1..block or the last n bytes are not all n. -/
def pkcs7Unpad (block : Nat) (data : Bytes) : Except PyErr Bytes :=
  if data.length % block ≠ 0 then .error .valueError
  else match data.getLast? with
    | none => .error .valueError
    | some n =>
      if n.toNat = 0 ∨ block < n.toNat then .error .valueError
      else if data.drop (data.length - n.toNat) = List.replicate n.toNat n then
        .ok (data.take (data.length - n.toNat))
      else .error .valueError

/-- `s.encode("utf-16-le")`. -/
def encodeUtf16LE (s : PyStr) : Bytes := (utf16 s).flatMap (fun u => (unitBytes u).reverse)

/-- The bytes of each pair swapped; an odd byte at the end stays. -/
def swapPairs : Bytes → Bytes
  | a :: b :: bs => b :: a :: swapPairs bs
  | bs => bs

/-- `b.decode("utf-16-le")`. -/
def decodeUtf16LE (b : Bytes) : Except PyErr PyStr := do unitsChars (← bytesUnits (swapPairs b))

/-- serializer.py 590-611 `_serialize_secure_string` of a str. -/
def serializeSecureString (cipher : Option BlockCipher) (s : PyStr) : Except PyErr PyStr :=
  match cipher with
  | none => .error .serializationError
  | some c => .ok (b64Encode (c.encrypt (pkcs7Pad c.block (encodeUtf16LE s))))

/-- The result of `_deserialize_secure_string`: the text, or the element itself when there is no key. -/
inductive SecureResult where
  | text (s : PyStr)
  | element (text : Option PyStr)
  deriving DecidableEq

/-- serializer.py 789-803 `_deserialize_secure_string`. -/
def deserializeSecureString (cipher : Option BlockCipher) (text : Option PyStr) : Except PyErr SecureResult :=
  match cipher with
  | none => .ok (.element text)
  | some c => do
    let b ← b64DecodeStr (text.getD [])
    let p ← pkcs7Unpad c.block (c.decrypt b)
    let s ← decodeUtf16LE p
    return .text s

/-- powershell.py 597. -/
def blobHeader : Bytes := [0x06, 0x02, 0x00, 0x00, 0x00, 0xa4, 0x00, 0x00, 0x52, 0x53, 0x41, 0x31, 0x00, 0x08, 0x00, 0x00]

/-- powershell.py 590-594: 256 bytes, `n >> (i * 8) & 0xFF`. -/
def modulusBytes (n : Nat) : Bytes := (List.range 256).map (fun i => UInt8.ofNat ((n >>> (i * 8)) &&& 0xFF))

/-- powershell.py 588-597: the bytes of the public key message. -/
def publicKeyBlob (e n : Nat) : Except PyErr Bytes := do
  let exponent ← packLE 4 e
  return blobHeader ++ exponent ++ modulusBytes n

/-- powershell.py 598-600: the text sent. -/
def publicKeyText (e n : Nat) : Except PyErr PyStr := do return b64Encode (← publicKeyBlob e n)

/-- powershell.py 909-915: the session key found in the text of the server's message, with the RSA decryption of the
pool's private key. -/
def sessionKey (rsaDecrypt : Bytes → Except PyErr Bytes) (text : PyStr) : Except PyErr Bytes := do
  let b ← b64DecodeStr text
  rsaDecrypt (b.drop 12).reverse

end Verif
