import Verif.Model.Keyczar
/-
Sessions: python/src/keyczar/keyczar.py:674-843.

`_Session.crypter` is memoized (`util.Memoize`, see Model/Memoize.lean); the model builds the Crypter
anew at each use, which gives the same object because Crypters are only read.
-/
namespace Verif

/-- keyczar.py:674 -/
def SESSION_NONCE_SIZE : Nat := 16

/-- keyczar.py:676-755 `_Session`: the fields set by `__Create` (keyczar.py:716-725) -/
structure Session where
  key : AesKey
  nonce : Option Bytes
deriving Repr

/-- keyczar.py:683-689 `_Session.New`: key of the default size (two draws), then the nonce -/
def Session.New (rnd : Rand) : Session :=
  ⟨AesKey.Generate rnd KeyType.AES.defaultSize, some (rnd.bytes 2 SESSION_NONCE_SIZE)⟩

/-- keyczar.py:740-746 `packed_key` -/
def Session.packedKey (s : Session) : Py Bytes := do
  let kb ← s.key.keyBytes
  let hb ← s.key.hmacKey.keyBytes
  PackMultipleByteArrays [kb, hb]

/-- keyczar.py:691-705 `LoadPackedKey`; `fuel` bounds the unpacking loop -/
def Session.LoadPackedKey (fuel : Nat) (packed : Bytes) : Py Session := do
  let unpacked ← UnpackMultipleByteArrays fuel packed
  match unpacked with
  | [kb, hb] =>
    let hmacKey : HmacKey := ⟨Base64WSEncode hb, setSize .HMAC_SHA1 (hb.length * 8 : Nat)⟩
    return ⟨⟨Base64WSEncode kb, hmacKey, setSize .AES (kb.length * 8 : Nat)⟩, none⟩
  | _ => .error .assertionError

/-- keyczar.py:748-755 `json` -/
def Session.json (s : Session) : Py Bytes := do
  let key ← loads (← s.key.str)
  match s.nonce with
  | some n => return dumps (jobj [("key", key), ("nonce", jb64 n)])
  | none => .error .unmodelled  -- never called without a nonce

/-- keyczar.py:707-714 `LoadJsonSession` -/
def Session.LoadJsonSession (text : Bytes) : Py Session := do
  let d ← loads text
  let key ← AesKey.Read (dumps (← d.get "key"))
  let nonce ← getB64 d "nonce"
  return ⟨key, some nonce⟩

variable (P : Prims)

/-- keyczar.py:727-734 `crypter` -/
def Session.crypter (s : Session) : Py Czar :=
  Czar.init P .crypter (StaticKeyReader (.aes s.key) .DECRYPT_AND_ENCRYPT)

/-- keyczar.py:758-781, 801-822: `SessionEncrypter` and `SignedSessionEncrypter` objects -/
structure SessionSender where
  session : Session
  material : Bytes
deriving Repr

/-- keyczar.py:765-767 `SessionEncrypter.__init__`; `rnd` makes the session, `rnd'` encrypts it -/
def SessionEncrypter.new (encrypter : Czar) (rnd rnd' : Rand) : Py SessionSender := do
  let session := Session.New rnd
  let material ← encrypter.Encrypt P rnd' (← session.packedKey) (some Base64WSEncode)
  return ⟨session, material⟩

/-- keyczar.py:777-781 `SessionEncrypter.Encrypt` -/
def SessionEncrypter.Encrypt (s : SessionSender) (rnd : Rand) (plaintext : Bytes)
    (encoder : Option (Bytes → Bytes)) : Py Bytes := do
  (← s.session.crypter P).Encrypt P rnd plaintext encoder

/-- keyczar.py:790-791 `SessionDecrypter.__init__` -/
def SessionDecrypter.new (fuel : Nat) (crypter : Czar) (material : Bytes) : Py Session := do
  Session.LoadPackedKey fuel (← crypter.Decrypt P material (some Base64WSDecode))

/-- keyczar.py:793-798 `SessionDecrypter.Decrypt` -/
def SessionDecrypter.Decrypt (s : Session) (ciphertext : Bytes) (decoder : Option (Bytes → Py Bytes)) :
    Py Bytes := do
  (← s.crypter P).Decrypt P ciphertext decoder

/-- keyczar.py:807-810 `SignedSessionEncrypter.__init__` -/
def SignedSessionEncrypter.new (encrypter : Czar) (rnd rnd' : Rand) : Py SessionSender := do
  let session := Session.New rnd
  let material ← encrypter.Encrypt P rnd' (← session.json) (some Base64WSEncode)
  return ⟨session, material⟩

/-- the nonce as an argument of AttachedSign and AttachedVerify; sessions made by `New` and
`LoadJsonSession` have one -/
def Session.nonceBytes (s : Session) : Py Bytes :=
  match s.nonce with
  | some n => .ok n
  | none => .error .unmodelled

/-- keyczar.py:820-822 `SignedSessionEncrypter.Encrypt` -/
def SignedSessionEncrypter.Encrypt (s : SessionSender) (signer : Czar) (rnd rnd' : Rand) (plaintext : Bytes) :
    Py Bytes := do
  let ciphertext ← (← s.session.crypter P).Encrypt P rnd plaintext none
  signer.AttachedSign P rnd' ciphertext (← s.session.nonceBytes) (some Base64WSEncode)

/-- keyczar.py:831-833 `SignedSessionDecrypter.__init__` -/
def SignedSessionDecrypter.new (crypter : Czar) (material : Bytes) : Py Session := do
  Session.LoadJsonSession (← crypter.Decrypt P material (some Base64WSDecode))

/-- keyczar.py:835-843 `SignedSessionDecrypter.Decrypt`; `none` is Python's None -/
def SignedSessionDecrypter.Decrypt (s : Session) (verifier : Czar) (signed : Bytes) : Py (Option Bytes) := do
  let ciphertext ← verifier.AttachedVerify P signed (← s.nonceBytes) (some Base64WSDecode)
  match ciphertext with
  | none => return none
  | some [] => return none
  | some c => return some (← (← s.crypter P).Decrypt P c none)

end Verif
