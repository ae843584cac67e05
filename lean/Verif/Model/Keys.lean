import Verif.Model.KeyInfo
import Verif.Model.PyCrypto
import Verif.Model.Base64
import Verif.Model.Der
/-
python/src/keyczar/keys.py: key objects (lines 60-1021), with PyCrypto as crypto library.

`Key.__eq__` (keys.py:125-128) is in Model/KeyEq.lean, the M2Crypto adaptor (keys.py:217-320) in
Model/M2Crypto.lean; here `ACTIVE_CRYPT_LIB` is PyCrypto.
-/
namespace Verif

/-- Results of the random sources used by one operation.  `bytes i n` is the `i`-th call of
`util.RandBytes(n)` in the operation; `dsaK q` is `random.SystemRandom().randint(2, q-1)`;
`rsaGen`, `dsaGen` are `RSA.generate(size)`, `DSA.generate(size)`. -/
structure Rand where
  bytes : Nat → Nat → Bytes
  bytes_length : ∀ i n, (bytes i n).length = n
  dsaK : Nat → Nat
  dsaK_range : ∀ q, 3 ≤ q → 2 ≤ dsaK q ∧ dsaK q ≤ q - 1
  rsaGen : Nat → RsaObj
  dsaGen : Nat → DsaObj

/-- keys.py:122-132: `self.size = new_size` keeps the default when the size is not valid. -/
def setSize (t : KeyType) (new : Int) : Nat :=
  if t.IsValidSize new then new.toNat else t.defaultSize

/-- the same for a JSON value (`size in sizes` is False for anything that is not one of the ints) -/
def setSizeJson (t : KeyType) (j : Json) : Nat :=
  match j with
  | .num n => setSize t n
  | _ => t.defaultSize

/-! ### Key classes -/

/-- keys.py:495-503 (`key_string` is Base64 text) -/
structure HmacKey where
  keyString : Bytes
  size : Nat
deriving DecidableEq, Repr

/-- keys.py:179, 322-332 -/
structure AesKey where
  keyString : Bytes
  hmacKey : HmacKey
  size : Nat
deriving DecidableEq, Repr

/-- keys.py:927-934: `params` (byte strings) and the PyCrypto object -/
structure RsaPublicKey where
  modulus : Bytes
  publicExponent : Bytes
  key : RsaPubObj
  size : Nat
deriving DecidableEq, Repr

/-- keys.py:704-712 -/
structure RsaPrivateKey where
  privateExponent : Bytes
  primeP : Bytes
  primeQ : Bytes
  primeExponentP : Bytes
  primeExponentQ : Bytes
  crtCoefficient : Bytes
  pub : RsaPublicKey
  key : RsaObj
  size : Nat
deriving DecidableEq, Repr

/-- keys.py:859-867 -/
structure DsaPublicKey where
  p : Bytes
  q : Bytes
  g : Bytes
  y : Bytes
  key : DsaPubObj
  size : Nat
deriving DecidableEq, Repr

/-- keys.py:625-634 -/
structure DsaPrivateKey where
  x : Bytes
  pub : DsaPublicKey
  key : DsaObj
  size : Nat
deriving DecidableEq, Repr

/-- Any key object. -/
inductive Key where
  | aes (k : AesKey)
  | hmac (k : HmacKey)
  | dsaPriv (k : DsaPrivateKey)
  | dsaPub (k : DsaPublicKey)
  | rsaPriv (k : RsaPrivateKey)
  | rsaPub (k : RsaPublicKey)
deriving DecidableEq, Repr

def Key.type : Key → KeyType
  | .aes _ => .AES | .hmac _ => .HMAC_SHA1 | .dsaPriv _ => .DSA_PRIV | .dsaPub _ => .DSA_PUB
  | .rsaPriv _ => .RSA_PRIV | .rsaPub _ => .RSA_PUB

def Key.size : Key → Nat
  | .aes k => k.size | .hmac k => k.size | .dsaPriv k => k.size | .dsaPub k => k.size
  | .rsaPriv k => k.size | .rsaPub k => k.size

/-! ### Key bytes and identifiers -/

/-- keys.py:154 `key_bytes` -/
def HmacKey.keyBytes (k : HmacKey) : Py Bytes := Base64WSDecode k.keyString
def AesKey.keyBytes (k : AesKey) : Py Bytes := Base64WSDecode k.keyString

variable (P : Prims)

/-- keys.py:505-507 `HmacKey._Hash` -/
def HmacKey.hashId (k : HmacKey) : Py Bytes := do
  let kb ← k.keyBytes
  return Base64WSEncode ((Hash P [kb]).take KEY_HASH_SIZE)

/-- keys.py:340-344 `AesKey._Hash` -/
def AesKey.hashId (k : AesKey) : Py Bytes := do
  let kb ← k.keyBytes
  let hb ← k.hmacKey.keyBytes
  return Base64WSEncode ((Hash P [IntToBytes kb.length, kb, hb]).take KEY_HASH_SIZE)

/-- keys.py:966-969 `RsaPublicKey._Hash` -/
def RsaPublicKey.hashId (k : RsaPublicKey) : Bytes :=
  Base64WSEncode ((PrefixHash P [TrimBytes k.modulus, TrimBytes k.publicExponent]).take KEY_HASH_SIZE)

/-- keys.py:876-881 `DsaPublicKey._Hash` -/
def DsaPublicKey.hashId (k : DsaPublicKey) : Bytes :=
  Base64WSEncode ((PrefixHash P [TrimBytes k.p, TrimBytes k.q, TrimBytes k.g, TrimBytes k.y]).take
    KEY_HASH_SIZE)

/-- keys.py:150 `hash_id`; private keys use the public key's (keys.py:616-617). -/
def Key.hashId : Key → Py Bytes
  | .aes k => k.hashId P
  | .hmac k => k.hashId P
  | .dsaPriv k => .ok (k.pub.hashId P)
  | .dsaPub k => .ok (k.hashId P)
  | .rsaPriv k => .ok (k.pub.hashId P)
  | .rsaPub k => .ok (k.hashId P)

/-- keys.py:157-159 `Header` given the identifier -/
def headerOf (hashId : Bytes) : Py Bytes := do
  return [UInt8.ofNat VERSION] ++ (← Base64WSDecode hashId)

def Key.Header (k : Key) : Py Bytes := do headerOf (← k.hashId P)

/-! ### HMAC -/

/-- keys.py:542-552 `HmacKey.Sign` -/
def HmacKey.Sign (k : HmacKey) (msg : Bytes) : Py Bytes := do
  let kb ← k.keyBytes
  return hmacSha1 P kb msg

/-- keys.py:569-587 `VerifySignedData`: constant-time comparison -/
def VerifySignedData (mac sig : Bytes) : Bool :=
  if sig.length ≠ mac.length then false
  else
    let result := (List.zip mac sig).foldl (fun r (p : UInt8 × UInt8) => r ||| (p.1 ^^^ p.2)) 0
    result == 0

/-- keys.py:554-567 `HmacKey.Verify` -/
def HmacKey.Verify (k : HmacKey) (msg sig : Bytes) : Py Bool := do
  let mac ← k.Sign P msg
  return VerifySignedData mac sig

/-! ### AES -/

/-- keys.py:379-393 `_Pad` (block size 16) -/
def aesPad (data : Bytes) : Bytes :=
  let pad := 16 - data.length % 16
  data ++ List.replicate pad (UInt8.ofNat pad)

/-- keys.py:395-406 `_UnPad`: `padded[-1]` raises `IndexError` on the empty string;
`padded[:-0]` is `padded[:0]`. -/
def aesUnPad (padded : Bytes) : Py Bytes :=
  match padded.getLast? with
  | none => .error .indexError
  | some c => .ok (sliceTo padded (-(c.toNat : Int)))

/-- keys.py:408-423 `_NoPadBufferSize` -/
def noPadBufferSize (bufferSize : Int) : Int := max (16 * (bufferSize / 16)) 16

/-- keys.py:425-442 `AesKey.Encrypt`; `iv` is the drawn IV. -/
def AesKey.Encrypt (k : AesKey) (iv : Bytes) (data : Bytes) : Py Bytes := do
  let data := aesPad data
  let kb ← k.keyBytes
  let cipher ← CbcObj.new kb iv
  let (ciph, _) ← cipher.encrypt P data
  let header ← headerOf (← k.hashId P)
  let msg := header ++ iv ++ ciph
  let sig ← k.hmacKey.Sign P msg
  return msg ++ sig

/-- keys.py:444-469 `AesKey.Decrypt` -/
def AesKey.Decrypt (k : AesKey) (input : Bytes) : Py Bytes := do
  let data := sliceFrom input HEADER_SIZE
  if data.length < 16 + HLEN then .error (.shortCiphertext data.length)
  else do
    let iv := sliceTo data 16
    let ciph := slice data 16 (-(HLEN : Int))
    let sig := sliceFrom data (-(HLEN : Int))
    if (← k.hmacKey.Verify P (sliceTo input (-(HLEN : Int))) sig) then do
      let kb ← k.keyBytes
      let cipher ← CbcObj.new kb iv
      let (plain, _) ← cipher.decrypt P ciph
      aesUnPad plain
    else .error .invalidSignature

/-! ### RSA -/

/-- keys.py:939, 725: the number of bytes of the modulus.  The code computes it as
`int(floor(log(n, 256)) + 1)` in floating point; this is the exact value (Model/FloatLen has the computed one).
`math.log(0)` raises `ValueError`. -/
def numBytes (n : Nat) : Py Nat := if n = 0 then .error .valueError else .ok (BigIntToBytes n).length

/-- keys.py:940-958, `RsaPublicKey.__Encode` once `k` is computed -/
def oaepEncode (k : Nat) (seed msg : Bytes) : Py Bytes :=
  if (msg.length : Int) > (k : Int) - 2 * HLEN - 2 then .error .keyczarError
  else do
    let labelHash := Hash P [[]]
    let padOctets : Nat := k - msg.length - 2 * HLEN - 2
    let datablock := labelHash ++ List.replicate padOctets 0 ++ [1] ++ msg
    let datablockMask ← MGF P seed (k - HLEN - 1)
    let maskedDatablock := Xor datablock datablockMask
    let seedMask ← MGF P maskedDatablock HLEN
    let maskedSeed := Xor seed seedMask
    return [0] ++ maskedSeed ++ maskedDatablock

/-- keys.py:936-958 `RsaPublicKey.__Encode` with the empty label; `seed` is drawn. -/
def RsaPublicKey.Encode (key : RsaPublicKey) (seed msg : Bytes) : Py Bytes := do
  let k ← numBytes key.key.n
  oaepEncode P k seed msg

/-- keys.py:715-754 `RsaPrivateKey.__Decode` with the empty label, `count` computing the number of bytes of the modulus -/
def oaepDecode (count : Py Nat) (encoded : Bytes) : Py Bytes := do
  if encoded.length < 2 * HLEN + 2 then .error .keyczarError
  else do
    let k ← count
    let diffLen : Int := (k : Int) - encoded.length
    let encoded := if diffLen > 1 then List.replicate (diffLen - 1).toNat 0 ++ encoded else encoded
    let maskedSeed := sliceTo encoded HLEN
    let maskedDatablock := sliceFrom encoded HLEN
    let seedMask ← MGF P maskedDatablock HLEN
    let seed := Xor maskedSeed seedMask
    let datablockMask ← MGF P seed maskedDatablock.length
    let datablock := Xor maskedDatablock datablockMask
    let labelHash := sliceTo datablock HLEN
    if labelHash ≠ Hash P [[]] then .error .keyczarError
    else
      match (sliceFrom datablock HLEN).dropWhile (· = 0) with
      | [] => .error .indexError
      | c :: msg => if c ≠ 1 then .error .keyczarError else .ok msg

/-- keys.py:715-754 `RsaPrivateKey.__Decode` with the empty label -/
def RsaPrivateKey.Decode (key : RsaPrivateKey) (encoded : Bytes) : Py Bytes :=
  oaepDecode P (numBytes key.key.n) encoded

/-- keys.py:990-1002 `RsaPublicKey.Encrypt` -/
def RsaPublicKey.Encrypt (key : RsaPublicKey) (seed data : Bytes) : Py Bytes := do
  let data ← key.Encode P seed data
  let ciph ← key.key.encrypt P data
  let header ← headerOf (key.hashId P)
  return header ++ ciph

/-- keys.py:827-839 `RsaPrivateKey.Decrypt` -/
def RsaPrivateKey.Decrypt (key : RsaPrivateKey) (input : Bytes) : Py Bytes := do
  let ciph := sliceFrom input HEADER_SIZE
  let decrypted ← key.key.decrypt P ciph
  key.Decode P decrypted

/-- keys.py:841-853 `RsaPrivateKey.Sign` -/
def RsaPrivateKey.Sign (key : RsaPrivateKey) (msg : Bytes) : Py Bytes := do
  let emsa := MakeEmsaMessage P msg key.size
  let b := BigIntToBytes (← key.key.sign P emsa)
  return PadBytes b ((key.size / 8 : Nat) - (b.length : Int))

/-- keys.py:1004-1021 `RsaPublicKey.Verify` -/
def RsaPublicKey.Verify (key : RsaPublicKey) (msg sig : Bytes) : Py Bool :=
  match key.key.verify P (MakeEmsaMessage P msg key.size) (BytesToLong sig) with
  | .error .valueError => .ok false
  | r => r

/-! ### DSA -/

/-- keys.py:684-698 `DsaPrivateKey.Sign`; `k` is the drawn per-message value
(`randint(2, q-1)` raises `ValueError` when the range is empty). -/
def DsaPrivateKey.Sign (key : DsaPrivateKey) (k : Nat) (msg : Bytes) : Py Bytes := do
  if key.key.q ≤ 2 then .error .valueError
  else do
    let (r, s) ← key.key.sign (Hash P [msg]) k
    MakeDsaSig r s

/-- keys.py:906-925 `DsaPublicKey.Verify` -/
def DsaPublicKey.Verify (key : DsaPublicKey) (msg sig : Bytes) : Py Bool :=
  match (do let (r, s) ← ParseDsaSig sig
            key.key.verify (Hash P [msg]) r s : Py Bool) with
  | .error e => if e.isKeyczarError then .ok false else .error e
  | .ok b => .ok b

/-! ### Methods of any key; a missing method raises `AttributeError` -/

def Key.Encrypt (k : Key) (rnd : Rand) (data : Bytes) : Py Bytes :=
  match k with
  | .aes k => k.Encrypt P (rnd.bytes 0 16) data
  | .rsaPub k => k.Encrypt P (rnd.bytes 0 HLEN) data
  | .rsaPriv k => k.pub.Encrypt P (rnd.bytes 0 HLEN) data   -- keys.py:823-825
  | _ => .error .attributeError

def Key.Decrypt (k : Key) (input : Bytes) : Py Bytes :=
  match k with
  | .aes k => k.Decrypt P input
  | .rsaPriv k => k.Decrypt P input
  | _ => .error .attributeError

def Key.Sign (k : Key) (rnd : Rand) (msg : Bytes) : Py Bytes :=
  match k with
  | .hmac k => k.Sign P msg
  | .rsaPriv k => k.Sign P msg
  | .dsaPriv k => k.Sign P (rnd.dsaK k.key.q) msg
  | _ => .error .attributeError

def Key.Verify (k : Key) (msg sig : Bytes) : Py Bool :=
  match k with
  | .hmac k => k.Verify P msg sig
  | .rsaPriv k => k.pub.Verify P msg sig   -- keys.py:855-857
  | .rsaPub k => k.Verify P msg sig
  | .dsaPriv k => k.pub.Verify P msg sig   -- keys.py:700-702
  | .dsaPub k => k.Verify P msg sig
  | _ => .error .attributeError

/-! ### Generation -/

/-- keys.py:513-526 `HmacKey.Generate`; `kb` is the drawn key -/
def HmacKey.Generate (kb : Bytes) (size : Nat) : HmacKey := ⟨Base64WSEncode kb, setSize .HMAC_SHA1 size⟩

/-- keys.py:346-360 `AesKey.Generate` -/
def AesKey.Generate (rnd : Rand) (size : Nat) : AesKey :=
  ⟨Base64WSEncode (rnd.bytes 0 (size / 8)),
   HmacKey.Generate (rnd.bytes 1 (KeyType.HMAC_SHA1.defaultSize / 8)) KeyType.HMAC_SHA1.defaultSize,
   setSize .AES size⟩

/-- `util.PadBytes(util.BigIntToBytes(n), 1)` -/
def padInt (n : Nat) : Bytes := PadBytes (BigIntToBytes n) 1

/-- keys.py:641-661 `DsaPrivateKey.Generate` from the generated PyCrypto key -/
def DsaPrivateKey.ofObj (key : DsaObj) (size : Nat) : DsaPrivateKey :=
  { x := padInt key.x
    pub := { g := padInt key.g, p := padInt key.p, q := padInt key.q, y := padInt key.y
             key := key.pub, size := setSize .DSA_PUB size }
    key := key
    size := setSize .DSA_PRIV size }

/-- keys.py:767-792 `RsaPrivateKey.Generate` from the generated PyCrypto key: the stored primes
are swapped. -/
def RsaPrivateKey.ofObj (key : RsaObj) (size : Nat) : RsaPrivateKey :=
  { privateExponent := padInt key.d
    primeP := padInt key.q
    primeQ := padInt key.p
    primeExponentP := padInt (key.d % (key.q - 1))
    primeExponentQ := padInt (key.d % (key.p - 1))
    crtCoefficient := padInt key.u
    pub := { modulus := padInt key.n, publicExponent := padInt key.e
             key := key.pub, size := setSize .RSA_PUB size }
    key := key
    size := setSize .RSA_PRIV size }

/-- keys.py:60-91 `GenKey` (`size` is an int or None) -/
def GenKey (rnd : Rand) (t : KeyType) (size : Option Int) : Py Key :=
  let size := size.getD t.defaultSize
  if ¬ t.IsValidSize size then .error .keyczarError
  else
    let size := size.toNat
    match t with
    | .AES => .ok (.aes (AesKey.Generate rnd size))
    | .HMAC_SHA1 => .ok (.hmac (HmacKey.Generate (rnd.bytes 0 (size / 8)) size))
    | .DSA_PRIV => .ok (.dsaPriv (DsaPrivateKey.ofObj (rnd.dsaGen size) size))
    | .RSA_PRIV => .ok (.rsaPriv (RsaPrivateKey.ofObj (rnd.rsaGen size) size))
    | .DSA_PUB | .RSA_PUB => .error .keyczarError

/-! ### Serialisation -/

/-- dict display -/
def jobj (l : List (String × Json)) : Json := .obj (l.map fun p => (p.1.toList, p.2))

/-- keys.py:502-503 `HmacKey.__str__` -/
def HmacKey.str (k : HmacKey) : Bytes :=
  dumps (jobj [("size", .num k.size), ("hmacKeyString", Json.ofBytes k.keyString)])

/-- keys.py:334-338 `AesKey.__str__` -/
def AesKey.str (k : AesKey) : Py Bytes := do
  let h ← loads k.hmacKey.str
  return dumps (jobj [("mode", Json.ofString CipherMode.CBC.name), ("size", .num k.size),
    ("aesKeyString", Json.ofBytes k.keyString), ("hmacKey", h)])

/-- Base64 text as a JSON string -/
def jb64 (b : Bytes) : Json := Json.ofBytes (Base64WSEncode b)

/-- keys.py:869-874 `DsaPublicKey.__str__` -/
def DsaPublicKey.str (k : DsaPublicKey) : Bytes :=
  dumps (jobj [("p", jb64 k.p), ("q", jb64 k.q), ("g", jb64 k.g), ("y", jb64 k.y), ("size", .num k.size)])

/-- keys.py:636-639 `DsaPrivateKey.__str__` -/
def DsaPrivateKey.str (k : DsaPrivateKey) : Py Bytes := do
  let p ← loads k.pub.str
  return dumps (jobj [("publicKey", p), ("x", jb64 k.x), ("size", .num k.size)])

/-- keys.py:960-964 `RsaPublicKey.__str__` -/
def RsaPublicKey.str (k : RsaPublicKey) : Bytes :=
  dumps (jobj [("modulus", jb64 k.modulus), ("publicExponent", jb64 k.publicExponent),
    ("size", .num k.size)])

/-- keys.py:756-765 `RsaPrivateKey.__str__` -/
def RsaPrivateKey.str (k : RsaPrivateKey) : Py Bytes := do
  let p ← loads k.pub.str
  return dumps (jobj [("publicKey", p), ("privateExponent", jb64 k.privateExponent),
    ("primeP", jb64 k.primeP), ("primeQ", jb64 k.primeQ),
    ("primeExponentP", jb64 k.primeExponentP), ("primeExponentQ", jb64 k.primeExponentQ),
    ("crtCoefficient", jb64 k.crtCoefficient), ("size", .num k.size)])

/-- `str(key)` -/
def Key.str : Key → Py Bytes
  | .aes k => k.str
  | .hmac k => .ok k.str
  | .dsaPriv k => k.str
  | .dsaPub k => .ok k.str
  | .rsaPriv k => k.str
  | .rsaPub k => .ok k.str

/-- `util.Base64WSDecode(d[name])` -/
def getB64 (d : Json) (name : String) : Py Bytes := do
  Base64WSDecode (← (← d.get name).toBytes)

/-- keys.py:528-540 `HmacKey.Read` after parsing -/
def HmacKey.ofJson (mac : Json) : Py HmacKey := do
  let ks ← (← mac.get "hmacKeyString").toBytes
  return ⟨ks, setSizeJson .HMAC_SHA1 (← mac.get "size")⟩

def HmacKey.Read (text : Bytes) : Py HmacKey := do HmacKey.ofJson (← loads text)

/-- keys.py:362-377 `AesKey.Read`; the assertion is keys.py:332 -/
def AesKey.Read (text : Bytes) : Py AesKey := do
  let aes ← loads text
  let hmacVal ← aes.get "hmacKey"
  let ks ← (← aes.get "aesKeyString").toBytes
  let hmac ← HmacKey.ofJson hmacVal
  let size ← aes.get "size"
  let mode ← GetMode (← aes.get "mode")
  if mode ≠ .CBC then .error .assertionError
  else return ⟨ks, hmac, setSizeJson .AES size⟩

/-- keys.py:883-904 `DsaPublicKey.Read` -/
def DsaPublicKey.Read (text : Bytes) : Py DsaPublicKey := do
  let dsa ← loads text
  let y ← getB64 dsa "y"
  let p ← getB64 dsa "p"
  let g ← getB64 dsa "g"
  let q ← getB64 dsa "q"
  let size ← dsa.get "size"
  return { p, q, g, y, key := ⟨BytesToLong y, BytesToLong g, BytesToLong p, BytesToLong q⟩
           size := setSizeJson .DSA_PUB size }

/-- keys.py:663-682 `DsaPrivateKey.Read` -/
def DsaPrivateKey.Read (text : Bytes) : Py DsaPrivateKey := do
  let dsa ← loads text
  let pub ← DsaPublicKey.Read (dumps (← dsa.get "publicKey"))
  let x ← getB64 dsa "x"
  let size ← dsa.get "size"
  return { x, pub
           key := ⟨BytesToLong pub.y, BytesToLong pub.g, BytesToLong pub.p, BytesToLong pub.q, BytesToLong x⟩
           size := setSizeJson .DSA_PRIV size }

/-- keys.py:971-988 `RsaPublicKey.Read` -/
def RsaPublicKey.Read (text : Bytes) : Py RsaPublicKey := do
  let rsa ← loads text
  let modulus ← getB64 rsa "modulus"
  let publicExponent ← getB64 rsa "publicExponent"
  let size ← rsa.get "size"
  return { modulus, publicExponent, key := ⟨BytesToLong modulus, BytesToLong publicExponent⟩
           size := setSizeJson .RSA_PUB size }

/-- keys.py:794-821 `RsaPrivateKey.Read` (note `primeQ` before `primeP` in `RSA.construct`) -/
def RsaPrivateKey.Read (text : Bytes) : Py RsaPrivateKey := do
  let rsa ← loads text
  let pub ← RsaPublicKey.Read (dumps (← rsa.get "publicKey"))
  let privateExponent ← getB64 rsa "privateExponent"
  let primeP ← getB64 rsa "primeP"
  let primeQ ← getB64 rsa "primeQ"
  let primeExponentP ← getB64 rsa "primeExponentP"
  let primeExponentQ ← getB64 rsa "primeExponentQ"
  let crtCoefficient ← getB64 rsa "crtCoefficient"
  let size ← rsa.get "size"
  return { privateExponent, primeP, primeQ, primeExponentP, primeExponentQ, crtCoefficient, pub
           key := ⟨BytesToLong pub.modulus, BytesToLong pub.publicExponent, BytesToLong privateExponent,
             BytesToLong primeQ, BytesToLong primeP, BytesToLong crtCoefficient⟩
           size := setSizeJson .RSA_PRIV size }

/-- keys.py:93-115 `ReadKey`: any `KeyError` becomes `KeyczarError`. -/
def ReadKey (t : KeyType) (text : Bytes) : Py Key :=
  let r : Py Key := match t with
    | .AES => (AesKey.Read text).map .aes
    | .HMAC_SHA1 => (HmacKey.Read text).map .hmac
    | .DSA_PRIV => (DsaPrivateKey.Read text).map .dsaPriv
    | .RSA_PRIV => (RsaPrivateKey.Read text).map .rsaPriv
    | .DSA_PUB => (DsaPublicKey.Read text).map .dsaPub
    | .RSA_PUB => (RsaPublicKey.Read text).map .rsaPub
  r.mapErr fun e => if e = .keyError then .keyczarError else e

end Verif
