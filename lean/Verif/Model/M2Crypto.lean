import Verif.Model.Keys
/-
The other crypto library: keys.py:41-48 (`ACTIVE_CRYPT_LIB`), the adaptors keys.py:182-320 and the choice between them
keys.py:471-493.  Only `AesKey.Encrypt` goes through an adaptor; decryption and the streams always use PyCrypto.

`M2Crypto.EVP.Cipher` is library code, modelled after OpenSSL's EVP_CipherUpdate and EVP_CipherFinal with padding
switched off.
-/
namespace Verif

variable (P : Prims)

/-- keys.py:228-230 -/
inductive EvpOp where
  | decrypt | encrypt
deriving DecidableEq, Repr

/-- an `EVP.Cipher` object: direction, key, chaining value and the bytes of an incomplete block -/
structure EvpCtx where
  op : EvpOp
  key : Bytes
  iv : Bytes
  buf : Bytes
deriving DecidableEq, Repr

/-- `EVP.Cipher(alg='aes_%s_cbc' % (key_size*8), …)`: there are only such algorithms for keys of 16, 24 and 32 bytes
(`ValueError` otherwise).  The IV always has 16 bytes (keys.py:436); M2Crypto's behaviour for others is not
modelled. -/
def EvpCtx.new (op : EvpOp) (key iv : Bytes) : Py EvpCtx :=
  if iv.length ≠ 16 then .error .unmodelled
  else if validAesKeyLen key.length then .ok ⟨op, key, iv, []⟩ else .error .valueError

/-- `cipher.update(data)`: the complete blocks of everything given so far are processed, the rest is kept. -/
def EvpCtx.update (c : EvpCtx) (data : Bytes) : Bytes × EvpCtx :=
  let all := c.buf ++ data
  let n := 16 * (all.length / 16)
  let bs := blocks16 (all.take n)
  match c.op with
  | .encrypt =>
    let cs := cbcEncBlocks P c.key c.iv bs
    (cs.flatten, { c with iv := lastBlock c.iv cs, buf := all.drop n })
  | .decrypt => ((cbcDecBlocks P c.key c.iv bs).flatten, { c with iv := lastBlock c.iv bs, buf := all.drop n })

/-- `cipher.final()` without padding: an incomplete block is an error (`EVPError`, here `valueError`). -/
def EvpCtx.final (c : EvpCtx) : Py Bytes := if c.buf = [] then .ok [] else .error .valueError

/-- keys.py:217-251 `EVPAdaptor`: key, IV and the ciphers made so far (`self.ciphers`) -/
structure EvpAdaptor where
  key : Bytes
  iv : Bytes
  dec : Option EvpCtx
  enc : Option EvpCtx

/-- keys.py:230-251 `__init__`: nothing is checked -/
def EvpAdaptor.new (key iv : Bytes) : EvpAdaptor := ⟨key, iv, none, none⟩

/-- keys.py:254-290 `__Cipher(selector)` for OP_DECRYPT and OP_ENCRYPT -/
def EvpAdaptor.cipher (a : EvpAdaptor) (op : EvpOp) : Py EvpCtx :=
  match op, a.dec, a.enc with
  | .decrypt, some c, _ => .ok c
  | .encrypt, _, some c => .ok c
  | op, _, _ => EvpCtx.new op a.key a.iv

/-- keys.py:292-302 `decrypt` -/
def EvpAdaptor.decrypt (a : EvpAdaptor) (s : Bytes) : Py (Bytes × EvpAdaptor) := do
  let c ← a.cipher .decrypt
  return ((c.update P s).1, { a with dec := some (c.update P s).2 })

/-- keys.py:304-314 `encrypt` -/
def EvpAdaptor.encrypt (a : EvpAdaptor) (s : Bytes) : Py (Bytes × EvpAdaptor) := do
  let c ← a.cipher .encrypt
  return ((c.update P s).1, { a with enc := some (c.update P s).2 })

/-- keys.py:316-322 `final()` with the default selector OP_ACTIVE, and keys.py:263-271 -/
def EvpAdaptor.final (a : EvpAdaptor) : Py Bytes :=
  match a.dec, a.enc with
  | some c, none => c.final
  | none, some c => c.final
  | _, _ => .error .assertionError

/-- keys.py:48 `ACTIVE_CRYPT_LIB` -/
inductive CryptLib where
  | pycrypto | m2crypto
deriving DecidableEq, Repr

/-- keys.py:437-439: `cipher = self.__CreateCipher(…)`, `cipher.encrypt(data) + cipher.final()`.  With PyCrypto the
adaptor keys.py:182-213 passes everything on, and its `final` is empty. -/
def encryptWith (lib : CryptLib) (key iv data : Bytes) : Py Bytes :=
  match lib with
  | .pycrypto => do
    let c ← CbcObj.new key iv
    let (ciph, _) ← c.encrypt P data
    return ciph ++ []
  | .m2crypto => do
    let (ciph, a) ← (EvpAdaptor.new key iv).encrypt P data
    return ciph ++ (← a.final)

/-- keys.py:425-442 `AesKey.Encrypt` with either library -/
def AesKey.EncryptLib (lib : CryptLib) (k : AesKey) (iv data : Bytes) : Py Bytes := do
  let data := aesPad data
  let kb ← k.keyBytes
  let ciph ← encryptWith P lib kb iv data
  let header ← headerOf (← k.hashId P)
  let msg := header ++ iv ++ ciph
  let sig ← k.hmacKey.Sign P msg
  return msg ++ sig

end Verif
