import Verif.Model.Py
/-
Cryptographic primitives of the external libraries, as a parameter.
-/
namespace Verif

/-- AES key lengths accepted by `Crypto.Cipher.AES.new`. -/
def validAesKeyLen (n : Nat) : Bool := n = 16 || n = 24 || n = 32

/-- The trusted primitives: SHA-1 (`hashlib.sha1`) and the AES block function with its inverse
(`Crypto.Cipher.AES`).  The laws are the only facts about them that the theorems use. -/
structure Prims where
  sha1 : Bytes → Bytes
  aesEnc : (key block : Bytes) → Bytes
  aesDec : (key block : Bytes) → Bytes
  sha1_length : ∀ m, (sha1 m).length = 20
  aesEnc_length : ∀ k b, validAesKeyLen k.length → b.length = 16 → (aesEnc k b).length = 16
  aesDec_length : ∀ k b, validAesKeyLen k.length → b.length = 16 → (aesDec k b).length = 16
  aesDec_aesEnc : ∀ k b, validAesKeyLen k.length → b.length = 16 → aesDec k (aesEnc k b) = b
  /-- Whether the RSA implementation rejects operands that are not below the modulus with
  `ValueError` (PyCrypto's compiled `_fastmath` does, its Python fallback `_slowmath` does not).
  The theorems hold for both. -/
  rsaRangeCheck : Bool

/-- util.py:71 `HLEN = sha1().digest_size` -/
def HLEN : Nat := 20

/-- keyczar.py:37 -/
def KEY_HASH_SIZE : Nat := 4
/-- keyczar.py:38 -/
def HEADER_SIZE : Nat := 1 + KEY_HASH_SIZE
/-- keyczar.py:35 -/
def VERSION : Nat := 0
/-- keyczar.py:36 -/
def VERSION_BYTE : Bytes := [0]

variable (P : Prims)

/-- `hmac.new(key, msg, sha1).digest()` (Python standard library, RFC 2104; SHA-1 block size 64). -/
def hmacSha1 (key msg : Bytes) : Bytes :=
  let k := if key.length > 64 then P.sha1 key else key
  let k := k ++ List.replicate (64 - k.length) 0
  P.sha1 (k.map (· ^^^ 0x5c) ++ P.sha1 (k.map (· ^^^ 0x36) ++ msg))

/-- `hmac.new(key, '', sha1)` followed by updates: the hmac object, represented by its key and
the concatenation of the data fed so far (library contract of `update`). -/
structure HmacObj where
  key : Bytes
  fed : Bytes
deriving Repr, DecidableEq

def HmacObj.new (key : Bytes) : HmacObj := ⟨key, []⟩
def HmacObj.update (h : HmacObj) (d : Bytes) : HmacObj := { h with fed := h.fed ++ d }
def HmacObj.digest (h : HmacObj) : Bytes := hmacSha1 P h.key h.fed

/-- Split into 16-byte blocks (the last one may be short). -/
def blocks16 (b : Bytes) : List Bytes :=
  if _h : b.length = 0 then [] else b.take 16 :: blocks16 (b.drop 16)
termination_by b.length
decreasing_by simp; omega

def xorBytes (a b : Bytes) : Bytes := List.zipWith (· ^^^ ·) a b

/-- CBC encryption of a list of blocks; returns the ciphertext blocks. `iv` is the chaining value. -/
def cbcEncBlocks (key : Bytes) : (iv : Bytes) → List Bytes → List Bytes
  | _, [] => []
  | iv, b :: bs =>
    let c := P.aesEnc key (xorBytes b iv)
    c :: cbcEncBlocks key c bs

def cbcDecBlocks (key : Bytes) : (iv : Bytes) → List Bytes → List Bytes
  | _, [] => []
  | iv, c :: cs => xorBytes (P.aesDec key c) iv :: cbcDecBlocks key c cs

/-- A PyCrypto cipher object `AES.new(key, AES.MODE_CBC, iv)`: key and current chaining value. -/
structure CbcObj where
  key : Bytes
  iv : Bytes
deriving Repr, DecidableEq

/-- `AES.new(key, AES.MODE_CBC, iv)`: `ValueError` on a wrong key or IV length. -/
def CbcObj.new (key iv : Bytes) : Py CbcObj :=
  if validAesKeyLen key.length ∧ iv.length = 16 then .ok ⟨key, iv⟩ else .error .valueError

/-- last block of a list of ciphertext blocks, or the old chaining value -/
def lastBlock (iv : Bytes) : List Bytes → Bytes
  | [] => iv
  | [b] => b
  | _ :: bs => lastBlock iv bs

/-- `cipher.encrypt(data)`: `ValueError` unless the length is a multiple of 16; the object keeps
the last ciphertext block as chaining value. -/
def CbcObj.encrypt (c : CbcObj) (data : Bytes) : Py (Bytes × CbcObj) :=
  if data.length % 16 ≠ 0 then .error .valueError
  else
    let cs := cbcEncBlocks P c.key c.iv (blocks16 data)
    .ok (cs.flatten, { c with iv := lastBlock c.iv cs })

/-- `cipher.decrypt(data)` -/
def CbcObj.decrypt (c : CbcObj) (data : Bytes) : Py (Bytes × CbcObj) :=
  if data.length % 16 ≠ 0 then .error .valueError
  else
    let bs := blocks16 data
    .ok ((cbcDecBlocks P c.key c.iv bs).flatten, { c with iv := lastBlock c.iv bs })

end Verif
