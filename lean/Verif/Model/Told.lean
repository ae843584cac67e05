import Verif.Model.Keyczar
/-
What the caller of `Decrypt` is told when it fails - the exception together with its text - and the steps of the
comparison of MACs.  The other modules keep exceptions without the text where the text depends on data.
-/
namespace Verif

variable (P : Prims)

/-- an exception with `str(e)`; `none` where the exception comes from the interpreter or another library -/
structure Raised where
  err : PyErr
  text : Option Bytes
deriving DecidableEq

/-- results of functions that raise exceptions with texts -/
abbrev Told (α : Type) := Except Raised α

/-- the same result without the text -/
def Told.forget {α : Type} : Told α → Py α
  | .ok a => .ok a
  | .error r => .error r.err

/-- an exception whose text is not modelled -/
def Py.told {α : Type} : Py α → Told α
  | .ok a => .ok a
  | .error e => .error ⟨e, none⟩

/-- errors.py:25-30 -/
def BadVersionError (version : Nat) : Raised :=
  ⟨.badVersion version, some (bstr "Received a bad version number: " ++ decDigits version)⟩

/-- errors.py:35-39 -/
def InvalidSignatureError : Raised := ⟨.invalidSignature, some (bstr "Invalid ciphertext signature")⟩

/-- errors.py:41-46 -/
def KeyNotFoundError (hash : Bytes) : Raised :=
  ⟨.keyNotFound, some (bstr "Key with hash_val identifier " ++ hash ++ bstr " not found.")⟩

/-- errors.py:48-53 -/
def ShortCiphertextError (length : Nat) : Raised :=
  ⟨.shortCiphertext length, some (bstr "Input of length " ++ decDigits length ++ bstr " is too short to be valid ciphertext.")⟩

/-- keys.py:444-469 `AesKey.Decrypt` -/
def AesKey.DecryptTold (k : AesKey) (input : Bytes) : Told Bytes := do
  let data := sliceFrom input HEADER_SIZE
  if data.length < 16 + HLEN then .error (ShortCiphertextError data.length)
  else do
    let iv := sliceTo data 16
    let ciph := slice data 16 (-(HLEN : Int))
    let sig := sliceFrom data (-(HLEN : Int))
    if (← (k.hmacKey.Verify P (sliceTo input (-(HLEN : Int))) sig).told) then do
      let kb ← k.keyBytes.told
      let cipher ← (CbcObj.new kb iv).told
      let (plain, _) ← (cipher.decrypt P ciph).told
      (aesUnPad plain).told
    else .error InvalidSignatureError

/-- keys.py:715-754 `RsaPrivateKey.__Decode` with the empty label -/
def oaepDecodeTold (count : Py Nat) (encoded : Bytes) : Told Bytes := do
  if encoded.length < 2 * HLEN + 2 then
    .error ⟨.keyczarError, some (bstr "OAEP Decoding Error - encoded_message is too small: " ++ decDigits encoded.length)⟩
  else do
    let k ← count.told
    let diffLen : Int := (k : Int) - encoded.length
    let encoded := if diffLen > 1 then List.replicate (diffLen - 1).toNat 0 ++ encoded else encoded
    let maskedSeed := sliceTo encoded HLEN
    let maskedDatablock := sliceFrom encoded HLEN
    let seedMask ← (MGF P maskedDatablock HLEN).told
    let seed := Xor maskedSeed seedMask
    let datablockMask ← (MGF P seed maskedDatablock.length).told
    let datablock := Xor maskedDatablock datablockMask
    let labelHash := sliceTo datablock HLEN
    if labelHash ≠ Hash P [[]] then .error ⟨.keyczarError, some (bstr "OAEP Decoding Error - hash_id is invalid")⟩
    else
      match (sliceFrom datablock HLEN).dropWhile (· = 0) with
      | [] => .error ⟨.indexError, none⟩
      | c :: msg =>
        if c ≠ 1 then .error ⟨.keyczarError, some (bstr "OAEP Decoding Error - expected a 1 value")⟩ else .ok msg

/-- keys.py:827-839 `RsaPrivateKey.Decrypt` -/
def RsaPrivateKey.DecryptTold (key : RsaPrivateKey) (input : Bytes) : Told Bytes := do
  let ciph := sliceFrom input HEADER_SIZE
  let decrypted ← (key.key.decrypt P ciph).told
  oaepDecodeTold P (numBytes key.key.n) decrypted

/-- the two kinds of keys that decrypt -/
def Key.DecryptTold (k : Key) (input : Bytes) : Told Bytes :=
  match k with
  | .aes k => k.DecryptTold P input
  | .rsaPriv k => k.DecryptTold P input
  | _ => .error ⟨.attributeError, none⟩

/-- keyczar.py:111-126 `GetKey` for an identifier -/
def Czar.GetKeyTold (c : Czar) (hash : Bytes) : Told Key :=
  match c.GetKeyByHash hash with
  | .error .keyNotFound => .error (KeyNotFoundError hash)
  | r => r.told

/-- keyczar.py:77-93 `_ParseHeader` -/
def Czar.ParseHeaderTold (c : Czar) (header : Bytes) : Told Key :=
  match header with
  | [] => .error ⟨.indexError, none⟩
  | v :: _ =>
    if v.toNat ≠ VERSION then .error (BadVersionError v.toNat)
    else c.GetKeyTold (Base64WSEncode (sliceFrom header 1))

/-- keyczar.py:511-535 `Decrypt` without a decoder, or with one whose exceptions have unmodelled texts -/
def Czar.DecryptTold (c : Czar) (ciphertext : Bytes) (decoder : Option (Bytes → Py Bytes)) : Told Bytes := do
  let data ← (decodeWith decoder ciphertext).told
  if data.length < HEADER_SIZE then .error (ShortCiphertextError data.length)
  else do
    let key ← c.ParseHeaderTold (sliceTo data HEADER_SIZE)
    key.DecryptTold P data

/-! ### The steps of a comparison -/

/-- a step of `VerifySignedData` that reads the two strings -/
inductive CompareStep
  | lengths   -- keys.py:582
  | bytes     -- keys.py:586, one pass of the loop
  | result    -- keys.py:587
deriving DecidableEq

/-- keys.py:569-587 `VerifySignedData`: the result and the steps it took -/
def VerifySignedDataSteps (mac sig : Bytes) : Bool × List CompareStep :=
  if sig.length ≠ mac.length then (false, [.lengths])
  else
    let st := (List.zip mac sig).foldl (fun (st : UInt8 × List CompareStep) (p : UInt8 × UInt8) =>
      (st.1 ||| (p.1 ^^^ p.2), st.2 ++ [.bytes])) (0, [.lengths])
    (st.1 == 0, st.2 ++ [.result])

end Verif
