import Verif.Model.GenKey
import Verif.Model.Session
/-
The Python side of the interoperability tests: python/tests/keyczar_tests/interop_test.py.  It is called with one JSON
text and creates key sets, makes an output with a key set (`Generate`) or checks an output (`Test`).

Simplifications: texts in the JSON arguments are plain ASCII (`Json.toBytes`, else `unmodelled`); names of algorithms do
not begin with a slash (`pathJoin`).  What keyczart prints is left out, so the text printed by `create` is not modelled.
-/
namespace Verif

/-- `j == "..."` for a parsed JSON value -/
def Json.isText (j : Json) (s : String) : Bool :=
  match j with
  | .str t => t = s.toList
  | _ => false

/-- `j.get(k, d)`: only dicts have this method -/
def Json.getD (j : Json) (k : String) (d : Json) : Py Json :=
  match j with
  | .obj l => .ok ((dictGet l k.toList).getD d)
  | _ => .error .attributeError

/-- `"..." in j`: a dict has the key, a list has the element, a string contains the text; numbers, booleans and null
raise TypeError -/
def Json.contains (j : Json) (s : String) : Py Bool :=
  match j with
  | .obj l => .ok (dictGet l s.toList).isSome
  | .arr l => .ok (l.any (·.isText s))
  | .str t => .ok (decide (s.toList <:+: t))
  | _ => .error .typeError

variable (P : Prims)

/-- interop_test.py:105-115 `BaseOperation._GetKeyPath` and `_GetReader` -/
def GetReader (fs : FS) (keyPath algorithm crypter pubKey : Bytes) : Py Reader := do
  let reader ← CreateReader (pathJoin keyPath (algorithm ++ crypter ++ pubKey)) fs
  if crypter = [] then return reader
  else
    let keySetCrypter ← Czar.init P .crypter (← CreateReader (pathJoin keyPath crypter) fs)
    return EncryptedReader P reader keySetCrypter

/-- The arguments of `_GetReader`: `algorithm`, `options["cryptedKeySet"]` and `pub_options.get("pubKey", "")`
(interop_test.py:147-148, 161-163 and so on; the two dicts differ in `Test`). -/
def readerOf (fs : FS) (keyPath : Bytes) (algorithm options pubOptions : Json) : Py Reader := do
  let crypter ← options.get "cryptedKeySet"
  let pubKey ← pubOptions.getD "pubKey" (Json.ofString "")
  GetReader P fs keyPath (← algorithm.toBytes) (← crypter.toBytes) (← pubKey.toBytes)

/-- interop_test.py:118-124 `JsonOutput` -/
def JsonOutput (output : Bytes) : Bytes := dumps (.obj [("output".toList, Json.ofBytes (Base64WSEncode output))])

/-- interop_test.py:127-132 `JsonInput` -/
def JsonInput (j : Json) : Py Bytes := getB64 j "output"

/-- interop_test.py:143-146 and the same lines of the other operations -/
def encoderOf (options : Json) : Py (Option (Bytes → Bytes)) := do
  return if (← options.get "encoding").isText "encoded" then some Base64WSEncode else none

/-- interop_test.py:154-157 and the same lines of the other operations -/
def decoderOf (options : Json) : Py (Option (Bytes → Py Bytes)) := do
  return if (← options.get "encoding").isText "encoded" then some Base64WSDecode else none

/-- `assert b` -/
def assert (b : Bool) : Py Unit := if b then .ok () else .error .assertionError

/-- interop_test.py:141-150 `UnversionedSignOperation.Generate` -/
def UnversionedSignOperation.Generate (fs : FS) (rnd : Nat → Rand) (keyPath data : Bytes) (algorithm options : Json) :
    Py Bytes := do
  let encoder ← encoderOf options
  let signer ← Czar.init P .unversionedSigner (← readerOf P fs keyPath algorithm options options)
  return JsonOutput (← signer.UnversionedSign P (rnd 0) data encoder)

/-- interop_test.py:152-164 `UnversionedSignOperation.Test` -/
def UnversionedSignOperation.Test (fs : FS) (keyPath data : Bytes) (output algorithm generateOptions testOptions : Json) :
    Py Unit := do
  let signature ← JsonInput output
  let decoder ← decoderOf generateOptions
  let cls : CzarClass := if (← testOptions.get "class").isText "verifier" then .unversionedVerifier else .unversionedSigner
  let verifier ← Czar.init P cls (← readerOf P fs keyPath algorithm generateOptions testOptions)
  assert (← verifier.UnversionedVerify P data signature decoder)

/-- interop_test.py:173-189 `SignedSessionOperation.Generate` -/
def SignedSessionOperation.Generate (fs : FS) (rnd : Nat → Rand) (keyPath data : Bytes) (algorithm options : Json) :
    Py Bytes := do
  let signer ← Czar.init P .signer (← readerOf P fs keyPath (← options.get "signer") options (.obj []))
  let keyEncrypter ← Czar.init P .encrypter (← readerOf P fs keyPath algorithm options options)
  let crypter ← SignedSessionEncrypter.new P keyEncrypter (rnd 0) (rnd 1)
  let encryptedData ← SignedSessionEncrypter.Encrypt P crypter signer (rnd 2) (rnd 3) data
  return dumps (.obj [("output".toList, Json.ofBytes encryptedData),
    ("sessionMaterial".toList, Json.ofBytes crypter.material)])

/-- interop_test.py:191-203 `SignedSessionOperation.Test`; `Decrypt` may return None, which differs from every text -/
def SignedSessionOperation.Test (fs : FS) (keyPath data : Bytes) (output algorithm generateOptions testOptions : Json) :
    Py Unit := do
  let encryptedData ← output.get "output"
  let sessionMaterial ← output.get "sessionMaterial"
  let signerAlgorithm ← generateOptions.get "signer"
  let verifier ← Czar.init P .verifier (← readerOf P fs keyPath signerAlgorithm generateOptions (.obj []))
  let keyCrypter ← Czar.init P .crypter (← readerOf P fs keyPath algorithm generateOptions testOptions)
  let session ← SignedSessionDecrypter.new P keyCrypter (← sessionMaterial.toBytes)
  let decryptedData ← SignedSessionDecrypter.Decrypt P session verifier (← encryptedData.toBytes)
  assert (decryptedData = some data)

/-- interop_test.py:212-221 `AttachedSignOperation.Generate` -/
def AttachedSignOperation.Generate (fs : FS) (rnd : Nat → Rand) (keyPath data : Bytes) (algorithm options : Json) :
    Py Bytes := do
  let encoder ← encoderOf options
  let signer ← Czar.init P .signer (← readerOf P fs keyPath algorithm options options)
  return JsonOutput (← signer.AttachedSign P (rnd 0) data [] encoder)

/-- interop_test.py:223-235 `AttachedSignOperation.Test`: the assertion is about the truth value of the data returned,
so None and the empty text both fail -/
def AttachedSignOperation.Test (fs : FS) (keyPath _data : Bytes) (output algorithm generateOptions testOptions : Json) :
    Py Unit := do
  let signature ← JsonInput output
  let decoder ← decoderOf generateOptions
  let cls : CzarClass := if (← testOptions.get "class").isText "verifier" then .verifier else .signer
  let verifier ← Czar.init P cls (← readerOf P fs keyPath algorithm generateOptions testOptions)
  assert (match ← verifier.AttachedVerify P signature [] decoder with
    | none => false
    | some d => !d.isEmpty)

/-- interop_test.py:244-253 `SignOperation.Generate` -/
def SignOperation.Generate (fs : FS) (rnd : Nat → Rand) (keyPath data : Bytes) (algorithm options : Json) :
    Py Bytes := do
  let encoder ← encoderOf options
  let signer ← Czar.init P .signer (← readerOf P fs keyPath algorithm options options)
  return JsonOutput (← signer.Sign P (rnd 0) data encoder)

/-- interop_test.py:255-267 `SignOperation.Test` -/
def SignOperation.Test (fs : FS) (keyPath data : Bytes) (output algorithm generateOptions testOptions : Json) :
    Py Unit := do
  let signature ← JsonInput output
  let decoder ← decoderOf generateOptions
  let cls : CzarClass := if (← testOptions.get "class").isText "verifier" then .verifier else .signer
  let verifier ← Czar.init P cls (← readerOf P fs keyPath algorithm generateOptions testOptions)
  assert (← verifier.Verify P data signature decoder)

/-- interop_test.py:276-289 `EncryptOperation.Generate` -/
def EncryptOperation.Generate (fs : FS) (rnd : Nat → Rand) (keyPath data : Bytes) (algorithm options : Json) :
    Py Bytes := do
  let encoder ← encoderOf options
  let cls : CzarClass := if (← options.get "class").isText "crypter" then .crypter else .encrypter
  let crypter ← Czar.init P cls (← readerOf P fs keyPath algorithm options options)
  return JsonOutput (← crypter.Encrypt P (rnd 0) data encoder)

/-- interop_test.py:291-300 `EncryptOperation.Test` -/
def EncryptOperation.Test (fs : FS) (keyPath data : Bytes) (output algorithm generateOptions testOptions : Json) :
    Py Unit := do
  let ciphertext ← JsonInput output
  let decoder ← decoderOf generateOptions
  let crypter ← Czar.init P .crypter (← readerOf P fs keyPath algorithm generateOptions testOptions)
  assert ((← crypter.Decrypt P ciphertext decoder) = data)

/-- the keys of the dict interop_test.py:302-308 `operations` -/
inductive InteropOp where
  | unversioned | attached | sign | encrypt | signedSession
deriving DecidableEq, Repr

/-- `operations[operation_name]` (interop_test.py:302-308, 322, 330): KeyError for an unknown name, TypeError for a
list or a dict -/
def operationOf (name : Json) : Py InteropOp :=
  match name with
  | .arr _ | .obj _ => .error .typeError
  | name =>
    if name.isText "unversioned" then .ok .unversioned
    else if name.isText "attached" then .ok .attached
    else if name.isText "sign" then .ok .sign
    else if name.isText "encrypt" then .ok .encrypt
    else if name.isText "signedSession" then .ok .signedSession
    else .error .keyError

/-- interop_test.py:320-325 `Generate`, with `BaseOperation.__init__` (57-62); the text printed -/
def interopGenerate (fs : FS) (rnd : Nat → Rand) (operation keyPath algorithm options testData : Json) : Py Bytes := do
  let op ← operationOf operation
  let data ← testData.toBytes
  let path ← keyPath.toBytes
  let output ← match op with
    | .unversioned => UnversionedSignOperation.Generate P fs rnd path data algorithm options
    | .attached => AttachedSignOperation.Generate P fs rnd path data algorithm options
    | .sign => SignOperation.Generate P fs rnd path data algorithm options
    | .encrypt => EncryptOperation.Generate P fs rnd path data algorithm options
    | .signedSession => SignedSessionOperation.Generate P fs rnd path data algorithm options
  return output ++ [10]

/-- interop_test.py:328-333 `Test`; the text printed -/
def interopTest (fs : FS) (operation output keyPath algorithm generateOptions testOptions testData : Json) : Py Bytes := do
  let op ← operationOf operation
  let data ← testData.toBytes
  let path ← keyPath.toBytes
  match op with
  | .unversioned => UnversionedSignOperation.Test P fs path data output algorithm generateOptions testOptions
  | .attached => AttachedSignOperation.Test P fs path data output algorithm generateOptions testOptions
  | .sign => SignOperation.Test P fs path data output algorithm generateOptions testOptions
  | .encrypt => EncryptOperation.Test P fs path data output algorithm generateOptions testOptions
  | .signedSession => SignedSessionOperation.Test P fs path data output algorithm generateOptions testOptions
  return bstr "Test passes\n"

/-- Choices outside the program: those of each keyczart command and of each operation. -/
structure InteropEnv where
  gen : GenEnv
  cmd : Nat → Env
  rnd : Nat → Rand

/-- a list of texts; anything else is outside the model -/
def textList : List Json → Py (List Bytes)
  | [] => .ok []
  | j :: t => do return (← j.toBytes) :: (← textList t)

/-- the loop of interop_test.py:315-317 `Create`, from command number `i` -/
def interopCommands (env : InteropEnv) : Nat → List Json → Cmd Unit
  | _, [] => pure ()
  | i, command :: t => do
    let argv ← Cmd.lift (match command with
      | .arr l => textList l
      | _ => .error .unmodelled)
    mainAll P env.gen (env.cmd i) argv
    interopCommands env (i + 1) t

/-- interop_test.py:347-366 `main`: the text printed by `generate` and `test` (none for `create`).  `Usage` raises
KeyczarError. -/
def interopMain (env : InteropEnv) (argv : List Bytes) : Cmd Bytes :=
  if 2 < argv.length then Cmd.lift (.error .keyczarError)
  else match argv with
    | [] => Cmd.lift (.error .keyczarError)
    | text :: _ => do
      let args ← Cmd.lift (loads text)
      if !(← Cmd.lift (args.contains "command")) then Cmd.lift (.error .keyczarError)
      else do
        let cmd ← Cmd.lift (args.get "command")
        if cmd.isText "create" then
          match ← Cmd.lift (args.get "keyczartCommands") with
          | .arr l => do
            interopCommands P env 0 l
            return []
          | _ => Cmd.lift (.error .unmodelled)
        else if cmd.isText "generate" then Cmd.look fun fs => do
          interopGenerate P fs env.rnd (← args.get "operation") (← args.get "keyPath") (← args.get "algorithm")
            (← args.get "generateOptions") (← args.get "testData")
        else if cmd.isText "test" then Cmd.look fun fs => do
          interopTest P fs (← args.get "operation") (← args.get "output") (← args.get "keyPath")
            (← args.get "algorithm") (← args.get "generateOptions") (← args.get "testOptions") (← args.get "testData")
        else Cmd.lift (.error .keyczarError)

end Verif
