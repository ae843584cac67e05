import Verif.Model.Base64
/-
The Python 3 reading of the functions on the path from a reader to a key identifier, and of key generation: what
they do when the file is run by the interpreter its syntax asks for.  `str` and `bytes` are different types, `/` on
integers gives a float, and no bytes value may be given where the library wants text or the other way round.
-/
namespace Verif.Py3

/-- a Python 3 value, as far as these functions can see one.  Text is a list of code points. -/
inductive Val where
  | str (s : List Nat)
  | bytes (b : Bytes)
  | int (n : Int)
  | float
  | none
deriving DecidableEq, Repr

/-- what the functions are run against: the text `str()` gives for a value that is no `str`, the hash function, the
operating system's random bytes and the numbers PyCrypto generates (or its exception) -/
structure Env where
  render : Val → List Nat
  sha1 : Bytes → Bytes
  urandom : Nat → Bytes
  /-- `DSA.generate(size, util.RandBytes)`: y, g, p, q -/
  dsaGenerate : Nat → Py (Nat × Nat × Nat × Nat)
  /-- `RSA.generate(size, util.RandBytes)`: n, e -/
  rsaGenerate : Nat → Py (Nat × Nat)

/-- `str(v)`: a `str` is returned as it is; a `bytes` is shown as `b'…'`. -/
def strOf (E : Env) : Val → Val
  | .str s => .str s
  | v => .str (E.render v)

/-- `base64.urlsafe_b64encode(v)` of Python 3: only bytes are accepted. -/
def urlsafe_b64encode : Val → Py Val
  | .bytes b => .ok (.bytes (urlsafeB64encode b))
  | _ => .error .typeError

/-- `v.replace(old, "")` where `old` is a one character `str`. -/
def replaceStr (old : Nat) : Val → Py Val
  | .str s => .ok (.str (s.filter (· ≠ old)))
  | .bytes _ => .error .typeError
  | _ => .error .attributeError

/-- util.py:343-357 `Base64WSEncode` -/
def Base64WSEncode (E : Env) (s : Val) : Py Val := do
  replaceStr 61 (← urlsafe_b64encode (strOf E s))

/-- the characters at which `str.splitlines` of Python 3 splits -/
def isLineBreak (c : Nat) : Bool :=
  c = 10 || c = 11 || c = 12 || c = 13 || c = 28 || c = 29 || c = 30 || c = 133 || c = 8232 || c = 8233

/-- `''.join(v.splitlines())`: the pieces of a bytes value are bytes, which `''.join` refuses (an empty one has no
pieces). -/
def joinLines : Val → Py (List Nat)
  | .str s => .ok (s.filter fun c => !isLineBreak c)
  | .bytes [] => .ok []
  | .bytes _ => .error .typeError
  | _ => .error .attributeError

/-- `base64.urlsafe_b64decode(s)` of Python 3 for a `str`: text outside ASCII is a `ValueError`; so is
`binascii.Error`, which is not a `TypeError` any more. -/
def urlsafe_b64decode (s : List Nat) : Py Val :=
  if s.all (· < 128) then
    match a2bGo ((s.map UInt8.ofNat).map trDec) 0 0 0 [] with
    | some b => .ok (.bytes b)
    | none => .error .valueError
  else .error .valueError

/-- util.py:364-394 `Base64WSDecode`.  What it returns is a bytes value. -/
def Base64WSDecode (v : Val) : Py Val := do
  let s ← joinLines v
  let s := s.filter (· ≠ 32)
  if s.length % 4 = 1 then .error .base64Decoding
  else
    let s := if s.length % 4 = 2 then s ++ [61, 61] else if s.length % 4 = 3 then s ++ [61] else s
    match urlsafe_b64decode s with
    | .error .typeError => .error .base64Decoding
    | r => r

/-- `len(v)` -/
def len : Val → Py Nat
  | .str s => .ok s.length
  | .bytes b => .ok b.length
  | _ => .error .typeError

/-- util.py:284-287 `IntToBytes`: a `str` of four characters -/
def IntToBytes (n : Nat) : Val := .str [n / 2 ^ 24 % 256, n / 2 ^ 16 % 256, n / 2 ^ 8 % 256, n % 256]

/-- util.py:277-280: the loop of `BigIntToBytes`; `acc` is the reverse of `chars` -/
def digits256 : Nat → Nat → List Nat → List Nat
  | 0, _, acc => acc
  | fuel + 1, n, acc => if n = 0 then acc else digits256 fuel (n / 256) (n % 256 :: acc)

/-- util.py:275-282 `BigIntToBytes`: a `str`.  `n` steps are more than enough. -/
def BigIntToBytes (n : Nat) : Val := .str (digits256 n n [])

/-- util.py:306-308 `PadBytes`: `n * '\x00' + byte_string` -/
def PadBytes (v : Val) (n : Nat) : Py Val :=
  match v with
  | .str s => .ok (.str (List.replicate n 0 ++ s))
  | _ => .error .typeError

/-- util.py:289-291 `BytesToLong`: `ord(byte_string[i])`; an element of a bytes value is an integer, which `ord`
refuses. -/
def BytesToLong : Val → Py Nat
  | .str s => .ok (s.foldl (fun a c => a * 256 + c) 0)
  | .bytes [] => .ok 0
  | .bytes _ => .error .typeError
  | _ => .error .typeError

/-- util.py:310-316 `TrimBytes`: `byte_string.lstrip(chr(0))` -/
def TrimBytes : Val → Py Val
  | .str s =>
    let t := s.dropWhile (· = 0)
    .ok (.str (if t = [] then [0] else t))
  | .bytes _ => .error .typeError
  | _ => .error .attributeError

/-- util.py:318-321 `RandBytes`: `os.urandom(n)`; a float is refused. -/
def RandBytes (E : Env) : Val → Py Val
  | .int n => if n < 0 then .error .valueError else .ok (.bytes (E.urandom n.toNat))
  | _ => .error .typeError

/-- `a / b` for integers -/
def div (_a _b : Int) : Val := .float

/-- `md.update(v)` -/
def update (md : Bytes) : Val → Py Bytes
  | .bytes b => .ok (md ++ b)
  | _ => .error .typeError

/-- util.py:323-328 `Hash(*inputs)` -/
def Hash (E : Env) (inputs : List Val) : Py Val := do
  let md ← inputs.foldlM update []
  .ok (.bytes (E.sha1 md))

/-- util.py:330-336 `PrefixHash(*inputs)` -/
def PrefixHash (E : Env) (inputs : List Val) : Py Val := do
  let md ← inputs.foldlM (fun md i => do update (← update md (IntToBytes (← len i))) i) []
  .ok (.bytes (E.sha1 md))

/-- `v[:4]` -/
def take4 : Val → Py Val
  | .str s => .ok (.str (s.take 4))
  | .bytes b => .ok (.bytes (b.take 4))
  | _ => .error .typeError

/-- a key object: the attributes its `_Hash` looks at.  The parameters of an asymmetric key are a dictionary. -/
inductive Key where
  | aes (keyString hmacKeyString : Val)
  | hmac (keyString : Val)
  | dsaPub (params : List (String × Val))
  | rsaPub (params : List (String × Val))
  | priv (publicKey : Key)
  /-- any other key that keeps the default `_Hash` (keys.py:141-144); none does -/
  | plain (keyString : Val)

/-- `params[name]` -/
def param (params : List (String × Val)) (name : String) : Py Val :=
  match params.lookup name with
  | some v => .ok v
  | none => .error .keyError

/-- `key.hash_id`: keys.py:141-150 (default), 340-344 (AES), 505-507 (HMAC), 616-617 (private keys), 876-881 (DSA),
966-969 (RSA) -/
def Key.hash_id (E : Env) : Key → Py Val
  | .plain ks => do
    let full ← Hash E [IntToBytes (← len (← Base64WSDecode ks)), ← Base64WSDecode ks]
    Base64WSEncode E (← take4 full)
  | .aes ks hs => do
    let full ← Hash E [IntToBytes (← len (← Base64WSDecode ks)), ← Base64WSDecode ks, ← Base64WSDecode hs]
    Base64WSEncode E (← take4 full)
  | .hmac ks => do
    let full ← Hash E [← Base64WSDecode ks]
    Base64WSEncode E (← take4 full)
  | .dsaPub ps => do
    let full ← PrefixHash E [← TrimBytes (← param ps "p"), ← TrimBytes (← param ps "q"),
      ← TrimBytes (← param ps "g"), ← TrimBytes (← param ps "y")]
    Base64WSEncode E (← take4 full)
  | .rsaPub ps => do
    let full ← PrefixHash E [← TrimBytes (← param ps "modulus"), ← TrimBytes (← param ps "publicExponent")]
    Base64WSEncode E (← take4 full)
  | .priv pub => pub.hash_id E

/-- a version: its number and whether its status is PRIMARY -/
structure Version where
  number : Int
  primary : Bool
deriving DecidableEq

/-- the part of a `Keyczar` object built by the loop: keyczar.py:44-46 -/
structure Czar where
  versions : List (Version × Key)
  hashes : List (Val × Key)
  primary : Option Version

/-- keyczar.py:57-66: the loop of `Keyczar.__init__` over the versions of the metadata.  `read v` is
`keys.ReadKey(self.metadata.type, reader.GetKey(v))`, an arbitrary result. -/
def loadLoop (E : Env) (read : Version → Py Key) : List Version → Czar → Py Czar
  | [], c => .ok c
  | v :: vs, c =>
    if v.primary && c.primary.isSome then .error .keyczarError
    else
      match read v with
      | .error e => .error e
      | .ok key =>
        match key.hash_id E with
        | .error e => .error e
        | .ok h =>
          loadLoop E read vs
            ⟨c.versions ++ [(v, key)], c.hashes ++ [(h, key)], if v.primary then some v else c.primary⟩

/-- keyczar.py:43-66 `Keyczar.__init__`: the metadata, the purpose test and the test for an encrypted reader are an
arbitrary result `checks`. -/
def load (E : Env) (checks : Py (List Version)) (read : Version → Py Key) : Py Czar :=
  match checks with
  | .error e => .error e
  | .ok vs => loadLoop E read vs ⟨[], [], none⟩

/-- keyinfo.py:54-61: the key types -/
inductive KType where
  | AES | HMAC_SHA1 | DSA_PRIV | DSA_PUB | RSA_PRIV | RSA_PUB
deriving DecidableEq, Repr

/-- keyinfo.py:54-59 -/
def KType.sizes : KType → List Nat
  | .AES => [128, 192, 256]
  | .HMAC_SHA1 => [256]
  | .DSA_PRIV | .DSA_PUB => [1024]
  | .RSA_PRIV | .RSA_PUB => [2048, 4096, 1024, 768, 512]

/-- keys.py:514-526 `HmacKey.Generate` -/
def genHmac (E : Env) (size : Nat) : Py Key := do
  let ks ← Base64WSEncode E (← RandBytes E (div size 8))
  .ok (.hmac ks)

/-- keys.py:60-92 `GenKey` with the `Generate` methods keys.py:347-360 (AES), 514-526, 641-661 (DSA), 768-792 (RSA).
The private parameters are not followed. -/
def GenKey (E : Env) (t : KType) (size : Nat) : Py Key :=
  if size ∉ t.sizes then .error .keyczarError
  else match t with
  | .AES => do
    let ks ← Base64WSEncode E (← RandBytes E (div size 8))
    match ← genHmac E 256 with
    | .hmac hs => .ok (.aes ks hs)
    | k => .ok k
  | .HMAC_SHA1 => genHmac E size
  | .DSA_PRIV => do
    let (y, g, p, q) ← E.dsaGenerate size
    .ok (.priv (.dsaPub [("g", ← PadBytes (BigIntToBytes g) 1), ("p", ← PadBytes (BigIntToBytes p) 1),
      ("q", ← PadBytes (BigIntToBytes q) 1), ("y", ← PadBytes (BigIntToBytes y) 1)]))
  | .RSA_PRIV => do
    let (n, e) ← E.rsaGenerate size
    .ok (.priv (.rsaPub [("modulus", ← PadBytes (BigIntToBytes n) 1),
      ("publicExponent", ← PadBytes (BigIntToBytes e) 1)]))
  | .DSA_PUB | .RSA_PUB => .error .keyczarError

/-- keyczar.py:186-190: the loop that generates keys until one has a new identifier.  `fuel` bounds the repetitions
(`diverged` when it runs out); the random bytes of the repetitions come from the environments. -/
def genLoop (E : Nat → Env) (t : KType) (size : Nat) (taken : Val → Bool) : Nat → Nat → Py (Val × Key)
  | 0, _ => .error .diverged
  | fuel + 1, i =>
    match GenKey (E i) t size with
    | .error e => .error e
    | .ok key =>
      match key.hash_id (E i) with
      | .error e => .error e
      | .ok h => if taken h then genLoop E t size taken fuel (i + 1) else .ok (h, key)

/-- keyczar.py:145-192 `AddVersion`, as far as the key is concerned: whether a version is added, and the exception
otherwise -/
def AddVersion (E : Nat → Env) (t : KType) (c : Czar) (v : Version) (size : Option Nat) (fuel : Nat) : Py Czar :=
  let size := size.getD (t.sizes.headD 0)
  if size ∉ t.sizes then .error .keyczarError
  else
    match genLoop E t size (fun h => (c.hashes.any fun x => x.1 == h)) fuel 0 with
    | .error e => .error e
    | .ok (h, key) =>
      .ok ⟨c.versions ++ [(v, key)], c.hashes ++ [(h, key)], if v.primary then some v else c.primary⟩

end Verif.Py3
