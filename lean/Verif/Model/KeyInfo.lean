import Verif.Model.Json
/-
python/src/keyczar/keyinfo.py
-/
namespace Verif

/-- keyinfo.py:57-64 -/
inductive KeyType where
  | AES | HMAC_SHA1 | DSA_PRIV | DSA_PUB | RSA_PRIV | RSA_PUB
deriving DecidableEq, Repr

/-- keyinfo.py:57-62, third constructor argument -/
def KeyType.sizes : KeyType → List Nat
  | .AES => [128, 192, 256]
  | .HMAC_SHA1 => [256]
  | .DSA_PRIV | .DSA_PUB => [1024]
  | .RSA_PRIV | .RSA_PUB => [2048, 4096, 1024, 768, 512]

/-- keyinfo.py:52 `default_size = sizes[0]` -/
def KeyType.defaultSize (t : KeyType) : Nat := t.sizes.headD 0

/-- keyinfo.py:54-55 `IsValidSize` on a Python int -/
def KeyType.IsValidSize (t : KeyType) (size : Int) : Bool := (t.sizes.map Int.ofNat).contains size

/-- keyinfo.py:57-62 first argument, `str(key_type)` -/
def KeyType.name : KeyType → String
  | .AES => "AES" | .HMAC_SHA1 => "HMAC_SHA1" | .DSA_PRIV => "DSA_PRIV" | .DSA_PUB => "DSA_PUB"
  | .RSA_PRIV => "RSA_PRIV" | .RSA_PUB => "RSA_PUB"

/-- keyinfo.py:81-84 -/
inductive KeyStatus where
  | PRIMARY | ACTIVE | INACTIVE
deriving DecidableEq, Repr

def KeyStatus.name : KeyStatus → String
  | .PRIMARY => "PRIMARY" | .ACTIVE => "ACTIVE" | .INACTIVE => "INACTIVE"

/-- keyinfo.py:101-106 -/
inductive KeyPurpose where
  | DECRYPT_AND_ENCRYPT | ENCRYPT | SIGN_AND_VERIFY | VERIFY
deriving DecidableEq, Repr

def KeyPurpose.name : KeyPurpose → String
  | .DECRYPT_AND_ENCRYPT => "DECRYPT_AND_ENCRYPT" | .ENCRYPT => "ENCRYPT"
  | .SIGN_AND_VERIFY => "SIGN_AND_VERIFY" | .VERIFY => "VERIFY"

/-- keyinfo.py:128-132 -/
inductive CipherMode where
  | CBC | CTR | ECB | DET_CBC
deriving DecidableEq, Repr

def CipherMode.name : CipherMode → String
  | .CBC => "CBC" | .CTR => "CTR" | .ECB => "ECB" | .DET_CBC => "DET_CBC"

/-- `try: d[j] except KeyError: raise KeyczarError` for a dict with string keys and a parsed JSON
value `j`: unhashable values (list, dict) raise `TypeError`. -/
def lookupName {α} (table : List (String × α)) (j : Json) : Py α :=
  match j with
  | .str s => match table.find? (fun p => p.1.toList = s) with
    | some p => .ok p.2
    | none => .error .keyczarError
  | .arr _ | .obj _ => .error .typeError
  | _ => .error .keyczarError

/-- keyinfo.py:66-70 `GetType`, applied to a JSON value -/
def GetType : Json → Py KeyType :=
  lookupName [("AES", .AES), ("HMAC_SHA1", .HMAC_SHA1), ("DSA_PRIV", .DSA_PRIV),
    ("DSA_PUB", .DSA_PUB), ("RSA_PRIV", .RSA_PRIV), ("RSA_PUB", .RSA_PUB)]

/-- keyinfo.py:86-90 `GetStatus` -/
def GetStatus : Json → Py KeyStatus :=
  lookupName [("PRIMARY", .PRIMARY), ("ACTIVE", .ACTIVE), ("INACTIVE", .INACTIVE)]

/-- keyinfo.py:108-112 `GetPurpose` -/
def GetPurpose : Json → Py KeyPurpose :=
  lookupName [("DECRYPT_AND_ENCRYPT", .DECRYPT_AND_ENCRYPT), ("ENCRYPT", .ENCRYPT),
    ("SIGN_AND_VERIFY", .SIGN_AND_VERIFY), ("VERIFY", .VERIFY)]

/-- keyinfo.py:134-138 `GetMode` -/
def GetMode : Json → Py CipherMode :=
  lookupName [("CBC", .CBC), ("CTR", .CTR), ("ECB", .ECB), ("DET_CBC", .DET_CBC)]

/-- JSON text of a name constant -/
def Json.ofString (s : String) : Json := .str s.toList

end Verif
