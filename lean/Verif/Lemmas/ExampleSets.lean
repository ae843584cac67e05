import Verif.Lemmas.Init
import Verif.Model.Aes
/-
Concrete key sets for the examples beside the theorems: the files of
/repo/python/testdata/hmac and /repo/python/testdata/aes.
-/
namespace Verif.Ex
open Verif

/-- a directory with metadata and two key files -/
def reader2 (m k1 k2 : Bytes) : Reader where
  GetMetadata := .ok m
  GetKey n := if n = 1 then .ok k1 else if n = 2 then .ok k2 else .error .keyczarError
  isEncryptedReader := false

/-- the ASCII text of a status -/
def status : KeyStatus → Bytes
  | .PRIMARY => [80, 82, 73, 77, 65, 82, 89]
  | .ACTIVE => [65, 67, 84, 73, 86, 69]
  | .INACTIVE => [73, 78, 65, 67, 84, 73, 86, 69]

/-- testdata/hmac/meta with statuses filled in: `{"encrypted": false, "versions": [{"status": " status1 ", "versionNumber": 1, "exportable": false}, {"status": " status2 ", "versionNumber": 2, "exportable": false}], "type": "HMAC_SHA1", "name": "Test", "purpose": "SIGN_AND_VERIFY"}` -/
def hmacMeta (s1 s2 : KeyStatus) : Bytes :=
  [123, 34, 101, 110, 99, 114, 121, 112, 116, 101, 100, 34, 58, 32, 102, 97, 108, 115, 101, 44,
   32, 34, 118, 101, 114, 115, 105, 111, 110, 115, 34, 58, 32, 91, 123, 34, 115, 116, 97, 116,
   117, 115, 34, 58, 32, 34] ++ status s1 ++
  [34, 44, 32, 34, 118, 101, 114, 115, 105, 111, 110, 78, 117, 109, 98, 101, 114, 34, 58, 32, 49,
   44, 32, 34, 101, 120, 112, 111, 114, 116, 97, 98, 108, 101, 34, 58, 32, 102, 97, 108, 115,
   101, 125, 44, 32, 123, 34, 115, 116, 97, 116, 117, 115, 34, 58, 32, 34] ++ status s2 ++
  [34, 44, 32, 34, 118, 101, 114, 115, 105, 111, 110, 78, 117, 109, 98, 101, 114, 34, 58, 32, 50,
   44, 32, 34, 101, 120, 112, 111, 114, 116, 97, 98, 108, 101, 34, 58, 32, 102, 97, 108, 115,
   101, 125, 93, 44, 32, 34, 116, 121, 112, 101, 34, 58, 32, 34, 72, 77, 65, 67, 95, 83, 72, 65,
   49, 34, 44, 32, 34, 110, 97, 109, 101, 34, 58, 32, 34, 84, 101, 115, 116, 34, 44, 32, 34, 112,
   117, 114, 112, 111, 115, 101, 34, 58, 32, 34, 83, 73, 71, 78, 95, 65, 78, 68, 95, 86, 69, 82,
   73, 70, 89, 34, 125]
/-- testdata/hmac/1: `{"hmacKeyString": "tE41W2GFgxk33RnZHdaE7z-PvALxxVVKdtStfqYMICE", "size": 256}` -/
def hmacKey1 : Bytes :=
  [123, 34, 104, 109, 97, 99, 75, 101, 121, 83, 116, 114, 105, 110, 103, 34, 58, 32, 34, 116, 69,
   52, 49, 87, 50, 71, 70, 103, 120, 107, 51, 51, 82, 110, 90, 72, 100, 97, 69, 55, 122, 45, 80,
   118, 65, 76, 120, 120, 86, 86, 75, 100, 116, 83, 116, 102, 113, 89, 77, 73, 67, 69, 34, 44,
   32, 34, 115, 105, 122, 101, 34, 58, 32, 50, 53, 54, 125]
/-- testdata/hmac/2: `{"hmacKeyString": "EuyKHHbO1W1QoUV4BvHf0SADM9ZMhz08M7IHMLysbI0", "size": 256}` -/
def hmacKey2 : Bytes :=
  [123, 34, 104, 109, 97, 99, 75, 101, 121, 83, 116, 114, 105, 110, 103, 34, 58, 32, 34, 69, 117,
   121, 75, 72, 72, 98, 79, 49, 87, 49, 81, 111, 85, 86, 52, 66, 118, 72, 102, 48, 83, 65, 68,
   77, 57, 90, 77, 104, 122, 48, 56, 77, 55, 73, 72, 77, 76, 121, 115, 98, 73, 48, 34, 44, 32,
   34, 115, 105, 122, 101, 34, 58, 32, 50, 53, 54, 125]

/-- testdata/hmac with other statuses; the real one is `hmac .ACTIVE .PRIMARY` -/
def hmac (s1 s2 : KeyStatus) : Reader := reader2 (hmacMeta s1 s2) hmacKey1 hmacKey2

/-- testdata/aes/meta: `{"encrypted": false, "versions": [{"status": "ACTIVE", "versionNumber": 1, "exportable": false}, {"status": "PRIMARY", "versionNumber": 2, "exportable": false}], "type": "AES", "name": "Test", "purpose": "DECRYPT_AND_ENCRYPT"}` -/
def aesMeta : Bytes :=
  [123, 34, 101, 110, 99, 114, 121, 112, 116, 101, 100, 34, 58, 32, 102, 97, 108, 115, 101, 44,
   32, 34, 118, 101, 114, 115, 105, 111, 110, 115, 34, 58, 32, 91, 123, 34, 115, 116, 97, 116,
   117, 115, 34, 58, 32, 34, 65, 67, 84, 73, 86, 69, 34, 44, 32, 34, 118, 101, 114, 115, 105,
   111, 110, 78, 117, 109, 98, 101, 114, 34, 58, 32, 49, 44, 32, 34, 101, 120, 112, 111, 114,
   116, 97, 98, 108, 101, 34, 58, 32, 102, 97, 108, 115, 101, 125, 44, 32, 123, 34, 115, 116, 97,
   116, 117, 115, 34, 58, 32, 34, 80, 82, 73, 77, 65, 82, 89, 34, 44, 32, 34, 118, 101, 114, 115,
   105, 111, 110, 78, 117, 109, 98, 101, 114, 34, 58, 32, 50, 44, 32, 34, 101, 120, 112, 111,
   114, 116, 97, 98, 108, 101, 34, 58, 32, 102, 97, 108, 115, 101, 125, 93, 44, 32, 34, 116, 121,
   112, 101, 34, 58, 32, 34, 65, 69, 83, 34, 44, 32, 34, 110, 97, 109, 101, 34, 58, 32, 34, 84,
   101, 115, 116, 34, 44, 32, 34, 112, 117, 114, 112, 111, 115, 101, 34, 58, 32, 34, 68, 69, 67,
   82, 89, 80, 84, 95, 65, 78, 68, 95, 69, 78, 67, 82, 89, 80, 84, 34, 125]
/-- the same with `"encrypted": true` -/
def aesMetaEncrypted : Bytes :=
  [123, 34, 101, 110, 99, 114, 121, 112, 116, 101, 100, 34, 58, 32, 116, 114, 117, 101, 44, 32,
   34, 118, 101, 114, 115, 105, 111, 110, 115, 34, 58, 32, 91, 123, 34, 115, 116, 97, 116, 117,
   115, 34, 58, 32, 34, 65, 67, 84, 73, 86, 69, 34, 44, 32, 34, 118, 101, 114, 115, 105, 111,
   110, 78, 117, 109, 98, 101, 114, 34, 58, 32, 49, 44, 32, 34, 101, 120, 112, 111, 114, 116, 97,
   98, 108, 101, 34, 58, 32, 102, 97, 108, 115, 101, 125, 44, 32, 123, 34, 115, 116, 97, 116,
   117, 115, 34, 58, 32, 34, 80, 82, 73, 77, 65, 82, 89, 34, 44, 32, 34, 118, 101, 114, 115, 105,
   111, 110, 78, 117, 109, 98, 101, 114, 34, 58, 32, 50, 44, 32, 34, 101, 120, 112, 111, 114,
   116, 97, 98, 108, 101, 34, 58, 32, 102, 97, 108, 115, 101, 125, 93, 44, 32, 34, 116, 121, 112,
   101, 34, 58, 32, 34, 65, 69, 83, 34, 44, 32, 34, 110, 97, 109, 101, 34, 58, 32, 34, 84, 101,
   115, 116, 34, 44, 32, 34, 112, 117, 114, 112, 111, 115, 101, 34, 58, 32, 34, 68, 69, 67, 82,
   89, 80, 84, 95, 65, 78, 68, 95, 69, 78, 67, 82, 89, 80, 84, 34, 125]
/-- testdata/aes/1: `{"hmacKey": {"hmacKeyString": "6flZ-mHQWqQJxvLf01sFfC92UGxLDIlUh3SakvfA4d0", "size": 256}, "aesKeyString": "oI8Do9zS2ob61QH_lOivxQ", "mode": "CBC", "size": 128}` -/
def aesKey1 : Bytes :=
  [123, 34, 104, 109, 97, 99, 75, 101, 121, 34, 58, 32, 123, 34, 104, 109, 97, 99, 75, 101, 121,
   83, 116, 114, 105, 110, 103, 34, 58, 32, 34, 54, 102, 108, 90, 45, 109, 72, 81, 87, 113, 81,
   74, 120, 118, 76, 102, 48, 49, 115, 70, 102, 67, 57, 50, 85, 71, 120, 76, 68, 73, 108, 85,
   104, 51, 83, 97, 107, 118, 102, 65, 52, 100, 48, 34, 44, 32, 34, 115, 105, 122, 101, 34, 58,
   32, 50, 53, 54, 125, 44, 32, 34, 97, 101, 115, 75, 101, 121, 83, 116, 114, 105, 110, 103, 34,
   58, 32, 34, 111, 73, 56, 68, 111, 57, 122, 83, 50, 111, 98, 54, 49, 81, 72, 95, 108, 79, 105,
   118, 120, 81, 34, 44, 32, 34, 109, 111, 100, 101, 34, 58, 32, 34, 67, 66, 67, 34, 44, 32, 34,
   115, 105, 122, 101, 34, 58, 32, 49, 50, 56, 125]
/-- testdata/aes/2: `{"hmacKey": {"hmacKeyString": "fLiLNf4O9ZHUpC5eBlqNFnpybmSXx8egUFM8_WC8io8", "size": 256}, "aesKeyString": "1WnnXOmPTDzQ8NSvdsTqew", "mode": "CBC", "size": 128}` -/
def aesKey2 : Bytes :=
  [123, 34, 104, 109, 97, 99, 75, 101, 121, 34, 58, 32, 123, 34, 104, 109, 97, 99, 75, 101, 121,
   83, 116, 114, 105, 110, 103, 34, 58, 32, 34, 102, 76, 105, 76, 78, 102, 52, 79, 57, 90, 72,
   85, 112, 67, 53, 101, 66, 108, 113, 78, 70, 110, 112, 121, 98, 109, 83, 88, 120, 56, 101, 103,
   85, 70, 77, 56, 95, 87, 67, 56, 105, 111, 56, 34, 44, 32, 34, 115, 105, 122, 101, 34, 58, 32,
   50, 53, 54, 125, 44, 32, 34, 97, 101, 115, 75, 101, 121, 83, 116, 114, 105, 110, 103, 34, 58,
   32, 34, 49, 87, 110, 110, 88, 79, 109, 80, 84, 68, 122, 81, 56, 78, 83, 118, 100, 115, 84,
   113, 101, 119, 34, 44, 32, 34, 109, 111, 100, 101, 34, 58, 32, 34, 67, 66, 67, 34, 44, 32, 34,
   115, 105, 122, 101, 34, 58, 32, 49, 50, 56, 125]

/-- testdata/aes -/
def aes : Reader := reader2 aesMeta aesKey1 aesKey2
/-- testdata/aes with metadata that says encrypted -/
def aesEncrypted : Reader := reader2 aesMetaEncrypted aesKey1 aesKey2

/-- metadata of an empty set: `{"encrypted": false, "versions": [], "type": "HMAC_SHA1", "name": "Test", "purpose": "SIGN_AND_VERIFY"}` -/
def hmacMetaEmpty : Bytes :=
  [123, 34, 101, 110, 99, 114, 121, 112, 116, 101, 100, 34, 58, 32, 102, 97, 108, 115, 101, 44,
   32, 34, 118, 101, 114, 115, 105, 111, 110, 115, 34, 58, 32, 91, 93, 44, 32, 34, 116, 121,
   112, 101, 34, 58, 32, 34, 72, 77, 65, 67, 95, 83, 72, 65, 49, 34, 44, 32, 34, 110, 97, 109,
   101, 34, 58, 32, 34, 84, 101, 115, 116, 34, 44, 32, 34, 112, 117, 114, 112, 111, 115, 101,
   34, 58, 32, 34, 83, 73, 71, 78, 95, 65, 78, 68, 95, 86, 69, 82, 73, 70, 89, 34, 125]

/-- a key set without versions -/
def hmacEmpty : Reader := ⟨.ok hmacMetaEmpty, fun _ => .error .keyczarError, false⟩

/-- success as a Boolean -/
def isOk {α} : Py α → Bool
  | .ok _ => true
  | .error _ => false

theorem isOk_iff {α} {x : Py α} : isOk x = true ↔ ∃ a, x = .ok a := by
  cases x <;> simp [isOk]

/-- the random source used in examples -/
def rnd : Rand where
  bytes i n := (List.range n).map fun j => UInt8.ofNat (7 * i + 3 * j + 1)
  bytes_length := by simp
  dsaK _ := 2
  dsaK_range := by intro q h; omega
  rsaGen _ := ⟨0, 0, 0, 0, 0, 0⟩
  dsaGen _ := ⟨0, 0, 0, 0, 0⟩

/-- another one -/
def rnd' : Rand := { rnd with bytes := fun i n => (List.range n).map fun j => UInt8.ofNat (5 * i + j)
                              bytes_length := by simp }

theorem hmac_loads : ∃ c, Czar.init realPrims .signer (hmac .ACTIVE .PRIMARY) = .ok c :=
  isOk_iff.mp (by decide +kernel)

theorem aes_loads : ∃ c, Czar.init realPrims .crypter aes = .ok c := isOk_iff.mp (by decide +kernel)

end Verif.Ex
