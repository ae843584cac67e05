import Verif.Lemmas.ExampleSets
import Verif.Model.Keyczart
/-
Concrete directories for the examples beside the theorems.
-/
namespace Verif.Ex
open Verif

/-- a directory with metadata and two key files -/
def dir2 (m k1 k2 : Bytes) : Dir
  | .metaFile => some m
  | .key n => if n = 1 then some k1 else if n = 2 then some k2 else none
  | .other _ => none

/-- a directory with metadata only -/
def dir0 (m : Bytes) : Dir
  | .metaFile => some m
  | _ => none

/-- a disk with: "h" testdata/hmac with given statuses; "a" testdata/aes; "e" testdata/aes marked as
encrypted; "n" an HMAC key set without versions; "x" an empty directory -/
def disk (s1 s2 : KeyStatus) : FS := fun l =>
  if l = [104] then some (dir2 (hmacMeta s1 s2) hmacKey1 hmacKey2)
  else if l = [97] then some (dir2 aesMeta aesKey1 aesKey2)
  else if l = [101] then some (dir2 aesMetaEncrypted aesKey1 aesKey2)
  else if l = [110] then some (dir0 hmacMetaEmpty)
  else if l = [120] then some fun _ => none
  else none

/-- `dict` order as inserted, fixed randomness -/
def env : Env where
  gen _ := rnd
  fuel := 1
  enc _ := rnd'
  order l := l
  order_perm := fun l => List.Perm.refl l

/-- reversed `dict` order, other randomness -/
def env' : Env where
  gen _ := rnd'
  fuel := 1
  enc _ := rnd
  order l := l.reverse
  order_perm := fun l => l.reverse_perm

end Verif.Ex
