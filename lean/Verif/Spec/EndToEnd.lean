import Verif.Props.HarnessCommands
/-
Specification of the outcome of the planned interoperability tests (C98): which key sets are on the disk, and which chance
events are excluded.
-/
namespace Verif.Spec
open Verif Props Harness

/-- a key of the type and size that the harness asks for; only for RSA the size matters to the tests -/
def KeyFor (t : KeyType) (s : Nat) (k : Key) : Prop :=
  match t with
  | .AES => ∃ x, k = .aes x
  | .HMAC_SHA1 => ∃ x, k = .hmac x
  | .RSA_PRIV => ∃ x, k = .rsaPriv x ∧ s / 8 ≤ (BigIntToBytes x.key.n).length
  | .DSA_PRIV => ∃ x, k = .dsaPriv x
  | _ => False

/-- Under `path` there is a good key set of the algorithm `a` and size `s`, encrypted with the set `crypted` if that is not
empty, and beside a set that is not encrypted, for an asymmetric algorithm, its public counterpart.  This is what the
commands of C97_commands leave according to C77_create, C77_create_public and C77_create_encrypted. -/
def Stored (P : Prims) (fs : FS) (path : Bytes) (a : Text) (s : Nat) (crypted : Text) : Prop :=
  ∃ p t ks, Kind a p t ∧ OnDisk P fs path (ascii (a ++ Nat.toDigits 10 s)) (ascii crypted) [] ks ∧ GoodSet P p [t] ks ∧
    (∀ e ∈ ks.entries, KeyFor t s e.key) ∧
    (t = .RSA_PRIV ∨ t = .DSA_PRIV → crypted = [] → ∃ ks',
      OnDisk P fs path (ascii (a ++ Nat.toDigits 10 s)) (ascii crypted) (bstr "public") ks' ∧ ks'.PublicOf ks)

/-- interop.py:56 `TESTDATA` -/
def testData : String := "This is some test data."

/-- the bytes that the signature of an operation covers -/
def Signed (op : Text) (m : Bytes) : Bytes :=
  if op = "sign".toList then plainPayload m else if op = "attached".toList then attachedPayload m [] else m

/-- the key set of the algorithm `a` and size `n` that the call `g` uses is on the disk; `e` is its primary version, with a
key of that type and size -/
def PrimaryOf (P : Prims) (fs : FS) (g : Planned) (a : Text) (n : Nat) (e : Entry) : Prop :=
  ∃ ks p t, OnDisk P fs (ascii (GetKeyPath g.implementation)) (ascii (a ++ Nat.toDigits 10 n))
      (ascii (valueOf g.options "cryptedKeySet")) [] ks ∧
    ks.primaries = [e] ∧ Kind a p t ∧ KeyFor t n e.key

/-- the keys that the generator of the commands of `env` gives for an algorithm are valid and have the size asked for -/
def GoodGenerator (env : InteropEnv) (a : Text) (s : Nat) : Prop :=
  ∀ p t n g k, Kind a p t → GenKey ((env.cmd n).gen g) t (sizeArg s) = .ok k → ValidKey k ∧ KeyFor t s k

/-- interop.py:272-286 `_MakeDirs`: the directories are made, or emptied if they exist -/
def emptied (dirs : List Loc) (fs : FS) : FS := fun l => if l ∈ dirs then some fun _ => none else fs l

/-- the directories of a creation, as locations -/
def Creation.locs (c : Creation) : List Loc := c.dirs.map ascii

/-- The creations of a list are carried out one after the other and take the disk `fs` to `fs'`.  Those for the
implementation `i` are carried out as the implementation in Python does it, without an exception and with a generator of
good keys; of the others it is only known that they change no directory but their own. -/
inductive Ran (P : Prims) (i : Text) : List Creation → FS → FS → Prop
  | nil {fs} : Ran P i [] fs fs
  | own {c t fs fs' env text out} : c.implementation = i → CreateText text (c.commands.map (·.map ascii)) →
      (interopMain P env [text] (emptied (Creation.locs c) fs)).1 = .ok out → (∀ a alg s,
        c = Harness.Create i a alg s ∨ c = CreateEncrypted i a alg s "aes128".toList → GoodGenerator env a s) →
      Ran P i t ((interopMain P env [text]).after (emptied (Creation.locs c) fs)) fs' → Ran P i (c :: t) fs fs'
  | other {c t fs fs1 fs'} : c.implementation ≠ i → (∀ l, l ∉ Creation.locs c → fs1 l = fs l) → Ran P i t fs1 fs' →
      Ran P i (c :: t) fs fs'

end Verif.Spec
