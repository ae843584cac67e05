import Verif.Model.Harness
/-
What the plan of the interoperability tests should be (C97), written from interop/README.md and the configuration files:
which calls and which tests there are, and which are ignored.
-/
namespace Verif.Spec
open Harness

/-- no dict of the configuration has a repeated key, as is so for every value given by `json.loads` -/
structure Dicts (cfg : Config) : Prop where
  algorithms : (cfg.algorithms.map Prod.fst).Nodup
  keySetOptions : (cfg.keySetOptions.map Prod.fst).Nodup
  ofOperation : ∀ o ∈ cfg.operations, (o.2.generateOptions.map Prod.fst).Nodup ∧ (o.2.testOptions.map Prod.fst).Nodup
  ofKeySet : ∀ o ∈ cfg.keySetOptions, (o.2.generateOptions.map Prod.fst).Nodup ∧ (o.2.testOptions.map Prod.fst).Nodup

/-- `v` is one of the values listed.  A text stands for the names of all signing key sets in Python 3; in Python 2 it
stands for its characters. -/
def Means (cfg : Config) (l : Listing) (v : Text) : Prop :=
  match l with
  | .list vs => v ∈ vs
  | .text t =>
    if cfg.isStr = true then
      t = "ALL_SIGNING_KEYS".toList ∧
        ∃ a, a ∈ cfg.algorithms ∧ a.2.purpose = "sign".toList ∧ ∃ size ∈ a.2.keySizes, v = a.1 ++ Nat.toDigits 10 size
    else ∃ c ∈ t, v = [c]

/-- what is listed for the option `n`: what the operation says, else what the key set says -/
def Listed (ofKeySet ofOperation : OptionTable) (n : Text) (l : Listing) : Prop :=
  (n, l) ∈ ofOperation ∨ n ∉ ofOperation.map Prod.fst ∧ (n, l) ∈ ofKeySet

/-- the options there are, those of the key set first -/
def optionNames (ofKeySet ofOperation : OptionTable) : List Text :=
  ofKeySet.map Prod.fst ++ (ofOperation.map Prod.fst).filter fun n => n ∉ ofKeySet.map Prod.fst

/-- one listed value for each option -/
def Choice (cfg : Config) (ofKeySet ofOperation : OptionTable) (o : Options) : Prop :=
  o.map Prod.fst = optionNames ofKeySet ofOperation ∧
    ∀ n v, (n, v) ∈ o → ∃ l, Listed ofKeySet ofOperation n l ∧ Means cfg l v

/-- a listing of an ignored test applies to `x` -/
def Covers (l : Listing) (x : Text) : Prop :=
  match l with
  | .list l => x ∈ l
  | .text t => x <:+: t

/-- Some entry of ignoredTests.json names the implementation, the operation and the key set, or `*` in place of each, and
every option it names, other than `*`, has one of the values given there. -/
def IgnoredBy (cfg : Config) (implementation operation name : Text) (options : Text → Option Text) : Prop :=
  ∃ t ∈ cfg.ignored,
    (Covers t.implementation implementation ∨ Covers t.implementation ['*']) ∧
    (Covers t.operation operation ∨ Covers t.operation ['*']) ∧
    (Covers t.algorithm name ∨ Covers t.algorithm ['*']) ∧
    ∀ n l, (n, l) ∈ t.options → n ≠ ['*'] → ∃ v, options n = some v ∧ Covers l v

/-- a call that makes an output: an implementation, an operation, a key set for the purpose of the operation (also the
public part of a key set for encryption) and a choice of options, if this is not ignored -/
structure IsCall (cfg : Config) (g : Planned) : Prop where
  implementation : g.implementation ∈ cfg.implementations
  operation : g.operation ∈ cfg.operations
  keyset : ∃ a, (g.keyset.algorithm, a) ∈ cfg.algorithms ∧ a.purpose = g.operation.2.keytype ∧ g.keyset.size ∈ a.keySizes ∧
    (g.keyset.purpose = a.purpose ∨
      a.purpose = "crypt".toList ∧ a.asymmetric = true ∧ g.keyset.purpose = "encrypt".toList)
  options : ∃ o, (g.keyset.purpose, o) ∈ cfg.keySetOptions ∧
    Choice cfg o.generateOptions g.operation.2.generateOptions g.options
  allowed : ¬ IgnoredBy cfg g.implementation g.operation.1 (g.keyset.algorithm ++ Nat.toDigits 10 g.keyset.size)
    fun n => g.options.lookup n

/-- what the key set is used for in a test of an output: decrypting, or verifying with the private or the public part -/
def TestPurpose (cfg : Config) (k : Keyset) (p : Text) : Prop :=
  k.purpose = "crypt".toList ∧ p = "crypt".toList ∨ k.purpose = "encrypt".toList ∧ p = "crypt".toList ∨
    k.purpose = "sign".toList ∧ (p = "sign".toList ∨
      p = "verify".toList ∧ ∃ a, (k.algorithm, a) ∈ cfg.algorithms ∧ a.asymmetric = true)

/-- a test of the output of `g`: an implementation and a choice of options, if this is not ignored; the options of the call
count as well -/
structure IsTest (cfg : Config) (g : Planned) (r : Text × Options) : Prop where
  implementation : r.1 ∈ cfg.implementations
  options : ∃ p o, TestPurpose cfg g.keyset p ∧ (p, o) ∈ cfg.keySetOptions ∧
    Choice cfg o.testOptions g.operation.2.testOptions r.2
  allowed : ¬ IgnoredBy cfg r.1 g.operation.1 (g.keyset.algorithm ++ Nat.toDigits 10 g.keyset.size)
    fun n => (g.options.lookup n).or (r.2.lookup n)

/-- all tests of all calls, in their order; `generate n g` is what call number `n` answers -/
def allTests (cfg : Config) (generate : Nat → Planned → Py Bytes) (l : List Planned) (n : Nat := 0) : List Test :=
  (l.zipIdx n).flatMap fun c =>
    match generate c.2 c.1, TestAll cfg c.1.operation.1 c.1.operation.2 c.1.keyset c.1.options with
    | .ok output, .ok runs => runs.map (c.1.test output)
    | _, _ => []

/-- `t` is in the list and no later entry has its name -/
def LastNamed (all : List Test) (t : Test) : Prop := ∃ before after, all = before ++ t :: after ∧ ∀ u ∈ after, u.name ≠ t.name

/-- no listed value has an underscore -/
def NoUnderscore (l : Listing) : Prop :=
  match l with
  | .list vs => ∀ v ∈ vs, '_' ∉ v
  | .text _ => True

/-- A configuration whose tests have different names: no underscore in names and values, and the options of an operation
do not depend on the purpose of the key set. -/
structure Tame (cfg : Config) (gNames tNames : Text → List Text) : Prop where
  isStr : cfg.isStr = true
  implementations : ∀ i ∈ cfg.implementations, '_' ∉ i
  operations : ∀ o ∈ cfg.operations, '_' ∉ o.1
  algorithms : ∀ a ∈ cfg.algorithms, '_' ∉ a.1
  ofOperation : ∀ o ∈ cfg.operations, ∀ e ∈ o.2.generateOptions ++ o.2.testOptions, NoUnderscore e.2
  ofKeySet : ∀ o ∈ cfg.keySetOptions, ∀ e ∈ o.2.generateOptions ++ o.2.testOptions, NoUnderscore e.2
  gNames : ∀ o ∈ cfg.operations, ∀ k ∈ cfg.keySetOptions,
    k.1 = o.2.keytype ∨ k.1 = "encrypt".toList ∧ o.2.keytype = "crypt".toList →
      optionNames k.2.generateOptions o.2.generateOptions = gNames o.1
  tNames : ∀ o ∈ cfg.operations, ∀ k ∈ cfg.keySetOptions,
    k.1 = o.2.keytype ∨ k.1 = "verify".toList ∧ o.2.keytype = "sign".toList ∨
      k.1 = "crypt".toList ∧ o.2.keytype = "encrypt".toList →
      optionNames k.2.testOptions o.2.testOptions = tNames o.1

/-- the value of an option, empty if there is none -/
def valueOf (o : Options) (n : String) : Text := (o.lookup n.toList).getD []

/-- the directories from which an implementation reads a key set: the one named after the key set, the key set that encrypts
it and the mark of its public part, and the one of the key set that encrypts it (README.md of interop, and
interop_test.py:105-115) -/
def keyDirs (path name crypted pub : Text) : List Text :=
  (path ++ ['/'] ++ name ++ crypted ++ pub) :: if crypted = [] then [] else [path ++ ['/'] ++ crypted]

/-- the directories read in a call (`pub` from its own options) or a test of its output (`pub` from those of the test); the
key sets are always those of the implementation that makes the output -/
def dirsRead (g : Planned) (pub : Text) : List Text :=
  keyDirs ("keys/".toList ++ g.implementation) (g.keyset.algorithm ++ Nat.toDigits 10 g.keyset.size)
      (valueOf g.options "cryptedKeySet") pub ++
    if valueOf g.options "signer" = [] then []
    else keyDirs ("keys/".toList ++ g.implementation) (valueOf g.options "signer") (valueOf g.options "cryptedKeySet") []

end Verif.Spec
