import Verif.Model.Keyczar
/-
interop/interop.py: the program that plans the interoperability tests from the files in interop/config, calls the
implementations and runs the tests.

Texts are lists of characters.  Dicts are lists of pairs in the order of iteration; `json.loads` gives dicts without a
repeated key, so walking a dict and looking each key up is walking its pairs.

Simplifications: the configuration has the shape of the shipped files (texts, lists of texts, booleans, numbers that are
not negative), except that a text may stand where a list of texts is expected, as in operations.json and ignoredTests.json.
Logging is left out.  A generator is the list of what it yields or the exception that ends it, so the calls made before
such an exception are not in the model; no test is run in that case either way.
-/
namespace Verif.Harness

abbrev Text := List Char

/-- a list of texts in the configuration, or a text in its place -/
inductive Listing where
  | list (l : List Text)
  | text (t : Text)
deriving DecidableEq, Repr

/-- `x in l`: membership, or containment for a text -/
def Listing.has (l : Listing) (x : Text) : Bool :=
  match l with
  | .list l => decide (x ∈ l)
  | .text t => decide (x <:+: t)

/-- a choice of options: a dict from option names to values -/
abbrev Options := List (Text × Text)

/-- a dict from option names to the values listed for them -/
abbrev OptionTable := List (Text × Listing)

/-- an entry of interopAlgorithms.json -/
structure Algorithm where
  purpose : Text
  asymmetric : Bool
  keySizes : List Nat
  createFlags : List Text
  addKeyFlags : List Text
deriving DecidableEq, Repr

/-- an entry of operations.json -/
structure Operation where
  keytype : Text
  generateOptions : OptionTable
  testOptions : OptionTable
deriving DecidableEq, Repr

/-- an entry of keySetOptions.json -/
structure KeySetOptions where
  generateOptions : OptionTable
  testOptions : OptionTable
deriving DecidableEq, Repr

/-- an entry of ignoredTests.json -/
structure IgnoredTest where
  implementation : Listing
  operation : Listing
  algorithm : Listing
  options : OptionTable
deriving DecidableEq, Repr

/-- what `InteropTestRunner.__init__` reads (interop.py:190-199).  `isStr` tells whether the texts given by `json.loads`
are instances of `str`: they are in Python 3, in Python 2 they are of type `unicode`. -/
structure Config where
  isStr : Bool
  algorithms : List (Text × Algorithm)
  ignored : List IgnoredTest
  operations : List (Text × Operation)
  implementations : List Text
  keySetOptions : List (Text × KeySetOptions)
deriving DecidableEq, Repr

def crypt : Text := "crypt".toList
def encrypt : Text := "encrypt".toList
def sign : Text := "sign".toList
def verify : Text := "verify".toList

/-- interop.py:162-166 `Keyset.__init__` without the options, which are the same for all -/
structure Keyset where
  algorithm : Text
  size : Nat
  purpose : Text
deriving DecidableEq, Repr

/-- interop.py:171-173 `Keyset.name` -/
def Keyset.name (k : Keyset) : Text := k.algorithm ++ Nat.toDigits 10 k.size

variable (cfg : Config)

/-- interop.py:108-127 `Keyset.GetGenerateKeysets` -/
def GetGenerateKeysets (purpose : Text) : List Keyset :=
  cfg.algorithms.flatMap fun a =>
    if a.2.purpose = purpose then
      a.2.keySizes.flatMap fun size =>
        (if purpose = crypt ∧ a.2.asymmetric = true then [⟨a.1, size, encrypt⟩] else []) ++ [⟨a.1, size, purpose⟩]
    else []

/-- interop.py:129-155 `Keyset.GetTestKeysets` (with `_SwitchPurpose`, 157-160) -/
def GetTestKeysets (g : Keyset) : Py (List Keyset) :=
  if g.purpose = crypt then .ok [g]
  else if g.purpose = encrypt then .ok [{ g with purpose := crypt }]
  else if g.purpose = sign then
    match cfg.algorithms.lookup g.algorithm with
    | none => .error .keyError
    | some a => .ok (if a.asymmetric then [g, { g with purpose := verify }] else [g])
  else .error .valueError

/-- the two values of `option_string` -/
inductive Which where
  | generateOptions
  | testOptions
deriving DecidableEq, Repr

def KeySetOptions.get (o : KeySetOptions) : Which → OptionTable
  | .generateOptions => o.generateOptions
  | .testOptions => o.testOptions

def Operation.get (o : Operation) : Which → OptionTable
  | .generateOptions => o.generateOptions
  | .testOptions => o.testOptions

/-- interop.py:175-176 `Keyset.Options` -/
def Keyset.Options (k : Keyset) (w : Which) : Py OptionTable :=
  match cfg.keySetOptions.lookup k.purpose with
  | none => .error .keyError
  | some o => .ok (o.get w)

/-- `dict(l)` -/
def dictOf {β} (l : List (Text × β)) : List (Text × β) := l.foldl (fun d p => assocSet d p.1 p.2) []

/-- `self.macros[t]` (interop.py:198-199) -/
def macros (t : Text) : Py (List Text) :=
  if t = "ALL_SIGNING_KEYS".toList then .ok ((GetGenerateKeysets cfg sign).map Keyset.name) else .error .keyError

/-- interop.py:244-246, and the values over which `itertools.product` goes: a text that is no `str` is walked character
by character -/
def optionValues : Listing → Py (List Text)
  | .list l => .ok l
  | .text t => if cfg.isStr then macros cfg t else .ok (t.map fun c => [c])

/-- `itertools.product` of the lists, with the names put back (interop.py:247-249) -/
def product : List (Text × List Text) → List Options
  | [] => [[]]
  | (n, vs) :: rest => vs.flatMap fun v => (product rest).map ((n, v) :: ·)

/-- the loop of interop.py:244-246 -/
def allValues : OptionTable → Py (List (Text × List Text))
  | [] => .ok []
  | (n, l) :: rest => do return (n, ← optionValues cfg l) :: (← allValues rest)

/-- interop.py:225-249 `_Options` -/
def OptionsOf (operation : Operation) (keyset : Keyset) (w : Which) : Py (List Options) := do
  let keySetOptions ← keyset.Options cfg w
  let optionDict := dictOf (keySetOptions ++ operation.get w)
  if optionDict = [] then return [[]]
  else return product (← allValues cfg optionDict)

/-- the lambda of interop.py:204 -/
def containsOrStar (v : Text) (l : Listing) : Bool := l.has v || l.has ['*']

/-- interop.py:208-214: no option named by the entry differs -/
def optionsMatch (options : Options) (ignored : OptionTable) : Bool :=
  !(ignored.any fun o => decide (o.1 ≠ ['*']) &&
    match options.lookup o.1 with
    | none => true
    | some v => !o.2.has v)

/-- interop.py:201-223 `_IsException` -/
def IsException (implementation operation algorithm : Text) (options : Options) : Bool :=
  cfg.ignored.any fun t =>
    containsOrStar implementation t.implementation && containsOrStar algorithm t.algorithm &&
      containsOrStar operation t.operation && optionsMatch options t.options

/-- nested loops of a generator -/
def collect {α β} (f : α → Py (List β)) : List α → Py (List β)
  | [] => .ok []
  | a :: t => do return (← f a) ++ (← collect f t)

/-- interop.py:251-259 `_TestAll` -/
def TestAll (opName : Text) (operation : Operation) (keyset : Keyset) (generateOptions : Options) :
    Py (List (Text × Options)) :=
  collect (fun implementation => do
    collect (fun testKeyset => do
      return ((← OptionsOf cfg operation testKeyset .testOptions).filter fun options =>
        !IsException cfg implementation opName keyset.name (dictOf (options ++ generateOptions))).map
          fun options => (implementation, options))
      (← GetTestKeysets cfg keyset)) cfg.implementations

/-- what `_GenerateAll` yields; the operation comes with its entry -/
structure Planned where
  implementation : Text
  operation : Text × Operation
  keyset : Keyset
  options : Options
deriving DecidableEq, Repr

/-- interop.py:261-270 `_GenerateAll` -/
def GenerateAll : Py (List Planned) :=
  collect (fun implementation =>
    collect (fun operation =>
      collect (fun keyset => do
        return ((← OptionsOf cfg operation.2 keyset .generateOptions).filter fun options =>
          !IsException cfg implementation operation.1 keyset.name options).map
            fun options => ⟨implementation, operation, keyset, options⟩)
        (GetGenerateKeysets cfg operation.2.keytype)) cfg.operations) cfg.implementations

/-- the arguments of `_Test` (interop.py:400-414) -/
structure Test where
  output : Bytes
  tester : Text
  generator : Text
  operation : Text
  algorithm : Text
  generateOptions : Options
  testOptions : Options
deriving DecidableEq, Repr

/-- `"_".join(l)` -/
def join (l : List Text) : Text := List.intercalate ['_'] l

/-- the name of a test in `SetupInteropTests` (interop.py:435-442) -/
def Test.name (t : Test) : Text :=
  "test_".toList ++ t.tester ++ "_generated_by_".toList ++ t.generator ++ ['_'] ++ t.operation ++ ['_'] ++ t.algorithm ++
    ['_'] ++ join (t.generateOptions.map Prod.snd) ++ ['_'] ++ join (t.testOptions.map Prod.snd)

/-- the name of a test in `DisplayTests` (interop.py:462-469) -/
def Test.display (t : Test) : Text :=
  "test_".toList ++ t.tester ++ "_generated_by_".toList ++ t.generator ++ ['_'] ++ t.operation ++ ['_'] ++ t.algorithm ++
    ['_'] ++ join (t.generateOptions.map fun o => o.1 ++ ['='] ++ o.2) ++ ['_'] ++
    join (t.testOptions.map fun o => o.1 ++ ['='] ++ o.2)

/-- the test made at interop.py:444-451 -/
def Planned.test (g : Planned) (output : Bytes) (r : Text × Options) : Test :=
  ⟨output, r.1, g.implementation, g.operation.1, g.keyset.name, g.options, r.2⟩

/-- the loop of `SetupInteropTests` (interop.py:429-452); `generate n g` is what call number `n` of an implementation
answers (`_Generate`, 388-398), and `setattr` on the class is a dict assignment -/
def setupFrom (generate : Nat → Planned → Py Bytes) : Nat → List Planned → List (Text × Test) → Py (List (Text × Test))
  | _, [], tests => .ok tests
  | n, g :: rest, tests => do
    let output ← generate n g
    let runs ← TestAll cfg g.operation.1 g.operation.2 g.keyset g.options
    setupFrom generate (n + 1) rest (runs.foldl (fun d r => assocSet d (g.test output r).name (g.test output r)) tests)

/-- interop.py:421-453 `SetupInteropTests` and 520-522 `RunTests`: the tests run.  The loader takes every attribute whose
name begins with `test`, which all these names do; it sorts them, which is left out. -/
def RunTests (generate : Nat → Planned → Py Bytes) : Py (List (Text × Test)) := do
  setupFrom cfg generate 0 (← GenerateAll cfg) []

/-- interop.py:455-471 `DisplayTests`: the lines printed, before they are sorted -/
def DisplayTests : Py (List Text) := do
  collect (fun g => do
    return (← TestAll cfg g.operation.1 g.operation.2 g.keyset g.options).map fun r => (g.test [] r).display)
    (← GenerateAll cfg)

/-- interop.py:288-295 `_GetKeyPath` and `_GetKeyDir`; names do not begin with a slash -/
def GetKeyPath (implementation : Text) : Text := "keys/".toList ++ implementation
def GetKeyDir (implementation name : Text) : Text := GetKeyPath implementation ++ ['/'] ++ name

/-- a call of an implementation with the command `create`: the directories made or emptied before it, and the commands -/
structure Creation where
  implementation : Text
  dirs : List Text
  commands : List (List Text)
deriving DecidableEq, Repr

/-- interop.py:342-350 `_GetCreateFlags` -/
def GetCreateFlags (algorithm : Text) (a : Algorithm) (size : Nat) (location : Text) : List Text :=
  ["create".toList, "--name=".toList ++ (algorithm ++ Nat.toDigits 10 size), "--location=".toList ++ location] ++
    a.createFlags

/-- interop.py:352-362 `_GetAddKeyFlags` -/
def GetAddKeyFlags (a : Algorithm) (size : Nat) (location : Text) (flags : List Text) : List Text :=
  ["addkey".toList, "--status=primary".toList, "--size=".toList ++ Nat.toDigits 10 size,
    "--location=".toList ++ location] ++ flags ++ a.addKeyFlags

/-- interop.py:364-372 `_GetPubKeyFlags` -/
def GetPubKeyFlags (location : Text) : List Text :=
  ["pubkey".toList, "--destination=".toList ++ location ++ "public".toList, "--location=".toList ++ location]

/-- interop.py:306-322 `_Create` -/
def Create (implementation algorithm : Text) (a : Algorithm) (size : Nat) : Creation :=
  let location := GetKeyDir implementation (algorithm ++ Nat.toDigits 10 size)
  let addKey := GetAddKeyFlags a size location []
  { implementation
    dirs := [location] ++ if a.asymmetric then [location ++ "public".toList] else []
    commands := [GetCreateFlags algorithm a size location, addKey, addKey] ++
      if a.asymmetric then [GetPubKeyFlags location] else [] }

/-- interop.py:324-340 `_CreateEncrypted` -/
def CreateEncrypted (implementation algorithm : Text) (a : Algorithm) (size : Nat) (crypter : Text) : Creation :=
  let location := GetKeyDir implementation (algorithm ++ Nat.toDigits 10 size ++ crypter)
  let crypterLocation := GetKeyDir implementation crypter
  { implementation
    dirs := [location]
    commands := [GetCreateFlags algorithm a size location,
      GetAddKeyFlags a size location ["--crypter=".toList ++ crypterLocation]] }

/-- interop.py:374-386 `CreateKeys`: the calls in their order -/
def CreateKeys : List Creation :=
  (cfg.implementations.flatMap fun i => cfg.algorithms.flatMap fun a => a.2.keySizes.map fun s => Create i a.1 a.2 s) ++
    cfg.implementations.flatMap fun i => cfg.algorithms.flatMap fun a => a.2.keySizes.map fun s =>
      CreateEncrypted i a.1 a.2 s "aes128".toList

/-- interop/config: the shipped files; `isStr` is the reading -/
def shipped (isStr : Bool) : Config where
  isStr := isStr
  algorithms :=
    [("rsa-crypt".toList, ⟨crypt, true, [1024, 2048, 4096], ["--purpose=crypt".toList, "--asymmetric=rsa".toList], []⟩),
     ("rsa-sign".toList, ⟨sign, true, [1024, 2048, 4096], ["--purpose=sign".toList, "--asymmetric=rsa".toList], []⟩),
     ("dsa".toList, ⟨sign, true, [1024], ["--purpose=sign".toList, "--asymmetric=dsa".toList], []⟩),
     ("aes".toList, ⟨crypt, false, [128, 192, 256], ["--purpose=crypt".toList], []⟩),
     ("hmac".toList, ⟨sign, false, [256], ["--purpose=sign".toList], []⟩)]
  ignored :=
    [⟨.list [['*']], .list ["signedSession".toList], .list ["rsa-crypt1024".toList], [(['*'], .text ['*'])]⟩,
     ⟨.list ["java".toList], .list ["attached".toList], .list [['*']],
       [("encoding".toList, .list ["encoded".toList])]⟩,
     ⟨.list ["java".toList], .list [['*']], .list ["aes256".toList, "aes192".toList], [(['*'], .text ['*'])]⟩,
     ⟨.list [['*']], .list [['*']], .list [['*']],
       [("cryptedKeySet".toList, .list ["aes128".toList]), ("pubKey".toList, .list ["public".toList])]⟩]
  operations :=
    [("unversioned".toList, ⟨sign, [("encoding".toList, .list ["encoded".toList, "unencoded".toList])], []⟩),
     ("signedSession".toList, ⟨crypt, [("signer".toList, .text "ALL_SIGNING_KEYS".toList)], []⟩),
     ("attached".toList, ⟨sign, [("encoding".toList, .list ["encoded".toList, "unencoded".toList])], []⟩),
     ("sign".toList, ⟨sign, [("encoding".toList, .list ["encoded".toList, "unencoded".toList])], []⟩),
     ("encrypt".toList, ⟨crypt, [("encoding".toList, .list ["encoded".toList, "unencoded".toList])], []⟩)]
  implementations := ["python".toList, "java".toList, "cpp".toList]
  keySetOptions :=
    [(sign, ⟨[("cryptedKeySet".toList, .list [[], "aes128".toList])],
       [("class".toList, .list ["verifier".toList, "signer".toList]), ("pubKey".toList, .list [[]])]⟩),
     (crypt, ⟨[("class".toList, .list ["crypter".toList, "encrypter".toList]), ("pubKey".toList, .list [[]]),
       ("cryptedKeySet".toList, .list [[], "aes128".toList])], []⟩),
     (verify, ⟨[("cryptedKeySet".toList, .list [[], "aes128".toList])],
       [("class".toList, .list ["verifier".toList]), ("pubKey".toList, .list ["public".toList])]⟩),
     (encrypt, ⟨[("class".toList, .list ["encrypter".toList]), ("pubKey".toList, .list ["public".toList]),
       ("cryptedKeySet".toList, .list [[], "aes128".toList])], []⟩)]

end Verif.Harness
