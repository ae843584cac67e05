import Verif.Model.Keyczart
/-
The `genkey` command of keyczart.py (lines 33-38, 167-207): it fills six directories with test key sets, uses each
key once, and exports two public key sets.

Simplification: the directories hold plain files only (as in Model/Keyczart.lean), so the test `os.path.isdir` of
keyczart.py:192 is always False.  What `print` shows is left out.
-/
namespace Verif

/-- `os.path.join(a, b)` on POSIX for a `b` that does not begin with a slash -/
def pathJoin (a b : Bytes) : Loc := if a = [] ∨ a.getLast? = some 47 then a ++ b else a ++ 47 :: b

/-- one line of the table keyczart.py:33-38 -/
structure KeySetRow where
  name : Bytes
  purpose : KeyPurpose
  asymmetric : Option Bytes
  crypter : Option Bytes
deriving DecidableEq, Repr

/-- keyczart.py:33-38 `KEYSETS` -/
def KEYSETS : List KeySetRow :=
  [⟨bstr "aes", .DECRYPT_AND_ENCRYPT, none, none⟩,
   ⟨bstr "aes-crypted", .DECRYPT_AND_ENCRYPT, none, some (bstr "aes")⟩,
   ⟨bstr "hmac", .SIGN_AND_VERIFY, none, none⟩,
   ⟨bstr "rsa", .DECRYPT_AND_ENCRYPT, some (bstr "rsa"), none⟩,
   ⟨bstr "rsa-sign", .SIGN_AND_VERIFY, some (bstr "rsa"), none⟩,
   ⟨bstr "dsa", .SIGN_AND_VERIFY, some (bstr "dsa"), none⟩]

/-- a directory with finitely many files -/
def Dir.Finite (d : Dir) : Prop := ∃ l : List FileName, ∀ f, (d f).isSome = true → f ∈ l

/-- Choices outside the program: those of each addkey and of each use of a key (by set and round), of the two
exports, and the order in which `os.listdir` yields the files of a directory. -/
structure GenEnv where
  add : Bytes → Nat → Env
  use : Bytes → Nat → Rand
  pub : Bytes → Env
  ls : Dir → List FileName
  ls_nodup : ∀ d, (ls d).Nodup
  ls_mem : ∀ d : Dir, d.Finite → ∀ f, f ∈ ls d ↔ (d f).isSome = true

variable (P : Prims)

/-- the loop of keyczart.py:190-193 -/
def removeFiles (l : Loc) : List FileName → Cmd Unit
  | [] => pure ()
  | f :: t => do
    RemoveFile l f
    removeFiles l t

/-- keyczart.py:189-193 `Clean`: `os.listdir` of a missing directory raises OSError -/
def Clean (ls : Dir → List FileName) (l : Loc) : Cmd Unit := do
  let d ← Cmd.look fun fs => (match fs l with | some d => .ok d | none => .error .osError : Py Dir)
  removeFiles l (ls d)

/-- keyczart.py:195 default argument `msg` -/
def testMsg : Bytes := bstr "This is some test data"

/-- keyczart.py:198-204: the answer of the key set.  Default encoders of `Encrypt` and `Sign`. -/
def useAnswer (rnd : Rand) (purpose : KeyPurpose) (r : Reader) : Py Bytes :=
  match purpose with
  | .DECRYPT_AND_ENCRYPT => do (← Czar.init P .crypter r).Encrypt P rnd testMsg (some Base64WSEncode)
  | .SIGN_AND_VERIFY => do (← Czar.init P .signer r).Sign P rnd testMsg (some Base64WSEncode)
  | _ => .ok []

/-- keyczart.py:195-207 `UseKey`; the destination is file `f` in directory `loc` -/
def UseKey (rnd : Rand) (purpose : KeyPurpose) (loc : Loc) (f : FileName) (crypter : Option Czar) : Cmd Unit := do
  let r ← Cmd.look (CreateReader loc)
  let answer ← Cmd.lift (useAnswer P rnd purpose (readerFor P crypter r))
  WriteFile answer loc f

/-- keyczart.py:172-173: the crypter of a row, if it has one -/
def rowCrypter (loc : Loc) : Option Bytes → Cmd (Option Czar)
  | none => pure none
  | some name => do
    let cr ← CreateCrypter P (pathJoin loc name)
    return some cr

/-- the body of the loop keyczart.py:169-179 -/
def genRow (env : GenEnv) (loc : Loc) (row : KeySetRow) : Cmd Unit := do
  let dir := pathJoin loc row.name
  let crypter ← rowCrypter P loc row.crypter
  Clean env.ls dir
  Create (some dir) (Json.ofString "Test") (some row.purpose) row.asymmetric
  AddKey P (env.add row.name 0) (some dir) .PRIMARY crypter (-1)
  UseKey P (env.use row.name 0) row.purpose dir (.other (bstr "1.out")) crypter
  AddKey P (env.add row.name 1) (some dir) .PRIMARY crypter (-1)
  UseKey P (env.use row.name 1) row.purpose dir (.other (bstr "2.out")) crypter

/-- the loop of keyczart.py:169-179 -/
def genRows (env : GenEnv) (loc : Loc) : List KeySetRow → Cmd Unit
  | [] => pure ()
  | row :: t => do
    genRow P env loc row
    genRows env loc t

/-- the loop of keyczart.py:182-186 -/
def genExports (env : GenEnv) (loc : Loc) : List Bytes → Cmd Unit
  | [] => pure ()
  | name :: t => do
    PubKey P (env.pub name) (some (pathJoin loc name)) (some (pathJoin loc (name ++ bstr ".public")))
    genExports env loc t

/-- keyczart.py:167-187 `GenKeySet`; `os.path.join(None, ...)` raises AttributeError -/
def GenKeySet (env : GenEnv) (loc : Option Loc) : Cmd Unit :=
  match loc with
  | none => Cmd.lift (.error .attributeError)
  | some loc => do
    genRows P env loc KEYSETS
    genExports P env loc [bstr "dsa", bstr "rsa-sign"]

/-- keyczart.py:280-328 `main`, with `genkey` -/
def mainAll (genEnv : GenEnv) (env : Env) (argv : List Bytes) : Cmd Unit :=
  match argv with
  | [] => pure ()
  | name :: rest => do
    let cmd ← Cmd.lift (GetCommand name)
    let fl ← Cmd.lift (parseFlags (name :: rest) [])
    let nums ← Cmd.lift (parseNumbers fl)
    match cmd with
    | .genkey => GenKeySet P genEnv (assocGet fl .location)
    | cmd => dispatch P env fl nums cmd

end Verif
