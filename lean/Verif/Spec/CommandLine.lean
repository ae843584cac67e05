import Verif.Model.Keyczart
import Verif.Spec.Json
/-
Independent specification of the keyczart command line (C60): usage text keyczart.py:207-246.
-/
namespace Verif.Spec
open Verif

/-- the names of the commands -/
def commandName : Command → Bytes
  | .create => [99, 114, 101, 97, 116, 101]
  | .addkey => [97, 100, 100, 107, 101, 121]
  | .pubkey => [112, 117, 98, 107, 101, 121]
  | .promote => [112, 114, 111, 109, 111, 116, 101]
  | .demote => [100, 101, 109, 111, 116, 101]
  | .revoke => [114, 101, 118, 111, 107, 101]
  | .genkey => [103, 101, 110, 107, 101, 121]

/-- the names of the flags -/
def flagName : Flag → Bytes
  | .location => [108, 111, 99, 97, 116, 105, 111, 110]
  | .name => [110, 97, 109, 101]
  | .size => [115, 105, 122, 101]
  | .status => [115, 116, 97, 116, 117, 115]
  | .purpose => [112, 117, 114, 112, 111, 115, 101]
  | .destination => [100, 101, 115, 116, 105, 110, 97, 116, 105, 111, 110]
  | .version => [118, 101, 114, 115, 105, 111, 110]
  | .asymmetric => [97, 115, 121, 109, 109, 101, 116, 114, 105, 99]
  | .crypter => [99, 114, 121, 112, 116, 101, 114]

/-- the argument `--name=value`, with exactly one `=` -/
inductive Assigns (name value : Bytes) : Bytes → Prop
  | intro (hn : (61 : UInt8) ∉ name) (hv : (61 : UInt8) ∉ value) : Assigns name value (45 :: 45 :: name ++ 61 :: value)

/-- the arguments give flag `f` the value `v`: the last `--f=v` counts -/
inductive FlagIs (f : Flag) : List Bytes → Option Bytes → Prop
  | none (argv : List Bytes) (h : ∀ arg ∈ argv, ∀ v, ¬ Assigns (flagName f) v arg) : FlagIs f argv none
  | some (a : List Bytes) (arg : Bytes) (v : Bytes) (b : List Bytes) (h : Assigns (flagName f) v arg)
      (hb : ∀ arg ∈ b, ∀ v, ¬ Assigns (flagName f) v arg) : FlagIs f (a ++ arg :: b) (some v)

/-- an argument that is no well-formed flag: it does not start with `--`, or it has no `=` or several -/
def Ignored (arg : Bytes) : Prop := ∀ name v, ¬ Assigns name v arg

/-- all flags that occur are known -/
def KnownFlags (argv : List Bytes) : Prop := ∀ arg ∈ argv, ∀ name v, Assigns name v arg → ∃ f, name = flagName f

/-- white space at the ends of a number -/
def White (b : Bytes) : Prop := ∀ c ∈ b, c ∈ [32, 9, 10, 11, 12, 13]

/-- decimal digits -/
def Digits (b : Bytes) : Prop := b ≠ [] ∧ ∀ c ∈ b, 48 ≤ c ∧ c ≤ 57

/-- value of decimal digits, most significant first -/
def decimal : Bytes → Nat
  | [] => 0
  | c :: t => (c.toNat - 48) * 10 ^ t.length + decimal t

/-- texts that denote integers -/
inductive IntText : Bytes → Int → Prop
  | plain (a d b : Bytes) (ha : White a) (hd : Digits d) (hb : White b) : IntText (a ++ d ++ b) (decimal d)
  | plus (a d b : Bytes) (ha : White a) (hd : Digits d) (hb : White b) : IntText (a ++ 43 :: d ++ b) (decimal d)
  | minus (a d b : Bytes) (ha : White a) (hd : Digits d) (hb : White b) : IntText (a ++ 45 :: d ++ b) (-(decimal d : Int))

/-- the value of a numeric flag: -1 if absent -/
inductive NumFlag : Option Bytes → Int → Prop
  | absent : NumFlag none (-1)
  | given {b : Bytes} {n : Int} (h : IntText b n) : NumFlag (some b) n

/-- a sign followed by white space, which some Python versions accept in a number -/
def OddSign (b : Bytes) : Prop := ∃ a s c t, White a ∧ (s = 43 ∨ s = 45) ∧ White [c] ∧ b = a ++ s :: c :: t

/-- a flag value on whose meaning as a number all Python versions agree -/
def Clear (v : Option Bytes) : Prop := ∀ b, v = some b → ¬ OddSign b

/-- the value of a numeric flag that is no number -/
def NotNum (v : Option Bytes) : Prop := ∃ b, v = some b ∧ ¬ OddSign b ∧ ∀ n, ¬ IntText b n

/-- ASCII letters in lower case -/
def lower (b : Bytes) : Bytes := b.map fun c => if 65 ≤ c ∧ c ≤ 90 then c + 32 else c

/-- names of the statuses, in lower case -/
def statusText : KeyStatus → Bytes
  | .PRIMARY => [112, 114, 105, 109, 97, 114, 121]
  | .ACTIVE => [97, 99, 116, 105, 118, 101]
  | .INACTIVE => [105, 110, 97, 99, 116, 105, 118, 101]

/-- meaning of the `status` flag: case is ignored, ACTIVE if absent -/
inductive StatusFlag : Option Bytes → KeyStatus → Prop
  | absent : StatusFlag none .ACTIVE
  | given {b : Bytes} {st : KeyStatus} (h : lower b = statusText st) : StatusFlag (some b) st

/-- meaning of the `purpose` flag -/
inductive PurposeFlag : Option Bytes → Option KeyPurpose → Prop
  | crypt : PurposeFlag (some [99, 114, 121, 112, 116]) (some .DECRYPT_AND_ENCRYPT)
  | sign : PurposeFlag (some [115, 105, 103, 110]) (some .SIGN_AND_VERIFY)
  | other (v : Option Bytes) (h : v ≠ some [99, 114, 121, 112, 116]) (h' : v ≠ some [115, 105, 103, 110]) : PurposeFlag v none

/-- meaning of the `name` flag: text in UTF-8, "Test" if absent -/
inductive NameFlag : Option Bytes → List Char → Prop
  | absent : NameFlag none ['T', 'e', 's', 't']
  | given (s : List Char) : NameFlag (some (s.flatMap utf8)) s

/-- The `name` flag is text in no encoding that could be UTF-8.  (Python 2 takes the three bytes that a surrogate would
have in UTF-8 for a character; names with such bytes are left out.) -/
def NoName (v : Option Bytes) : Prop :=
  (∀ s, ¬ NameFlag v s) ∧ ∀ b, v = some b → ¬ ∃ c, 160 ≤ c.toNat ∧ [0xed, c] <:+: b

/-- `argv` is the command `cmd` with known flags, flag `f` having the value `V f` -/
structure Parsed (argv : List Bytes) (cmd : Command) (V : Flag → Option Bytes) : Prop where
  head : argv.head? = some (commandName cmd)
  known : KnownFlags argv
  flags : ∀ f, FlagIs f argv (V f)

end Verif.Spec
