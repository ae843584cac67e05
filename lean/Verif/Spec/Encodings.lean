import Verif.Model.Py
/-
Independent specifications for the encoding properties (C01-C12).
-/
namespace Verif.Spec
open Verif

/-- RFC 4648 table 2: the URL and filename safe alphabet. -/
def webAlphabet : Bytes :=
  bstr "ABCDEFGHIJKLMNOPQRSTUVWXYZabcdefghijklmnopqrstuvwxyz0123456789-_"

/-- Bits of a byte, most significant first. -/
def byteBits (b : UInt8) : List Bool := (List.range 8).map fun i => b.toNat.testBit (7 - i)

/-- Number denoted by a list of bits, most significant first. -/
def bitsVal (l : List Bool) : Nat := l.foldl (fun a b => 2 * a + b.toNat) 0

/-- Groups of six bits; the last group is filled with zero bits on the right. -/
def sextets : List Bool → List Nat
  | b0 :: b1 :: b2 :: b3 :: b4 :: b5 :: t => bitsVal [b0, b1, b2, b3, b4, b5] :: sextets t
  | [] => []
  | l => [bitsVal (l ++ List.replicate (6 - l.length) false)]

/-- RFC 4648 section 5 encoding without padding characters. -/
def rfc4648url (s : Bytes) : Bytes :=
  (sextets (s.map byteBits).flatten).map fun v => webAlphabet.getD v 0

/-- Space, carriage return, line feed. -/
def IsBlank (c : UInt8) : Prop := c = 32 ∨ c = 13 ∨ c = 10

/-- `InsertBlanks s t`: `t` is `s` with any number of blanks inserted anywhere. -/
inductive InsertBlanks : Bytes → Bytes → Prop
  | nil : InsertBlanks [] []
  | keep (c : UInt8) {s t : Bytes} : InsertBlanks s t → InsertBlanks (c :: s) (c :: t)
  | blank (c : UInt8) {s t : Bytes} : IsBlank c → InsertBlanks s t → InsertBlanks s (c :: t)

/-- The big-endian number a byte string denotes (positional notation, least significant last). -/
def bigEndian : Bytes → Nat
  | [] => 0
  | c :: t => c.toNat * 256 ^ t.length + bigEndian t

end Verif.Spec
