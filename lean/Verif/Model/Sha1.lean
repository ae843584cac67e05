import Verif.Model.Py
/-
SHA-1 (FIPS 180-4), the function behind `hashlib.sha1` (util.py:31-36, 71).  The theorems hold for
every hash function with 20-byte digests (`Prims`); this concrete definition shows that the
parameter can be instantiated by the real primitive and lets the model be tested against the data
files in /repo (Verif/Test).
-/
namespace Verif.Sha1

/-- 32-bit words are natural numbers below 2^32. -/
def M : Nat := 4294967296

def rotl (x n : Nat) : Nat := ((x <<< n) ||| (x >>> (32 - n))) % M

/-- FIPS 180-4, 6.1.2 step 1: extend 16 words to 80.  The list is kept in reverse order. -/
def extend : Nat → List Nat → List Nat
  | 0, w => w
  | n + 1, w =>
    extend n (rotl (w.getD 2 0 ^^^ w.getD 7 0 ^^^ w.getD 13 0 ^^^ w.getD 15 0) 1 :: w)

/-- the 32-bit complement -/
def not32 (x : Nat) : Nat := x ^^^ 0xffffffff

/-- FIPS 180-4, 4.1.1 and 4.2.1: round function and constant -/
def fk (t b c d : Nat) : Nat :=
  if t < 20 then ((b &&& c) ||| (not32 b &&& d)) + 0x5a827999
  else if t < 40 then (b ^^^ c ^^^ d) + 0x6ed9eba1
  else if t < 60 then ((b &&& c) ||| (b &&& d) ||| (c &&& d)) + 0x8f1bbcdc
  else (b ^^^ c ^^^ d) + 0xca62c1d6

structure State where
  a : Nat
  b : Nat
  c : Nat
  d : Nat
  e : Nat

/-- FIPS 180-4, 6.1.2 step 3 -/
def rounds : Nat → List Nat → State → State
  | _, [], s => s
  | t, w :: ws, s =>
    rounds (t + 1) ws ⟨(rotl s.a 5 + fk t s.b s.c s.d + s.e + w) % M, s.a, rotl s.b 30, s.c, s.d⟩

/-- big-endian words of a byte string -/
def words : Bytes → List Nat
  | a :: b :: c :: d :: t => (a.toNat * 16777216 + b.toNat * 65536 + c.toNat * 256 + d.toNat) :: words t
  | _ => []

/-- FIPS 180-4, 6.1.2: one 64-byte block -/
def block (s : State) (blk : Bytes) : State :=
  let r := rounds 0 (extend 64 (words blk).reverse).reverse s
  ⟨(s.a + r.a) % M, (s.b + r.b) % M, (s.c + r.c) % M, (s.d + r.d) % M, (s.e + r.e) % M⟩

def blocks : Nat → Bytes → State → State
  | 0, _, s => s
  | n + 1, m, s => blocks n (m.drop 64) (block s (m.take 64))

def word4 (n : Nat) : Bytes :=
  [UInt8.ofNat (n / 16777216), UInt8.ofNat (n / 65536), UInt8.ofNat (n / 256), UInt8.ofNat n]

/-- FIPS 180-4, 5.1.1 -/
def pad (m : Bytes) : Bytes :=
  let z := (119 - m.length % 64) % 64
  m ++ 0x80 :: List.replicate z 0 ++ word4 (m.length * 8 / M) ++ word4 (m.length * 8)

/-- SHA-1 (for messages shorter than 2^64 bits; longer lengths are reduced mod 2^64) -/
def hash (m : Bytes) : Bytes :=
  let p := pad m
  let s := blocks (p.length / 64) p ⟨0x67452301, 0xefcdab89, 0x98badcfe, 0x10325476, 0xc3d2e1f0⟩
  word4 s.a ++ word4 s.b ++ word4 s.c ++ word4 s.d ++ word4 s.e

theorem hash_length (m : Bytes) : (hash m).length = 20 := by
  simp [hash, word4]

end Verif.Sha1
