import Verif.Spec.KeyId
import Verif.Spec.Encodings
/-
Independent specification for C87: SHA-1 as in FIPS 180-4 and the AES cipher as in FIPS 197.
-/
namespace Verif.Spec.Fips
open Verif

/-! ## SHA-1 (FIPS 180-4) -/

/-- 4.1.1 -/
def Ch (x y z : BitVec 32) : BitVec 32 := (x &&& y) ^^^ (~~~x &&& z)
def Parity (x y z : BitVec 32) : BitVec 32 := x ^^^ y ^^^ z
def Maj (x y z : BitVec 32) : BitVec 32 := (x &&& y) ^^^ (x &&& z) ^^^ (y &&& z)
def f (t : Nat) : BitVec 32 → BitVec 32 → BitVec 32 → BitVec 32 :=
  if t ≤ 19 then Ch else if t ≤ 39 then Parity else if t ≤ 59 then Maj else Parity

/-- 4.2.1 -/
def K (t : Nat) : BitVec 32 :=
  if t ≤ 19 then 0x5a827999 else if t ≤ 39 then 0x6ed9eba1 else if t ≤ 59 then 0x8f1bbcdc else 0xca62c1d6

/-- the five words of a hash value, or the working variables -/
structure Five where
  a : BitVec 32
  b : BitVec 32
  c : BitVec 32
  d : BitVec 32
  e : BitVec 32

/-- 5.3.1 -/
def H0 : Five := ⟨0x67452301, 0xefcdab89, 0x98badcfe, 0x10325476, 0xc3d2e1f0⟩

/-- 6.1.2, step 1: `W` is the message schedule of a block -/
def MessageSchedule (block : Bytes) (W : Nat → BitVec 32) : Prop :=
  (∀ t < 16, (W t).toNat = bigEndian ((block.drop (4 * t)).take 4)) ∧
  ∀ t, 16 ≤ t → t < 80 → W t = (W (t - 3) ^^^ W (t - 8) ^^^ W (t - 14) ^^^ W (t - 16)).rotateLeft 1

/-- 6.1.2, step 3: the working variables after `t` steps -/
def working (W : Nat → BitVec 32) (s : Five) : Nat → Five
  | 0 => s
  | t + 1 =>
    let v := working W s t
    ⟨v.a.rotateLeft 5 + f t v.b v.c v.d + v.e + K t + W t, v.a, v.b.rotateLeft 30, v.c, v.d⟩

/-- 6.1.2, step 4 -/
def plus (x y : Five) : Five := ⟨x.a + y.a, x.b + y.b, x.c + y.c, x.d + y.d, x.e + y.e⟩

def Compressed (block : Bytes) (s s' : Five) : Prop := ∃ W, MessageSchedule block W ∧ s' = plus (working W s 80) s

/-- 5.1.1: a one bit, as few zeros as possible, the length in bits in 64 bits -/
def Padded (m p : Bytes) : Prop :=
  ∃ z len, z < 64 ∧ len.length = 8 ∧ bigEndian len = 8 * m.length ∧ p = m ++ [0x80] ++ List.replicate z 0 ++ len ∧
    64 ∣ p.length

def digest (s : Five) : Bytes :=
  i2osp4 s.a.toNat ++ i2osp4 s.b.toNat ++ i2osp4 s.c.toNat ++ i2osp4 s.d.toNat ++ i2osp4 s.e.toNat

/-- 6.1: `H i` is the hash value after `i` blocks of 64 bytes -/
def Sha1 (m out : Bytes) : Prop :=
  ∃ (p : Bytes) (H : Nat → Five), Padded m p ∧ H 0 = H0 ∧ (∀ i < p.length / 64, Compressed ((p.drop (64 * i)).take 64) (H i) (H (i + 1))) ∧
    out = digest (H (p.length / 64))

/-! ## AES (FIPS 197) -/

/-- the product of two polynomials over the field of two elements, given by their coefficients as bits -/
def polyMul (a b : Nat) : Nat :=
  (List.range 8).foldl (fun acc i => if b.testBit i then acc ^^^ (a <<< i) else acc) 0

/-- its remainder modulo x^8 + x^4 + x^3 + x + 1 -/
def polyRed (n : Nat) : Nat :=
  [6, 5, 4, 3, 2, 1, 0].foldl (fun n i => if n.testBit (8 + i) then n ^^^ (0x11b <<< i) else n) n

/-- 4.2: multiplication of bytes -/
def gf (a b : UInt8) : UInt8 := UInt8.ofNat (polyRed (polyMul a.toNat b.toNat))

/-- 5.1.1, (5.1): bit `k` of the affine transformation -/
def affineBit (b : UInt8) (k : Nat) : Bool :=
  b.toNat.testBit k ^^ b.toNat.testBit ((k + 4) % 8) ^^ b.toNat.testBit ((k + 5) % 8) ^^
    b.toNat.testBit ((k + 6) % 8) ^^ b.toNat.testBit ((k + 7) % 8) ^^ (0x63 : Nat).testBit k

/-- 5.1.1: the S-box is the multiplicative inverse, zero for zero, followed by the affine transformation -/
def SBox (x y : UInt8) : Prop :=
  ∃ b, (if x = 0 then b = 0 else gf x b = 1) ∧ ∀ k < 8, y.toNat.testBit k = affineBit b k

/-- 3.4: row `r` and column `c` of the state -/
abbrev State := Fin 4 → Fin 4 → UInt8

def stateOf (b : Bytes) : State := fun r c => b.getD (r.val + 4 * c.val) 0

/-- 5.1.2 -/
def shiftRows (s : State) : State := fun r c => s r (c + r)

/-- 5.1.3: the columns as polynomials times 3x^3 + x^2 + x + 2 -/
def mixColumns (s : State) : State := fun r c => gf 2 (s r c) ^^^ gf 3 (s (r + 1) c) ^^^ s (r + 2) c ^^^ s (r + 3) c

/-- 5.1.4: the four words of the round key are the columns -/
def addRoundKey (w : Nat → Fin 4 → UInt8) (round : Nat) (s : State) : State := fun r c => s r c ^^^ w (4 * round + c.val) r

/-- 5.2: the powers of x -/
def rcon : Nat → UInt8
  | 0 => 1
  | j + 1 => gf 2 (rcon j)

/-- 5.2: the words of the key schedule; `nk` is the length of the key in words -/
def KeySchedule (S : UInt8 → UInt8) (nk : Nat) (key : Bytes) (w : Nat → Fin 4 → UInt8) : Prop :=
  (∀ i < nk, ∀ r : Fin 4, w i r = key.getD (4 * i + r.val) 0) ∧
  ∀ i, nk ≤ i → i < 4 * (nk + 7) → ∀ r : Fin 4, w i r = w (i - nk) r ^^^
    (if i % nk = 0 then S (w (i - 1) (r + 1)) ^^^ (if r = 0 then rcon (i / nk - 1) else 0)
     else if 6 < nk ∧ i % nk = 4 then S (w (i - 1) r)
     else w (i - 1) r)

/-- 5.1: the state after `k` rounds, none of them the last -/
def after (S : UInt8 → UInt8) (w : Nat → Fin 4 → UInt8) (s : State) : Nat → State
  | 0 => addRoundKey w 0 s
  | k + 1 => addRoundKey w (k + 1) (mixColumns (shiftRows fun r c => S (after S w s k r c)))

/-- 5.1: the cipher with a key of `nk` words, in `nk + 6` rounds -/
def Cipher (key block out : Bytes) : Prop :=
  ∃ S w, (∀ x, SBox x (S x)) ∧ KeySchedule S (key.length / 4) key w ∧ out.length = 16 ∧
    stateOf out = addRoundKey w (key.length / 4 + 6)
      (shiftRows fun r c => S (after S w (stateOf block) (key.length / 4 + 5) r c))

end Verif.Spec.Fips
