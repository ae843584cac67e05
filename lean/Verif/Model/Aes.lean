import Verif.Model.Prims
import Verif.Model.Sha1
/-
AES (FIPS 197), the block function behind `Crypto.Cipher.AES` (keys.py:31).  The theorems hold for
every invertible block function (`Prims`); this concrete definition shows that the parameter can be
instantiated by the real primitive, and its inverse law is proved here.
-/
namespace Verif.Aes

/-- FIPS 197, figure 7 -/
def sbox : List UInt8 :=
  [99, 124, 119, 123, 242, 107, 111, 197, 48, 1, 103, 43, 254, 215, 171, 118,
   202, 130, 201, 125, 250, 89, 71, 240, 173, 212, 162, 175, 156, 164, 114, 192,
   183, 253, 147, 38, 54, 63, 247, 204, 52, 165, 229, 241, 113, 216, 49, 21,
   4, 199, 35, 195, 24, 150, 5, 154, 7, 18, 128, 226, 235, 39, 178, 117,
   9, 131, 44, 26, 27, 110, 90, 160, 82, 59, 214, 179, 41, 227, 47, 132,
   83, 209, 0, 237, 32, 252, 177, 91, 106, 203, 190, 57, 74, 76, 88, 207,
   208, 239, 170, 251, 67, 77, 51, 133, 69, 249, 2, 127, 80, 60, 159, 168,
   81, 163, 64, 143, 146, 157, 56, 245, 188, 182, 218, 33, 16, 255, 243, 210,
   205, 12, 19, 236, 95, 151, 68, 23, 196, 167, 126, 61, 100, 93, 25, 115,
   96, 129, 79, 220, 34, 42, 144, 136, 70, 238, 184, 20, 222, 94, 11, 219,
   224, 50, 58, 10, 73, 6, 36, 92, 194, 211, 172, 98, 145, 149, 228, 121,
   231, 200, 55, 109, 141, 213, 78, 169, 108, 86, 244, 234, 101, 122, 174, 8,
   186, 120, 37, 46, 28, 166, 180, 198, 232, 221, 116, 31, 75, 189, 139, 138,
   112, 62, 181, 102, 72, 3, 246, 14, 97, 53, 87, 185, 134, 193, 29, 158,
   225, 248, 152, 17, 105, 217, 142, 148, 155, 30, 135, 233, 206, 85, 40, 223,
   140, 161, 137, 13, 191, 230, 66, 104, 65, 153, 45, 15, 176, 84, 187, 22]

/-- FIPS 197, figure 14 -/
def invSbox : List UInt8 :=
  [82, 9, 106, 213, 48, 54, 165, 56, 191, 64, 163, 158, 129, 243, 215, 251,
   124, 227, 57, 130, 155, 47, 255, 135, 52, 142, 67, 68, 196, 222, 233, 203,
   84, 123, 148, 50, 166, 194, 35, 61, 238, 76, 149, 11, 66, 250, 195, 78,
   8, 46, 161, 102, 40, 217, 36, 178, 118, 91, 162, 73, 109, 139, 209, 37,
   114, 248, 246, 100, 134, 104, 152, 22, 212, 164, 92, 204, 93, 101, 182, 146,
   108, 112, 72, 80, 253, 237, 185, 218, 94, 21, 70, 87, 167, 141, 157, 132,
   144, 216, 171, 0, 140, 188, 211, 10, 247, 228, 88, 5, 184, 179, 69, 6,
   208, 44, 30, 143, 202, 63, 15, 2, 193, 175, 189, 3, 1, 19, 138, 107,
   58, 145, 17, 65, 79, 103, 220, 234, 151, 242, 207, 206, 240, 180, 230, 115,
   150, 172, 116, 34, 231, 173, 53, 133, 226, 249, 55, 232, 28, 117, 223, 110,
   71, 241, 26, 113, 29, 41, 197, 137, 111, 183, 98, 14, 170, 24, 190, 27,
   252, 86, 62, 75, 198, 210, 121, 32, 154, 219, 192, 254, 120, 205, 90, 244,
   31, 221, 168, 51, 136, 7, 199, 49, 177, 18, 16, 89, 39, 128, 236, 95,
   96, 81, 127, 169, 25, 181, 74, 13, 45, 229, 122, 159, 147, 201, 156, 239,
   160, 224, 59, 77, 174, 42, 245, 176, 200, 235, 187, 60, 131, 83, 153, 97,
   23, 43, 4, 126, 186, 119, 214, 38, 225, 105, 20, 99, 85, 33, 12, 125]

def sub (x : UInt8) : UInt8 := sbox.getD x.toNat 0
def invSub (x : UInt8) : UInt8 := invSbox.getD x.toNat 0

/-- multiplication by x in GF(2^8) (FIPS 197, 4.2.1) -/
def xt (x : UInt8) : UInt8 := (x <<< 1) ^^^ ((x >>> 7) * 0x1b)

/-- FIPS 197, 5.1.2 ShiftRows; byte `4c+r` is row `r` of column `c` -/
def shiftRows : Bytes → Bytes
  | [a0, a1, a2, a3, b0, b1, b2, b3, c0, c1, c2, c3, d0, d1, d2, d3] =>
    [a0, b1, c2, d3, b0, c1, d2, a3, c0, d1, a2, b3, d0, a1, b2, c3]
  | s => s

def invShiftRows : Bytes → Bytes
  | [a0, b1, c2, d3, b0, c1, d2, a3, c0, d1, a2, b3, d0, a1, b2, c3] =>
    [a0, a1, a2, a3, b0, b1, b2, b3, c0, c1, c2, c3, d0, d1, d2, d3]
  | s => s

/-- FIPS 197, 5.1.3 MixColumns -/
def mixColumns : Bytes → Bytes
  | a :: b :: c :: d :: t =>
    (xt a ^^^ xt b ^^^ b ^^^ c ^^^ d) :: (a ^^^ xt b ^^^ xt c ^^^ c ^^^ d) ::
    (a ^^^ b ^^^ xt c ^^^ xt d ^^^ d) :: (xt a ^^^ a ^^^ b ^^^ c ^^^ xt d) :: mixColumns t
  | s => s

def x9 (x : UInt8) : UInt8 := xt (xt (xt x)) ^^^ x
def xb (x : UInt8) : UInt8 := xt (xt (xt x)) ^^^ xt x ^^^ x
def xd (x : UInt8) : UInt8 := xt (xt (xt x)) ^^^ xt (xt x) ^^^ x
def xe (x : UInt8) : UInt8 := xt (xt (xt x)) ^^^ xt (xt x) ^^^ xt x

/-- FIPS 197, 5.3.3 InvMixColumns -/
def invMixColumns : Bytes → Bytes
  | a :: b :: c :: d :: t =>
    (xe a ^^^ xb b ^^^ xd c ^^^ x9 d) :: (x9 a ^^^ xe b ^^^ xb c ^^^ xd d) ::
    (xd a ^^^ x9 b ^^^ xe c ^^^ xb d) :: (xb a ^^^ xd b ^^^ x9 c ^^^ xe d) :: invMixColumns t
  | s => s

/-- a word of the key schedule -/
abbrev Word := UInt8 × UInt8 × UInt8 × UInt8

def xorW (a b : Word) : Word := (a.1 ^^^ b.1, a.2.1 ^^^ b.2.1, a.2.2.1 ^^^ b.2.2.1, a.2.2.2 ^^^ b.2.2.2)
def subW (a : Word) : Word := (sub a.1, sub a.2.1, sub a.2.2.1, sub a.2.2.2)
def rotW (a : Word) : Word := (a.2.1, a.2.2.1, a.2.2.2, a.1)

/-- FIPS 197, 5.2 KeyExpansion: `n` more words from word `i` on; the list is in reverse order -/
def expand (nk : Nat) : (n i : Nat) → (rcon : UInt8) → List Word → List Word
  | 0, _, _, w => w
  | n + 1, i, rcon, w =>
    let prev := w.getD 0 (0, 0, 0, 0)
    let old := w.getD (nk - 1) (0, 0, 0, 0)
    if i % nk = 0 then expand nk n (i + 1) (xt rcon) (xorW old (xorW (subW (rotW prev)) (rcon, 0, 0, 0)) :: w)
    else if nk > 6 ∧ i % nk = 4 then expand nk n (i + 1) rcon (xorW old (subW prev) :: w)
    else expand nk n (i + 1) rcon (xorW old prev :: w)

def toWords : Bytes → List Word
  | a :: b :: c :: d :: t => (a, b, c, d) :: toWords t
  | _ => []

/-- groups of four words -/
def toKeys : List Word → List Bytes
  | a :: b :: c :: d :: t =>
    [a.1, a.2.1, a.2.2.1, a.2.2.2, b.1, b.2.1, b.2.2.1, b.2.2.2,
     c.1, c.2.1, c.2.2.1, c.2.2.2, d.1, d.2.1, d.2.2.1, d.2.2.2] :: toKeys t
  | _ => []

/-- the round keys: `Nr + 1 = Nk + 7` of them -/
def roundKeys (key : Bytes) : List Bytes :=
  let nk := key.length / 4
  toKeys (expand nk (4 * (nk + 7) - nk) nk 1 (toWords key).reverse).reverse

def addKey (k s : Bytes) : Bytes := xorBytes s k

/-- FIPS 197, 5.1 Cipher, after the first AddRoundKey -/
def encRounds : List Bytes → Bytes → Bytes
  | [], s => s
  | [k], s => addKey k (shiftRows (s.map sub))
  | k :: k' :: t, s => encRounds (k' :: t) (addKey k (mixColumns (shiftRows (s.map sub))))

/-- FIPS 197, 5.3 InvCipher -/
def decRounds : List Bytes → Bytes → Bytes
  | [], s => s
  | [k], s => (invShiftRows (addKey k s)).map invSub
  | k :: k' :: t, s => (invShiftRows (invMixColumns (addKey k (decRounds (k' :: t) s)))).map invSub

/-- the AES block function -/
def enc (key block : Bytes) : Bytes :=
  match roundKeys key with
  | [] => block
  | k :: ks => encRounds ks (addKey k block)

/-- its inverse -/
def dec (key block : Bytes) : Bytes :=
  match roundKeys key with
  | [] => block
  | k :: ks => addKey k (decRounds ks block)

/-! ### the inverse law -/

theorem forall_uint8 {p : UInt8 → Prop} (h : ∀ n, n < 256 → p (UInt8.ofNat n)) (x : UInt8) : p x := by
  have := h x.toNat x.toNat_lt
  rwa [UInt8.ofNat_toNat] at this

theorem invSub_sub (x : UInt8) : invSub (sub x) = x :=
  forall_uint8 (p := fun x => invSub (sub x) = x) (by decide +kernel) x

theorem top_bit (x : UInt8) : x >>> 7 = 0 ∨ x >>> 7 = 1 :=
  forall_uint8 (p := fun x => x >>> 7 = 0 ∨ x >>> 7 = 1) (by decide +kernel) x

theorem xt_xor (x y : UInt8) : xt (x ^^^ y) = xt x ^^^ xt y := by
  have h : ((x >>> 7) ^^^ (y >>> 7)) * (0x1b : UInt8) = ((x >>> 7) * (0x1b : UInt8)) ^^^ ((y >>> 7) * (0x1b : UInt8)) := by
    rcases top_bit x with h | h <;> rcases top_bit y with h' | h' <;> rw [h, h'] <;> decide
  unfold xt
  rw [UInt8.shiftLeft_xor, UInt8.shiftRight_xor, h]
  ac_rfl

theorem len16 {s : Bytes} (h : s.length = 16) : ∃ a0 a1 a2 a3 b0 b1 b2 b3 c0 c1 c2 c3 d0 d1 d2 d3,
    s = [a0, a1, a2, a3, b0, b1, b2, b3, c0, c1, c2, c3, d0, d1, d2, d3] := by
  match s, h with
  | [a0, a1, a2, a3, b0, b1, b2, b3, c0, c1, c2, c3, d0, d1, d2, d3], _ =>
    exact ⟨a0, a1, a2, a3, b0, b1, b2, b3, c0, c1, c2, c3, d0, d1, d2, d3, rfl⟩

theorem shiftRows_length {s : Bytes} (h : s.length = 16) : (shiftRows s).length = 16 := by
  obtain ⟨a0, a1, a2, a3, b0, b1, b2, b3, c0, c1, c2, c3, d0, d1, d2, d3, rfl⟩ := len16 h
  rfl

theorem invShiftRows_length {s : Bytes} (h : s.length = 16) : (invShiftRows s).length = 16 := by
  obtain ⟨a0, a1, a2, a3, b0, b1, b2, b3, c0, c1, c2, c3, d0, d1, d2, d3, rfl⟩ := len16 h
  rfl

theorem invShiftRows_shiftRows {s : Bytes} (h : s.length = 16) : invShiftRows (shiftRows s) = s := by
  obtain ⟨a0, a1, a2, a3, b0, b1, b2, b3, c0, c1, c2, c3, d0, d1, d2, d3, rfl⟩ := len16 h
  rfl

theorem x9_xor (x y : UInt8) : x9 (x ^^^ y) = x9 x ^^^ x9 y := by
  simp only [x9, xt_xor]; ac_rfl
theorem xb_xor (x y : UInt8) : xb (x ^^^ y) = xb x ^^^ xb y := by
  simp only [xb, xt_xor]; ac_rfl
theorem xd_xor (x y : UInt8) : xd (x ^^^ y) = xd x ^^^ xd y := by
  simp only [xd, xt_xor]; ac_rfl
theorem xe_xor (x y : UInt8) : xe (x ^^^ y) = xe x ^^^ xe y := by
  simp only [xe, xt_xor]; ac_rfl

/-- collecting the contributions of the four bytes of a column -/
theorem regroup {f g h k : UInt8 → UInt8} (hf : ∀ x y, f (x ^^^ y) = f x ^^^ f y)
    (hg : ∀ x y, g (x ^^^ y) = g x ^^^ g y) (hh : ∀ x y, h (x ^^^ y) = h x ^^^ h y)
    (hk : ∀ x y, k (x ^^^ y) = k x ^^^ k y) (a1 b1 c1 d1 a2 b2 c2 d2 a3 b3 c3 d3 a4 b4 c4 d4 : UInt8) :
    f (a1 ^^^ b1 ^^^ c1 ^^^ d1) ^^^ g (a2 ^^^ b2 ^^^ c2 ^^^ d2) ^^^ h (a3 ^^^ b3 ^^^ c3 ^^^ d3) ^^^
      k (a4 ^^^ b4 ^^^ c4 ^^^ d4) =
    (f a1 ^^^ g a2 ^^^ h a3 ^^^ k a4) ^^^ (f b1 ^^^ g b2 ^^^ h b3 ^^^ k b4) ^^^
      (f c1 ^^^ g c2 ^^^ h c3 ^^^ k c4) ^^^ (f d1 ^^^ g d2 ^^^ h d3 ^^^ k d4) := by
  simp only [hf, hg, hh, hk]
  ac_rfl

/-- the sixteen entries of the product of the two matrices -/
theorem mixTable : ∀ x : UInt8,
    (xe (xt x) ^^^ xb x ^^^ xd x ^^^ x9 (xt x ^^^ x) = x ∧
     xe (xt x ^^^ x) ^^^ xb (xt x) ^^^ xd x ^^^ x9 x = 0 ∧
     xe x ^^^ xb (xt x ^^^ x) ^^^ xd (xt x) ^^^ x9 x = 0 ∧
     xe x ^^^ xb x ^^^ xd (xt x ^^^ x) ^^^ x9 (xt x) = 0) ∧
    (x9 (xt x) ^^^ xe x ^^^ xb x ^^^ xd (xt x ^^^ x) = 0 ∧
     x9 (xt x ^^^ x) ^^^ xe (xt x) ^^^ xb x ^^^ xd x = x ∧
     x9 x ^^^ xe (xt x ^^^ x) ^^^ xb (xt x) ^^^ xd x = 0 ∧
     x9 x ^^^ xe x ^^^ xb (xt x ^^^ x) ^^^ xd (xt x) = 0) ∧
    (xd (xt x) ^^^ x9 x ^^^ xe x ^^^ xb (xt x ^^^ x) = 0 ∧
     xd (xt x ^^^ x) ^^^ x9 (xt x) ^^^ xe x ^^^ xb x = 0 ∧
     xd x ^^^ x9 (xt x ^^^ x) ^^^ xe (xt x) ^^^ xb x = x ∧
     xd x ^^^ x9 x ^^^ xe (xt x ^^^ x) ^^^ xb (xt x) = 0) ∧
    (xb (xt x) ^^^ xd x ^^^ x9 x ^^^ xe (xt x ^^^ x) = 0 ∧
     xb (xt x ^^^ x) ^^^ xd (xt x) ^^^ x9 x ^^^ xe x = 0 ∧
     xb x ^^^ xd (xt x ^^^ x) ^^^ x9 (xt x) ^^^ xe x = 0 ∧
     xb x ^^^ xd x ^^^ x9 (xt x ^^^ x) ^^^ xe (xt x) = x) :=
  forall_uint8 (by decide +kernel)

theorem invMix_mix4 (a b c d : UInt8) (t : Bytes) :
    invMixColumns (mixColumns (a :: b :: c :: d :: t)) = a :: b :: c :: d :: invMixColumns (mixColumns t) := by
  have m1 : xt a ^^^ xt b ^^^ b ^^^ c ^^^ d = xt a ^^^ (xt b ^^^ b) ^^^ c ^^^ d := by ac_rfl
  have m2 : a ^^^ xt b ^^^ xt c ^^^ c ^^^ d = a ^^^ xt b ^^^ (xt c ^^^ c) ^^^ d := by ac_rfl
  have m3 : a ^^^ b ^^^ xt c ^^^ xt d ^^^ d = a ^^^ b ^^^ xt c ^^^ (xt d ^^^ d) := by ac_rfl
  have m4 : xt a ^^^ a ^^^ b ^^^ c ^^^ xt d = (xt a ^^^ a) ^^^ b ^^^ c ^^^ xt d := by ac_rfl
  obtain ⟨⟨a1, -, -, -⟩, ⟨a2, -, -, -⟩, ⟨a3, -, -, -⟩, ⟨a4, -, -, -⟩⟩ := mixTable a
  obtain ⟨⟨-, b1, -, -⟩, ⟨-, b2, -, -⟩, ⟨-, b3, -, -⟩, ⟨-, b4, -, -⟩⟩ := mixTable b
  obtain ⟨⟨-, -, c1, -⟩, ⟨-, -, c2, -⟩, ⟨-, -, c3, -⟩, ⟨-, -, c4, -⟩⟩ := mixTable c
  obtain ⟨⟨-, -, -, d1⟩, ⟨-, -, -, d2⟩, ⟨-, -, -, d3⟩, ⟨-, -, -, d4⟩⟩ := mixTable d
  rw [mixColumns, invMixColumns, m1, m2, m3, m4, regroup xe_xor xb_xor xd_xor x9_xor,
    regroup x9_xor xe_xor xb_xor xd_xor, regroup xd_xor x9_xor xe_xor xb_xor,
    regroup xb_xor xd_xor x9_xor xe_xor, a1, a2, a3, a4, b1, b2, b3, b4, c1, c2, c3, c4, d1, d2, d3, d4]
  simp only [UInt8.xor_zero, UInt8.zero_xor]

theorem invMix_mix {s : Bytes} (h : s.length = 16) : invMixColumns (mixColumns s) = s := by
  obtain ⟨a0, a1, a2, a3, b0, b1, b2, b3, c0, c1, c2, c3, d0, d1, d2, d3, rfl⟩ := len16 h
  simp only [invMix_mix4]
  rfl

theorem mix_length {s : Bytes} (h : s.length = 16) : (mixColumns s).length = 16 := by
  obtain ⟨a0, a1, a2, a3, b0, b1, b2, b3, c0, c1, c2, c3, d0, d1, d2, d3, rfl⟩ := len16 h
  rfl

theorem invMix_length {s : Bytes} (h : s.length = 16) : (invMixColumns s).length = 16 := by
  obtain ⟨a0, a1, a2, a3, b0, b1, b2, b3, c0, c1, c2, c3, d0, d1, d2, d3, rfl⟩ := len16 h
  rfl

theorem addKey_length {k s : Bytes} (hk : k.length = 16) (hs : s.length = 16) : (addKey k s).length = 16 := by
  simp [addKey, xorBytes, hk, hs]

theorem addKey_addKey {k s : Bytes} (h : s.length = k.length) : addKey k (addKey k s) = s := by
  unfold addKey xorBytes
  induction s generalizing k with
  | nil => simp
  | cons a t ih =>
    cases k with
    | nil => simp at h
    | cons b u =>
      simp only [List.zipWith_cons_cons]
      rw [ih (by simpa using h), UInt8.xor_assoc, UInt8.xor_self, UInt8.xor_zero]

theorem toKeys_length (w : List Word) : ∀ k ∈ toKeys w, k.length = 16 := by
  fun_induction toKeys w with
  | case1 a b c d t ih =>
    intro k hk
    rcases List.mem_cons.mp hk with rfl | hk
    · rfl
    · exact ih k hk
  | case2 => intro k hk; cases hk

theorem roundKeys_length (key : Bytes) : ∀ k ∈ roundKeys key, k.length = 16 := toKeys_length _

theorem encRounds_length {ks : List Bytes} (hk : ∀ k ∈ ks, k.length = 16) {s : Bytes} (hs : s.length = 16) :
    (encRounds ks s).length = 16 := by
  fun_induction encRounds ks s with
  | case1 => exact hs
  | case2 k s =>
    exact addKey_length (hk k (by simp)) (shiftRows_length (by simpa using hs))
  | case3 k k' t s ih =>
    exact ih (fun x hx => hk x (List.mem_cons_of_mem _ hx))
      (addKey_length (hk k (by simp)) (mix_length (shiftRows_length (by simpa using hs))))

theorem decRounds_length {ks : List Bytes} (hk : ∀ k ∈ ks, k.length = 16) {s : Bytes} (hs : s.length = 16) :
    (decRounds ks s).length = 16 := by
  fun_induction decRounds ks s with
  | case1 => exact hs
  | case2 k s =>
    rw [List.length_map]
    exact invShiftRows_length (addKey_length (hk k (by simp)) hs)
  | case3 k k' t s ih =>
    rw [List.length_map]
    exact invShiftRows_length (invMix_length (addKey_length (hk k (by simp))
      (ih (fun x hx => hk x (List.mem_cons_of_mem _ hx)) hs)))

theorem map_invSub_sub (s : Bytes) : (s.map sub).map invSub = s := by
  rw [List.map_map]
  exact (List.map_congr_left fun x _ => invSub_sub x).trans (List.map_id s)

theorem decRounds_encRounds {ks : List Bytes} (hk : ∀ k ∈ ks, k.length = 16) {s : Bytes} (hs : s.length = 16) :
    decRounds ks (encRounds ks s) = s := by
  fun_induction encRounds ks s with
  | case1 => rfl
  | case2 k s =>
    have h1 : (s.map sub).length = 16 := by simpa using hs
    rw [decRounds, addKey_addKey (by rw [shiftRows_length h1, hk k (by simp)]), invShiftRows_shiftRows h1,
      map_invSub_sub]
  | case3 k k' t s ih =>
    have h1 : (s.map sub).length = 16 := by simpa using hs
    have h2 := shiftRows_length h1
    have h3 := mix_length h2
    have hkk := hk k (by simp)
    rw [decRounds, ih (fun x hx => hk x (List.mem_cons_of_mem _ hx)) (addKey_length hkk h3),
      addKey_addKey (by rw [h3, hkk]), invMix_mix h2, invShiftRows_shiftRows h1, map_invSub_sub]

theorem dec_enc (key : Bytes) {block : Bytes} (h : block.length = 16) : dec key (enc key block) = block := by
  have hk := roundKeys_length key
  unfold dec enc
  split
  · rfl
  · next k ks hrk =>
    rw [hrk] at hk
    have hkk := hk k (by simp)
    rw [decRounds_encRounds (fun x hx => hk x (by simp [hx])) (addKey_length hkk h),
      addKey_addKey (by rw [h, hkk])]

theorem enc_length (key : Bytes) {block : Bytes} (h : block.length = 16) : (enc key block).length = 16 := by
  have hk := roundKeys_length key
  unfold enc
  split
  · exact h
  · next k ks hrk =>
    rw [hrk] at hk
    exact encRounds_length (fun x hx => hk x (by simp [hx])) (addKey_length (hk k (by simp)) h)

theorem dec_length (key : Bytes) {block : Bytes} (h : block.length = 16) : (dec key block).length = 16 := by
  have hk := roundKeys_length key
  unfold dec
  split
  · exact h
  · next k ks hrk =>
    rw [hrk] at hk
    exact addKey_length (hk k (by simp)) (decRounds_length (fun x hx => hk x (by simp [hx])) h)

end Verif.Aes

namespace Verif

/-- The real primitives: SHA-1 and AES, with PyCrypto's compiled RSA (range check on). -/
def realPrims : Prims where
  sha1 := Sha1.hash
  aesEnc := Aes.enc
  aesDec := Aes.dec
  sha1_length := Sha1.hash_length
  aesEnc_length _ _ _ h := Aes.enc_length _ h
  aesDec_length _ _ _ h := Aes.dec_length _ h
  aesDec_aesEnc _ _ _ h := Aes.dec_enc _ h
  rsaRangeCheck := true

end Verif
