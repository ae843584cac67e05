import Verif.Spec.Nonce
import Verif.Props.Forgery
import Verif.Lemmas.ExampleSets
/-
C91: the numbers drawn for DSA signatures must be secret and different; the other signatures use no randomness.
-/
namespace Verif.Props
open Verif Spec
variable (P : Prims)

theorem signaturePart_eq (r : Signed P) :
    TheSignature P.sha1 r.rnd.dsaK r.entry.key r.request.text (signaturePart r.request r.out) := by
  obtain ⟨id, sig, hid, hs, ho⟩ := C89_answers P r
  have hl : (header id).length = 5 := by simp [header, ((KeyId_iff P _ _).mp hid).1]
  have : signaturePart r.request r.out = sig := by
    cases hq : r.request with
    | plain m => rw [hq] at ho; rw [ho]; exact List.drop_left' hl
    | attached m nonce =>
      rw [hq] at ho; rw [ho]
      exact List.drop_left' (by simp [hl, lengthPrefixed, i2osp4]; omega)
    | unversioned m => rw [hq] at ho; exact ho
  rw [this]; exact hs

/-- C91: signatures of HMAC and RSA keys are determined by the key and the text that is signed, whatever the random number
generator returns: the same request twice gives the same signature, and nothing depends on the quality of the generator. -/
theorem C91_determined (a b : Signed P) (hk : a.entry.key = b.entry.key) (hd : a.entry.key.type ≠ .DSA_PRIV)
    (ht : a.request.text = b.request.text) : signaturePart a.request a.out = signaturePart b.request b.out := by
  have h1 := signaturePart_eq P a
  have h2 := signaturePart_eq P b
  have ha := a.able
  rw [← hk, ← ht] at h2
  cases hkey : a.entry.key with
  | dsaPriv k => rw [hkey] at hd; exact absurd rfl hd
  | hmac k => rw [hkey] at h1 h2 ha; exact C84_one P _ ha a.rnd _ _ _ h1 h2
  | rsaPriv k => rw [hkey] at h1 h2 ha; exact C84_one P _ ha a.rnd _ _ _ h1 h2
  | aes k => rw [hkey] at ha; exact ha.elim
  | rsaPub k => rw [hkey] at ha; exact ha.elim
  | dsaPub k => rw [hkey] at ha; exact ha.elim

/-- the two numbers that can be read in a DSA signature, and the equation between them -/
theorem dsa_pair (a : Signed P) (k : DsaPrivateKey) (hk : a.entry.key = .dsaPriv k) (r s : Int)
    (h : BerPair r s (signaturePart a.request a.out)) :
    r = (k.key.g ^ a.rnd.dsaK k.key.q % k.key.p % k.key.q : Nat) ∧
      s * a.rnd.dsaK k.key.q ≡ a.request.digest P.sha1 + k.key.x * r [ZMOD k.key.q] := by
  have h1 := signaturePart_eq P a
  rw [hk] at h1
  obtain ⟨r', s', hr, hs, he, hd⟩ := h1
  have p1 := (C80_parses _ r s).mpr ⟨_, [], (List.append_nil _).symm, h⟩
  have p2 := C12_round_trip _ _ _ [] ((C80_makes _ _ _).mpr hd)
  rw [List.append_nil, p1] at p2
  obtain ⟨rfl, rfl⟩ := Prod.mk.inj (Except.ok.inj p2)
  refine ⟨by rw [hr], ?_⟩
  have := (Int.natCast_modEq_iff.mpr (show Nat.ModEq _ _ _ from he))
  push_cast at this
  rw [mul_comm]
  exact this

/-- C91: whoever learns the number that was drawn for one DSA signature reads the private number of the key off the
signature: with r and s as the signature says, and any inverse of r, it is congruent to w(sn - z). -/
theorem C91_known_draw (a : Signed P) (k : DsaPrivateKey) (hk : a.entry.key = .dsaPriv k) (r s w : Int)
    (h : BerPair r s (signaturePart a.request a.out)) (hw : IsInverse k.key.q w r) :
    secretFromDraw w (a.rnd.dsaK k.key.q) (a.request.digest P.sha1) s ≡ k.key.x [ZMOD k.key.q] := by
  obtain ⟨-, he⟩ := dsa_pair P a k hk r s h
  unfold secretFromDraw
  have e1 := (he.sub_right (a.request.digest P.sha1)).mul_left w
  rw [show w * (a.request.digest P.sha1 + k.key.x * r - a.request.digest P.sha1) = w * r * k.key.x by ring] at e1
  have e2 := (show w * r ≡ 1 [ZMOD k.key.q] from hw).mul_right (k.key.x : Int)
  rw [one_mul] at e2
  exact e1.trans e2

/-- C91: everybody sees when the same number was drawn twice with a key: the signatures begin with the same r. -/
theorem C91_repeat_shows (a b : Signed P) (k : DsaPrivateKey) (ha : a.entry.key = .dsaPriv k) (hb : b.entry.key = .dsaPriv k)
    (hn : a.rnd.dsaK k.key.q = b.rnd.dsaK k.key.q) (r₁ s₁ r₂ s₂ : Int)
    (h1 : BerPair r₁ s₁ (signaturePart a.request a.out)) (h2 : BerPair r₂ s₂ (signaturePart b.request b.out)) : r₁ = r₂ := by
  rw [(dsa_pair P a k ha r₁ s₁ h1).1, (dsa_pair P b k hb r₂ s₂ h2).1, hn]

/-- C91: and then the private number of the key follows from the two signatures alone, if the digests differ modulo q: the
second components differ, and with any inverse of r(s₁ - s₂) it is congruent to w(s₂z₁ - s₁z₂). -/
theorem C91_repeated_draw (a b : Signed P) (k : DsaPrivateKey) (ha : a.entry.key = .dsaPriv k)
    (hb : b.entry.key = .dsaPriv k) (hn : a.rnd.dsaK k.key.q = b.rnd.dsaK k.key.q) (r s₁ s₂ : Int)
    (h1 : BerPair r s₁ (signaturePart a.request a.out)) (h2 : BerPair r s₂ (signaturePart b.request b.out))
    (hz : ¬ a.request.digest P.sha1 ≡ b.request.digest P.sha1 [ZMOD k.key.q]) :
    ¬ s₁ ≡ s₂ [ZMOD k.key.q] ∧
      ∀ w, IsInverse k.key.q w (r * (s₁ - s₂)) →
        secretFromTwo w (a.request.digest P.sha1) s₁ (b.request.digest P.sha1) s₂ ≡ k.key.x [ZMOD k.key.q] := by
  obtain ⟨-, e1⟩ := dsa_pair P a k ha r s₁ h1
  obtain ⟨-, e2⟩ := dsa_pair P b k hb r s₂ h2
  rw [← hn] at e2
  constructor
  · intro hs
    refine hz ?_
    have := ((e1.symm.trans (hs.mul_right _)).trans e2).sub_right ((k.key.x : Int) * r)
    simpa using this
  · intro w hw
    unfold secretFromTwo
    have f1 := e1.mul_left s₂
    have f2 := e2.mul_left s₁
    have f3 : s₂ * (a.request.digest P.sha1 + k.key.x * r) ≡ s₁ * (b.request.digest P.sha1 + k.key.x * r) [ZMOD k.key.q] := by
      refine f1.symm.trans (Int.ModEq.trans ?_ f2)
      rw [show s₂ * (s₁ * (a.rnd.dsaK k.key.q : Int)) = s₁ * (s₂ * (a.rnd.dsaK k.key.q : Int)) by ring]
    have f4 : s₂ * a.request.digest P.sha1 - s₁ * b.request.digest P.sha1 ≡ r * (s₁ - s₂) * k.key.x [ZMOD k.key.q] := by
      have := (f3.sub_right (s₁ * b.request.digest P.sha1)).sub_right (s₂ * (k.key.x * r))
      rw [show s₂ * (a.request.digest P.sha1 + k.key.x * r) - s₁ * b.request.digest P.sha1 - s₂ * (k.key.x * r) =
          s₂ * a.request.digest P.sha1 - s₁ * b.request.digest P.sha1 by ring,
        show s₁ * (b.request.digest P.sha1 + k.key.x * r) - s₁ * b.request.digest P.sha1 - s₂ * (k.key.x * r) =
          r * (s₁ - s₂) * k.key.x by ring] at this
      exact this
    have f5 := f4.mul_left w
    rw [show w * (r * (s₁ - s₂) * (k.key.x : Int)) = w * (r * (s₁ - s₂)) * k.key.x by ring] at f5
    have f6 := (show w * (r * (s₁ - s₂)) ≡ 1 [ZMOD k.key.q] from hw).mul_right (k.key.x : Int)
    rw [one_mul] at f6
    exact f5.trans f6

/-- C91: a private number that is congruent to the right one modulo q is as good: it makes the same signatures. -/
theorem C91_congruent_secret (k : DsaPrivateKey) (x : Nat) (hx : (x : Int) ≡ k.key.x [ZMOD k.key.q]) (n : Nat) (msg : Bytes) :
    DsaPrivateKey.Sign P { k with key := { k.key with x := x } } n msg = k.Sign P n msg := by
  have hx' : x ≡ k.key.x [MOD k.key.q] := Int.natCast_modEq_iff.mp hx
  unfold DsaPrivateKey.Sign DsaObj.sign
  have : ∀ m i r : Nat, i * (m + x * r) % k.key.q = i * (m + k.key.x * r) % k.key.q := fun m i r =>
    ((hx'.mul_right r).add_left m).mul_left i
  simp only [this]

/-- C91: inverses as in these theorems exist, since q is prime: of r if it is no multiple of q, and of r(s₁ - s₂) if the
digests differ as well. -/
theorem C91_inverse (q : Nat) (hq : q.Prime) (a : Int) (ha : ¬ a ≡ 0 [ZMOD q]) : ∃ w, IsInverse q w a := by
  have hc : IsCoprime a (q : Int) := by
    rw [Int.isCoprime_iff_gcd_eq_one, Int.gcd_comm]
    have : Nat.Coprime q a.natAbs := (Nat.Prime.coprime_iff_not_dvd hq).mpr fun h =>
      ha (Int.modEq_zero_iff_dvd.mpr (Int.natCast_dvd.mpr h))
    simpa [Int.gcd] using this
  obtain ⟨u, v, h⟩ := hc
  refine ⟨u, ?_⟩
  unfold IsInverse
  rw [← h]
  exact (Int.modEq_iff_dvd.mpr ⟨v, by ring⟩)

/-- example: with the key of order 11 and the number 2 drawn twice, the messages "a" and "c" give the private number 3 -/
example : ∃ a b : Signed realPrims, ∃ k r s₁ s₂ w, a.request = .plain (bstr "a") ∧ b.request = .plain (bstr "c") ∧
    a.entry.key = .dsaPriv k ∧ b.entry.key = .dsaPriv k ∧ a.rnd.dsaK k.key.q = b.rnd.dsaK k.key.q ∧
    BerPair r s₁ (signaturePart a.request a.out) ∧ BerPair r s₂ (signaturePart b.request b.out) ∧
    ¬ a.request.digest realPrims.sha1 ≡ b.request.digest realPrims.sha1 [ZMOD k.key.q] ∧
    IsInverse k.key.q w (r * (s₁ - s₂)) ∧
    secretFromTwo w (a.request.digest realPrims.sha1) s₁ (b.request.digest realPrims.sha1) s₂ % k.key.q = 3 := by
  obtain ⟨k, hk⟩ : ∃ k, k = DsaPrivateKey.ofObj exDsa 1024 := ⟨_, rfl⟩
  have hok : (Key.dsaPriv k).Ok := by
    subst hk
    exact ⟨⟨by decide +kernel, by decide +kernel⟩, by decide +kernel, by decide +kernel⟩
  have := Czar.init_gives (cls := .signer) (StaticKeyReader_gives (P := realPrims) (k := .dsaPriv k) hok ⟨_, rfl⟩
    .SIGN_AND_VERIFY)
  rw [if_pos (by refine ⟨rfl, fun h => ?_, by simp [staticSet, KeySet.primaries]⟩; cases h)] at this
  obtain ⟨c, h1, h2⟩ := this
  have hc : Loaded realPrims c := ⟨_, _, h1⟩
  have hp : c.keySet.primaries = [⟨1, .PRIMARY, .bool false, .dsaPriv k⟩] := by rw [h2]; rfl
  obtain ⟨id, hid⟩ := hc.keyId (primary_mem hp).1
  have hl : (header id).length = 5 := by simp [header, ((KeyId_iff realPrims _ _).mp hid).1]
  have hs : CanSign (.dsaPriv k) := by
    subst hk
    exact ⟨(by decide), by decide +kernel, by decide +kernel⟩
  have sa : TheSignature realPrims.sha1 Ex.rnd.dsaK (.dsaPriv k) (bstr "a" ++ [0]) [0x30, 6, 2, 1, 5, 2, 1, 3] := by
    refine (C84_key realPrims _ hs Ex.rnd _ _).mp ?_
    subst hk
    decide +kernel
  have sb : TheSignature realPrims.sha1 Ex.rnd.dsaK (.dsaPriv k) (bstr "c" ++ [0]) [0x30, 6, 2, 1, 5, 2, 1, 8] := by
    refine (C84_key realPrims _ hs Ex.rnd _ _).mp ?_
    subst hk
    decide +kernel
  have ma := (C84_sign realPrims c hc _ hp hs Ex.rnd (bstr "a") _).mpr ⟨id, _, hid, sa, rfl⟩
  have mb := (C84_sign realPrims c hc _ hp hs Ex.rnd (bstr "c") _).mpr ⟨id, _, hid, sb, rfl⟩
  have pair : ∀ c : UInt8, c.toNat < 128 → BerPair 5 c.toNat [0x30, 6, 2, 1, 5, 2, 1, c] := fun c hc =>
    ⟨[6], [2, 1, 5], [2, 1, c], rfl, .inl ⟨6, rfl, rfl, by simp⟩, ⟨[1], [5], rfl, .inl ⟨1, rfl, rfl, by decide⟩, by simp, by decide⟩,
      [1], [c], rfl, .inl ⟨1, rfl, rfl, by simp⟩, by simp, by
        simp [twosComplement, hc, beNat]⟩
  refine ⟨⟨c, _, .plain (bstr "a"), Ex.rnd, _, hc, hp, hs, ma⟩, ⟨c, _, .plain (bstr "c"), Ex.rnd, _, hc, hp, hs, mb⟩, k, 5, 3, 8, 7,
    rfl, rfl, rfl, rfl, rfl, ?_, ?_, ?_, ?_, ?_⟩
  · show BerPair 5 3 (List.drop 5 (header id ++ _))
    rw [List.drop_left' hl]
    exact pair 3 (by decide)
  · show BerPair 5 8 (List.drop 5 (header id ++ _))
    rw [List.drop_left' hl]
    exact pair 8 (by decide)
  all_goals subst hk
  · show ¬ (Request.digest realPrims.sha1 (.plain (bstr "a")) % 11 = Request.digest realPrims.sha1 (.plain (bstr "c")) % 11)
    decide +kernel
  · show _ % _ = _ % _
    decide +kernel
  · show secretFromTwo 7 (Request.digest realPrims.sha1 (.plain (bstr "a"))) 3
      (Request.digest realPrims.sha1 (.plain (bstr "c"))) 8 % 11 = 3
    decide +kernel

end Verif.Props
