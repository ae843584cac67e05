import Verif.Props.EndToEnd
/-
C98: the harness plans no signed sessions with the key sets rsa-crypt1024, which could not be made.
-/
namespace Verif.Props
open Verif Spec Harness

variable {P : Prims}

/-- C98 (why sessions with rsa-crypt1024 are excluded): with an RSA key of at most 1024 bits
the material of a signed session is too long, and no output is made. -/
theorem C98_too_long {fs fs' : FS} (rnd : Nat → Rand) {keyPath alg go ts data : Json}
    {path name signer crypted pub m : Bytes} {kg ks ss : KeySet}
    (h : SessionCase P fs fs' keyPath alg go ts data path name signer crypted pub m kg ks ss) {e : Entry}
    (hp : ks.primaries = [e]) {k : RsaPrivateKey} (hk : e.key = .rsaPriv k) (hn : k.size ≤ 1024) :
    interopGenerate P fs rnd (Json.ofString "signedSession") keyPath alg go data = .error .keyczarError := by
  obtain ⟨r, r1, r2⟩ := readerOf_ok h.nameText h.cryptedText h.gPub h.gSet
  obtain ⟨v, hv, hvb⟩ := h.signerText
  obtain ⟨rs, t1, t2⟩ := readerOf_ok hvb h.cryptedText (⟨[], rfl, rfl⟩ : PubText (.obj []) []) h.gSign
  have hacc : CzarClass.encrypter.IsAcceptablePurpose kg.purpose = true := by
    rcases h.same with h1 | h1
    · rw [h1, h.good.purpose]; rfl
    · have hk := h1.kind
      rw [h.good.purpose] at hk
      generalize kg.purpose = p at hk ⊢
      generalize kg.type = t at hk
      generalize ks.type = t' at hk
      cases hk
      rfl
  obtain ⟨c, c1, l1, k1⟩ := loads_opens r2 hacc
  obtain ⟨sg, g1, l3, k3⟩ := loads_opens t2 (cls := .signer) (by rw [h.goodSign.purpose]; rfl)
  obtain ⟨e1, hp1, hh⟩ := generate_entry h.same hp
  rw [hk] at hh
  have hu : UsableRsa k := by
    have := h.good.good e (primary_mem hp).1
    rw [hk] at this
    exact this
  obtain ⟨text, hj, hl⟩ := signed_material_length (rnd 0)
  have hlen : (BigIntToBytes k.key.n).length ≤ 128 := by
    apply BigIntToBytes_length_lt
    have h1 : 2 ^ k.size ≤ 2 ^ (8 * 128) := Nat.pow_le_pow_right (by norm_num) (by omega)
    rw [pow256]
    exact lt_of_lt_of_le hu.bits.2 h1
  have hnz : k.pub.key.n ≠ 0 := by
    rw [hu.pub]
    exact Nat.ne_of_gt (lt_of_lt_of_le (by positivity) hu.bits.1)
  have herr : k.pub.Encrypt P ((rnd 1).bytes 0 20) text = .error .keyczarError :=
    C48_too_long P k.pub hnz (by rw [hu.pub]; exact hlen.trans (by norm_num)) _ _ ((rnd 1).bytes_length 0 20)
      (by rw [hl, hu.pub]; exact lt_of_le_of_lt hlen (by norm_num))
  have henc : e1.key.Encrypt P (rnd 1) text = .error .keyczarError := by
    rcases half_rsa hh with h | h <;> rw [h] <;> exact herr
  have hnew : SignedSessionEncrypter.new P c (rnd 0) (rnd 1) = .error .keyczarError := by
    unfold SignedSessionEncrypter.new
    simp only [hj, bind, Except.bind]
    rw [Encrypt_raw P l1 (by rw [k1]; exact hp1), henc]
    rfl
  unfold interopGenerate SignedSessionOperation.Generate
  simp only [h.dataText, h.pathText, hv, r1, c1, t1, g1, hnew, bind, Except.bind]
  rfl

/-- C98: no planned call makes a signed session with a key set rsa-crypt1024, of any implementation or options. -/
theorem C98_excluded (b : Bool) (g : Planned) (hg : IsCall (shipped b) g) (ho : g.operation.1 = "signedSession".toList) :
    g.keyset.algorithm ++ Nat.toDigits 10 g.keyset.size ≠ "rsa-crypt1024".toList := by
  intro hn
  apply hg.allowed
  refine ⟨_, .head _, .inr (by simp [Covers]), .inl ?_, .inl ?_, ?_⟩
  · rw [ho]; simp [Covers]
  · rw [hn]; simp [Covers]
  · intro n l hl hne
    simp only [List.mem_singleton, Prod.mk.injEq] at hl
    exact absurd hl.1 hne

/-! ### instance -/

namespace ExExcluded
open ExInterop ExEndToEnd

/-- 513-bit prime -/
def p1 : Nat := 2 ^ 411 * 3 ^ 64 + 1
/-- 512-bit prime -/
def q1 : Nat := 2 ^ 399 * 3 ^ 71 + 1
theorem p1_prime : p1.Prime :=
  prime_of_lucas23 411 64 7 p1 rfl (by decide +kernel) (by decide +kernel) (by decide +kernel) (by decide +kernel)
theorem q1_prime : q1.Prime :=
  prime_of_lucas23 399 71 5 q1 rfl (by decide +kernel) (by decide +kernel) (by decide +kernel) (by decide +kernel)

def rsa (e : Nat) : RsaObj := ⟨p1 * q1, e, inverse e ((p1 - 1) * (q1 - 1)), p1, q1, inverse p1 q1⟩
theorem usable {e : Nat} (h1 : (rsa e).e * (rsa e).d % ((rsa e).p - 1) = 1)
    (h2 : (rsa e).e * (rsa e).d % ((rsa e).q - 1) = 1) : UsableRsa (RsaPrivateKey.ofObj (rsa e) 1024) where
  valid := ⟨p1_prime, q1_prime, show p1 ≠ q1 by decide +kernel, rfl, h1, h2, show inverse p1 q1 * p1 % q1 = 1 by decide +kernel⟩
  pub := rfl
  pub_size := rfl
  size := show 1024 ∈ _ by decide
  bits := show 2 ^ 1023 ≤ p1 * q1 ∧ p1 * q1 < 2 ^ 1024 by decide +kernel
theorem usable_5 : UsableRsa (RsaPrivateKey.ofObj (rsa 5) 1024) := usable (by decide +kernel) (by decide +kernel)
theorem usable_65537 : UsableRsa (RsaPrivateKey.ofObj (rsa 65537) 1024) := usable (by decide +kernel) (by decide +kernel)

def rnd (i : Nat) : Rand := { Ex.rnd with rsaGen := fun _ => rsa (if i = 0 then 65537 else 5) }
noncomputable def rsaEnv : InteropEnv := { env with cmd := fun i => { Ex.env with gen := fun _ => rnd (i - 1) } }

def rsaAlg : Algorithm := ⟨crypt, true, [1024, 2048, 4096], ["--purpose=crypt".toList, "--asymmetric=rsa".toList], []⟩
def c0 : Creation := Harness.Create "python".toList "rsa-crypt".toList rsaAlg 1024
noncomputable def fs1 : FS := next c2 none'
noncomputable def fs2 : FS := (interopMain realPrims rsaEnv [textOf c0]).after (emptied (Creation.locs c0) fs1)
theorem run1 : okEmpty (interopMain realPrims env [textOf c2] (emptied (Creation.locs c2) none')).1 = true := by
  decide +kernel
theorem run2 : okEmpty (interopMain realPrims rsaEnv [textOf c0] (emptied (Creation.locs c0) fs1)).1 = true := by
  decide +kernel

theorem made (i g : Nat) (k : Key) (h : GenKey ((rsaEnv.cmd i).gen g) .RSA_PRIV (sizeArg 1024) = .ok k) :
    ∃ x, k = .rsaPriv x ∧ UsableRsa x ∧ x.size = 1024 := by
  have hv : GenKey ((rsaEnv.cmd i).gen g) .RSA_PRIV (sizeArg 1024) =
    .ok (.rsaPriv (RsaPrivateKey.ofObj (rsa (if i - 1 = 0 then 65537 else 5)) 1024)) := rfl
  rw [hv] at h
  cases h
  refine ⟨_, rfl, ?_, rfl⟩
  split
  · exact usable_65537
  · exact usable_5

def call : Planned :=
  { implementation := "python".toList
    operation := ("signedSession".toList, ⟨crypt, [("signer".toList, .text "ALL_SIGNING_KEYS".toList)], []⟩)
    keyset := ⟨"rsa-crypt".toList, 1024, crypt⟩
    options := [("class".toList, "crypter".toList), ("pubKey".toList, []), ("cryptedKeySet".toList, []),
      ("signer".toList, "hmac256".toList)] }

/-- C98_too_long: the key sets hmac256 and rsa-crypt1024 are created; the signed session that is not planned would fail -/
example : interopGenerate realPrims fs2 genRnd (Json.ofString "signedSession") (.str (GetKeyPath call.implementation))
    (.str call.keyset.name) (jsonOptions call.options) (.str testData.toList) = .error .keyczarError := by
  have hi : "python".toList ∈ (shipped true).implementations := by decide +kernel
  have ha : ("rsa-crypt".toList, rsaAlg) ∈ (shipped true).algorithms := by decide +kernel
  have hz : 1024 ∈ rsaAlg.keySizes := by decide +kernel
  have hst := C98_created (P := realPrims) true (env := env) (fs := emptied (Creation.locs c2) none') (i := "python".toList)
    (a := "hmac".toList) (alg := hmacAlg) (s := 256) hi (by decide +kernel) (by decide +kernel) rfl rfl
    (argOf_ok (cmds := c2.commands.map (·.map ascii)) (by decide +kernel)) (okEmpty_iff run1) (gen_hmac 256)
  obtain ⟨p, t, hk, ⟨cr, ad, pb, h1, h2, h3, h4⟩, -⟩ := C97_commands true hi ha hz
  obtain ⟨n1, -, -, -, -, -⟩ := keyDir true hi ha hz
  rw [n1] at h2 h3 h4
  have ht : CreateText (textOf c0) (c0.commands.map (·.map ascii)) := argOf_ok (by decide +kernel)
  have ht' : CreateText (textOf c0) [cr, ad, ad, pb] := by
    have e : c0.commands.map (·.map ascii) = [cr, ad, ad, pb] := h1
    rwa [e] at ht
  obtain ⟨hp, htt⟩ := hk.eq
  have ek : kindOf "rsa-crypt".toList = (.DECRYPT_AND_ENCRYPT, .RSA_PRIV) := by decide +kernel
  rw [ek] at hp htt
  subst hp htt
  obtain ⟨t', p', hx⟩ := hk.exports (.inl rfl)
  obtain ⟨k1, k2, g1, g2, ks', e1, e2, e3, -, -, e6, e7⟩ := C77_create_public (P := realPrims) rsaEnv
    (emptied (Creation.locs c0) fs1) _ _ (fun _ => none) (by rw [← n1]; rfl) rfl _ _ _ t' p' hx 1024 cr ad pb h2 h3 (h4 rfl)
    _ _ ht' (okEmpty_iff run2)
  obtain ⟨x1, rfl, u1, -⟩ := made _ _ _ e1
  obtain ⟨x2, rfl, u2, z2⟩ := made _ _ _ e2
  have hh : Stored realPrims fs2 (ascii (GetKeyPath "python".toList)) "hmac".toList 256 [] := by
    have hloc : pathJoin (ascii (GetKeyPath "python".toList)) (ascii ("hmac".toList ++ Nat.toDigits 10 256) ++ ascii []) ≠
        pathJoin (ascii (GetKeyPath "python".toList)) (ascii ("rsa-crypt".toList ++ Nat.toDigits 10 1024)) ∧
        pathJoin (ascii (GetKeyPath "python".toList)) (ascii ("hmac".toList ++ Nat.toDigits 10 256) ++ ascii []) ≠
        pathJoin (ascii (GetKeyPath "python".toList)) (ascii ("rsa-crypt".toList ++ Nat.toDigits 10 1024) ++ bstr "public") ∧
        pathJoin (ascii (GetKeyPath "python".toList)) (ascii ("hmac".toList ++ Nat.toDigits 10 256) ++ ascii []) ∉
        Creation.locs c0 := by decide +kernel
    refine stored_frame hst.1 ?_ (fun h => absurd rfl h) (fun h => absurd h (by decide +kernel))
    refine (e7 _ hloc.1 hloc.2.1).trans ?_
    exact if_neg hloc.2.2
  obtain ⟨ph, th, ss, q1, q2, q3, -, -⟩ := hh
  obtain ⟨rfl, rfl⟩ := q1.eq
  have ek' : kindOf "hmac".toList = (.SIGN_AND_VERIFY, .HMAC_SHA1) := by decide +kernel
  rw [ek'] at q3
  have hcase : SessionCase realPrims fs2 fs2 (.str (GetKeyPath call.implementation)) (.str call.keyset.name)
      (jsonOptions call.options) (.obj []) (.str testData.toList) (ascii (GetKeyPath call.implementation))
      (ascii call.keyset.name) (ascii "hmac256".toList) (ascii []) (ascii []) (bstr testData) _ _ ss :=
    { pathText := toBytes_ascii (by decide +kernel)
      nameText := toBytes_ascii (by decide +kernel)
      dataText := by decide +kernel
      cryptedText := json_text rfl rfl
      signerText := json_text (by decide +kernel) (by decide +kernel)
      gPub := json_pub (o := call.options) (by decide +kernel)
      tPub := ⟨[], rfl, rfl⟩
      gSet := e3
      tSet := e3
      gSign := q2
      tSign := q2
      same := .inl rfl
      good := e6 u1 u2 _ (by decide +kernel)
      goodSign := goodSet_mono q3 (by decide +kernel) }
  exact C98_too_long genRnd hcase (e := ⟨2, .PRIMARY, .bool false, .rsaPriv x2⟩) rfl rfl (by rw [z2])

end ExExcluded

end Verif.Props
