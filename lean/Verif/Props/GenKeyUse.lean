import Verif.Props.GenKey
import Verif.Props.CommandLine
/-
C70: what the files left by `genkey` can be used for, when the command fails, and when it succeeds.
-/
namespace Verif.Props
open Verif Spec
variable (P : Prims)

/-- C70: the directories are subdirectories of the given one. -/
theorem C70_path (loc name : Bytes) (h1 : loc ≠ []) (h2 : loc.getLast? ≠ some 47) :
    pathJoin loc name = loc ++ bstr "/" ++ name := by
  unfold pathJoin
  rw [if_neg (by simp [h1, h2]), List.append_assoc]
  rfl

/-- C70: no other directory is changed, whether the command succeeds or not. -/
theorem C70_others (env : GenEnv) (loc : Loc) (fs : FS) (l : Loc)
    (h : ∀ name ∈ ["aes", "aes-crypted", "hmac", "rsa", "rsa-sign", "dsa", "dsa.public", "rsa-sign.public"],
      l ≠ pathJoin loc (bstr name)) : (GenKeySet P env (some loc)).after fs l = fs l := by
  refine after_of_loc (Q := fun l => ∃ name ∈ ["aes", "aes-crypted", "hmac", "rsa", "rsa-sign", "dsa", "dsa.public",
    "rsa-sign.public"], l = pathJoin loc (bstr name)) ?_ (fun ⟨n, h1, h2⟩ => h n h1 h2)
  unfold GenKeySet
  refine bind_effects ?_ fun _ _ => ?_
  · intro e he
    obtain ⟨row, h1, h2⟩ := genRows_loc env loc _ _ e he
    rw [h2]
    fin_cases h1
    · exact ⟨"aes", by decide, rfl⟩
    · exact ⟨"aes-crypted", by decide, rfl⟩
    · exact ⟨"hmac", by decide, rfl⟩
    · exact ⟨"rsa", by decide, rfl⟩
    · exact ⟨"rsa-sign", by decide, rfl⟩
    · exact ⟨"dsa", by decide, rfl⟩
  · intro e he
    obtain ⟨n, h1, h2⟩ := genExports_loc env loc _ _ e he
    rw [h2]
    fin_cases h1
    · exact ⟨"dsa.public", by decide, rfl⟩
    · exact ⟨"rsa-sign.public", by decide, rfl⟩

/-- C70: without a location the command raises AttributeError and changes nothing. -/
theorem C70_no_location (env : GenEnv) (fs : FS) : GenKeySet P env none fs = (.error .attributeError, []) := rfl

/-- C70: the directories must exist; if the first is missing the command raises OSError and changes nothing. -/
theorem C70_missing (env : GenEnv) (loc : Loc) (fs : FS) (h : fs (pathJoin loc (bstr "aes")) = none) :
    GenKeySet P env (some loc) fs = (.error .osError, []) := by
  unfold GenKeySet
  have h1 : genRow P env loc ⟨bstr "aes", .DECRYPT_AND_ENCRYPT, none, none⟩ fs = (.error .osError, []) := by
    unfold genRow
    simp only [rowCrypter, Cmd.bind_def]
    rw [show (pure none : Cmd (Option Czar)) fs = (.ok none, []) from rfl]
    simp only [applyAll, List.foldl_nil, List.nil_append]
    rw [Clean_missing env h]
  have h2 : genRows P env loc KEYSETS fs = (.error .osError, []) := by
    unfold KEYSETS
    rw [genRows, Cmd.bind_def, h1]
  show (genRows P env loc KEYSETS >>= fun _ => genExports P env loc [bstr "dsa", bstr "rsa-sign"]) fs = _
  rw [Cmd.bind_def, h2]

/-- C70: `genkey` on the command line. -/
theorem C70_main (genEnv : GenEnv) (env : Env) (argv : List Bytes) (fs : FS) :
    (∀ rest fl nums, argv = bstr "genkey" :: rest → parseFlags argv [] = .ok fl → parseNumbers fl = .ok nums →
      mainAll P genEnv env argv fs = GenKeySet P genEnv (assocGet fl .location) fs) ∧
    ((∀ rest, argv ≠ bstr "genkey" :: rest) → mainAll P genEnv env argv fs = main P env argv fs) := by
  constructor
  · rintro rest fl nums rfl h1 h2
    unfold mainAll
    simp only
    rw [show GetCommand (bstr "genkey") = .ok .genkey from rfl, h1, Cmd.lift_ok, Cmd.lift_ok, h2, Cmd.lift_ok]
  · intro h
    cases argv with
    | nil => rfl
    | cons name rest =>
      rw [main_cons]
      unfold mainAll
      simp only
      cases hc : GetCommand name with
      | error e => rw [Cmd.lift_error, Cmd.lift_error]
      | ok cmd =>
        rw [Cmd.lift_ok, Cmd.lift_ok]
        cases cmd <;> first | rfl | skip
        have := GetCommand_iff.mp hc
        subst this
        exact absurd rfl (h rest)

/-- C70: sizes of the test keys. -/
theorem C70_sizes (env : GenEnv) (name : Bytes) (cr : Option Czar) (p : KeyPurpose) (t : KeyType) (d : Dir)
    (k1 k2 : Key) (o1 o2 : Bytes) (h : TestDir P env name cr p t d k1 k2 o1 o2) (n : Nat)
    (hn : (t, n) ∈ [(KeyType.AES, 128), (.HMAC_SHA1, 256), (.RSA_PRIV, 2048), (.DSA_PRIV, 1024)]) :
    (∃ rnd, HasBits rnd n k1) ∧ ∃ rnd, HasBits rnd n k2 := by
  obtain ⟨j1, h1⟩ := h.gen1
  obtain ⟨j2, h2⟩ := h.gen2
  have hs : ∀ rnd k, GenKey rnd t none = .ok k → HasBits rnd n k := by
    intro rnd k hk
    apply GenKey_size (t := t)
    rw [← hk]
    fin_cases hn <;> rfl
  exact ⟨⟨_, hs _ _ h1⟩, ⟨_, hs _ _ h2⟩⟩

variable {P} in
theorem TestDir.made {env : GenEnv} {name : Bytes} {cr : Option Czar} {p : KeyPurpose} {t : KeyType} {d : Dir}
    {k1 k2 : Key} {o1 o2 : Bytes} (h : TestDir P env name cr p t d k1 k2 o1 o2) {cls : CzarClass} {c : Czar}
    (hc : Czar.init P cls (readerFor P cr (FileReader d)) = .ok c) {i : Nat} {k : Key} {out : Bytes}
    (hx : (i, k, out) = (0, k1, o1) ∨ (i, k, out) = (1, k2, o2)) :
    MadeBy P p (bstr "This is some test data") (env.use name i) k out ∧
    (∃ j, GenKey ((env.add name i).gen j) t none = .ok k) ∧
    ∃ e ∈ c.keySet.entries, e.key = k := by
  obtain ⟨-, h2, -⟩ := h.loaded hc
  rw [h2]
  rcases hx with hx | hx <;> cases hx
  · exact ⟨h.made1, h.gen1, ⟨1, .ACTIVE, .bool false, _⟩, by simp [twoKeys], rfl⟩
  · exact ⟨h.made2, h.gen2, ⟨2, .PRIMARY, .bool false, _⟩, by simp [twoKeys], rfl⟩

/-- C70: everything loaded from an AES test directory decrypts both outputs to the test message. -/
theorem C70_aes_outputs (env : GenEnv) (name : Bytes) (cr : Option Czar) (d : Dir) (k1 k2 : Key) (o1 o2 : Bytes)
    (h : TestDir P env name cr .DECRYPT_AND_ENCRYPT .AES d k1 k2 o1 o2) (cls : CzarClass) (c : Czar)
    (hc : Czar.init P cls (readerFor P cr (FileReader d)) = .ok c) :
    c.Decrypt P o1 (some Base64WSDecode) = .ok (bstr "This is some test data") ∧
    c.Decrypt P o2 (some Base64WSDecode) = .ok (bstr "This is some test data") := by
  have main : ∀ i k out, (i, k, out) = (0, k1, o1) ∨ (i, k, out) = (1, k2, o2) →
      c.Decrypt P out (some Base64WSDecode) = .ok (bstr "This is some test data") := by
    intro i k out hx
    obtain ⟨⟨c0, e0, m1, m2, m3, m4, -⟩, ⟨j, hg⟩, e, he, hk⟩ := h.made hc hx
    obtain ⟨a, rfl⟩ := GenKey_aes hg
    obtain ⟨l1, -, l3⟩ := h.loaded hc
    exact C22_aes_round_trip P c0 c m1 l1 l3 e0 e a m2 m3 he hk _ _ inverse_base64 _ _ _ (m4 rfl)
  exact ⟨main 0 k1 o1 (.inl rfl), main 1 k2 o2 (.inr rfl)⟩

/-- C70: everything loaded from the HMAC test directory verifies both outputs for the test message. -/
theorem C70_hmac_outputs (env : GenEnv) (name : Bytes) (cr : Option Czar) (d : Dir) (k1 k2 : Key) (o1 o2 : Bytes)
    (h : TestDir P env name cr .SIGN_AND_VERIFY .HMAC_SHA1 d k1 k2 o1 o2) (cls : CzarClass) (c : Czar)
    (hc : Czar.init P cls (readerFor P cr (FileReader d)) = .ok c) :
    c.Verify P (bstr "This is some test data") o1 (some Base64WSDecode) = .ok true ∧
    c.Verify P (bstr "This is some test data") o2 (some Base64WSDecode) = .ok true := by
  have main : ∀ i k out, (i, k, out) = (0, k1, o1) ∨ (i, k, out) = (1, k2, o2) →
      c.Verify P (bstr "This is some test data") out (some Base64WSDecode) = .ok true := by
    intro i k out hx
    obtain ⟨⟨c0, e0, m1, m2, m3, -, m4⟩, ⟨j, hg⟩, e, he, hk⟩ := h.made hc hx
    obtain ⟨a, rfl⟩ : ∃ a, k = .hmac a := by cases hg; exact ⟨_, rfl⟩
    obtain ⟨l1, -, l3⟩ := h.loaded hc
    obtain ⟨out', s1, s2⟩ := C42_hmac P c0 c m1 l1 l3 e0 e a m2 m3 he hk _ _ inverse_base64 (env.use name i)
      (bstr "This is some test data")
    rw [m4 rfl] at s1
    cases s1
    exact s2
  exact ⟨main 0 k1 o1 (.inl rfl), main 1 k2 o2 (.inr rfl)⟩

/-- C70: everything loaded from the RSA encryption test directory decrypts both outputs to the test message,
but for the leading-zero case of C48. -/
theorem C70_rsa_outputs (env : GenEnv) (name : Bytes) (cr : Option Czar) (d : Dir) (k1 k2 : Key) (o1 o2 : Bytes)
    (h : TestDir P env name cr .DECRYPT_AND_ENCRYPT .RSA_PRIV d k1 k2 o1 o2)
    (hu : ∀ k, k1 = .rsaPriv k ∨ k2 = .rsaPriv k → RsaValid k.key ∧ k.pub.key = k.key.pub ∧
      64 ≤ (BigIntToBytes k.key.n).length ∧ (BigIntToBytes k.key.n).length ≤ 2 ^ 32)
    (cls : CzarClass) (c : Czar) (hc : Czar.init P cls (readerFor P cr (FileReader d)) = .ok c) (i : Nat) (k : RsaPrivateKey)
    (out : Bytes) (hx : (i, Key.rsaPriv k, out) = (0, k1, o1) ∨ (i, Key.rsaPriv k, out) = (1, k2, o2)) :
    c.Decrypt P out (some Base64WSDecode) =
      if (strip0 (oaep P.sha1 (BigIntToBytes k.key.n).length ((env.use name i).bytes 0 20)
        (bstr "This is some test data"))).length < 42
      then .error .keyczarError else .ok (bstr "This is some test data") := by
  obtain ⟨⟨c0, e0, m1, m2, m3, m4, -⟩, ⟨j, hg⟩, e, he, hk⟩ := h.made hc hx
  obtain ⟨l1, -, l3⟩ := h.loaded hc
  obtain ⟨u1, u2, u3, u4⟩ := hu k (by rcases hx with hx | hx <;> cases hx <;> simp)
  obtain ⟨out', s1, s2⟩ := C22_rsa_round_trip P c0 c m1 l1 l3 e0 e k m2 (.inl m3) he hk u1 u2 u4 _ _ inverse_base64
    (env.use name i) (bstr "This is some test data") (by
      rw [show (bstr "This is some test data").length = 22 by decide]; exact u3)
  rw [m4 rfl] at s1
  cases s1
  exact s2

/-- C70: everything loaded from the RSA signing test directory, and every set with the public keys of that set (such as
the exported one), verifies both outputs for the test message. -/
theorem C70_rsa_sign_outputs (env : GenEnv) (name : Bytes) (cr : Option Czar) (d : Dir) (k1 k2 : Key) (o1 o2 : Bytes)
    (h : TestDir P env name cr .SIGN_AND_VERIFY .RSA_PRIV d k1 k2 o1 o2)
    (hu : ∀ k, k1 = .rsaPriv k ∨ k2 = .rsaPriv k → UsableRsa k)
    (c : Czar) (hl : Loaded P c) (hc : c.keySet = twoKeys .SIGN_AND_VERIFY .RSA_PRIV cr.isSome k1 k2 ∨
      c.keySet.PublicOf (twoKeys .SIGN_AND_VERIFY .RSA_PRIV cr.isSome k1 k2)) :
    c.Verify P (bstr "This is some test data") o1 (some Base64WSDecode) = .ok true ∧
    c.Verify P (bstr "This is some test data") o2 (some Base64WSDecode) = .ok true := by
  have hd : c.keySet.Distinct P := by
    rcases hc with hc | hc
    · rw [hc]; exact h.distinct
    · exact PublicOf.distinct hc h.distinct
  have main : ∀ i j e k out rnd, e ∈ (twoKeys .SIGN_AND_VERIFY .RSA_PRIV cr.isSome k1 k2).entries → e.key = k →
      GenKey ((env.add name i).gen j) .RSA_PRIV none = .ok k → (k = k1 ∨ k = k2) →
      MadeBy P .SIGN_AND_VERIFY (bstr "This is some test data") rnd k out →
      c.Verify P (bstr "This is some test data") out (some Base64WSDecode) = .ok true := by
    rintro i j e k out rnd he hk hg hkk ⟨c0, e0, m1, m2, m3, -, m4⟩
    obtain ⟨a, rfl⟩ : ∃ a, k = .rsaPriv a := by cases hg; exact ⟨_, rfl⟩
    have hua : UsableRsa a := hu a (by rcases hkk with rfl | rfl <;> simp)
    obtain ⟨e', he', hk'⟩ : ∃ e' ∈ c.keySet.entries, e'.key = .rsaPriv a ∨ e'.key = .rsaPub a.pub := by
      rcases hc with hc | hc
      · exact ⟨e, hc ▸ he, .inl hk⟩
      · obtain ⟨e', he', hp⟩ := PublicOf.entry hc he
        refine ⟨e', he', .inr ?_⟩
        have := hp.key
        rw [hk] at this
        generalize e'.key = x at this ⊢
        cases this
        rfl
    obtain ⟨out', s1, s2⟩ := C42_rsa P c0 c m1 hl hd e0 e' a hua m2 m3 he' hk' _ _ inverse_base64 rnd
      (bstr "This is some test data")
    rw [m4 rfl] at s1
    cases s1
    exact s2
  obtain ⟨j1, g1⟩ := h.gen1
  obtain ⟨j2, g2⟩ := h.gen2
  exact ⟨main 0 j1 ⟨1, .ACTIVE, .bool false, k1⟩ k1 o1 _ (by simp [twoKeys]) rfl g1 (.inl rfl) h.made1,
    main 1 j2 ⟨2, .PRIMARY, .bool false, k2⟩ k2 o2 _ (by simp [twoKeys]) rfl g2 (.inr rfl) h.made2⟩

/-- C70: the same for the DSA test directory, but for the zero signatures of C51. -/
theorem C70_dsa_outputs (env : GenEnv) (name : Bytes) (cr : Option Czar) (d : Dir) (k1 k2 : Key) (o1 o2 : Bytes)
    (h : TestDir P env name cr .SIGN_AND_VERIFY .DSA_PRIV d k1 k2 o1 o2)
    (hu : ∀ k, k1 = .dsaPriv k ∨ k2 = .dsaPriv k → DsaValid k.key ∧ k.pub.key = k.key.pub ∧ 3 ≤ k.key.q ∧
      (BigIntToBytes k.key.q).length < 2 ^ 32)
    (c : Czar) (hl : Loaded P c) (hc : c.keySet = twoKeys .SIGN_AND_VERIFY .DSA_PRIV cr.isSome k1 k2 ∨
      c.keySet.PublicOf (twoKeys .SIGN_AND_VERIFY .DSA_PRIV cr.isSome k1 k2)) (i : Nat) (k : DsaPrivateKey)
    (out : Bytes) (hx : (i, Key.dsaPriv k, out) = (0, k1, o1) ∨ (i, Key.dsaPriv k, out) = (1, k2, o2)) :
    ∃ r s, k.key.sign (P.sha1 (plainPayload (bstr "This is some test data"))) ((env.use name i).dsaK k.key.q) = .ok (r, s) ∧
      c.Verify P (bstr "This is some test data") out (some Base64WSDecode) = .ok (decide (r ≠ 0 ∧ s ≠ 0)) := by
  have hd : c.keySet.Distinct P := by
    rcases hc with hc | hc
    · rw [hc]; exact h.distinct
    · exact PublicOf.distinct hc h.distinct
  obtain ⟨u1, u2, u3, u4⟩ := hu k (by rcases hx with hx | hx <;> cases hx <;> simp)
  obtain ⟨⟨e, he, hk⟩, c0, e0, m1, m2, m3, -, m4⟩ :
      (∃ e ∈ (twoKeys .SIGN_AND_VERIFY .DSA_PRIV cr.isSome k1 k2).entries, e.key = .dsaPriv k) ∧
      MadeBy P .SIGN_AND_VERIFY (bstr "This is some test data") (env.use name i) (.dsaPriv k) out := by
    rcases hx with hx | hx <;> cases hx
    · exact ⟨⟨⟨1, .ACTIVE, .bool false, _⟩, by simp [twoKeys], rfl⟩, h.made1⟩
    · exact ⟨⟨⟨2, .PRIMARY, .bool false, _⟩, by simp [twoKeys], rfl⟩, h.made2⟩
  obtain ⟨e', he', hk'⟩ : ∃ e' ∈ c.keySet.entries, e'.key = .dsaPriv k ∨ e'.key = .dsaPub k.pub := by
    rcases hc with hc | hc
    · exact ⟨e, hc ▸ he, .inl hk⟩
    · obtain ⟨e', he', hp⟩ := PublicOf.entry hc he
      refine ⟨e', he', .inr ?_⟩
      have := hp.key
      rw [hk] at this
      generalize e'.key = x at this ⊢
      cases this
      rfl
  obtain ⟨out', r, s, s1, s2, s3⟩ := C42_dsa P c0 c m1 hl hd e0 e' k u1 u2 u3 u4 m2 m3 he' hk' _ _ inverse_base64
    (env.use name i) (bstr "This is some test data")
  rw [m4 rfl] at s1
  cases s1
  exact ⟨r, s, s2, s3⟩

end Verif.Props
