import Verif.Props.GenKeyUse
/-
C70: `genkey` succeeds when the directories exist and the generated keys can be used.
-/
namespace Verif.Props
open Verif Spec

/-- what is needed of a generated key: RSA and DSA keys are valid keys of their size -/
def UsableKey : Key → Prop
  | .rsaPriv k => UsableRsa k
  | .dsaPriv k => DsaValid k.key ∧ k.pub.key = k.key.pub ∧ 3 ≤ k.key.q ∧ (BigIntToBytes k.key.q).length < 2 ^ 32
  | _ => True

/-- what is needed of the random choices for one set: the keys are usable, and the loop looking for the second key ends:
some candidate for the second key differs in its identifier from all candidates for the first -/
structure GoodRow (P : Prims) (env : GenEnv) (name : Bytes) (t : KeyType) : Prop where
  usable : ∀ i j k, GenKey ((env.add name i).gen j) t none = .ok k → UsableKey k
  first : 0 < (env.add name 0).fuel
  second : ∃ j < (env.add name 1).fuel, ∀ i k k' id, GenKey ((env.add name 0).gen i) t none = .ok k →
    GenKey ((env.add name 1).gen j) t none = .ok k' → KeyId P.sha1 k id → ¬ KeyId P.sha1 k' id

variable {P : Prims}

theorem Write_good {env : Env} {c : Czar} (h : c.Inv P) (hw : c.keySet.view.WF) {l : Loc} {cr : Option Czar}
    (hg : GoodCrypter P cr) {fs : FS} (hl : (fs l).isSome = true) : (c.Write P env l cr fs).1 = .ok () := by
  obtain ⟨bs, -, -, ⟨h3, -⟩ | ⟨e, o, k, -, -, -, h3⟩⟩ := Czar.Write_spec (env := env) h hw (l := l) cr (fs := fs) hl
  · exact h3
  · cases cr with
    | none => cases h3
    | some cr =>
      obtain ⟨out, h4⟩ := hg.2 cr rfl (env.enc o) (dumps k.json)
      rw [show keyText P (some cr) (env.enc o) k = cr.Encrypt P (env.enc o) (dumps k.json) (some Base64WSEncode)
        from rfl, h4] at h3
      cases h3

/-- the private types -/
def Generated (t : KeyType) : Prop := t = .AES ∨ t = .HMAC_SHA1 ∨ t = .RSA_PRIV ∨ t = .DSA_PRIV

theorem GenKey_some {t : KeyType} (ht : Generated t) (rnd : Rand) :
    ∃ k id, GenKey rnd t none = .ok k ∧ KeyId P.sha1 k id := by
  have hid : ∀ (k : Key) (h : Bytes), k.hashId P = .ok h → ∃ id, KeyId P.sha1 k id := by
    intro k h hh
    obtain ⟨id, -, hi⟩ := KeyId_of_hashId P hh
    exact ⟨id, hi⟩
  rcases ht with rfl | rfl | rfl | rfl
  · obtain ⟨u1, -, u2⟩ := generated_aes_usable rnd 128 (by decide)
    obtain ⟨id, h⟩ := hid (.aes (AesKey.Generate rnd 128)) _ (by
      simp only [Key.hashId, AesKey.hashId]
      rw [u1, u2]
      rfl)
    exact ⟨_, id, rfl, h⟩
  · obtain ⟨id, h⟩ := hid (.hmac (HmacKey.Generate (rnd.bytes 0 (256 / 8)) 256)) _ (by
      simp only [Key.hashId, HmacKey.hashId]
      rw [show (HmacKey.Generate (rnd.bytes 0 (256 / 8)) 256).keyBytes = .ok (rnd.bytes 0 (256 / 8)) from
        Base64WSDecode_encode _]
      rfl)
    exact ⟨_, id, rfl, h⟩
  · obtain ⟨id, h⟩ := hid (.rsaPriv (RsaPrivateKey.ofObj (rnd.rsaGen 2048) 2048)) _ rfl
    exact ⟨_, id, rfl, h⟩
  · obtain ⟨id, h⟩ := hid (.dsaPriv (DsaPrivateKey.ofObj (rnd.dsaGen 1024) 1024)) _ rfl
    exact ⟨_, id, rfl, h⟩

theorem AddKey_succeeds {env : Env} {l : Loc} {cr : Option Czar} {fs : FS} {ks : KeySet} (hg : GoodCrypter P cr)
    (h : Holds P cr fs l ks) (ht : Generated ks.type) {j : Nat} (hj : j < env.fuel)
    (hnew : ∀ k id, GenKey (env.gen j) ks.type none = .ok k → KeyId P.sha1 k id →
      ∀ e ∈ ks.entries, ¬ KeyId P.sha1 e.key id) :
    (AddKey P env (some l) .PRIMARY cr (-1) fs).1 = .ok () := by
  rw [AddKey_eq, if_pos rfl]
  obtain ⟨c, hc, rfl⟩ := h
  have hl := load_loaded hc
  obtain ⟨k, id, hk, hid⟩ := GenKey_some (P := P) ht (env.gen j)
  obtain ⟨c', hc'⟩ := C30_terminates P c hl (by rcases ht with h | h | h | h <;> rw [h] <;> decide) env.gen env.fuel j hj
    .PRIMARY none (by rcases ht with h | h | h | h <;> rw [h] <;> decide) k (Base64WSEncode id)
    (by rw [GenKey] at hk ⊢; exact hk) ((KeyId_iff P k id).mp hid).2
    (fun e he hh => hnew k id hk hid e he ((KeyId_iff P e.key id).mpr ⟨((KeyId_iff P k id).mp hid).1, hh⟩))
  have hi := Op.run_inv hl.inv (.add env.gen env.fuel .PRIMARY none)
  have hw := run_wf hl.inv hl.loadable.view_wf (.add env.gen env.fuel .PRIMARY none)
  unfold manage
  rw [hc]
  simp only [Bool.false_eq_true, if_false]
  simp only [Op.run] at hi hw ⊢
  rw [hc'] at hi hw ⊢
  exact Write_good hi hw hg (load_isSome hc)

theorem UsableRsa.modulus {k : RsaPrivateKey} (h : UsableRsa k) :
    64 ≤ (BigIntToBytes k.key.n).length ∧ (BigIntToBytes k.key.n).length ≤ 2 ^ 32 := by
  have hs := h.size_facts
  have hb := h.bits
  constructor
  · by_contra hlt
    have h1 := beNat_lt (BigIntToBytes k.key.n)
    rw [beNat_BigIntToBytes, pow256] at h1
    have : 2 ^ (8 * (BigIntToBytes k.key.n).length) ≤ 2 ^ (k.size - 1) :=
      Nat.pow_le_pow_right (by norm_num) (by omega)
    omega
  · have : (BigIntToBytes k.key.n).length ≤ 512 := by
      apply BigIntToBytes_length_lt
      rw [pow256]
      have : 2 ^ k.size ≤ 2 ^ (8 * 512) := Nat.pow_le_pow_right (by norm_num) (by omega)
      omega
    exact this.trans (by norm_num)

/-- a generated key serves the purpose of the set -/
theorem useAnswer_succeeds {rnd rnd' : Rand} {p : KeyPurpose} {a : Option Bytes} {t : KeyType} (ht : NewType (some p) a p t)
    {r : Reader} {ks : KeySet} (h : r.Gives P ks) (hp : ks.purpose = p)
    (hen : ks.encrypted.truthy = true → r.isEncryptedReader = true) {e : Entry} (he : ks.primaries = [e])
    (hk : GenKey rnd' t none = .ok e.key) (hu : UsableKey e.key) : ∃ out, useAnswer P rnd p r = .ok out := by
  have hinit : ∀ cls : CzarClass, cls.IsAcceptablePurpose p = true → ∃ c, Czar.init P cls r = .ok c ∧ c.keySet = ks :=
    fun cls hcls => Czar.init_iff.mpr ⟨h, by rw [hp]; exact hcls, hen, by rw [he]; simp⟩
  have hcrypt : p = .DECRYPT_AND_ENCRYPT → (∃ out, e.key.Encrypt P rnd testMsg = .ok out) →
      ∃ out, useAnswer P rnd p r = .ok out := by
    rintro rfl ⟨out, ho⟩
    obtain ⟨c, hc, hck⟩ := hinit .crypter rfl
    refine ⟨encoded (some Base64WSEncode) out, ?_⟩
    unfold useAnswer
    simp only [hc, bind, Except.bind]
    rw [Encrypt_raw P ⟨_, _, hc⟩ (by rw [hck]; exact he), ho]
    rfl
  have hsign : p = .SIGN_AND_VERIFY → (∃ out, e.key.Sign P rnd (plainPayload testMsg) = .ok out) →
      ∃ out, useAnswer P rnd p r = .ok out := by
    rintro rfl ⟨out, ho⟩
    obtain ⟨c, hc, hck⟩ := hinit .signer rfl
    have hl : Loaded P c := ⟨_, _, hc⟩
    have hpr : c.keySet.primaries = [e] := by rw [hck]; exact he
    obtain ⟨id, hid⟩ := hl.keyId (primary_mem hpr).1
    refine ⟨encoded (some Base64WSEncode) (header id ++ out), ?_⟩
    unfold useAnswer
    simp only [hc, bind, Except.bind]
    rw [Sign_eq P hl hpr hid, ho]
    rfl
  have hrsaSign : ∀ k, e.key = .rsaPriv k → ∃ out, e.key.Sign P rnd (plainPayload testMsg) = .ok out := by
    intro k hk
    rw [hk] at hu ⊢
    obtain ⟨sig, h1, -⟩ := C50_sign_verify P k hu (plainPayload testMsg)
    exact ⟨sig, h1⟩
  cases ht with
  | hmac =>
    refine hsign rfl ?_
    rw [← Except.ok.inj hk]
    simp only [Key.Sign, HmacKey.Sign]
    rw [show (HmacKey.Generate (rnd'.bytes 0 _) _).keyBytes = .ok _ from Base64WSDecode_encode _]
    exact ⟨_, rfl⟩
  | rsaSign _ => exact hsign rfl (hrsaSign _ (Except.ok.inj hk).symm)
  | dsa _ =>
    refine hsign rfl ?_
    have hk := (Except.ok.inj hk).symm
    rw [hk] at hu ⊢
    obtain ⟨u1, u2, u3, u4⟩ := hu
    have hr := rnd.dsaK_range _ u3
    obtain ⟨r', s', sig, -, h1, -⟩ := C51_sign_verify P _ u1 u2 u4 (plainPayload testMsg) _ hr.1 (by omega)
    exact ⟨sig, h1⟩
  | aes =>
    refine hcrypt rfl ?_
    rw [← Except.ok.inj hk]
    simp only [Key.Encrypt]
    exact ⟨_, aesEncrypt_eq P (generated_aes_usable rnd' 128 (by decide)) (rnd.bytes_length 0 16) testMsg⟩
  | rsaCrypt =>
    refine hcrypt rfl ?_
    have hk := (Except.ok.inj hk).symm
    rw [hk] at hu ⊢
    have hm := hu.modulus
    obtain ⟨ct, h1, -⟩ := C48_round_trip P _ hu.valid hu.pub hm.2 (rnd.bytes 0 20) testMsg (rnd.bytes_length 0 20)
      (by rw [show testMsg.length = 22 by decide]; exact hm.1)
    exact ⟨ct, h1⟩

theorem UseKey_succeeds {rnd rnd' : Rand} {p : KeyPurpose} {a : Option Bytes} {t : KeyType} (ht : NewType (some p) a p t)
    {l : Loc} {f : FileName} {cr : Option Czar} {fs : FS} {ks : KeySet} (h : Holds P cr fs l ks) (hp : ks.purpose = p)
    {e : Entry} (he : ks.primaries = [e]) (hk : GenKey rnd' t none = .ok e.key) (hu : UsableKey e.key) :
    (UseKey P rnd p l f cr fs).1 = .ok () := by
  obtain ⟨d, hd, hg, hen, -⟩ := Holds_iff.mp h
  obtain ⟨out, ho⟩ := useAnswer_succeeds (rnd := rnd) ht hg hp (by rw [dirReader_encrypted]; exact hen) he hk hu
  unfold UseKey
  have hr : CreateReader l fs = .ok (FileReader d) := by unfold CreateReader; rw [hd]
  rw [Cmd.look_bind, hr]
  simp only
  rw [show useAnswer P rnd p (readerFor P cr (FileReader d)) = .ok out from ho, Cmd.lift_ok_bind,
    WriteFile_ok (by rw [hd]; rfl)]

/-- one key set -/
theorem genRow_succeeds {env : GenEnv} {loc : Loc} {row : KeySetRow} {fs : FS} {p : KeyPurpose} {t : KeyType} {d0 : Dir}
    (hp : row.purpose = p) (hp' : p = .DECRYPT_AND_ENCRYPT ∨ p = .SIGN_AND_VERIFY)
    (ht : NewType (some p) row.asymmetric p t) (htt : Generated t) (hd0 : fs (pathJoin loc row.name) = some d0)
    (hfin : d0.Finite) {cr : Option Czar} (hcr : rowCrypter P loc row.crypter fs = (.ok cr, [])) (hg : GoodCrypter P cr)
    (hgr : GoodRow P env row.name t) : (genRow P env loc row fs).1 = .ok () := by
  have ho := hg.1
  unfold genRow
  simp only [hp]
  generalize hl : pathJoin loc row.name = l at *
  have ha : (rowCrypter P loc row.crypter).after fs = fs := by unfold Cmd.after; rw [hcr]; rfl
  rw [(Cmd.seq_run (by rw [hcr])).1, ha]
  obtain ⟨c1, c2, c3⟩ := Clean_run env hd0 hfin
  rw [(Cmd.seq_run c1).1]
  generalize (Clean env.ls l).after fs = fs1 at *
  obtain ⟨text, r1, r2⟩ := C36_creates_empty P fs1 l _ c2 rfl (Json.ofString "Test") trivial (some p) row.asymmetric p t ht
  rw [(Cmd.seq_run (by rw [r1])).1]
  generalize (Create (some l) (Json.ofString "Test") (some p) row.asymmetric).after fs1 = fs2 at *
  -- the first key
  have a1 := AddKey_succeeds (env := env.add row.name 0) hg (r2.empty_any cr) htt hgr.first (by simp [KeySet.empty])
  rw [(Cmd.seq_run a1).1]
  obtain ⟨k1, j1, g1, h3, d3, f3, l3⟩ := AddKey_step ho (r2.empty_any cr) (m := 0) (by decide) (by simp [KeySet.empty])
    (.inl rfl) a1
  generalize (AddKey P (env.add row.name 0) (some l) .PRIMARY cr (-1)).after fs2 = fs3 at *
  obtain ⟨D3, hD3, -⟩ := Holds_iff.mp h3
  -- the first use
  have a2 := UseKey_succeeds (rnd := env.use row.name 0) ht (f := .other (bstr "1.out")) h3 rfl
    (e := ⟨1, .PRIMARY, .bool false, k1⟩) rfl g1 (hgr.usable 0 j1 k1 g1)
  rw [(Cmd.seq_run a2).1]
  obtain ⟨out1, u1, u2⟩ := UseKey_step hD3 a2
  rw [u2]
  have hD4 : (fs3.set l (.other (bstr "1.out")) (some out1)) l = some (D3.set (.other (bstr "1.out")) (some out1)) := by
    simp [FS.set, hD3]
  have h4 := Holds_congr h3 hD3 hD4 (by simp [Dir.set]) (by intro e _; simp [Dir.set])
  generalize fs3.set l (.other (bstr "1.out")) (some out1) = fs4 at *
  -- the second key
  obtain ⟨j, hj, hnew⟩ := hgr.second
  have a3 := AddKey_succeeds (env := env.add row.name 1) hg h4 htt hj (by
    intro k id hk hid e he hh
    have : e.key = k1 := by
      simp [KeySet.empty, KeySet.add, KeySet.stored, KeySet.mapStatus] at he
      rw [he]
    rw [this] at hh
    exact hnew j1 k1 k id g1 hk hh hid)
  rw [(Cmd.seq_run a3).1]
  obtain ⟨k2, j2, g2, h5, d5, f5, l5⟩ := AddKey_step ho h4 (m := 1) (by decide)
    (by simp [KeySet.empty, KeySet.add, KeySet.stored, KeySet.mapStatus]) (.inr ⟨⟨1, .PRIMARY, .bool false, k1⟩,
      by simp [KeySet.empty, KeySet.add, KeySet.stored, KeySet.mapStatus], rfl⟩) a3
  exact UseKey_succeeds ht h5 rfl (e := ⟨2, .PRIMARY, .bool false, k2⟩) rfl g2 (hgr.usable 1 j2 k2 g2)


theorem genRows_succeeds {env : GenEnv} {loc : Loc} {rows : List KeySetRow} {fs : FS}
    (hn : (rows.map KeySetRow.name).Nodup)
    (h : ∀ row ∈ rows, ∃ t, PlainRow row t ∧ Generated t ∧ GoodRow P env row.name t ∧
      ∃ d, fs (pathJoin loc row.name) = some d ∧ d.Finite) : (genRows P env loc rows fs).1 = .ok () := by
  induction rows generalizing fs with
  | nil => rfl
  | cons r rows ih =>
    rw [genRows]
    have hnd := List.nodup_cons.mp hn
    have hne : ∀ row ∈ rows, r.name ≠ row.name := fun row hr e => hnd.1 (e ▸ List.mem_map_of_mem hr)
    obtain ⟨t, ⟨p1, p2, p3⟩, h1, h2, d, h3, h4⟩ := h r (List.mem_cons_self ..)
    have hok := genRow_succeeds (P := P) (cr := none) rfl p1 p2 h1 h3 h4 (by rw [p3]; rfl)
      ⟨trivial, fun _ h => by cases h⟩ h2
    rw [(Cmd.seq_run hok).1]
    refine ih hnd.2 ?_
    intro row hr
    obtain ⟨t, h1, h2, h3, d, h4, h5⟩ := h row (List.mem_cons_of_mem _ hr)
    exact ⟨t, h1, h2, h3, d, by rw [genRow_others (hne row hr).symm]; exact h4, h5⟩

variable (P)

/-- C70: the command succeeds when the eight directories exist and the random choices are good. -/
theorem C70_succeeds (env : GenEnv) (loc : Loc) (fs : FS)
    (hdirs : ∀ name ∈ ["aes", "aes-crypted", "hmac", "rsa", "rsa-sign", "dsa", "dsa.public", "rsa-sign.public"],
      ∃ d, fs (pathJoin loc (bstr name)) = some d ∧ d.Finite)
    (hgood : ∀ name p t x, TestRow name p t x → GoodRow P env name t) :
    (GenKeySet P env (some loc) fs).1 = .ok () := by
  have hrows : (genRows P env loc KEYSETS fs).1 = .ok () := by
    unfold KEYSETS
    rw [genRows]
    obtain ⟨d, h1, h2⟩ := hdirs "aes" (by decide)
    have hok := genRow_succeeds (P := P) (env := env) (loc := loc)
      (row := ⟨bstr "aes", .DECRYPT_AND_ENCRYPT, none, none⟩) (cr := none) rfl (.inl rfl) .aes (.inl rfl) h1 h2 rfl
      ⟨trivial, fun _ h => by cases h⟩ (hgood _ _ _ _ .aes)
    rw [(Cmd.seq_run hok).1]
    obtain ⟨da, k1, k2, o1, o2, q1, q2⟩ := genRow_plain (P := P) (env := env) (loc := loc)
      (p := .DECRYPT_AND_ENCRYPT) (t := .AES) rfl (.inl rfl) .aes rfl (fun d' hd' => by
        rw [h1] at hd'; cases hd'; exact h2) hok
    have f1 : ∀ n, n ≠ bstr "aes" → (genRow P env loc ⟨bstr "aes", .DECRYPT_AND_ENCRYPT, none, none⟩).after fs
        (pathJoin loc n) = fs (pathJoin loc n) := fun n hn => genRow_others hn
    generalize (genRow P env loc ⟨bstr "aes", .DECRYPT_AND_ENCRYPT, none, none⟩).after fs = fs1 at *
    rw [genRows]
    -- the crypter
    obtain ⟨cr, hcr⟩ : ∃ cr, Czar.init P .crypter (FileReader da) = .ok cr := by
      obtain ⟨i1, -, i2, i3⟩ := Czar.init_iff.mp q2.loads
      obtain ⟨c, hc, -⟩ := Czar.init_iff (cls := .crypter).mpr ⟨i1, rfl, i2, i3⟩
      exact ⟨c, hc⟩
    obtain ⟨l1, l2, l3⟩ := q2.loaded (cls := .crypter) (c := cr) hcr
    have hgc : GoodCrypter P (some cr) := by
      obtain ⟨j, hj⟩ := q2.gen2
      cases hj
      exact C32_good_crypter P cr l1 l3 _ _ _ _ (by rw [l2]; rfl) rfl (generated_aes_usable _ 128 (by decide))
    obtain ⟨d', h3, h4⟩ := hdirs "aes-crypted" (by decide)
    have hok2 := genRow_succeeds (P := P) (env := env) (loc := loc) (fs := fs1)
      (row := ⟨bstr "aes-crypted", .DECRYPT_AND_ENCRYPT, none, some (bstr "aes")⟩) (cr := some cr) rfl (.inl rfl) .aes
      (.inl rfl) (by rw [f1 _ (by decide)]; exact h3) h4 (by
        rw [rowCrypter, CreateCrypter, Cmd.look_bind]
        have hr : CreateReader (pathJoin loc (bstr "aes")) fs1 = .ok (FileReader da) := by
          unfold CreateReader; rw [show fs1 (pathJoin loc (bstr "aes")) = some da from q1]
        rw [hr]
        simp only [bind, Except.bind]
        rw [hcr]
        rfl) hgc (hgood _ _ _ _ .aesCrypted)
    rw [(Cmd.seq_run hok2).1]
    refine genRows_succeeds (by decide) ?_
    have f2 : ∀ n, n ≠ bstr "aes-crypted" → n ≠ bstr "aes" → (genRow P env loc
        ⟨bstr "aes-crypted", .DECRYPT_AND_ENCRYPT, none, some (bstr "aes")⟩).after fs1
        (pathJoin loc n) = fs (pathJoin loc n) := fun n hn hn' => (genRow_others hn).trans (f1 n hn')
    intro row hrow
    fin_cases hrow
    · obtain ⟨d, e1, e2⟩ := hdirs "hmac" (by decide)
      exact ⟨.HMAC_SHA1, ⟨.inr rfl, .hmac, rfl⟩, .inr (.inl rfl), hgood _ _ _ _ .hmac, d,
        by rw [f2 _ (by decide) (by decide)]; exact e1, e2⟩
    · obtain ⟨d, e1, e2⟩ := hdirs "rsa" (by decide)
      exact ⟨.RSA_PRIV, ⟨.inl rfl, .rsaCrypt, rfl⟩, .inr (.inr (.inl rfl)), hgood _ _ _ _ .rsa, d,
        by rw [f2 _ (by decide) (by decide)]; exact e1, e2⟩
    · obtain ⟨d, e1, e2⟩ := hdirs "rsa-sign" (by decide)
      exact ⟨.RSA_PRIV, ⟨.inr rfl, .rsaSign isRsa_rsa, rfl⟩, .inr (.inr (.inl rfl)), hgood _ _ _ _ .rsaSign, d,
        by rw [f2 _ (by decide) (by decide)]; exact e1, e2⟩
    · obtain ⟨d, e1, e2⟩ := hdirs "dsa" (by decide)
      exact ⟨.DSA_PRIV, ⟨.inr rfl, .dsa not_isRsa_dsa, rfl⟩, .inr (.inr (.inr rfl)), hgood _ _ _ _ .dsa, d,
        by rw [f2 _ (by decide) (by decide)]; exact e1, e2⟩
  unfold GenKeySet
  show ((genRows P env loc KEYSETS >>= fun _ => genExports P env loc [bstr "dsa", bstr "rsa-sign"]) fs).1 = _
  rw [(Cmd.seq_run hrows).1]
  obtain ⟨-, cr, -, -, -, m4⟩ := KEYSETS_ok env loc fs (by
    intro name p t x hx d hd
    have : ∃ n ∈ ["aes", "aes-crypted", "hmac", "rsa", "rsa-sign", "dsa", "dsa.public", "rsa-sign.public"],
        name = bstr n := by
      cases hx
      · exact ⟨"aes", by decide, rfl⟩
      · exact ⟨"aes-crypted", by decide, rfl⟩
      · exact ⟨"hmac", by decide, rfl⟩
      · exact ⟨"rsa", by decide, rfl⟩
      · exact ⟨"rsa-sign", by decide, rfl⟩
      · exact ⟨"dsa", by decide, rfl⟩
    obtain ⟨n, h1, rfl⟩ := this
    obtain ⟨d', h2, h3⟩ := hdirs n h1
    rw [hd] at h2
    cases h2
    exact h3) hrows
  obtain ⟨d1, a1, a2, a3, a4, a5, a6⟩ := m4 _ _ _ _ .dsa
  obtain ⟨d2, b1, b2, b3, b4, b5, b6⟩ := m4 _ _ _ _ .rsaSign
  obtain ⟨p1, hp1, -⟩ := hdirs "dsa.public" (by decide)
  obtain ⟨p2, hp2, -⟩ := hdirs "rsa-sign.public" (by decide)
  have hp1' : (genRows P env loc KEYSETS).after fs (pathJoin loc (bstr "dsa" ++ bstr ".public")) = some p1 := by
    rw [genRows_others (by decide)]; exact hp1
  have hp2' : (genRows P env loc KEYSETS).after fs (pathJoin loc (bstr "rsa-sign" ++ bstr ".public")) = some p2 := by
    rw [genRows_others (by decide)]; exact hp2
  generalize (genRows P env loc KEYSETS).after fs = fs1 at *
  rw [genExports]
  have e1 := (C41_export P (env.pub (bstr "dsa")) fs1 _ _ _ (Loads.holds a5 a6.loads) _ _ .dsa p1 hp1').1
  rw [(Cmd.seq_run e1).1]
  have f1 : ∀ n, n ≠ bstr "dsa" ++ bstr ".public" → (PubKey P (env.pub (bstr "dsa")) (some (pathJoin loc (bstr "dsa")))
      (some (pathJoin loc (bstr "dsa" ++ bstr ".public")))).after fs1 (pathJoin loc n) = fs1 (pathJoin loc n) :=
    fun n hn => pubkey_others hn
  generalize (PubKey P (env.pub (bstr "dsa")) (some (pathJoin loc (bstr "dsa")))
      (some (pathJoin loc (bstr "dsa" ++ bstr ".public")))).after fs1 = fs2 at *
  rw [genExports]
  have e2 := (C41_export P (env.pub (bstr "rsa-sign")) fs2 (pathJoin loc (bstr "rsa-sign")) _ _
    (Loads.holds (by rw [f1 _ (by decide)]; exact b5) b6.loads) _ _ .rsaSign p2
    (by rw [f1 (bstr "rsa-sign" ++ bstr ".public") (by decide)]; exact hp2')).1
  rw [(Cmd.seq_run e2).1]
  rfl

end Verif.Props
