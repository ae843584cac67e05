import Verif.Model.Interop
import Verif.Spec.Interop
import Verif.Props.Export
import Verif.Props.Sessions
import Verif.Props.GenKeyRun
/-
C77: the Python interoperability program accepts its own outputs.
-/
namespace Verif.Props
open Verif Spec
variable (P : Prims)

variable {P} in
theorem loads_opens {r : Reader} {ks : KeySet} (h : Loads P r ks) {cls : CzarClass}
    (hc : cls.IsAcceptablePurpose ks.purpose = true) : ∃ c, Czar.init P cls r = .ok c ∧ Loaded P c ∧ c.keySet = ks := by
  obtain ⟨h1, -, h2, h3⟩ := Czar.init_iff.mp h
  obtain ⟨c, h4, h5⟩ := Czar.init_iff.mpr ⟨h1, hc, h2, h3⟩
  exact ⟨c, h4, ⟨_, _, h4⟩, h5⟩

variable {P} in
theorem readerOf_ok {fs : FS} {path name crypted pub : Bytes} {alg options pubOptions : Json} {ks : KeySet}
    (ha : alg.toBytes = .ok name) (hc : HasText options "cryptedKeySet" crypted) (hp : PubText pubOptions pub)
    (h : OnDisk P fs path name crypted pub ks) :
    ∃ r, readerOf P fs path alg options pubOptions = .ok r ∧ Loads P r ks := by
  obtain ⟨v, hv, hvb⟩ := hc
  obtain ⟨d, hd, h⟩ := h
  obtain ⟨l, rfl, hl⟩ := hp
  have hpub : ∃ w, Json.getD (.obj l) "pubKey" (Json.ofString "") = .ok w ∧ w.toBytes = .ok pub := by
    unfold Json.getD
    split at hl
    · next h0 => rw [hl]; exact ⟨_, rfl, by rw [h0]; rfl⟩
    · next w h0 => exact ⟨w, by simp only [h0, Option.getD_some], hl⟩
  obtain ⟨w, hw, hwb⟩ := hpub
  have key : readerOf P fs path alg options (.obj l) = GetReader P fs path name crypted pub := by
    unfold readerOf
    simp only [hv, hw, ha, hvb, hwb, bind, Except.bind]
  rw [key]
  unfold GetReader CreateReader
  simp only [hd, bind, Except.bind]
  rcases h with ⟨h0, h⟩ | ⟨h0, d', cr, h1, h2, h⟩
  · rw [if_pos h0]; exact ⟨_, rfl, h⟩
  · rw [if_neg h0]; simp only [h1, h2]; exact ⟨_, rfl, h⟩

/-- the test set is the generating set or its public counterpart -/
theorem verify_entry {ks ks' : KeySet} (h : ks' = ks ∨ ks'.PublicOf ks) {e : Entry} (he : e ∈ ks.entries) :
    ∃ e' ∈ ks'.entries, e'.key = e.key ∨ IsPublicHalf e.key e'.key := by
  rcases h with rfl | h
  · exact ⟨e, he, .inl rfl⟩
  · obtain ⟨e', h1, h2⟩ := PublicOf.entry h he
    exact ⟨e', h1, .inr h2.key⟩

theorem verify_entry' {ks ks' : KeySet} (h : ks' = ks ∨ ks'.PublicOf ks) {e' : Entry} (he : e' ∈ ks'.entries) :
    ∃ e ∈ ks.entries, e'.key = e.key ∨ IsPublicHalf e.key e'.key := by
  rcases h with rfl | h
  · exact ⟨e', he, .inl rfl⟩
  · obtain ⟨es, h1, h2⟩ := h.entries
    obtain ⟨e, h3, h4⟩ := Forall₂_mem h2 he
    exact ⟨e, h1.mem_iff.mp h3, .inr h4.key⟩

variable {P} in
theorem verify_distinct {ks ks' : KeySet} (h : ks' = ks ∨ ks'.PublicOf ks) (hd : ks.Distinct P) : ks'.Distinct P := by
  rcases h with rfl | h
  · exact hd
  · exact PublicOf.distinct h hd

variable {P} in
theorem GoodSet.entry {p : KeyPurpose} {ts : List KeyType} {ks : KeySet} (h : GoodSet P p ts ks) :
    ∃ e, ks.primaries = [e] ∧ e ∈ ks.entries ∧ GoodKey e.key := by
  obtain ⟨e, he⟩ := List.length_eq_one_iff.mp h.primary
  exact ⟨e, he, (primary_mem he).1, h.good e (primary_mem he).1⟩

theorem half_rsa {k : RsaPrivateKey} {k' : Key} (h : k' = .rsaPriv k ∨ IsPublicHalf (.rsaPriv k) k') :
    k' = .rsaPriv k ∨ k' = .rsaPub k.pub := by
  rcases h with h | h
  · exact .inl h
  · cases h; exact .inr rfl

theorem half_dsa {k : DsaPrivateKey} {k' : Key} (h : k' = .dsaPriv k ∨ IsPublicHalf (.dsaPriv k) k') :
    k' = .dsaPriv k ∨ k' = .dsaPub k.pub := by
  rcases h with h | h
  · exact .inl h
  · cases h; exact .inr rfl

theorem half_hmac {k : HmacKey} {k' : Key} (h : k' = .hmac k ∨ IsPublicHalf (.hmac k) k') : k' = .hmac k := by
  rcases h with h | h
  · exact h
  · cases h

variable {P} in
/-- in a loaded set of signing keys the primary key is of one of three kinds -/
theorem sign_cases {c : Czar} (hc : Loaded P c) {p : KeyPurpose} {ks : KeySet} (hk : c.keySet = ks)
    (hg : GoodSet P p signTypes ks) {e : Entry} (he : e ∈ ks.entries) :
    (∃ k, e.key = .hmac k ∧ ks.type = .HMAC_SHA1) ∨ (∃ k, e.key = .rsaPriv k ∧ UsableRsa k ∧ ks.type = .RSA_PRIV) ∨
    ∃ k, e.key = .dsaPriv k ∧ ks.type = .DSA_PRIV ∧ DsaValid k.key ∧ k.pub.key = k.key.pub ∧ 3 ≤ k.key.q ∧
      (BigIntToBytes k.key.q).length < 2 ^ 32 := by
  have ht := (hc.loadable.key_ok e (by rw [hk]; exact he)).2.1
  rw [hk] at ht
  have hty := hg.type
  have hgood := hg.good e he
  generalize hke : e.key = k at ht hgood
  rw [← ht] at hty ⊢
  cases k with
  | aes k => simp [signTypes, Key.type] at hty
  | hmac k => exact .inl ⟨k, rfl, rfl⟩
  | rsaPriv k => exact .inr (.inl ⟨k, rfl, hgood, rfl⟩)
  | dsaPriv k => exact .inr (.inr ⟨k, rfl, rfl, hgood⟩)
  | rsaPub k => exact hgood.elim
  | dsaPub k => exact hgood.elim

variable {P} in
theorem sign_core {c c' : Czar} (hc : Loaded P c) (hc' : Loaded P c') {ks ks' : KeySet} (hk : c.keySet = ks)
    (hk' : c'.keySet = ks') (hs : ks' = ks ∨ ks'.PublicOf ks) (hg : GoodSet P .SIGN_AND_VERIFY signTypes ks)
    {enc : Option (Bytes → Bytes)} {dec : Option (Bytes → Py Bytes)} (hinv : Inverse enc dec) (rnd : Rand) (m : Bytes)
    {e : Entry} (hp : ks.primaries = [e]) :
    ∃ out, c.Sign P rnd m enc = .ok out ∧ (FairSign P rnd (plainPayload m) e.key → c'.Verify P m out dec = .ok true) := by
  obtain ⟨e', he', hh⟩ := verify_entry hs (primary_mem hp).1
  have hd := verify_distinct hs hg.distinct
  have hcases := sign_cases hc hk hg (primary_mem hp).1
  subst hk hk'
  rcases hcases with ⟨k, h1, -⟩ | ⟨k, h1, h2, -⟩ | ⟨k, h1, -, h2, h3, h4, h5⟩ <;> rw [h1] at hh ⊢
  · obtain ⟨out, o1, o2⟩ := C42_hmac P c c' hc hc' hd e e' k hp h1 he' (half_hmac hh) enc dec hinv rnd m
    exact ⟨out, o1, fun _ => o2⟩
  · obtain ⟨out, o1, o2⟩ := C42_rsa P c c' hc hc' hd e e' k h2 hp h1 he' (half_rsa hh) enc dec hinv rnd m
    exact ⟨out, o1, fun _ => o2⟩
  · obtain ⟨out, r, s, o1, o2, o3⟩ := C42_dsa P c c' hc hc' hd e e' k h2 h3 h4 h5 hp h1 he' (half_dsa hh) enc dec hinv rnd m
    exact ⟨out, o1, fun hf => by rw [o3]; simp [hf r s o2]⟩

variable {P} in
theorem attached_core {c c' : Czar} (hc : Loaded P c) (hc' : Loaded P c') {ks ks' : KeySet} (hk : c.keySet = ks)
    (hk' : c'.keySet = ks') (hs : ks' = ks ∨ ks'.PublicOf ks) (hg : GoodSet P .SIGN_AND_VERIFY signTypes ks)
    {enc : Option (Bytes → Bytes)} {dec : Option (Bytes → Py Bytes)} (hinv : Inverse enc dec) (rnd : Rand) (m n : Bytes)
    (hm : m.length < 2 ^ 31) (hn : n.length < 2 ^ 31) {e : Entry} (hp : ks.primaries = [e]) :
    ∃ out, c.AttachedSign P rnd m n enc = .ok out ∧
      (FairSign P rnd (attachedPayload m n) e.key → c'.AttachedVerify P out n dec = .ok (some m)) := by
  obtain ⟨e', he', hh⟩ := verify_entry hs (primary_mem hp).1
  have hd := verify_distinct hs hg.distinct
  have hcases := sign_cases hc hk hg (primary_mem hp).1
  subst hk hk'
  rcases hcases with ⟨k, h1, -⟩ | ⟨k, h1, h2, -⟩ | ⟨k, h1, -, h2, h3, h4, h5⟩ <;> rw [h1] at hh ⊢
  · obtain ⟨out, o1, o2⟩ := C44_hmac P c c' hc hc' hd e e' k hp h1 he' (half_hmac hh) enc dec hinv rnd m n hm hn
    exact ⟨out, o1, fun _ => o2⟩
  · obtain ⟨out, o1, o2⟩ := C44_rsa P c c' hc hc' hd e e' k h2 hp h1 he' (half_rsa hh) enc dec hinv rnd m n hm hn
    exact ⟨out, o1, fun _ => o2⟩
  · obtain ⟨out, r, s, o1, o2, o3⟩ :=
      C44_dsa P c c' hc hc' hd e e' k h2 h3 h4 h5 hp h1 he' (half_dsa hh) enc dec hinv rnd m n hm hn
    exact ⟨out, o1, fun hf => by rw [o3]; simp [hf r s o2]⟩

variable {P} in
theorem unversioned_core {c c' : Czar} (hc : Loaded P c) (hc' : Loaded P c') {ks ks' : KeySet} (hk : c.keySet = ks)
    (hk' : c'.keySet = ks') (hs : ks' = ks ∨ ks'.PublicOf ks) (hg : GoodSet P .SIGN_AND_VERIFY signTypes ks)
    {enc : Option (Bytes → Bytes)} {dec : Option (Bytes → Py Bytes)} (hinv : Inverse enc dec) (rnd : Rand) (m : Bytes)
    {e : Entry} (hp : ks.primaries = [e]) :
    ∃ out, c.UnversionedSign P rnd m enc = .ok out ∧
      (FairSign P rnd m e.key → c'.UnversionedVerify P m out dec = .ok true) := by
  obtain ⟨e', he', hh⟩ := verify_entry hs (primary_mem hp).1
  have hcases := fun e he => sign_cases hc hk hg (e := e) he
  have hback := fun e' he' => verify_entry' hs (e' := e') he'
  have hty : ∀ t, ks.type = t → ks'.type = t ∨ Exports t .SIGN_AND_VERIFY ks'.type ks'.purpose := by
    rintro t rfl
    rcases hs with h | h
    · exact .inl (by rw [h])
    · exact .inr (hg.purpose ▸ h.kind)
  subst hk hk'
  rcases hcases e (primary_mem hp).1 with ⟨k, h1, ht⟩ | ⟨k, h1, h2, ht⟩ | ⟨k, h1, ht, h2, h3, h4, h5⟩ <;> rw [h1] at hh ⊢
  · have ht' : c'.keySet.type = .HMAC_SHA1 := by
      rcases hty _ ht with h | h
      · exact h
      · cases h
    obtain ⟨out, o1, o2⟩ := C46_hmac_round_trip P c c' hc hc' ht' e e' k hp h1 he' (half_hmac hh) enc dec hinv rnd m
    exact ⟨out, o1, fun _ => o2⟩
  · have ht' : c'.keySet.type = .RSA_PRIV ∨ c'.keySet.type = .RSA_PUB := by
      rcases hty _ ht with h | h
      · exact .inl h
      · generalize c'.keySet.type = t at h ⊢
        generalize c'.keySet.purpose = p at h
        cases h
        exact .inr rfl
    obtain ⟨out, o1, o2⟩ := C46_rsa_round_trip P c c' hc hc' ht' e e' k h2 hp h1 he' (half_rsa hh) enc dec hinv rnd m
    exact ⟨out, o1, fun _ => o2⟩
  · have hall : ∀ x ∈ c'.keySet.entries, ∃ k : DsaPublicKey, k.key.p ≠ 0 ∧
        (x.key = .dsaPub k ∨ ∃ pk : DsaPrivateKey, x.key = .dsaPriv pk ∧ pk.pub = k) := by
      intro x hx
      obtain ⟨y, hy, hxy⟩ := hback x hx
      rcases hcases y hy with ⟨j, -, j1⟩ | ⟨j, -, -, j1⟩ | ⟨j, j1, -, j2, j3, -⟩
      · rw [ht] at j1; cases j1
      · rw [ht] at j1; cases j1
      · rw [j1] at hxy
        refine ⟨j.pub, ?_, ?_⟩
        · rw [j3]
          have := j2.p_pos
          show j.key.p ≠ 0
          omega
        · rcases half_dsa hxy with h | h
          · exact .inr ⟨j, h, rfl⟩
          · exact .inl h
    obtain ⟨out, r, s, o1, o2, o3⟩ :=
      C46_dsa_round_trip P c c' hc hc' hall e e' k h2 h3 h4 h5 hp h1 he' (half_dsa hh) enc dec hinv rnd m
    exact ⟨out, o1, fun hf => o3 (hf r s o2)⟩

variable {P} in
/-- in a loaded set of crypter keys every key is of one of two kinds -/
theorem crypt_cases {c : Czar} (hc : Loaded P c) {p : KeyPurpose} {ks : KeySet} (hk : c.keySet = ks)
    (hg : GoodSet P p cryptTypes ks) {e : Entry} (he : e ∈ ks.entries) :
    (∃ k kb hb, e.key = .aes k ∧ UsableAes k kb hb ∧ ks.type = .AES) ∨
    ∃ k, e.key = .rsaPriv k ∧ UsableRsa k ∧ ks.type = .RSA_PRIV := by
  have ht := (hc.loadable.key_ok e (by rw [hk]; exact he)).2.1
  rw [hk] at ht
  have hty := hg.type
  have hgood := hg.good e he
  generalize hke : e.key = k at ht hgood
  rw [← ht] at hty ⊢
  cases k with
  | aes k => obtain ⟨kb, hb, hu⟩ := hgood; exact .inl ⟨k, kb, hb, rfl, hu, rfl⟩
  | hmac k => simp [cryptTypes, Key.type] at hty
  | rsaPriv k => exact .inr ⟨k, rfl, hgood, rfl⟩
  | dsaPriv k => simp [cryptTypes, Key.type] at hty
  | rsaPub k => exact hgood.elim
  | dsaPub k => exact hgood.elim

variable {P} in
/-- the primary key of the generating set, when it is the private set or its public counterpart -/
theorem generate_entry {ks kg : KeySet} (h : kg = ks ∨ kg.PublicOf ks) {e : Entry} (hp : ks.primaries = [e]) :
    ∃ e', kg.primaries = [e'] ∧ (e'.key = e.key ∨ IsPublicHalf e.key e'.key) := by
  rcases h with rfl | h
  · exact ⟨e, hp, .inl rfl⟩
  · obtain ⟨es, h1, h2⟩ := PublicOf.primaries h
    rw [hp] at h1
    rw [List.perm_singleton.mp h1] at h2
    generalize kg.primaries = ps at h2
    cases h2 with
    | @cons e' _ _ _ hpe ht => cases ht; exact ⟨e', rfl, .inr hpe.key⟩

variable {P} in
theorem crypt_core {c c' : Czar} (hc : Loaded P c) (hc' : Loaded P c') {ks kg : KeySet} (hk : c.keySet = kg)
    (hk' : c'.keySet = ks) (hs : kg = ks ∨ kg.PublicOf ks) (hg : GoodSet P .DECRYPT_AND_ENCRYPT cryptTypes ks)
    {enc : Option (Bytes → Bytes)} {dec : Option (Bytes → Py Bytes)} (hinv : Inverse enc dec) (rnd : Rand) (m : Bytes)
    {e : Entry} (hp : ks.primaries = [e]) (hf : Fits m.length e.key) :
    ∃ out, c.Encrypt P rnd m enc = .ok out ∧ (FairCrypt P rnd m e.key → c'.Decrypt P out dec = .ok m) := by
  obtain ⟨e1, hp1, hh⟩ := generate_entry hs hp
  have hcases := crypt_cases hc' hk' hg (primary_mem hp).1
  have hd := hg.distinct
  subst hk hk'
  rcases hcases with ⟨k, kb, hb, h1, h2, -⟩ | ⟨k, h1, h2, -⟩
  · rw [h1] at hh
    have h3 : e1.key = .aes k := by
      rcases hh with h | h
      · exact h
      · cases h
    obtain ⟨out, ho⟩ := C22_aes_encrypts P c hc e1 k kb hb hp1 h3 h2 enc rnd m
    exact ⟨out, ho, fun _ => C22_aes_round_trip P c c' hc hc' hd e1 e k hp1 h3 (primary_mem hp).1 h1 enc dec hinv rnd m out ho⟩
  · rw [h1] at hh hf ⊢
    obtain ⟨out, o1, o2⟩ := C22_rsa_round_trip P c c' hc hc' hd e1 e k hp1 (half_rsa hh) (primary_mem hp).1 h1 h2.valid h2.pub
      h2.modulus.2 enc dec hinv rnd m hf
    exact ⟨out, o1, fun h => by rw [o2, if_neg (by have : 42 ≤ _ := h; omega)]⟩

variable {P} in
theorem Encrypt_coded {c : Czar} {rnd : Rand} {m out : Bytes} {f : Bytes → Bytes} (h : c.Encrypt P rnd m (some f) = .ok out) :
    ∃ b, out = f b := by
  unfold Czar.Encrypt at h
  obtain ⟨k, -, h1⟩ := bind_ok h
  obtain ⟨ct, -, h2⟩ := bind_ok h1
  exact ⟨ct, (Except.ok.inj h2).symm⟩

variable {P} in
theorem AttachedSign_coded {c : Czar} {rnd : Rand} {m n out : Bytes} {f : Bytes → Bytes}
    (h : c.AttachedSign P rnd m n (some f) = .ok out) : ∃ b, out = f b := by
  unfold Czar.AttachedSign at h
  obtain ⟨k, -, h1⟩ := bind_ok h
  obtain ⟨hd, -, h2⟩ := bind_ok h1
  obtain ⟨pk, -, h3⟩ := bind_ok h2
  obtain ⟨sg, -, h4⟩ := bind_ok h3
  exact ⟨_, (Except.ok.inj h4).symm⟩

variable {P} in
theorem session_core {c c' sg ve : Czar} (hc : Loaded P c) (hc' : Loaded P c') (hsg : Loaded P sg) (hve : Loaded P ve)
    {ks kg ss : KeySet} (hk : c.keySet = kg) (hk' : c'.keySet = ks) (hs : kg = ks ∨ kg.PublicOf ks)
    (hg : GoodSet P .DECRYPT_AND_ENCRYPT cryptTypes ks) (hks : sg.keySet = ss) (hkv : ve.keySet = ss)
    (hgs : GoodSet P .SIGN_AND_VERIFY signTypes ss) (rnd : Nat → Rand) (m : Bytes) (hm : m.length + 57 < 2 ^ 31)
    {e s : Entry} (hp : ks.primaries = [e]) (hps : ss.primaries = [s]) (hf : Fits 204 e.key) :
    ∃ mat out, SignedSessionEncrypter.new P c (rnd 0) (rnd 1) = .ok ⟨Session.New (rnd 0), mat⟩ ∧
      (∃ b, mat = Base64WSEncode b) ∧ (∃ b, out = Base64WSEncode b) ∧
      SignedSessionEncrypter.Encrypt P ⟨Session.New (rnd 0), mat⟩ sg (rnd 2) (rnd 3) m = .ok out ∧
      ((∀ text, (Session.New (rnd 0)).json = .ok text → FairCrypt P (rnd 1) text e.key) →
       (∀ ct, (Session.New (rnd 0)).key.Encrypt P ((rnd 2).bytes 0 16) m = .ok ct →
          FairSign P (rnd 3) (attachedPayload ct ((rnd 0).bytes 2 16)) s.key) →
        SignedSessionDecrypter.new P c' mat = .ok (Session.New (rnd 0)) ∧
        SignedSessionDecrypter.Decrypt P (Session.New (rnd 0)) ve out = .ok (some m)) := by
  obtain ⟨text, hj, hl⟩ := signed_material_length (rnd 0)
  obtain ⟨mat, m1, m2⟩ := crypt_core hc hc' hk hk' hs hg inverse_base64 (rnd 1) text hp (by rw [hl]; exact hf)
  obtain ⟨ct, c1, c2, c3, c4⟩ := signed_messages P (rnd 0) mat (rnd 2) m hm
  obtain ⟨out, o1, o2⟩ := attached_core hsg hve hks hkv (.inl rfl) hgs inverse_base64 (rnd 3) ct ((rnd 0).bytes 2 16) c2
    (by rw [(rnd 0).bytes_length]; omega) hps
  have hnew : SignedSessionEncrypter.new P c (rnd 0) (rnd 1) = .ok ⟨Session.New (rnd 0), mat⟩ := by
    unfold SignedSessionEncrypter.new
    simp only [hj, m1, bind, Except.bind]
    rfl
  refine ⟨mat, out, hnew, Encrypt_coded m1, AttachedSign_coded o1, by rw [c3]; exact o1, fun h1 h2 => ?_⟩
  exact ⟨(signed_arrives P hj m1 (m2 (h1 text hj))).2, c4 ve out (o2 (h2 ct c1))⟩

/-! ### the operations -/

theorem JsonOutput_loads (b : Bytes) : loads (JsonOutput b ++ [10]) = .ok (.obj [("output".toList, jb64 b)]) :=
  loads_dumps_line _ ⟨by simp, jb64_WF b, trivial⟩

theorem JsonInput_output (b : Bytes) : JsonInput (.obj [("output".toList, jb64 b)]) = .ok b := getB64_ok rfl

theorem coders {o : Json} (h : ∃ v, o.get "encoding" = .ok v) :
    ∃ enc dec, encoderOf o = .ok enc ∧ decoderOf o = .ok dec ∧ Inverse enc dec := by
  obtain ⟨v, hv⟩ := h
  unfold encoderOf decoderOf
  simp only [hv, bind, Except.bind]
  cases v.isText "encoded"
  · exact ⟨_, _, rfl, rfl, inverse_none⟩
  · exact ⟨_, _, rfl, rfl, inverse_base64⟩

theorem isText_iff (v : Json) (s : String) : v.isText s = true ↔ v = .str s.toList := by
  cases v <;> simp [Json.isText]

variable {P} in
/-- the class that `Test` uses opens the test set -/
theorem sign_opens {fs fs' : FS} {keyPath alg go ts data : Json} {path name crypted pub m : Bytes} {ks ks' : KeySet}
    (h : SignCase P fs fs' keyPath alg go ts data path name crypted pub m ks ks') (a b x : CzarClass)
    (ha : ∀ p, p = .VERIFY ∨ p = .SIGN_AND_VERIFY → a.IsAcceptablePurpose p = true)
    (hb : b.IsAcceptablePurpose .SIGN_AND_VERIFY = true) (hx : x.IsAcceptablePurpose .SIGN_AND_VERIFY = true) :
    ∃ v c c', ts.get "class" = .ok v ∧
      (∃ r, readerOf P fs path alg go go = .ok r ∧ Czar.init P x r = .ok c) ∧ Loaded P c ∧ c.keySet = ks ∧
      (∃ r, readerOf P fs' path alg go ts = .ok r ∧ Czar.init P (if v.isText "verifier" then a else b) r = .ok c') ∧
      Loaded P c' ∧ c'.keySet = ks' := by
  obtain ⟨v, hv, hcls⟩ := h.cls
  obtain ⟨r, r1, r2⟩ := readerOf_ok h.nameText h.cryptedText h.gPub h.gSet
  obtain ⟨c, c1, c2, c3⟩ := loads_opens r2 (cls := x) (by rw [h.good.purpose]; exact hx)
  obtain ⟨r', s1, s2⟩ := readerOf_ok h.nameText h.cryptedText h.tPub h.tSet
  have hpu : ks'.purpose = .VERIFY ∨ ks'.purpose = .SIGN_AND_VERIFY := by
    rcases h.same with h1 | h1
    · rw [h1]; exact .inr h.good.purpose
    · have hk := h1.kind
      rw [h.good.purpose] at hk
      generalize ks'.purpose = p at hk ⊢
      generalize ks'.type = t at hk
      generalize ks.type = t' at hk
      cases hk <;> exact .inl rfl
  have hacc : (if v.isText "verifier" then a else b).IsAcceptablePurpose ks'.purpose = true := by
    split
    · exact ha _ hpu
    · next hn =>
      rcases hcls with h1 | h1
      · rw [h1, h.good.purpose]; exact hb
      · exact absurd ((isText_iff _ _).mpr h1) hn
  obtain ⟨c', d1, d2, d3⟩ := loads_opens s2 hacc
  exact ⟨v, c, c', hv, ⟨r, r1, c1⟩, c2, c3, ⟨r', s1, d1⟩, d2, d3⟩

/-- C77 (sign): `Generate` prints a JSON text, and `Test` passes on what it parses to. -/
theorem C77_sign (fs fs' : FS) (rnd : Nat → Rand) (keyPath alg go ts data : Json) (path name crypted pub m : Bytes)
    (ks ks' : KeySet) (h : SignCase P fs fs' keyPath alg go ts data path name crypted pub m ks ks') (e : Entry)
    (hp : ks.primaries = [e]) :
    ∃ out j, interopGenerate P fs rnd (Json.ofString "sign") keyPath alg go data = .ok out ∧ loads out = .ok j ∧
      (FairSign P (rnd 0) (plainPayload m) e.key →
        interopTest P fs' (Json.ofString "sign") j keyPath alg go ts data = .ok (bstr "Test passes\n")) := by
  obtain ⟨v, c, c', hv, ⟨r, r1, r2⟩, l1, k1, ⟨r', s1, s2⟩, l2, k2⟩ := sign_opens h .verifier .signer .signer
    (by rintro p (rfl | rfl) <;> rfl) rfl rfl
  obtain ⟨enc, dec, e1, e2, hinv⟩ := coders h.encoding
  obtain ⟨out, o1, o2⟩ := sign_core l1 l2 k1 k2 h.same h.good hinv (rnd 0) m hp
  refine ⟨JsonOutput out ++ [10], _, ?_, JsonOutput_loads out, fun hf => ?_⟩
  · unfold interopGenerate SignOperation.Generate
    simp only [h.dataText, h.pathText, e1, r1, r2, o1, bind, Except.bind]
    rfl
  · unfold interopTest SignOperation.Test
    simp only [h.dataText, h.pathText, e2, hv, s1, s2, JsonInput_output, o2 hf, bind, Except.bind]
    rfl

/-- C77 (unversioned): likewise. -/
theorem C77_unversioned (fs fs' : FS) (rnd : Nat → Rand) (keyPath alg go ts data : Json) (path name crypted pub m : Bytes)
    (ks ks' : KeySet) (h : SignCase P fs fs' keyPath alg go ts data path name crypted pub m ks ks') (e : Entry)
    (hp : ks.primaries = [e]) :
    ∃ out j, interopGenerate P fs rnd (Json.ofString "unversioned") keyPath alg go data = .ok out ∧ loads out = .ok j ∧
      (FairSign P (rnd 0) m e.key →
        interopTest P fs' (Json.ofString "unversioned") j keyPath alg go ts data = .ok (bstr "Test passes\n")) := by
  obtain ⟨v, c, c', hv, ⟨r, r1, r2⟩, l1, k1, ⟨r', s1, s2⟩, l2, k2⟩ :=
    sign_opens h .unversionedVerifier .unversionedSigner .unversionedSigner (by rintro p (rfl | rfl) <;> rfl) rfl rfl
  obtain ⟨enc, dec, e1, e2, hinv⟩ := coders h.encoding
  obtain ⟨out, o1, o2⟩ := unversioned_core l1 l2 k1 k2 h.same h.good hinv (rnd 0) m hp
  refine ⟨JsonOutput out ++ [10], _, ?_, JsonOutput_loads out, fun hf => ?_⟩
  · unfold interopGenerate UnversionedSignOperation.Generate
    simp only [h.dataText, h.pathText, e1, r1, r2, o1, bind, Except.bind]
    rfl
  · unfold interopTest UnversionedSignOperation.Test
    simp only [h.dataText, h.pathText, e2, hv, s1, s2, JsonInput_output, o2 hf, bind, Except.bind]
    rfl

/-- C77 (attached): likewise for test data that is not empty; with empty test data `Test` raises AssertionError although
the signature is valid. -/
theorem C77_attached (fs fs' : FS) (rnd : Nat → Rand) (keyPath alg go ts data : Json) (path name crypted pub m : Bytes)
    (ks ks' : KeySet) (h : SignCase P fs fs' keyPath alg go ts data path name crypted pub m ks ks') (e : Entry)
    (hp : ks.primaries = [e]) (hm : m.length < 2 ^ 31) :
    ∃ out j, interopGenerate P fs rnd (Json.ofString "attached") keyPath alg go data = .ok out ∧ loads out = .ok j ∧
      (FairSign P (rnd 0) (attachedPayload m []) e.key →
        interopTest P fs' (Json.ofString "attached") j keyPath alg go ts data =
          if m = [] then .error .assertionError else .ok (bstr "Test passes\n")) := by
  obtain ⟨v, c, c', hv, ⟨r, r1, r2⟩, l1, k1, ⟨r', s1, s2⟩, l2, k2⟩ := sign_opens h .verifier .signer .signer
    (by rintro p (rfl | rfl) <;> rfl) rfl rfl
  obtain ⟨enc, dec, e1, e2, hinv⟩ := coders h.encoding
  obtain ⟨out, o1, o2⟩ := attached_core l1 l2 k1 k2 h.same h.good hinv (rnd 0) m [] hm (by decide) hp
  refine ⟨JsonOutput out ++ [10], _, ?_, JsonOutput_loads out, fun hf => ?_⟩
  · unfold interopGenerate AttachedSignOperation.Generate
    simp only [h.dataText, h.pathText, e1, r1, r2, o1, bind, Except.bind]
    rfl
  · unfold interopTest AttachedSignOperation.Test
    simp only [h.dataText, h.pathText, e2, hv, s1, s2, JsonInput_output, o2 hf, bind, Except.bind]
    cases m <;> rfl

/-- C77 (attached): what `Test` does does not depend on the test data; it passes for any signed data that is not empty. -/
theorem C77_attached_any_data (fs : FS) (j keyPath alg go ts data data' : Json) (m m' : Bytes)
    (h : data.toBytes = .ok m) (h' : data'.toBytes = .ok m') :
    interopTest P fs (Json.ofString "attached") j keyPath alg go ts data =
      interopTest P fs (Json.ofString "attached") j keyPath alg go ts data' := by
  unfold interopTest
  simp only [h, h', bind, Except.bind]
  rfl

/-- C77 (encrypt): `Generate` prints a JSON text, and `Test` passes on what it parses to. -/
theorem C77_encrypt (fs fs' : FS) (rnd : Nat → Rand) (keyPath alg go ts data : Json) (path name crypted pub m : Bytes)
    (kg ks : KeySet) (h : CryptCase P fs fs' keyPath alg go ts data path name crypted pub m kg ks) (e : Entry)
    (hp : ks.primaries = [e]) (hm : Fits m.length e.key) :
    ∃ out j, interopGenerate P fs rnd (Json.ofString "encrypt") keyPath alg go data = .ok out ∧ loads out = .ok j ∧
      (FairCrypt P (rnd 0) m e.key →
        interopTest P fs' (Json.ofString "encrypt") j keyPath alg go ts data = .ok (bstr "Test passes\n")) := by
  obtain ⟨v, hv, hcls⟩ := h.cls
  obtain ⟨r, r1, r2⟩ := readerOf_ok h.nameText h.cryptedText h.gPub h.gSet
  obtain ⟨r', s1, s2⟩ := readerOf_ok h.nameText h.cryptedText h.tPub h.tSet
  have hpu : kg.purpose = .ENCRYPT ∨ kg.purpose = .DECRYPT_AND_ENCRYPT := by
    rcases h.same with h1 | h1
    · rw [h1]; exact .inr h.good.purpose
    · have hk := h1.kind
      rw [h.good.purpose] at hk
      generalize kg.purpose = p at hk ⊢
      generalize kg.type = t at hk
      generalize ks.type = t' at hk
      cases hk
      exact .inl rfl
  have hacc : (if v.isText "crypter" then CzarClass.crypter else .encrypter).IsAcceptablePurpose kg.purpose = true := by
    split
    · next hn =>
      rcases hcls with h1 | h1
      · rw [h1, h.good.purpose]; rfl
      · exact absurd ((isText_iff _ _).mp hn) h1
    · rcases hpu with hq | hq <;> rw [hq] <;> rfl
  obtain ⟨c, c1, l1, k1⟩ := loads_opens r2 hacc
  obtain ⟨c', d1, l2, k2⟩ := loads_opens s2 (cls := .crypter) (by rw [h.good.purpose]; rfl)
  obtain ⟨enc, dec, e1, e2, hinv⟩ := coders h.encoding
  obtain ⟨out, o1, o2⟩ := crypt_core l1 l2 k1 k2 h.same h.good hinv (rnd 0) m hp hm
  refine ⟨JsonOutput out ++ [10], _, ?_, JsonOutput_loads out, fun hf => ?_⟩
  · unfold interopGenerate EncryptOperation.Generate
    simp only [h.dataText, h.pathText, e1, hv, r1, c1, o1, bind, Except.bind]
    rfl
  · unfold interopTest EncryptOperation.Test
    simp only [h.dataText, h.pathText, e2, s1, d1, JsonInput_output, o2 hf, bind, Except.bind]
    simp [assert, operationOf, Json.isText, Json.ofString]
    rfl

/-- C77 (signedSession): likewise, with both exceptions (RSA padding, DSA zero). -/
theorem C77_signed_session (fs fs' : FS) (rnd : Nat → Rand) (keyPath alg go ts data : Json)
    (path name signer crypted pub m : Bytes) (kg ks ss : KeySet)
    (h : SessionCase P fs fs' keyPath alg go ts data path name signer crypted pub m kg ks ss) (e s : Entry)
    (hp : ks.primaries = [e]) (hs : ss.primaries = [s]) (hf : Fits 204 e.key) (hm : m.length + 57 < 2 ^ 31) :
    ∃ out j, interopGenerate P fs rnd (Json.ofString "signedSession") keyPath alg go data = .ok out ∧ loads out = .ok j ∧
      ((∀ text, (Session.New (rnd 0)).json = .ok text → FairCrypt P (rnd 1) text e.key) →
       (∀ ct, (Session.New (rnd 0)).key.Encrypt P ((rnd 2).bytes 0 16) m = .ok ct →
          FairSign P (rnd 3) (attachedPayload ct ((rnd 0).bytes 2 16)) s.key) →
        interopTest P fs' (Json.ofString "signedSession") j keyPath alg go ts data = .ok (bstr "Test passes\n")) := by
  obtain ⟨r, r1, r2⟩ := readerOf_ok h.nameText h.cryptedText h.gPub h.gSet
  obtain ⟨r', s1, s2⟩ := readerOf_ok h.nameText h.cryptedText h.tPub h.tSet
  obtain ⟨v, hv, hvb⟩ := h.signerText
  have hnil : PubText (.obj []) [] := ⟨[], rfl, rfl⟩
  obtain ⟨rs, t1, t2⟩ := readerOf_ok hvb h.cryptedText hnil h.gSign
  obtain ⟨rs', u1, u2⟩ := readerOf_ok hvb h.cryptedText hnil h.tSign
  have hacc : CzarClass.encrypter.IsAcceptablePurpose kg.purpose = true := by
    rcases h.same with h1 | h1
    · rw [h1, h.good.purpose]; rfl
    · have hk := h1.kind
      rw [h.good.purpose] at hk
      generalize kg.purpose = p at hk ⊢
      generalize kg.type = t at hk
      generalize ks.type = t' at hk
      cases hk
      rfl
  obtain ⟨c, c1, l1, k1⟩ := loads_opens r2 hacc
  obtain ⟨c', d1, l2, k2⟩ := loads_opens s2 (cls := .crypter) (by rw [h.good.purpose]; rfl)
  obtain ⟨sg, g1, l3, k3⟩ := loads_opens t2 (cls := .signer) (by rw [h.goodSign.purpose]; rfl)
  obtain ⟨ve, v1, l4, k4⟩ := loads_opens u2 (cls := .verifier) (by rw [h.goodSign.purpose]; rfl)
  obtain ⟨mat, out, o1, ⟨b, rfl⟩, ⟨b', rfl⟩, o2, o3⟩ :=
    session_core l1 l2 l3 l4 k1 k2 h.same h.good k3 k4 h.goodSign rnd m hm hp hs hf
  refine ⟨dumps (.obj [("output".toList, jb64 b'), ("sessionMaterial".toList, jb64 b)]) ++ [10], _, ?_,
    loads_dumps_line _ ⟨by simp only [List.map_cons, List.map_nil]; decide, jb64_WF b', jb64_WF b, trivial⟩, fun f1 f2 => ?_⟩
  · unfold interopGenerate SignedSessionOperation.Generate
    simp only [h.dataText, h.pathText, hv, r1, c1, t1, g1, o1, o2, bind, Except.bind]
    rfl
  · obtain ⟨o4, o5⟩ := o3 f1 f2
    unfold interopTest SignedSessionOperation.Test
    have j1 : Json.get (.obj [("output".toList, jb64 b'), ("sessionMaterial".toList, jb64 b)]) "output" = .ok (jb64 b') := rfl
    have j2 : Json.get (.obj [("output".toList, jb64 b'), ("sessionMaterial".toList, jb64 b)]) "sessionMaterial" =
      .ok (jb64 b) := rfl
    simp only [h.dataText, h.pathText, hv, s1, d1, u1, v1, j1, j2, jb64_toBytes, o4, o5, bind, Except.bind]
    simp [assert, operationOf, Json.isText, Json.ofString]
    rfl

/-! ### the program -/

theorem contains_of_get {args v : Json} {k : String} (h : args.get k = .ok v) : args.contains k = .ok true := by
  unfold Json.get at h
  split at h
  · next l =>
    unfold Json.contains
    split at h
    · next h1 => simp only [h1, Option.isSome_some]
    · cases h
  · cases h

/-- C77 (command line): the program needs one or two arguments, of which it reads the first, a JSON text with a command;
`generate` and `test` do not write to the disk. -/
theorem C77_main (env : InteropEnv) (fs : FS) :
    (∀ argv : List Bytes, argv.length = 0 ∨ 3 ≤ argv.length → interopMain P env argv fs = (.error .keyczarError, [])) ∧
    ∀ (text : Bytes) (rest : List Bytes), rest.length ≤ 1 →
      interopMain P env (text :: rest) fs = interopMain P env [text] fs ∧
      ∀ args op path alg go data, loads text = .ok args → args.get "operation" = .ok op →
        args.get "keyPath" = .ok path → args.get "algorithm" = .ok alg → args.get "generateOptions" = .ok go →
        args.get "testData" = .ok data →
        (args.get "command" = .ok (.str "generate".toList) →
          interopMain P env [text] fs = (interopGenerate P fs env.rnd op path alg go data, [])) ∧
        (args.get "command" = .ok (.str "test".toList) → ∀ out ts, args.get "output" = .ok out →
          args.get "testOptions" = .ok ts →
          interopMain P env [text] fs = (interopTest P fs op out path alg go ts data, [])) := by
  refine ⟨fun argv h => ?_, fun text rest hr => ⟨?_, fun args op path alg go data hl h1 h2 h3 h4 h5 => ⟨fun hc => ?_, ?_⟩⟩⟩
  · unfold interopMain
    rcases h with h | h
    · rw [List.length_eq_zero_iff.mp h]; rfl
    · rw [if_pos (by omega)]; rfl
  · unfold interopMain
    rw [if_neg (by simp; omega), if_neg (by simp)]
  · unfold interopMain
    rw [if_neg (by simp)]
    simp only [hl, Cmd.lift_ok, contains_of_get hc, hc]
    rw [if_neg (by decide), if_neg (by decide), if_pos (by decide)]
    show ((_ : Py Bytes), ([] : List Effect)) = _
    simp only [h1, h2, h3, h4, h5, bind, Except.bind]
  · intro hc out ts h6 h7
    unfold interopMain
    rw [if_neg (by simp)]
    simp only [hl, Cmd.lift_ok, contains_of_get hc, hc]
    rw [if_neg (by decide), if_neg (by decide), if_neg (by decide), if_pos (by decide)]
    show ((_ : Py Bytes), ([] : List Effect)) = _
    simp only [h1, h2, h3, h4, h5, h6, h7, bind, Except.bind]

end Verif.Props
