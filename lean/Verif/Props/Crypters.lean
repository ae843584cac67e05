import Verif.Lemmas.KeyId
import Verif.Props.Loading
import Verif.Props.Symmetric
import Verif.Props.Asymmetric
/-
Property theorems C21, C22, C42-C47: Encrypter, Crypter, Signer, Verifier and the unversioned
classes, on loaded key sets.
-/
namespace Verif.Props
open Verif Spec
variable (P : Prims)

/-- objects made by a constructor -/
def Loaded (c : Czar) : Prop := ∃ cls r, Czar.init P cls r = .ok c

/-- the optional output encoding applied to raw bytes -/
def encoded (enc : Option (Bytes → Bytes)) (b : Bytes) : Bytes :=
  match enc with
  | some f => f b
  | none => b

theorem Inverse.decodes {enc : Option (Bytes → Bytes)} {dec : Option (Bytes → Py Bytes)} (h : Inverse enc dec)
    (b : Bytes) : Decodes dec (encoded enc b) b := by
  cases enc <;> cases dec
  · rfl
  · cases h
  · cases h
  · exact h b

theorem inverse_base64 : Inverse (some Base64WSEncode) (some Base64WSDecode) := Base64WSDecode_encode
theorem inverse_none : Inverse none none := trivial

variable {P}

theorem Loaded.inv {c : Czar} (h : Loaded P c) : c.Inv P := by
  obtain ⟨_, _, h⟩ := h; exact (Czar.init_ok h).1
theorem Loaded.fresh {c : Czar} (h : Loaded P c) : c.Fresh := by
  obtain ⟨_, _, h⟩ := h; exact (Czar.init_ok h).2.1
theorem Loaded.loadable {c : Czar} (h : Loaded P c) : c.keySet.Loadable P := by
  obtain ⟨_, _, h⟩ := h; exact (Czar.init_ok h).2.2.2.1

theorem Loaded.keyId {c : Czar} (h : Loaded P c) {e : Entry} (he : e ∈ c.keySet.entries) :
    ∃ id, KeyId P.sha1 e.key id := by
  obtain ⟨-, -, hash, hh⟩ := h.loadable.key_ok e he
  obtain ⟨id, -, hi⟩ := KeyId_of_hashId P hh
  exact ⟨id, hi⟩

theorem primary_mem {ks : KeySet} {e : Entry} (h : ks.primaries = [e]) : e ∈ ks.entries ∧ e.status = .PRIMARY := by
  have : e ∈ ks.primaries := by rw [h]; simp
  unfold KeySet.primaries at this
  rw [List.mem_filter] at this
  exact ⟨this.1, by simpa using this.2⟩

theorem Loaded.primaryKey {c : Czar} (h : Loaded P c) {e : Entry} (hp : c.keySet.primaries = [e]) :
    c.primaryKey = .ok e.key := by
  have := Czar.primaryKey_spec h.inv
  rwa [hp] at this

/-- if there is a primary key, it is that of a unique PRIMARY version -/
theorem Loaded.primary_ok {c : Czar} (h : Loaded P c) {k : Key} (hk : c.primaryKey = .ok k) :
    ∃ e, c.keySet.primaries = [e] ∧ e.key = k := by
  obtain ⟨cls, r, hi⟩ := h
  rcases C18_loaded_primary P cls r c hi with ⟨-, h2⟩ | ⟨e, h1, h2⟩
  · rw [h2] at hk; cases hk
  · rw [h2] at hk; exact ⟨e, h1, Except.ok.inj hk⟩

variable (P)

/-! ## C21 -/

/-- C21: a ciphertext is the byte 0, the 4-byte identifier of the PRIMARY version's key, and more. -/
theorem C21_encrypt_header (c : Czar) (hc : Loaded P c) (rnd : Rand) (m out : Bytes)
    (h : c.Encrypt P rnd m none = .ok out) :
    ∃ e id rest, e ∈ c.keySet.entries ∧ e.status = .PRIMARY ∧ KeyId P.sha1 e.key id ∧ id.length = 4 ∧
      out = header id ++ rest := by
  unfold Czar.Encrypt at h
  obtain ⟨k, hk, h⟩ := bind_ok h
  obtain ⟨ct, hct, h⟩ := bind_ok h
  have h := Except.ok.inj h
  simp only at h
  subst h
  obtain ⟨e, he, rfl⟩ := hc.primary_ok hk
  obtain ⟨id, rest, h1, h2⟩ := Key.Encrypt_header P hct
  obtain ⟨hm, hs⟩ := primary_mem he
  exact ⟨e, id, rest, hm, hs, h1, ((KeyId_iff P _ _).mp h1).1, h2⟩

/-- what signing does on a loaded set -/
theorem Sign_eq {c : Czar} (hc : Loaded P c) {e : Entry} (hp : c.keySet.primaries = [e]) {id : Bytes}
    (hid : KeyId P.sha1 e.key id) (rnd : Rand) (m : Bytes) (enc : Option (Bytes → Bytes)) :
    c.Sign P rnd m enc = (e.key.Sign P rnd (plainPayload m)).map fun s => encoded enc (header id ++ s) := by
  unfold Czar.Sign Czar.InternalSign
  simp only [hc.primaryKey hp, bind, Except.bind, Header_eq P hid, PackByteArray, List.append_nil]
  show _ = Except.map _ (e.key.Sign P rnd (m ++ VERSION_BYTE))
  cases e.key.Sign P rnd (m ++ VERSION_BYTE) with
  | error x => rfl
  | ok s => cases enc <;> rfl

theorem AttachedSign_eq {c : Czar} (hc : Loaded P c) {e : Entry} (hp : c.keySet.primaries = [e]) {id : Bytes}
    (hid : KeyId P.sha1 e.key id) (rnd : Rand) (m nonce : Bytes) (enc : Option (Bytes → Bytes))
    (hm : m.length < 2 ^ 31) (hn : nonce.length < 2 ^ 31) :
    c.AttachedSign P rnd m nonce enc =
      (e.key.Sign P rnd (attachedPayload m nonce)).map fun s => encoded enc (attachedBlob id m s) := by
  unfold Czar.AttachedSign Czar.InternalSign
  have e1 : attachedPayload m nonce = m ++ packOne nonce ++ VERSION_BYTE := by
    simp [attachedPayload, lengthPrefixed, packOne, IntToBytes_i2osp4, VERSION_BYTE]
  simp only [hc.primaryKey hp, bind, Except.bind, Header_eq P hid, PackByteArray_some hm, PackByteArray_some hn]
  rw [e1]
  cases e.key.Sign P rnd (m ++ packOne nonce ++ VERSION_BYTE) with
  | error x => rfl
  | ok s =>
    simp only [Except.map, attachedBlob, lengthPrefixed, ← IntToBytes_i2osp4]
    cases enc <;> rfl

/-- C21: every signature starts with the byte 0 and the identifier of the PRIMARY version's key. -/
theorem C21_sign_header (c : Czar) (hc : Loaded P c) (rnd : Rand) (m out : Bytes)
    (h : c.Sign P rnd m none = .ok out) :
    ∃ e id rest, e ∈ c.keySet.entries ∧ e.status = .PRIMARY ∧ KeyId P.sha1 e.key id ∧ id.length = 4 ∧
      out = header id ++ rest := by
  cases hk : c.primaryKey with
  | error x => simp [Czar.Sign, hk, bind, Except.bind] at h
  | ok k =>
    obtain ⟨e, he, rfl⟩ := hc.primary_ok hk
    obtain ⟨hm, hs⟩ := primary_mem he
    obtain ⟨id, hid⟩ := hc.keyId hm
    rw [Sign_eq P hc he hid] at h
    cases hsg : e.key.Sign P rnd (plainPayload m) with
    | error x => rw [hsg] at h; cases h
    | ok s =>
      rw [hsg] at h
      exact ⟨e, id, s, hm, hs, hid, ((KeyId_iff P _ _).mp hid).1, (Except.ok.inj h).symm⟩

/-- C21: the same for attached signatures. -/
theorem C21_attached_header (c : Czar) (hc : Loaded P c) (rnd : Rand) (m nonce out : Bytes)
    (h : c.AttachedSign P rnd m nonce none = .ok out) :
    ∃ e id rest, e ∈ c.keySet.entries ∧ e.status = .PRIMARY ∧ KeyId P.sha1 e.key id ∧ id.length = 4 ∧
      out = header id ++ rest := by
  cases hk : c.primaryKey with
  | error x => simp [Czar.AttachedSign, hk, bind, Except.bind] at h
  | ok k =>
    obtain ⟨e, he, rfl⟩ := hc.primary_ok hk
    obtain ⟨hm, hs⟩ := primary_mem he
    obtain ⟨id, hid⟩ := hc.keyId hm
    unfold Czar.AttachedSign at h
    simp only [hk, bind, Except.bind, Header_eq P hid] at h
    split at h
    · cases h
    · split at h
      · cases h
      · exact ⟨e, id, _, hm, hs, hid, ((KeyId_iff P _ _).mp hid).1, by
          rw [← Except.ok.inj h]; simp only [List.append_assoc]; rfl⟩

/-- C21: looking a header up in any loaded set that contains a key with that identifier returns a
key of the set with that identifier; with pairwise distinct identifiers it is that very key. -/
theorem C21_lookup (c : Czar) (hc : Loaded P c) (e : Entry) (he : e ∈ c.keySet.entries) (id : Bytes)
    (hid : KeyId P.sha1 e.key id) :
    ∃ e' ∈ c.keySet.entries, KeyId P.sha1 e'.key id ∧ c.ParseHeader (header id) = .ok e'.key ∧
      (c.keySet.Distinct P → e' = e) := by
  have hh := ((KeyId_iff P _ _).mp hid)
  rcases c.GetKeyByHash_spec hc.inv hc.fresh (Base64WSEncode id) with ⟨e', he', h1, h2⟩ | ⟨h1, -⟩
  · refine ⟨e', he', (KeyId_iff P _ _).mpr ⟨hh.1, h1⟩, ?_, fun hd => ?_⟩
    · rw [header, ParseHeader_zero, h2]
    · exact Distinct.eq hd he' he (h1.trans hh.2.symm)
  · exact absurd hh.2 (h1 e he)

/-- example: the AES set of testdata encrypts under key 2, whose identifier is 4F 0A 9B EC -/
example : ((Czar.init realPrims .crypter Ex.aes).bind fun c => c.Encrypt realPrims Ex.rnd [1, 2, 3] none).map
    (List.take 5) = .ok [0, 0x4f, 0x0a, 0x9b, 0xec] := by decide +kernel

/-! ## C22 -/

theorem aes_usable {k : AesKey} {iv m out : Bytes} (h : k.Encrypt P iv m = .ok out) :
    ∃ kb hb, UsableAes k kb hb ∧ iv.length = 16 := by
  unfold AesKey.Encrypt at h
  obtain ⟨kb, h1, h⟩ := bind_ok h
  obtain ⟨ci, h2, h⟩ := bind_ok h
  obtain ⟨⟨c1, c2⟩, h3, h⟩ := bind_ok h
  obtain ⟨hs, h4, h⟩ := bind_ok h
  obtain ⟨hd, h5, h⟩ := bind_ok h
  obtain ⟨sg, h6, h⟩ := bind_ok h
  obtain ⟨hb, h7, -⟩ := bind_ok h6
  unfold CbcObj.new at h2
  split at h2
  · next hl => exact ⟨kb, hb, ⟨h1, hl.1, h7⟩, hl.2⟩
  · cases h2

theorem Encrypt_raw {c : Czar} (hc : Loaded P c) {e : Entry} (hp : c.keySet.primaries = [e]) (rnd : Rand) (m : Bytes)
    (enc : Option (Bytes → Bytes)) :
    c.Encrypt P rnd m enc = (e.key.Encrypt P rnd m).map (encoded enc) := by
  unfold Czar.Encrypt
  simp only [hc.primaryKey hp, bind, Except.bind]
  cases e.key.Encrypt P rnd m with
  | error x => rfl
  | ok s => cases enc <;> rfl

/-- decryption of a ciphertext is done by the key of the set that has its identifier -/
theorem Decrypt_dispatch {c : Czar} (hc : Loaded P c) (hd : c.keySet.Distinct P) {e : Entry} (he : e ∈ c.keySet.entries)
    {id rest : Bytes} (hid : KeyId P.sha1 e.key id) {input : Bytes} {dec : Option (Bytes → Py Bytes)}
    (hdec : Decodes dec input (0 :: id ++ rest)) : c.Decrypt P input dec = e.key.Decrypt P (0 :: id ++ rest) := by
  obtain ⟨cls, r, hi⟩ := hc
  obtain ⟨hl, hk⟩ := (KeyId_iff P _ _).mp hid
  exact (C23_dispatch P cls r c hi hd e he input id rest [] dec hl hdec hk).1

theorem Verify_dispatch {c : Czar} (hc : Loaded P c) (hd : c.keySet.Distinct P) {e : Entry} (he : e ∈ c.keySet.entries)
    {id rest : Bytes} (hid : KeyId P.sha1 e.key id) {input : Bytes} {dec : Option (Bytes → Py Bytes)}
    (hdec : Decodes dec input (0 :: id ++ rest)) (m : Bytes) :
    c.Verify P m input dec = e.key.Verify P (plainPayload m) rest := by
  obtain ⟨cls, r, hi⟩ := hc
  obtain ⟨hl, hk⟩ := (KeyId_iff P _ _).mp hid
  exact (C23_dispatch P cls r c hi hd e he input id rest m dec hl hdec hk).2

/-- C22 (AES): whatever `c` encrypted under its PRIMARY key `k`, every loaded set `c'` (the same or
another) that contains `k` and has pairwise distinct identifiers decrypts to the message, with any
encoding that is undone by the decoding. -/
theorem C22_aes_round_trip (c c' : Czar) (hc : Loaded P c) (hc' : Loaded P c') (hd : c'.keySet.Distinct P)
    (e e' : Entry) (k : AesKey) (hp : c.keySet.primaries = [e]) (hk : e.key = .aes k)
    (he' : e' ∈ c'.keySet.entries) (hk' : e'.key = .aes k)
    (enc : Option (Bytes → Bytes)) (dec : Option (Bytes → Py Bytes)) (hinv : Inverse enc dec)
    (rnd : Rand) (m out : Bytes) (h : c.Encrypt P rnd m enc = .ok out) : c'.Decrypt P out dec = .ok m := by
  rw [Encrypt_raw P hc hp, hk] at h
  simp only [Key.Encrypt] at h
  cases hct : k.Encrypt P (rnd.bytes 0 16) m with
  | error x => rw [hct] at h; cases h
  | ok ct =>
    rw [hct] at h
    have h := Except.ok.inj h
    subst h
    obtain ⟨kb, hb, hu, hiv⟩ := aes_usable P hct
    obtain ⟨id, rest, h1, h2⟩ := Key.Encrypt_header (k := .aes k) P hct
    have hdec := Inverse.decodes hinv ct
    rw [← hk'] at h1
    have hdec' : Decodes dec (encoded enc ct) (0 :: id ++ rest) := by rw [← h2]; exact hdec
    rw [Decrypt_dispatch P hc' hd he' h1 hdec', hk', ← h2]
    obtain ⟨c2, h3, h4, -⟩ := C15_round_trip_layout P k kb hb hu _ hiv m
    rw [hct] at h3
    cases h3
    exact h4

/-- C22 (AES): and encryption succeeds for every usable key (all generated keys are, see C15). -/
theorem C22_aes_encrypts (c : Czar) (hc : Loaded P c) (e : Entry) (k : AesKey) (kb hb : Bytes)
    (hp : c.keySet.primaries = [e]) (hk : e.key = .aes k) (hu : UsableAes k kb hb)
    (enc : Option (Bytes → Bytes)) (rnd : Rand) (m : Bytes) : ∃ out, c.Encrypt P rnd m enc = .ok out := by
  rw [Encrypt_raw P hc hp, hk]
  simp only [Key.Encrypt]
  rw [aesEncrypt_eq P hu (rnd.bytes_length 0 16) m]
  exact ⟨_, rfl⟩

/-- C22 (RSA): with a valid key pair `k` of at most 2^32 bytes, an Encrypter whose PRIMARY key is
`k` or its public part encrypts every message of at most (modulus bytes - 42) bytes, and every
loaded set with `k` and distinct identifiers decrypts it, except in the leading-zero case of C48. -/
theorem C22_rsa_round_trip (c c' : Czar) (hc : Loaded P c) (hc' : Loaded P c') (hd : c'.keySet.Distinct P)
    (e e' : Entry) (k : RsaPrivateKey) (hp : c.keySet.primaries = [e])
    (hk : e.key = .rsaPriv k ∨ e.key = .rsaPub k.pub)
    (he' : e' ∈ c'.keySet.entries) (hk' : e'.key = .rsaPriv k)
    (hv : RsaValid k.key) (hpub : k.pub.key = k.key.pub) (hlen : (BigIntToBytes k.key.n).length ≤ 2 ^ 32)
    (enc : Option (Bytes → Bytes)) (dec : Option (Bytes → Py Bytes)) (hinv : Inverse enc dec)
    (rnd : Rand) (m : Bytes) (hm : m.length + 42 ≤ (BigIntToBytes k.key.n).length) :
    ∃ out, c.Encrypt P rnd m enc = .ok out ∧ c'.Decrypt P out dec =
      if (strip0 (oaep P.sha1 (BigIntToBytes k.key.n).length (rnd.bytes 0 20) m)).length < 42
      then .error .keyczarError else .ok m := by
  obtain ⟨ct, h1, h2⟩ := C48_round_trip P k hv hpub hlen (rnd.bytes 0 20) m (rnd.bytes_length 0 20) hm
  have hct : e.key.Encrypt P rnd m = .ok ct := by
    rcases hk with hk | hk <;> rw [hk] <;> exact h1
  refine ⟨encoded enc ct, ?_, ?_⟩
  · rw [Encrypt_raw P hc hp, hct]; rfl
  · obtain ⟨id, rest, h3, h4⟩ := Key.Encrypt_header P hct
    have h3' : KeyId P.sha1 e'.key id := by
      rw [hk']
      rcases hk with hk | hk <;> rw [hk] at h3 <;> exact h3
    have hdec := Inverse.decodes hinv ct
    have hdec' : Decodes dec (encoded enc ct) (0 :: id ++ rest) := by rw [← h4]; exact hdec
    rw [Decrypt_dispatch P hc' hd he' h3' hdec', hk', ← h4]
    exact h2

/-- example: the AES set of testdata has a PRIMARY AES key and distinct identifiers, and it
decrypts what it encrypted -/
example : (Czar.init realPrims .crypter Ex.aes).map (fun c =>
      decide ((c.keySet.entries.map fun e => e.key.hashId realPrims).Nodup) &&
      c.keySet.primaries.length == 1 && c.keySet.entries.all fun e => e.key.type == .AES) = .ok true := by
  decide +kernel
example : ((Czar.init realPrims .crypter Ex.aes).bind fun c =>
    (c.Encrypt realPrims Ex.rnd [1, 2, 3] (some Base64WSEncode)).bind fun x =>
      c.Decrypt realPrims x (some Base64WSDecode)) = .ok [1, 2, 3] := by decide +kernel

/-! ## C42 -/

/-- the general form: what `Sign` returns is verified by the key with that identifier -/
theorem sign_verify {c c' : Czar} (hc : Loaded P c) (hc' : Loaded P c') (hd : c'.keySet.Distinct P)
    {e e' : Entry} (hp : c.keySet.primaries = [e]) (he' : e' ∈ c'.keySet.entries)
    (hid : ∀ id, KeyId P.sha1 e.key id → KeyId P.sha1 e'.key id)
    {enc : Option (Bytes → Bytes)} {dec : Option (Bytes → Py Bytes)} (hinv : Inverse enc dec)
    {rnd : Rand} {m sig : Bytes} (hs : e.key.Sign P rnd (plainPayload m) = .ok sig) :
    ∃ out, c.Sign P rnd m enc = .ok out ∧ c'.Verify P m out dec = e'.key.Verify P (plainPayload m) sig := by
  obtain ⟨id, h1⟩ := hc.keyId (primary_mem hp).1
  refine ⟨encoded enc (header id ++ sig), ?_, ?_⟩
  · rw [Sign_eq P hc hp h1, hs]; rfl
  · exact Verify_dispatch P hc' hd he' (hid id h1) (Inverse.decodes hinv _) m

/-- C42 (HMAC): signing with an HMAC key set always succeeds, and every loaded set with that key
and distinct identifiers accepts the signature. -/
theorem C42_hmac (c c' : Czar) (hc : Loaded P c) (hc' : Loaded P c') (hd : c'.keySet.Distinct P)
    (e e' : Entry) (k : HmacKey) (hp : c.keySet.primaries = [e]) (hk : e.key = .hmac k)
    (he' : e' ∈ c'.keySet.entries) (hk' : e'.key = .hmac k)
    (enc : Option (Bytes → Bytes)) (dec : Option (Bytes → Py Bytes)) (hinv : Inverse enc dec)
    (rnd : Rand) (m : Bytes) : ∃ out, c.Sign P rnd m enc = .ok out ∧ c'.Verify P m out dec = .ok true := by
  obtain ⟨id, hid⟩ := hc.keyId (primary_mem hp).1
  rw [hk] at hid
  obtain ⟨kb, hkb, -⟩ := hid
  have hsg : k.Sign P (plainPayload m) = .ok (hmacSha1 P kb (plainPayload m)) := by
    unfold HmacKey.Sign HmacKey.keyBytes
    rw [hkb]; rfl
  obtain ⟨out, h1, h2⟩ := sign_verify P hc hc' hd hp he' (by rw [hk, hk']; exact fun _ h => h) hinv
    (rnd := rnd) (m := m) (by rw [hk]; exact hsg)
  refine ⟨out, h1, ?_⟩
  rw [h2, hk']
  simp only [Key.Verify]
  rw [C13_sign_verify P k _ _ hsg]
  simp

/-- C42 (RSA): for a usable key pair. -/
theorem C42_rsa (c c' : Czar) (hc : Loaded P c) (hc' : Loaded P c') (hd : c'.keySet.Distinct P)
    (e e' : Entry) (k : RsaPrivateKey) (hu : UsableRsa k) (hp : c.keySet.primaries = [e]) (hk : e.key = .rsaPriv k)
    (he' : e' ∈ c'.keySet.entries) (hk' : e'.key = .rsaPriv k ∨ e'.key = .rsaPub k.pub)
    (enc : Option (Bytes → Bytes)) (dec : Option (Bytes → Py Bytes)) (hinv : Inverse enc dec)
    (rnd : Rand) (m : Bytes) : ∃ out, c.Sign P rnd m enc = .ok out ∧ c'.Verify P m out dec = .ok true := by
  obtain ⟨sig, h1, -, h3⟩ := C50_sign_verify P k hu (plainPayload m)
  obtain ⟨out, h4, h5⟩ := sign_verify P hc hc' hd hp he'
    (by rw [hk]; rcases hk' with h | h <;> rw [h] <;> exact fun _ h => h) hinv
    (rnd := rnd) (m := m) (sig := sig) (by rw [hk]; exact h1)
  refine ⟨out, h4, ?_⟩
  rw [h5]
  rcases hk' with h | h <;> rw [h] <;> exact h3

/-- C42 (DSA): for a valid key pair with q ≥ 3; the signature is accepted exactly when both numbers
in it are non-zero (see C51). -/
theorem C42_dsa (c c' : Czar) (hc : Loaded P c) (hc' : Loaded P c') (hd : c'.keySet.Distinct P)
    (e e' : Entry) (k : DsaPrivateKey) (hv : DsaValid k.key) (hpub : k.pub.key = k.key.pub) (hq : 3 ≤ k.key.q)
    (hsize : (BigIntToBytes k.key.q).length < 2 ^ 32)
    (hp : c.keySet.primaries = [e]) (hk : e.key = .dsaPriv k)
    (he' : e' ∈ c'.keySet.entries) (hk' : e'.key = .dsaPriv k ∨ e'.key = .dsaPub k.pub)
    (enc : Option (Bytes → Bytes)) (dec : Option (Bytes → Py Bytes)) (hinv : Inverse enc dec)
    (rnd : Rand) (m : Bytes) :
    ∃ out r s, c.Sign P rnd m enc = .ok out ∧
      k.key.sign (P.sha1 (plainPayload m)) (rnd.dsaK k.key.q) = .ok (r, s) ∧
      c'.Verify P m out dec = .ok (decide (r ≠ 0 ∧ s ≠ 0)) := by
  have hr := rnd.dsaK_range k.key.q hq
  obtain ⟨r, s, sig, h0, h1, h3⟩ := C51_sign_verify P k hv hpub hsize (plainPayload m) (rnd.dsaK k.key.q)
    hr.1 (by omega)
  obtain ⟨out, h4, h5⟩ := sign_verify P hc hc' hd hp he'
    (by rw [hk]; rcases hk' with h | h <;> rw [h] <;> exact fun _ h => h) hinv
    (rnd := rnd) (m := m) (sig := sig) (by rw [hk]; exact h1)
  refine ⟨out, r, s, h4, ?_, ?_⟩
  · rw [← h0]; simp [Hash]
  · rw [h5]
    rcases hk' with h | h <;> rw [h] <;> exact h3

/-- example: signing and verifying with the HMAC set of testdata; version 1 signatures made
elsewhere verify too -/
example : ((Czar.init realPrims .signer (Ex.hmac .ACTIVE .PRIMARY)).bind fun c =>
    (c.Sign realPrims Ex.rnd [1, 2, 3] (some Base64WSEncode)).bind fun x =>
      c.Verify realPrims [1, 2, 3] x (some Base64WSDecode)) = .ok true := by decide +kernel

end Verif.Props
