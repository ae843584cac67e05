import Verif.Props.Crypters
import Verif.Props.Encodings
/-
Property theorems C43-C47: uniqueness of HMAC signatures, attached signatures, unversioned
signatures, malformed signatures.
-/
namespace Verif.Props
open Verif Spec
variable (P : Prims)

/-- a header is rejected with a KeyczarError (or IndexError when it is empty), or it names a key -/
theorem ParseHeader_cases {c : Czar} (hc : Loaded P c) (b : Bytes) :
    (b = [] ∧ c.ParseHeader b = .error .indexError) ∨
    (∃ x : PyErr, x.isKeyczarError = true ∧ c.ParseHeader b = .error x) ∨
    ∃ e ∈ c.keySet.entries, ∃ id, KeyId P.sha1 e.key id ∧ b = header id ∧ c.ParseHeader b = .ok e.key := by
  match b with
  | [] => exact .inl ⟨rfl, rfl⟩
  | v :: id =>
    right
    by_cases hv : v = 0
    · subst hv
      rcases c.GetKeyByHash_spec hc.inv hc.fresh (Base64WSEncode id) with ⟨e, he, h1, h2⟩ | ⟨-, h2⟩
      · right
        obtain ⟨id', h3, h4⟩ := hashId_form P h1
        rw [Base64WSEncode_injective h3] at h1 ⊢
        rw [Base64WSEncode_injective h3] at h2
        exact ⟨e, he, id', (KeyId_iff P _ _).mpr ⟨h4, h1⟩, rfl, by rw [ParseHeader_zero, h2]⟩
      · exact .inl ⟨_, rfl, by rw [ParseHeader_zero, h2]⟩
    · exact .inl ⟨.badVersion v.toNat, rfl, ParseHeader_bad hv⟩

/-- `Verify` either raises a KeyczarError or is the verification by the key named in the header -/
theorem Verify_cases {c : Czar} (hc : Loaded P c) {input data : Bytes} {dec : Option (Bytes → Py Bytes)}
    (hd : Decodes dec input data) (m : Bytes) :
    (∃ x : PyErr, x.isKeyczarError = true ∧ c.Verify P m input dec = .error x) ∨
    ∃ e ∈ c.keySet.entries, ∃ id rest, KeyId P.sha1 e.key id ∧ data = header id ++ rest ∧
      c.ParseHeader (header id) = .ok e.key ∧
      c.Verify P m input dec = e.key.Verify P (plainPayload m) rest := by
  by_cases hl : data.length < 5
  · exact .inl ⟨_, rfl, (C23_short P c input data m dec hd hl).2⟩
  · have h5 : data = data.take 5 ++ data.drop 5 := (List.take_append_drop 5 data).symm
    unfold Czar.Verify Czar.InternalVerify
    rw [hd.bind, if_neg (by simpa [HEADER_SIZE, KEY_HASH_SIZE] using hl), sliceTo5]
    rcases ParseHeader_cases P hc (data.take 5) with ⟨h, -⟩ | ⟨x, hx, h⟩ | ⟨e, he, id, hid, h, hp⟩
    · have := congrArg List.length h
      rw [List.length_take] at this
      simp only [List.length_nil] at this
      omega
    · exact .inl ⟨x, hx, by rw [h]; rfl⟩
    · refine .inr ⟨e, he, id, data.drop 5, hid, by rw [← h]; exact h5, by rw [← h]; exact hp, ?_⟩
      rw [hp]
      have e5 : sliceFrom data ((HEADER_SIZE : Nat) : Int) = data.drop 5 := sliceFrom_nat data 5
      simp only [bind, Except.bind, PackByteArray, List.append_nil, e5]
      rfl

theorem Loaded.hmac_bytes {P : Prims} {c : Czar} (hc : Loaded P c) {e : Entry} (he : e ∈ c.keySet.entries)
    {k : HmacKey} (hk : e.key = .hmac k) : ∃ kb, k.keyBytes = .ok kb := by
  obtain ⟨id, hid⟩ := hc.keyId he
  rw [hk] at hid
  obtain ⟨kb, hkb, -⟩ := hid
  exact ⟨kb, hkb⟩

/-- keys of an HMAC set -/
theorem Loaded.hmac_key {P : Prims} {c : Czar} (hc : Loaded P c) (ht : c.keySet.type = .HMAC_SHA1) {e : Entry}
    (he : e ∈ c.keySet.entries) : ∃ k kb, e.key = .hmac k ∧ k.keyBytes = .ok kb := by
  have h := (hc.loadable.key_ok e he).2.1
  rw [ht] at h
  match hk : e.key with
  | .hmac k =>
    obtain ⟨kb, h1⟩ := hc.hmac_bytes he hk
    exact ⟨k, kb, rfl, h1⟩
  | .aes _ | .rsaPub _ | .rsaPriv _ | .dsaPub _ | .dsaPriv _ => rw [hk] at h; cases h

/-! ## C43 -/

/-- C43: for an HMAC key set, an accepted signature decodes to exactly the header of a key of the
set and that key's HMAC of message and version byte. -/
theorem C43_accepted_form (c : Czar) (hc : Loaded P c) (ht : c.keySet.type = .HMAC_SHA1) (m input : Bytes)
    (dec : Option (Bytes → Py Bytes)) (h : c.Verify P m input dec = .ok true) :
    ∃ e ∈ c.keySet.entries, ∃ k kb id, e.key = .hmac k ∧ Base64WSDecode k.keyString = .ok kb ∧
      KeyId P.sha1 e.key id ∧ Decodes dec input (header id ++ Spec.hmac P.sha1 kb (plainPayload m)) := by
  cases hd : decodeWith dec input with
  | error x =>
    unfold Czar.Verify at h
    rw [hd] at h
    cases h
  | ok data =>
    have hd' : Decodes dec input data := by
      cases dec with
      | none => exact Except.ok.inj hd
      | some f => exact hd
    rcases Verify_cases P hc hd' m with ⟨x, -, hx⟩ | ⟨e, he, id, rest, hid, rfl, -, hv⟩
    · rw [hx] at h; cases h
    · obtain ⟨k, kb, hk, hkb⟩ := hc.hmac_key ht he
      refine ⟨e, he, k, kb, id, hk, hkb, hid, ?_⟩
      rw [hv, hk] at h
      simp only [Key.Verify] at h
      rw [C13_accepts_exactly_mac P k kb hkb] at h
      have := of_decide_eq_true (Except.ok.inj h)
      rw [← this]
      exact hd'

/-- C43: two accepted signatures of a message that name the same key are equal once decoded. -/
theorem C43_unique (c : Czar) (hc : Loaded P c) (ht : c.keySet.type = .HMAC_SHA1) (m input input' s s' : Bytes)
    (dec : Option (Bytes → Py Bytes)) (hs : Decodes dec input s) (hs' : Decodes dec input' s')
    (h : c.Verify P m input dec = .ok true) (h' : c.Verify P m input' dec = .ok true)
    (hsame : s.take 5 = s'.take 5) : s = s' := by
  rcases Verify_cases P hc hs m with ⟨x, -, hx⟩ | ⟨e, he, id, rest, hid, rfl, hp, hv⟩
  · rw [hx] at h; cases h
  · rcases Verify_cases P hc hs' m with ⟨x, -, hx⟩ | ⟨e', he', id', rest', hid', rfl, hp', hv'⟩
    · rw [hx] at h'; cases h'
    · have l1 := ((KeyId_iff P _ _).mp hid).1
      have l2 := ((KeyId_iff P _ _).mp hid').1
      have t1 : (header id ++ rest).take 5 = header id := List.take_left' (by simp [header, l1])
      have t2 : (header id' ++ rest').take 5 = header id' := List.take_left' (by simp [header, l2])
      rw [t1, t2] at hsame
      rw [← hsame] at hp' ⊢
      have hk := Except.ok.inj (hp.symm.trans hp')
      obtain ⟨k, kb, h1, h2⟩ := hc.hmac_key ht he
      rw [hv, h1] at h
      rw [hv', ← hk, h1] at h'
      simp only [Key.Verify] at h h'
      rw [C13_accepts_exactly_mac P k kb h2] at h h'
      rw [of_decide_eq_true (Except.ok.inj h), of_decide_eq_true (Except.ok.inj h')]

/-- C43: a signature accepted for two messages is a collision of the HMAC under a key of the set. -/
theorem C43_two_messages (c : Czar) (hc : Loaded P c) (ht : c.keySet.type = .HMAC_SHA1) (m m' input : Bytes)
    (dec : Option (Bytes → Py Bytes)) (hdec : ∃ s, Decodes dec input s)
    (h : c.Verify P m input dec = .ok true) (h' : c.Verify P m' input dec = .ok true) :
    ∃ e ∈ c.keySet.entries, ∃ k kb, e.key = .hmac k ∧ Base64WSDecode k.keyString = .ok kb ∧
      Spec.hmac P.sha1 kb (m ++ [0]) = Spec.hmac P.sha1 kb (m' ++ [0]) := by
  obtain ⟨s, hs⟩ := hdec
  rcases Verify_cases P hc hs m with ⟨x, -, hx⟩ | ⟨e, he, id, rest, hid, rfl, hp, hv⟩
  · rw [hx] at h; cases h
  · rcases Verify_cases P hc hs m' with ⟨x, -, hx⟩ | ⟨e', he', id', rest', hid', heq, hp', hv'⟩
    · rw [hx] at h'; cases h'
    · have l1 := ((KeyId_iff P _ _).mp hid).1
      have l2 := ((KeyId_iff P _ _).mp hid').1
      obtain ⟨a1, a2⟩ := List.append_inj heq (by simp [header, l1, l2])
      rw [← a1] at hp'
      have hk := Except.ok.inj (hp.symm.trans hp')
      obtain ⟨k, kb, h1, h2⟩ := hc.hmac_key ht he
      rw [hv, h1] at h
      rw [hv', ← hk, h1, ← a2] at h'
      simp only [Key.Verify] at h h'
      rw [C13_accepts_exactly_mac P k kb h2] at h h'
      refine ⟨e, he, k, kb, h1, h2, ?_⟩
      have e1 := of_decide_eq_true (Except.ok.inj h)
      have e2 := of_decide_eq_true (Except.ok.inj h')
      exact e1.symm.trans e2

/-- but the encoded text is not unique: whitespace is ignored, so a signature followed by a newline
is accepted too -/
theorem C43_text_not_unique (c : Czar) (m sig : Bytes) :
    c.Verify P m (sig ++ [10]) (some Base64WSDecode) = c.Verify P m sig (some Base64WSDecode) := by
  have : Base64WSDecode (sig ++ [10]) = Base64WSDecode sig := by
    have e : (sig ++ [10]).filter (fun c => !isSkipped c) = sig.filter (fun c => !isSkipped c) := by
      rw [List.filter_append]
      exact List.append_nil _
    unfold Base64WSDecode
    rw [e]
  unfold Czar.Verify
  simp only [decodeWith, this]

/-! ## C44 -/

/-- `AttachedVerify` of a blob made by the documented format -/
theorem AttachedVerify_blob {c : Czar} (hc : Loaded P c) (hd : c.keySet.Distinct P) {e : Entry}
    (he : e ∈ c.keySet.entries) {id : Bytes} (hid : KeyId P.sha1 e.key id) {m nonce sig input : Bytes}
    {dec : Option (Bytes → Py Bytes)} (hdec : Decodes dec input (attachedBlob id m sig))
    (hm : m.length < 2 ^ 31) (hn : nonce.length < 2 ^ 31) :
    c.AttachedVerify P input nonce dec =
      (e.key.Verify P (attachedPayload m nonce) sig).map fun b => if b then some m else none := by
  obtain ⟨hl, hk⟩ := (KeyId_iff P _ _).mp hid
  unfold Czar.AttachedVerify Czar.InternalVerify
  rw [hdec.bind]
  have e1 : attachedBlob id m sig = header id ++ (IntToBytes m.length ++ m) ++ sig := by
    simp [attachedBlob, lengthPrefixed, IntToBytes_i2osp4]
  have e2 : (HEADER_SIZE : Int) = ((header id).length : Nat) := by simp [header, hl, HEADER_SIZE, KEY_HASH_SIZE]
  have e3 : sliceTo (attachedBlob id m sig) (HEADER_SIZE : Nat) = header id := by
    rw [sliceTo5, attachedBlob, List.append_assoc]
    exact List.take_left' (by simp [header, hl])
  have e4 : sliceFrom (attachedBlob id m sig) (((header id).length + 4 + m.length : Nat) : Int) = sig := by
    rw [sliceFrom_nat, e1]
    exact List.drop_left' (by simp [header, IntToBytes]; omega)
  have e5 : attachedPayload m nonce = m ++ packOne nonce ++ VERSION_BYTE := by
    simp [attachedPayload, lengthPrefixed, packOne, IntToBytes_i2osp4, VERSION_BYTE]
  have e6 : UnpackByteArray (attachedBlob id m sig) HEADER_SIZE =
      .ok (m, (((header id).length + 4 + m.length : Nat) : Int)) := by
    rw [e1, e2]; exact UnpackByteArray_pack _ _ _ hm
  have e7 : c.ParseHeader (header id) = .ok e.key := by
    rw [header, ParseHeader_zero, Czar.GetKeyByHash_distinct hc.inv hc.fresh hd he hk]
  simp only [e6, bind, Except.bind, e3, e4, e7, PackByteArray_some hn, ← e5]
  cases e.key.Verify P (attachedPayload m nonce) sig with
  | error x => rfl
  | ok b => cases b <;> rfl

/-- the general form of the round trip -/
theorem attached_round_trip {c c' : Czar} (hc : Loaded P c) (hc' : Loaded P c') (hd : c'.keySet.Distinct P)
    {e e' : Entry} (hp : c.keySet.primaries = [e]) (he' : e' ∈ c'.keySet.entries)
    (hid : ∀ id, KeyId P.sha1 e.key id → KeyId P.sha1 e'.key id)
    {enc : Option (Bytes → Bytes)} {dec : Option (Bytes → Py Bytes)} (hinv : Inverse enc dec)
    {rnd : Rand} {m nonce sig : Bytes} (hm : m.length < 2 ^ 31) (hn : nonce.length < 2 ^ 31)
    (hs : e.key.Sign P rnd (attachedPayload m nonce) = .ok sig) :
    ∃ out, c.AttachedSign P rnd m nonce enc = .ok out ∧ c'.AttachedVerify P out nonce dec =
      (e'.key.Verify P (attachedPayload m nonce) sig).map fun b => if b then some m else none := by
  obtain ⟨id, h1⟩ := hc.keyId (primary_mem hp).1
  refine ⟨encoded enc (attachedBlob id m sig), ?_, ?_⟩
  · rw [AttachedSign_eq P hc hp h1 _ _ _ _ hm hn, hs]; rfl
  · exact AttachedVerify_blob P hc' hd he' (hid id h1) (Inverse.decodes hinv _) hm hn

/-- C44 (HMAC): the attached signature of any message under any nonce, both shorter than 2^31 bytes
(the limit of the length field), gives the message back. -/
theorem C44_hmac (c c' : Czar) (hc : Loaded P c) (hc' : Loaded P c') (hd : c'.keySet.Distinct P)
    (e e' : Entry) (k : HmacKey) (hp : c.keySet.primaries = [e]) (hk : e.key = .hmac k)
    (he' : e' ∈ c'.keySet.entries) (hk' : e'.key = .hmac k)
    (enc : Option (Bytes → Bytes)) (dec : Option (Bytes → Py Bytes)) (hinv : Inverse enc dec)
    (rnd : Rand) (m nonce : Bytes) (hm : m.length < 2 ^ 31) (hn : nonce.length < 2 ^ 31) :
    ∃ out, c.AttachedSign P rnd m nonce enc = .ok out ∧ c'.AttachedVerify P out nonce dec = .ok (some m) := by
  obtain ⟨kb, hkb⟩ := hc.hmac_bytes (primary_mem hp).1 hk
  have hsg : k.Sign P (attachedPayload m nonce) = .ok (hmacSha1 P kb (attachedPayload m nonce)) := by
    unfold HmacKey.Sign
    rw [hkb]; rfl
  obtain ⟨out, h1, h2⟩ := attached_round_trip P hc hc' hd hp he' (by rw [hk, hk']; exact fun _ h => h) hinv
    (rnd := rnd) hm hn (by rw [hk]; exact hsg)
  refine ⟨out, h1, ?_⟩
  rw [h2, hk']
  simp only [Key.Verify]
  rw [C13_sign_verify P k _ _ hsg]
  simp [Except.map]

/-- C44 (RSA). -/
theorem C44_rsa (c c' : Czar) (hc : Loaded P c) (hc' : Loaded P c') (hd : c'.keySet.Distinct P)
    (e e' : Entry) (k : RsaPrivateKey) (hu : UsableRsa k) (hp : c.keySet.primaries = [e]) (hk : e.key = .rsaPriv k)
    (he' : e' ∈ c'.keySet.entries) (hk' : e'.key = .rsaPriv k ∨ e'.key = .rsaPub k.pub)
    (enc : Option (Bytes → Bytes)) (dec : Option (Bytes → Py Bytes)) (hinv : Inverse enc dec)
    (rnd : Rand) (m nonce : Bytes) (hm : m.length < 2 ^ 31) (hn : nonce.length < 2 ^ 31) :
    ∃ out, c.AttachedSign P rnd m nonce enc = .ok out ∧ c'.AttachedVerify P out nonce dec = .ok (some m) := by
  obtain ⟨sig, h1, -, h3⟩ := C50_sign_verify P k hu (attachedPayload m nonce)
  obtain ⟨out, h4, h5⟩ := attached_round_trip P hc hc' hd hp he'
    (by rw [hk]; rcases hk' with h | h <;> rw [h] <;> exact fun _ h => h) hinv
    (rnd := rnd) (sig := sig) hm hn (by rw [hk]; exact h1)
  refine ⟨out, h4, ?_⟩
  rw [h5]
  have : e'.key.Verify P (attachedPayload m nonce) sig = .ok true := by
    rcases hk' with h | h <;> rw [h] <;> exact h3
  rw [this]; rfl

/-- C44 (DSA): the message comes back exactly when both numbers of the signature are non-zero. -/
theorem C44_dsa (c c' : Czar) (hc : Loaded P c) (hc' : Loaded P c') (hd : c'.keySet.Distinct P)
    (e e' : Entry) (k : DsaPrivateKey) (hv : DsaValid k.key) (hpub : k.pub.key = k.key.pub) (hq : 3 ≤ k.key.q)
    (hsize : (BigIntToBytes k.key.q).length < 2 ^ 32)
    (hp : c.keySet.primaries = [e]) (hk : e.key = .dsaPriv k)
    (he' : e' ∈ c'.keySet.entries) (hk' : e'.key = .dsaPriv k ∨ e'.key = .dsaPub k.pub)
    (enc : Option (Bytes → Bytes)) (dec : Option (Bytes → Py Bytes)) (hinv : Inverse enc dec)
    (rnd : Rand) (m nonce : Bytes) (hm : m.length < 2 ^ 31) (hn : nonce.length < 2 ^ 31) :
    ∃ out r s, c.AttachedSign P rnd m nonce enc = .ok out ∧
      k.key.sign (P.sha1 (attachedPayload m nonce)) (rnd.dsaK k.key.q) = .ok (r, s) ∧
      c'.AttachedVerify P out nonce dec = .ok (if r ≠ 0 ∧ s ≠ 0 then some m else none) := by
  have hr := rnd.dsaK_range k.key.q hq
  obtain ⟨r, s, sig, h0, h1, h3⟩ := C51_sign_verify P k hv hpub hsize (attachedPayload m nonce) (rnd.dsaK k.key.q)
    hr.1 (by omega)
  obtain ⟨out, h4, h5⟩ := attached_round_trip P hc hc' hd hp he'
    (by rw [hk]; rcases hk' with h | h <;> rw [h] <;> exact fun _ h => h) hinv
    (rnd := rnd) (sig := sig) hm hn (by rw [hk]; exact h1)
  refine ⟨out, r, s, h4, ?_, ?_⟩
  · rw [← h0]; simp [Hash]
  · rw [h5]
    have : e'.key.Verify P (attachedPayload m nonce) sig = .ok (decide (r ≠ 0 ∧ s ≠ 0)) := by
      rcases hk' with h | h <;> rw [h] <;> exact h3
    rw [this]
    simp [Except.map]

/-- C44: whatever `AttachedVerify` returns, for whatever input, the key of the set named in the
first five bytes verified a suffix of the input as signature of data, nonce and version byte, and
the data is a contiguous part of the input. -/
theorem C44_sound (c : Czar) (hc : Loaded P c) (input blob nonce data : Bytes) (dec : Option (Bytes → Py Bytes))
    (hdec : Decodes dec input blob) (h : c.AttachedVerify P input nonce dec = .ok (some data)) :
    ∃ e ∈ c.keySet.entries, ∃ id sig, KeyId P.sha1 e.key id ∧ header id <+: blob ∧ sig <:+ blob ∧ data <:+: blob ∧
      e.key.Verify P (attachedPayload data nonce) sig = .ok true := by
  unfold Czar.AttachedVerify at h
  rw [hdec.bind] at h
  obtain ⟨⟨d, off⟩, h1, h⟩ := bind_ok h
  simp only at h
  obtain ⟨b, h2, h⟩ := bind_ok h
  cases b with
  | false => cases h
  | true =>
    have := Option.some.inj (Except.ok.inj h)
    subst this
    unfold Czar.InternalVerify at h2
    obtain ⟨k, h3, h2⟩ := bind_ok h2
    obtain ⟨n, h4, h2⟩ := bind_ok h2
    rw [sliceTo5] at h3
    rcases ParseHeader_cases P hc (blob.take 5) with ⟨-, hx⟩ | ⟨x, -, hx⟩ | ⟨e, he, id, hid, hb, hp⟩
    · rw [hx] at h3; cases h3
    · rw [hx] at h3; cases h3
    · rw [hp] at h3
      cases h3
      refine ⟨e, he, id, sliceFrom blob off, hid, ?_, ?_, ?_, ?_⟩
      · rw [← hb]; exact List.take_prefix 5 blob
      · exact List.drop_suffix _ _
      · unfold UnpackByteArray at h1
        obtain ⟨al, -, h1⟩ := bind_ok h1
        have := (Prod.mk.inj (Except.ok.inj h1)).1
        rw [← this]
        unfold slice
        exact ((List.drop_suffix _ _).isInfix).trans (List.take_prefix _ _).isInfix
      · have : attachedPayload d nonce = d ++ n ++ VERSION_BYTE := by
          unfold PackByteArray at h4
          obtain ⟨hdr, h5, h4⟩ := bind_ok h4
          have h4 := Except.ok.inj h4
          unfold structPackI at h5
          split at h5
          · cases h5
            simp [attachedPayload, lengthPrefixed, ← h4, IntToBytes_i2osp4, VERSION_BYTE]
          · cases h5
        rw [this]
        exact h2

/-- example: attached signature with the HMAC set of testdata -/
example : ((Czar.init realPrims .signer (Ex.hmac .ACTIVE .PRIMARY)).bind fun c =>
    (c.AttachedSign realPrims Ex.rnd [1, 2, 3] [] (some Base64WSEncode)).bind fun x =>
      c.AttachedVerify realPrims x [] (some Base64WSDecode)) = .ok (some [1, 2, 3]) := by decide +kernel

/-! ## C45 -/

/-- C45: the signed bytes determine message and nonce among nonces of one length. -/
theorem C45_binding (m m' n n' : Bytes) (hl : n.length = n'.length)
    (h : attachedPayload m n = attachedPayload m' n') : m = m' ∧ n = n' := by
  unfold attachedPayload lengthPrefixed at h
  rw [hl] at h
  have h1 := List.append_inj_left' h rfl
  have h2 := congrArg List.length h1
  simp at h2
  obtain ⟨a, b⟩ := List.append_inj h1 (by omega)
  exact ⟨a, List.append_cancel_left b⟩

/-- C45: without that restriction the claim is false. -/
theorem C45_not_binding : ¬ ∀ m m' n n' : Bytes, attachedPayload m n = attachedPayload m' n' → m = m' ∧ n = n' := by
  intro h
  have := h [] [0, 0, 0, 4] [0, 0, 0, 0] [] (by decide)
  revert this
  decide

/-- C45: and an attached signature of `m` under a nonce is a plain signature of a longer message:
with the header it is accepted by `Verify`, in every key set, for every key. -/
theorem C45_attached_is_plain (c : Czar) (hc : Loaded P c) (hd : c.keySet.Distinct P) (e : Entry)
    (he : e ∈ c.keySet.entries) (id : Bytes) (hid : KeyId P.sha1 e.key id) (m nonce sig : Bytes)
    (hm : m.length < 2 ^ 31) (hn : nonce.length < 2 ^ 31)
    (h : c.AttachedVerify P (attachedBlob id m sig) nonce none = .ok (some m)) :
    c.Verify P (m ++ lengthPrefixed nonce) (header id ++ sig) none = .ok true := by
  rw [AttachedVerify_blob P hc hd he hid (dec := none) rfl hm hn] at h
  have e1 : c.Verify P (m ++ lengthPrefixed nonce) (header id ++ sig) none =
      e.key.Verify P (plainPayload (m ++ lengthPrefixed nonce)) sig :=
    Verify_dispatch P hc hd he hid (dec := none) rfl _
  rw [e1]
  have e2 : plainPayload (m ++ lengthPrefixed nonce) = attachedPayload m nonce := rfl
  rw [e2]
  cases hv : e.key.Verify P (attachedPayload m nonce) sig with
  | error x => rw [hv] at h; cases h
  | ok b =>
    rw [hv] at h
    cases b with
    | true => rfl
    | false => cases h

/-! ## C46 -/

theorem verifyAny_sound {msg sig : Bytes} {l : List Key} (h : verifyAny P msg sig l = .ok true) :
    ∃ k ∈ l, k.Verify P msg sig = .ok true := by
  induction l with
  | nil => cases h
  | cons k t ih =>
    unfold verifyAny at h
    obtain ⟨b, h1, h2⟩ := bind_ok h
    cases b with
    | true => exact ⟨k, by simp, h1⟩
    | false =>
      obtain ⟨k', hk, hv⟩ := ih h2
      exact ⟨k', List.mem_cons_of_mem _ hk, hv⟩

theorem verifyAny_iff {msg sig : Bytes} {l : List Key} (hr : ∀ k ∈ l, ∃ b, k.Verify P msg sig = .ok b) :
    verifyAny P msg sig l = .ok true ∧ (∃ k ∈ l, k.Verify P msg sig = .ok true) ∨
    verifyAny P msg sig l = .ok false ∧ ∀ k ∈ l, k.Verify P msg sig = .ok false := by
  induction l with
  | nil => exact .inr ⟨rfl, by simp⟩
  | cons k t ih =>
    obtain ⟨b, hb⟩ := hr k (by simp)
    unfold verifyAny
    rw [hb]
    simp only [bind, Except.bind]
    cases b with
    | true => exact .inl ⟨rfl, k, by simp, hb⟩
    | false =>
      rcases ih (fun k' hk' => hr k' (List.mem_cons_of_mem _ hk')) with ⟨h1, k', hk', h2⟩ | ⟨h1, h2⟩
      · exact .inl ⟨h1, k', List.mem_cons_of_mem _ hk', h2⟩
      · refine .inr ⟨h1, fun x hx => ?_⟩
        rcases List.mem_cons.mp hx with rfl | hx
        · exact hb
        · exact h2 x hx

theorem vkeys_mem {c : Czar} (hc : Loaded P c) (k : Key) :
    k ∈ c.vkeys.map Prod.snd ↔ ∃ e ∈ c.keySet.entries, e.key = k := by
  rw [← hc.fresh.mem_entries hc.inv]
  constructor
  · intro h
    obtain ⟨p, hp, rfl⟩ := List.mem_map.mp h
    exact ⟨p.1, assocGet_of_mem hc.inv.v_nodup hp⟩
  · rintro ⟨o, ho⟩
    exact List.mem_map.mpr ⟨_, assocGet_mem ho, rfl⟩

/-- C46: acceptance means that some key of the set, of any status, verifies the raw signature. -/
theorem C46_sound (c : Czar) (hc : Loaded P c) (m input sig : Bytes) (dec : Option (Bytes → Py Bytes))
    (hdec : Decodes dec input sig) (h : c.UnversionedVerify P m input dec = .ok true) :
    ∃ e ∈ c.keySet.entries, e.key.Verify P m sig = .ok true := by
  unfold Czar.UnversionedVerify at h
  rw [hdec.bind] at h
  obtain ⟨k, hk, hv⟩ := verifyAny_sound P h
  obtain ⟨e, he, rfl⟩ := (vkeys_mem P hc k).mp hk
  exact ⟨e, he, hv⟩

/-- C46: and when no key raises on the signature, the result is whether some key verifies it. -/
theorem C46_iff (c : Czar) (hc : Loaded P c) (m input sig : Bytes) (dec : Option (Bytes → Py Bytes))
    (hdec : Decodes dec input sig) (hr : ∀ e ∈ c.keySet.entries, ∃ b, e.key.Verify P m sig = .ok b) :
    c.UnversionedVerify P m input dec = .ok true ∧ (∃ e ∈ c.keySet.entries, e.key.Verify P m sig = .ok true) ∨
    c.UnversionedVerify P m input dec = .ok false ∧ ∀ e ∈ c.keySet.entries, e.key.Verify P m sig = .ok false := by
  unfold Czar.UnversionedVerify
  rw [hdec.bind]
  have hr' : ∀ k ∈ c.vkeys.map Prod.snd, ∃ b, k.Verify P m sig = .ok b := by
    intro k hk
    obtain ⟨e, he, rfl⟩ := (vkeys_mem P hc k).mp hk
    exact hr e he
  rcases verifyAny_iff P hr' with ⟨h1, k, hk, h2⟩ | ⟨h1, h2⟩
  · obtain ⟨e, he, rfl⟩ := (vkeys_mem P hc k).mp hk
    exact .inl ⟨h1, e, he, h2⟩
  · exact .inr ⟨h1, fun e he => h2 e.key ((vkeys_mem P hc _).mpr ⟨e, he, rfl⟩)⟩

theorem rsa_verify_total (k : RsaPublicKey) (msg sig : Bytes) : ∃ b, k.Verify P msg sig = .ok b := by
  unfold RsaPublicKey.Verify RsaPubObj.verify RsaPubObj.encryptInt
  split
  · exact ⟨_, rfl⟩
  · next hn =>
    by_cases h1 : k.key.n = 0
    · simp [h1, bind, Except.bind] at hn
    · by_cases h2 : P.rsaRangeCheck ∧ k.key.n ≤ BytesToLong sig
      · simp [h1, h2, bind, Except.bind] at hn
      · simp only [if_neg h1, if_neg h2, bind, Except.bind]
        exact ⟨_, rfl⟩

/-- keys of HMAC and RSA sets never raise in `Verify` -/
theorem verify_total {c : Czar} (hc : Loaded P c)
    (ht : c.keySet.type = .HMAC_SHA1 ∨ c.keySet.type = .RSA_PRIV ∨ c.keySet.type = .RSA_PUB)
    {e : Entry} (he : e ∈ c.keySet.entries) (msg sig : Bytes) : ∃ b, e.key.Verify P msg sig = .ok b := by
  have h := (hc.loadable.key_ok e he).2.1
  match hk : e.key with
  | .hmac k =>
    obtain ⟨kb, hkb⟩ := hc.hmac_bytes he hk
    exact ⟨_, C13_accepts_exactly_mac P k kb hkb msg sig⟩
  | .rsaPub k => exact rsa_verify_total P k msg sig
  | .rsaPriv k => exact rsa_verify_total P k.pub msg sig
  | .aes _ | .dsaPub _ | .dsaPriv _ =>
    rw [hk] at h
    rcases ht with ht | ht | ht <;> rw [ht] at h <;> cases h

/-- C46: for HMAC and RSA sets the equivalence needs no further condition. -/
theorem C46_hmac_rsa (c : Czar) (hc : Loaded P c)
    (ht : c.keySet.type = .HMAC_SHA1 ∨ c.keySet.type = .RSA_PRIV ∨ c.keySet.type = .RSA_PUB)
    (m input sig : Bytes) (dec : Option (Bytes → Py Bytes)) (hdec : Decodes dec input sig) :
    c.UnversionedVerify P m input dec = .ok true ↔ ∃ e ∈ c.keySet.entries, e.key.Verify P m sig = .ok true := by
  rcases C46_iff P c hc m input sig dec hdec (fun e he => verify_total P hc ht he m sig) with ⟨h1, h2⟩ | ⟨h1, h2⟩
  · exact iff_of_true h1 h2
  · refine iff_of_false (by rw [h1]; simp) ?_
    rintro ⟨e, he, h3⟩
    rw [h2 e he] at h3
    cases h3

theorem UnversionedSign_eq {c : Czar} (hc : Loaded P c) {e : Entry} (hp : c.keySet.primaries = [e]) (rnd : Rand)
    (m : Bytes) (enc : Option (Bytes → Bytes)) :
    c.UnversionedSign P rnd m enc = (e.key.Sign P rnd m).map (encoded enc) := by
  unfold Czar.UnversionedSign
  simp only [hc.primaryKey hp, bind, Except.bind]
  cases e.key.Sign P rnd m with
  | error x => rfl
  | ok s => cases enc <;> rfl

/-- C46: unversioned HMAC signatures always verify, in any set that has the key (identifiers do not
matter). -/
theorem C46_hmac_round_trip (c c' : Czar) (hc : Loaded P c) (hc' : Loaded P c') (ht : c'.keySet.type = .HMAC_SHA1)
    (e e' : Entry) (k : HmacKey) (hp : c.keySet.primaries = [e]) (hk : e.key = .hmac k)
    (he' : e' ∈ c'.keySet.entries) (hk' : e'.key = .hmac k)
    (enc : Option (Bytes → Bytes)) (dec : Option (Bytes → Py Bytes)) (hinv : Inverse enc dec) (rnd : Rand) (m : Bytes) :
    ∃ out, c.UnversionedSign P rnd m enc = .ok out ∧ c'.UnversionedVerify P m out dec = .ok true := by
  obtain ⟨kb, hkb⟩ := hc.hmac_bytes (primary_mem hp).1 hk
  have hsg : k.Sign P m = .ok (hmacSha1 P kb m) := by
    unfold HmacKey.Sign
    rw [hkb]; rfl
  refine ⟨encoded enc (hmacSha1 P kb m), ?_, ?_⟩
  · rw [UnversionedSign_eq P hc hp, hk]
    simp only [Key.Sign, hsg, Except.map]
  · rw [C46_hmac_rsa P c' hc' (.inl ht) m _ _ dec (Inverse.decodes hinv _)]
    refine ⟨e', he', ?_⟩
    rw [hk']
    simp only [Key.Verify]
    rw [C13_sign_verify P k _ _ hsg]
    simp

/-- C46: unversioned RSA signatures always verify. -/
theorem C46_rsa_round_trip (c c' : Czar) (hc : Loaded P c) (hc' : Loaded P c')
    (ht : c'.keySet.type = .RSA_PRIV ∨ c'.keySet.type = .RSA_PUB)
    (e e' : Entry) (k : RsaPrivateKey) (hu : UsableRsa k) (hp : c.keySet.primaries = [e]) (hk : e.key = .rsaPriv k)
    (he' : e' ∈ c'.keySet.entries) (hk' : e'.key = .rsaPriv k ∨ e'.key = .rsaPub k.pub)
    (enc : Option (Bytes → Bytes)) (dec : Option (Bytes → Py Bytes)) (hinv : Inverse enc dec) (rnd : Rand) (m : Bytes) :
    ∃ out, c.UnversionedSign P rnd m enc = .ok out ∧ c'.UnversionedVerify P m out dec = .ok true := by
  obtain ⟨sig, h1, -, h3⟩ := C50_sign_verify P k hu m
  refine ⟨encoded enc sig, ?_, ?_⟩
  · rw [UnversionedSign_eq P hc hp, hk]
    simp only [Key.Sign, h1, Except.map]
  · rw [C46_hmac_rsa P c' hc' (.inr ht) m _ _ dec (Inverse.decodes hinv _)]
    refine ⟨e', he', ?_⟩
    rcases hk' with h | h <;> rw [h] <;> exact h3

/-- keys of DSA sets do not raise on a DER signature unless p is 0 -/
theorem dsa_verify_total (k : DsaPublicKey) (hp : k.key.p ≠ 0) (msg sig : Bytes) (r s : Int)
    (hs : ParseDsaSig sig = .ok (r, s)) : ∃ b, k.Verify P msg sig = .ok b := by
  have : ∃ b, k.key.verify (Hash P [msg]) r s = .ok b := by
    unfold DsaPubObj.verify
    split
    · exact ⟨_, rfl⟩
    · exact ⟨_, rfl⟩
  obtain ⟨b, hb⟩ := this
  unfold DsaPublicKey.Verify
  simp only [hs, bind, Except.bind, hb]
  exact ⟨b, rfl⟩

/-- C46: unversioned DSA signatures verify when both numbers are non-zero and no key of the
verifying set has p = 0. -/
theorem C46_dsa_round_trip (c c' : Czar) (hc : Loaded P c) (hc' : Loaded P c')
    (hall : ∀ e ∈ c'.keySet.entries, ∃ k : DsaPublicKey, k.key.p ≠ 0 ∧
      (e.key = .dsaPub k ∨ ∃ pk : DsaPrivateKey, e.key = .dsaPriv pk ∧ pk.pub = k))
    (e e' : Entry) (k : DsaPrivateKey) (hv : DsaValid k.key) (hpub : k.pub.key = k.key.pub) (hq : 3 ≤ k.key.q)
    (hsize : (BigIntToBytes k.key.q).length < 2 ^ 32)
    (hp : c.keySet.primaries = [e]) (hk : e.key = .dsaPriv k)
    (he' : e' ∈ c'.keySet.entries) (hk' : e'.key = .dsaPriv k ∨ e'.key = .dsaPub k.pub)
    (enc : Option (Bytes → Bytes)) (dec : Option (Bytes → Py Bytes)) (hinv : Inverse enc dec) (rnd : Rand) (m : Bytes) :
    ∃ out r s, c.UnversionedSign P rnd m enc = .ok out ∧
      k.key.sign (P.sha1 m) (rnd.dsaK k.key.q) = .ok (r, s) ∧
      (r ≠ 0 ∧ s ≠ 0 → c'.UnversionedVerify P m out dec = .ok true) := by
  have hr := rnd.dsaK_range k.key.q hq
  obtain ⟨r, s, sig, h0, h1, h3⟩ := C51_sign_verify P k hv hpub hsize m (rnd.dsaK k.key.q) hr.1 (by omega)
  refine ⟨encoded enc sig, r, s, ?_, by rw [← h0]; simp [Hash], fun hrs => ?_⟩
  · rw [UnversionedSign_eq P hc hp, hk]
    simp only [Key.Sign, h1, Except.map]
  · have hsig : ParseDsaSig sig = .ok ((r : Int), (s : Int)) := by
      unfold DsaPrivateKey.Sign at h1
      rw [if_neg (by omega), h0] at h1
      have := C12_round_trip _ _ sig [] h1
      rwa [List.append_nil] at this
    rcases C46_iff P c' hc' m _ sig dec (Inverse.decodes hinv sig) (by
      intro x hx
      obtain ⟨kk, hkk, h | ⟨pk, h, rfl⟩⟩ := hall x hx <;> rw [h] <;>
        exact dsa_verify_total P _ hkk m sig _ _ hsig) with ⟨h4, -⟩ | ⟨-, h5⟩
    · exact h4
    · have := h5 e' he'
      have h6 : e'.key.Verify P m sig = .ok true := by
        rcases hk' with h | h <;> rw [h] <;> simp only [Key.Verify] <;> rw [h3] <;> simp [hrs]
      rw [h6] at this
      cases this

/-! ## C47 -/

/-- C47: the KeyczarErrors are the exceptions defined in errors.py (22-66) and no others, and of these exactly two are
KeyNotFoundErrors. -/
theorem C47_classes (e : PyErr) :
    (e.isKeyczarError = true ↔ e = .keyczarError ∨ (∃ v, e = .badVersion v) ∨ e = .base64Decoding ∨ e = .invalidSignature ∨
      e = .keyNotFound ∨ (∃ n, e = .shortCiphertext n) ∨ (∃ n, e = .shortSignature n) ∨ e = .noPrimaryKey) ∧
    (e.isKeyNotFoundError = true ↔ e = .keyNotFound ∨ e = .noPrimaryKey) := by
  cases e <;> simp [PyErr.isKeyczarError, PyErr.isKeyNotFoundError]

/-- a decoder that only raises KeyczarErrors, as `None` and `Base64WSDecode` are -/
def Polite (dec : Option (Bytes → Py Bytes)) : Prop :=
  ∀ x e, decodeWith dec x = .error e → e.isKeyczarError = true

theorem polite_base64 : Polite (some Base64WSDecode) := by
  intro x e h
  rcases C03_only_failure x with ⟨b, hb⟩ | hb
  · rw [decodeWith, hb] at h; cases h
  · rw [decodeWith, hb] at h; cases h; rfl

theorem polite_none : Polite none := by
  intro x e h; cases h

/-- C47: for HMAC and RSA key sets `Verify` returns a boolean or raises a KeyczarError, on every
input. -/
theorem C47_hmac_rsa (c : Czar) (hc : Loaded P c)
    (ht : c.keySet.type = .HMAC_SHA1 ∨ c.keySet.type = .RSA_PRIV ∨ c.keySet.type = .RSA_PUB)
    (dec : Option (Bytes → Py Bytes)) (hdec : Polite dec) (m input : Bytes) :
    (∃ b, c.Verify P m input dec = .ok b) ∨
    ∃ x : PyErr, x.isKeyczarError = true ∧ c.Verify P m input dec = .error x := by
  cases hd : decodeWith dec input with
  | error x =>
    right
    refine ⟨x, hdec _ _ hd, ?_⟩
    unfold Czar.Verify
    rw [hd]; rfl
  | ok data =>
    have hd' : Decodes dec input data := by
      cases dec with
      | none => exact Except.ok.inj hd
      | some f => exact hd
    rcases Verify_cases P hc hd' m with h | ⟨e, he, id, rest, -, -, -, hv⟩
    · exact .inr h
    · rw [hv]
      exact .inl (verify_total P hc ht he _ _)

/-- C47: the claim is false for DSA sets: whatever the key, a header followed by bytes that pyasn1
cannot decode raises pyasn1's error, which is no KeyczarError. -/
theorem C47_dsa_raises (c : Czar) (hc : Loaded P c) (hd : c.keySet.Distinct P) (e : Entry)
    (he : e ∈ c.keySet.entries) (hk : (∃ k, e.key = .dsaPub k) ∨ ∃ k, e.key = .dsaPriv k)
    (id : Bytes) (hid : KeyId P.sha1 e.key id) (m rest : Bytes) (hr : derDecode0 rest = .error .pyasn1Error) :
    c.Verify P m (header id ++ rest) none = .error .pyasn1Error ∧ PyErr.isKeyczarError .pyasn1Error = false := by
  refine ⟨?_, rfl⟩
  have e1 : c.Verify P m (header id ++ rest) none = e.key.Verify P (plainPayload m) rest :=
    Verify_dispatch P hc hd he hid (dec := none) rfl _
  rw [e1]
  rcases hk with ⟨k, hk⟩ | ⟨k, hk⟩ <;> rw [hk] <;>
    simp [Key.Verify, DsaPublicKey.Verify, ParseDsaSig, hr, bind, Except.bind, PyErr.isKeyczarError]

/-- C47: what the handler in `Verify` is for does work: the encoding of a sequence of any other number of fields than two,
followed by anything, is reported as invalid. -/
theorem C47_dsa_wrong_number (c : Czar) (hc : Loaded P c) (hd : c.keySet.Distinct P) (e : Entry)
    (he : e ∈ c.keySet.entries) (hk : (∃ k, e.key = .dsaPub k) ∨ ∃ k, e.key = .dsaPriv k)
    (id : Bytes) (hid : KeyId P.sha1 e.key id) (m : Bytes) (fields : List Asn1) (info trailing : Bytes)
    (hi : derEncode (.seq fields) = .ok info) (hn : fields.length ≠ 2) :
    c.Verify P m (header id ++ (info ++ trailing)) none = .ok false := by
  have e1 : c.Verify P m (header id ++ (info ++ trailing)) none = e.key.Verify P (plainPayload m) (info ++ trailing) :=
    Verify_dispatch P hc hd he hid (dec := none) rfl _
  rw [e1]
  have hp : ParseDsaSig (info ++ trailing) = .error .keyczarError := by
    unfold ParseDsaSig
    rw [derDecode0_encode hi trailing]
    simp [bind, Except.bind, hn]
  rcases hk with ⟨k, hk⟩ | ⟨k, hk⟩ <;> rw [hk] <;>
    simp [Key.Verify, DsaPublicKey.Verify, hp, bind, Except.bind, PyErr.isKeyczarError]

/-- C47: the encoding of two integers, of any sign and size, is reported as valid or invalid; a single integer raises
TypeError. -/
theorem C47_dsa_integers (c : Czar) (hc : Loaded P c) (hd : c.keySet.Distinct P) (e : Entry)
    (he : e ∈ c.keySet.entries) (k : DsaPublicKey) (hk : e.key = .dsaPub k ∨ ∃ k', e.key = .dsaPriv k' ∧ k'.pub = k)
    (hp : k.key.p ≠ 0) (id : Bytes) (hid : KeyId P.sha1 e.key id) (m : Bytes) (r s : Int) (info trailing : Bytes) :
    (derEncode (.seq [.integer r, .integer s]) = .ok info →
      ∃ b, c.Verify P m (header id ++ (info ++ trailing)) none = .ok b ∧
        (b = true → 0 < r ∧ r < k.key.q ∧ 0 < s ∧ s < k.key.q)) ∧
    (derEncode (.integer r) = .ok info → c.Verify P m (header id ++ (info ++ trailing)) none = .error .typeError) := by
  have e1 : c.Verify P m (header id ++ (info ++ trailing)) none = e.key.Verify P (plainPayload m) (info ++ trailing) :=
    Verify_dispatch P hc hd he hid (dec := none) rfl _
  have e2 : e.key.Verify P (plainPayload m) (info ++ trailing) = k.Verify P (plainPayload m) (info ++ trailing) := by
    rcases hk with hk | ⟨k', hk, rfl⟩ <;> rw [hk] <;> rfl
  rw [e1, e2]
  refine ⟨fun hi => ?_, fun hi => ?_⟩
  · have hps : ParseDsaSig (info ++ trailing) = .ok (r, s) := by
      unfold ParseDsaSig
      rw [derDecode0_encode hi trailing]
      rfl
    unfold DsaPublicKey.Verify
    rw [hps]
    simp only [bind, Except.bind]
    have hv : ∃ b, k.key.verify (Hash P [plainPayload m]) r s = .ok b ∧
        (b = true → 0 < r ∧ r < k.key.q ∧ 0 < s ∧ s < k.key.q) := by
      unfold DsaPubObj.verify
      by_cases hb : ¬ (0 < r ∧ r < k.key.q) ∨ ¬ (0 < s ∧ s < k.key.q)
      · rw [if_pos hb]
        exact ⟨false, rfl, by simp⟩
      · rw [if_neg hb, if_neg hp]
        refine ⟨_, rfl, fun _ => ?_⟩
        simp only [not_or, not_not] at hb
        exact ⟨hb.1.1, hb.1.2, hb.2.1, hb.2.2⟩
    obtain ⟨b, hb, hr⟩ := hv
    rw [hb]
    exact ⟨b, rfl, hr⟩
  · have hps : ParseDsaSig (info ++ trailing) = .error .typeError := by
      unfold ParseDsaSig
      rw [derDecode0_encode hi trailing]
      rfl
    unfold DsaPublicKey.Verify
    rw [hps]
    rfl

example : derEncode (.seq [.integer 1]) = .ok [0x30, 3, 2, 1, 1] := by decide +kernel

/-- there are such bytes: the empty string, or an INTEGER that claims more content than there is -/
example : derDecode0 [] = .error .pyasn1Error := by rfl
example : derDecode0 [2, 5, 1] = .error .pyasn1Error := by rfl

/-- C47: `AttachedVerify` raises struct.error on every blob of fewer than 9 bytes, whatever the set. -/
theorem C47_attached_short (c : Czar) (blob nonce : Bytes) (h : blob.length < 9) :
    c.AttachedVerify P blob nonce none = .error .structError ∧ PyErr.isKeyczarError .structError = false := by
  refine ⟨?_, rfl⟩
  have e1 : UnpackByteArray blob (HEADER_SIZE : Nat) = .error .structError := by
    unfold UnpackByteArray
    have : slice blob ((HEADER_SIZE : Nat) : Int) (((HEADER_SIZE : Nat) : Int) + 4) = (blob.take 9).drop 5 :=
      slice_nat blob 5 9
    rw [this]
    have hl : ((blob.take 9).drop 5).length < 4 := by simp; omega
    generalize (blob.take 9).drop 5 = b at hl
    match b, hl with
    | [], _ => rfl
    | [_], _ => rfl
    | [_, _], _ => rfl
    | [_, _, _], _ => rfl
    | _ :: _ :: _ :: _ :: _, hl => simp at hl; omega
  unfold Czar.AttachedVerify
  have : Decodes none blob blob := rfl
  rw [this.bind, e1]
  rfl

end Verif.Props
