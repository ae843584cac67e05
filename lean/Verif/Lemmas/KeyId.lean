import Verif.Lemmas.Init
import Verif.Spec.KeyId
/-
Key identifiers and headers.
-/
namespace Verif
open Spec (KeyId minimal lengthPrefixed i2osp4)
variable (P : Prims)

theorem IntToBytes_i2osp4 (i : Nat) : IntToBytes i = i2osp4 i := by
  simp [IntToBytes, i2osp4]

theorem Base64WSEncode_injective {s t : Bytes} (h : Base64WSEncode s = Base64WSEncode t) : s = t := by
  have h1 := Base64WSDecode_encode s
  rw [h, Base64WSDecode_encode] at h1
  exact (Except.ok.inj h1).symm

theorem TrimBytes_minimal (b : Bytes) : TrimBytes b = minimal b := by
  unfold TrimBytes minimal
  simp only
  split
  · next h => rw [h]
  · next h =>
    split
    · next h' => exact absurd h' h
    · rfl

theorem rsa_hashId (k : RsaPublicKey) (id : Bytes) : KeyId.rsa P.sha1 k id ↔ id.length = 4 ∧ k.hashId P = Base64WSEncode id := by
  unfold KeyId.rsa RsaPublicKey.hashId PrefixHash
  simp only [List.map_cons, List.map_nil, List.flatten_cons, List.flatten_nil, List.append_nil, TrimBytes_minimal,
    IntToBytes_i2osp4]
  constructor
  · rintro rfl
    exact ⟨by simp [P.sha1_length], rfl⟩
  · rintro ⟨-, h⟩
    exact (Base64WSEncode_injective h).symm

theorem dsa_hashId (k : DsaPublicKey) (id : Bytes) : KeyId.dsa P.sha1 k id ↔ id.length = 4 ∧ k.hashId P = Base64WSEncode id := by
  unfold KeyId.dsa DsaPublicKey.hashId PrefixHash
  simp only [List.map_cons, List.map_nil, List.flatten_cons, List.flatten_nil, List.append_nil, TrimBytes_minimal,
    IntToBytes_i2osp4, lengthPrefixed, List.append_assoc]
  constructor
  · rintro rfl
    exact ⟨by simp [P.sha1_length], rfl⟩
  · rintro ⟨-, h⟩
    exact (Base64WSEncode_injective h).symm

/-- the specified identifier is what `hash_id` encodes -/
theorem KeyId_iff (k : Key) (id : Bytes) : KeyId P.sha1 k id ↔ id.length = 4 ∧ k.hashId P = .ok (Base64WSEncode id) := by
  cases k with
  | hmac k =>
    simp only [KeyId, Key.hashId, HmacKey.hashId, HmacKey.keyBytes, Hash]
    cases hk : Base64WSDecode k.keyString with
    | error e => simp [bind, Except.bind]
    | ok kb =>
      simp only [bind, Except.bind, pure, Except.pure, List.flatten_cons, List.flatten_nil, List.append_nil]
      constructor
      · rintro ⟨kb', h1, rfl⟩
        cases h1
        exact ⟨by simp [P.sha1_length], rfl⟩
      · rintro ⟨-, h⟩
        exact ⟨kb, rfl, (Base64WSEncode_injective (Except.ok.inj h)).symm⟩
  | aes k =>
    simp only [KeyId, Key.hashId, AesKey.hashId, AesKey.keyBytes, HmacKey.keyBytes, Hash]
    cases hk : Base64WSDecode k.keyString with
    | error e => simp [bind, Except.bind]
    | ok kb =>
      cases hh : Base64WSDecode k.hmacKey.keyString with
      | error e => simp [bind, Except.bind]
      | ok hb =>
        simp only [bind, Except.bind, pure, Except.pure, List.flatten_cons, List.flatten_nil, List.append_nil,
          IntToBytes_i2osp4]
        constructor
        · rintro ⟨kb', hb', h1, h2, rfl⟩
          cases h1
          cases h2
          exact ⟨by simp [P.sha1_length], by rw [lengthPrefixed, List.append_assoc]; rfl⟩
        · rintro ⟨-, h⟩
          refine ⟨kb, hb, rfl, rfl, ?_⟩
          rw [lengthPrefixed, List.append_assoc]
          exact (Base64WSEncode_injective (Except.ok.inj h)).symm
  | rsaPub k => rw [KeyId, rsa_hashId, Key.hashId]; simp
  | rsaPriv k => rw [KeyId, rsa_hashId, Key.hashId]; simp
  | dsaPub k => rw [KeyId, dsa_hashId, Key.hashId]; simp
  | dsaPriv k => rw [KeyId, dsa_hashId, Key.hashId]; simp

/-- identifiers are always the Base64 text of 4 bytes -/
theorem hashId_form {k : Key} {h : Bytes} (hk : k.hashId P = .ok h) : ∃ id, h = Base64WSEncode id ∧ id.length = 4 := by
  have aux : ∀ b : Bytes, ((P.sha1 b).take KEY_HASH_SIZE).length = 4 := by simp [P.sha1_length, KEY_HASH_SIZE]
  cases k with
  | hmac k =>
    obtain ⟨kb, -, h2⟩ := bind_ok hk
    exact ⟨_, (Except.ok.inj h2).symm, aux _⟩
  | aes k =>
    obtain ⟨kb, -, h2⟩ := bind_ok hk
    obtain ⟨hb, -, h2⟩ := bind_ok h2
    exact ⟨_, (Except.ok.inj h2).symm, aux _⟩
  | rsaPub k => exact ⟨_, (Except.ok.inj hk).symm, aux _⟩
  | rsaPriv k => exact ⟨_, (Except.ok.inj hk).symm, aux _⟩
  | dsaPub k => exact ⟨_, (Except.ok.inj hk).symm, aux _⟩
  | dsaPriv k => exact ⟨_, (Except.ok.inj hk).symm, aux _⟩

theorem KeyId_of_hashId {k : Key} {h : Bytes} (hk : k.hashId P = .ok h) :
    ∃ id, h = Base64WSEncode id ∧ KeyId P.sha1 k id := by
  obtain ⟨id, rfl, hl⟩ := hashId_form P hk
  exact ⟨id, rfl, (KeyId_iff P k id).mpr ⟨hl, hk⟩⟩

theorem KeyId_unique {k : Key} {id id' : Bytes} (h : KeyId P.sha1 k id) (h' : KeyId P.sha1 k id') : id = id' := by
  have h1 := ((KeyId_iff P k id).mp h).2
  have h2 := ((KeyId_iff P k id').mp h').2
  rw [h1] at h2
  exact Base64WSEncode_injective (Except.ok.inj h2)

theorem Header_eq {k : Key} {id : Bytes} (h : KeyId P.sha1 k id) : k.Header P = .ok (0 :: id) := by
  have := ((KeyId_iff P k id).mp h).2
  unfold Key.Header headerOf
  simp only [this, bind, Except.bind, Base64WSDecode_encode, pure, Except.pure]
  rfl

theorem headerOf_ok {h out : Bytes} {id : Bytes} (hh : h = Base64WSEncode id) (ho : headerOf h = .ok out) :
    out = 0 :: id := by
  subst hh
  unfold headerOf at ho
  simp only [bind, Except.bind, Base64WSDecode_encode, pure, Except.pure] at ho
  exact (Except.ok.inj ho).symm

/-- every ciphertext starts with the identifier of its key -/
theorem Key.Encrypt_header {k : Key} {rnd : Rand} {m out : Bytes} (h : k.Encrypt P rnd m = .ok out) :
    ∃ id rest, KeyId P.sha1 k id ∧ out = 0 :: id ++ rest := by
  have rsa : ∀ (p : RsaPublicKey) (seed : Bytes), p.Encrypt P seed m = .ok out →
      ∃ id rest, KeyId.rsa P.sha1 p id ∧ out = 0 :: id ++ rest := by
    intro p seed h
    unfold RsaPublicKey.Encrypt at h
    obtain ⟨d, -, h⟩ := bind_ok h
    obtain ⟨ci, -, h⟩ := bind_ok h
    obtain ⟨hd, h3, h⟩ := bind_ok h
    have h := Except.ok.inj h
    obtain ⟨id, h4, h5⟩ := KeyId_of_hashId P (k := .rsaPub p) rfl
    have := headerOf_ok h4 h3
    subst this
    exact ⟨id, ci, h5, h.symm⟩
  cases k with
  | aes k =>
    simp only [Key.Encrypt] at h
    unfold AesKey.Encrypt at h
    obtain ⟨kb, -, h⟩ := bind_ok h
    obtain ⟨ci, -, h⟩ := bind_ok h
    obtain ⟨⟨c1, c2⟩, -, h⟩ := bind_ok h
    obtain ⟨hs, h4, h⟩ := bind_ok h
    obtain ⟨hd, h5, h⟩ := bind_ok h
    obtain ⟨sg, -, h⟩ := bind_ok h
    have h := Except.ok.inj h
    obtain ⟨id, h6, h7⟩ := KeyId_of_hashId P (k := .aes k) h4
    have := headerOf_ok h6 h5
    subst this
    exact ⟨id, _, h7, by rw [← h]; simp only [List.append_assoc]; rfl⟩
  | rsaPub p => exact rsa p _ h
  | rsaPriv p => exact rsa p.pub _ h
  | hmac k => cases h
  | dsaPriv k => cases h
  | dsaPub k => cases h

end Verif
