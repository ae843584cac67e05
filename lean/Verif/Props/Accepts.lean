import Verif.Spec.Accepts
import Verif.Props.Attached
import Verif.Props.DsaText
/-
C82: exactly which byte strings a key set accepts as signatures: plain, unversioned and attached.  keyczar.py:378-487,
keys.py:554-567, 906-925, 1004-1021.
-/
namespace Verif.Props
open Verif Spec
variable (P : Prims)

theorem rsa_accepts (k : RsaPublicKey) (h : SoundKey.rsa k) (msg sig : Bytes) :
    k.Verify P msg sig = .ok true ↔ SignatureFor.rsa P.sha1 P.rsaRangeCheck k msg sig := by
  obtain ⟨hn, hs⟩ := h
  unfold RsaPublicKey.Verify RsaPubObj.verify RsaPubObj.encryptInt SignatureFor.rsa
  simp only [C50_emsa P msg _ _ hs, exists_eq_left, powMod_eq, C08_value, if_neg hn]
  have e0 : bigEndian (0 :: MakeEmsaMessage P msg k.size) = bigEndian (MakeEmsaMessage P msg k.size) := by
    rw [← C08_value, ← C08_value, BytesToLong_eq, BytesToLong_eq, beNat_cons]
    simp
  rw [e0]
  by_cases hr : P.rsaRangeCheck = true ∧ k.key.n ≤ bigEndian sig
  · simp only [if_pos hr, bind, Except.bind]
    refine iff_of_false (by simp) ?_
    rintro ⟨h1, -⟩
    have := h1 hr.1
    omega
  · simp only [if_neg hr, bind, Except.bind, pure, Except.pure]
    have h1 : P.rsaRangeCheck = true → bigEndian sig < k.key.n := fun h => by
      by_contra h'
      exact hr ⟨h, by omega⟩
    simp only [Except.ok.injEq, beq_iff_eq]
    exact ⟨fun h => ⟨h1, h⟩, fun h => h.2⟩

/-- C82: a key accepts exactly the strings that are signatures of the message under it. -/
theorem C82_key (k : Key) (h : SoundKey k) (msg sig : Bytes) :
    k.Verify P msg sig = .ok true ↔ SignatureFor P.sha1 P.rsaRangeCheck k msg sig := by
  cases k with
  | hmac k =>
    show k.Verify P msg sig = .ok true ↔ ∃ kb, Base64WSDecode k.keyString = .ok kb ∧ sig = hmac P.sha1 kb msg
    cases hb : Base64WSDecode k.keyString with
    | error x =>
      have : k.Verify P msg sig = .error x := by
        unfold HmacKey.Verify HmacKey.Sign HmacKey.keyBytes
        rw [hb]; rfl
      rw [this]
      simp
    | ok kb =>
      rw [C13_accepts_exactly_mac P k kb hb]
      simp
  | aes k => exact h.elim
  | rsaPub k => exact rsa_accepts P k h msg sig
  | rsaPriv k => exact rsa_accepts P k.pub h msg sig
  | dsaPub k => exact C80_key_accepts P k h.1 h.2 msg sig
  | dsaPriv k => exact C80_key_accepts P k.pub h.1 h.2 msg sig

/-- C82: a loaded key set accepts as a signature of `m` exactly the header of one of its keys followed by a signature of
`m` and one zero byte under that key. -/
theorem C82_accepts (c : Czar) (hc : Loaded P c) (hd : c.keySet.Distinct P) (hs : ∀ e ∈ c.keySet.entries, SoundKey e.key)
    (m input data : Bytes) (dec : Option (Bytes → Py Bytes)) (hdec : Decodes dec input data) :
    c.Verify P m input dec = .ok true ↔
      ∃ e ∈ c.keySet.entries, ∃ id sig, KeyId P.sha1 e.key id ∧ data = header id ++ sig ∧
        SignatureFor P.sha1 P.rsaRangeCheck e.key (m ++ [0]) sig := by
  constructor
  · intro h
    rcases Verify_cases P hc hdec m with ⟨x, -, hx⟩ | ⟨e, he, id, rest, hid, hdata, -, hv⟩
    · rw [hx] at h; cases h
    · rw [hv] at h
      exact ⟨e, he, id, rest, hid, hdata, (C82_key P _ (hs e he) _ _).mp h⟩
  · rintro ⟨e, he, id, sig, hid, rfl, hf⟩
    rw [Verify_dispatch P hc hd he hid hdec]
    exact (C82_key P _ (hs e he) _ _).mpr hf

/-- C82: an attached signature is accepted, and `data` returned, exactly when the blob names a key of the set and is cut
into `data` and a signature of `data`, the nonce with its length and one zero byte under that key. -/
theorem C82_attached (c : Czar) (hc : Loaded P c) (hd : c.keySet.Distinct P) (hs : ∀ e ∈ c.keySet.entries, SoundKey e.key)
    (input blob nonce data : Bytes) (dec : Option (Bytes → Py Bytes)) (hdec : Decodes dec input blob)
    (hn : nonce.length < 2 ^ 31) :
    c.AttachedVerify P input nonce dec = .ok (some data) ↔
      ∃ e ∈ c.keySet.entries, ∃ id sig, KeyId P.sha1 e.key id ∧ AttachedForm id data sig blob ∧
        SignatureFor P.sha1 P.rsaRangeCheck e.key (data ++ lengthPrefixed nonce ++ [0]) sig := by
  rw [C81_accepts P c hc hd input blob nonce data dec hdec hn]
  constructor
  · rintro ⟨e, he, id, sig, hid, hf, hv⟩
    exact ⟨e, he, id, sig, hid, hf, (C82_key P _ (hs e he) _ _).mp hv⟩
  · rintro ⟨e, he, id, sig, hid, hf, hv⟩
    exact ⟨e, he, id, sig, hid, hf, (C82_key P _ (hs e he) _ _).mpr hv⟩

/-- C82: an unversioned signature is accepted exactly when it is a signature of the message itself under some key. -/
theorem C82_unversioned (c : Czar) (hc : Loaded P c) (hs : ∀ e ∈ c.keySet.entries, SoundKey e.key)
    (m input sig : Bytes) (dec : Option (Bytes → Py Bytes)) (hdec : Decodes dec input sig) :
    c.UnversionedVerify P m input dec = .ok true ↔
      ∃ e ∈ c.keySet.entries, SignatureFor P.sha1 P.rsaRangeCheck e.key m sig := by
  constructor
  · intro h
    obtain ⟨e, he, hv⟩ := C46_sound P c hc m input sig dec hdec h
    exact ⟨e, he, (C82_key P _ (hs e he) _ _).mp hv⟩
  · rintro ⟨e, he, hf⟩
    have hv := (C82_key P _ (hs e he) _ _).mpr hf
    have total : ∀ x ∈ c.keySet.entries, ∃ b, x.key.Verify P m sig = .ok b := by
      intro x hx
      have hxt := (hc.loadable.key_ok x hx).2.1
      have het := (hc.loadable.key_ok e he).2.1
      have dsa : ∀ k : DsaPublicKey, SignatureFor.dsa P.sha1 k m sig → ∃ b, x.key.Verify P m sig = .ok b := by
        rintro k ⟨b, t, r, s, hb, hp, -⟩
        have hsx := hs x hx
        have hps := (C80_parses sig r s).mpr ⟨b, t, hb, hp⟩
        match hk : x.key with
        | .hmac k =>
          obtain ⟨kb, hkb⟩ := hc.hmac_bytes hx hk
          exact ⟨_, C13_accepts_exactly_mac P k kb hkb m sig⟩
        | .rsaPub k => exact rsa_verify_total P k m sig
        | .rsaPriv k => exact rsa_verify_total P k.pub m sig
        | .aes _ => rw [hk] at hsx; exact hsx.elim
        | .dsaPub k => rw [hk] at hsx; exact dsa_verify_total P k hsx.2 m sig r s hps
        | .dsaPriv k => rw [hk] at hsx; exact dsa_verify_total P k.pub hsx.2 m sig r s hps
      match hk : e.key with
      | .hmac k => rw [hk] at het; exact verify_total P hc (.inl het.symm) hx m sig
      | .rsaPub k => rw [hk] at het; exact verify_total P hc (.inr (.inr het.symm)) hx m sig
      | .rsaPriv k => rw [hk] at het; exact verify_total P hc (.inr (.inl het.symm)) hx m sig
      | .aes _ => rw [hk] at hf; exact hf.elim
      | .dsaPub k => rw [hk] at hf; exact dsa k hf
      | .dsaPriv k => rw [hk] at hf; exact dsa k.pub hf
    rcases C46_iff P c hc m input sig dec hdec total with ⟨h1, -⟩ | ⟨-, h2⟩
    · exact h1
    · rw [h2 e he] at hv; cases hv

/-- C82: so a plain signature of a message is also, without its header, an unversioned signature of the message with a
zero byte appended, under the same keys. -/
theorem C82_plain_is_unversioned (c : Czar) (hc : Loaded P c) (hd : c.keySet.Distinct P)
    (hs : ∀ e ∈ c.keySet.entries, SoundKey e.key) (m data : Bytes) (h : c.Verify P m data none = .ok true) :
    c.UnversionedVerify P (m ++ [0]) (data.drop 5) none = .ok true := by
  obtain ⟨e, he, id, sig, hid, rfl, hf⟩ := (C82_accepts P c hc hd hs m data data none rfl).mp h
  have hl : (header id).length = 5 := by simp [header, ((KeyId_iff P _ _).mp hid).1]
  rw [List.drop_left' hl]
  exact (C82_unversioned P c hc hs _ sig sig none rfl).mpr ⟨e, he, hf⟩

/-- C82: an RSA implementation that does not check the range accepts more: the modulus can be added to a signature. -/
theorem C82_rsa_plus_modulus (hr : P.rsaRangeCheck = false) (k : RsaPublicKey) (h : SoundKey.rsa k) (msg sig sig' : Bytes)
    (hv : k.Verify P msg sig = .ok true) (he : bigEndian sig' = bigEndian sig + k.key.n) :
    k.Verify P msg sig' = .ok true := by
  rw [rsa_accepts P k h] at hv ⊢
  obtain ⟨-, em, h1, h2⟩ := hv
  refine ⟨fun h => absurd (hr.symm.trans h) (by decide), em, h1, ?_⟩
  rw [← h2, he, Nat.pow_mod, Nat.add_mod_right, ← Nat.pow_mod]

end Verif.Props
