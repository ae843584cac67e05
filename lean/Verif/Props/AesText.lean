import Mathlib.Data.Fintype.EquivFin
import Mathlib.Data.Fintype.Vector
import Verif.Spec.AesText
import Verif.Props.Sessions
/-
C83: exactly which byte strings AES key sets decrypt, and to what.  keys.py:379-469, keyczar.py:511-535.
-/
namespace Verif.Props
open Verif Spec
variable (P : Prims)

/-- on blocks the block function is also the inverse on the other side: an injective function on a finite set is onto -/
theorem aesEnc_aesDec {k : Bytes} (hk : validAesKeyLen k.length) {b : Bytes} (hb : b.length = 16) :
    P.aesEnc k (P.aesDec k b) = b := by
  let f : List.Vector UInt8 16 → List.Vector UInt8 16 := fun v => ⟨P.aesEnc k v.1, P.aesEnc_length k v.1 hk v.2⟩
  have hi : Function.Injective f := by
    intro v w h
    have h1 : P.aesEnc k v.1 = P.aesEnc k w.1 := congrArg Subtype.val h
    apply Subtype.ext
    rw [← P.aesDec_aesEnc k v.1 hk v.2, h1, P.aesDec_aesEnc k w.1 hk w.2]
  have : Finite UInt8 := Finite.of_injective UInt8.toFin fun a b h => UInt8.toNat_inj.mp (congrArg Fin.val h)
  obtain ⟨v, hv⟩ := Finite.surjective_of_injective hi ⟨b, hb⟩
  have h2 : P.aesEnc k v.1 = b := congrArg Subtype.val hv
  rw [← h2, P.aesDec_aesEnc k v.1 hk v.2]

theorem cbcEnc_cbcDec {key iv : Bytes} {cs : List Bytes} (hk : validAesKeyLen key.length) (hiv : iv.length = 16)
    (h : Full cs) : cbcEncBlocks P key iv (cbcDecBlocks P key iv cs) = cs := by
  induction cs generalizing iv with
  | nil => rfl
  | cons c cs ih =>
    have hc := h c (by simp)
    have hd := P.aesDec_length key c hk hc
    rw [cbcDecBlocks, cbcEncBlocks, xorBytes_cancel _ _ (by omega), aesEnc_aesDec P hk hc]
    simp only [ih hc fun x hx => h x (by simp [hx])]

theorem cbc_blocks {key iv : Bytes} {ps cs : List Bytes} (h : Cbc (P.aesEnc key) iv ps cs) :
    cs = cbcEncBlocks P key iv ps := by
  induction h with
  | nil => rfl
  | cons iv p c ps cs hc _ ih => subst hc; rw [ih]; rfl

theorem aesUnPad_iff (padded m : Bytes) : aesUnPad padded = .ok m ↔ Unpadded padded m := by
  unfold aesUnPad Unpadded
  rcases List.eq_nil_or_concat padded with rfl | ⟨init, n, rfl⟩
  · simp
  · rw [List.concat_eq_append, List.getLast?_concat]
    have key : sliceTo (init ++ [n]) (-(n.toNat : Int)) = if n = 0 then [] else (init ++ [n]).take ((init ++ [n]).length - n.toNat) := by
      by_cases h0 : n = 0
      · subst h0; rfl
      · rw [if_neg h0]
        exact sliceTo_neg _ _ (by
          have : n.toNat ≠ 0 := fun h => h0 (UInt8.toNat_inj.mp h)
          omega)
    simp only [key, Except.ok.injEq]
    constructor
    · intro h; exact ⟨init, n, rfl, h.symm⟩
    · rintro ⟨init', n', h, rfl⟩
      have := (List.append_inj' h rfl).2
      cases this
      rfl

/-- C83, for one key: the five bytes `hd` in front are not looked at, but they are authenticated -/
theorem aes_accepts {k : AesKey} {kb hb : Bytes} (h : UsableAes k kb hb) (hd rest m : Bytes) (hl : hd.length = 5) :
    k.Decrypt P (hd ++ rest) = .ok m ↔
      ∃ iv ps cs, iv.length = 16 ∧ AllBlocks ps ∧ AllBlocks cs ∧ Cbc (P.aesEnc kb) iv ps cs ∧
        hd ++ rest = hd ++ iv ++ cs.flatten ++ hmac P.sha1 hb (hd ++ iv ++ cs.flatten) ∧ Unpadded ps.flatten m := by
  constructor
  · intro hdec
    have hlen : 41 ≤ (hd ++ rest).length := by
      by_contra hlt
      rw [aesDecrypt_short P k _ (by omega)] at hdec
      cases hdec
    obtain ⟨hd', iv, body, tag, he, h1, h2, h3⟩ := split_cipher (hd ++ rest) hlen
    have hhd : hd' = hd := by
      have : (hd ++ rest).take 5 = hd := List.take_left' hl
      rw [← this, he, List.append_assoc, List.append_assoc, List.take_left' h1]
    subst hhd
    rw [he] at hdec ⊢
    rw [aesDecrypt_eq P h _ _ _ _ h1 h2 h3] at hdec
    split at hdec
    · next ht =>
      split at hdec
      · cases hdec
      · next hb16 =>
        have hf := blocks16_full body (by omega)
        refine ⟨iv, cbcDecBlocks P kb iv (blocks16 body), blocks16 body, h2, cbcDec_full P h.len h2 hf, hf, ?_, ?_,
          (aesUnPad_iff _ _).mp hdec⟩
        · have := cbc_spec P kb iv (cbcDecBlocks P kb iv (blocks16 body))
          rwa [cbcEnc_cbcDec P h.len h2 hf] at this
        · rw [flatten_blocks16, ← hmacSha1_spec, ← ht]
    · cases hdec
  · rintro ⟨iv, ps, cs, h2, hps, hcs, hc, he, hu⟩
    rw [he, aesDecrypt_eq P h _ _ _ _ hl h2 (by rw [← hmacSha1_spec, hmacSha1_length]), if_pos (by rw [hmacSha1_spec]),
      if_neg (by rw [flatten_length_full _ hcs]; omega), blocks16_flatten _ hcs, cbc_blocks P hc,
      cbcDec_cbcEnc P h.len h2 hps]
    exact (aesUnPad_iff _ _).mpr hu

/-- every key of the set is a usable AES key -/
def AllAes (c : Czar) : Prop := ∀ e ∈ c.keySet.entries, ∃ k kb hb, e.key = .aes k ∧ UsableAes k kb hb

/-- C83: a loaded set of AES keys decrypts `data` to `m` exactly when `data` is the header of one of its keys, an initialization
vector, the CBC encryption of some blocks and the HMAC of all this, and `m` is what is left of the blocks when as many
bytes are dropped as the last one says. -/
theorem C83_accepts (c : Czar) (hc : Loaded P c) (hd : c.keySet.Distinct P) (ha : AllAes c) (input data m : Bytes)
    (dec : Option (Bytes → Py Bytes)) (hdec : Decodes dec input data) :
    c.Decrypt P input dec = .ok m ↔
      ∃ e ∈ c.keySet.entries, ∃ k kb hb id iv ps, e.key = .aes k ∧ Base64WSDecode k.keyString = .ok kb ∧
        Base64WSDecode k.hmacKey.keyString = .ok hb ∧ KeyId P.sha1 e.key id ∧
        AesText P.sha1 (P.aesEnc kb) hb id iv ps data ∧ Unpadded ps.flatten m := by
  constructor
  · intro h
    unfold Czar.Decrypt at h
    rw [hdec.bind] at h
    split at h
    · cases h
    · rw [sliceTo5] at h
      rcases ParseHeader_cases P hc (data.take 5) with ⟨-, hx⟩ | ⟨x, -, hx⟩ | ⟨e, he, id, hid, hb, hp⟩
      · rw [hx] at h; cases h
      · rw [hx] at h; cases h
      · rw [hp] at h
        obtain ⟨k, kb, hkb, hk, hu⟩ := ha e he
        have hl : (header id).length = 5 := by simp [header, ((KeyId_iff P _ _).mp hid).1]
        have hdata : data = header id ++ data.drop 5 := by rw [← hb, List.take_append_drop]
        have h' : k.Decrypt P (header id ++ data.drop 5) = .ok m := by
          rw [← hdata]; rw [hk] at h; exact h
        obtain ⟨iv, ps, cs, h1, h2, h3, h4, h5, h6⟩ := (aes_accepts P hu _ _ m hl).mp h'
        exact ⟨e, he, k, kb, hkb, id, iv, ps, hk, hu.aes, hu.mac, hid, ⟨cs, h1, h2, h3, h4, by rw [← h5]; exact hdata⟩, h6⟩
  · rintro ⟨e, he, k, kb, hkb, id, iv, ps, hk, hk1, hk2, hid, ⟨cs, h1, h2, h3, h4, h5⟩, h6⟩
    have hu : UsableAes k kb hkb := by
      obtain ⟨k', kb', hb', hk', hu⟩ := ha e he
      rw [hk] at hk'
      cases hk'
      have e1 : kb' = kb := Except.ok.inj (hu.aes.symm.trans hk1)
      have e2 : hb' = hkb := Except.ok.inj (hu.mac.symm.trans hk2)
      rwa [e1, e2] at hu
    have hl : (header id).length = 5 := by simp [header, ((KeyId_iff P _ _).mp hid).1]
    have e0 : data = header id ++ (iv ++ cs.flatten ++ hmac P.sha1 hkb (header id ++ iv ++ cs.flatten)) := by
      rw [h5]; simp only [List.append_assoc]
    rw [e0] at hdec
    rw [Decrypt_dispatch P hc hd he hid hdec, hk]
    refine (aes_accepts P hu (header id) _ m hl).mpr ⟨iv, ps, cs, h1, h2, h3, h4, ?_, h6⟩
    simp only [List.append_assoc]

theorem aesHeader_id {k : AesKey} {kb hb : Bytes} (hu : UsableAes k kb hb) (id : Bytes) :
    KeyId P.sha1 (.aes k) id ↔ header id = aesHeader P kb hb := by
  have h1 : Base64WSDecode k.keyString = .ok kb := hu.aes
  have h2 : Base64WSDecode k.hmacKey.keyString = .ok hb := hu.mac
  unfold KeyId aesHeader header lengthPrefixed
  simp [h1, h2, IntToBytes_i2osp4]

/-- C83: `Encrypt` makes exactly the text with the drawn initialization vector and PKCS#5 padding, under the primary key. -/
theorem C83_encrypts (c : Czar) (hc : Loaded P c) (e : Entry) (hp : c.keySet.primaries = [e]) (k : AesKey) (kb hb : Bytes)
    (hk : e.key = .aes k) (hu : UsableAes k kb hb) (rnd : Rand) (m out : Bytes) :
    c.Encrypt P rnd m none = .ok out ↔
      ∃ id ps, KeyId P.sha1 e.key id ∧ Pkcs5 m ps.flatten ∧
        AesText P.sha1 (P.aesEnc kb) hb id (rnd.bytes 0 16) ps out := by
  have hiv := rnd.bytes_length 0 16
  rw [Encrypt_raw P hc hp, hk]
  simp only [Key.Encrypt, aesEncrypt_eq P hu hiv m, Except.map, encoded, Except.ok.injEq]
  have hf := blocks16_full (aesPad m) (by rw [aesPad_length]; omega)
  constructor
  · rintro rfl
    refine ⟨(aesHeader P kb hb).drop 1, blocks16 (aesPad m), (aesHeader_id P hu _).mpr rfl, ?_,
      cbcEncBlocks P kb (rnd.bytes 0 16) (blocks16 (aesPad m)), hiv, hf, cbcEnc_full P hu.len hiv hf, cbc_spec P _ _ _, ?_⟩
    · rw [flatten_blocks16]; exact C14_pad_is_pkcs5 m
    · rw [hmacSha1_spec]; rfl
  · rintro ⟨id, ps, hid, hpk, cs, -, hps, hcs, hcbc, rfl⟩
    have e1 : ps = blocks16 (aesPad m) := by
      rw [← blocks16_flatten ps hps]
      congr 1
      obtain ⟨n, n1, n2, h3, h4⟩ := hpk
      rw [h3]
      unfold aesPad
      have : 16 - m.length % 16 = n := by rw [h3] at h4; simp at h4; omega
      rw [this]
    rw [(aesHeader_id P hu id).mp hid, cbc_blocks P hcbc, e1, hmacSha1_spec]
    rfl

/-- C83: every outcome of decrypting a text that names a key of the set: too short, a wrong tag, and, with the right tag, a
body that is not made of blocks (ValueError), no body (IndexError), or a message. -/
theorem C83_outcomes (c : Czar) (hc : Loaded P c) (hd : c.keySet.Distinct P) (e : Entry) (he : e ∈ c.keySet.entries)
    (k : AesKey) (kb hb id : Bytes) (hk : e.key = .aes k) (hu : UsableAes k kb hb) (hid : KeyId P.sha1 e.key id)
    (iv body tag : Bytes) (hiv : iv.length = 16) (ht : tag.length = 20) (out : Py Bytes) :
    c.Decrypt P (header id ++ iv ++ body ++ tag) none = out →
      (tag ≠ hmac P.sha1 hb (header id ++ iv ++ body) ∧ out = .error .invalidSignature) ∨
      (tag = hmac P.sha1 hb (header id ++ iv ++ body) ∧
        ((¬ 16 ∣ body.length ∧ out = .error .valueError) ∨ (body = [] ∧ out = .error .indexError) ∨
          (16 ∣ body.length ∧ body ≠ [] ∧ ∃ m, out = .ok m))) := by
  rintro rfl
  have hl : (header id).length = 5 := by simp [header, ((KeyId_iff P _ _).mp hid).1]
  have e1 : c.Decrypt P (header id ++ iv ++ body ++ tag) none = k.Decrypt P (header id ++ iv ++ body ++ tag) := by
    have := Decrypt_dispatch P hc hd he hid (rest := iv ++ (body ++ tag)) (dec := none)
      (input := header id ++ (iv ++ (body ++ tag))) rfl
    rw [hk] at this
    simp only [List.append_assoc]
    exact this
  rw [e1, aesDecrypt_eq P hu _ _ _ _ hl hiv ht, ← hmacSha1_spec]
  by_cases htag : tag = hmacSha1 P hb (header id ++ iv ++ body)
  · refine .inr ⟨htag, ?_⟩
    rw [if_pos htag]
    by_cases h16 : body.length % 16 = 0
    · rw [if_neg (by omega)]
      by_cases hb0 : body = []
      · subst hb0
        exact .inr (.inl ⟨rfl, by rw [blocks16_nil]; rfl⟩)
      · refine .inr (.inr ⟨Nat.dvd_of_mod_eq_zero h16, hb0, ?_⟩)
        have hf := blocks16_full body h16
        have hlen : (cbcDecBlocks P kb iv (blocks16 body)).flatten.length = body.length := by
          rw [flatten_length_full _ (cbcDec_full P hu.len hiv hf), cbcDec_length, ← flatten_length_full _ hf, flatten_blocks16]
        have hne : (cbcDecBlocks P kb iv (blocks16 body)).flatten ≠ [] := by
          intro h0
          rw [h0] at hlen
          exact hb0 (List.length_eq_zero_iff.mp hlen.symm)
        unfold aesUnPad
        rw [List.getLast?_eq_some_getLast hne]
        exact ⟨_, rfl⟩
    · rw [if_pos h16]
      exact .inl ⟨fun h => h16 (Nat.mod_eq_zero_of_dvd h), rfl⟩
  · exact .inl ⟨htag, by rw [if_neg htag]⟩

/-- C83: padding is not checked.  A set of AES keys with a primary key decrypts a text that `Encrypt` makes of no message, for no
random choice. -/
theorem C83_not_padded (c : Czar) (hc : Loaded P c) (hd : c.keySet.Distinct P) (e : Entry)
    (hp : c.keySet.primaries = [e]) (k : AesKey) (kb hb : Bytes) (hk : e.key = .aes k) (hu : UsableAes k kb hb) :
    ∃ data, c.Decrypt P data none = .ok [] ∧ ∀ rnd m, c.Encrypt P rnd m none ≠ .ok data := by
  have he := (primary_mem hp).1
  obtain ⟨id, hid⟩ := hc.keyId he
  have hl : (header id).length = 5 := by simp [header, ((KeyId_iff P _ _).mp hid).1]
  obtain ⟨z, hz⟩ : ∃ z : Bytes, z = List.replicate 16 0 := ⟨_, rfl⟩
  have hzl : z.length = 16 := by rw [hz]; simp
  have hf : Full [z] := by intro b hb; simp at hb; rw [hb]; exact hzl
  obtain ⟨cs, hcs⟩ : ∃ cs, cs = cbcEncBlocks P kb z [z] := ⟨_, rfl⟩
  have hcf : Full cs := by rw [hcs]; exact cbcEnc_full P hu.len hzl hf
  refine ⟨header id ++ z ++ cs.flatten ++ hmac P.sha1 hb (header id ++ z ++ cs.flatten), ?_, ?_⟩
  · have e1 : c.Decrypt P (header id ++ z ++ cs.flatten ++ hmac P.sha1 hb (header id ++ z ++ cs.flatten)) none =
        k.Decrypt P (header id ++ (z ++ (cs.flatten ++ hmac P.sha1 hb (header id ++ z ++ cs.flatten)))) := by
      have := Decrypt_dispatch P hc hd he hid (rest := z ++ (cs.flatten ++ hmac P.sha1 hb (header id ++ z ++ cs.flatten)))
        (dec := none) (input := header id ++ (z ++ (cs.flatten ++ hmac P.sha1 hb (header id ++ z ++ cs.flatten)))) rfl
      have e0 : header id ++ z ++ cs.flatten ++ hmac P.sha1 hb (header id ++ z ++ cs.flatten) =
          header id ++ (z ++ (cs.flatten ++ hmac P.sha1 hb (header id ++ z ++ cs.flatten))) := by
        simp only [List.append_assoc]
      rw [hk] at this
      rw [e0]
      exact this
    rw [e1]
    refine (aes_accepts P hu (header id) _ [] hl).mpr ⟨z, [z], cs, hzl, hf, hcf, ?_, ?_, ?_⟩
    · rw [hcs]; exact cbc_spec P _ _ _
    · simp only [List.append_assoc]
    · exact ⟨List.replicate 15 0, 0, by simp [hz], by simp⟩
  · intro rnd m h
    obtain ⟨id', ps, hid', hpk, cs', hiv, hps, hcs', hcbc, heq⟩ := (C83_encrypts P c hc e hp k kb hb hk hu rnd m _).mp h
    have hids : header id' = header id := by
      rw [hk] at hid hid'
      rw [(aesHeader_id P hu id).mp hid, (aesHeader_id P hu id').mp hid']
    rw [hids] at heq
    have t : ∀ x, (hmac P.sha1 hb x).length = 20 := fun x => by rw [← hmacSha1_spec, hmacSha1_length]
    have h1 := (List.append_inj' heq (by rw [t, t])).1
    rw [List.append_assoc, List.append_assoc, List.append_cancel_left_eq] at h1
    obtain ⟨h2, h3⟩ := List.append_inj h1 (by rw [hzl, hiv])
    have h4 : cs = cs' := by rw [← blocks16_flatten cs hcf, ← blocks16_flatten cs' hcs', h3]
    rw [cbc_blocks P hcbc, ← h2, hcs] at h4
    have h5 : [z] = ps := by
      rw [← cbcDec_cbcEnc P hu.len hzl hf, h4, cbcDec_cbcEnc P hu.len hzl hps]
    obtain ⟨n, n1, n2, h6, -⟩ := hpk
    rw [← h5] at h6
    have h7 : UInt8.ofNat n ∈ z := by
      have : UInt8.ofNat n ∈ [z].flatten := by
        rw [h6]
        exact List.mem_append_right _ (List.mem_replicate.mpr ⟨by omega, rfl⟩)
      simpa using this
    rw [hz] at h7
    have h8 := congrArg UInt8.toNat (List.mem_replicate.mp h7).2
    rw [UInt8.toNat_ofNat'] at h8
    simp at h8
    omega

/-- a key string that decodes to bytes of a length that `f` accepts -/
def decodesTo (s : Bytes) (f : Nat → Bool) : Bool :=
  match Base64WSDecode s with
  | .ok b => f b.length
  | .error _ => false

theorem decodesTo_iff {s : Bytes} {f : Nat → Bool} (h : decodesTo s f = true) :
    ∃ b, Base64WSDecode s = .ok b ∧ f b.length = true := by
  unfold decodesTo at h
  split at h
  · next b hb => exact ⟨b, hb, h⟩
  · cases h

/-- example: the key set testdata/aes meets the hypotheses of the theorems above -/
theorem exAes_set : ∃ c, Loaded realPrims c ∧ c.keySet.Distinct realPrims ∧ AllAes c ∧
    ∃ e k kb hb, c.keySet.primaries = [e] ∧ e.key = .aes k ∧ UsableAes k kb hb := by
  have h : (match Czar.init realPrims .crypter Ex.aes with
      | .ok c => decide (c.keySet.primaries.length = 1) &&
          (decide ((c.keySet.entries.map fun e => e.key.hashId realPrims).Nodup) && c.keySet.entries.all fun e =>
            match e.key with
            | .aes k => decodesTo k.keyString validAesKeyLen && decodesTo k.hmacKey.keyString fun _ => true
            | _ => false)
      | .error _ => false) = true := by decide +kernel
  cases hc : Czar.init realPrims .crypter Ex.aes with
  | error e => rw [hc] at h; cases h
  | ok c =>
    rw [hc] at h
    simp only [Bool.and_eq_true, decide_eq_true_eq, List.all_eq_true] at h
    obtain ⟨h1, h2, h3⟩ := h
    have hall : AllAes c := by
      intro e he
      have := h3 e he
      split at this
      · next k hk =>
        simp only [Bool.and_eq_true] at this
        obtain ⟨kb, k1, k2⟩ := decodesTo_iff this.1
        obtain ⟨hb, k3, -⟩ := decodesTo_iff this.2
        exact ⟨k, kb, hb, hk, k1, k2, k3⟩
      · cases this
    obtain ⟨e, he⟩ := List.length_eq_one_iff.mp h1
    obtain ⟨k, kb, hb, hk⟩ := hall e (primary_mem he).1
    exact ⟨c, ⟨_, _, hc⟩, by rwa [List.Nodup, List.pairwise_map] at h2, hall, e, k, kb, hb, he, hk⟩

end Verif.Props
