import Verif.Model.Keys
import Verif.Lemmas.Cbc
import Verif.Spec.Crypto
import Mathlib.Tactic.ByContra
import Mathlib.Algebra.Group.Nat.Even
/-
Property theorems C13-C17: HMAC and AES keys.
-/
namespace Verif.Props
open Verif Spec

variable (P : Prims)

/-- A 32-byte HMAC key and a 16-byte AES key, used as instances below. -/
def exHmac : HmacKey := ⟨Base64WSEncode (List.replicate 32 7), 256⟩
def exAes : AesKey := ⟨Base64WSEncode (List.replicate 16 9), exHmac, 128⟩

/-! ## C13 -/

theorem hmacSha1_spec (key msg : Bytes) : hmacSha1 P key msg = Spec.hmac P.sha1 key msg := by
  unfold hmacSha1 Spec.hmac
  simp only
  generalize hK : (if key.length > 64 then P.sha1 key else key) = K
  have hl : K.length ≤ 64 := by
    subst hK; split
    · rw [P.sha1_length]; omega
    · omega
  have : (K ++ List.replicate (64 - K.length) 0).length = 64 := by simp; omega
  have aux : ∀ (l : Bytes) (c : UInt8), List.zipWith (· ^^^ ·) l (List.replicate l.length c) = l.map (· ^^^ c) := by
    intro l c
    induction l with
    | nil => rfl
    | cons a l ih => simp [List.replicate_succ, ih]
  have h1 := aux (K ++ List.replicate (64 - K.length) 0) 0x5c
  have h2 := aux (K ++ List.replicate (64 - K.length) 0) 0x36
  rw [this] at h1 h2
  rw [h1, h2]

/-- C13: verification succeeds exactly on the HMAC-SHA1 (RFC 2104) of the message under the key. -/
theorem C13_accepts_exactly_mac (k : HmacKey) (kb : Bytes) (hk : k.keyBytes = .ok kb) (msg sig : Bytes) :
    k.Verify P msg sig = .ok (decide (sig = Spec.hmac P.sha1 kb msg)) := by
  unfold HmacKey.Verify HmacKey.Sign
  rw [hk]
  simp only [bind, Except.bind, pure, Except.pure]
  rw [VerifySignedData_iff, hmacSha1_spec]

/-- C13: signatures of any other length than 20 bytes are rejected. -/
theorem C13_rejects_other_lengths (k : HmacKey) (kb : Bytes) (hk : k.keyBytes = .ok kb) (msg sig : Bytes)
    (h : sig.length ≠ 20) : k.Verify P msg sig = .ok false := by
  rw [C13_accepts_exactly_mac P k kb hk]
  congr 1
  rw [decide_eq_false_iff_not]
  intro e
  rw [e, ← hmacSha1_spec, hmacSha1_length] at h
  exact h rfl

/-- C13: what `Sign` returns is what `Verify` accepts. -/
theorem C13_sign_verify (k : HmacKey) (msg sig : Bytes) (hs : k.Sign P msg = .ok sig) (sig' : Bytes) :
    k.Verify P msg sig' = .ok (decide (sig' = sig)) := by
  unfold HmacKey.Verify
  rw [hs]
  simp only [bind, Except.bind, pure, Except.pure]
  rw [VerifySignedData_iff]

/-- instance: the hypothesis holds for a real key -/
example : exHmac.keyBytes = .ok (List.replicate 32 7) := Base64WSDecode_encode _

/-! ## C14 -/

/-- C14: `_Pad` produces PKCS#5 padding. -/
theorem C14_pad_is_pkcs5 (d : Bytes) : Pkcs5 d (aesPad d) := by
  refine ⟨16 - d.length % 16, by omega, by omega, rfl, ?_⟩
  rw [aesPad_length]
  exact ⟨_, rfl⟩

/-- C14: unpadding any PKCS#5 padding of `d` gives `d`. -/
theorem C14_unpad (d p : Bytes) (h : Pkcs5 d p) : aesUnPad p = .ok d := by
  obtain ⟨n, h1, h2, rfl, h4⟩ := h
  have : aesPad d = d ++ List.replicate n (UInt8.ofNat n) := by
    unfold aesPad
    have : 16 - d.length % 16 = n := by simp at h4; omega
    rw [this]
  rw [← this, aesUnPad_pad]

/-- C14: padding and unpadding round trip, and padding is injective. -/
theorem C14_round_trip (d : Bytes) : aesUnPad (aesPad d) = .ok d := aesUnPad_pad d

theorem C14_length (d : Bytes) :
    d.length < (aesPad d).length ∧ (aesPad d).length ≤ d.length + 16 ∧ 16 ∣ (aesPad d).length := by
  rw [aesPad_length]
  refine ⟨by omega, by omega, ⟨_, rfl⟩⟩

example : aesPad (bstr "0123456789abcdef") = bstr "0123456789abcdef" ++ List.replicate 16 16 := by decide +kernel

/-! ## C15 -/

/-- A usable AES key: both key strings decode and the AES key length is one AES accepts. -/
structure UsableAes (k : AesKey) (kb hb : Bytes) : Prop where
  aes : k.keyBytes = .ok kb
  len : validAesKeyLen kb.length = true
  mac : k.hmacKey.keyBytes = .ok hb

/-- the 5 header bytes of an AES key -/
def aesHeader (kb hb : Bytes) : Bytes :=
  0 :: (P.sha1 (IntToBytes kb.length ++ kb ++ hb)).take 4

theorem aesHeader_length (kb hb : Bytes) : (aesHeader P kb hb).length = 5 := by
  simp [aesHeader, P.sha1_length]

theorem aes_header {k : AesKey} {kb hb : Bytes} (h : UsableAes k kb hb) :
    (do headerOf (← k.hashId P)) = (.ok (aesHeader P kb hb) : Py Bytes) := by
  unfold AesKey.hashId
  rw [h.aes, h.mac]
  simp only [bind, Except.bind, pure, Except.pure]
  rw [headerOf_encode]
  simp [aesHeader, Hash, KEY_HASH_SIZE]

/-- the CBC ciphertext of the padded message -/
def aesBody (kb iv m : Bytes) : Bytes := (cbcEncBlocks P kb iv (blocks16 (aesPad m))).flatten

theorem aesBody_length {kb iv : Bytes} (hk : validAesKeyLen kb.length) (hiv : iv.length = 16) (m : Bytes) :
    (aesBody P kb iv m).length = 16 * (m.length / 16 + 1) := by
  have hp : (aesPad m).length % 16 = 0 := by rw [aesPad_length]; omega
  have hf := blocks16_full _ hp
  have hl := flatten_length_full _ hf
  rw [flatten_blocks16, aesPad_length] at hl
  unfold aesBody
  rw [flatten_length_full _ (cbcEnc_full P hk hiv hf), cbcEnc_length]
  omega

/-- what `Encrypt` returns -/
theorem aesEncrypt_eq {k : AesKey} {kb hb : Bytes} (h : UsableAes k kb hb) {iv : Bytes} (hiv : iv.length = 16)
    (m : Bytes) : k.Encrypt P iv m = .ok (aesHeader P kb hb ++ iv ++ aesBody P kb iv m ++
      hmacSha1 P hb (aesHeader P kb hb ++ iv ++ aesBody P kb iv m)) := by
  have hh := aes_header P h
  simp only [bind, Except.bind] at hh
  unfold AesKey.Encrypt
  simp only [h.aes, bind, Except.bind, pure, Except.pure]
  unfold CbcObj.new
  rw [if_pos ⟨h.len, hiv⟩]
  simp only [CbcObj.encrypt]
  rw [if_neg (by rw [aesPad_length]; omega)]
  simp only
  cases hid : k.hashId P with
  | error e => rw [hid] at hh; cases hh
  | ok id =>
    rw [hid] at hh
    simp only at hh ⊢
    rw [hh]
    simp only [HmacKey.Sign, h.mac, bind, Except.bind, pure, Except.pure]
    rfl

/-- `Decrypt` on an input cut into its four parts -/
theorem aesDecrypt_split (k : AesKey) (hd iv body tag : Bytes)
    (hhd : hd.length = 5) (hiv : iv.length = 16) (htag : tag.length = 20) :
    k.Decrypt P (hd ++ iv ++ body ++ tag) = (do
      if (← k.hmacKey.Verify P (hd ++ iv ++ body) tag) then do
        let kb ← k.keyBytes
        let cipher ← CbcObj.new kb iv
        let (plain, _) ← cipher.decrypt P body
        aesUnPad plain
      else .error .invalidSignature) := by
  unfold AesKey.Decrypt
  have e1 : sliceFrom (hd ++ iv ++ body ++ tag) ((HEADER_SIZE : Nat) : Int) = iv ++ body ++ tag := by
    rw [sliceFrom_nat, show HEADER_SIZE = hd.length from hhd.symm]
    simp only [List.append_assoc, List.drop_left]
  have e2 : sliceTo (iv ++ body ++ tag) 16 = iv := by
    have := sliceTo_nat (iv ++ body ++ tag) 16
    rw [show ((16 : Nat) : Int) = 16 from rfl] at this
    rw [this, ← hiv, List.append_assoc, List.take_left]
  have e3 : sliceFrom (iv ++ body ++ tag) (-(HLEN : Int)) = tag := by
    have := sliceFrom_neg (iv ++ body ++ tag) 20 (by omega)
    simp only [HLEN]
    rw [this]
    rw [show (iv ++ body ++ tag).length - 20 = (iv ++ body).length from by simp; omega]
    rw [List.drop_left]
  have e4 : sliceTo (hd ++ iv ++ body ++ tag) (-(HLEN : Int)) = hd ++ iv ++ body := by
    have := sliceTo_neg (hd ++ iv ++ body ++ tag) 20 (by omega)
    simp only [HLEN]
    rw [this]
    rw [show (hd ++ iv ++ body ++ tag).length - 20 = (hd ++ iv ++ body).length from by simp; omega]
    rw [List.take_left]
  have e5 : slice (iv ++ body ++ tag) 16 (-(HLEN : Int)) = body := by
    unfold slice
    have := sliceTo_neg (iv ++ body ++ tag) 20 (by omega)
    simp only [HLEN]
    unfold sliceTo at this
    rw [this]
    have : clampIdx (iv ++ body ++ tag).length 16 = iv.length := by
      unfold clampIdx; simp; omega
    rw [this, show (iv ++ body ++ tag).length - 20 = (iv ++ body).length from by simp; omega]
    rw [List.take_left, List.drop_left]
  simp only [e1, e2, e3, e4, e5]
  rw [if_neg (by simp [HLEN]; omega)]

theorem aesDecrypt_eq {k : AesKey} {kb hb : Bytes} (h : UsableAes k kb hb) (hd iv body tag : Bytes)
    (hhd : hd.length = 5) (hiv : iv.length = 16) (htag : tag.length = 20) :
    k.Decrypt P (hd ++ iv ++ body ++ tag) =
      if tag = hmacSha1 P hb (hd ++ iv ++ body) then
        (if body.length % 16 ≠ 0 then .error .valueError
         else aesUnPad (cbcDecBlocks P kb iv (blocks16 body)).flatten)
      else .error .invalidSignature := by
  rw [aesDecrypt_split P k hd iv body tag hhd hiv htag]
  simp only [HmacKey.Verify, HmacKey.Sign, h.mac, bind, Except.bind, pure, Except.pure,
    VerifySignedData_iff]
  by_cases ht : tag = hmacSha1 P hb (hd ++ iv ++ body)
  · simp only [← ht, decide_true, if_true, h.aes, CbcObj.new, h.len, hiv, and_self, CbcObj.decrypt]
    by_cases hb : body.length % 16 ≠ 0
    · rw [if_pos hb, if_pos hb]
    · rw [if_neg hb, if_neg hb]
  · simp only [ht, decide_false, if_false]
    rfl

theorem cbc_spec (kb iv : Bytes) (bs : List Bytes) : Cbc (P.aesEnc kb) iv bs (cbcEncBlocks P kb iv bs) := by
  induction bs generalizing iv with
  | nil => exact .nil _
  | cons b bs ih => exact .cons _ _ _ _ _ rfl (ih _)

/-- C15: encryption succeeds, decrypts to the message, and the output has the documented layout:
5-byte header, the IV, the CBC blocks of the PKCS#5-padded message, the HMAC of all of that. -/
theorem C15_round_trip_layout (k : AesKey) (kb hb : Bytes) (h : UsableAes k kb hb) (iv : Bytes)
    (hiv : iv.length = 16) (m : Bytes) :
    ∃ c, k.Encrypt P iv m = .ok c ∧ k.Decrypt P c = .ok m ∧ c.length = 57 + 16 * (m.length / 16) ∧
      ∃ (padded : Bytes) (ps cs : List Bytes), Pkcs5 m padded ∧ AllBlocks ps ∧ ps.flatten = padded ∧
        AllBlocks cs ∧ Cbc (P.aesEnc kb) iv ps cs ∧
        c = aesHeader P kb hb ++ iv ++ cs.flatten ++
          Spec.hmac P.sha1 hb (aesHeader P kb hb ++ iv ++ cs.flatten) := by
  have hp : (aesPad m).length % 16 = 0 := by rw [aesPad_length]; omega
  have hf := blocks16_full _ hp
  have hcf := cbcEnc_full P h.len hiv hf
  refine ⟨_, aesEncrypt_eq P h hiv m, ?_, ?_, aesPad m, blocks16 (aesPad m),
    cbcEncBlocks P kb iv (blocks16 (aesPad m)), C14_pad_is_pkcs5 m, hf, flatten_blocks16 _, hcf,
    cbc_spec P _ _ _, ?_⟩
  · rw [aesDecrypt_eq P h _ _ _ _ (aesHeader_length P _ _) hiv (hmacSha1_length P _ _), if_pos rfl,
      if_neg (by rw [aesBody_length P h.len hiv]; omega)]
    unfold aesBody
    rw [blocks16_flatten _ hcf, cbcDec_cbcEnc P h.len hiv hf, flatten_blocks16, aesUnPad_pad]
  · simp only [List.length_append, aesHeader_length, hiv, aesBody_length P h.len hiv, hmacSha1_length]
    omega
  · rw [← hmacSha1_spec]; rfl

/-- instance: a generated key is usable, whatever the random source returns -/
theorem generated_aes_usable (rnd : Rand) (size : Nat) (hs : KeyType.AES.IsValidSize size) :
    UsableAes (AesKey.Generate rnd size) (rnd.bytes 0 (size / 8)) (rnd.bytes 1 32) := by
  refine ⟨Base64WSDecode_encode _, ?_, Base64WSDecode_encode _⟩
  rw [rnd.bytes_length]
  simp only [KeyType.IsValidSize, KeyType.sizes, List.map_cons, List.map_nil, List.contains_cons,
    List.contains_nil, Bool.or_false, Bool.or_eq_true, beq_iff_eq] at hs
  rcases hs with h | h | h
  · have : size = 128 := by change (size : Int) = ((128 : Nat) : Int) at h; omega
    subst this; rfl
  · have : size = 192 := by change (size : Int) = ((192 : Nat) : Int) at h; omega
    subst this; rfl
  · have : size = 256 := by change (size : Int) = ((256 : Nat) : Int) at h; omega
    subst this; rfl

example : UsableAes exAes (List.replicate 16 9) (List.replicate 32 7) :=
  ⟨Base64WSDecode_encode _, by decide, Base64WSDecode_encode _⟩

/-! ## C16 -/

theorem split_cipher (c : Bytes) (h : 41 ≤ c.length) :
    ∃ hd iv body tag, c = hd ++ iv ++ body ++ tag ∧ hd.length = 5 ∧ iv.length = 16 ∧ tag.length = 20 := by
  refine ⟨c.take 5, (c.drop 5).take 16, ((c.drop 5).drop 16).take (c.length - 41),
    c.drop (c.length - 20), ?_, by simp; omega, by simp; omega, by simp; omega⟩
  have : c.drop (c.length - 20) = ((c.drop 5).drop 16).drop (c.length - 41) := by
    rw [List.drop_drop, List.drop_drop]
    congr 1
    omega
  rw [this]
  simp only [List.append_assoc, List.take_append_drop]

theorem aesDecrypt_short (k : AesKey) (c : Bytes) (h : c.length < 41) :
    k.Decrypt P c = .error (.shortCiphertext (c.length - 5)) := by
  unfold AesKey.Decrypt
  simp only [sliceFrom_nat, List.length_drop, HEADER_SIZE, KEY_HASH_SIZE, HLEN]
  rw [if_pos (by omega)]

theorem keyBytes_cases (k : HmacKey) : (∃ hb, k.keyBytes = .ok hb) ∨ ∃ e, k.keyBytes = .error e := by
  cases h : k.keyBytes with
  | ok b => exact .inl ⟨_, rfl⟩
  | error e => exact .inr ⟨_, rfl⟩

theorem aesDecrypt_wrong_tag (k : AesKey) (hb : Bytes) (hk : k.hmacKey.keyBytes = .ok hb)
    (hd iv body tag : Bytes) (hhd : hd.length = 5) (hiv : iv.length = 16) (htag : tag.length = 20)
    (hne : tag ≠ hmacSha1 P hb (hd ++ iv ++ body)) :
    k.Decrypt P (hd ++ iv ++ body ++ tag) = .error .invalidSignature := by
  rw [aesDecrypt_split P k hd iv body tag hhd hiv htag]
  simp only [HmacKey.Verify, HmacKey.Sign, hk, bind, Except.bind, pure, Except.pure,
    VerifySignedData_iff, decide_eq_false hne]
  rfl

/-- C16: whatever `Decrypt` accepts carries, as its last 20 bytes, the HMAC of everything before. -/
theorem C16_accepted_is_authenticated (k : AesKey) (c m : Bytes) (h : k.Decrypt P c = .ok m) :
    ∃ hb, k.hmacKey.keyBytes = .ok hb ∧ 41 ≤ c.length ∧
      c.drop (c.length - 20) = Spec.hmac P.sha1 hb (c.take (c.length - 20)) := by
  by_cases hl : 41 ≤ c.length
  · obtain ⟨hd, iv, body, tag, rfl, h1, h2, h3⟩ := split_cipher c hl
    rcases keyBytes_cases k.hmacKey with ⟨hb, hk⟩ | ⟨e, hk⟩
    · refine ⟨hb, hk, hl, ?_⟩
      rw [show (hd ++ iv ++ body ++ tag).length - 20 = (hd ++ iv ++ body).length from by simp; omega]
      rw [List.drop_left, List.take_left, ← hmacSha1_spec]
      by_contra hne
      rw [aesDecrypt_wrong_tag P k hb hk hd iv body tag h1 h2 h3 hne] at h
      cases h
    · unfold AesKey.Decrypt at h
      simp only [HmacKey.Verify, HmacKey.Sign, hk, bind, Except.bind] at h
      split at h <;> cases h
  · rw [aesDecrypt_short P k c (by omega)] at h
    cases h

/-- C16: two accepted ciphertexts that agree on everything but the tag are identical. -/
theorem C16_tag_unique (k : AesKey) (c c' m m' : Bytes) (h : k.Decrypt P c = .ok m)
    (h' : k.Decrypt P c' = .ok m') (hb : c.take (c.length - 20) = c'.take (c'.length - 20)) : c = c' := by
  obtain ⟨k1, hk1, hl, ht⟩ := C16_accepted_is_authenticated P k c m h
  obtain ⟨k2, hk2, hl', ht'⟩ := C16_accepted_is_authenticated P k c' m' h'
  have : k1 = k2 := by rw [hk1] at hk2; exact Except.ok.inj hk2
  subst this
  rw [← List.take_append_drop (c.length - 20) c, ← List.take_append_drop (c'.length - 20) c', ht, ht', hb]

/-- C16: replacing the tag of an accepted ciphertext by any other 20 bytes raises
InvalidSignatureError. -/
theorem C16_altered_tag (k : AesKey) (body tag tag' m : Bytes) (ht : tag.length = 20) (ht' : tag'.length = 20)
    (h : k.Decrypt P (body ++ tag) = .ok m) (hne : tag' ≠ tag) :
    k.Decrypt P (body ++ tag') = .error .invalidSignature := by
  obtain ⟨hb, hk, hl, hm⟩ := C16_accepted_is_authenticated P k _ m h
  rw [show (body ++ tag).length - 20 = body.length from by simp [ht], List.drop_left, List.take_left] at hm
  have hl' : 41 ≤ (body ++ tag').length := by simp [ht] at hl; simp [ht']; omega
  obtain ⟨hd, iv, bd, tg, he, h1, h2, h3⟩ := split_cipher (body ++ tag') hl'
  have hlen : body.length = (hd ++ iv ++ bd).length := by
    have := congrArg List.length he
    simp [ht', h3] at this ⊢; omega
  obtain ⟨e1, e2⟩ := List.append_inj he hlen
  rw [he]
  apply aesDecrypt_wrong_tag P k hb hk _ _ _ _ h1 h2 h3
  rw [← e1, ← e2, hmacSha1_spec, ← hm]
  exact hne

/-! ## C17 -/

/-- C17: with a wrong tag the outcome is InvalidSignatureError for every AES key string and key
size, so it carries no information about the padding of the decrypted data. -/
theorem C17_wrong_tag_outcome (hk : HmacKey) (hb : Bytes) (hkb : hk.keyBytes = .ok hb) (c : Bytes)
    (hl : 41 ≤ c.length) (hne : c.drop (c.length - 20) ≠ Spec.hmac P.sha1 hb (c.take (c.length - 20)))
    (keyString : Bytes) (size : Nat) :
    (AesKey.mk keyString hk size).Decrypt P c = .error .invalidSignature := by
  obtain ⟨hd, iv, body, tag, rfl, h1, h2, h3⟩ := split_cipher c hl
  rw [show (hd ++ iv ++ body ++ tag).length - 20 = (hd ++ iv ++ body).length from by simp; omega] at hne
  rw [List.drop_left, List.take_left, ← hmacSha1_spec] at hne
  exact aesDecrypt_wrong_tag P ⟨keyString, hk, size⟩ hb hkb hd iv body tag h1 h2 h3 hne

/-- C17: short input is ShortCiphertextError for every key. -/
theorem C17_short_outcome (k : AesKey) (c : Bytes) (h : c.length < 41) :
    k.Decrypt P c = .error (.shortCiphertext (c.length - 5)) := aesDecrypt_short P k c h

/-- C17: the outcome for any input whose tag is wrong does not depend on the AES key. -/
theorem C17_independent_of_aes_key (hk : HmacKey) (hb : Bytes) (hkb : hk.keyBytes = .ok hb) (c : Bytes)
    (hne : c.drop (c.length - 20) ≠ Spec.hmac P.sha1 hb (c.take (c.length - 20)))
    (ks ks' : Bytes) (size size' : Nat) :
    (AesKey.mk ks hk size).Decrypt P c = (AesKey.mk ks' hk size').Decrypt P c := by
  by_cases hl : 41 ≤ c.length
  · rw [C17_wrong_tag_outcome P hk hb hkb c hl hne, C17_wrong_tag_outcome P hk hb hkb c hl hne]
  · rw [aesDecrypt_short P _ c (by omega), aesDecrypt_short P _ c (by omega)]

end Verif.Props
