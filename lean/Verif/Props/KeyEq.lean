import Verif.Model.KeyEq
import Verif.Lemmas.KeyId
import Verif.Lemmas.ExampleKeys
import Verif.Props.Symmetric
import Verif.Model.Aes
/-
C67: comparing keys.  C68: output sizes of the cipher modes.
-/
namespace Verif.Props
open Spec
variable (P : Prims)

/-! ## C67 -/

/-- C67: `==` is an equivalence relation on keys. -/
theorem C67_equivalence (a b c : Key) :
    a.eq a = true ∧ (a.eq b = b.eq a) ∧ (a.eq b = true → b.eq c = true → a.eq c = true) := by
  refine ⟨by simp [Key.eq], ?_, ?_⟩
  · rw [Bool.eq_iff_iff]
    simp only [Key.eq, decide_eq_true_eq]
    exact ⟨fun ⟨h1, h2, h3⟩ => ⟨h1.symm, h2.symm, h3.symm⟩, fun ⟨h1, h2, h3⟩ => ⟨h1.symm, h2.symm, h3.symm⟩⟩
  · simp only [Key.eq, decide_eq_true_eq]
    exact fun ⟨h1, h2, h3⟩ ⟨g1, g2, g3⟩ => ⟨h1.trans g1, h2.trans g2, h3.trans g3⟩

/-- C67: HMAC keys are equal exactly if they have the same size and the same text; then they are the same key. -/
theorem C67_hmac (a b : HmacKey) : (Key.hmac a).eq (.hmac b) = true ↔ a = b := by
  obtain ⟨s, n⟩ := a
  obtain ⟨t, m⟩ := b
  simp only [Key.eq, Key.type, Key.size, Key.keyString, decide_eq_true_eq, true_and, Option.some.injEq, HmacKey.mk.injEq]
  exact ⟨fun ⟨h1, h2⟩ => ⟨h2, h1⟩, fun ⟨h1, h2⟩ => ⟨h2, h1⟩⟩

/-- C67: for AES keys the HMAC key does not count. -/
theorem C67_aes (a b : AesKey) : (Key.aes a).eq (.aes b) = true ↔ a.size = b.size ∧ a.keyString = b.keyString := by
  simp [Key.eq, Key.type, Key.size, Key.keyString]

/-- C67: so for every usable AES key, and every other HMAC key `hb'`, there is an equal key with the
same AES key and the HMAC key `hb'`, which refuses every ciphertext of the first unless the tags collide. -/
theorem C67_aes_other_hmac (k : AesKey) (kb hb hb' : Bytes) (h : UsableAes k kb hb) :
    ∃ k' : AesKey, (Key.aes k).eq (.aes k') = true ∧ UsableAes k' kb hb' ∧
      ∀ iv m c, iv.length = 16 → k.Encrypt P iv m = .ok c →
        Spec.hmac P.sha1 hb (c.take (c.length - 20)) ≠ Spec.hmac P.sha1 hb' (c.take (c.length - 20)) →
        k'.Decrypt P c = .error .invalidSignature := by
  refine ⟨⟨k.keyString, ⟨Base64WSEncode hb', k.hmacKey.size⟩, k.size⟩, (C67_aes _ _).mpr ⟨rfl, rfl⟩,
    ⟨h.aes, h.len, Base64WSDecode_encode _⟩, ?_⟩
  intro iv m c hiv hc hne
  rw [aesEncrypt_eq P h hiv m] at hc
  cases hc
  have h' : UsableAes ⟨k.keyString, ⟨Base64WSEncode hb', k.hmacKey.size⟩, k.size⟩ kb hb' :=
    ⟨h.aes, h.len, Base64WSDecode_encode _⟩
  rw [aesDecrypt_eq P h' _ _ _ _ (aesHeader_length P _ _) hiv (hmacSha1_length P _ _), if_neg]
  rw [List.length_append, hmacSha1_length, Nat.add_sub_cancel, List.take_left, ← hmacSha1_spec, ← hmacSha1_spec] at hne
  exact hne

/-- C67: keys of different types are never equal. -/
theorem C67_types (a b : Key) (h : a.type ≠ b.type) : a.eq b = false := by
  simp [Key.eq, h]

/-- the key is a DSA or an RSA key -/
def Asymmetric (k : Key) : Prop := k.type ≠ .AES ∧ k.type ≠ .HMAC_SHA1

/-- C67: two DSA or RSA keys are equal as soon as they have the same type and size, whatever their numbers are. -/
theorem C67_asymmetric (a b : Key) (h : Asymmetric a) :
    a.eq b = true ↔ a.type = b.type ∧ a.size = b.size := by
  obtain ⟨h1, h2⟩ := h
  cases a <;> cases b <;> simp_all [Key.eq, Key.type, Key.size, Key.keyString]

/-- C67: in particular any two generated private keys of the same type and size are equal, whatever was drawn. -/
theorem C67_generated_asymmetric (r r' : Rand) (t : KeyType) (ht : t = .DSA_PRIV ∨ t = .RSA_PRIV) (size : Option Int)
    (k k' : Key) (h : GenKey r t size = .ok k) (h' : GenKey r' t size = .ok k') : k.eq k' = true := by
  rcases ht with rfl | rfl <;>
  · unfold GenKey at h h'
    dsimp only at h h'
    split at h
    · cases h
    · rename_i hv
      rw [if_neg hv] at h'
      cases h; cases h'
      rw [C67_asymmetric _ _ (by simp [Asymmetric, Key.type])]
      exact ⟨rfl, rfl⟩

/-- C67: while two generated AES keys, or HMAC keys, of the same size are equal exactly if the same AES (HMAC) key was
drawn. -/
theorem C67_generated_symmetric (r r' : Rand) (t : KeyType) (ht : t = .AES ∨ t = .HMAC_SHA1) (size : Option Int)
    (k k' : Key) (h : GenKey r t size = .ok k) (h' : GenKey r' t size = .ok k') :
    k.eq k' = true ↔ r.bytes 0 ((size.getD t.defaultSize).toNat / 8) = r'.bytes 0 ((size.getD t.defaultSize).toNat / 8) := by
  rcases ht with rfl | rfl <;>
  · unfold GenKey at h h'
    dsimp only at h h'
    split at h
    · cases h
    · rename_i hv
      rw [if_neg hv] at h'
      cases h; cases h'
      simp only [Key.eq, Key.type, Key.size, Key.keyString, decide_eq_true_eq, true_and, Option.some.injEq,
        AesKey.Generate, HmacKey.Generate]
      exact ⟨Base64WSEncode_injective, fun e => by rw [e]⟩

/-- C67: the check `HasPubKey` of the mock reader accepts any public key of the right type and size. -/
theorem C67_has_pub_key (keys pubs : Int → Option Key) (v : Int) (priv pub pub' : Key) (hk : keys v = some priv)
    (hp : priv.publicKey = .ok pub') (hv : pubs v = some pub) :
    MockReader.HasPubKey keys pubs v = .ok true ↔ pub.type = pub'.type ∧ pub.size = pub'.size := by
  have ha : Asymmetric pub' := by
    cases priv <;> simp [Key.publicKey] at hp <;> subst hp <;> simp [Asymmetric, Key.type]
  simp only [MockReader.HasPubKey, hk, hv, hp, bind, Except.bind, pure, Except.pure, Except.ok.injEq]
  rw [C67_asymmetric _ _ ha]
  exact ⟨fun ⟨a, b⟩ => ⟨a.symm, b.symm⟩, fun ⟨a, b⟩ => ⟨a.symm, b.symm⟩⟩

/-- two RSA keys of the same size with different moduli -/
def exRsaKey : Key := .rsaPriv (RsaPrivateKey.ofObj exRsaObj 1024)
def exRsaKey' : Key := .rsaPriv (RsaPrivateKey.ofObj { exRsaObj with n := exP * exP } 1024)

/-- instance: these are equal, though their moduli differ -/
example : exRsaKey.eq exRsaKey' = true ∧ exRsaObj.n ≠ exP * exP :=
  ⟨(C67_asymmetric _ _ (by simp [Asymmetric, exRsaKey, Key.type])).mpr ⟨rfl, rfl⟩, by decide +kernel⟩

/-- instance: equal AES keys with different identifiers -/
example : (Key.aes exAes).eq (.aes { exAes with hmacKey := ⟨Base64WSEncode (List.replicate 32 8), 256⟩ }) = true ∧
    (Key.aes exAes).hashId realPrims ≠
      (Key.aes { exAes with hmacKey := ⟨Base64WSEncode (List.replicate 32 8), 256⟩ }).hashId realPrims := by
  decide +kernel

/-- instance: the tags of a ciphertext under the two HMAC keys differ -/
example : ∃ c, exAes.Encrypt realPrims (List.replicate 16 1) (bstr "attack at dawn") = .ok c ∧
    Spec.hmac realPrims.sha1 (List.replicate 32 7) (c.take (c.length - 20)) ≠
      Spec.hmac realPrims.sha1 (List.replicate 32 8) (c.take (c.length - 20)) := by
  refine ⟨_, aesEncrypt_eq realPrims (k := exAes) (kb := List.replicate 16 9) (hb := List.replicate 32 7)
    ⟨Base64WSDecode_encode _, by decide, Base64WSDecode_encode _⟩ (by decide) _, ?_⟩
  rw [List.length_append, hmacSha1_length, Nat.add_sub_cancel, List.take_left, ← hmacSha1_spec, ← hmacSha1_spec]
  unfold aesBody
  rw [show aesPad (bstr "attack at dawn") = [bstr "attack at dawn" ++ [2, 2]].flatten by decide,
    blocks16_flatten _ (by unfold Full; decide)]
  decide +kernel

/-! ## C68 -/

/-- C68: what AES encryption returns is the header, `GetOutputSize` bytes for the mode CBC, and the tag. -/
theorem C68_aes (k : AesKey) (kb hb : Bytes) (h : UsableAes k kb hb) (iv m c : Bytes) (hiv : iv.length = 16)
    (hc : k.Encrypt P iv m = .ok c) : c.length = 5 + CipherMode.GetOutputSize 16 m.length .CBC + 20 := by
  obtain ⟨c', h1, -, h2, -⟩ := C15_round_trip_layout P k kb hb h iv hiv m
  rw [hc] at h1
  cases h1
  rw [h2, CipherMode.GetOutputSize]
  omega

/-- C68: exactly the modes that use an IV make room for one: CBC a block, CTR half a block; what is left is whole blocks
for CBC and DET_CBC, the length of the input for CTR, and always one block for ECB, whatever the input. -/
theorem C68_iv (b i : Nat) (hb : 2 ≤ b) (m : CipherMode) :
    ∃ iv body, CipherMode.GetOutputSize b i m = iv + body ∧ (m.useIv = true ↔ 0 < iv) ∧
      (m = .CBC → iv = b) ∧ (m = .CTR → iv = b / 2) ∧ (m = .CTR → body = i) ∧ (m = .ECB → body = b) ∧
      (m = .CBC ∨ m = .DET_CBC → b ∣ body ∧ i < body ∧ body ≤ i + b) := by
  have hd : b * (i / b) + i % b = i := Nat.div_add_mod i b
  have hm : i % b < b := Nat.mod_lt _ (by omega)
  have e1 : (i / b + 1) * b = b * (i / b) + b := by rw [Nat.add_mul, Nat.mul_comm]; omega
  have e2 : (i / b + 2) * b = b + (i / b + 1) * b := by rw [Nat.add_mul, Nat.add_mul]; omega
  cases m with
  | CBC =>
    refine ⟨b, (i / b + 1) * b, e2, by simp [CipherMode.useIv]; omega, by simp, by simp, by simp, by simp, ?_⟩
    exact fun _ => ⟨⟨i / b + 1, Nat.mul_comm _ _⟩, by omega, by omega⟩
  | CTR =>
    exact ⟨b / 2, i, Nat.add_comm _ _, by simp [CipherMode.useIv]; omega, by simp, by simp, by simp, by simp, by simp⟩
  | ECB => exact ⟨0, b, (Nat.zero_add _).symm, by simp [CipherMode.useIv], by simp, by simp, by simp, by simp, by simp⟩
  | DET_CBC =>
    refine ⟨0, (i / b + 1) * b, (Nat.zero_add _).symm, by simp [CipherMode.useIv], by simp, by simp, by simp, by simp, ?_⟩
    exact fun _ => ⟨⟨i / b + 1, Nat.mul_comm _ _⟩, by omega, by omega⟩

/-- C68: for every block size, the output of DET_CBC is the smallest number of whole blocks that is larger than the
input (which always leaves room for the padding), and CBC adds one block, for the IV. -/
theorem C68_blocks (b i : Nat) (hb : 0 < b) :
    (b ∣ CipherMode.GetOutputSize b i .DET_CBC ∧ i < CipherMode.GetOutputSize b i .DET_CBC ∧
      ∀ n, b ∣ n → i < n → CipherMode.GetOutputSize b i .DET_CBC ≤ n) ∧
    CipherMode.GetOutputSize b i .CBC = CipherMode.GetOutputSize b i .DET_CBC + b := by
  have hd : b * (i / b) + i % b = i := Nat.div_add_mod i b
  have hm : i % b < b := Nat.mod_lt _ hb
  refine ⟨⟨⟨i / b + 1, Nat.mul_comm _ _⟩, ?_, ?_⟩, ?_⟩
  · show i < (i / b + 1) * b
    rw [Nat.add_mul, Nat.mul_comm]; omega
  · rintro n ⟨q, rfl⟩ hn
    show (i / b + 1) * b ≤ b * q
    rw [Nat.mul_comm]
    apply Nat.mul_le_mul_left
    exact (Nat.div_lt_iff_lt_mul hb).mpr (by rw [Nat.mul_comm]; exact hn)
  · show (i / b + 2) * b = (i / b + 1) * b + b
    rw [show i / b + 2 = (i / b + 1) + 1 from rfl, Nat.add_mul (i / b + 1) 1 b, Nat.one_mul]

/-- instance -/
example : CipherMode.GetOutputSize 16 16 .DET_CBC = 32 ∧ CipherMode.GetOutputSize 16 15 .CBC = 32 := by decide

end Verif.Props
