import Verif.Model.Keys
import Verif.Lemmas.Util
import Verif.Lemmas.Base64
namespace Verif

theorem blocks16_nil : blocks16 [] = [] := by rw [blocks16]; simp

theorem blocks16_cons {b rest : Bytes} (h : b.length = 16) : blocks16 (b ++ rest) = b :: blocks16 rest := by
  rw [blocks16, dif_neg (by rw [List.length_append]; omega)]
  rw [List.take_append_of_le_length (by omega), List.take_of_length_le (by omega)]
  rw [List.drop_append_of_le_length (by omega), List.drop_of_length_le (by omega)]
  rfl

/-- every block has 16 bytes -/
def Full (bs : List Bytes) : Prop := ∀ b ∈ bs, b.length = 16

theorem blocks16_flatten (bs : List Bytes) (h : Full bs) : blocks16 bs.flatten = bs := by
  induction bs with
  | nil => exact blocks16_nil
  | cons b bs ih =>
    rw [List.flatten_cons, blocks16_cons (h b (by simp)), ih (fun x hx => h x (by simp [hx]))]

theorem flatten_blocks16 (d : Bytes) : (blocks16 d).flatten = d := by
  induction hn : d.length using Nat.strongRecOn generalizing d with
  | _ n ih =>
    rw [blocks16]
    split
    · next h => simp at h; simp [h]
    · next h =>
      rw [List.flatten_cons, ih (d.drop 16).length (by simp; omega) _ rfl, List.take_append_drop]

theorem blocks16_full (d : Bytes) (h : d.length % 16 = 0) : Full (blocks16 d) := by
  induction hn : d.length using Nat.strongRecOn generalizing d with
  | _ n ih =>
    rw [blocks16]
    split
    · intro b hb; simp at hb
    · next h0 =>
      intro b hb
      rw [List.mem_cons] at hb
      rcases hb with rfl | hb
      · simp; omega
      · exact ih (d.drop 16).length (by simp; omega) _ (by simp; omega) rfl b hb

theorem flatten_length_full (bs : List Bytes) (h : Full bs) : bs.flatten.length = 16 * bs.length := by
  induction bs with
  | nil => rfl
  | cons b bs ih =>
    rw [List.flatten_cons, List.length_append, h b (by simp), ih (fun x hx => h x (by simp [hx]))]
    simp; omega

theorem blocks16_append (a b : Bytes) (h : a.length % 16 = 0) :
    blocks16 (a ++ b) = blocks16 a ++ blocks16 b := by
  induction hn : a.length using Nat.strongRecOn generalizing a with
  | _ n ih =>
    rcases Nat.eq_zero_or_pos a.length with h0 | hp
    · have : a = [] := List.length_eq_zero_iff.mp h0
      subst this; rw [blocks16_nil]; rfl
    · have e : a = a.take 16 ++ a.drop 16 := (List.take_append_drop 16 a).symm
      have hl : (a.take 16).length = 16 := by simp; omega
      have e1 : blocks16 (a ++ b) = a.take 16 :: blocks16 (a.drop 16 ++ b) := by
        rw [← blocks16_cons hl, ← List.append_assoc, ← e]
      have e2 : blocks16 a = a.take 16 :: blocks16 (a.drop 16) := by
        rw [← blocks16_cons hl, ← e]
      rw [e1, e2, ih (a.drop 16).length (by simp; omega) _ (by simp; omega) rfl]
      rfl

variable (P : Prims)

theorem cbcEnc_full {key iv : Bytes} {bs : List Bytes} (hk : validAesKeyLen key.length) (hiv : iv.length = 16)
    (h : Full bs) : Full (cbcEncBlocks P key iv bs) := by
  induction bs generalizing iv with
  | nil => intro b hb; simp [cbcEncBlocks] at hb
  | cons b bs ih =>
    have hb := h b (by simp)
    have hx : (P.aesEnc key (xorBytes b iv)).length = 16 :=
      P.aesEnc_length _ _ hk (by rw [xorBytes_length]; omega)
    intro c hc
    rw [cbcEncBlocks] at hc
    rw [List.mem_cons] at hc
    rcases hc with rfl | hc
    · exact hx
    · exact ih hx (fun x hx => h x (by simp [hx])) c hc

theorem cbcEnc_length (key iv : Bytes) (bs : List Bytes) :
    (cbcEncBlocks P key iv bs).length = bs.length := by
  induction bs generalizing iv with
  | nil => rfl
  | cons b bs ih => simp [cbcEncBlocks, ih]

theorem cbcDec_cbcEnc {key iv : Bytes} {bs : List Bytes} (hk : validAesKeyLen key.length) (hiv : iv.length = 16)
    (h : Full bs) : cbcDecBlocks P key iv (cbcEncBlocks P key iv bs) = bs := by
  induction bs generalizing iv with
  | nil => rfl
  | cons b bs ih =>
    have hb := h b (by simp)
    have hxl : (xorBytes b iv).length = 16 := by rw [xorBytes_length]; omega
    have hx : (P.aesEnc key (xorBytes b iv)).length = 16 := P.aesEnc_length _ _ hk hxl
    rw [cbcEncBlocks, cbcDecBlocks, P.aesDec_aesEnc _ _ hk hxl, ih hx (fun x hx => h x (by simp [hx]))]
    rw [xorBytes_cancel _ _ (by omega)]

theorem lastBlock_cons (iv b : Bytes) (bs : List Bytes) : lastBlock iv (b :: bs) = lastBlock b bs := by
  induction bs generalizing iv b with
  | nil => rfl
  | cons c cs ih =>
    rw [lastBlock, ih iv c, ih b c]
    simp

theorem cbcEnc_append (key iv : Bytes) (as bs : List Bytes) :
    cbcEncBlocks P key iv (as ++ bs)
      = cbcEncBlocks P key iv as ++ cbcEncBlocks P key (lastBlock iv (cbcEncBlocks P key iv as)) bs := by
  induction as generalizing iv with
  | nil => rfl
  | cons a as ih =>
    simp only [List.cons_append, cbcEncBlocks, ih]
    rw [lastBlock_cons]

theorem cbcDec_append (key iv : Bytes) (as bs : List Bytes) :
    cbcDecBlocks P key iv (as ++ bs)
      = cbcDecBlocks P key iv as ++ cbcDecBlocks P key (lastBlock iv as) bs := by
  induction as generalizing iv with
  | nil => rfl
  | cons a as ih =>
    simp only [List.cons_append, cbcDecBlocks, ih, lastBlock_cons]

theorem cbcDec_length (key iv : Bytes) (bs : List Bytes) :
    (cbcDecBlocks P key iv bs).length = bs.length := by
  induction bs generalizing iv with
  | nil => rfl
  | cons b bs ih => simp [cbcDecBlocks, ih]

theorem lastBlock_full {iv : Bytes} {bs : List Bytes} (hiv : iv.length = 16) (h : Full bs) :
    (lastBlock iv bs).length = 16 := by
  induction bs generalizing iv with
  | nil => exact hiv
  | cons b bs ih =>
    rw [lastBlock_cons]
    exact ih (h b (by simp)) (fun x hx => h x (by simp [hx]))

theorem cbcDec_full {key iv : Bytes} {bs : List Bytes} (hk : validAesKeyLen key.length) (hiv : iv.length = 16)
    (h : Full bs) : Full (cbcDecBlocks P key iv bs) := by
  induction bs generalizing iv with
  | nil => intro b hb; simp [cbcDecBlocks] at hb
  | cons b bs ih =>
    have hb := h b (by simp)
    intro c hc
    rw [cbcDecBlocks, List.mem_cons] at hc
    rcases hc with rfl | hc
    · rw [xorBytes_length, P.aesDec_length _ _ hk hb]; omega
    · exact ih hb (fun x hx => h x (by simp [hx])) c hc

/-! padding -/

theorem aesPad_length (d : Bytes) : (aesPad d).length = 16 * (d.length / 16 + 1) := by
  simp [aesPad]; omega

theorem aesUnPad_pad (d : Bytes) : aesUnPad (aesPad d) = .ok d := by
  unfold aesPad
  simp only
  generalize hp : 16 - d.length % 16 = p
  have h1 : 1 ≤ p := by omega
  have h2 : p ≤ 16 := by omega
  unfold aesUnPad
  have : (d ++ List.replicate p (UInt8.ofNat p)).getLast? = some (UInt8.ofNat p) := by
    rw [List.getLast?_append, List.getLast?_replicate]
    rw [if_neg (by omega)]
    rfl
  rw [this]
  simp only
  have e : (UInt8.ofNat p).toNat = p := by simp; omega
  rw [e, sliceTo_neg _ _ (by omega)]
  simp

/-! comparing MACs -/

theorem u8_xor_eq_zero (a b : UInt8) : a ^^^ b = 0 ↔ a = b := by
  rw [UInt8.xor_eq_zero_iff]

theorem u8_or_eq_zero (a b : UInt8) : a ||| b = 0 ↔ a = 0 ∧ b = 0 := by
  rw [UInt8.or_eq_zero_iff]

theorem orFold_zero (l : List (UInt8 × UInt8)) (r : UInt8) :
    l.foldl (fun r (p : UInt8 × UInt8) => r ||| (p.1 ^^^ p.2)) r = 0 ↔ r = 0 ∧ ∀ p ∈ l, p.1 = p.2 := by
  induction l generalizing r with
  | nil => simp
  | cons p l ih =>
    rw [List.foldl_cons, ih, u8_or_eq_zero, u8_xor_eq_zero]
    simp [and_assoc]

theorem zip_all_eq {a b : Bytes} (hl : b.length = a.length) (h : ∀ p ∈ List.zip a b, p.1 = p.2) : a = b := by
  induction a generalizing b with
  | nil => simp at hl; exact hl.symm
  | cons x a ih =>
    cases b with
    | nil => simp at hl
    | cons y b =>
      have := h (x, y) (by simp)
      have ht := ih (by simpa using hl) (fun p hp => h p (by simp [hp]))
      simp at this
      rw [this, ht]

theorem zip_self_eq (a : Bytes) : ∀ p ∈ List.zip a a, p.1 = p.2 := by
  induction a with
  | nil => simp
  | cons x a ih => intro p hp; simp at hp; rcases hp with rfl | hp; rfl; exact ih p hp

theorem VerifySignedData_iff (mac sig : Bytes) : VerifySignedData mac sig = decide (sig = mac) := by
  unfold VerifySignedData
  by_cases hl : sig.length = mac.length
  · rw [if_neg (by simpa using hl)]
    rw [Bool.eq_iff_iff]
    simp only [beq_iff_eq, decide_eq_true_eq]
    rw [orFold_zero]
    constructor
    · intro h; exact (zip_all_eq hl h.2).symm
    · intro h; subst h; exact ⟨rfl, zip_self_eq _⟩
  · rw [if_pos (by simpa using hl)]
    symm
    rw [decide_eq_false_iff_not]
    intro h; exact hl (by rw [h])

theorem hmacSha1_length (key msg : Bytes) : (hmacSha1 P key msg).length = 20 := P.sha1_length _

/-! identifiers -/

theorem headerOf_encode (b : Bytes) : headerOf (Base64WSEncode b) = .ok ([0] ++ b) := by
  unfold headerOf
  rw [Base64WSDecode_encode]
  rfl

theorem take4_sha1 (m : Bytes) : ((P.sha1 m).take KEY_HASH_SIZE).length = 4 := by
  simp [P.sha1_length, KEY_HASH_SIZE]

/-- every identifier is the encoding of four bytes -/
theorem Key.hashId_form {k : Key} {h : Bytes} (hk : k.hashId P = .ok h) :
    ∃ b : Bytes, b.length = 4 ∧ h = Base64WSEncode b := by
  cases k with
  | aes k =>
    simp only [Key.hashId, AesKey.hashId, bind, Except.bind] at hk
    split at hk; · cases hk
    split at hk; · cases hk
    cases hk
    exact ⟨_, take4_sha1 P _, rfl⟩
  | hmac k =>
    simp only [Key.hashId, HmacKey.hashId, bind, Except.bind] at hk
    split at hk; · cases hk
    cases hk
    exact ⟨_, take4_sha1 P _, rfl⟩
  | dsaPriv k => cases hk; exact ⟨_, take4_sha1 P _, rfl⟩
  | dsaPub k => cases hk; exact ⟨_, take4_sha1 P _, rfl⟩
  | rsaPriv k => cases hk; exact ⟨_, take4_sha1 P _, rfl⟩
  | rsaPub k => cases hk; exact ⟨_, take4_sha1 P _, rfl⟩

theorem headerOf_length {k : Key} {h hd : Bytes} (hk : k.hashId P = .ok h) (hh : headerOf h = .ok hd) :
    hd.length = 5 ∧ hd.head? = some 0 := by
  obtain ⟨b, hb, rfl⟩ := k.hashId_form P hk
  rw [headerOf_encode] at hh
  cases hh
  simp [hb]

end Verif
