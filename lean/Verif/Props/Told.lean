import Verif.Model.Told
import Verif.Spec.Told
import Verif.Props.RsaAccept
import Verif.Props.AesText
import Verif.Lemmas.JsonGrammar
/-
Property theorems C88: what the exception of a failed decryption says, and the steps of comparing MACs.
-/
namespace Verif.Props
open Verif Spec

variable (P : Prims)

/-! ### The same function, with texts -/

theorem forget_told {α : Type} (x : Py α) : (Py.told x).forget = x := by cases x <;> rfl

theorem forget_bind {α β : Type} (x : Py α) (f : α → Told β) :
    Told.forget (Py.told x >>= f) = x >>= fun a => (f a).forget := by cases x <;> rfl

theorem forget_ite {α : Type} (p : Prop) [Decidable p] (x y : Told α) :
    Told.forget (if p then x else y) = if p then x.forget else y.forget := by split <;> rfl

theorem forget_error {α : Type} (r : Raised) : Told.forget (.error r : Told α) = .error r.err := rfl
theorem forget_ok {α : Type} (a : α) : Told.forget (.ok a) = .ok a := rfl

theorem aes_forget (k : AesKey) (input : Bytes) : (k.DecryptTold P input).forget = k.Decrypt P input := by
  unfold AesKey.DecryptTold AesKey.Decrypt
  simp only [forget_ite, forget_bind, forget_told]
  rfl

theorem oaep_forget (count : Py Nat) (encoded : Bytes) :
    (oaepDecodeTold P count encoded).forget = oaepDecode P count encoded := by
  unfold oaepDecodeTold oaepDecode
  rw [forget_ite]
  by_cases h : encoded.length < 2 * HLEN + 2
  · rw [if_pos h, if_pos h]; rfl
  · rw [if_neg h, if_neg h, forget_bind]
    refine congrArg _ (funext fun k => ?_)
    simp only
    rw [forget_bind]
    refine congrArg _ (funext fun sm => ?_)
    rw [forget_bind]
    refine congrArg _ (funext fun dm => ?_)
    rw [forget_ite, forget_error]
    generalize sliceTo (Xor _ dm) _ = lh
    generalize (sliceFrom (Xor _ dm) _).dropWhile _ = rest
    congr 1
    cases rest with
    | nil => simp only [forget_error]
    | cons x msg => simp only [forget_ite, forget_error, forget_ok]

theorem rsa_forget (key : RsaPrivateKey) (input : Bytes) : (key.DecryptTold P input).forget = key.Decrypt P input := by
  unfold RsaPrivateKey.DecryptTold RsaPrivateKey.Decrypt RsaPrivateKey.Decode
  simp only [forget_bind, oaep_forget]

theorem header_forget (c : Czar) (hd : Bytes) : (c.ParseHeaderTold hd).forget = c.ParseHeader hd := by
  unfold Czar.ParseHeaderTold Czar.ParseHeader
  split
  · rfl
  · rw [forget_ite]
    congr 1
    unfold Czar.GetKeyTold
    split
    · next h => rw [h]; rfl
    · exact forget_told _

/-- C88: leaving the texts away gives the `Decrypt` of all the other claims. -/
theorem C88_same (c : Czar) (input : Bytes) (dec : Option (Bytes → Py Bytes)) :
    (c.DecryptTold P input dec).forget = c.Decrypt P input dec := by
  unfold Czar.DecryptTold Czar.Decrypt
  rw [forget_bind]
  refine congrArg _ (funext fun data => ?_)
  rw [forget_ite]
  congr 1
  rw [← header_forget]
  cases c.ParseHeaderTold (sliceTo data HEADER_SIZE) with
  | error r => rfl
  | ok key =>
    change (key.DecryptTold P data).forget = key.Decrypt P data
    cases key with
    | aes k => exact aes_forget P k data
    | rsaPriv k => exact rsa_forget P k data
    | _ => rfl

/-! ### Numbers in texts -/

theorem decDigits_value (n : Nat) : decimal (decDigits n) = n := by
  have snoc : ∀ (l : Bytes) (d : UInt8), decimal (l ++ [d]) = decimal l * 10 + (d.toNat - 48) := by
    intro l d
    induction l with
    | nil => simp [decimal]
    | cons c t ih => simp only [List.cons_append, decimal, ih, List.length_append, List.length_singleton, Nat.pow_succ]; ring
  induction n using Nat.strongRecOn with
  | _ n ih =>
    unfold decDigits
    split
    · next h =>
      have : (UInt8.ofNat (48 + n)).toNat = 48 + n := by simp; omega
      simp only [decimal, this, List.length_nil]
      omega
    · next h =>
      have : (UInt8.ofNat (48 + n % 10)).toNat = 48 + n % 10 := by simp; omega
      rw [snoc, ih _ (by omega), this]
      omega

theorem decDigits_digits (n : Nat) : Digits (decDigits n) := by
  refine ⟨decDigits_ne_nil n, fun c hc => ?_⟩
  have := decDigits_all n c hc
  simp only [isDigit, Bool.and_eq_true, decide_eq_true_eq] at this
  exact ⟨UInt8.le_iff_toNat_le.mpr this.1, UInt8.le_iff_toNat_le.mpr this.2⟩

theorem decDigits_zero (n : Nat) : (decDigits n).head? = some 48 → decDigits n = [48] := by
  intro h
  rcases Nat.eq_zero_or_pos n with rfl | hn
  · unfold decDigits; rfl
  · obtain ⟨c, t, h1, h2, _⟩ := decDigits_head n hn
    rw [h1] at h
    exact absurd (Option.some.inj h) h2

theorem quotes_decDigits (a : String) (n : Nat) (b : String) : Quotes a n b (bstr a ++ decDigits n ++ bstr b) :=
  ⟨_, decDigits_digits n, decDigits_value n, decDigits_zero n, rfl⟩

theorem decimal_eq (d : Bytes) : decimal d = digitsVal d := by
  have gen : ∀ (d : Bytes) (a : Nat), d.foldl (fun a c => a * 10 + (c.toNat - 48)) a = a * 10 ^ d.length + decimal d := by
    intro d
    induction d with
    | nil => intro a; simp [decimal]
    | cons c t ih => intro a; rw [List.foldl_cons, ih, decimal, List.length_cons, Nat.pow_succ]; ring
  rw [digitsVal, gen]; simp

/-- there is one text for every number -/
theorem quotes_iff (a : String) (n : Nat) (b : String) (t : Bytes) :
    Quotes a n b t ↔ t = bstr a ++ decDigits n ++ bstr b := by
  constructor
  · rintro ⟨d, ⟨hne, hd⟩, hv, h0, rfl⟩
    have hall : ∀ c ∈ d, isDigit c = true := by
      intro c hc
      simp only [isDigit, Bool.and_eq_true, decide_eq_true_eq]
      exact ⟨UInt8.le_iff_toNat_le.mp (hd c hc).1, UInt8.le_iff_toNat_le.mp (hd c hc).2⟩
    cases d with
    | nil => exact absurd rfl hne
    | cons c l =>
      by_cases hc : c = 48
      · have := h0 (by rw [hc]; rfl)
        rw [this] at hv ⊢
        rw [← hv, show decDigits (decimal [48]) = [48] by rw [show decimal [48] = 0 from rfl]; unfold decDigits; rfl]
      · have := (JsonText.decDigits_digitsVal l (fun x hx => hall x (by simp [hx])) c (hall c (by simp)) hc).2
        rw [← decimal_eq, hv] at this
        rw [this]
  · rintro rfl
    exact quotes_decDigits a n b

/-- the number can be read off the text -/
theorem quotes_inj {a b : String} {m n : Nat} {t : Bytes} (h1 : Quotes a m b t) (h2 : Quotes a n b t) : m = n := by
  obtain ⟨d, _, h3, _, h4⟩ := h1
  obtain ⟨d', _, h5, _, h6⟩ := h2
  rw [h4] at h6
  have := List.append_cancel_right h6
  have := List.append_cancel_left this
  rw [← h3, ← h5, this]

theorem bytesOf_bounds (m : Nat) : m < 256 ^ bytesOf m ∧ (0 < m → 256 ^ (bytesOf m - 1) ≤ m) := by
  induction m using Nat.strongRecOn with
  | _ m ih =>
    unfold bytesOf
    split
    · next h => exact ⟨by simpa using h, fun h => by simp; omega⟩
    · next h =>
      obtain ⟨h1, h2⟩ := ih (m / 256) (by omega)
      have h2 := h2 (by omega)
      have hp : 0 < bytesOf (m / 256) := by unfold bytesOf; split <;> omega
      refine ⟨by rw [Nat.pow_succ]; omega, fun _ => ?_⟩
      rw [Nat.add_sub_cancel]
      have e : 256 ^ bytesOf (m / 256) = 256 ^ (bytesOf (m / 256) - 1) * 256 := by
        rw [← Nat.pow_succ]; congr 1; omega
      rw [e]; omega

theorem longToBytes_length (m : Nat) : (longToBytes m).length = bytesOf m := by
  rcases Nat.eq_zero_or_pos m with rfl | hm
  · unfold bytesOf; rfl
  · have e : longToBytes m = BigIntToBytes m := by unfold longToBytes; rw [if_neg (by omega)]
    obtain ⟨h1, h2⟩ := byteLength_bounds (n := m) (by omega)
    obtain ⟨h3, h4⟩ := bytesOf_bounds m
    have h4 := h4 hm
    have hl : 0 < (BigIntToBytes m).length := List.length_pos_of_ne_nil (BigIntToBytes_ne_nil (by omega))
    have hb : 0 < bytesOf m := by unfold bytesOf; split <;> omega
    have h5 := (Nat.pow_lt_pow_iff_right (a := 256) (by norm_num)).mp (lt_of_le_of_lt h1 h3)
    have h6 := (Nat.pow_lt_pow_iff_right (a := 256) (by norm_num)).mp (lt_of_le_of_lt h4 h2)
    rw [e]
    omega

/-! ### What RSA decryption says -/

/-- keys.py:732-754, once the block is padded -/
def oaepTailTold (encoded : Bytes) : Told Bytes := do
  let maskedSeed := sliceTo encoded HLEN
  let maskedDatablock := sliceFrom encoded HLEN
  let seedMask ← (MGF P maskedDatablock HLEN).told
  let seed := Xor maskedSeed seedMask
  let datablockMask ← (MGF P seed maskedDatablock.length).told
  let datablock := Xor maskedDatablock datablockMask
  let labelHash := sliceTo datablock HLEN
  if labelHash ≠ Hash P [[]] then .error ⟨.keyczarError, some (bstr "OAEP Decoding Error - hash_id is invalid")⟩
  else
    match (sliceFrom datablock HLEN).dropWhile (· = 0) with
    | [] => .error ⟨.indexError, none⟩
    | c :: msg => if c ≠ 1 then .error ⟨.keyczarError, some (bstr "OAEP Decoding Error - expected a 1 value")⟩ else .ok msg

/-- what an unmasked data block gives -/
def oaepParseTold (DB : Bytes) : Told Bytes :=
  if DB.take 20 ≠ P.sha1 [] then .error ⟨.keyczarError, some (bstr "OAEP Decoding Error - hash_id is invalid")⟩
  else
    match strip0 (DB.drop 20) with
    | [] => .error ⟨.indexError, none⟩
    | c :: msg => if c ≠ 1 then .error ⟨.keyczarError, some (bstr "OAEP Decoding Error - expected a 1 value")⟩ else .ok msg

theorem oaepTailTold_mask {seed DB : Bytes} (hs : seed.length = 20) (hl : DB.length ≤ 2 ^ 32) :
    oaepTailTold P (oaepMask P.sha1 seed DB) = oaepParseTold P DB := by
  unfold oaepTailTold oaepMask
  simp only
  generalize hM : Spec.xor DB (mgf1 P.sha1 seed DB.length) = MDB
  have hMl : MDB.length = DB.length := by rw [← hM, xor_length, mgf1_length]; omega
  have hms : (Spec.xor seed (mgf1 P.sha1 MDB 20)).length = 20 := by rw [xor_length, hs, mgf1_length]; omega
  have s1 : sliceTo (Spec.xor seed (mgf1 P.sha1 MDB 20) ++ MDB) ((HLEN : Nat) : Int) = Spec.xor seed (mgf1 P.sha1 MDB 20) := by
    rw [sliceTo_nat]
    rw [show HLEN = (Spec.xor seed (mgf1 P.sha1 MDB 20)).length from hms.symm, List.take_left]
  have s2 : sliceFrom (Spec.xor seed (mgf1 P.sha1 MDB 20) ++ MDB) ((HLEN : Nat) : Int) = MDB := by
    rw [sliceFrom_nat]
    rw [show HLEN = (Spec.xor seed (mgf1 P.sha1 MDB 20)).length from hms.symm, List.drop_left]
  rw [s1, s2, show HLEN = 20 from rfl, MGF_ok P _ _ (by omega)]
  simp only [Py.told, bind, Except.bind]
  rw [xor_eq_Xor (by rw [hms, mgf1_length]), xor_cancel _ _ (by rw [hs, mgf1_length])]
  rw [hMl, MGF_ok P _ _ (by omega)]
  simp only
  rw [xor_eq_Xor (by rw [hMl, mgf1_length]), ← hM, xor_cancel _ _ (by rw [mgf1_length])]
  rw [sliceTo_nat, sliceFrom_nat]
  have s5 : Hash P [[]] = P.sha1 [] := by simp [Hash]
  rw [s5]
  rfl

theorem oaepDecodeTold_block (em : Bytes) (h : 42 ≤ (strip0 em).length) :
    oaepDecodeTold P (.ok em.length) (longToBytes (beNat em)) = oaepTailTold P (decoderBlock em) := by
  unfold oaepDecodeTold
  have hne : strip0 em ≠ [] := by intro h0; rw [h0] at h; simp at h
  rw [longToBytes_beNat, if_neg hne, if_neg (by simp only [HLEN]; omega)]
  simp only [Py.told, bind, Except.bind]
  have hpad : (if ((em.length : Nat) : Int) - ((strip0 em).length : Int) > 1 then
      List.replicate (((em.length : Nat) : Int) - ((strip0 em).length : Int) - 1).toNat 0 ++ strip0 em else strip0 em)
      = decoderBlock em := by
    obtain ⟨z, hz⟩ := strip0_decomp em
    have hzl : z + (strip0 em).length = em.length := by
      have := congrArg List.length hz
      simp at this
      omega
    unfold decoderBlock
    cases z with
    | zero =>
      have e : em = strip0 em := by simpa using hz
      have hh := strip0_head em
      rw [← e] at hh
      rw [if_neg hh, if_neg (by omega)]
      exact e.symm
    | succ y =>
      have ht : em = 0 :: (List.replicate y 0 ++ strip0 em) := by
        rw [List.replicate_succ, List.cons_append] at hz
        exact hz
      have h0 : em.head? = some 0 := by rw [ht]; rfl
      have htl : em.tail = List.replicate y 0 ++ strip0 em := by
        conv_lhs => rw [ht]
        rfl
      rw [if_pos h0, htl]
      split
      · congr 2; omega
      · have : y = 0 := by omega
        subst this; rfl
  rw [hpad]
  rfl

/-- the block of `em` hides one data block, and decoding reads it -/
theorem oaepDecodeTold_hides {em seed DB : Bytes} (hh : Hides P.sha1 em seed DB) (hl : em.length ≤ 2 ^ 32)
    (h : 42 ≤ (strip0 em).length) :
    oaepDecodeTold P (.ok em.length) (longToBytes (beNat em)) = oaepParseTold P DB := by
  obtain ⟨hs, hc⟩ := hh
  rw [oaepDecodeTold_block P em h]
  have hml := oaepMask_length P (DB := DB) hs
  rcases hc with hc | ⟨hc, hz⟩
  · have : decoderBlock em = oaepMask P.sha1 seed DB := by
      unfold decoderBlock
      rw [hc]; rfl
    rw [this]
    apply oaepTailTold_mask P hs
    rw [hc, List.length_cons] at hl
    omega
  · have : decoderBlock em = oaepMask P.sha1 seed DB := by
      unfold decoderBlock
      rw [if_neg hz]; exact hc
    rw [this]
    apply oaepTailTold_mask P hs
    rw [hc] at hl
    omega

theorem oaepDecodeTold_small (m : Nat) (count : Py Nat) (h : m < 256 ^ 41) :
    oaepDecodeTold P count (longToBytes m) = .error ⟨.keyczarError,
      some (bstr "OAEP Decoding Error - encoded_message is too small: " ++ decDigits (bytesOf m))⟩ := by
  have hl := longToBytes_length m
  have : bytesOf m < 2 * HLEN + 2 := by
    obtain ⟨_, h2⟩ := bytesOf_bounds m
    rcases Nat.eq_zero_or_pos m with rfl | hm
    · unfold bytesOf; decide
    · have := (Nat.pow_lt_pow_iff_right (a := 256) (by norm_num)).mp (lt_of_le_of_lt (h2 hm) h)
      simp only [HLEN]; omega
  unfold oaepDecodeTold
  rw [if_pos (by omega), hl]

/-- 42 bytes after the leading zeros -/
theorem strip0_large {em : Bytes} : 42 ≤ (strip0 em).length ↔ 256 ^ 41 ≤ beNat em := by
  obtain ⟨z, hz⟩ := strip0_decomp em
  have hv : beNat em = beNat (strip0 em) := by
    conv_lhs => rw [hz]
    exact beNat_replicate_zero _ _
  have hl := longToBytes_length (beNat em)
  rw [longToBytes_beNat] at hl
  obtain ⟨h1, h2⟩ := bytesOf_bounds (beNat em)
  constructor
  · intro h
    rw [if_neg (by intro h0; rw [h0] at h; simp at h)] at hl
    have hp : 0 < beNat em := by
      by_contra h0
      have : beNat em = 0 := by omega
      rw [this] at hl
      unfold bytesOf at hl
      simp at hl; omega
    refine le_trans ?_ (h2 hp)
    exact Nat.pow_le_pow_right (by norm_num) (by omega)
  · intro h
    have h3 := beNat_lt (strip0 em)
    rw [← hv] at h3
    have := (Nat.pow_lt_pow_iff_right (a := 256) (by norm_num)).mp (lt_of_le_of_lt h h3)
    omega

theorem oaepParseTold_says (DB : Bytes) (m : Nat) (hm : 256 ^ 41 ≤ m) (r : Raised) :
    oaepParseTold P DB = .error r ↔ RsaSays P.sha1 m DB r.err r.text := by
  unfold oaepParseTold
  constructor
  · intro h
    split at h
    · next h1 => cases h; exact .label hm h1
    · next h1 =>
      rw [ne_eq, not_not] at h1
      obtain ⟨z, hz⟩ := strip0_decomp (DB.drop 20)
      have hh := strip0_head (DB.drop 20)
      have hDB : DB = P.sha1 [] ++ DB.drop 20 := by rw [← h1, List.take_append_drop]
      generalize strip0 (DB.drop 20) = rest at *
      cases rest with
      | nil =>
        cases h
        exact .zeros hm z (by rw [hDB, hz, List.append_nil])
      | cons c msg =>
        simp only at h
        split at h
        · next h2 =>
          cases h
          refine .one hm z c msg (by simpa using hh) h2 ?_
          rw [hDB, hz, List.append_assoc]
        · cases h
  · have e1 : ∀ x : Bytes, (P.sha1 [] ++ x).take 20 = P.sha1 [] := by
      intro x; rw [← P.sha1_length [], List.take_left]
    have e2 : ∀ x : Bytes, (P.sha1 [] ++ x).drop 20 = x := by
      intro x
      conv_lhs => rw [← P.sha1_length []]
      rw [List.drop_left]
    intro h
    obtain ⟨err, text⟩ := r
    cases h with
    | small t h _ => omega
    | label _ hl => rw [if_pos hl]
    | zeros _ z hz =>
      subst hz
      have e3 : strip0 (List.replicate z 0) = [] := by
        have := strip0_replicate z []
        rw [List.append_nil] at this
        rw [this]; rfl
      rw [if_neg (by rw [e1]; simp), e2, e3]
    | one _ z c rest h0 h1 hz =>
      subst hz
      have e3 : strip0 (List.replicate z 0 ++ c :: rest) = c :: rest := by
        rw [strip0_replicate]
        exact strip0_of_head (by simpa using h0)
      rw [List.append_assoc, if_neg (by rw [e1]; simp), e2, e3]
      simp only
      rw [if_pos h1]

theorem DecryptTold_m (key : RsaPrivateKey) (hv : RsaValid key.key) (input : Bytes) (m : Nat) (hm : m < key.key.n)
    (hc : m ^ key.key.e % key.key.n = beNat (input.drop 5)) :
    key.DecryptTold P input = oaepDecodeTold P (.ok (BigIntToBytes key.key.n).length) (longToBytes m) := by
  have hn : key.key.n ≠ 0 := by have := hv.n_pos; omega
  obtain ⟨c, _, _, h3, h4⟩ := C49_decrypt_encrypt P key.key hv _ hm
  rw [h3, hc] at h4
  unfold RsaPrivateKey.DecryptTold RsaObj.decrypt
  simp only [sliceFrom_nat, BytesToLong_eq, show HEADER_SIZE = 5 from rfl, h4, numBytes, if_neg hn]
  rfl

/-- C88: what RSA decryption says about the number `m` that a ciphertext decrypts to.  If the `k` bytes of `m` hide the
data block `DB`, then exactly the failures of `RsaSays` come out: the length of a small number, or which of the tests
of the data block failed first. -/
theorem C88_rsa (key : RsaPrivateKey) (hv : RsaValid key.key) (hk : (BigIntToBytes key.key.n).length ≤ 2 ^ 32)
    (input em seed DB : Bytes) (hl : em.length = (BigIntToBytes key.key.n).length) (hm : beNat em < key.key.n)
    (hc : beNat em ^ key.key.e % key.key.n = beNat (input.drop 5)) (hh : Hides P.sha1 em seed DB) (r : Raised) :
    key.DecryptTold P input = .error r ↔ RsaSays P.sha1 (beNat em) DB r.err r.text := by
  rw [DecryptTold_m P key hv input _ hm hc]
  by_cases hs : beNat em < 256 ^ 41
  · rw [oaepDecodeTold_small P _ _ hs]
    constructor
    · intro h
      cases h
      exact .small _ hs (by simpa [bstr] using quotes_decDigits "OAEP Decoding Error - encoded_message is too small: " (bytesOf (beNat em)) "")
    · intro h
      obtain ⟨err, text⟩ := r
      cases h with
      | small t _ ht => rw [(quotes_iff _ _ _ _).mp ht]; simp [bstr]
      | label h _ => omega
      | zeros h _ _ => omega
      | one h _ _ _ _ _ _ => omega
  · have h42 := strip0_large.mpr (not_lt.mp hs)
    rw [← hl, oaepDecodeTold_hides P hh (by omega) h42]
    exact oaepParseTold_says P DB _ (by omega) r

/-- C88: the hypotheses cover every ciphertext below a modulus of at least 21 bytes. -/
theorem C88_rsa_covers (key : RsaPrivateKey) (hv : RsaValid key.key) (hk : 21 ≤ (BigIntToBytes key.key.n).length)
    (c : Nat) (hc : c < key.key.n) :
    ∃ em seed DB : Bytes, em.length = (BigIntToBytes key.key.n).length ∧ beNat em < key.key.n ∧
      beNat em ^ key.key.e % key.key.n = c ∧ Hides P.sha1 em seed DB := by
  obtain ⟨em, h1, h2, h3⟩ := exists_em_of_input P key hv c hc
  by_cases h0 : em.head? = some 0
  · obtain ⟨t, ht⟩ : ∃ t, em = 0 :: t := by
      cases em with
      | nil => cases h0
      | cons c t => simp at h0; exact ⟨t, by rw [h0]⟩
    obtain ⟨seed, DB, hs, _, he⟩ := exists_mask P t (by have := congrArg List.length ht; rw [List.length_cons] at this; omega)
    exact ⟨em, seed, DB, h1, h2, h3, hs, Or.inl (by rw [ht, he])⟩
  · obtain ⟨seed, DB, hs, _, he⟩ := exists_mask P em (by omega)
    exact ⟨em, seed, DB, h1, h2, h3, hs, Or.inr ⟨he, h0⟩⟩

/-- C88: the exception tells whether the decrypted number is below 256^41, and then how many bytes it has: for every
number `m` below the modulus and every ciphertext of it, the text says that `L` bytes are too small exactly when `m` is
below 256^41 and has `L` bytes. -/
theorem C88_rsa_length (key : RsaPrivateKey) (hv : RsaValid key.key) (hk : (BigIntToBytes key.key.n).length ≤ 2 ^ 32)
    (input : Bytes) (m L : Nat) (hm : m < key.key.n) (hc : m ^ key.key.e % key.key.n = beNat (input.drop 5)) :
    (∃ r t, key.DecryptTold P input = .error r ∧ r.text = some t ∧
      Quotes "OAEP Decoding Error - encoded_message is too small: " L "" t) ↔ m < 256 ^ 41 ∧ bytesOf m = L := by
  rw [DecryptTold_m P key hv input m hm hc]
  constructor
  · rintro ⟨r, t, h1, h2, h3⟩
    by_cases hs : m < 256 ^ 41
    · refine ⟨hs, ?_⟩
      rw [oaepDecodeTold_small P _ _ hs] at h1
      cases h1
      cases h2
      refine quotes_inj ?_ h3
      simpa [bstr] using quotes_decDigits "OAEP Decoding Error - encoded_message is too small: " (bytesOf m) ""
    · exfalso
      obtain ⟨em, h4, h5⟩ := exists_em (n := key.key.n) (by omega) hm
      have h42 : 42 ≤ (strip0 em).length := strip0_large.mpr (by omega)
      obtain ⟨seed, DB, hh⟩ := exists_hides P em h42
      rw [← h5, ← h4, oaepDecodeTold_hides P hh (by omega) h42, oaepParseTold_says P DB m (by omega)] at h1
      rw [(quotes_iff _ _ _ _).mp h3] at h2
      have no : ∀ s : String, (bstr s).take 26 ≠ (bstr "OAEP Decoding Error - encoded_message is too small: ").take 26 →
          some (bstr s) ≠ some (bstr "OAEP Decoding Error - encoded_message is too small: " ++ decDigits L ++ bstr "") := by
        intro s hs h
        apply hs
        rw [Option.some.inj h, List.append_assoc, List.take_append_of_le_length (by decide)]
      obtain ⟨err, text⟩ := r
      simp only at h2 h1
      rw [h2] at h1
      generalize hT : some (bstr "OAEP Decoding Error - encoded_message is too small: " ++ decDigits L ++ bstr "") = T at h1
      cases h1 with
      | small t h _ => omega
      | label _ _ => exact no "OAEP Decoding Error - hash_id is invalid" (by decide) hT.symm
      | zeros _ _ _ => cases hT
      | one _ _ _ _ _ _ _ => exact no "OAEP Decoding Error - expected a 1 value" (by decide) hT.symm
  · rintro ⟨hs, rfl⟩
    refine ⟨_, _, oaepDecodeTold_small P _ _ hs, rfl, ?_⟩
    simpa [bstr] using quotes_decDigits "OAEP Decoding Error - encoded_message is too small: " (bytesOf m) ""

/-- C88: and so, for a ciphertext `c` of an unknown number `m` and any factor `s`, one submission of a number computed
from `c`, `s` and the public key tells whether `m * s` modulo the modulus is below 256^41 and its length. -/
theorem C88_rsa_multiples (key : RsaPrivateKey) (hv : RsaValid key.key) (hk : (BigIntToBytes key.key.n).length ≤ 2 ^ 32)
    (hd : Bytes) (h5 : hd.length = 5) (c m s L : Nat) (hc : m ^ key.key.e % key.key.n = c) :
    (∃ r t, key.DecryptTold P (hd ++ longToBytes (c * s ^ key.key.e % key.key.n)) = .error r ∧ r.text = some t ∧
      Quotes "OAEP Decoding Error - encoded_message is too small: " L "" t) ↔
      m * s % key.key.n < 256 ^ 41 ∧ bytesOf (m * s % key.key.n) = L := by
  apply C88_rsa_length P key hv hk _ _ _ (Nat.mod_lt _ hv.n_pos)
  rw [show (hd ++ longToBytes (c * s ^ key.key.e % key.key.n)).drop 5 = longToBytes (c * s ^ key.key.e % key.key.n) by
    rw [← h5, List.drop_left], longToBytes_value, ← hc, ← Nat.pow_mod, Nat.mul_pow]
  conv_rhs => rw [Nat.mul_mod, Nat.mod_mod, ← Nat.mul_mod]

/-- instance: the number 5 sent to a key of 512 bits: one byte -/
example : ∃ r t, exRsa.DecryptTold realPrims ([0, 1, 2, 3, 4] ++ longToBytes (5 ^ exRsa.key.e % exRsa.key.n)) = .error r ∧
    r.text = some t ∧ Quotes "OAEP Decoding Error - encoded_message is too small: " 1 "" t :=
  (C88_rsa_length realPrims exRsa exRsaObj_valid (by rw [exRsa_length]; decide) _ 5 1 (by decide +kernel)
    (by rw [List.drop_left' (by rfl), longToBytes_value])).mpr
    ⟨by norm_num, by unfold bytesOf; rfl⟩

/-- instance: the length of a number can be read off: 300 has two bytes and not one -/
example : bytesOf 300 = 2 := by unfold bytesOf; unfold bytesOf; rfl

/-- instance: the data block of 23 zeros after the hash: `IndexError` without a text -/
example : exRsa.DecryptTold realPrims ([0, 1, 2, 3, 4] ++ longToBytes
    (beNat (0 :: oaepMask realPrims.sha1 exSeed (realPrims.sha1 [] ++ List.replicate 23 0)) ^ exRsa.key.e % exRsa.key.n)) =
      .error ⟨.indexError, none⟩ := by
  refine (C88_rsa realPrims exRsa exRsaObj_valid (by rw [exRsa_length]; decide) _ _ exSeed
    (realPrims.sha1 [] ++ List.replicate 23 0) ?_ ?_ ?_ ⟨rfl, .inl rfl⟩ _).mpr (.zeros ?_ 23 rfl)
  · rw [exRsa_length]; decide +kernel
  · decide +kernel
  · rw [List.drop_left' (by rfl), longToBytes_value]
  · decide +kernel

/-! ### What AES decryption says -/

theorem aesDecryptTold_split (k : AesKey) (hd iv body tag : Bytes)
    (hhd : hd.length = 5) (hiv : iv.length = 16) (htag : tag.length = 20) :
    k.DecryptTold P (hd ++ iv ++ body ++ tag) = (do
      if (← (k.hmacKey.Verify P (hd ++ iv ++ body) tag).told) then do
        let kb ← k.keyBytes.told
        let cipher ← (CbcObj.new kb iv).told
        let (plain, _) ← (cipher.decrypt P body).told
        (aesUnPad plain).told
      else .error InvalidSignatureError) := by
  unfold AesKey.DecryptTold
  have e1 : sliceFrom (hd ++ iv ++ body ++ tag) ((HEADER_SIZE : Nat) : Int) = iv ++ body ++ tag := by
    rw [sliceFrom_nat, show HEADER_SIZE = hd.length from hhd.symm]
    simp only [List.append_assoc, List.drop_left]
  have e2 : sliceTo (iv ++ body ++ tag) 16 = iv := by
    have := sliceTo_nat (iv ++ body ++ tag) 16
    rw [show ((16 : Nat) : Int) = 16 from rfl] at this
    rw [this, ← hiv, List.append_assoc, List.take_left]
  have e3 : sliceFrom (iv ++ body ++ tag) (-(HLEN : Int)) = tag := by
    have := sliceFrom_neg (iv ++ body ++ tag) 20 (by omega)
    simp only [HLEN]
    rw [this]
    rw [show (iv ++ body ++ tag).length - 20 = (iv ++ body).length from by simp; omega]
    rw [List.drop_left]
  have e4 : sliceTo (hd ++ iv ++ body ++ tag) (-(HLEN : Int)) = hd ++ iv ++ body := by
    have := sliceTo_neg (hd ++ iv ++ body ++ tag) 20 (by omega)
    simp only [HLEN]
    rw [this]
    rw [show (hd ++ iv ++ body ++ tag).length - 20 = (hd ++ iv ++ body).length from by simp; omega]
    rw [List.take_left]
  have e5 : slice (iv ++ body ++ tag) 16 (-(HLEN : Int)) = body := by
    unfold slice
    have := sliceTo_neg (iv ++ body ++ tag) 20 (by omega)
    simp only [HLEN]
    unfold sliceTo at this
    rw [this]
    have : clampIdx (iv ++ body ++ tag).length 16 = iv.length := by
      unfold clampIdx; simp; omega
    rw [this, show (iv ++ body ++ tag).length - 20 = (iv ++ body).length from by simp; omega]
    rw [List.take_left, List.drop_left]
  simp only [e1, e2, e3, e4, e5]
  rw [if_neg (by simp [HLEN]; omega)]

theorem ParseHeaderTold_ok {c : Czar} {hd : Bytes} {key : Key} (h : c.ParseHeader hd = .ok key) :
    c.ParseHeaderTold hd = .ok key := by
  rw [← header_forget] at h
  cases hx : c.ParseHeaderTold hd with
  | error r => rw [hx] at h; cases h
  | ok k => rw [hx] at h; cases h; rfl

theorem DecryptTold_dispatch {c : Czar} (hc : Loaded P c) (hd : c.keySet.Distinct P) {e : Entry} (he : e ∈ c.keySet.entries)
    {id : Bytes} (hid : KeyId P.sha1 e.key id) (rest : Bytes) :
    c.DecryptTold P (header id ++ rest) none = e.key.DecryptTold P (header id ++ rest) := by
  have hl : (header id).length = 5 := by simp [header, ((KeyId_iff P _ _).mp hid).1]
  obtain ⟨e', _, _, h3, h4⟩ := C21_lookup P c hc e he id hid
  rw [h4 hd] at h3
  unfold Czar.DecryptTold
  simp only [decodeWith, Py.told, bind, Except.bind]
  rw [if_neg (by simp [HEADER_SIZE, KEY_HASH_SIZE, hl]), sliceTo_nat,
    show HEADER_SIZE = (header id).length from hl.symm, List.take_left, ParseHeaderTold_ok h3]

/-- C88: a ciphertext for an AES key of a loaded set whose tag is not the MAC of the rest: always the same exception with
the same text, whatever the tag, the initialization vector, the body, the padding and the key. -/
theorem C88_aes (c : Czar) (hc : Loaded P c) (hd : c.keySet.Distinct P) (e : Entry) (he : e ∈ c.keySet.entries)
    (k : AesKey) (kb hb id : Bytes) (hk : e.key = .aes k) (hu : UsableAes k kb hb) (hid : KeyId P.sha1 e.key id)
    (iv body tag : Bytes) (hiv : iv.length = 16) (ht : tag.length = 20)
    (hw : tag ≠ hmac P.sha1 hb (header id ++ iv ++ body)) :
    c.DecryptTold P (header id ++ iv ++ body ++ tag) none =
      .error ⟨.invalidSignature, some (bstr "Invalid ciphertext signature")⟩ := by
  have hl : (header id).length = 5 := by simp [header, ((KeyId_iff P _ _).mp hid).1]
  have e0 : header id ++ iv ++ body ++ tag = header id ++ (iv ++ (body ++ tag)) := by simp only [List.append_assoc]
  rw [e0, DecryptTold_dispatch P hc hd he hid, ← e0, hk]
  change k.DecryptTold P _ = _
  rw [aesDecryptTold_split P k _ _ _ _ hl hiv ht]
  rw [← hmacSha1_spec] at hw
  simp only [HmacKey.Verify, HmacKey.Sign, hu.mac, bind, Except.bind, pure, Except.pure, VerifySignedData_iff, Py.told, hw,
    decide_false]
  rfl

/-- C88: fewer than 36 bytes after the header: the text says how many, not counting the header, -/
theorem C88_aes_short (c : Czar) (hc : Loaded P c) (hd : c.keySet.Distinct P) (e : Entry) (he : e ∈ c.keySet.entries)
    (k : AesKey) (id : Bytes) (hk : e.key = .aes k) (hid : KeyId P.sha1 e.key id) (rest : Bytes) (hr : rest.length < 36) :
    ∃ t, Quotes "Input of length " rest.length " is too short to be valid ciphertext." t ∧
      c.DecryptTold P (header id ++ rest) none = .error ⟨.shortCiphertext rest.length, some t⟩ := by
  have hl : (header id).length = 5 := by simp [header, ((KeyId_iff P _ _).mp hid).1]
  refine ⟨_, quotes_decDigits _ _ _, ?_⟩
  rw [DecryptTold_dispatch P hc hd he hid, hk]
  change k.DecryptTold P _ = _
  unfold AesKey.DecryptTold
  rw [sliceFrom_nat, show HEADER_SIZE = (header id).length from hl.symm, List.drop_left]
  rw [if_pos (show rest.length < 16 + HLEN from hr)]
  rfl

/-- C88: and fewer than five bytes: how many in all. -/
theorem C88_short (c : Czar) (input : Bytes) (h : input.length < 5) :
    ∃ t, Quotes "Input of length " input.length " is too short to be valid ciphertext." t ∧
      c.DecryptTold P input none = .error ⟨.shortCiphertext input.length, some t⟩ := by
  refine ⟨_, quotes_decDigits _ _ _, ?_⟩
  unfold Czar.DecryptTold
  simp only [decodeWith, Py.told, bind, Except.bind]
  rw [if_pos (by simpa [HEADER_SIZE, KEY_HASH_SIZE] using h)]
  rfl

/-- C88: another first byte than 0: the text says which. -/
theorem C88_version (c : Czar) (v : UInt8) (rest : Bytes) (h : 4 ≤ rest.length) (hv : v ≠ 0) :
    ∃ t, Quotes "Received a bad version number: " v.toNat "" t ∧
      c.DecryptTold P (v :: rest) none = .error ⟨.badVersion v.toNat, some t⟩ := by
  refine ⟨_, quotes_decDigits _ _ _, ?_⟩
  unfold Czar.DecryptTold
  simp only [decodeWith, Py.told, bind, Except.bind]
  rw [if_neg (by simp [HEADER_SIZE, KEY_HASH_SIZE]; omega), sliceTo_nat]
  have e : (v :: rest).take HEADER_SIZE = v :: rest.take 4 := rfl
  rw [e]
  unfold Czar.ParseHeaderTold
  simp only
  rw [if_pos (by intro h0; exact hv (UInt8.toNat_inj.mp h0))]
  simp [BadVersionError, bstr]

/-- C88: an identifier that no key of the set has: the text repeats it in base64, and nothing after the header matters. -/
theorem C88_unknown (c : Czar) (hc : Loaded P c) (id rest : Bytes) (hid : id.length = 4)
    (hn : ∀ e ∈ c.keySet.entries, ¬ KeyId P.sha1 e.key id) :
    c.DecryptTold P (header id ++ rest) none = .error ⟨.keyNotFound,
      some (bstr "Key with hash_val identifier " ++ Base64WSEncode id ++ bstr " not found.")⟩ := by
  have hl : (header id).length = 5 := by simp [header, hid]
  have hg := GetKeyByHash_none P hc.inv hc.fresh (id := id) fun e he h => hn e he ((KeyId_iff P _ _).mpr ⟨hid, h⟩)
  unfold Czar.DecryptTold
  simp only [decodeWith, Py.told, bind, Except.bind]
  rw [if_neg (by simp [HEADER_SIZE, KEY_HASH_SIZE, hl]), sliceTo_nat,
    show HEADER_SIZE = (header id).length from hl.symm, List.take_left]
  unfold Czar.ParseHeaderTold header
  simp only
  rw [if_neg (by decide), show (1 : Int) = ((1 : Nat) : Int) from rfl, sliceFrom_nat]
  simp only [List.drop_succ_cons, List.drop_zero, Czar.GetKeyTold, hg]
  rfl

/-- instance: the key set testdata/aes has no key with the identifier 0 -/
example : ∃ c, Loaded realPrims c ∧ c.keySet.entries ≠ [] ∧ ∀ e ∈ c.keySet.entries, ¬ KeyId realPrims.sha1 e.key [0, 0, 0, 0] := by
  have h : (match Czar.init realPrims .crypter Ex.aes with
      | .ok c => decide (c.keySet.entries ≠ []) &&
          c.keySet.entries.all fun e => decide (e.key.hashId realPrims ≠ .ok (Base64WSEncode [0, 0, 0, 0]))
      | .error _ => false) = true := by decide +kernel
  cases hc : Czar.init realPrims .crypter Ex.aes with
  | error x => rw [hc] at h; cases h
  | ok c =>
    rw [hc] at h
    simp only [Bool.and_eq_true, decide_eq_true_eq, List.all_eq_true] at h
    exact ⟨c, ⟨_, _, hc⟩, h.1, fun e he hk => h.2 e he ((KeyId_iff realPrims _ _).mp hk).2⟩

/-! ### The comparison of MACs -/

theorem steps_fold (l : List (UInt8 × UInt8)) (r : UInt8) (tr : List CompareStep) :
    l.foldl (fun (st : UInt8 × List CompareStep) (p : UInt8 × UInt8) => (st.1 ||| (p.1 ^^^ p.2), st.2 ++ [.bytes])) (r, tr) =
      (l.foldl (fun r (p : UInt8 × UInt8) => r ||| (p.1 ^^^ p.2)) r, tr ++ List.replicate l.length .bytes) := by
  induction l generalizing r tr with
  | nil => simp
  | cons p t ih => rw [List.foldl_cons, List.foldl_cons, ih, List.length_cons, List.replicate_succ]; simp

/-- C88: comparing a MAC with a given one: strings of another length are rejected at once; for strings of the same
length all bytes are gone through, wherever they differ, and the result says whether they are equal. -/
theorem C88_compare (mac sig : Bytes) :
    VerifySignedDataSteps mac sig = (VerifySignedData mac sig,
      if sig.length = mac.length then [.lengths] ++ List.replicate mac.length .bytes ++ [.result] else [.lengths]) ∧
    VerifySignedData mac sig = decide (sig = mac) := by
  refine ⟨?_, VerifySignedData_iff mac sig⟩
  unfold VerifySignedDataSteps VerifySignedData
  by_cases h : sig.length = mac.length
  · rw [if_neg (by simpa using h), if_neg (by simpa using h), if_pos h]
    simp only [steps_fold, List.length_zip, h, Nat.min_self]
  · rw [if_pos (by simpa using h), if_pos (by simpa using h), if_neg h]

/-- instance: a first byte that differs and a last byte that differs -/
example : VerifySignedDataSteps [1, 2, 3] [0, 2, 3] = (false, [.lengths, .bytes, .bytes, .bytes, .result]) ∧
    VerifySignedDataSteps [1, 2, 3] [1, 2, 0] = (false, [.lengths, .bytes, .bytes, .bytes, .result]) ∧
    VerifySignedDataSteps [1, 2, 3] [1, 2, 3] = (true, [.lengths, .bytes, .bytes, .bytes, .result]) ∧
    VerifySignedDataSteps [1, 2, 3] [1, 2] = (false, [.lengths]) := by decide

/-- C88: so the steps do not depend on the bytes. -/
theorem C88_same_steps (mac mac' sig sig' : Bytes) (hm : mac.length = mac'.length) (hs : sig.length = sig'.length) :
    (VerifySignedDataSteps mac sig).2 = (VerifySignedDataSteps mac' sig').2 := by
  rw [(C88_compare mac sig).1, (C88_compare mac' sig').1, hm, hs]

end Verif.Props
