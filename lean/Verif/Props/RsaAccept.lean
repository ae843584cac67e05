import Verif.Props.Asymmetric
import Verif.Props.Crypters
import Verif.Spec.Oaep
/-
Property theorems C74: what RSA decryption accepts and what it raises.
-/
namespace Verif.Props
open Verif Spec

variable (P : Prims)

/-! ### One data block -/

/-- keys.py:732-754, once the block is padded -/
def oaepTail (encoded : Bytes) : Py Bytes := do
  let maskedSeed := sliceTo encoded HLEN
  let maskedDatablock := sliceFrom encoded HLEN
  let seedMask ← MGF P maskedDatablock HLEN
  let seed := Xor maskedSeed seedMask
  let datablockMask ← MGF P seed maskedDatablock.length
  let datablock := Xor maskedDatablock datablockMask
  let labelHash := sliceTo datablock HLEN
  if labelHash ≠ Hash P [[]] then .error .keyczarError
  else
    match (sliceFrom datablock HLEN).dropWhile (· = 0) with
    | [] => .error .indexError
    | c :: msg => if c ≠ 1 then .error .keyczarError else .ok msg

/-- what an unmasked data block gives -/
def oaepParse (DB : Bytes) : Py Bytes :=
  if DB.take 20 ≠ P.sha1 [] then .error .keyczarError
  else
    match strip0 (DB.drop 20) with
    | [] => .error .indexError
    | c :: msg => if c ≠ 1 then .error .keyczarError else .ok msg

theorem oaepMask_length {seed DB : Bytes} (hs : seed.length = 20) :
    (oaepMask P.sha1 seed DB).length = 20 + DB.length := by
  simp [oaepMask, xor_length, mgf1_length, hs]

theorem oaepTail_mask {seed DB : Bytes} (hs : seed.length = 20) (hl : DB.length ≤ 2 ^ 32) :
    oaepTail P (oaepMask P.sha1 seed DB) = oaepParse P DB := by
  unfold oaepTail oaepMask
  simp only
  generalize hM : Spec.xor DB (mgf1 P.sha1 seed DB.length) = MDB
  have hMl : MDB.length = DB.length := by rw [← hM, xor_length, mgf1_length]; omega
  have hms : (Spec.xor seed (mgf1 P.sha1 MDB 20)).length = 20 := by rw [xor_length, hs, mgf1_length]; omega
  have s1 : sliceTo (Spec.xor seed (mgf1 P.sha1 MDB 20) ++ MDB) ((HLEN : Nat) : Int) = Spec.xor seed (mgf1 P.sha1 MDB 20) := by
    rw [sliceTo_nat]
    rw [show HLEN = (Spec.xor seed (mgf1 P.sha1 MDB 20)).length from hms.symm, List.take_left]
  have s2 : sliceFrom (Spec.xor seed (mgf1 P.sha1 MDB 20) ++ MDB) ((HLEN : Nat) : Int) = MDB := by
    rw [sliceFrom_nat]
    rw [show HLEN = (Spec.xor seed (mgf1 P.sha1 MDB 20)).length from hms.symm, List.drop_left]
  rw [s1, s2, show HLEN = 20 from rfl, MGF_ok P _ _ (by omega)]
  simp only [bind, Except.bind]
  rw [xor_eq_Xor (by rw [hms, mgf1_length]), xor_cancel _ _ (by rw [hs, mgf1_length])]
  rw [hMl, MGF_ok P _ _ (by omega)]
  simp only
  rw [xor_eq_Xor (by rw [hMl, mgf1_length]), ← hM, xor_cancel _ _ (by rw [mgf1_length])]
  rw [sliceTo_nat, sliceFrom_nat]
  have s5 : Hash P [[]] = P.sha1 [] := by simp [Hash]
  rw [s5]
  rfl

/-- every block of at least 20 bytes hides some data block -/
theorem exists_mask (B : Bytes) (h : 20 ≤ B.length) :
    ∃ seed DB, seed.length = 20 ∧ 20 + DB.length = B.length ∧ B = oaepMask P.sha1 seed DB := by
  have hm : (B.drop 20).length = B.length - 20 := List.length_drop
  have ht : (B.take 20).length = 20 := by rw [List.length_take]; omega
  refine ⟨Spec.xor (B.take 20) (mgf1 P.sha1 (B.drop 20) 20),
    Spec.xor (B.drop 20) (mgf1 P.sha1 (Spec.xor (B.take 20) (mgf1 P.sha1 (B.drop 20) 20)) (B.length - 20)), ?_, ?_, ?_⟩
  · rw [xor_length, mgf1_length, ht]; rfl
  · rw [xor_length, mgf1_length, hm]; omega
  · unfold oaepMask
    simp only
    rw [xor_length, mgf1_length, hm, Nat.min_self, xor_cancel _ _ (by rw [hm, mgf1_length]),
      xor_cancel _ _ (by rw [ht, mgf1_length]), List.take_append_drop]

/-- the block a decoder for a modulus of `em.length` bytes works on -/
def decoderBlock (em : Bytes) : Bytes := if em.head? = some 0 then em.tail else em

theorem oaepDecode_short (em : Bytes) (count : Py Nat) (h : (strip0 em).length < 42) :
    oaepDecode P count (longToBytes (beNat em)) = .error .keyczarError := by
  unfold oaepDecode
  rw [longToBytes_beNat, if_pos]
  split
  · simp [HLEN]
  · exact h

theorem oaepDecode_block (em : Bytes) (h : 42 ≤ (strip0 em).length) :
    oaepDecode P (.ok em.length) (longToBytes (beNat em)) = oaepTail P (decoderBlock em) := by
  unfold oaepDecode
  have hne : strip0 em ≠ [] := by intro h0; rw [h0] at h; simp at h
  rw [longToBytes_beNat, if_neg hne, if_neg (by simp only [HLEN]; omega)]
  simp only [bind, Except.bind]
  have hpad : (if ((em.length : Nat) : Int) - ((strip0 em).length : Int) > 1 then
      List.replicate (((em.length : Nat) : Int) - ((strip0 em).length : Int) - 1).toNat 0 ++ strip0 em else strip0 em)
      = decoderBlock em := by
    obtain ⟨z, hz⟩ := strip0_decomp em
    have hzl : z + (strip0 em).length = em.length := by
      have := congrArg List.length hz
      simp at this
      omega
    unfold decoderBlock
    cases z with
    | zero =>
      have e : em = strip0 em := by simpa using hz
      have hh := strip0_head em
      rw [← e] at hh
      rw [if_neg hh, if_neg (by omega)]
      exact e.symm
    | succ y =>
      have ht : em = 0 :: (List.replicate y 0 ++ strip0 em) := by
        rw [List.replicate_succ, List.cons_append] at hz
        exact hz
      have h0 : em.head? = some 0 := by rw [ht]; rfl
      have htl : em.tail = List.replicate y 0 ++ strip0 em := by
        conv_lhs => rw [ht]
        rfl
      rw [if_pos h0, htl]
      split
      · congr 2; omega
      · have : y = 0 := by omega
        subst this; rfl
  rw [hpad]
  rfl

/-- the block of `em` hides one data block, and decoding reads it -/
theorem oaepDecode_hides {em seed DB : Bytes} (hh : Hides P.sha1 em seed DB) (hl : em.length ≤ 2 ^ 32)
    (h : 42 ≤ (strip0 em).length) :
    oaepDecode P (.ok em.length) (longToBytes (beNat em)) = oaepParse P DB := by
  obtain ⟨hs, hc⟩ := hh
  rw [oaepDecode_block P em h]
  have hml := oaepMask_length P (DB := DB) hs
  rcases hc with hc | ⟨hc, hz⟩
  · have : decoderBlock em = oaepMask P.sha1 seed DB := by
      unfold decoderBlock
      rw [hc]; rfl
    rw [this]
    apply oaepTail_mask P hs
    rw [hc, List.length_cons] at hl
    omega
  · have : decoderBlock em = oaepMask P.sha1 seed DB := by
      unfold decoderBlock
      rw [if_neg hz]; exact hc
    rw [this]
    apply oaepTail_mask P hs
    rw [hc] at hl
    omega

theorem strip0_length_le (b : Bytes) : (strip0 b).length ≤ b.length := by
  obtain ⟨z, hz⟩ := strip0_decomp b
  have := congrArg List.length hz
  simp at this
  omega

theorem exists_hides (em : Bytes) (h : 42 ≤ (strip0 em).length) : ∃ seed DB, Hides P.sha1 em seed DB := by
  have hle := strip0_length_le em
  by_cases h0 : em.head? = some 0
  · obtain ⟨t, ht⟩ : ∃ t, em = 0 :: t := by
      cases em with
      | nil => cases h0
      | cons c t => simp at h0; exact ⟨t, by rw [h0]⟩
    obtain ⟨seed, DB, hs, _, he⟩ := exists_mask P t (by have := congrArg List.length ht; rw [List.length_cons] at this; omega)
    exact ⟨seed, DB, hs, Or.inl (by rw [ht, he])⟩
  · obtain ⟨seed, DB, hs, _, he⟩ := exists_mask P em (by omega)
    exact ⟨seed, DB, hs, Or.inr ⟨he, h0⟩⟩

theorem oaepParse_ok (DB M : Bytes) :
    oaepParse P DB = .ok M ↔ ∃ z, DB = P.sha1 [] ++ List.replicate z 0 ++ 1 :: M := by
  unfold oaepParse
  constructor
  · intro h
    split at h
    · cases h
    · next h1 =>
      rw [ne_eq, not_not] at h1
      obtain ⟨z, hz⟩ := strip0_decomp (DB.drop 20)
      split at h
      · cases h
      · next c msg hc =>
        split at h
        · cases h
        · next h2 =>
          rw [ne_eq, not_not] at h2
          cases h
          refine ⟨z, ?_⟩
          rw [hc, h2] at hz
          rw [List.append_assoc, ← hz, ← h1, List.take_append_drop]
  · rintro ⟨z, rfl⟩
    have e1 : (P.sha1 [] ++ List.replicate z 0 ++ 1 :: M).take 20 = P.sha1 [] := by
      rw [List.append_assoc, ← P.sha1_length [], List.take_left]
    have e2 : (P.sha1 [] ++ List.replicate z 0 ++ 1 :: M).drop 20 = List.replicate z 0 ++ 1 :: M := by
      rw [List.append_assoc]
      conv_lhs => rw [← P.sha1_length []]
      rw [List.drop_left]
    have e3 : strip0 (List.replicate z 0 ++ 1 :: M) = 1 :: M := by
      rw [strip0_replicate]; rfl
    rw [if_neg (by rw [e1]; simp), e2, e3]
    rfl

theorem oaepParse_index (DB : Bytes) :
    oaepParse P DB = .error .indexError ↔ ∃ z, DB = P.sha1 [] ++ List.replicate z 0 := by
  unfold oaepParse
  constructor
  · intro h
    split at h
    · cases h
    · next h1 =>
      rw [ne_eq, not_not] at h1
      obtain ⟨z, hz⟩ := strip0_decomp (DB.drop 20)
      split at h
      · next hc =>
        refine ⟨z, ?_⟩
        rw [hc, List.append_nil] at hz
        rw [← hz, ← h1, List.take_append_drop]
      · split at h <;> cases h
  · rintro ⟨z, rfl⟩
    have e1 : (P.sha1 [] ++ List.replicate z 0).take 20 = P.sha1 [] := by
      rw [← P.sha1_length [], List.take_left]
    have e2 : (P.sha1 [] ++ List.replicate z 0).drop 20 = List.replicate z 0 := by
      conv_lhs => rw [← P.sha1_length []]
      rw [List.drop_left]
    have e3 : strip0 (List.replicate z 0) = [] := by
      have := strip0_replicate z []
      rw [List.append_nil] at this
      rw [this]; rfl
    rw [if_neg (by rw [e1]; simp), e2, e3]

theorem oaepParse_cases (DB : Bytes) :
    (∃ M, oaepParse P DB = .ok M) ∨ oaepParse P DB = .error .indexError ∨ oaepParse P DB = .error .keyczarError := by
  unfold oaepParse
  split
  · exact Or.inr (Or.inr rfl)
  · split
    · exact Or.inr (Or.inl rfl)
    · split
      · exact Or.inr (Or.inr rfl)
      · exact Or.inl ⟨_, rfl⟩

/-! ### A key -/

/-- the `k` bytes of the decrypted integer -/
theorem exists_em {n m : Nat} (hn : n ≠ 0) (hm : m < n) :
    ∃ em : Bytes, em.length = (BigIntToBytes n).length ∧ beNat em = m := by
  have hle : (BigIntToBytes m).length ≤ (BigIntToBytes n).length :=
    BigIntToBytes_length_lt (lt_trans hm (byteLength_bounds hn).2)
  refine ⟨List.replicate ((BigIntToBytes n).length - (BigIntToBytes m).length) 0 ++ BigIntToBytes m, ?_, ?_⟩
  · simp; omega
  · rw [beNat_replicate_zero, beNat_BigIntToBytes]

theorem Decrypt_eq (key : RsaPrivateKey) (input : Bytes) :
    key.Decrypt P input = (do
      let m ← key.key.decryptInt P (beNat (input.drop 5))
      key.Decode P (longToBytes m)) := by
  unfold RsaPrivateKey.Decrypt RsaObj.decrypt
  simp only [sliceFrom_nat, BytesToLong_eq, show HEADER_SIZE = 5 from rfl, bind_assoc, pure_bind]

theorem Decrypt_em (key : RsaPrivateKey) (hv : RsaValid key.key) (input em : Bytes)
    (hl : em.length = (BigIntToBytes key.key.n).length) (hem : beNat em < key.key.n)
    (hc : beNat em ^ key.key.e % key.key.n = beNat (input.drop 5)) :
    key.Decrypt P input = oaepDecode P (.ok em.length) (longToBytes (beNat em)) := by
  have hn : key.key.n ≠ 0 := by have := hv.n_pos; omega
  obtain ⟨c, _, _, h3, h4⟩ := C49_decrypt_encrypt P key.key hv _ hem
  rw [h3, hc] at h4
  rw [Decrypt_eq, h4]
  simp only [RsaPrivateKey.Decode, numBytes, if_neg hn, ← hl, bind, Except.bind]

/-- every ciphertext below the modulus is the encryption of exactly one block of `k` bytes -/
theorem exists_em_of_input (P : Prims) (key : RsaPrivateKey) (hv : RsaValid key.key) (c : Nat) (hc : c < key.key.n) :
    ∃ em : Bytes, em.length = (BigIntToBytes key.key.n).length ∧ beNat em < key.key.n ∧
      beNat em ^ key.key.e % key.key.n = c := by
  have hn : key.key.n ≠ 0 := by omega
  obtain ⟨s, _, h2, h3⟩ := C49_encrypt_decrypt P key.key hv c hc
  obtain ⟨em, h4, h5⟩ := exists_em hn h2
  refine ⟨em, h4, by omega, ?_⟩
  rw [encryptInt_ok P (k := key.key.pub) hv.n_pos h2] at h3
  rw [h5]
  exact Except.ok.inj h3

/-- C74: what decryption returns, exactly.  The ciphertext is the encryption of a block `em` of as many bytes as the
modulus, at least 42 of them after the leading zeros; the block hides the hash of the empty label, zeros, a one and
the message - either as in PKCS#1 or without the leading zero byte. -/
theorem C74_accepts_iff (key : RsaPrivateKey) (hv : RsaValid key.key)
    (hk : (BigIntToBytes key.key.n).length ≤ 2 ^ 32) (input M : Bytes) (hc : beNat (input.drop 5) < key.key.n) :
    key.Decrypt P input = .ok M ↔
      ∃ em seed z, em.length = (BigIntToBytes key.key.n).length ∧ beNat em < key.key.n ∧
        beNat em ^ key.key.e % key.key.n = beNat (input.drop 5) ∧ 42 ≤ (strip0 em).length ∧
        Hides P.sha1 em seed (P.sha1 [] ++ List.replicate z 0 ++ 1 :: M) := by
  constructor
  · intro h
    obtain ⟨em, h1, h2, h3⟩ := exists_em_of_input P key hv _ hc
    rw [Decrypt_em P key hv input em h1 h2 h3] at h
    by_cases hs : (strip0 em).length < 42
    · rw [oaepDecode_short P em _ hs] at h; cases h
    · obtain ⟨seed, DB, hh⟩ := exists_hides P em (by omega)
      rw [oaepDecode_hides P hh (by omega) (by omega)] at h
      obtain ⟨z, rfl⟩ := (oaepParse_ok P DB M).mp h
      exact ⟨em, seed, z, h1, h2, h3, by omega, hh⟩
  · rintro ⟨em, seed, z, h1, h2, h3, h4, hh⟩
    rw [Decrypt_em P key hv input em h1 h2 h3, oaepDecode_hides P hh (by omega) h4]
    exact (oaepParse_ok P _ M).mpr ⟨z, rfl⟩

/-- C74: the exception that is not Keyczar's own: `IndexError`, exactly for the blocks with the hash of the label and
nothing but zeros after it. -/
theorem C74_index_error_iff (key : RsaPrivateKey) (hv : RsaValid key.key)
    (hk : (BigIntToBytes key.key.n).length ≤ 2 ^ 32) (input : Bytes) (hc : beNat (input.drop 5) < key.key.n) :
    key.Decrypt P input = .error .indexError ↔
      ∃ em seed z, em.length = (BigIntToBytes key.key.n).length ∧ beNat em < key.key.n ∧
        beNat em ^ key.key.e % key.key.n = beNat (input.drop 5) ∧ 42 ≤ (strip0 em).length ∧
        Hides P.sha1 em seed (P.sha1 [] ++ List.replicate z 0) := by
  constructor
  · intro h
    obtain ⟨em, h1, h2, h3⟩ := exists_em_of_input P key hv _ hc
    rw [Decrypt_em P key hv input em h1 h2 h3] at h
    by_cases hs : (strip0 em).length < 42
    · rw [oaepDecode_short P em _ hs] at h; cases h
    · obtain ⟨seed, DB, hh⟩ := exists_hides P em (by omega)
      rw [oaepDecode_hides P hh (by omega) (by omega)] at h
      obtain ⟨z, rfl⟩ := (oaepParse_index P DB).mp h
      exact ⟨em, seed, z, h1, h2, h3, by omega, hh⟩
  · rintro ⟨em, seed, z, h1, h2, h3, h4, hh⟩
    rw [Decrypt_em P key hv input em h1 h2 h3, oaepDecode_hides P hh (by omega) h4]
    exact (oaepParse_index P _).mpr ⟨z, rfl⟩

/-- C74: and nothing else than a message, `IndexError` or `KeyczarError` comes out. -/
theorem C74_outcomes (key : RsaPrivateKey) (hv : RsaValid key.key)
    (hk : (BigIntToBytes key.key.n).length ≤ 2 ^ 32) (input : Bytes) (hc : beNat (input.drop 5) < key.key.n) :
    (∃ M, key.Decrypt P input = .ok M) ∨ key.Decrypt P input = .error .indexError ∨
      key.Decrypt P input = .error .keyczarError := by
  obtain ⟨em, h1, h2, h3⟩ := exists_em_of_input P key hv _ hc
  rw [Decrypt_em P key hv input em h1 h2 h3]
  by_cases hs : (strip0 em).length < 42
  · rw [oaepDecode_short P em _ hs]; exact Or.inr (Or.inr rfl)
  · obtain ⟨seed, DB, hh⟩ := exists_hides P em (by omega)
    rw [oaepDecode_hides P hh (by omega) (by omega)]
    exact oaepParse_cases P DB

/-- C74: a ciphertext of at least the modulus: `ValueError` where the library checks, -/
theorem C74_too_large (key : RsaPrivateKey) (input : Bytes) (hr : P.rsaRangeCheck = true)
    (hc : key.key.n ≤ beNat (input.drop 5)) : key.Decrypt P input = .error .valueError := by
  rw [Decrypt_eq, RsaObj.decryptInt, if_pos ⟨hr, hc⟩]
  rfl

/-- C74: and reduced modulo the modulus where it does not. -/
theorem C74_reduced (key : RsaPrivateKey) (hv : RsaValid key.key) (input input' : Bytes) (hr : P.rsaRangeCheck = false)
    (hc : beNat (input.drop 5) ≡ beNat (input'.drop 5) [MOD key.key.n]) :
    key.Decrypt P input = key.Decrypt P input' := by
  have hpd : key.key.p ∣ key.key.n := by rw [hv.n_eq]; exact Dvd.intro _ rfl
  have hqd : key.key.q ∣ key.key.n := by rw [hv.n_eq]; exact Dvd.intro_left _ rfl
  have e : ∀ {c c' : Nat}, c ≡ c' [MOD key.key.n] → key.key.decryptInt P c = key.key.decryptInt P c' := by
    intro c c' h
    unfold RsaObj.decryptInt
    rw [hr]
    simp only [powMod_eq]
    rw [show c ^ (key.key.d % (key.key.p - 1)) % key.key.p = c' ^ (key.key.d % (key.key.p - 1)) % key.key.p from
        (h.of_dvd hpd).pow _,
      show c ^ (key.key.d % (key.key.q - 1)) % key.key.q = c' ^ (key.key.d % (key.key.q - 1)) % key.key.q from
        (h.of_dvd hqd).pow _]
    simp
  rw [Decrypt_eq, Decrypt_eq, e hc]

/-- C74: zero bytes after the header and the header itself do not matter to the key. -/
theorem C74_leading_zeros (key : RsaPrivateKey) (hd hd' : Bytes) (h5 : hd.length = 5) (h5' : hd'.length = 5)
    (z : Nat) (c : Bytes) :
    key.Decrypt P (hd ++ List.replicate z 0 ++ c) = key.Decrypt P (hd' ++ c) := by
  have e1 : (hd ++ List.replicate z 0 ++ c).drop 5 = List.replicate z 0 ++ c := by
    rw [List.append_assoc, ← h5, List.drop_left]
  have e2 : (hd' ++ c).drop 5 = c := by rw [← h5', List.drop_left]
  rw [Decrypt_eq, Decrypt_eq, e1, e2, beNat_replicate_zero]

/-- C74: so no accepted ciphertext is the only one for its message. -/
theorem C74_not_unique (key : RsaPrivateKey) (input M : Bytes) (h : key.Decrypt P input = .ok M) (h5 : 5 ≤ input.length) :
    ∃ input', input' ≠ input ∧ input'.take 5 = input.take 5 ∧ key.Decrypt P input' = .ok M := by
  have ht : (input.take 5).length = 5 := by rw [List.length_take]; omega
  refine ⟨input.take 5 ++ List.replicate 1 0 ++ input.drop 5, ?_, ?_, ?_⟩
  · intro he
    have := congrArg List.length he
    simp at this
    omega
  · rw [List.append_assoc]
    exact List.take_left' ht
  · rw [C74_leading_zeros P key _ _ ht ht, List.take_append_drop, h]

/-! ### Which blocks are not those of PKCS#1 -/

/-- C74: among the accepted blocks those that begin with a zero byte are the encodings of PKCS#1. -/
theorem C74_conforming_iff (em seed M : Bytes) (h0 : em.head? = some 0) :
    (∃ z, Hides P.sha1 em seed (P.sha1 [] ++ List.replicate z 0 ++ 1 :: M)) ↔
      seed.length = 20 ∧ M.length + 42 ≤ em.length ∧ em = oaep P.sha1 em.length seed M := by
  have key : ∀ z, seed.length = 20 → (P.sha1 [] ++ List.replicate z 0 ++ 1 :: M).length = 21 + z + M.length := by
    intro z _
    simp [P.sha1_length]; omega
  have same : ∀ z, seed.length = 20 →
      0 :: oaepMask P.sha1 seed (P.sha1 [] ++ List.replicate z 0 ++ 1 :: M) = oaep P.sha1 (z + M.length + 42) seed M := by
    intro z hs
    unfold oaep oaepMask
    simp only
    rw [key z hs, show z + M.length + 42 - M.length - 42 = z by omega,
      show z + M.length + 42 - 21 = 21 + z + M.length by omega]
    simp
  constructor
  · rintro ⟨z, hs, hc⟩
    rcases hc with hc | ⟨_, hz⟩
    · have hl : em.length = z + M.length + 42 := by
        rw [hc, List.length_cons, oaepMask_length P hs, key z hs]; omega
      refine ⟨hs, by omega, ?_⟩
      rw [hl, ← same z hs]
      exact hc
    · exact absurd h0 hz
  · rintro ⟨hs, hl, he⟩
    refine ⟨em.length - M.length - 42, hs, Or.inl ?_⟩
    rw [same _ hs, show em.length - M.length - 42 + M.length + 42 = em.length by omega]
    exact he

theorem longToBytes_value (c : Nat) : beNat (longToBytes c) = c := by
  unfold longToBytes
  split
  · next h => subst h; rfl
  · exact beNat_BigIntToBytes c

theorem strip0_of_head {b : Bytes} (h : b.head? ≠ some 0) : strip0 b = b := by
  cases b with
  | nil => rfl
  | cons c t =>
    have : c ≠ 0 := by simpa using h
    simp [strip0, this]

/-- C74: with the public key alone one can make a ciphertext that decrypts although no encoding of PKCS#1 gives it:
the zero byte in front is not checked. -/
theorem C74_not_oaep (key : RsaPrivateKey) (hv : RsaValid key.key) (hk : (BigIntToBytes key.key.n).length ≤ 2 ^ 32)
    (hd seed M : Bytes) (z : Nat) (h5 : hd.length = 5) (hs : seed.length = 20)
    (hz : z + M.length + 41 = (BigIntToBytes key.key.n).length)
    (h0 : (oaepMask P.sha1 seed (P.sha1 [] ++ List.replicate z 0 ++ 1 :: M)).head? ≠ some 0)
    (hlt : beNat (oaepMask P.sha1 seed (P.sha1 [] ++ List.replicate z 0 ++ 1 :: M)) < key.key.n) :
    key.Decrypt P (hd ++ longToBytes
        (beNat (oaepMask P.sha1 seed (P.sha1 [] ++ List.replicate z 0 ++ 1 :: M)) ^ key.key.e % key.key.n)) =
      if z + M.length = 0 then .error .keyczarError else .ok M := by
  have hl : (oaepMask P.sha1 seed (P.sha1 [] ++ List.replicate z 0 ++ 1 :: M)).length
      = (BigIntToBytes key.key.n).length := by
    rw [oaepMask_length P hs]
    simp [P.sha1_length]; omega
  have hc : ((hd ++ longToBytes (beNat (oaepMask P.sha1 seed (P.sha1 [] ++ List.replicate z 0 ++ 1 :: M)) ^ key.key.e
      % key.key.n)).drop 5) = longToBytes (beNat (oaepMask P.sha1 seed (P.sha1 [] ++ List.replicate z 0 ++ 1 :: M))
      ^ key.key.e % key.key.n) := by
    rw [← h5, List.drop_left]
  have hst : strip0 (oaepMask P.sha1 seed (P.sha1 [] ++ List.replicate z 0 ++ 1 :: M))
      = oaepMask P.sha1 seed (P.sha1 [] ++ List.replicate z 0 ++ 1 :: M) :=
    strip0_of_head h0
  rw [Decrypt_em P key hv _ _ hl hlt (by rw [hc, longToBytes_value])]
  split
  · next hzero =>
    rw [oaepDecode_short P _ _ (by rw [hst]; omega)]
  · next hzero =>
    rw [oaepDecode_hides P ⟨hs, Or.inr ⟨rfl, h0⟩⟩ (by omega) (by rw [hst]; omega)]
    exact (oaepParse_ok P _ M).mpr ⟨z, rfl⟩

/-- C74: and one that raises `IndexError`. -/
theorem C74_raises_index_error (key : RsaPrivateKey) (hv : RsaValid key.key)
    (hk : (BigIntToBytes key.key.n).length ≤ 2 ^ 32)
    (hd seed : Bytes) (z : Nat) (h5 : hd.length = 5) (hs : seed.length = 20)
    (hz : z + 41 = (BigIntToBytes key.key.n).length)
    (h0 : 42 ≤ (strip0 (oaepMask P.sha1 seed (P.sha1 [] ++ List.replicate z 0))).length) :
    key.Decrypt P (hd ++ longToBytes
        (beNat (oaepMask P.sha1 seed (P.sha1 [] ++ List.replicate z 0)) ^ key.key.e % key.key.n)) =
      .error .indexError := by
  have hn : key.key.n ≠ 0 := by have := hv.n_pos; omega
  have hl : (oaepMask P.sha1 seed (P.sha1 [] ++ List.replicate z 0)).length + 1
      = (BigIntToBytes key.key.n).length := by
    rw [oaepMask_length P hs]
    simp [P.sha1_length]; omega
  generalize hB : oaepMask P.sha1 seed (P.sha1 [] ++ List.replicate z 0) = B at *
  have hv0 : beNat (0 :: B) = beNat B := by rw [beNat_cons]; simp
  have hlt : beNat (0 :: B) < key.key.n := by
    have h1 := beNat_lt B
    have h2 := (byteLength_bounds hn).1
    rw [← hl, Nat.add_sub_cancel] at h2
    omega
  have hc : (hd ++ longToBytes (beNat B ^ key.key.e % key.key.n)).drop 5 = longToBytes (beNat B ^ key.key.e % key.key.n) := by
    rw [← h5, List.drop_left]
  have hst : strip0 (0 :: B) = strip0 B := strip0_replicate 1 B
  rw [Decrypt_em P key hv _ (0 :: B) (by rw [List.length_cons, hl]) hlt (by rw [hc, longToBytes_value, hv0]),
    oaepDecode_hides P ⟨hs, Or.inl (by rw [hB])⟩ (by rw [List.length_cons, hl]; exact hk) (by rw [hst]; exact h0)]
  exact (oaepParse_index P _).mpr ⟨z, rfl⟩

/-- instance: 512 bits (64 bytes), the seed of twenty bytes 0 and a message of 23 bytes, one more than `Encrypt` takes -/
def exSeed : Bytes := List.replicate 20 0
theorem exMask_ok :
    (oaepMask realPrims.sha1 exSeed (realPrims.sha1 [] ++ List.replicate 0 0 ++ 1 :: bstr "abcdefghijklmnopqrstuvw")).head? ≠ some 0 ∧
    beNat (oaepMask realPrims.sha1 exSeed (realPrims.sha1 [] ++ List.replicate 0 0 ++ 1 :: bstr "abcdefghijklmnopqrstuvw"))
      < exRsa.key.n := by decide +kernel
theorem exMask_zero :
    42 ≤ (strip0 (oaepMask realPrims.sha1 exSeed (realPrims.sha1 [] ++ List.replicate 23 0))).length := by decide +kernel
example : exRsa.Decrypt realPrims ([0, 1, 2, 3, 4] ++ longToBytes
    (beNat (oaepMask realPrims.sha1 exSeed (realPrims.sha1 [] ++ List.replicate 0 0 ++ 1 :: bstr "abcdefghijklmnopqrstuvw"))
      ^ exRsa.key.e % exRsa.key.n)) = .ok (bstr "abcdefghijklmnopqrstuvw") :=
  C74_not_oaep realPrims exRsa exRsaObj_valid (by rw [exRsa_length]; decide) _ _ _ 0 rfl rfl
    (by rw [exRsa_length]; decide) exMask_ok.1 exMask_ok.2
example : exRsa.Decrypt realPrims ([0, 1, 2, 3, 4] ++ longToBytes
    (beNat (oaepMask realPrims.sha1 exSeed (realPrims.sha1 [] ++ List.replicate 23 0)) ^ exRsa.key.e % exRsa.key.n))
      = .error .indexError :=
  C74_raises_index_error realPrims exRsa exRsaObj_valid (by rw [exRsa_length]; decide) _ _ 23 rfl rfl
    (by rw [exRsa_length]) exMask_zero
/-- the range check of the real library; a library without it exists as well -/
example : realPrims.rsaRangeCheck = true ∧ ({ realPrims with rsaRangeCheck := false } : Prims).rsaRangeCheck = false :=
  ⟨rfl, rfl⟩

/-! ### A crypter -/

/-- C74: a crypter passes all of this on: with the header of an RSA key, zero bytes inserted after the header change
nothing, whatever the outcome. -/
theorem C74_crypter (c : Czar) (hd ct : Bytes) (h5 : hd.length = 5) (key : RsaPrivateKey)
    (hp : c.ParseHeader hd = .ok (.rsaPriv key)) (z : Nat) :
    c.Decrypt P (hd ++ List.replicate z 0 ++ ct) none = key.Decrypt P (hd ++ ct) := by
  unfold Czar.Decrypt decodeWith
  simp only [bind, Except.bind]
  have hl : ¬ (hd ++ List.replicate z 0 ++ ct).length < HEADER_SIZE := by
    simp [show HEADER_SIZE = 5 from rfl, h5]
  have ht : sliceTo (hd ++ List.replicate z 0 ++ ct) ((HEADER_SIZE : Nat) : Int) = hd := by
    rw [sliceTo_nat, List.append_assoc]
    exact List.take_left' h5
  rw [if_neg hl, ht, hp]
  exact C74_leading_zeros P key hd hd h5 h5 z ct

end Verif.Props
