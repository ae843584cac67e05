import Verif.Spec.Leak
import Verif.Props.Forgery
/-
C90: what AES ciphertexts reveal about the messages.
-/
namespace Verif.Props
open Verif Spec
variable (P : Prims)

theorem flatten_block {bs : List Bytes} (h : AllBlocks bs) (t : Bytes) (i : Nat) (hi : i < bs.length) :
    ((bs.flatten ++ t).drop (16 * i)).take 16 = bs[i] := by
  induction bs generalizing i with
  | nil => simp at hi
  | cons b bs ih =>
    have hb : b.length = 16 := h b (by simp)
    cases i with
    | zero =>
      simp only [List.flatten_cons, List.append_assoc, Nat.mul_zero, List.drop_zero, List.getElem_cons_zero]
      rw [List.take_append_of_le_length (by omega), List.take_of_length_le (by omega)]
    | succ i =>
      have e : 16 * (i + 1) = b.length + 16 * i := by omega
      rw [List.flatten_cons, List.append_assoc, e, List.drop_append, List.drop_eq_nil_of_le (by omega), List.nil_append,
        Nat.add_sub_cancel_left]
      exact ih (fun x hx => h x (by simp [hx])) i (by simpa using hi)

theorem flatten_length {bs : List Bytes} (h : AllBlocks bs) : bs.flatten.length = 16 * bs.length := by
  induction bs with
  | nil => rfl
  | cons b bs ih =>
    rw [List.flatten_cons, List.length_append, ih fun x hx => h x (by simp [hx]), h b (by simp), List.length_cons]
    omega

theorem Cbc_length {E : Bytes → Bytes} {iv : Bytes} {ps cs : List Bytes} (h : Cbc E iv ps cs) : ps.length = cs.length := by
  induction h with
  | nil => rfl
  | cons _ _ _ _ _ _ _ ih => simp [ih]

theorem Cbc_block {E : Bytes → Bytes} {iv : Bytes} {ps cs : List Bytes} (h : Cbc E iv ps cs) (i : Nat)
    (hp : i < ps.length) (hc : i < cs.length) :
    cs[i] = E (xorBlock ps[i] ((iv :: cs)[i]'(by simp; omega))) := by
  induction h generalizing i with
  | nil => simp at hp
  | cons iv p c ps cs h1 h2 ih =>
    cases i with
    | zero => exact h1
    | succ i => exact ih i (by simpa using hp) (by simpa using hc)

theorem padded_unique {m p : Bytes} (h : Pkcs5 m p) : p = padded m := by
  obtain ⟨n, h1, h2, rfl, h4⟩ := h
  have : 16 - m.length % 16 = n := by simp at h4; omega
  rw [padded, this]

theorem padded_length (m : Bytes) : (padded m).length = 16 * blockCount m := by
  simp only [padded, blockCount, List.length_append, List.length_replicate]
  omega

/-- what an output of `Encrypt` looks like, with its blocks -/
theorem encrypted_blocks (r : Encrypted P) :
    ∃ id, KeyId P.sha1 r.entry.key id ∧ r.out.length = 41 + 16 * blockCount r.m ∧
      r.out.take 5 = header id ∧ cipherBlock r.out 0 = r.rnd.bytes 0 16 ∧
      ∀ i, i < blockCount r.m →
        cipherBlock r.out (i + 1) = P.aesEnc r.kb (xorBlock (plainBlock r.m i) (cipherBlock r.out i)) := by
  obtain ⟨id, ps, hid, hpad, cs, hiv, hps, hcs, hcbc, hout⟩ :=
    (C83_encrypts P r.czar r.loaded r.entry r.primary r.key r.kb r.hb r.isAes r.usable r.rnd r.m r.out).mp r.made
  obtain ⟨iv, hivd⟩ : ∃ iv, iv = r.rnd.bytes 0 16 := ⟨_, rfl⟩
  rw [← hivd] at hiv hcbc hout
  obtain ⟨tag, htag⟩ : ∃ tag, tag = hmac P.sha1 r.hb (header id ++ iv ++ cs.flatten) := ⟨_, rfl⟩
  rw [← htag] at hout
  have htl : tag.length = 20 := by rw [htag]; exact P.sha1_length _
  have hl : (header id).length = 5 := by simp [header, ((KeyId_iff P _ _).mp hid).1]
  have hcnt : ps.length = blockCount r.m := by
    have h1 := flatten_length hps
    rw [padded_unique hpad, padded_length] at h1
    omega
  have hcc := Cbc_length hcbc
  have hall : AllBlocks (iv :: cs) := by
    intro b hb
    rcases List.mem_cons.mp hb with rfl | hb
    · exact hiv
    · exact hcs b hb
  have hcb : ∀ i (hi : i < (iv :: cs).length), cipherBlock r.out i = (iv :: cs)[i] := by
    intro i hi
    have e : r.out = header id ++ ((iv :: cs).flatten ++ tag) := by rw [hout]; simp
    rw [cipherBlock, e, ← hl, List.drop_append, List.drop_eq_nil_of_le (by omega), List.nil_append, Nat.add_sub_cancel_left]
    exact flatten_block hall tag i hi
  have hpb : ∀ i (hi : i < ps.length), plainBlock r.m i = ps[i] := by
    intro i hi
    have := flatten_block hps [] i hi
    rw [List.append_nil, padded_unique hpad] at this
    exact this
  refine ⟨id, hid, ?_, ?_, ?_, ?_⟩
  · rw [hout]
    simp only [List.length_append, hl, hiv, flatten_length hcs, htl]
    omega
  · rw [hout, List.append_assoc, List.append_assoc, List.take_left' hl]
  · rw [hcb 0 (by simp), hivd]; rfl
  · intro i hi
    rw [hcb (i + 1) (by simp; omega), hcb i (by simp; omega), hpb i (by omega)]
    exact Cbc_block hcbc i (by omega) (by omega)

/-- C90: the length of a ciphertext says how many blocks the padded message has, and no more. -/
theorem C90_length (r r' : Encrypted P) :
    r.out.length = 41 + 16 * blockCount r.m ∧ (r.out.length = r'.out.length ↔ r.m.length / 16 = r'.m.length / 16) := by
  obtain ⟨-, -, h, -⟩ := encrypted_blocks P r
  obtain ⟨-, -, h', -⟩ := encrypted_blocks P r'
  refine ⟨h, ?_⟩
  rw [h, h', blockCount, blockCount]
  omega

/-- C90: the five bytes of the header are the same for all ciphertexts made with one key, whatever the message. -/
theorem C90_header (r r' : Encrypted P) (h : r.entry.key = r'.entry.key) : r.out.take 5 = r'.out.take 5 := by
  obtain ⟨id, hid, -, h1, -⟩ := encrypted_blocks P r
  obtain ⟨id', hid', -, h2, -⟩ := encrypted_blocks P r'
  rw [h] at hid
  have := Except.ok.inj (((KeyId_iff P _ _).mp hid).2.symm.trans ((KeyId_iff P _ _).mp hid').2)
  rw [h1, h2]
  have e := congrArg Base64WSDecode this
  rw [Base64WSDecode_encode, Base64WSDecode_encode] at e
  cases e
  rfl

theorem xorBlock_length {a b : Bytes} (ha : a.length = 16) (hb : b.length = 16) : (xorBlock a b).length = 16 := by
  simp [xorBlock, ha, hb]

theorem xorBlock_swap {a b a' b' : Bytes} (ha : a.length = 16) (hb : b.length = 16) (ha' : a'.length = 16)
    (hb' : b'.length = 16) : xorBlock a b = xorBlock a' b' ↔ xorBlock a a' = xorBlock b b' := by
  have key : ∀ x y z w : UInt8, x ^^^ y = z ^^^ w ↔ x ^^^ z = y ^^^ w := by
    intro x y z w
    constructor
    · intro h
      have : x ^^^ z = (x ^^^ y) ^^^ y ^^^ z := by rw [UInt8.xor_assoc x y y, UInt8.xor_self, UInt8.xor_zero]
      rw [this, h, UInt8.xor_comm z w, UInt8.xor_assoc, UInt8.xor_comm y z, ← UInt8.xor_assoc, UInt8.xor_assoc w z z,
        UInt8.xor_self, UInt8.xor_zero, UInt8.xor_comm]
    · intro h
      have : x ^^^ y = (x ^^^ z) ^^^ z ^^^ y := by rw [UInt8.xor_assoc x z z, UInt8.xor_self, UInt8.xor_zero]
      rw [this, h, UInt8.xor_comm y w, UInt8.xor_assoc, UInt8.xor_comm z y, ← UInt8.xor_assoc, UInt8.xor_assoc w y y,
        UInt8.xor_self, UInt8.xor_zero, UInt8.xor_comm]
  unfold xorBlock
  simp only [List.ext_getElem_iff, List.length_zipWith, ha, hb, ha', hb', List.getElem_zipWith]
  exact ⟨fun h => ⟨trivial, fun i h1 h2 => (key _ _ _ _).mp (h.2 i h1 h2)⟩,
    fun h => ⟨trivial, fun i h1 h2 => (key _ _ _ _).mpr (h.2 i h1 h2)⟩⟩

theorem plainBlock_length {m : Bytes} {i : Nat} (h : i < blockCount m) : (plainBlock m i).length = 16 := by
  rw [plainBlock, List.length_take, List.length_drop, padded_length]
  omega

theorem cipherBlock_length (r : Encrypted P) {i : Nat} (h : i ≤ blockCount r.m) : (cipherBlock r.out i).length = 16 := by
  obtain ⟨-, -, hl, -⟩ := encrypted_blocks P r
  rw [cipherBlock, List.length_take, List.length_drop, hl]
  omega

/-- C90: two blocks of ciphertexts under one AES key, of one message or of two, are equal exactly if the exclusive or of
the blocks of the messages is the exclusive or of the blocks before them, which everybody sees. -/
theorem C90_collision (r r' : Encrypted P) (hk : r.kb = r'.kb) (i j : Nat) (hi : i < blockCount r.m)
    (hj : j < blockCount r'.m) :
    cipherBlock r.out (i + 1) = cipherBlock r'.out (j + 1) ↔
      xorBlock (plainBlock r.m i) (plainBlock r'.m j) = xorBlock (cipherBlock r.out i) (cipherBlock r'.out j) := by
  obtain ⟨-, -, -, -, -, h⟩ := encrypted_blocks P r
  obtain ⟨-, -, -, -, -, h'⟩ := encrypted_blocks P r'
  have l1 := plainBlock_length hi
  have l2 := plainBlock_length hj
  have l3 := cipherBlock_length P r (i := i) (by omega)
  have l4 := cipherBlock_length P r' (i := j) (by omega)
  rw [h i hi, h' j hj, ← hk, ← xorBlock_swap l1 l3 l2 l4]
  refine ⟨fun e => ?_, fun e => by rw [e]⟩
  have hv := r.usable.len
  have := congrArg (P.aesDec r.kb) e
  rwa [P.aesDec_aesEnc _ _ hv (xorBlock_length l1 l3), P.aesDec_aesEnc _ _ hv (xorBlock_length l2 l4)] at this

/-- C90: if an initialization vector is used twice with one AES key, the ciphertexts show how many blocks the messages have in
common from the start. -/
theorem C90_same_iv (r r' : Encrypted P) (hk : r.kb = r'.kb) (hiv : r.rnd.bytes 0 16 = r'.rnd.bytes 0 16) (n : Nat)
    (hn : n ≤ blockCount r.m) (hn' : n ≤ blockCount r'.m) :
    (∀ i < n, cipherBlock r.out (i + 1) = cipherBlock r'.out (i + 1)) ↔ ∀ i < n, plainBlock r.m i = plainBlock r'.m i := by
  have h0 : cipherBlock r.out 0 = cipherBlock r'.out 0 := by
    obtain ⟨-, -, -, -, h, -⟩ := encrypted_blocks P r
    obtain ⟨-, -, -, -, h', -⟩ := encrypted_blocks P r'
    rw [h, h', hiv]
  have step : ∀ i, i < n → cipherBlock r.out i = cipherBlock r'.out i →
      (cipherBlock r.out (i + 1) = cipherBlock r'.out (i + 1) ↔ plainBlock r.m i = plainBlock r'.m i) := by
    intro i hi he
    have l1 := plainBlock_length (m := r.m) (i := i) (by omega)
    have l2 := plainBlock_length (m := r'.m) (i := i) (by omega)
    have l3 := cipherBlock_length P r (i := i) (by omega)
    have l4 := cipherBlock_length P r' (i := i) (by omega)
    rw [C90_collision P r r' hk i i (by omega) (by omega), ← xorBlock_swap l1 l3 l2 l4, he]
    constructor
    · intro e
      have e2 := (xorBlock_swap l1 l4 l2 l4).mp e
      have zero : ∀ x y : UInt8, x ^^^ y = 0 ↔ x = y := fun x y => UInt8.xor_eq_zero_iff
      unfold xorBlock at e2
      simp only [List.ext_getElem_iff, List.length_zipWith, l1, l2, l4, List.getElem_zipWith, UInt8.xor_self, zero] at e2 ⊢
      exact e2
    · intro e; rw [e]
  induction n with
  | zero => simp
  | succ n ih =>
    have ih := ih (by omega) (by omega) fun i hi => step i (by omega)
    have key : (∀ i < n, cipherBlock r.out (i + 1) = cipherBlock r'.out (i + 1)) → cipherBlock r.out n = cipherBlock r'.out n := by
      intro h
      cases n with
      | zero => exact h0
      | succ n => exact h n (by omega)
    constructor
    · intro h i hi
      have hc : ∀ i < n, cipherBlock r.out (i + 1) = cipherBlock r'.out (i + 1) := fun i hi => h i (by omega)
      rcases Nat.lt_succ_iff_lt_or_eq.mp hi with hi | rfl
      · exact ih.mp hc i hi
      · exact (step i (by omega) (key hc)).mp (h i (by omega))
    · intro h i hi
      have hc := ih.mpr fun i hi => h i (by omega)
      rcases Nat.lt_succ_iff_lt_or_eq.mp hi with hi | rfl
      · exact hc i hi
      · exact (step i (by omega) (key hc)).mpr (h i (by omega))

/-- C90: if the next initialization vector is known beforehand, a guess of the first block of a message can be tested by
asking for one encryption: of the guess, changed by the two initialization vectors. -/
theorem C90_known_iv (r r' : Encrypted P) (hk : r.kb = r'.kb) (guess : Bytes)
    (h16 : guess.length = 16)
    (hasked : plainBlock r'.m 0 = xorBlock guess (xorBlock (r.rnd.bytes 0 16) (r'.rnd.bytes 0 16))) :
    cipherBlock r.out 1 = cipherBlock r'.out 1 ↔ plainBlock r.m 0 = guess := by
  have h0 : cipherBlock r.out 0 = r.rnd.bytes 0 16 := by
    obtain ⟨-, -, -, -, h, -⟩ := encrypted_blocks P r; exact h
  have h0' : cipherBlock r'.out 0 = r'.rnd.bytes 0 16 := by
    obtain ⟨-, -, -, -, h, -⟩ := encrypted_blocks P r'; exact h
  have l1 := plainBlock_length (m := r.m) (i := 0) (by simp [blockCount])
  have l3 := r.rnd.bytes_length 0 16
  have l4 := r'.rnd.bytes_length 0 16
  rw [C90_collision P r r' hk 0 0 (by simp [blockCount]) (by simp [blockCount]), h0, h0', hasked]
  have key : ∀ x g a : UInt8, x ^^^ (g ^^^ a) = a ↔ x = g := by
    intro x g a
    rw [← UInt8.xor_assoc]
    constructor
    · intro h
      have := congrArg (· ^^^ a) h
      simp only [UInt8.xor_assoc, UInt8.xor_self, UInt8.xor_zero] at this
      exact UInt8.xor_eq_zero_iff.mp this
    · rintro rfl; simp
  unfold xorBlock
  simp only [List.ext_getElem_iff, List.length_zipWith, l1, l3, l4, h16, List.getElem_zipWith, key]
  simp

/-- example: two messages encrypted with testdata/aes, the second chosen to test a guess of the first block of the first -/
example (rnd rnd' : Rand) (m guess : Bytes) (hg : guess.length = 16) :
    ∃ r r' : Encrypted realPrims, r.kb = r'.kb ∧ r.m = m ∧ r.rnd = rnd ∧ r'.rnd = rnd' ∧
      plainBlock r'.m 0 = xorBlock guess (xorBlock (rnd.bytes 0 16) (rnd'.bytes 0 16)) ∧
      (cipherBlock r.out 1 = cipherBlock r'.out 1 ↔ plainBlock m 0 = guess) := by
  obtain ⟨c, hc, -, -, e, k, kb, hb, hp, hk, hu⟩ := exAes_set
  obtain ⟨out, ho⟩ := C22_aes_encrypts realPrims c hc e k kb hb hp hk hu none rnd m
  obtain ⟨m', hm'⟩ : ∃ m', m' = xorBlock guess (xorBlock (rnd.bytes 0 16) (rnd'.bytes 0 16)) := ⟨_, rfl⟩
  obtain ⟨out', ho'⟩ := C22_aes_encrypts realPrims c hc e k kb hb hp hk hu none rnd' m'
  have hl : m'.length = 16 := by
    rw [hm']; exact xorBlock_length hg (xorBlock_length (rnd.bytes_length 0 16) (rnd'.bytes_length 0 16))
  have hpl : plainBlock m' 0 = xorBlock guess (xorBlock (rnd.bytes 0 16) (rnd'.bytes 0 16)) := by
    rw [← hm', plainBlock, padded, Nat.mul_zero, List.drop_zero, ← hl, List.take_left]
  let r : Encrypted realPrims := ⟨c, e, k, kb, hb, rnd, m, out, hc, hp, hk, hu, ho⟩
  let r' : Encrypted realPrims := ⟨c, e, k, kb, hb, rnd', m', out', hc, hp, hk, hu, ho'⟩
  exact ⟨r, r', rfl, rfl, rfl, rfl, hpl, C90_known_iv realPrims r r' rfl guess hg hpl⟩

end Verif.Props
