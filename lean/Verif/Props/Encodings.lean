import Verif.Model.Der
import Verif.Lemmas.Base64
import Verif.Lemmas.Util
import Verif.Lemmas.Der
import Verif.Spec.Encodings
/-
Property theorems C01-C03, C06-C12.
-/
namespace Verif.Props
open Verif Spec

/-! ## C01 -/

/-- C01: decoding inverts encoding, for every byte string. -/
theorem C01_round_trip (s : Bytes) : Base64WSDecode (Base64WSEncode s) = .ok s :=
  Base64WSDecode_encode s

/-! ## C02 -/

theorem bitsVal_append (a b : List Bool) :
    bitsVal (a ++ b) = bitsVal a * 2 ^ b.length + bitsVal b := by
  have gen : ∀ (b : List Bool) (n : Nat),
      b.foldl (fun a b => 2 * a + b.toNat) n = n * 2 ^ b.length + bitsVal b := by
    intro b
    induction b with
    | nil => intro n; simp [bitsVal]
    | cons x t ih =>
      intro n
      simp only [bitsVal, List.foldl_cons, List.length_cons]
      rw [ih, ih (2 * 0 + x.toNat), Nat.pow_succ]
      rw [Nat.add_mul, Nat.mul_comm 2 n, Nat.mul_assoc, Nat.mul_comm 2 (2 ^ t.length)]
      simp only [Nat.mul_zero, Nat.zero_add]
      omega
  simp only [bitsVal, List.foldl_append]
  exact gen b _

theorem byteBits_split : ∀ b : Fin 256,
    bitsVal ((byteBits (UInt8.ofNat b)).take 6) = b / 4 ∧
    bitsVal ((byteBits (UInt8.ofNat b)).drop 6) = b % 4 ∧
    bitsVal ((byteBits (UInt8.ofNat b)).take 4) = b / 16 ∧
    bitsVal ((byteBits (UInt8.ofNat b)).drop 4) = b % 16 ∧
    bitsVal ((byteBits (UInt8.ofNat b)).take 2) = b / 64 ∧
    bitsVal ((byteBits (UInt8.ofNat b)).drop 2) = b % 64 := by decide +kernel

theorem byteBits_split' (b : UInt8) :
    bitsVal ((byteBits b).take 6) = b.toNat / 4 ∧
    bitsVal ((byteBits b).drop 6) = b.toNat % 4 ∧
    bitsVal ((byteBits b).take 4) = b.toNat / 16 ∧
    bitsVal ((byteBits b).drop 4) = b.toNat % 16 ∧
    bitsVal ((byteBits b).take 2) = b.toNat / 64 ∧
    bitsVal ((byteBits b).drop 2) = b.toNat % 64 := by
  have := byteBits_split ⟨b.toNat, UInt8.toNat_lt b⟩
  simpa using this

theorem byteBits_eq (b : UInt8) : ∃ b0 b1 b2 b3 b4 b5 b6 b7,
    byteBits b = [b0, b1, b2, b3, b4, b5, b6, b7] :=
  ⟨_, _, _, _, _, _, _, _, rfl⟩

theorem wsChar_alphabet : ∀ n : Fin 64, wsChar n = webAlphabet.getD n 0 := by decide

theorem wsChar_alpha {n : Nat} (h : n < 64) : webAlphabet.getD n 0 = wsChar n :=
  (wsChar_alphabet ⟨n, h⟩).symm

theorem sextets_six (b0 b1 b2 b3 b4 b5 : Bool) (t : List Bool) :
    sextets (b0 :: b1 :: b2 :: b3 :: b4 :: b5 :: t) = bitsVal [b0, b1, b2, b3, b4, b5] :: sextets t := by
  rw [sextets]
theorem sextets_nil : sextets [] = [] := by rw [sextets]
theorem sextets_two (a b : Bool) : sextets [a, b] = [bitsVal [a, b, false, false, false, false]] := rfl
theorem sextets_four (a b c d : Bool) : sextets [a, b, c, d] = [bitsVal [a, b, c, d, false, false]] := rfl

/-- C02: the output is the RFC 4648 URL-safe encoding without padding. -/
theorem C02_rfc4648 (s : Bytes) : Base64WSEncode s = rfc4648url s := by
  unfold rfc4648url
  induction s using list_ind3 with
  | h0 => rfl
  | h1 a =>
    obtain ⟨a0, a1, a2, a3, a4, a5, a6, a7, ha⟩ := byteBits_eq a
    have hs := byteBits_split' a
    have hl := u8lt a
    rw [ha] at hs
    simp only [List.take_succ_cons, List.take_zero, List.drop_succ_cons, List.drop_zero] at hs
    have e2 : bitsVal [a6, a7, false, false, false, false] = a.toNat % 4 * 16 := by
      have := bitsVal_append [a6, a7] [false, false, false, false]
      rw [hs.2.1] at this
      simpa [bitsVal] using this
    simp only [WSE_one, List.map_cons, List.map_nil, List.flatten_cons, List.flatten_nil, ha,
      List.cons_append, List.append_nil, sextets_six, sextets_two, hs.1, e2]
    rw [wsChar_alpha (by omega), wsChar_alpha (by omega)]
  | h2 a b =>
    obtain ⟨a0, a1, a2, a3, a4, a5, a6, a7, ha⟩ := byteBits_eq a
    obtain ⟨b0, b1, b2, b3, b4, b5, b6, b7, hb⟩ := byteBits_eq b
    have hs := byteBits_split' a
    have hs' := byteBits_split' b
    have hl := u8lt a
    have hl' := u8lt b
    rw [ha] at hs
    rw [hb] at hs'
    simp only [List.take_succ_cons, List.take_zero, List.drop_succ_cons, List.drop_zero] at hs hs'
    have e2 : bitsVal [a6, a7, b0, b1, b2, b3] = a.toNat % 4 * 16 + b.toNat / 16 := by
      have := bitsVal_append [a6, a7] [b0, b1, b2, b3]
      rw [hs.2.1, hs'.2.2.1] at this
      simpa using this
    have e3 : bitsVal [b4, b5, b6, b7, false, false] = b.toNat % 16 * 4 := by
      have := bitsVal_append [b4, b5, b6, b7] [false, false]
      rw [hs'.2.2.2.1] at this
      simpa [bitsVal] using this
    simp only [WSE_two, List.map_cons, List.map_nil, List.flatten_cons, List.flatten_nil, ha, hb,
      List.cons_append, List.append_nil, List.nil_append, sextets_six, sextets_four, hs.1, e2, e3]
    rw [wsChar_alpha (by omega), wsChar_alpha (by omega), wsChar_alpha (by omega)]
  | h3 a b c t ih =>
    obtain ⟨a0, a1, a2, a3, a4, a5, a6, a7, ha⟩ := byteBits_eq a
    obtain ⟨b0, b1, b2, b3, b4, b5, b6, b7, hb⟩ := byteBits_eq b
    obtain ⟨d0, d1, d2, d3, d4, d5, d6, d7, hc⟩ := byteBits_eq c
    have hs := byteBits_split' a
    have hs' := byteBits_split' b
    have hs'' := byteBits_split' c
    have hl := u8lt a
    have hl' := u8lt b
    have hl'' := u8lt c
    rw [ha] at hs
    rw [hb] at hs'
    rw [hc] at hs''
    simp only [List.take_succ_cons, List.take_zero, List.drop_succ_cons, List.drop_zero] at hs hs' hs''
    have e2 : bitsVal [a6, a7, b0, b1, b2, b3] = a.toNat % 4 * 16 + b.toNat / 16 := by
      have := bitsVal_append [a6, a7] [b0, b1, b2, b3]
      rw [hs.2.1, hs'.2.2.1] at this
      simpa using this
    have e3 : bitsVal [b4, b5, b6, b7, d0, d1] = b.toNat % 16 * 4 + c.toNat / 64 := by
      have := bitsVal_append [b4, b5, b6, b7] [d0, d1]
      rw [hs'.2.2.2.1, hs''.2.2.2.2.1] at this
      simpa using this
    simp only [WSE_three, List.map_cons, List.flatten_cons, ha, hb, hc,
      List.cons_append, List.nil_append, sextets_six, hs.1, e2, e3, hs''.2.2.2.2.2, ih]
    rw [wsChar_alpha (by omega), wsChar_alpha (by omega), wsChar_alpha (by omega),
      wsChar_alpha (by omega)]

/-- C02: only web-safe characters (in particular no padding). -/
theorem C02_alphabet (s : Bytes) : ∀ c ∈ Base64WSEncode s, c ∈ webAlphabet := by
  intro c hc
  obtain ⟨n, hn, rfl⟩ := WSE_mem s c hc
  rw [← wsChar_alpha hn]
  have : ∀ n : Fin 64, webAlphabet.getD n 0 ∈ webAlphabet := by decide +kernel
  exact this ⟨n, hn⟩

/-- the alphabet has no padding character -/
example : (61 : UInt8) ∉ webAlphabet := by decide

/-- C02: length is the least integer not below 4*len/3. -/
theorem C02_length (s : Bytes) :
    4 * s.length ≤ 3 * (Base64WSEncode s).length ∧ 3 * (Base64WSEncode s).length < 4 * s.length + 3 := by
  rw [WSE_length]; omega

/-- C02: different inputs have different encodings. -/
theorem C02_injective (s t : Bytes) (h : Base64WSEncode s = Base64WSEncode t) : s = t := by
  have h1 := C01_round_trip s
  rw [h, C01_round_trip] at h1
  exact (Except.ok.inj h1).symm

example : Base64WSEncode (bstr "Many hands") = bstr "TWFueSBoYW5kcw" := by decide

/-! ## C03 -/

theorem InsertBlanks.filter_eq {s t : Bytes} (h : InsertBlanks s t) :
    t.filter (fun c => !isSkipped c) = s.filter (fun c => !isSkipped c) := by
  induction h with
  | nil => rfl
  | keep c _ ih => simp only [List.filter_cons, ih]
  | blank c hc _ ih =>
    rw [List.filter_cons_of_neg, ih]
    rcases hc with rfl | rfl | rfl <;> decide

/-- C03: inserting spaces and line breaks anywhere changes nothing. -/
theorem C03_blanks_ignored (s t : Bytes) (h : InsertBlanks s t) :
    Base64WSDecode t = Base64WSDecode s := by
  simp only [Base64WSDecode, InsertBlanks.filter_eq h]

example : InsertBlanks (bstr "QUJD") (bstr "QU\r\nJ D\n") :=
  .keep _ (.keep _ (.blank _ (.inr (.inl rfl)) (.blank _ (.inr (.inr rfl)) (.keep _ (.blank _ (.inl rfl)
    (.keep _ (.blank _ (.inr (.inr rfl)) .nil)))))))

/-- C03: the only exception is `Base64DecodingError`. -/
theorem C03_only_failure (s : Bytes) :
    (∃ b, Base64WSDecode s = .ok b) ∨ Base64WSDecode s = .error .base64Decoding := by
  unfold Base64WSDecode
  simp only
  split
  · exact .inr rfl
  · unfold urlsafeB64decode
    split
    · exact .inl ⟨_, rfl⟩
    · exact .inr rfl
    · rename_i h1 h2
      split at h2
      · cases h2
      · exact absurd (Except.error.inj h2).symm h1

/-- C03: it raises when the number of non-blank characters is 1 mod 4. -/
theorem C03_length_error (s : Bytes)
    (h : (s.filter fun c => decide ¬(c = 32 ∨ c = 13 ∨ c = 10)).length % 4 = 1) :
    Base64WSDecode s = .error .base64Decoding := by
  have e : (s.filter fun c => !isSkipped c) = s.filter fun c => decide ¬(c = 32 ∨ c = 13 ∨ c = 10) := by
    apply List.filter_congr
    intro c _
    simp only [isSkipped]
    by_cases h1 : c = 10 <;> by_cases h2 : c = 13 <;> by_cases h3 : c = 32 <;> simp [h1, h2, h3]
  simp only [Base64WSDecode, e, h, if_pos]

example : ((bstr "Q UJ\nDR").filter fun c => decide ¬(c = 32 ∨ c = 13 ∨ c = 10)).length % 4 = 1 := by
  decide

/-- C03: tabs are not ignored. -/
theorem C03_tab_not_ignored : ∃ s t : Bytes, ∃ b, Base64WSDecode (s ++ t) = .ok b ∧
    Base64WSDecode (s ++ [9] ++ t) = .error .base64Decoding :=
  ⟨bstr "QQ", [], bstr "A", by decide, by decide⟩

/-- C03 (addendum): decoding is not injective, the unused low bits of the last character are
ignored; so a Base64 text is malleable although the bytes are not. -/
theorem C03_decode_not_injective : ∃ s t b, s ≠ t ∧ Base64WSDecode s = .ok b ∧ Base64WSDecode t = .ok b :=
  ⟨bstr "QQ", bstr "QR", bstr "A", by decide, by decide, by decide⟩

/-! ## C06 -/

/-- C06: unpacking what was packed returns the arrays, for every number of arrays and every
length that `struct.pack('>i')` accepts, for every sufficiently large fuel (i.e. it terminates). -/
theorem C06_pack_unpack (arrays : List Bytes) (packed : Bytes)
    (h : PackMultipleByteArrays arrays = .ok packed) (fuel : Nat) (hf : arrays.length < fuel) :
    UnpackMultipleByteArrays fuel packed = .ok arrays := by
  have hn : arrays.length < 2 ^ 31 := by
    unfold PackMultipleByteArrays structPackI at h
    by_cases hn : arrays.length < 2 ^ 31
    · exact hn
    · rw [if_neg hn] at h; cases h
  have hlen : ∀ a ∈ arrays, a.length < 2 ^ 31 := by
    have key : ∀ (as : List Bytes) (r : List Bytes),
        as.mapM (fun a => PackByteArray (some a)) = .ok r → ∀ a ∈ as, a.length < 2 ^ 31 := by
      intro as
      induction as with
      | nil => intro r _ a ha; cases ha
      | cons x t ih =>
        intro r hr a ha
        rw [List.mapM_cons] at hr
        by_cases hx : x.length < 2 ^ 31
        · rw [PackByteArray_some hx] at hr
          cases ht : t.mapM (fun a => PackByteArray (some a)) with
          | error e => rw [ht] at hr; cases hr
          | ok r' =>
            rcases List.mem_cons.mp ha with rfl | ha
            · exact hx
            · exact ih r' ht a ha
        · simp [PackByteArray, structPackI, hx, bind, Except.bind] at hr
    unfold PackMultipleByteArrays at h
    simp only [structPackI, if_pos hn, bind, Except.bind] at h
    cases hm : arrays.mapM (fun a => PackByteArray (some a)) with
    | error e => rw [hm] at h; cases h
    | ok r => exact key arrays r hm
  rw [PackMultiple_ok arrays hn hlen] at h
  injection h with h
  subst h
  have := unpackLoop_packed arrays hlen (IntToBytes arrays.length) [] fuel hf
  unfold UnpackMultipleByteArrays
  rw [IntToBytes_length] at this
  rw [show (4 : Int) = ((4 : Nat) : Int) by rfl, this]
  simp [bind, Except.bind, pure, Except.pure]

/-- C06: packing succeeds exactly for sizes below 2^31. -/
theorem C06_pack_ok (arrays : List Bytes) (hn : arrays.length < 2 ^ 31)
    (h : ∀ a ∈ arrays, a.length < 2 ^ 31) : ∃ p, PackMultipleByteArrays arrays = .ok p :=
  ⟨_, PackMultiple_ok arrays hn h⟩

/-- C06: a single packed array is found at its offset, whatever surrounds it. -/
theorem C06_unpack_at_offset (pre a post packed : Bytes) (h : PackByteArray (some a) = .ok packed) :
    UnpackByteArray (pre ++ packed ++ post) (pre.length : Int)
      = .ok (a, (((pre ++ packed).length : Nat) : Int)) := by
  by_cases hx : a.length < 2 ^ 31
  · rw [PackByteArray_some hx] at h
    injection h with h
    subst h
    rw [packOne, UnpackByteArray_pack pre a post hx]
    simp [IntToBytes_length]; omega
  · simp [PackByteArray, structPackI, hx, bind, Except.bind] at h

/-- C06: packing is unambiguous. -/
theorem C06_unambiguous (as bs : List Bytes) (p : Bytes) (ha : PackMultipleByteArrays as = .ok p)
    (hb : PackMultipleByteArrays bs = .ok p) : as = bs := by
  have h1 := C06_pack_unpack as p ha (as.length + bs.length + 1) (by omega)
  have h2 := C06_pack_unpack bs p hb (as.length + bs.length + 1) (by omega)
  rw [h1] at h2
  exact Except.ok.inj h2

example : PackMultipleByteArrays [bstr "ab", [], bstr "xyz"] =
    .ok ([0,0,0,3, 0,0,0,2,97,98, 0,0,0,0, 0,0,0,3,120,121,122]) := by decide

/-! ## C07 -/

/-- `LenFieldAt data p n`: the four bytes at position `p` (0 ≤ p) are the signed big-endian number `n`. -/
def LenFieldAt (data : Bytes) (p : Int) (n : Int) : Prop := structUnpackI (slice data p (p + 4)) = .ok n

/-- Positions at which the unpacking loop reads a length field. -/
inductive Visits (data : Bytes) : Int → Prop
  | start : Visits data 4
  | next {p n : Int} : Visits data p → p < data.length → LenFieldAt data p n → Visits data (p + 4 + n)

/-- C07 (the claim is false): an input on which the loop never ends, whatever the fuel. -/
theorem C07_diverges : ∃ data : Bytes, ∀ fuel, UnpackMultipleByteArrays fuel data = .error .diverged := by
  refine ⟨[0, 0, 0, 1, 0xff, 0xff, 0xff, 0xfc], ?_⟩
  have key : ∀ fuel acc, unpackLoop fuel [0, 0, 0, 1, 0xff, 0xff, 0xff, 0xfc] 4 acc = .error .diverged := by
    intro fuel
    induction fuel with
    | zero => intro acc; rfl
    | succ fuel ih =>
      intro acc
      have h1 : UnpackByteArray [0, 0, 0, 1, 0xff, 0xff, 0xff, 0xfc] 4 = .ok ([], 4) := by decide +kernel
      rw [unpackLoop, if_pos (by simp), h1]
      exact ih _
  intro fuel
  unfold UnpackMultipleByteArrays
  rw [key]
  rfl

/-- C07 (what holds): if no length field that is read is below -3 then the loop terminates, after
at most `len(data)` iterations. -/
theorem C07_terminates (data : Bytes)
    (h : ∀ p n, Visits data p → p < data.length → LenFieldAt data p n → -3 ≤ n) (fuel : Nat)
    (hf : data.length < fuel) : UnpackMultipleByteArrays fuel data ≠ .error .diverged := by
  have key : ∀ (fuel : Nat) (p : Int) acc, Visits data p → (data.length : Int) - p < fuel → 0 < fuel →
      unpackLoop fuel data p acc ≠ .error .diverged := by
    intro fuel
    induction fuel with
    | zero => intro p acc _ _ h0; omega
    | succ fuel ih =>
      intro p acc hv hm _
      rw [unpackLoop]
      split
      · rename_i hlt
        unfold UnpackByteArray
        cases hs : structUnpackI (slice data p (p + 4)) with
        | error e =>
          have hse : e = .structError := by
            unfold structUnpackI at hs
            split at hs
            · cases hs
            · exact (Except.error.inj hs).symm
          subst hse
          simp [bind, Except.bind]
        | ok n =>
          have h3 := h p n hv hlt hs
          simp only [bind, Except.bind, pure, Except.pure]
          refine ih _ _ (Visits.next hv hlt hs) (by omega) (by omega)
      · simp
  unfold UnpackMultipleByteArrays
  have := key fuel 4 [] Visits.start (by omega) (by omega)
  cases hu : unpackLoop fuel data 4 [] with
  | error e =>
    rw [hu] at this
    simp only [bind, Except.bind]
    intro h0; injection h0 with h0; subst h0; exact this rfl
  | ok r =>
    simp only [bind, Except.bind, pure, Except.pure]
    split <;> simp

/-- the hypothesis of `C07_terminates` is met, e.g. by this data -/
example : ∀ p n, Visits [0,0,0,1, 0,0,0,2, 7,8] p → p < 10 →
    LenFieldAt [0,0,0,1, 0,0,0,2, 7,8] p n → -3 ≤ n := by
  have hv : ∀ p, Visits [0,0,0,1, 0,0,0,2, 7,8] p → p = 4 ∨ p = 10 := by
    intro p h
    induction h with
    | start => exact .inl rfl
    | next _ hlt hl ih =>
      rcases ih with rfl | rfl
      · have h4 : structUnpackI (slice ([0,0,0,1, 0,0,0,2, 7,8] : Bytes) 4 (4 + 4)) = .ok 2 := by
          decide +kernel
        have := Except.ok.inj (h4.symm.trans hl)
        subst this; exact .inr rfl
      · simp at hlt
  intro p n h hlt hl
  rcases hv p h with rfl | rfl
  · have h4 : structUnpackI (slice ([0,0,0,1, 0,0,0,2, 7,8] : Bytes) 4 (4 + 4)) = .ok 2 := by
      decide +kernel
    have := Except.ok.inj (h4.symm.trans hl)
    omega
  · omega

/-! ## C08 -/

theorem BytesToLong_bigEndian (b : Bytes) : BytesToLong b = bigEndian b := by
  rw [BytesToLong_eq]
  induction b with
  | nil => rfl
  | cons c t ih => rw [beNat_cons, bigEndian, ih]

/-- C08: `BytesToLong` is the big-endian value. -/
theorem C08_value (b : Bytes) : BytesToLong b = bigEndian b := BytesToLong_bigEndian b

/-- C08: round trip through `BigIntToBytes`. -/
theorem C08_round_trip (n : Nat) : BytesToLong (BigIntToBytes n) = n := by
  rw [BytesToLong_eq, beNat_BigIntToBytes]

/-- C08: zero padding does not change the value, and adds exactly that many bytes. -/
theorem C08_pad (b : Bytes) (k : Nat) : BytesToLong (PadBytes b k) = BytesToLong b ∧
    (PadBytes b k).length = k + b.length ∧ (PadBytes b k).drop k = b := by
  refine ⟨?_, by simp [PadBytes], by simp [PadBytes]⟩
  rw [BytesToLong_eq, BytesToLong_eq]
  exact beNat_replicate_zero _ _

/-- C08: no leading zero byte. -/
theorem C08_no_leading_zero (n : Nat) : (BigIntToBytes n).head? ≠ some 0 := BigIntToBytes_head n

/-- C08: shortest representation. -/
theorem C08_minimal (n : Nat) (b : Bytes) (h : bigEndian b = n) :
    (BigIntToBytes n).length ≤ b.length := by
  rw [← h, ← BytesToLong_bigEndian, BytesToLong_eq]; exact BigIntToBytes_minimal b

example : bigEndian [0, 1, 0] = 256 := by decide

/-- C08: `IntToBytes` is the 4-byte representation of n mod 2^32. -/
theorem C08_int_to_bytes (n : Nat) : (IntToBytes n).length = 4 ∧ bigEndian (IntToBytes n) = n % 2 ^ 32 := by
  refine ⟨rfl, ?_⟩
  rw [← BytesToLong_bigEndian, BytesToLong_eq, beNat_IntToBytes]

/-! ## C09 -/

/-- C09: trimming is canonical for the represented number. -/
theorem C09_trim_canonical (a b : Bytes) : TrimBytes a = TrimBytes b ↔ bigEndian a = bigEndian b := by
  rw [← BytesToLong_bigEndian, ← BytesToLong_bigEndian, BytesToLong_eq, BytesToLong_eq, ← strip0_inj]
  have key : ∀ x : Bytes, TrimBytes x = if strip0 x = [] then [0] else strip0 x := by
    intro x; rfl
  rw [key, key]
  have hne : ∀ x : Bytes, strip0 x ≠ [0] := by
    intro x h; apply strip0_head x; rw [h]; rfl
  by_cases ha : strip0 a = [] <;> by_cases hb : strip0 b = []
  · simp [ha, hb]
  · simp only [ha, hb, if_true, if_false]
    constructor
    · intro h; exact absurd h.symm (hne b)
    · intro h; exact absurd h.symm hb
  · simp only [ha, hb, if_true, if_false]
    constructor
    · intro h; exact absurd h (hne a)
    · intro h; exact h.elim
  · simp [ha, hb]

/-- C09: trimming keeps the value and never returns an empty string. -/
theorem C09_trim_value (a : Bytes) : bigEndian (TrimBytes a) = bigEndian a ∧ TrimBytes a ≠ [] := by
  have key : TrimBytes a = if strip0 a = [] then [0] else strip0 a := rfl
  rw [← BytesToLong_bigEndian, ← BytesToLong_bigEndian, BytesToLong_eq, BytesToLong_eq, key]
  have h := beNat_strip0 a
  by_cases ha : strip0 a = []
  · rw [if_pos ha]
    rw [ha] at h
    exact ⟨h, by simp⟩
  · rw [if_neg ha]; exact ⟨h, ha⟩

/-! ## C10 -/

/-- C10: the i-th byte from the right of `Xor a b` is the exclusive or of the i-th bytes from the
right (missing bytes are zero), and the length is that of the longer operand. -/
theorem C10_pointwise (a b : Bytes) : (Xor a b).length = max a.length b.length ∧
    ∀ i, i < max a.length b.length →
      (Xor a b).reverse.getD i 0 = a.reverse.getD i 0 ^^^ b.reverse.getD i 0 := by
  refine ⟨Xor_length a b, ?_⟩
  intro i hi
  have hpad : ∀ (x : Bytes) (m : Nat), x.length ≤ m → i < m →
      (lpad x m).reverse.getD i 0 = x.reverse.getD i 0 := by
    intro x m hx him
    unfold lpad
    rw [List.reverse_append, List.reverse_replicate]
    simp only [List.getD_eq_getElem?_getD]
    by_cases h : i < x.length
    · rw [List.getElem?_append_left (by simpa using h)]
    · rw [List.getElem?_append_right (by simp; omega)]
      rw [List.getElem?_replicate, if_pos (by simp; omega),
        List.getElem?_eq_none (by simp; omega)]
      rfl
  rw [Xor_eq, xorBytes]
  have h1 := lpad_length a (max a.length b.length) (by omega)
  have h2 := lpad_length b (max a.length b.length) (by omega)
  rw [← hpad a (max a.length b.length) (by omega) hi, ← hpad b (max a.length b.length) (by omega) hi]
  generalize lpad a (max a.length b.length) = x at *
  generalize lpad b (max a.length b.length) = y at *
  rw [List.getD_eq_getElem?_getD, List.getD_eq_getElem?_getD, List.getD_eq_getElem?_getD,
    List.getElem?_reverse (by simp; omega), List.getElem?_reverse (by omega),
    List.getElem?_reverse (by omega)]
  simp only [List.length_zipWith, h1, h2, Nat.min_self]
  have hx : max a.length b.length - 1 - i < x.length := by omega
  have hy : max a.length b.length - 1 - i < y.length := by omega
  simp [List.getElem?_zipWith, List.getElem?_eq_getElem hx, List.getElem?_eq_getElem hy]

/-- C10: involution. -/
theorem C10_involution (a b : Bytes) (h : b.length ≤ a.length) : Xor (Xor a b) b = a := Xor_Xor a b h

/-- C10: commutative. -/
theorem C10_comm (a b : Bytes) : Xor a b = Xor b a := Xor_comm a b

example : Xor (Xor [1, 2, 3] [255]) [255] = [1, 2, 3] := by decide

/-! ## C11 -/

/-- C11: bit string round trip. -/
theorem C11_round_trip (s : Bytes) : BinToBytes (BytesToBin s) = .ok s := BinToBytes_BytesToBin s

/-- C11: shape: the concatenation of the eight bits of every byte, as characters 0/1. -/
theorem C11_shape (s : Bytes) : BytesToBin s =
    (s.map byteBits).flatten.map fun b => if b then (49 : UInt8) else 48 := by
  have key : ∀ b : Fin 256, PadByte (IntToBin b.val) =
      (byteBits (UInt8.ofNat b)).map fun b => if b then (49 : UInt8) else 48 := by decide +kernel
  have key' : ∀ b : UInt8, PadByte (IntToBin b.toNat) =
      (byteBits b).map fun b => if b then (49 : UInt8) else 48 := by
    intro b
    have := key ⟨b.toNat, UInt8.toNat_lt b⟩
    simpa using this
  unfold BytesToBin
  rw [List.map_flatten, List.map_map]
  congr 1
  apply List.map_congr_left
  intro b _
  exact key' b

theorem C11_length (s : Bytes) : (BytesToBin s).length = 8 * s.length := BytesToBin_length s

/-! ## C12 -/

/-- C12: round trip, whatever bytes follow. -/
theorem C12_round_trip (r s : Int) (sig trailing : Bytes) (h : MakeDsaSig r s = .ok sig) :
    ParseDsaSig (sig ++ trailing) = .ok (r, s) := ParseDsaSig_Make h trailing

/-- C12: `MakeDsaSig` succeeds for all integers with fewer than 2^59 bytes. -/
theorem C12_make_ok (r s : Int) (k : Nat) (hk : k < 2 ^ 59) (hr : r.natAbs < 256 ^ k)
    (hs : s.natAbs < 256 ^ k) : ∃ sig, MakeDsaSig r s = .ok sig := by
  have key : ∀ n : Nat, n < 256 ^ k → (BigIntToBytes n).length < 2 ^ 60 := by
    intro n hn
    cases h : BigIntToBytes n with
    | nil => simp
    | cons c t =>
      have hc : c ≠ 0 := by intro h0; apply BigIntToBytes_head n; rw [h, h0]; rfl
      have h2 := beNat_ge_of_head (t := t) hc
      rw [← h, beNat_BigIntToBytes] at h2
      have h3 : 256 ^ t.length < 256 ^ k := Nat.lt_of_le_of_lt h2 hn
      have := (Nat.pow_lt_pow_iff_right (by omega : 1 < 256)).mp h3
      simp only [List.length_cons]; omega
  exact MakeDsaSig_ok r s (key _ hr) (key _ hs)

/-- C12: distinct pairs have distinct encodings, and trailing bytes are not detected. -/
theorem C12_injective (r s r' s' : Int) (sig : Bytes) (h : MakeDsaSig r s = .ok sig)
    (h' : MakeDsaSig r' s' = .ok sig) : (r, s) = (r', s') := by
  have h1 := C12_round_trip r s sig [] h
  rw [C12_round_trip r' s' sig [] h'] at h1
  exact (Except.ok.inj h1).symm

example : MakeDsaSig 300 5 = .ok [0x30, 7, 2, 2, 1, 0x2c, 2, 1, 5] := by decide +kernel

end Verif.Props
