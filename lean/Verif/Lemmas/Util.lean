import Verif.Model.Util
namespace Verif

/-! ### slices -/

theorem clampIdx_nat (n i : Nat) : clampIdx n (i : Int) = min i n := by
  unfold clampIdx; rw [if_neg (by omega)]; simp

theorem sliceFrom_nat {α} (s : List α) (i : Nat) : sliceFrom s (i : Int) = s.drop i := by
  unfold sliceFrom; rw [clampIdx_nat]
  by_cases h : i ≤ s.length
  · rw [Nat.min_eq_left h]
  · rw [Nat.min_eq_right (by omega), List.drop_eq_nil_of_le (Nat.le_refl _),
      List.drop_eq_nil_of_le (by omega)]

theorem sliceTo_nat {α} (s : List α) (i : Nat) : sliceTo s (i : Int) = s.take i := by
  unfold sliceTo; rw [clampIdx_nat]
  by_cases h : i ≤ s.length
  · rw [Nat.min_eq_left h]
  · rw [Nat.min_eq_right (by omega), List.take_of_length_le (Nat.le_refl _),
      List.take_of_length_le (by omega)]

theorem slice_nat {α} (s : List α) (i j : Nat) :
    slice s (i : Int) (j : Int) = (s.take j).drop i := by
  have h1 : slice s (i : Int) (j : Int) = (s.take (min j s.length)).drop (min i s.length) := by
    unfold slice; rw [clampIdx_nat, clampIdx_nat]
  rw [h1]
  have h2 : s.take (min j s.length) = s.take j := by
    by_cases h : j ≤ s.length
    · rw [Nat.min_eq_left h]
    · rw [Nat.min_eq_right (by omega), List.take_of_length_le (Nat.le_refl _),
        List.take_of_length_le (by omega)]
  rw [h2]
  by_cases h : i ≤ s.length
  · rw [Nat.min_eq_left h]
  · rw [Nat.min_eq_right (by omega), List.drop_eq_nil_of_le (by simp; omega),
      List.drop_eq_nil_of_le (by simp; omega)]

/-- `s[:-k]` for positive `k` -/
theorem sliceTo_neg {α} (s : List α) (k : Nat) (hk : 0 < k) :
    sliceTo s (-(k : Int)) = s.take (s.length - k) := by
  unfold sliceTo clampIdx; rw [if_pos (by omega)]
  congr 1; omega

/-- `s[-k:]` for positive `k` -/
theorem sliceFrom_neg {α} (s : List α) (k : Nat) (hk : 0 < k) :
    sliceFrom s (-(k : Int)) = s.drop (s.length - k) := by
  unfold sliceFrom clampIdx; rw [if_pos (by omega)]
  congr 1; omega

/-! ### bytes and integers -/

/-- big-endian value, Horner form -/
def beNat (b : Bytes) : Nat := b.foldl (fun a c => a * 256 + c.toNat) 0

theorem beNat_nil : beNat [] = 0 := rfl
theorem beNat_append_one (b : Bytes) (c : UInt8) : beNat (b ++ [c]) = beNat b * 256 + c.toNat := by
  simp [beNat]

theorem foldl_be (b : Bytes) (a : Nat) :
    b.foldl (fun a c => a * 256 + c.toNat) a = a * 256 ^ b.length + beNat b := by
  induction b generalizing a with
  | nil => simp [beNat]
  | cons c t ih =>
    simp only [beNat, List.foldl_cons, List.length_cons]
    rw [ih, ih (0 * 256 + c.toNat)]
    simp only [Nat.pow_succ]
    rw [Nat.add_mul, Nat.zero_mul, Nat.zero_add, Nat.mul_assoc, Nat.mul_comm 256]
    omega

theorem beNat_append (a b : Bytes) : beNat (a ++ b) = beNat a * 256 ^ b.length + beNat b := by
  simp only [beNat, List.foldl_append]
  exact foldl_be b _

theorem beNat_cons (c : UInt8) (b : Bytes) : beNat (c :: b) = c.toNat * 256 ^ b.length + beNat b := by
  have := beNat_append [c] b
  simpa [beNat] using this

theorem beNat_lt (b : Bytes) : beNat b < 256 ^ b.length := by
  induction b with
  | nil => simp [beNat]
  | cons c t ih =>
    rw [beNat_cons, List.length_cons, Nat.pow_succ]
    have h := UInt8.toNat_lt c
    have : c.toNat * 256 ^ t.length ≤ 255 * 256 ^ t.length := Nat.mul_le_mul_right _ (by omega)
    omega

theorem beNat_replicate_zero (k : Nat) (b : Bytes) : beNat (List.replicate k 0 ++ b) = beNat b := by
  induction k with
  | zero => simp
  | succ k ih => rw [List.replicate_succ, List.cons_append, beNat_cons, ih]; simp

theorem BytesToLong_eq (b : Bytes) : BytesToLong b = beNat b := by
  induction b with
  | nil => rfl
  | cons c t ih =>
    rw [beNat_cons, ← ih]
    unfold BytesToLong
    rw [List.length_cons, List.range_succ_eq_map, List.map_cons, List.map_map, List.sum_cons]
    congr 1
    congr 1
    apply List.map_congr_left
    intro i hi
    rw [List.mem_range] at hi
    simp only [Function.comp_apply, Nat.succ_eq_add_one, List.getD_cons_succ]
    congr 2; omega

theorem toNat_ofNat_mod (n : Nat) : (UInt8.ofNat (n % 256)).toNat = n % 256 := by
  simp [UInt8.toNat_ofNat']

theorem BigIntToBytes_zero : BigIntToBytes 0 = [] := by rw [BigIntToBytes]; simp
theorem BigIntToBytes_pos {n : Nat} (h : n ≠ 0) :
    BigIntToBytes n = BigIntToBytes (n / 256) ++ [UInt8.ofNat (n % 256)] := by
  rw [BigIntToBytes]; simp [h]

theorem beNat_BigIntToBytes (n : Nat) : beNat (BigIntToBytes n) = n := by
  induction n using Nat.strongRecOn with
  | ind n ih =>
    by_cases h : n = 0
    · subst h; rw [BigIntToBytes_zero]; rfl
    · rw [BigIntToBytes_pos h, beNat_append_one, ih _ (by omega), toNat_ofNat_mod]; omega

theorem BigIntToBytes_ne_nil {n : Nat} (h : n ≠ 0) : BigIntToBytes n ≠ [] := by
  rw [BigIntToBytes_pos h]; simp

theorem BigIntToBytes_head (n : Nat) : (BigIntToBytes n).head? ≠ some 0 := by
  induction n using Nat.strongRecOn with
  | ind n ih =>
    by_cases h : n = 0
    · subst h; rw [BigIntToBytes_zero]; simp
    · rw [BigIntToBytes_pos h]
      by_cases h' : n / 256 = 0
      · rw [h', BigIntToBytes_zero]
        simp only [List.nil_append, List.head?_cons, ne_eq, Option.some.injEq]
        intro h0
        have := congrArg UInt8.toNat h0
        rw [toNat_ofNat_mod] at this
        simp at this; omega
      · have := ih (n / 256) (by omega)
        cases hb : BigIntToBytes (n / 256) with
        | nil => exact absurd hb (BigIntToBytes_ne_nil h')
        | cons c t => rw [hb] at this; simpa using this

/-- a string without leading zero byte has the largest possible value range -/
theorem beNat_ge_of_head {c : UInt8} {t : Bytes} (h : c ≠ 0) : 256 ^ t.length ≤ beNat (c :: t) := by
  rw [beNat_cons]
  have : 1 ≤ c.toNat := by
    rcases Nat.eq_zero_or_pos c.toNat with h0 | h0
    · exact absurd (UInt8.toNat_inj.mp (by simpa using h0)) h
    · exact h0
  have := Nat.mul_le_mul_right (256 ^ t.length) this
  omega

theorem BigIntToBytes_minimal (b : Bytes) : (BigIntToBytes (beNat b)).length ≤ b.length := by
  have h1 := beNat_lt b
  cases h : BigIntToBytes (beNat b) with
  | nil => simp
  | cons c t =>
    have hc : c ≠ 0 := by
      intro h0; apply BigIntToBytes_head (beNat b); rw [h, h0]; rfl
    have h2 := beNat_ge_of_head (t := t) hc
    rw [← h, beNat_BigIntToBytes] at h2
    have : 256 ^ t.length < 256 ^ b.length := by omega
    have := (Nat.pow_lt_pow_iff_right (by omega : 1 < 256)).mp this
    simp only [List.length_cons]; omega

theorem beNat_inj_of_length {a b : Bytes} (hl : a.length = b.length) (h : beNat a = beNat b) :
    a = b := by
  induction a generalizing b with
  | nil => cases b with
    | nil => rfl
    | cons => simp at hl
  | cons c t ih =>
    cases b with
    | nil => simp at hl
    | cons d u =>
      simp only [List.length_cons, Nat.add_right_cancel_iff] at hl
      rw [beNat_cons, beNat_cons, hl] at h
      have h1 := beNat_lt t
      have h2 := beNat_lt u
      rw [hl] at h1
      have hcd : c.toNat = d.toNat := by
        have e1 : (c.toNat * 256 ^ u.length + beNat t) / 256 ^ u.length = c.toNat := by
          rw [Nat.add_comm, Nat.add_mul_div_right _ _ (by omega), Nat.div_eq_of_lt h1]; omega
        have e2 : (d.toNat * 256 ^ u.length + beNat u) / 256 ^ u.length = d.toNat := by
          rw [Nat.add_comm, Nat.add_mul_div_right _ _ (by omega), Nat.div_eq_of_lt h2]; omega
        rw [← e1, ← e2, h]
      have : c = d := UInt8.toNat_inj.mp hcd
      subst this
      rw [ih hl (by omega)]

/-- two strings without leading zero bytes and the same value are equal -/
theorem beNat_inj_of_head {a b : Bytes} (ha : a.head? ≠ some 0) (hb : b.head? ≠ some 0)
    (h : beNat a = beNat b) : a = b := by
  have key : ∀ a b : Bytes, a.head? ≠ some 0 → beNat a = beNat b → a.length ≤ b.length := by
    intro a b ha h
    cases a with
    | nil => simp
    | cons c t =>
      have hc : c ≠ 0 := by intro h0; apply ha; rw [h0]; rfl
      have h2 := beNat_ge_of_head (t := t) hc
      have h1 := beNat_lt b
      have : 256 ^ t.length < 256 ^ b.length := by omega
      have := (Nat.pow_lt_pow_iff_right (by omega : 1 < 256)).mp this
      simp only [List.length_cons]; omega
  exact beNat_inj_of_length (Nat.le_antisymm (key a b ha h) (key b a hb h.symm)) h

/-- stripping leading zero bytes -/
def strip0 (b : Bytes) : Bytes := b.dropWhile (· = 0)

theorem strip0_head (b : Bytes) : (strip0 b).head? ≠ some 0 := by
  intro h
  have := List.head?_dropWhile_not (fun x : UInt8 => decide (x = 0)) b
  unfold strip0 at h
  rw [h] at this
  simp at this

theorem strip0_decomp (b : Bytes) : ∃ k, b = List.replicate k 0 ++ strip0 b := by
  induction b with
  | nil => exact ⟨0, by simp [strip0]⟩
  | cons c t ih =>
    by_cases h : c = 0
    · obtain ⟨k, hk⟩ := ih
      refine ⟨k + 1, ?_⟩
      subst h
      have : strip0 (0 :: t) = strip0 t := by simp [strip0]
      rw [this, List.replicate_succ, List.cons_append, ← hk]
    · exact ⟨0, by simp [strip0, h]⟩

theorem beNat_strip0 (b : Bytes) : beNat (strip0 b) = beNat b := by
  obtain ⟨k, hk⟩ := strip0_decomp b
  conv => rhs; rw [hk]
  rw [beNat_replicate_zero]

theorem strip0_eq_BigInt (b : Bytes) : strip0 b = BigIntToBytes (beNat b) :=
  beNat_inj_of_head (strip0_head b) (BigIntToBytes_head _)
    (by rw [beNat_strip0, beNat_BigIntToBytes])

theorem strip0_inj {a b : Bytes} : strip0 a = strip0 b ↔ beNat a = beNat b := by
  constructor
  · intro h; rw [← beNat_strip0 a, h, beNat_strip0]
  · intro h; rw [strip0_eq_BigInt, strip0_eq_BigInt, h]

theorem IntToBytes_length (n : Nat) : (IntToBytes n).length = 4 := rfl

theorem beNat_IntToBytes (n : Nat) : beNat (IntToBytes n) = n % 2 ^ 32 := by
  simp only [IntToBytes, List.map_cons, List.map_nil, beNat, List.foldl_cons, List.foldl_nil,
    toNat_ofNat_mod]
  omega

/-! ### Xor -/

theorem xorBytes_length (a b : Bytes) : (xorBytes a b).length = min a.length b.length := by
  simp [xorBytes]

theorem range_map_getD_xor (a b : Bytes) (h : a.length = b.length) :
    ((List.range a.length).map fun i => a.getD i 0 ^^^ b.getD i 0) = xorBytes a b := by
  apply List.ext_getElem
  · simp [xorBytes, h]
  · intro i h1 h2
    simp only [List.length_map, List.length_range] at h1
    have hb : i < b.length := by omega
    simp [xorBytes, h1, hb]

/-- left zero padding to a given length -/
def lpad (b : Bytes) (m : Nat) : Bytes := List.replicate (m - b.length) 0 ++ b

theorem lpad_length (b : Bytes) (m : Nat) (h : b.length ≤ m) : (lpad b m).length = m := by
  simp [lpad]; omega

theorem lpad_self (b : Bytes) : lpad b b.length = b := by simp [lpad]

theorem Xor_eq (a b : Bytes) :
    Xor a b = xorBytes (lpad a (max a.length b.length)) (lpad b (max a.length b.length)) := by
  have hpa : ∀ (x : Bytes) (m : Nat), PadBytes x ((m - x.length : Nat) : Int) = lpad x m := by
    intro x m; simp only [PadBytes, lpad, Int.toNat_natCast]
  have ha : (if max a.length b.length > a.length then
      PadBytes a (max a.length b.length - a.length : Nat) else a) = lpad a (max a.length b.length) := by
    split
    · rw [hpa]
    · rw [show max a.length b.length = a.length by omega, lpad_self]
  have hb : (if max a.length b.length > a.length then b else
      if max a.length b.length > b.length then
      PadBytes b (max a.length b.length - b.length : Nat) else b) = lpad b (max a.length b.length) := by
    split
    · rw [show max a.length b.length = b.length by omega, lpad_self]
    · split
      · rw [hpa]
      · rw [show max a.length b.length = b.length by omega, lpad_self]
  unfold Xor
  simp only [ha, hb]
  have h1 := lpad_length a (max a.length b.length) (by omega)
  have h2 := lpad_length b (max a.length b.length) (by omega)
  have := range_map_getD_xor (lpad a (max a.length b.length)) (lpad b (max a.length b.length))
    (by omega)
  rw [h1] at this
  exact this

theorem u8_xor_cancel (a b : UInt8) : a ^^^ b ^^^ b = a := by
  rw [UInt8.xor_assoc, UInt8.xor_self, UInt8.xor_zero]

theorem xorBytes_cancel (a b : Bytes) (h : a.length ≤ b.length) :
    xorBytes (xorBytes a b) b = a := by
  induction a generalizing b with
  | nil => simp [xorBytes]
  | cons x a ih =>
    cases b with
    | nil => simp at h
    | cons y b =>
      have := ih b (by simpa using h)
      simp only [xorBytes, List.zipWith_cons_cons, u8_xor_cancel] at this ⊢
      rw [this]

theorem xorBytes_comm (a b : Bytes) : xorBytes a b = xorBytes b a := by
  induction a generalizing b with
  | nil => simp [xorBytes]
  | cons x a ih =>
    cases b with
    | nil => simp [xorBytes]
    | cons y b =>
      have := ih b
      simp only [xorBytes, List.zipWith_cons_cons] at this ⊢
      rw [this, UInt8.xor_comm]

theorem Xor_length (a b : Bytes) : (Xor a b).length = max a.length b.length := by
  rw [Xor_eq, xorBytes_length, lpad_length _ _ (by omega), lpad_length _ _ (by omega)]; omega

theorem Xor_same_length {a b : Bytes} (h : a.length = b.length) : Xor a b = xorBytes a b := by
  rw [Xor_eq, show max a.length b.length = a.length by omega, lpad_self]
  rw [h, lpad_self]

theorem Xor_Xor (a b : Bytes) (h : b.length ≤ a.length) : Xor (Xor a b) b = a := by
  rw [Xor_eq (Xor a b), Xor_length, show max (max a.length b.length) b.length = a.length by omega]
  have hx := Xor_length a b
  rw [show max a.length b.length = a.length by omega] at hx
  conv => lhs; arg 1; rw [← hx, lpad_self]
  rw [Xor_eq, show max a.length b.length = a.length by omega, lpad_self]
  exact xorBytes_cancel _ _ (by rw [lpad_length _ _ h]; omega)

theorem Xor_comm (a b : Bytes) : Xor a b = Xor b a := by
  rw [Xor_eq, Xor_eq, Nat.max_comm, xorBytes_comm]

/-! ### packing -/

theorem ofNat_byte (n : Nat) : (UInt8.ofNat (n % 256)).toNat = n % 256 := toNat_ofNat_mod n

theorem structUnpackI_IntToBytes {n : Nat} (h : n < 2 ^ 31) :
    structUnpackI (IntToBytes n) = .ok (n : Int) := by
  have h1 : (((n / 2 ^ 24) % 256 * 256 + (n / 2 ^ 16) % 256) * 256 + (n / 2 ^ 8) % 256) * 256
      + n % 256 = n := by omega
  simp only [IntToBytes, List.map_cons, List.map_nil, structUnpackI, toNat_ofNat_mod]
  rw [h1, if_pos h]

theorem UnpackByteArray_pack (pre a post : Bytes) (h : a.length < 2 ^ 31) :
    UnpackByteArray (pre ++ (IntToBytes a.length ++ a) ++ post) (pre.length : Int)
      = .ok (a, ((pre.length + 4 + a.length : Nat) : Int)) := by
  unfold UnpackByteArray
  have e1 : slice (pre ++ (IntToBytes a.length ++ a) ++ post) (pre.length : Int)
      ((pre.length : Int) + 4) = IntToBytes a.length := by
    have : ((pre.length : Int) + 4) = ((pre.length + 4 : Nat) : Int) := by simp
    rw [this, slice_nat]
    simp [List.take_append, IntToBytes_length]
    rfl
  rw [e1, structUnpackI_IntToBytes h]
  have e2 : slice (pre ++ (IntToBytes a.length ++ a) ++ post) ((pre.length : Int) + 4)
      ((pre.length : Int) + 4 + (a.length : Int)) = a := by
    have h1 : ((pre.length : Int) + 4) = ((pre.length + 4 : Nat) : Int) := by simp
    have h2 : ((pre.length : Int) + 4 + (a.length : Int)) = ((pre.length + 4 + a.length : Nat) : Int) := by
      simp
    rw [h2, h1, slice_nat]
    have : pre ++ (IntToBytes a.length ++ a) ++ post = (pre ++ IntToBytes a.length) ++ (a ++ post) := by
      simp
    rw [this, List.take_append, List.drop_append]
    simp [IntToBytes_length]
  simp only [bind, Except.bind, e2, pure, Except.pure]
  simp

def packOne (a : Bytes) : Bytes := IntToBytes a.length ++ a

theorem PackByteArray_some {a : Bytes} (h : a.length < 2 ^ 31) :
    PackByteArray (some a) = .ok (packOne a) := by
  simp [PackByteArray, structPackI, h, bind, Except.bind, pure, Except.pure, packOne]

theorem mapM_pack (as : List Bytes) (h : ∀ a ∈ as, a.length < 2 ^ 31) :
    as.mapM (fun a => PackByteArray (some a)) = .ok (as.map packOne) := by
  induction as with
  | nil => rfl
  | cons a t ih =>
    rw [List.mapM_cons, PackByteArray_some (h a (by simp)), ih (fun b hb => h b (by simp [hb]))]
    rfl

theorem PackMultiple_ok (as : List Bytes) (hn : as.length < 2 ^ 31)
    (h : ∀ a ∈ as, a.length < 2 ^ 31) :
    PackMultipleByteArrays as = .ok (IntToBytes as.length ++ (as.map packOne).flatten) := by
  simp [PackMultipleByteArrays, structPackI, hn, mapM_pack as h, bind, Except.bind, pure, Except.pure]

theorem unpackLoop_packed (as : List Bytes) (h : ∀ a ∈ as, a.length < 2 ^ 31) :
    ∀ (pre : Bytes) (acc : List Bytes) (fuel : Nat), as.length < fuel →
    unpackLoop fuel (pre ++ (as.map packOne).flatten) (pre.length : Int) acc
      = .ok (acc ++ as, ((pre ++ (as.map packOne).flatten).length : Int)) := by
  induction as with
  | nil =>
    intro pre acc fuel hf
    cases fuel with
    | zero => omega
    | succ fuel => simp [unpackLoop]
  | cons a t ih =>
    intro pre acc fuel hf
    cases fuel with
    | zero => omega
    | succ fuel =>
      have hlt : (pre.length : Int) < ((pre ++ ((a :: t).map packOne).flatten).length : Int) := by
        simp [packOne, IntToBytes_length]; omega
      rw [unpackLoop, if_pos hlt]
      have := UnpackByteArray_pack pre a (t.map packOne).flatten (h a (by simp))
      have e : pre ++ ((a :: t).map packOne).flatten = pre ++ (IntToBytes a.length ++ a) ++ (t.map packOne).flatten := by
        simp [packOne]
      rw [e, this]
      have ih' := ih (fun b hb => h b (by simp [hb])) (pre ++ (IntToBytes a.length ++ a)) (acc ++ [a]) fuel
        (by simp at hf; omega)
      have hl : (pre ++ (IntToBytes a.length ++ a)).length = pre.length + 4 + a.length := by
        simp [IntToBytes_length]; omega
      rw [hl] at ih'
      simp only [bind, Except.bind]
      rw [ih']
      simp

/-! ### bits -/

theorem intBase2_octets : ∀ b : Fin 256,
    (PadByte (IntToBin b.val)).length = 8 ∧ (∀ c ∈ PadByte (IntToBin b.val), c = c0 ∨ c = c1) ∧
    intBase2 (PadByte (IntToBin b.val)) = .ok b.val := by decide +kernel

theorem octet_length (b : UInt8) : (PadByte (IntToBin b.toNat)).length = 8 :=
  (intBase2_octets ⟨b.toNat, UInt8.toNat_lt b⟩).1
theorem octet_chars (b : UInt8) : ∀ c ∈ PadByte (IntToBin b.toNat), c = c0 ∨ c = c1 :=
  (intBase2_octets ⟨b.toNat, UInt8.toNat_lt b⟩).2.1
theorem octet_value (b : UInt8) : intBase2 (PadByte (IntToBin b.toNat)) = .ok b.toNat :=
  (intBase2_octets ⟨b.toNat, UInt8.toNat_lt b⟩).2.2

theorem BytesToBin_length (s : Bytes) : (BytesToBin s).length = 8 * s.length := by
  induction s with
  | nil => rfl
  | cons b t ih =>
    have : BytesToBin (b :: t) = PadByte (IntToBin b.toNat) ++ BytesToBin t := by simp [BytesToBin]
    rw [this, List.length_append, octet_length, ih, List.length_cons]; omega

theorem BytesToBin_octet (s : Bytes) : ∀ i, (h : i < s.length) →
    ((BytesToBin s).take (8 * (i + 1))).drop (8 * i) = PadByte (IntToBin (s[i]).toNat) := by
  induction s with
  | nil => intro i h; simp at h
  | cons b t ih =>
    intro i h
    have e : BytesToBin (b :: t) = PadByte (IntToBin b.toNat) ++ BytesToBin t := by simp [BytesToBin]
    have hl := octet_length b
    cases i with
    | zero =>
      rw [e, List.take_append_of_le_length (by omega), List.take_of_length_le (by omega)]
      simp
    | succ i =>
      have hi : i < t.length := by simpa using h
      have := ih i hi
      rw [e, List.take_append, List.drop_append, List.take_of_length_le (by omega),
        List.drop_eq_nil_of_le (by omega), List.nil_append]
      rw [hl]
      rw [show 8 * (i + 1 + 1) - 8 = 8 * (i + 1) by omega, show 8 * (i + 1) - 8 = 8 * i by omega, this]
      simp

theorem mapM_ok {α β} (l : List α) (f : α → Py β) (g : α → β) (h : ∀ a ∈ l, f a = .ok (g a)) :
    l.mapM f = .ok (l.map g) := by
  induction l with
  | nil => rfl
  | cons a t ih =>
    rw [List.mapM_cons, h a (by simp), ih (fun b hb => h b (by simp [hb]))]; rfl

theorem BinToBytes_BytesToBin (s : Bytes) : BinToBytes (BytesToBin s) = .ok s := by
  have hp : PadByte (BytesToBin s) = BytesToBin s := by
    simp [PadByte, BytesToBin_length]
  unfold BinToBytes
  simp only [hp, BytesToBin_length, List.mapM_map]
  rw [show 8 * s.length / 8 = s.length by omega]
  rw [mapM_ok _ _ (fun i => s.getD i 0)]
  · congr 1
    apply List.ext_getElem
    · simp
    · intro i h1 h2; simp [h2]
  · intro i hi
    rw [List.mem_range] at hi
    simp only [Function.comp_apply, slice_nat]
    rw [BytesToBin_octet s i hi, octet_value]
    simp [bind, Except.bind, pure, Except.pure, hi]

end Verif
