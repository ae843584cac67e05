import Verif.Model.Der
import Verif.Lemmas.Util
import Verif.Lemmas.Base64
namespace Verif

theorem derNatBytes_spec (n : Nat) : ∃ c t, derNatBytes n = c :: t ∧ c.toNat < 128 ∧
    beNat (c :: t) = n := by
  unfold derNatBytes
  have hv := beNat_BigIntToBytes n
  cases h : BigIntToBytes n with
  | nil => exact ⟨0, [], rfl, by decide, by rw [h] at hv; rw [← hv]; rfl⟩
  | cons c t =>
    rw [h] at hv
    by_cases hc : c.toNat ≥ 128
    · refine ⟨0, c :: t, by simp [hc], by decide, ?_⟩
      rw [beNat_cons, hv]; simp
    · exact ⟨c, t, by simp [hc], by omega, hv⟩

theorem compl_toNat (c : UInt8) : (~~~ c).toNat = 255 - c.toNat := by
  rw [UInt8.toNat_not]; have := UInt8.toNat_lt c; simp

theorem derIntBytes_ne_nil (n : Int) : derIntBytes n ≠ [] := by
  unfold derIntBytes
  split
  · obtain ⟨c, t, h, _⟩ := derNatBytes_spec n.toNat; rw [h]; simp
  · obtain ⟨c, t, h, _⟩ := derNatBytes_spec (-n - 1).toNat; rw [h]; simp

theorem compl_compl (b : Bytes) : (b.map (~~~ ·)).map (~~~ ·) = b := by
  rw [List.map_map]
  conv => rhs; rw [← List.map_id b]
  apply List.map_congr_left
  intro a _
  simp

theorem derIntValue_bytes (n : Int) : derIntValue (derIntBytes n) = n := by
  unfold derIntBytes
  by_cases h : n ≥ 0
  · rw [if_pos h]
    obtain ⟨c, t, h1, h2, h3⟩ := derNatBytes_spec n.toNat
    rw [h1]
    simp only [derIntValue]
    rw [if_neg (by omega), BytesToLong_eq, h3]; omega
  · rw [if_neg h]
    obtain ⟨c, t, h1, h2, h3⟩ := derNatBytes_spec (-n - 1).toNat
    rw [h1, List.map_cons]
    simp only [derIntValue]
    rw [if_pos (by rw [compl_toNat]; omega), ← List.map_cons, compl_compl, BytesToLong_eq, h3]
    omega

theorem derReadLen_derLen {n : Nat} {l : Bytes} (h : derLen n = .ok l) (rest : Bytes) :
    derReadLen (l ++ rest) = .ok (n, rest) ∧ 1 ≤ l.length := by
  unfold derLen at h
  by_cases hn : n < 128
  · rw [if_pos hn] at h
    injection h with h
    subst h
    have : (UInt8.ofNat n).toNat = n := by
      rw [UInt8.toNat_ofNat']; omega
    simp [derReadLen, this, hn]
  · rw [if_neg hn] at h
    by_cases hb : (BigIntToBytes n).length > 126
    · simp [hb] at h
    · simp only [if_neg hb] at h
      injection h with h
      subst h
      have hne := BigIntToBytes_ne_nil (n := n) (by omega)
      have hpos : 0 < (BigIntToBytes n).length := List.length_pos_iff.mpr hne
      have e : (UInt8.ofNat (128 + (BigIntToBytes n).length)).toNat = 128 + (BigIntToBytes n).length := by
        rw [UInt8.toNat_ofNat']; omega
      refine ⟨?_, by simp⟩
      simp only [List.cons_append, derReadLen, e]
      rw [if_neg (by omega), if_neg (by omega), if_neg (by simp)]
      rw [show 128 + (BigIntToBytes n).length - 128 = (BigIntToBytes n).length by omega]
      rw [List.take_left, List.drop_left, BytesToLong_eq, beNat_BigIntToBytes]

theorem derTLV_inv {tag : UInt8} {content b : Bytes} (h : derTLV tag content = .ok b) :
    ∃ l, derLen content.length = .ok l ∧ b = tag :: (l ++ content) := by
  unfold derTLV at h
  cases hl : derLen content.length with
  | error e => rw [hl] at h; simp [bind, Except.bind] at h
  | ok l =>
    rw [hl] at h
    simp only [bind, Except.bind, pure, Except.pure] at h
    injection h with h
    exact ⟨l, rfl, h.symm⟩

/-- decoding of one TLV: reduction to the content -/
theorem derDecode_tlv {tag : UInt8} {content b : Bytes} (h : derTLV tag content = .ok b)
    (rest : Bytes) (fuel : Nat) :
    derDecode (fuel + 1) (b ++ rest) =
        if tag = 0x02 then
          if content = [] then .error .unmodelled else .ok (.integer (derIntValue content), rest)
        else if tag = 0x04 then .ok (.octets content, rest)
        else if tag = 0x03 then
          match (generalizing := false) content with
          | 0 :: bits => .ok (.bits bits, rest)
          | _ => .error .unmodelled
        else if tag = 0x05 then .ok (.null, rest)
        else if tag = 0x06 then .ok (.oid content, rest)
        else if tag = 0x30 then do
          let l ← derDecodeList fuel content
          return (.seq l, rest)
        else .error .unmodelled := by
  obtain ⟨l, hl, rfl⟩ := derTLV_inv h
  have := (derReadLen_derLen hl (content ++ rest)).1
  simp only [List.cons_append, List.append_assoc, derDecode, this, bind, Except.bind]
  rw [if_neg (by simp), List.take_left, List.drop_left]
  rfl

theorem derTLV_length {tag : UInt8} {content b : Bytes} (h : derTLV tag content = .ok b) :
    content.length + 2 ≤ b.length := by
  obtain ⟨l, hl, rfl⟩ := derTLV_inv h
  have := (derReadLen_derLen hl []).2
  simp; omega

mutual
theorem derDecode_encode (v : Asn1) (b : Bytes) (h : derEncode v = .ok b) (rest : Bytes)
    (fuel : Nat) (hf : 2 * b.length ≤ fuel) : derDecode fuel (b ++ rest) = .ok (v, rest) ∧ 2 ≤ b.length := by
  match v with
  | .integer n =>
    simp only [derEncode] at h
    have hl := derTLV_length h
    obtain ⟨fuel, rfl⟩ : ∃ f, fuel = f + 1 := ⟨fuel - 1, by omega⟩
    rw [derDecode_tlv h]
    refine ⟨?_, by omega⟩
    rw [if_pos rfl, if_neg (derIntBytes_ne_nil n), derIntValue_bytes]
  | .octets c =>
    simp only [derEncode] at h
    have hl := derTLV_length h
    obtain ⟨fuel, rfl⟩ : ∃ f, fuel = f + 1 := ⟨fuel - 1, by omega⟩
    rw [derDecode_tlv h]
    exact ⟨rfl, by omega⟩
  | .bits c =>
    simp only [derEncode] at h
    have hl := derTLV_length h
    obtain ⟨fuel, rfl⟩ : ∃ f, fuel = f + 1 := ⟨fuel - 1, by omega⟩
    rw [derDecode_tlv h]
    exact ⟨rfl, by omega⟩
  | .null =>
    simp only [derEncode] at h
    have hl := derTLV_length h
    obtain ⟨fuel, rfl⟩ : ∃ f, fuel = f + 1 := ⟨fuel - 1, by omega⟩
    rw [derDecode_tlv h]
    exact ⟨rfl, by omega⟩
  | .oid c =>
    simp only [derEncode] at h
    have hl := derTLV_length h
    obtain ⟨fuel, rfl⟩ : ∃ f, fuel = f + 1 := ⟨fuel - 1, by omega⟩
    rw [derDecode_tlv h]
    exact ⟨rfl, by omega⟩
  | .seq l =>
    simp only [derEncode, bind, Except.bind] at h
    cases hc : derEncodeList l with
    | error e => rw [hc] at h; simp at h
    | ok c =>
      rw [hc] at h
      simp only at h
      have hl := derTLV_length h
      obtain ⟨fuel, rfl⟩ : ∃ f, fuel = f + 1 := ⟨fuel - 1, by omega⟩
      rw [derDecode_tlv h]
      refine ⟨?_, by omega⟩
      have := derDecodeList_encode l c hc fuel (by omega)
      rw [this]
      rfl
theorem derDecodeList_encode (l : List Asn1) (c : Bytes) (h : derEncodeList l = .ok c) (fuel : Nat)
    (hf : 2 * c.length + 1 ≤ fuel) : derDecodeList fuel c = .ok l := by
  match l with
  | [] =>
    simp only [derEncodeList] at h
    injection h with h
    subst h
    obtain ⟨fuel, rfl⟩ : ∃ f, fuel = f + 1 := ⟨fuel - 1, by omega⟩
    simp [derDecodeList]
  | v :: t =>
    simp only [derEncodeList, bind, Except.bind, pure, Except.pure] at h
    cases ha : derEncode v with
    | error e => rw [ha] at h; simp at h
    | ok a =>
      rw [ha] at h
      cases hb : derEncodeList t with
      | error e => rw [hb] at h; simp at h
      | ok b =>
        rw [hb] at h
        simp only at h
        injection h with h
        subst h
        simp only [List.length_append] at hf
        obtain ⟨fuel, rfl⟩ : ∃ f, fuel = f + 1 := ⟨fuel - 1, by omega⟩
        obtain ⟨h1, h2⟩ := derDecode_encode v a ha b fuel (by omega)
        have h3 := derDecodeList_encode t b hb fuel (by omega)
        have hne : a ++ b ≠ [] := by
          intro h0; have := congrArg List.length h0; simp at this; simp [this] at h2
        simp [derDecodeList, hne, h1, h3, bind, Except.bind, pure, Except.pure]
end

theorem derDecode0_encode {v : Asn1} {b : Bytes} (h : derEncode v = .ok b) (rest : Bytes) :
    derDecode0 (b ++ rest) = .ok v := by
  unfold derDecode0
  rw [(derDecode_encode v b h rest _ (by unfold derFuel; simp; omega)).1]
  rfl

theorem ParseDsaSig_Make {r s : Int} {b : Bytes} (h : MakeDsaSig r s = .ok b) (rest : Bytes) :
    ParseDsaSig (b ++ rest) = .ok (r, s) := by
  unfold ParseDsaSig
  rw [derDecode0_encode h]
  rfl

/-- encodings exist for everything of realistic size -/
theorem derLen_ok {n : Nat} (h : n < 2 ^ 64) : ∃ l, derLen n = .ok l ∧ l.length ≤ 9 := by
  unfold derLen
  by_cases hn : n < 128
  · exact ⟨_, by rw [if_pos hn], by simp⟩
  · have hm := BigIntToBytes_minimal (IntToBytes (n / 2 ^ 32) ++ IntToBytes n)
    rw [beNat_append, beNat_IntToBytes, beNat_IntToBytes] at hm
    simp only [IntToBytes_length] at hm
    rw [show n / 2 ^ 32 % 2 ^ 32 * 256 ^ 4 + n % 2 ^ 32 = n by omega] at hm
    simp only [List.length_append, IntToBytes_length] at hm
    refine ⟨UInt8.ofNat (128 + (BigIntToBytes n).length) :: BigIntToBytes n, ?_, by simp; omega⟩
    rw [if_neg hn]
    simp only
    rw [if_neg (by omega)]

theorem derTLV_ok {tag : UInt8} {c : Bytes} (h : c.length < 2 ^ 64) :
    ∃ b, derTLV tag c = .ok b ∧ b.length ≤ c.length + 10 := by
  obtain ⟨l, h1, h2⟩ := derLen_ok h
  exact ⟨tag :: (l ++ c), by simp [derTLV, h1, bind, Except.bind, pure, Except.pure], by simp; omega⟩

theorem derIntBytes_length (n : Int) : (derIntBytes n).length ≤ (BigIntToBytes n.natAbs).length + 1 := by
  have aux : ∀ m : Nat, (derNatBytes m).length ≤ (BigIntToBytes m).length + 1 := by
    intro m; unfold derNatBytes
    cases BigIntToBytes m with
    | nil => simp
    | cons c t => simp only; split <;> simp
  unfold derIntBytes
  split
  · have := aux n.toNat
    rw [show n.natAbs = n.toNat by omega]; exact this
  · rw [List.length_map]
    have h1 := aux (-n - 1).toNat
    have h2 : (BigIntToBytes (-n - 1).toNat).length ≤ (BigIntToBytes n.natAbs).length := by
      -- monotone in the value
      have hm : ∀ a b : Nat, a ≤ b → (BigIntToBytes a).length ≤ (BigIntToBytes b).length := by
        intro a b hab
        have h1 := beNat_lt (BigIntToBytes b)
        rw [beNat_BigIntToBytes] at h1
        cases ha : BigIntToBytes a with
        | nil => simp
        | cons c t =>
          have hc : c ≠ 0 := by intro h0; apply BigIntToBytes_head a; rw [ha, h0]; rfl
          have h2 := beNat_ge_of_head (t := t) hc
          rw [← ha, beNat_BigIntToBytes] at h2
          have : 256 ^ t.length < 256 ^ (BigIntToBytes b).length := by omega
          have := (Nat.pow_lt_pow_iff_right (by omega : 1 < 256)).mp this
          simp only [List.length_cons]; omega
      exact hm _ _ (by omega)
    omega

/-- `MakeDsaSig` succeeds on every pair of integers below 256^(2^60) in absolute value -/
theorem MakeDsaSig_ok (r s : Int) (hr : (BigIntToBytes r.natAbs).length < 2 ^ 60)
    (hs : (BigIntToBytes s.natAbs).length < 2 ^ 60) : ∃ b, MakeDsaSig r s = .ok b := by
  have h1 := derIntBytes_length r
  have h2 := derIntBytes_length s
  obtain ⟨b1, e1, l1⟩ := derTLV_ok (tag := 0x02) (c := derIntBytes r) (by omega)
  obtain ⟨b2, e2, l2⟩ := derTLV_ok (tag := 0x02) (c := derIntBytes s) (by omega)
  obtain ⟨b3, e3, l3⟩ := derTLV_ok (tag := 0x30) (c := b1 ++ (b2 ++ [])) (by simp; omega)
  refine ⟨b3, ?_⟩
  simp [MakeDsaSig, derEncode, derEncodeList, e1, e2, bind, Except.bind, pure, Except.pure]
  simpa using e3

end Verif
