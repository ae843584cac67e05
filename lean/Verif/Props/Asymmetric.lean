import Verif.Model.Keys
import Verif.Lemmas.Arith
import Verif.Lemmas.ExampleKeys
import Verif.Lemmas.Cbc
import Verif.Lemmas.Der
import Verif.Spec.Asym
import Verif.Spec.Der
import Verif.Props.Symmetric
import Mathlib.Tactic.NormNum.Prime
/-
Property theorems C48-C52 and the key identifier part of C09.
-/
namespace Verif.Props
open Verif Spec

variable (P : Prims)

/-! ## C52 -/

theorem IntToBytes_i2osp (i : Nat) : IntToBytes i = i2osp4 i := by
  simp [IntToBytes, i2osp4]

theorem mgfBlocks_eq (z : Bytes) (n : Nat) :
    ((List.range n).map fun i => Hash P [z, IntToBytes i]).flatten = mgf1Blocks P.sha1 z n := by
  induction n with
  | zero => rfl
  | succ n ih =>
    rw [List.range_succ, List.map_append, List.flatten_append, ih, mgf1Blocks]
    simp [Hash, IntToBytes_i2osp]

theorem mgf1Blocks_length (z : Bytes) (n : Nat) : (mgf1Blocks P.sha1 z n).length = 20 * n := by
  induction n with
  | zero => rfl
  | succ n ih => rw [mgf1Blocks, List.length_append, ih, P.sha1_length]; omega

/-- more blocks only extend the output -/
theorem mgf1Blocks_take (z : Bytes) (n m l : Nat) (h : n ≤ m) (hl : l ≤ 20 * n) :
    (mgf1Blocks P.sha1 z m).take l = (mgf1Blocks P.sha1 z n).take l := by
  induction m with
  | zero => have : n = 0 := by omega
            subst this; rfl
  | succ m ih =>
    rcases Nat.lt_or_ge m n with h' | h'
    · have : n = m + 1 := by omega
      subst this; rfl
    · rw [mgf1Blocks, List.take_append_of_le_length (by rw [mgf1Blocks_length]; omega), ih h']

theorem mgf1_length (z : Bytes) (l : Nat) : (mgf1 P.sha1 z l).length = l := by
  unfold mgf1
  rw [List.length_take, mgf1Blocks_length]
  omega

theorem MGF_ok (z : Bytes) (n : Nat) (h : n ≤ 2 ^ 32 * 20) : MGF P z n = .ok (mgf1 P.sha1 z n) := by
  unfold MGF
  rw [if_neg (by simp only [HLEN]; omega)]
  simp only [HLEN]
  rw [mgfBlocks_eq]
  unfold mgf1
  congr 1
  symm
  apply mgf1Blocks_take <;> omega

/-- C52: up to 2^32 hash blocks, `MGF` is MGF1 of PKCS#1 and returns exactly `n` bytes. -/
theorem C52_mgf_is_mgf1 (seed : Bytes) (n : Nat) (h : n ≤ 2 ^ 32 * 20) :
    MGF P seed n = .ok (mgf1 P.sha1 seed n) ∧ (mgf1 P.sha1 seed n).length = n :=
  ⟨MGF_ok P seed n h, mgf1_length P seed n⟩

/-- C52: the only failure is KeyczarError, exactly above the limit. -/
theorem C52_error_iff (seed : Bytes) (n : Nat) :
    (∃ e, MGF P seed n = .error e) ↔ 2 ^ 32 * 20 < n := by
  constructor
  · rintro ⟨e, h⟩
    by_contra hn
    rw [MGF_ok P seed n (by omega)] at h
    cases h
  · intro h
    exact ⟨.keyczarError, by unfold MGF; rw [if_pos (by simp only [HLEN]; omega)]⟩

theorem C52_error_kind (seed : Bytes) (n : Nat) (e : PyErr) (h : MGF P seed n = .error e) :
    e = .keyczarError := by
  unfold MGF at h
  split at h <;> cases h
  rfl

/-- C52: shorter masks are prefixes of longer ones. -/
theorem C52_prefix (seed a b : Bytes) (n m : Nat) (hnm : n ≤ m) (ha : MGF P seed n = .ok a)
    (hb : MGF P seed m = .ok b) : a <+: b ∧ a.length = n ∧ b.length = m := by
  have hm : m ≤ 2 ^ 32 * 20 := by
    by_contra h
    obtain ⟨e, he⟩ := (C52_error_iff P seed m).mpr (by omega)
    rw [he] at hb; cases hb
  rw [MGF_ok P seed n (by omega)] at ha
  rw [MGF_ok P seed m hm] at hb
  cases ha; cases hb
  refine ⟨?_, mgf1_length P _ _, mgf1_length P _ _⟩
  unfold mgf1
  rw [← mgf1Blocks_take P seed (n / 20 + 1) (m / 20 + 1) n (by omega) (by omega)]
  exact List.take_prefix_take_left hnm

/-! ## C49 -/

theorem encryptInt_ok {k : RsaPubObj} (hn : 0 < k.n) {m : Nat} (hm : m < k.n) :
    k.encryptInt P m = .ok (m ^ k.e % k.n) := by
  unfold RsaPubObj.encryptInt
  rw [if_neg (by omega), if_neg (by omega), powMod_eq]

theorem _root_.Verif.Spec.RsaValid.n_pos {k : RsaObj} (h : RsaValid k) : 0 < k.n := by
  rw [h.n_eq]; exact Nat.mul_pos h.p_prime.pos h.q_prime.pos

theorem _root_.Verif.Spec.RsaValid.coprime {k : RsaObj} (h : RsaValid k) : Nat.Coprime k.p k.q :=
  (Nat.coprime_primes h.p_prime h.q_prime).mpr h.ne

theorem decryptInt_form {k : RsaObj} (h : RsaValid k) {c m : Nat} (hc : c < k.n)
    (hp : c ^ (k.d % (k.p - 1)) ≡ m [MOD k.p]) (hq : c ^ (k.d % (k.q - 1)) ≡ m [MOD k.q])
    (hm : m < k.n) : k.decryptInt P c = .ok m := by
  unfold RsaObj.decryptInt
  rw [if_neg (by omega)]
  rw [if_neg (by have := h.p_prime.one_lt; have := h.q_prime.one_lt; omega)]
  simp only [powMod_eq]
  congr 1
  apply crt_recombine h.p_prime.pos h.q_prime.pos h.coprime
    (by rw [h.u_eq, Nat.mod_eq_of_lt h.q_prime.one_lt]) hp hq
  rw [← h.n_eq]; exact hm

/-- C49: decryption with the CRT formula inverts encryption on every residue. -/
theorem C49_decrypt_encrypt (k : RsaObj) (h : RsaValid k) (m : Nat) (hm : m < k.n) :
    ∃ c, k.pub.encryptInt P m = .ok c ∧ c < k.n ∧ c = m ^ k.e % k.n ∧ k.decryptInt P c = .ok m := by
  have hn := h.n_pos
  have hlt : m ^ k.e % k.n < k.n := Nat.mod_lt _ hn
  refine ⟨m ^ k.e % k.n, encryptInt_ok P (k := k.pub) hn hm, hlt, rfl, ?_⟩
  have hpd : k.p ∣ k.n := by rw [h.n_eq]; exact Dvd.intro _ rfl
  have hqd : k.q ∣ k.n := by rw [h.n_eq]; exact Dvd.intro_left _ rfl
  apply decryptInt_form P h hlt _ _ hm
  · exact rsa_one_prime h.p_prime h.ed_p ((Nat.mod_modEq _ _).of_dvd hpd)
  · exact rsa_one_prime h.q_prime h.ed_q ((Nat.mod_modEq _ _).of_dvd hqd)

/-- C49: and the other way round, which is what signatures need. -/
theorem C49_encrypt_decrypt (k : RsaObj) (h : RsaValid k) (m : Nat) (hm : m < k.n) :
    ∃ s, k.decryptInt P m = .ok s ∧ s < k.n ∧ k.pub.encryptInt P s = .ok m := by
  -- x = CRT of the two residues
  have hn := h.n_pos
  have hpd : k.p ∣ k.n := by rw [h.n_eq]; exact Dvd.intro _ rfl
  have hqd : k.q ∣ k.n := by rw [h.n_eq]; exact Dvd.intro_left _ rfl
  obtain ⟨x, hx1, hx2⟩ := Nat.chineseRemainder h.coprime (m ^ (k.d % (k.p - 1))) (m ^ (k.d % (k.q - 1)))
  have hxp : x % k.n ≡ m ^ (k.d % (k.p - 1)) [MOD k.p] := ((Nat.mod_modEq _ _).of_dvd hpd).trans hx1
  have hxq : x % k.n ≡ m ^ (k.d % (k.q - 1)) [MOD k.q] := ((Nat.mod_modEq _ _).of_dvd hqd).trans hx2
  have hlt : x % k.n < k.n := Nat.mod_lt _ hn
  refine ⟨x % k.n, decryptInt_form P h hm hxp.symm hxq.symm hlt, hlt, ?_⟩
  rw [encryptInt_ok P (k := k.pub) hn hlt]
  congr 1
  have half : ∀ {p : Nat}, p.Prime → k.e * k.d % (p - 1) = 1 → p ∣ k.n →
      x % k.n ≡ m ^ (k.d % (p - 1)) [MOD p] → (x % k.n) ^ k.e ≡ m [MOD p] := by
    intro p hp hed _ hxp
    have h1 := hxp.pow k.e
    -- (m^(d mod (p-1)))^e = m^((d mod (p-1)) * e) ; same as raising m^e to d mod (p-1)
    have h2 := rsa_one_prime (c := m ^ k.e) (m := m) hp hed (Nat.ModEq.refl _)
    rw [← pow_mul, Nat.mul_comm, pow_mul] at h2
    exact h1.trans h2
  have e1 := half h.p_prime h.ed_p hpd hxp
  have e2 := half h.q_prime h.ed_q hqd hxq
  have := (Nat.modEq_and_modEq_iff_modEq_mul h.coprime).mp ⟨e1, e2⟩
  rw [← h.n_eq] at this
  have e3 : (x % k.n) ^ k.e % k.n = m % k.n := this
  have e4 : k.pub.e = k.e := rfl
  have e5 : k.pub.n = k.n := rfl
  rw [e4, e5, e3, Nat.mod_eq_of_lt hm]

/-- C49 with the textbook hypothesis `e d = 1 mod (p-1)(q-1)` for odd primes. -/
theorem C49_textbook (k : RsaObj) (hp : k.p.Prime) (hq : k.q.Prime) (h2p : 2 < k.p) (h2q : 2 < k.q)
    (hne : k.p ≠ k.q) (hn : k.n = k.p * k.q) (hed : k.e * k.d % ((k.p - 1) * (k.q - 1)) = 1)
    (hu : k.u * k.p % k.q = 1) (m : Nat) (hm : m < k.n) :
    k.decryptInt P (m ^ k.e % k.n) = .ok m := by
  have e1 : k.e * k.d % (k.p - 1) = 1 := by
    have := Nat.mod_mul_right_mod (k.e * k.d) (k.p - 1) (k.q - 1)
    rw [hed, Nat.mod_eq_of_lt (by omega)] at this
    exact this.symm
  have e2 : k.e * k.d % (k.q - 1) = 1 := by
    have := Nat.mod_mul_left_mod (k.e * k.d) (k.p - 1) (k.q - 1)
    rw [hed, Nat.mod_eq_of_lt (by omega)] at this
    exact this.symm
  obtain ⟨c, _, _, hc, hd⟩ := C49_decrypt_encrypt P k ⟨hp, hq, hne, hn, e1, e2, hu⟩ m hm
  rw [← hc]; exact hd

theorem BytesToLong_padInt (n : Nat) : BytesToLong (padInt n) = n := by
  unfold padInt PadBytes
  rw [BytesToLong_eq]
  rw [beNat_replicate_zero, beNat_BigIntToBytes]

/-- C49: the order in which the parameters are stored (primes swapped) and handed back to
`RSA.construct` is consistent: the reconstructed PyCrypto key is the generated one.
(`C34_*` proves the same through the JSON text.) -/
theorem C49_stored_order (key : RsaObj) (size : Nat) :
    let k := RsaPrivateKey.ofObj key size
    (⟨BytesToLong k.pub.modulus, BytesToLong k.pub.publicExponent, BytesToLong k.privateExponent,
      BytesToLong k.primeQ, BytesToLong k.primeP, BytesToLong k.crtCoefficient⟩ : RsaObj) = key := by
  simp only [RsaPrivateKey.ofObj, BytesToLong_padInt]

/-- instance: a small valid key (p = 5, q = 11, e = 3, d = 27, u = 9) -/
example : RsaValid ⟨55, 3, 27, 5, 11, 9⟩ :=
  ⟨by norm_num, by norm_num, by norm_num, by norm_num, by norm_num, by norm_num, by norm_num⟩

/-! ## C48 -/

theorem BigIntToBytes_length_lt {n k : Nat} (h : n < 256 ^ k) : (BigIntToBytes n).length ≤ k := by
  by_contra hk
  have hne : n ≠ 0 := by rintro rfl; rw [BigIntToBytes_zero] at hk; simp at hk
  have hl := BigIntToBytes_ne_nil hne
  have hh := BigIntToBytes_head n
  have hv := beNat_BigIntToBytes n
  generalize BigIntToBytes n = b at *
  cases b with
  | nil => exact hl rfl
  | cons c t =>
    have hc : c ≠ 0 := by rintro rfl; exact hh rfl
    have := beNat_ge_of_head (t := t) hc
    rw [hv] at this
    have h3 : 256 ^ k ≤ 256 ^ t.length := Nat.pow_le_pow_right (by norm_num) (by simp at hk; omega)
    omega

/-- `k` is the byte length of `n` exactly when `256^(k-1) ≤ n < 256^k` -/
theorem byteLength_bounds {n : Nat} (h : n ≠ 0) :
    256 ^ ((BigIntToBytes n).length - 1) ≤ n ∧ n < 256 ^ (BigIntToBytes n).length := by
  have hl := BigIntToBytes_ne_nil h
  have hh := BigIntToBytes_head n
  have hv := beNat_BigIntToBytes n
  generalize BigIntToBytes n = b at *
  refine ⟨?_, by rw [← hv]; exact beNat_lt b⟩
  cases b with
  | nil => exact absurd rfl hl
  | cons c t =>
    have hc : c ≠ 0 := by rintro rfl; exact hh rfl
    have := beNat_ge_of_head (t := t) hc
    rw [hv] at this
    simpa using this

theorem xor_length (a b : Bytes) : (Spec.xor a b).length = min a.length b.length := by simp [Spec.xor]

theorem oaep_length {k : Nat} {seed M : Bytes} (hs : seed.length = 20) (hk : M.length + 42 ≤ k) :
    (oaep P.sha1 k seed M).length = k := by
  unfold oaep
  simp only [List.length_append, xor_length, mgf1_length, P.sha1_length, List.length_replicate,
    List.length_singleton, hs]
  omega

theorem xor_eq_Xor {a b : Bytes} (h : a.length = b.length) : Xor a b = Spec.xor a b :=
  Xor_same_length h

/-- encoding for a modulus of `k` bytes -/
theorem oaepEncode_is_oaep (k : Nat) (seed msg : Bytes) (hs : seed.length = 20) (hk : k ≤ 2 ^ 32) :
    oaepEncode P k seed msg =
      if msg.length + 42 ≤ k then .ok (oaep P.sha1 k seed msg) else .error .keyczarError := by
  unfold oaepEncode
  have hH : (HLEN : Nat) = 20 := rfl
  simp only [bind, Except.bind, pure, Except.pure]
  by_cases hm : msg.length + 42 ≤ k
  · rw [if_neg (by omega), if_pos hm]
    have hdb : (Hash P [[]] ++ List.replicate (k - msg.length - 2 * HLEN - 2) 0 ++ [1] ++ msg).length = k - 21 := by
      simp [Hash, P.sha1_length]; omega
    rw [MGF_ok P seed _ (by omega)]
    simp only
    have e1 : Xor (Hash P [[]] ++ List.replicate (k - msg.length - 2 * HLEN - 2) 0 ++ [1] ++ msg)
        (mgf1 P.sha1 seed (k - HLEN - 1)) =
        Spec.xor (P.sha1 [] ++ List.replicate (k - msg.length - 42) 0 ++ [1] ++ msg) (mgf1 P.sha1 seed (k - 21)) := by
      rw [xor_eq_Xor (by rw [hdb, mgf1_length, hH]; omega)]
      simp only [Hash, List.flatten_cons, List.flatten_nil, List.append_nil]
      rw [show k - msg.length - 2 * HLEN - 2 = k - msg.length - 42 from by rw [hH]; omega,
        show k - HLEN - 1 = k - 21 from by omega]
    rw [e1, MGF_ok P _ _ (by omega)]
    simp only
    rw [xor_eq_Xor (by rw [hs, mgf1_length, hH])]
    rfl
  · rw [if_pos (by omega), if_neg hm]

/-- C48: OAEP encoding is the EME-OAEP encoding of PKCS#1 v2.1; longer messages raise KeyczarError. -/
theorem C48_encode_is_oaep (key : RsaPublicKey) (hn : key.key.n ≠ 0) (seed msg : Bytes) (hs : seed.length = 20)
    (hk : (BigIntToBytes key.key.n).length ≤ 2 ^ 32) :
    key.Encode P seed msg =
      if msg.length + 42 ≤ (BigIntToBytes key.key.n).length then
        .ok (oaep P.sha1 (BigIntToBytes key.key.n).length seed msg)
      else .error .keyczarError := by
  unfold RsaPublicKey.Encode numBytes
  rw [if_neg hn]
  exact oaepEncode_is_oaep P _ seed msg hs hk

theorem strip0_replicate (k : Nat) (b : Bytes) : strip0 (List.replicate k 0 ++ b) = strip0 b := by
  induction k with
  | zero => rfl
  | succ k ih =>
    rw [List.replicate_succ, List.cons_append]
    unfold strip0 at ih ⊢
    simp [ih]

theorem longToBytes_beNat (b : Bytes) : longToBytes (beNat b) = if strip0 b = [] then [0] else strip0 b := by
  unfold longToBytes
  rw [strip0_eq_BigInt]
  by_cases h : beNat b = 0
  · rw [if_pos h, h, BigIntToBytes_zero]; rfl
  · rw [if_neg h, if_neg (BigIntToBytes_ne_nil h)]

theorem xor_cancel (a b : Bytes) (h : a.length ≤ b.length) : Spec.xor (Spec.xor a b) b = a :=
  xorBytes_cancel a b h

/-- decoding the OAEP block of `k` bytes without its leading zeros -/
theorem oaepDecode_oaep (k : Nat) (seed msg : Bytes) (hs : seed.length = 20) (hk : k ≤ 2 ^ 32) (hm : msg.length + 42 ≤ k) :
    oaepDecode P (.ok k) (longToBytes (beNat (oaep P.sha1 k seed msg))) =
      if (strip0 (oaep P.sha1 k seed msg)).length < 42 then .error .keyczarError else .ok msg := by
  unfold oaepDecode
  have hol := oaep_length P hs hm
  rw [longToBytes_beNat]
  generalize hem : oaep P.sha1 k seed msg = em at *
  obtain ⟨z, hz⟩ := strip0_decomp em
  have hz1 : 1 ≤ z := by
    rcases Nat.eq_zero_or_pos z with h0 | h0
    · subst h0
      have hh := strip0_head em
      rw [List.replicate_zero, List.nil_append] at hz
      rw [← hz, ← hem] at hh
      exact absurd rfl hh
    · exact h0
  have hzl : z + (strip0 em).length = k := by
    have := congrArg List.length hz
    simp at this
    omega
  have hstep : (if strip0 em = [] then ([0] : Bytes) else strip0 em).length < 2 * HLEN + 2 ↔ (strip0 em).length < 42 := by
    split
    · next h => rw [h]; simp [HLEN]
    · simp only [HLEN]
  by_cases hshort : (strip0 em).length < 42
  · rw [if_pos (hstep.mpr hshort), if_pos hshort]
  · rw [if_neg (fun h => hshort (hstep.mp h)), if_neg hshort]
    have hne : strip0 em ≠ [] := by intro h; rw [h] at hshort; simp at hshort
    rw [if_neg hne]
    simp only [bind, Except.bind]
    have hpad : (if (k : Int) - ((strip0 em).length : Int) > 1 then
        List.replicate ((k : Int) - ((strip0 em).length : Int) - 1).toNat 0 ++ strip0 em else strip0 em) = em.drop 1 := by
      have : em.drop 1 = List.replicate (z - 1) 0 ++ strip0 em := by
        conv_lhs => rw [hz]
        obtain ⟨y, rfl⟩ : ∃ y, z = y + 1 := ⟨z - 1, by omega⟩
        rw [List.replicate_succ, List.cons_append]
        rfl
      rw [this]
      split
      · next h => congr 2; omega
      · next h =>
        have : z - 1 = 0 := by omega
        rw [this]; rfl
    rw [hpad]
    have hdrop : em.drop 1 = Spec.xor seed (mgf1 P.sha1 (Spec.xor (P.sha1 [] ++ List.replicate (k - msg.length - 42) 0 ++ [1] ++ msg)
        (mgf1 P.sha1 seed (k - 21))) 20) ++ Spec.xor (P.sha1 [] ++ List.replicate (k - msg.length - 42) 0 ++ [1] ++ msg)
        (mgf1 P.sha1 seed (k - 21)) := by
      rw [← hem]; rfl
    have hDB : (P.sha1 [] ++ List.replicate (k - msg.length - 42) 0 ++ [1] ++ msg).length = k - 21 := by
      simp [P.sha1_length]; omega
    generalize hD : P.sha1 [] ++ List.replicate (k - msg.length - 42) 0 ++ [1] ++ msg = DB at *
    generalize hM : Spec.xor DB (mgf1 P.sha1 seed (k - 21)) = MDB at *
    have hMl : MDB.length = k - 21 := by rw [← hM, xor_length, hDB, mgf1_length]; omega
    have hms : (Spec.xor seed (mgf1 P.sha1 MDB 20)).length = 20 := by rw [xor_length, hs, mgf1_length]; omega
    have s1 : sliceTo (em.drop 1) ((HLEN : Nat) : Int) = Spec.xor seed (mgf1 P.sha1 MDB 20) := by
      rw [sliceTo_nat, hdrop]
      rw [show HLEN = (Spec.xor seed (mgf1 P.sha1 MDB 20)).length from hms.symm, List.take_left]
    have s2 : sliceFrom (em.drop 1) ((HLEN : Nat) : Int) = MDB := by
      rw [sliceFrom_nat, hdrop]
      rw [show HLEN = (Spec.xor seed (mgf1 P.sha1 MDB 20)).length from hms.symm, List.drop_left]
    rw [s1, s2, show HLEN = 20 from rfl, MGF_ok P _ _ (by omega)]
    simp only
    rw [xor_eq_Xor (by rw [hms, mgf1_length]), xor_cancel _ _ (by rw [hs, mgf1_length])]
    rw [hMl, MGF_ok P _ _ (by omega)]
    simp only
    rw [xor_eq_Xor (by rw [hMl, mgf1_length]), ← hM, xor_cancel _ _ (by rw [hDB, mgf1_length])]
    have s3 : sliceTo DB ((20 : Nat) : Int) = P.sha1 [] := by
      rw [sliceTo_nat, ← hD]
      simp only [List.append_assoc]
      rw [← P.sha1_length [], List.take_left]
    have s4 : sliceFrom DB ((20 : Nat) : Int) = List.replicate (k - msg.length - 42) 0 ++ ([1] ++ msg) := by
      rw [sliceFrom_nat, ← hD]
      simp only [List.append_assoc]
      conv_lhs => rw [← P.sha1_length []]
      rw [List.drop_left]
    rw [s3, s4]
    have s5 : P.sha1 [] = Hash P [[]] := by simp [Hash]
    rw [if_neg (by rw [s5]; simp)]
    have s6 : (List.replicate (k - msg.length - 42) (0 : UInt8) ++ ([1] ++ msg)).dropWhile (fun x => decide (x = 0)) = 1 :: msg := by
      have := strip0_replicate (k - msg.length - 42) ([1] ++ msg)
      unfold strip0 at this
      rw [this]; rfl
    rw [s6]
    rfl

/-- decoding the OAEP block without its leading zeros -/
theorem Decode_oaep (key : RsaPrivateKey) (hn : key.key.n ≠ 0) (seed msg : Bytes) (hs : seed.length = 20)
    (hk : (BigIntToBytes key.key.n).length ≤ 2 ^ 32)
    (hm : msg.length + 42 ≤ (BigIntToBytes key.key.n).length) :
    key.Decode P (longToBytes (beNat (oaep P.sha1 (BigIntToBytes key.key.n).length seed msg))) =
      if (strip0 (oaep P.sha1 (BigIntToBytes key.key.n).length seed msg)).length < 42 then .error .keyczarError
      else .ok msg := by
  unfold RsaPrivateKey.Decode numBytes
  rw [if_neg hn]
  exact oaepDecode_oaep P _ seed msg hs hk hm

theorem headerLength (key : RsaPublicKey) :
    ∃ hd, headerOf (key.hashId P) = .ok hd ∧ hd.length = 5 := by
  refine ⟨_, headerOf_encode _, ?_⟩
  have := take4_sha1 P
  simp [PrefixHash, this]

/-- C48: for a valid key pair and a message of at most k-42 bytes, encryption succeeds and
decryption returns the message, except exactly when fewer than 42 bytes of the OAEP block remain
after its leading zero bytes; then it raises KeyczarError. -/
theorem C48_round_trip (key : RsaPrivateKey) (hv : RsaValid key.key) (hpub : key.pub.key = key.key.pub)
    (hk : (BigIntToBytes key.key.n).length ≤ 2 ^ 32)
    (seed msg : Bytes) (hs : seed.length = 20) (hm : msg.length + 42 ≤ (BigIntToBytes key.key.n).length) :
    ∃ c, key.pub.Encrypt P seed msg = .ok c ∧
      key.Decrypt P c =
        if (strip0 (oaep P.sha1 (BigIntToBytes key.key.n).length seed msg)).length < 42
        then .error .keyczarError else .ok msg := by
  have hn : key.key.n ≠ 0 := by have := hv.n_pos; omega
  have hn' : key.pub.key.n = key.key.n := by rw [hpub]; rfl
  have henc := C48_encode_is_oaep P key.pub (by rw [hn']; exact hn) seed msg hs (by rw [hn']; exact hk)
  rw [hn', if_pos hm] at henc
  obtain ⟨hd, hhd, hl⟩ := headerLength P key.pub
  have hol := oaep_length P hs hm
  -- the block is below the modulus
  have hlt : beNat (oaep P.sha1 (BigIntToBytes key.key.n).length seed msg) < key.key.n := by
    have hb := byteLength_bounds hn
    have : beNat (oaep P.sha1 (BigIntToBytes key.key.n).length seed msg)
        = beNat ((oaep P.sha1 (BigIntToBytes key.key.n).length seed msg).drop 1) := by
      unfold oaep
      simp only [List.singleton_append, List.cons_append, List.drop_succ_cons, List.drop_zero]
      rw [beNat_cons]; simp
    have h2 := beNat_lt ((oaep P.sha1 (BigIntToBytes key.key.n).length seed msg).drop 1)
    rw [List.length_drop, hol] at h2
    omega
  obtain ⟨ci, h1, h2, _, h4⟩ := C49_decrypt_encrypt P key.key hv _ hlt
  refine ⟨hd ++ longToBytes ci, ?_, ?_⟩
  · unfold RsaPublicKey.Encrypt
    simp only [henc, bind, Except.bind, RsaPubObj.encrypt, hpub, BytesToLong_eq, h1, hhd, pure, Except.pure]
  · unfold RsaPrivateKey.Decrypt
    rw [sliceFrom_nat, show HEADER_SIZE = hd.length from hl.symm, List.drop_left]
    have hci : BytesToLong (longToBytes ci) = ci := by
      rw [BytesToLong_eq]
      unfold longToBytes
      split
      · next h => subst h; rfl
      · exact beNat_BigIntToBytes ci
    simp only [RsaObj.decrypt, hci, h4, bind, Except.bind, pure, Except.pure]
    exact Decode_oaep P key hn seed msg hs hk hm

/-- C48: longer messages raise KeyczarError. -/
theorem C48_too_long (key : RsaPublicKey) (hn : key.key.n ≠ 0) (hk : (BigIntToBytes key.key.n).length ≤ 2 ^ 32)
    (seed msg : Bytes) (hs : seed.length = 20) (hm : (BigIntToBytes key.key.n).length < msg.length + 42) :
    key.Encrypt P seed msg = .error .keyczarError := by
  unfold RsaPublicKey.Encrypt
  rw [C48_encode_is_oaep P key hn seed msg hs hk, if_neg (by omega)]
  rfl

/-- instance: a generated 512-bit key (64 bytes), a message of 22 bytes -/
def exRsa : RsaPrivateKey := RsaPrivateKey.ofObj exRsaObj 512
theorem exRsa_length : (BigIntToBytes exRsa.key.n).length = 64 := by decide +kernel
example : RsaValid exRsa.key ∧ exRsa.pub.key = exRsa.key.pub ∧
    (bstr "This is some test data").length + 42 ≤ (BigIntToBytes exRsa.key.n).length :=
  ⟨exRsaObj_valid, rfl, by rw [exRsa_length]; decide⟩

/-! ## C50 -/

theorem emsa_length (msg : Bytes) (size : Nat) (h : 304 ≤ size) :
    (MakeEmsaMessage P msg size).length = size / 8 - 1 := by
  simp [MakeEmsaMessage, magicSha1Header, Hash, P.sha1_length]
  omega

theorem pow256 (k : Nat) : 256 ^ k = 2 ^ (8 * k) := by
  rw [show (256 : Nat) = 2 ^ 8 from rfl, ← pow_mul]

/-- A valid key whose modulus has exactly `size` bits, for one of the supported sizes. -/
structure UsableRsa (k : RsaPrivateKey) : Prop where
  valid : RsaValid k.key
  pub : k.pub.key = k.key.pub
  pub_size : k.pub.size = k.size
  size : k.size ∈ KeyType.RSA_PRIV.sizes
  bits : 2 ^ (k.size - 1) ≤ k.key.n ∧ k.key.n < 2 ^ k.size

theorem exRsa_usable : UsableRsa exRsa where
  valid := exRsaObj_valid
  pub := rfl
  pub_size := rfl
  size := by decide
  bits := exRsaObj_bits

theorem UsableRsa.size_facts {k : RsaPrivateKey} (h : UsableRsa k) :
    512 ≤ k.size ∧ k.size ≤ 4096 ∧ k.size % 8 = 0 := by
  have := h.size
  simp [KeyType.sizes] at this
  omega

theorem emsa_lt {k : RsaPrivateKey} (h : UsableRsa k) (msg : Bytes) :
    beNat (MakeEmsaMessage P msg k.size) < k.key.n := by
  have hs := h.size_facts
  have h1 := beNat_lt (MakeEmsaMessage P msg k.size)
  rw [emsa_length P msg k.size (by omega), pow256] at h1
  have : 2 ^ (8 * (k.size / 8 - 1)) ≤ 2 ^ (k.size - 1) := Nat.pow_le_pow_right (by norm_num) (by omega)
  have := h.bits.1
  omega

/-- C50: signatures are exactly size/8 bytes long and verify. -/
theorem C50_sign_verify (k : RsaPrivateKey) (h : UsableRsa k) (msg : Bytes) :
    ∃ sig, k.Sign P msg = .ok sig ∧ sig.length = k.size / 8 ∧ k.pub.Verify P msg sig = .ok true := by
  have hs := h.size_facts
  obtain ⟨s, h1, h2, h3⟩ := C49_encrypt_decrypt P k.key h.valid _ (emsa_lt P h msg)
  have hlen : (BigIntToBytes s).length ≤ k.size / 8 := by
    apply BigIntToBytes_length_lt
    rw [pow256]
    have : 2 ^ k.size = 2 ^ (8 * (k.size / 8)) := by congr 1; omega
    have := h.bits.2
    omega
  refine ⟨PadBytes (BigIntToBytes s) ((k.size / 8 : Nat) - ((BigIntToBytes s).length : Int)), ?_, ?_, ?_⟩
  · unfold RsaPrivateKey.Sign
    simp only [RsaObj.sign, BytesToLong_eq, h1, bind, Except.bind, pure, Except.pure]
  · unfold PadBytes
    simp
    omega
  · unfold RsaPublicKey.Verify RsaPubObj.verify
    have e : BytesToLong (PadBytes (BigIntToBytes s) ((k.size / 8 : Nat) - ((BigIntToBytes s).length : Int))) = s := by
      unfold PadBytes
      rw [BytesToLong_eq, beNat_replicate_zero, beNat_BigIntToBytes]
    rw [e, h.pub, h.pub_size, h3]
    simp [bind, Except.bind, pure, Except.pure, BytesToLong_eq]

/-- C50: verification ignores leading zero bytes of the signature, for every key and message. -/
theorem C50_leading_zeros (k : RsaPublicKey) (msg sig : Bytes) (z : Nat) :
    k.Verify P msg (List.replicate z 0 ++ sig) = k.Verify P msg sig := by
  unfold RsaPublicKey.Verify
  rw [BytesToLong_eq, BytesToLong_eq, beNat_replicate_zero]

/-- C50: hence an accepted signature is never unique. -/
theorem C50_not_unique (k : RsaPublicKey) (msg sig : Bytes) (h : k.Verify P msg sig = .ok true) :
    ∃ sig', sig' ≠ sig ∧ k.Verify P msg sig' = .ok true := by
  refine ⟨List.replicate 1 0 ++ sig, ?_, by rw [C50_leading_zeros, h]⟩
  intro e
  have := congrArg List.length e
  simp at this

theorem lengthOctets_small {n : Nat} (h : n < 128) {l : Bytes} (hl : LengthOctets n l) : l = [UInt8.ofNat n] := by
  rcases hl with ⟨-, c, rfl, rfl⟩ | ⟨h', -⟩
  · simp
  · omega

theorem digestInfo_iff (d : Bytes) (hd : d.length = 20) (T : Bytes) :
    IsDer (digestInfoSha1 d) T ↔ T = magicSha1Header ++ d := by
  have ho : (oidOctets [1, 3, 14, 3, 2, 26]).map UInt8.ofNat = [0x2b, 0x0e, 0x03, 0x02, 0x1a] := by
    simp [oidOctets, base128]
  unfold digestInfoSha1
  rw [ho]
  constructor
  · intro h
    cases h with | seq _ l _ h hl
    cases h with | cons _ _ b1 c1 h1 h
    cases h with | cons _ _ b2 c2 h2 h
    cases h
    cases h2 with | octets _ l2 hl2
    cases h1 with | seq _ l1 _ h1 hl1
    cases h1 with | cons _ _ b3 c3 h3 h1
    cases h1 with | cons _ _ b4 c4 h4 h1
    cases h1
    cases h3 with | oid _ l3 hl3
    cases h4
    rw [hd] at hl2
    obtain rfl := lengthOctets_small (by decide) hl2
    obtain rfl := lengthOctets_small (by decide) hl3
    obtain rfl := lengthOctets_small (by simp) hl1
    obtain rfl := lengthOctets_small (by simp [hd]) hl
    simp [magicSha1Header, hd]
  · rintro rfl
    have hs : ∀ n : Nat, n < 128 → LengthOctets n [UInt8.ofNat n] := fun n h =>
      .inl ⟨h, _, by rw [UInt8.toNat_ofNat']; omega, rfl⟩
    have h1 := IsDer.oid [0x2b, 0x0e, 0x03, 0x02, 0x1a] _ (hs 5 (by decide))
    have h2 := AreDer.cons _ _ _ _ h1 (.cons _ _ _ _ .null .nil)
    have h3 := IsDer.seq _ _ _ h2 (hs 9 (by decide))
    have h4 := IsDer.octets d _ (by rw [hd]; exact hs 20 (by decide))
    have h5 := AreDer.cons _ _ _ _ h3 (.cons _ _ _ _ h4 .nil)
    have h6 := IsDer.seq _ [UInt8.ofNat 33] _ h5 (by simpa [hd] using hs 33 (by decide))
    simpa [magicSha1Header] using h6

/-- C50: what is signed is the EMSA-PKCS1-v1_5 encoding of the message (PKCS#1 v2.1 9.2), without its leading zero
octet. -/
theorem C50_emsa (msg em : Bytes) (size : Nat) (h : 368 ≤ size) :
    IsEmsa P.sha1 (size / 8) msg em ↔ em = 0 :: MakeEmsaMessage P msg size := by
  have e : Hash P [msg] = P.sha1 msg := by simp [Hash]
  have hl : (magicSha1Header ++ P.sha1 msg).length = 35 := by simp [magicSha1Header, P.sha1_length]
  unfold IsEmsa MakeEmsaMessage
  simp only [digestInfo_iff _ (P.sha1_length msg), e, exists_eq_left, hl]
  have h2 : ((size / 8 : Nat) - ((35 : Nat) : Int) - 3).toNat = size / 8 - 35 - 3 := by omega
  rw [h2]
  simp only [List.cons_append, List.nil_append]
  exact ⟨fun h => h.2, fun h => ⟨by omega, h⟩⟩

/-- C50: what verification accepts: the signature's `e`-th power is the EMSA-PKCS1-v1_5 encoding of the message. -/
theorem C50_accepts_iff (k : RsaPublicKey) (hn : k.key.n ≠ 0) (hs : 368 ≤ k.size) (msg sig em : Bytes)
    (hl : beNat sig < k.key.n) (hem : IsEmsa P.sha1 (k.size / 8) msg em) :
    k.Verify P msg sig = .ok (decide (beNat sig ^ k.key.e % k.key.n = beNat em)) := by
  rw [(C50_emsa P msg em k.size hs).mp hem]
  unfold RsaPublicKey.Verify RsaPubObj.verify
  rw [BytesToLong_eq, BytesToLong_eq, encryptInt_ok P (by omega) hl]
  simp only [bind, Except.bind, pure, Except.pure]
  congr 2

/-- instance: the encoding exists for every key size that RSA keys can have -/
example (msg : Bytes) : ∃ em, IsEmsa P.sha1 (exRsa.size / 8) msg em := ⟨_, (C50_emsa P msg _ _ (by decide)).mpr rfl⟩

/-! ## C51 -/

theorem pow_mod_order {g q p : Nat} (hp : 1 < p) (ho : g ^ q % p = 1) {a b : Nat} (hab : a ≡ b [MOD q]) :
    g ^ a ≡ g ^ b [MOD p] := by
  have h1 : g ^ q ≡ 1 [MOD p] := by unfold Nat.ModEq; rw [ho, Nat.mod_eq_of_lt hp]
  have red : ∀ a, g ^ a ≡ g ^ (a % q) [MOD p] := by
    intro a
    conv_lhs => rw [← Nat.mod_add_div a q, pow_add, pow_mul]
    have : (g ^ q) ^ (a / q) ≡ 1 ^ (a / q) [MOD p] := h1.pow _
    rw [one_pow] at this
    simpa using this.mul_left (g ^ (a % q))
  have h2 := red a
  rw [show a % q = b % q from hab] at h2
  exact h2.trans (red b).symm

theorem dsa_sign_eq {key : DsaObj} (hp : 1 < key.p) {k : Nat} (hk : 1 < k) (hkq : k < key.q) (data : Bytes) :
    key.sign data k = .ok (key.g ^ k % key.p % key.q,
      inverse k key.q * (beNat data + key.x * (key.g ^ k % key.p % key.q)) % key.q) := by
  unfold DsaObj.sign
  rw [if_neg (by omega), if_neg (by omega)]
  simp only [powMod_eq, BytesToLong_eq]

/-- C51: for a valid key the produced pair verifies exactly when both components are non-zero. -/
theorem C51_pair (key : DsaObj) (hv : DsaValid key) (data : Bytes) (k : Nat) (hk : 1 < k) (hkq : k < key.q)
    (r s : Nat) (hsig : key.sign data k = .ok (r, s)) :
    key.pub.verify data r s = .ok (decide (r ≠ 0 ∧ s ≠ 0)) := by
  have hq0 : 0 < key.q := by omega
  rw [dsa_sign_eq hv.p_pos hk hkq] at hsig
  have hpair := Except.ok.inj hsig
  have hr : r = key.g ^ k % key.p % key.q := (congrArg Prod.fst hpair).symm
  have hs : s = inverse k key.q * (beNat data + key.x * r) % key.q := by
    rw [hr]; exact (congrArg Prod.snd hpair).symm
  have hrq : r < key.q := by rw [hr]; exact Nat.mod_lt _ hq0
  have hsq : s < key.q := by rw [hs]; exact Nat.mod_lt _ hq0
  have eq1 : key.pub.q = key.q := rfl
  have eq2 : key.pub.p = key.p := rfl
  have eq3 : key.pub.g = key.g := rfl
  have eq4 : key.pub.y = key.y := rfl
  unfold DsaPubObj.verify
  rw [eq1, eq2, eq3, eq4]
  by_cases hz : r ≠ 0 ∧ s ≠ 0
  · rw [if_neg (by omega), if_neg (by have := hv.p_pos; omega), decide_eq_true hz]
    simp only [powMod_eq, Int.toNat_natCast, BytesToLong_eq]
    congr 1
    rw [decide_eq_true_eq]
    set m := beNat data
    set w := inverse s key.q
    -- w (m + x r) = k mod q
    have hcs : Nat.Coprime s key.q := by
      rw [Nat.coprime_comm]
      exact (Nat.Prime.coprime_iff_not_dvd hv.q_prime).mpr
        (fun h => by have := Nat.le_of_dvd (by omega) h; omega)
    have hck : Nat.Coprime k key.q := by
      rw [Nat.coprime_comm]
      exact (Nat.Prime.coprime_iff_not_dvd hv.q_prime).mpr
        (fun h => by have := Nat.le_of_dvd (by omega) h; omega)
    have hw : w * s ≡ 1 [MOD key.q] := inverse_spec hq0 hcs
    have hik : inverse k key.q * k ≡ 1 [MOD key.q] := inverse_spec hq0 hck
    have hks : k * s ≡ m + key.x * r [MOD key.q] := by
      have e1 : s ≡ inverse k key.q * (m + key.x * r) [MOD key.q] := by
        conv_lhs => rw [hs]
        exact Nat.mod_modEq _ _
      have e2 := e1.mul_left k
      have e3 : k * (inverse k key.q * (m + key.x * r)) = (inverse k key.q * k) * (m + key.x * r) := by ring
      rw [e3] at e2
      have e4 := hik.mul_right (m + key.x * r)
      rw [one_mul] at e4
      exact e2.trans e4
    have hwk : w * (m + key.x * r) ≡ k [MOD key.q] := by
      have e1 := (hks.symm.mul_left w)
      have e2 : w * (k * s) = k * (w * s) := by ring
      rw [e2] at e1
      have e3 := hw.mul_left k
      rw [mul_one] at e3
      exact e1.trans e3
    have hexp : m * w % key.q + key.x * (r * w % key.q) ≡ k [MOD key.q] := by
      have e1 : m * w % key.q + key.x * (r * w % key.q) ≡ m * w + key.x * (r * w) [MOD key.q] :=
        (Nat.mod_modEq _ _).add ((Nat.mod_modEq _ _).mul_left _)
      have e2 : m * w + key.x * (r * w) = w * (m + key.x * r) := by ring
      rw [e2] at e1
      exact e1.trans hwk
    have hprod : key.g ^ (m * w % key.q) % key.p * (key.y ^ (r * w % key.q) % key.p) % key.p
        = key.g ^ k % key.p := by
      have e1 : key.y ≡ key.g ^ key.x [MOD key.p] := by rw [hv.y_eq]; exact Nat.mod_modEq _ _
      have e2 := e1.pow (r * w % key.q)
      rw [← pow_mul] at e2
      have e3 : key.g ^ (m * w % key.q) % key.p * (key.y ^ (r * w % key.q) % key.p)
          ≡ key.g ^ (m * w % key.q) * key.g ^ (key.x * (r * w % key.q)) [MOD key.p] :=
        (Nat.mod_modEq _ _).mul ((Nat.mod_modEq _ _).trans e2)
      rw [← pow_add] at e3
      exact e3.trans (pow_mod_order hv.p_pos hv.order hexp)
    rw [hprod, ← hr]
  · rw [if_pos (by omega), decide_eq_false hz]

/-- The two values of a DSA signature for message digest `m` and per-message value `k`. -/
def dsaR (key : DsaObj) (k : Nat) : Nat := key.g ^ k % key.p % key.q

theorem natLength_lt {n q : Nat} (h : n < q) : (BigIntToBytes n).length ≤ (BigIntToBytes q).length := by
  apply BigIntToBytes_length_lt
  have := (byteLength_bounds (n := q) (by omega)).2
  omega

/-- C51: `DsaPublicKey.Verify` on the output of `DsaPrivateKey.Sign`: accepted exactly when `r` and
`s` are non-zero.  Both cases occur (examples below); the code never checks for zero. -/
theorem C51_sign_verify (key : DsaPrivateKey) (hv : DsaValid key.key) (hpub : key.pub.key = key.key.pub)
    (hsize : (BigIntToBytes key.key.q).length < 2 ^ 32) (msg : Bytes) (k : Nat) (hk : 2 ≤ k) (hkq : k < key.key.q) :
    ∃ r s sig, key.key.sign (Hash P [msg]) k = .ok (r, s) ∧ key.Sign P k msg = .ok sig ∧
      key.pub.Verify P msg sig = .ok (decide (r ≠ 0 ∧ s ≠ 0)) := by
  have hq0 : 0 < key.key.q := by omega
  have hsig := dsa_sign_eq (key := key.key) hv.p_pos (k := k) (by omega) hkq (Hash P [msg])
  obtain ⟨r, hr⟩ : ∃ r, r = key.key.g ^ k % key.key.p % key.key.q := ⟨_, rfl⟩
  obtain ⟨s, hs⟩ : ∃ s, s = inverse k key.key.q * (beNat (Hash P [msg]) + key.key.x * r) % key.key.q := ⟨_, rfl⟩
  rw [← hr, ← hs] at hsig
  have hrq : r < key.key.q := by rw [hr]; exact Nat.mod_lt _ hq0
  have hsq : s < key.key.q := by rw [hs]; exact Nat.mod_lt _ hq0
  obtain ⟨sig, hmake⟩ := MakeDsaSig_ok (r : Int) (s : Int)
    (by have := natLength_lt hrq; simp; omega) (by have := natLength_lt hsq; simp; omega)
  refine ⟨r, s, sig, hsig, ?_, ?_⟩
  · unfold DsaPrivateKey.Sign
    rw [if_neg (by omega)]
    simp only [hsig, bind, Except.bind]
    exact hmake
  · unfold DsaPublicKey.Verify
    have hparse := ParseDsaSig_Make hmake []
    rw [List.append_nil] at hparse
    have := C51_pair key.key hv (Hash P [msg]) k (by omega) hkq r s hsig
    rw [← hpub] at this
    rw [hparse]
    simp only [bind, Except.bind, this]

/-- instance: p = 23, q = 11, g = 4 (of order 11), x = 3, y = 18 -/
def exDsa : DsaObj := ⟨18, 4, 23, 11, 3⟩
example : DsaValid exDsa := ⟨by norm_num [exDsa], by norm_num [exDsa], by norm_num [exDsa], by norm_num [exDsa]⟩

/-- a signature with both components non-zero, and one with `s = 0`, which is then rejected -/
example : exDsa.sign [5] 7 = .ok (8, 1) ∧ exDsa.sign [9] 7 = .ok (8, 0) := by decide +kernel
example : exDsa.pub.verify [5] 8 1 = .ok true ∧ exDsa.pub.verify [9] 8 0 = .ok false := by decide +kernel

/-! ## C09, key identifiers -/

/-- same number, any number of leading zeros (both strings non-empty) -/
theorem trim_eq_of_value {a b : Bytes} (h : beNat a = beNat b) : TrimBytes a = TrimBytes b := by
  unfold TrimBytes
  have := strip0_inj.mpr h
  unfold strip0 at this
  simp only [this]

/-- C09: the identifier of an RSA public key depends only on the numbers its parameters denote. -/
theorem C09_rsa_identifier (k k' : RsaPublicKey) (h1 : beNat k.modulus = beNat k'.modulus)
    (h2 : beNat k.publicExponent = beNat k'.publicExponent) : k.hashId P = k'.hashId P := by
  unfold RsaPublicKey.hashId
  rw [trim_eq_of_value h1, trim_eq_of_value h2]

/-- C09: the same for DSA public keys. -/
theorem C09_dsa_identifier (k k' : DsaPublicKey) (hp : beNat k.p = beNat k'.p) (hq : beNat k.q = beNat k'.q)
    (hg : beNat k.g = beNat k'.g) (hy : beNat k.y = beNat k'.y) : k.hashId P = k'.hashId P := by
  unfold DsaPublicKey.hashId
  rw [trim_eq_of_value hp, trim_eq_of_value hq, trim_eq_of_value hg, trim_eq_of_value hy]

end Verif.Props
