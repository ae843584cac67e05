import Verif.Spec.Der
import Verif.Lemmas.DerUnique
import Verif.Lemmas.Der
import Verif.Lemmas.Base64
/-
C63: PKCS8 and X.509 parameters; the DER encoder.
-/
namespace Verif.Props
open Verif Spec

/-! ### the DER encoder -/

theorem derLen_spec {n : Nat} {l : Bytes} (h : derLen n = .ok l) : LengthOctets n l := by
  unfold derLen at h
  by_cases hn : n < 128
  · rw [if_pos hn] at h
    cases h
    exact .inl ⟨hn, _, by rw [UInt8.toNat_ofNat']; omega, rfl⟩
  · rw [if_neg hn] at h
    simp only at h
    split at h
    · cases h
    · cases h
      refine .inr ⟨by omega, _, _, rfl, ?_, by omega, beNat_BigIntToBytes n, BigIntToBytes_head n⟩
      rw [UInt8.toNat_ofNat']; omega

theorem derNatBytes_shortest (n : Nat) : ∃ c t, derNatBytes n = c :: t ∧ c.toNat < 128 ∧ beNat (c :: t) = n ∧
    (∀ d t', t = d :: t' → c.toNat = 0 → 128 ≤ d.toNat) := by
  have hb := beNat_BigIntToBytes n
  have hh := BigIntToBytes_head n
  unfold derNatBytes
  cases h : BigIntToBytes n with
  | nil =>
    rw [h] at hb
    exact ⟨0, [], rfl, by decide, by simpa [beNat] using hb, by simp⟩
  | cons c t =>
    rw [h] at hb hh
    dsimp only
    split
    · next hc =>
      refine ⟨0, c :: t, rfl, by decide, ?_, ?_⟩
      · rw [beNat_cons]; simpa using hb
      · intro d t' e _
        cases e; exact hc
    · next hc =>
      refine ⟨c, t, rfl, by omega, hb, ?_⟩
      intro d t' _ h0
      exfalso
      apply hh
      have : c = 0 := by apply UInt8.toNat_inj.mp; rw [h0]; rfl
      simp [this]

theorem beNat_compl (b : Bytes) : beNat (b.map (~~~ ·)) + beNat b + 1 = 256 ^ b.length := by
  induction b with
  | nil => simp [beNat]
  | cons c t ih =>
    rw [List.map_cons, beNat_cons, beNat_cons, List.length_map, compl_toNat, List.length_cons, Nat.pow_succ]
    have hc := UInt8.toNat_lt c
    have h2 : (255 - c.toNat) * 256 ^ t.length + c.toNat * 256 ^ t.length = 255 * 256 ^ t.length := by
      rw [← Nat.add_mul]; congr 1; omega
    omega

/-- the content octets of an INTEGER are the two's complement representation of least length -/
theorem derIntBytes_spec (n : Int) : twosComplement (derIntBytes n) = n ∧ Shortest (derIntBytes n) := by
  unfold derIntBytes
  split
  · next hn =>
    obtain ⟨c, t, h1, h2, h3, h4⟩ := derNatBytes_shortest n.toNat
    rw [h1]
    refine ⟨?_, ?_⟩
    · simp only [twosComplement, if_pos h2, h3]; omega
    · cases t with
      | nil => trivial
      | cons d t' =>
        refine ⟨fun ⟨a, b⟩ => ?_, fun ⟨a, _⟩ => by omega⟩
        have := h4 d t' rfl a; omega
  · next hn =>
    obtain ⟨c, t, h1, h2, h3, h4⟩ := derNatBytes_shortest (-n - 1).toNat
    rw [h1]
    have hc : (~~~ c).toNat = 255 - c.toNat := compl_toNat c
    refine ⟨?_, ?_⟩
    · have h5 := beNat_compl (c :: t)
      rw [h3] at h5
      simp only [twosComplement, List.map_cons, hc, if_neg (show ¬ 255 - c.toNat < 128 by omega)]
      rw [List.map_cons] at h5
      have h6 : (List.length (~~~ c :: List.map (~~~ ·) t)) = (c :: t).length := by simp
      rw [h6]
      have h7 : ((256 : Int) ^ (c :: t).length) = ((256 ^ (c :: t).length : Nat) : Int) := (Int.natCast_pow 256 _).symm
      rw [h7, ← h5]
      push_cast
      omega
    · cases t with
      | nil => trivial
      | cons d t' =>
        have hd : (~~~ d).toNat = 255 - d.toNat := compl_toNat d
        have := UInt8.toNat_lt d
        refine ⟨fun ⟨a, _⟩ => ?_, fun ⟨a, b⟩ => ?_⟩
        · have a : (~~~ c).toNat = 0 := a
          omega
        · have a : (~~~ c).toNat = 255 := a
          have b : 128 ≤ (~~~ d).toNat := b
          have := h4 d t' rfl (by omega); omega

mutual
theorem derEncode_der (v : Asn1) (b : Bytes) (h : derEncode v = .ok b) : IsDer v b := by
  match v with
  | .integer n =>
    obtain ⟨l, h1, rfl⟩ := derTLV_inv (by simpa only [derEncode] using h)
    exact .integer n l _ (derIntBytes_spec n).1 (derIntBytes_spec n).2 (derLen_spec h1)
  | .octets o =>
    obtain ⟨l, h1, rfl⟩ := derTLV_inv (by simpa only [derEncode] using h)
    exact .octets o l (derLen_spec h1)
  | .bits o =>
    obtain ⟨l, h1, rfl⟩ := derTLV_inv (by simpa only [derEncode] using h)
    rw [List.length_cons, Nat.add_comm] at h1
    exact .bits o l (derLen_spec h1)
  | .null =>
    simp only [derEncode, derTLV, derLen] at h
    cases h
    exact .null
  | .oid o =>
    obtain ⟨l, h1, rfl⟩ := derTLV_inv (by simpa only [derEncode] using h)
    exact .oid o l (derLen_spec h1)
  | .seq vs =>
    simp only [derEncode] at h
    cases hc : derEncodeList vs with
    | error e => rw [hc] at h; cases h
    | ok c =>
      rw [hc] at h
      obtain ⟨l, h1, rfl⟩ := derTLV_inv h
      exact .seq vs l c (derEncodeList_der vs c hc) (derLen_spec h1)
theorem derEncodeList_der (vs : List Asn1) (c : Bytes) (h : derEncodeList vs = .ok c) : AreDer vs c := by
  match vs with
  | [] =>
    simp only [derEncodeList] at h
    cases h; exact .nil
  | v :: vs =>
    simp only [derEncodeList] at h
    cases ha : derEncode v with
    | error e => rw [ha] at h; cases h
    | ok a =>
      rw [ha] at h
      cases hb : derEncodeList vs with
      | error e => rw [hb] at h; cases h
      | ok b =>
        rw [hb] at h
        cases h
        exact .cons v vs a b (derEncode_der v a ha) (derEncodeList_der vs b hb)
end

theorem derLen_of_spec {n : Nat} {l : Bytes} (h : LengthOctets n l) : derLen n = .ok l := by
  have key : ∃ l', derLen n = .ok l' := by
    unfold Verif.derLen
    rcases h with ⟨h, -⟩ | ⟨h, c, b, rfl, -, h1, h2, h3⟩
    · rw [if_pos h]; exact ⟨_, rfl⟩
    · rw [if_neg (by omega)]
      have : BigIntToBytes n = b := beNat_inj_of_head (BigIntToBytes_head n) h3 (by rw [beNat_BigIntToBytes, h2])
      dsimp only
      rw [this, if_neg (by omega)]
      exact ⟨_, rfl⟩
  obtain ⟨l', hl⟩ := key
  rw [hl, (derLen_spec hl).unique h]

/-- the encoder makes the DER encoding, and fails only if there is none (the length takes more than 126 octets) -/
theorem derEncode_iff (v : Asn1) (b : Bytes) : derEncode v = .ok b ↔ IsDer v b := by
  refine ⟨derEncode_der v b, ?_⟩
  have key : ∀ v b, IsDer v b → ∃ b', derEncode v = .ok b' := by
    intro v
    refine Asn1.rec (motive_1 := fun v => ∀ b, IsDer v b → ∃ b', derEncode v = .ok b')
      (motive_2 := fun vs => ∀ b, AreDer vs b → ∃ b', derEncodeList vs = .ok b') ?_ ?_ ?_ ?_ ?_ ?_ ?_ ?_ v
    · rintro n _ ⟨_, l, c, h1, h2, h3⟩
      have e := shortest_unique (derIntBytes_spec n).2 h2 ((derIntBytes_spec n).1.trans h1.symm)
      simp [derEncode, derTLV, e, derLen_of_spec h3, bind, Except.bind, pure, Except.pure]
    · rintro o _ ⟨⟩
      next l h => simp [derEncode, derTLV, derLen_of_spec h, bind, Except.bind, pure, Except.pure]
    · rintro o _ ⟨⟩
      next l h =>
        rw [Nat.add_comm] at h
        simp [derEncode, derTLV, derLen_of_spec h, bind, Except.bind, pure, Except.pure]
    · rintro _ ⟨⟩
      simp [derEncode, derTLV, Verif.derLen, bind, Except.bind, pure, Except.pure]
    · rintro o _ ⟨⟩
      next l h => simp [derEncode, derTLV, derLen_of_spec h, bind, Except.bind, pure, Except.pure]
    · rintro vs ih _ ⟨⟩
      next l c h2 h1 =>
        obtain ⟨c', hc⟩ := ih c h1
        have e := AreDer.unique vs _ _ (derEncodeList_der vs c' hc) h1
        simp [derEncode, hc, derTLV, e, derLen_of_spec h2, bind, Except.bind, pure, Except.pure]
    · rintro _ -
      exact ⟨[], rfl⟩
    · rintro v vs ih1 ih2 _ ⟨⟩
      next b c h1 h2 =>
        obtain ⟨a', ha⟩ := ih1 _ h1
        obtain ⟨c', hc⟩ := ih2 _ h2
        simp [derEncodeList, ha, hc, bind, Except.bind, pure, Except.pure]
  intro h
  obtain ⟨b', hb⟩ := key v b h
  rw [hb, IsDer.unique v _ _ (derEncode_der v b' hb) h]

theorem except_bind_iff {α β : Type} {x : Py α} {f : α → Py β} {b : β} : (x >>= f) = .ok b ↔ ∃ a, x = .ok a ∧ f a = .ok b := by
  cases x with
  | error e => simp [bind, Except.bind]
  | ok a => simp [bind, Except.bind]

/-! ### the formats -/

/-- PrivateKeyInfo (PKCS #8, RFC 5208) -/
def privateKeyInfo (alg : List Nat) (params : Asn1) (key : Bytes) : Asn1 :=
  .seq [.integer 0, .seq [.oid ((oidOctets alg).map UInt8.ofNat), params], .octets key]

/-- SubjectPublicKeyInfo (RFC 3280, 4.1) -/
def subjectPublicKeyInfo (alg : List Nat) (params : Asn1) (key : Bytes) : Asn1 :=
  .seq [.seq [.oid ((oidOctets alg).map UInt8.ofNat), params], .bits key]

def rsaEncryption : List Nat := [1, 2, 840, 113549, 1, 1, 1]
def idDsa : List Nat := [1, 2, 840, 10040, 4, 1]

theorem RSA_OID_eq : RSA_OID = (oidOctets rsaEncryption).map UInt8.ofNat := by
  simp only [rsaEncryption, oidOctets, List.map, List.flatten]
  rw [show base128 (40 * 1 + 2) = [42] by simp [base128], show base128 840 = [134, 72] by simp [base128],
    show base128 113549 = [134, 247, 13] by simp [base128], show base128 1 = [1] by simp [base128]]
  rfl

theorem DSA_OID_eq : DSA_OID = (oidOctets idDsa).map UInt8.ofNat := by
  simp only [idDsa, oidOctets, List.map, List.flatten]
  rw [show base128 (40 * 1 + 2) = [42] by simp [base128], show base128 840 = [134, 72] by simp [base128],
    show base128 10040 = [206, 56] by simp [base128], show base128 4 = [4] by simp [base128], show base128 1 = [1] by simp [base128]]
  rfl

/-- C63: an exported RSA private key is the web-safe Base64 of the DER PrivateKeyInfo (RFC 5208) with an RSAPrivateKey
(RFC 3447) inside. -/
theorem C63_rsa_pkcs8_format (n e d p q dp dq invq : Int) (out : Bytes) :
    ExportPkcs8 (.rsa n e d p q dp dq invq) = .ok out ↔
    ∃ key info, out = Base64WSEncode info ∧ IsDer (privateKeyInfo rsaEncryption .null key) info ∧
      IsDer (.seq [.integer 0, .integer n, .integer e, .integer d, .integer p, .integer q, .integer dp, .integer dq, .integer invq]) key := by
  simp only [ExportPkcs8, except_bind_iff, derEncode_iff, privateKeyInfo, ← RSA_OID_eq, List.map, pure, Except.pure,
    Except.ok.injEq]
  exact ⟨fun ⟨key, h1, info, h2, h3⟩ => ⟨key, info, h3.symm, h2, h1⟩, fun ⟨key, info, h3, h2, h1⟩ => ⟨key, h1, info, h2, h3.symm⟩⟩

/-- C63: an exported DSA private key is the web-safe Base64 of the DER PrivateKeyInfo with the domain parameters (RFC 3279)
and the INTEGER x inside. -/
theorem C63_dsa_pkcs8_format (p q g x : Int) (out : Bytes) :
    ExportPkcs8 (.dsa p q g x) = .ok out ↔
    ∃ key info, out = Base64WSEncode info ∧
      IsDer (privateKeyInfo idDsa (.seq [.integer p, .integer q, .integer g]) key) info ∧ IsDer (.integer x) key := by
  simp only [ExportPkcs8, except_bind_iff, derEncode_iff, privateKeyInfo, ← DSA_OID_eq, pure, Except.pure, Except.ok.injEq]
  exact ⟨fun ⟨key, h1, info, h2, h3⟩ => ⟨key, info, h3.symm, h2, h1⟩, fun ⟨key, info, h3, h2, h1⟩ => ⟨key, h1, info, h2, h3.symm⟩⟩

theorem bitStringOfBin_BytesToBin (b : Bytes) : bitStringOfBin (BytesToBin b) = .ok (.bits b) := by
  simp [bitStringOfBin, BinToBytes_BytesToBin, bind, Except.bind, pure, Except.pure]

/-- C63: an exported RSA public key is the web-safe Base64 of the DER SubjectPublicKeyInfo with an RSAPublicKey inside. -/
theorem C63_rsa_x509_format (n e : Int) (out : Bytes) :
    ExportX509 (.rsa n e) = .ok out ↔
    ∃ key info, out = Base64WSEncode info ∧ IsDer (subjectPublicKeyInfo rsaEncryption .null key) info ∧
      IsDer (.seq [.integer n, .integer e]) key := by
  simp only [ExportX509, except_bind_iff, derEncode_iff, bitStringOfBin_BytesToBin, subjectPublicKeyInfo, ← RSA_OID_eq, pure,
    Except.pure, Except.ok.injEq, exists_eq_left']
  exact ⟨fun ⟨key, h1, info, h2, h3⟩ => ⟨key, info, h3.symm, h2, h1⟩, fun ⟨key, info, h3, h2, h1⟩ => ⟨key, h1, info, h2, h3.symm⟩⟩

/-- C63: an exported DSA public key is the web-safe Base64 of the DER SubjectPublicKeyInfo with the domain parameters and the
INTEGER y inside. -/
theorem C63_dsa_x509_format (p q g y : Int) (out : Bytes) :
    ExportX509 (.dsa p q g y) = .ok out ↔
    ∃ key info, out = Base64WSEncode info ∧
      IsDer (subjectPublicKeyInfo idDsa (.seq [.integer p, .integer q, .integer g]) key) info ∧ IsDer (.integer y) key := by
  simp only [ExportX509, except_bind_iff, derEncode_iff, bitStringOfBin_BytesToBin, subjectPublicKeyInfo, ← DSA_OID_eq, pure,
    Except.pure, Except.ok.injEq, exists_eq_left']
  exact ⟨fun ⟨key, h1, info, h2, h3⟩ => ⟨key, info, h3.symm, h2, h1⟩, fun ⟨key, info, h3, h2, h1⟩ => ⟨key, h1, info, h2, h3.symm⟩⟩

/-! ### round trips -/

theorem RSA_ne_DSA : ¬ DSA_OID = RSA_OID := by decide

/-- C63: `ParsePkcs8` returns exactly the exported parameters. -/
theorem C63_pkcs8 (ps : Pkcs8Params) (out : Bytes) (h : ExportPkcs8 ps = .ok out) : ParsePkcs8 out = .ok ps := by
  cases ps with
  | rsa n e d p q dp dq invq =>
    simp only [ExportPkcs8] at h
    cases h1 : derEncode (.seq ([0, n, e, d, p, q, dp, dq, invq].map Asn1.integer)) with
    | error x => rw [h1] at h; cases h
    | ok key =>
      rw [h1] at h
      simp only [bind, Except.bind, pure, Except.pure] at h
      cases h2 : derEncode (.seq [.integer 0, .seq [.oid RSA_OID, .null], .octets key]) with
      | error x => rw [h2] at h; cases h
      | ok info =>
        rw [h2] at h
        cases h
        have d1 := derDecode0_encode h1 []
        have d2 := derDecode0_encode h2 []
        rw [List.append_nil] at d1 d2
        simp [ParsePkcs8, Base64WSDecode_encode, d2, d1, ParseASN1Sequence, asn1Int, bind, Except.bind, pure, Except.pure]
  | dsa p q g x =>
    simp only [ExportPkcs8] at h
    cases h1 : derEncode (.integer x) with
    | error x => rw [h1] at h; cases h
    | ok key =>
      rw [h1] at h
      simp only [bind, Except.bind, pure, Except.pure] at h
      cases h2 : derEncode (.seq [.integer 0, .seq [.oid DSA_OID, .seq [.integer p, .integer q, .integer g]], .octets key]) with
      | error x => rw [h2] at h; cases h
      | ok info =>
        rw [h2] at h
        cases h
        have d1 := derDecode0_encode h1 []
        have d2 := derDecode0_encode h2 []
        rw [List.append_nil] at d1 d2
        simp [ParsePkcs8, Base64WSDecode_encode, d2, d1, ParseASN1Sequence, asn1Int, RSA_ne_DSA, bind, Except.bind, pure, Except.pure]

/-- C63: `ParseX509` returns exactly the exported parameters. -/
theorem C63_x509 (ps : X509Params) (out : Bytes) (h : ExportX509 ps = .ok out) : ParseX509 out = .ok ps := by
  cases ps with
  | rsa n e =>
    simp only [ExportX509] at h
    cases h1 : derEncode (.seq [.integer n, .integer e]) with
    | error x => rw [h1] at h; cases h
    | ok key =>
      rw [h1] at h
      simp only [bind, Except.bind, pure, Except.pure, bitStringOfBin_BytesToBin] at h
      cases h2 : derEncode (.seq [.seq [.oid RSA_OID, .null], .bits key]) with
      | error x => rw [h2] at h; cases h
      | ok info =>
        rw [h2] at h
        cases h
        have d1 := derDecode0_encode h1 []
        have d2 := derDecode0_encode h2 []
        rw [List.append_nil] at d1 d2
        simp [ParseX509, Base64WSDecode_encode, d2, d1, ParseASN1Sequence, asn1Int, binOfBitString, BinToBytes_BytesToBin,
          bind, Except.bind, pure, Except.pure]
  | dsa p q g y =>
    simp only [ExportX509] at h
    cases h1 : derEncode (.integer y) with
    | error x => rw [h1] at h; cases h
    | ok key =>
      rw [h1] at h
      simp only [bind, Except.bind, pure, Except.pure, bitStringOfBin_BytesToBin] at h
      cases h2 : derEncode (.seq [.seq [.oid DSA_OID, .seq [.integer p, .integer q, .integer g]], .bits key]) with
      | error x => rw [h2] at h; cases h
      | ok info =>
        rw [h2] at h
        cases h
        have d1 := derDecode0_encode h1 []
        have d2 := derDecode0_encode h2 []
        rw [List.append_nil] at d1 d2
        simp [ParseX509, Base64WSDecode_encode, d2, d1, ParseASN1Sequence, asn1Int, binOfBitString, BinToBytes_BytesToBin, RSA_ne_DSA,
          bind, Except.bind, pure, Except.pure, List.mapM_cons, List.mapM_nil]

/-! ### what is accepted -/

/-- C63: a PrivateKeyInfo or a SubjectPublicKeyInfo for another algorithm is refused with KeyczarError. -/
theorem C63_other_algorithm (alg : Bytes) (params key : Asn1) (keyDer info spki : Bytes) (h1 : derEncode key = .ok keyDer)
    (h2 : derEncode (.seq [.integer 0, .seq [.oid alg, params], .octets keyDer]) = .ok info)
    (h3 : derEncode (.seq [.seq [.oid alg, params], .bits keyDer]) = .ok spki)
    (hr : alg ≠ (oidOctets rsaEncryption).map UInt8.ofNat) (hd : alg ≠ (oidOctets idDsa).map UInt8.ofNat) :
    ParsePkcs8 (Base64WSEncode info) = .error .keyczarError ∧ ParseX509 (Base64WSEncode spki) = .error .keyczarError := by
  rw [← RSA_OID_eq] at hr
  rw [← DSA_OID_eq] at hd
  have d1 := derDecode0_encode h1 []
  have d2 := derDecode0_encode h2 []
  have d3 := derDecode0_encode h3 []
  rw [List.append_nil] at d1 d2 d3
  constructor
  · simp [ParsePkcs8, Base64WSDecode_encode, d2, d1, ParseASN1Sequence, asn1Int, hr, hd, bind, Except.bind]
  · simp [ParseX509, Base64WSDecode_encode, d3, d1, ParseASN1Sequence, binOfBitString, BinToBytes_BytesToBin, hr, hd, bind, Except.bind]

/-- C63: a PrivateKeyInfo with a version other than 0, or not with three fields, is refused with KeyczarError; so is a
SubjectPublicKeyInfo not with two fields. -/
theorem C63_malformed (fields : List Asn1) (info : Bytes) (h : derEncode (.seq fields) = .ok info) :
    (fields.length ≠ 3 → ParsePkcs8 (Base64WSEncode info) = .error .keyczarError) ∧
    (fields.length ≠ 2 → ParseX509 (Base64WSEncode info) = .error .keyczarError) ∧
    (∀ v a b, fields = [.integer v, a, b] → v ≠ 0 → ParsePkcs8 (Base64WSEncode info) = .error .keyczarError) := by
  have d := derDecode0_encode h []
  rw [List.append_nil] at d
  refine ⟨fun hl => ?_, fun hl => ?_, ?_⟩
  · simp only [ParsePkcs8, Base64WSDecode_encode, d, ParseASN1Sequence, bind, Except.bind]
    split
    · simp at hl
    · rfl
  · simp only [ParseX509, Base64WSDecode_encode, d, ParseASN1Sequence, bind, Except.bind]
    split
    · simp at hl
    · rfl
  · rintro v a b rfl hv
    simp [ParsePkcs8, Base64WSDecode_encode, d, ParseASN1Sequence, asn1Int, hv, bind, Except.bind]

/-- C63 (finding): data after the DER value is ignored, so that many different texts are read as the same key. -/
theorem C63_trailing_data (v : Asn1) (info junk : Bytes) (h : derEncode v = .ok info) :
    ParsePkcs8 (Base64WSEncode (info ++ junk)) = ParsePkcs8 (Base64WSEncode info) ∧
    ParseX509 (Base64WSEncode (info ++ junk)) = ParseX509 (Base64WSEncode info) := by
  have d1 := derDecode0_encode h []
  have d2 := derDecode0_encode h junk
  rw [List.append_nil] at d1
  constructor
  · simp only [ParsePkcs8, Base64WSDecode_encode, d1, d2, bind, Except.bind]
  · simp only [ParseX509, Base64WSDecode_encode, d1, d2, bind, Except.bind]

/-! ### exporting succeeds -/

/-- integers below 256^(2^50) in absolute value -/
def Fits (n : Int) : Prop := (BigIntToBytes n.natAbs).length ≤ 2 ^ 50

theorem derInt_ok {n : Int} (h : Fits n) : ∃ b, derEncode (.integer n) = .ok b ∧ b.length ≤ 2 ^ 50 + 11 := by
  have h1 := derIntBytes_length n
  have h2 : (BigIntToBytes n.natAbs).length ≤ 2 ^ 50 := h
  obtain ⟨b, e1, l1⟩ := derTLV_ok (tag := 0x02) (c := derIntBytes n) (by omega)
  exact ⟨b, by simpa only [derEncode] using e1, by omega⟩

theorem derInts_ok : ∀ (l : List Int), (∀ n ∈ l, Fits n) →
    ∃ b, derEncodeList (l.map Asn1.integer) = .ok b ∧ b.length ≤ l.length * (2 ^ 50 + 11)
  | [], _ => ⟨[], rfl, by simp⟩
  | n :: l, h => by
    obtain ⟨a, h1, h2⟩ := derInt_ok (h n (by simp))
    obtain ⟨b, h3, h4⟩ := derInts_ok l (fun x hx => h x (by simp [hx]))
    refine ⟨a ++ b, ?_, ?_⟩
    · simp only [List.map_cons, derEncodeList, h1, h3, bind, Except.bind, pure, Except.pure]
    · rw [List.length_append, List.length_cons, Nat.add_mul]; omega

theorem derIntSeq_ok (l : List Int) (hl : l.length ≤ 9) (h : ∀ n ∈ l, Fits n) :
    ∃ b, derEncode (.seq (l.map Asn1.integer)) = .ok b ∧ b.length ≤ 2 ^ 54 := by
  obtain ⟨c, h1, h2⟩ := derInts_ok l h
  have h3 : l.length * (2 ^ 50 + 11) ≤ 9 * (2 ^ 50 + 11) := Nat.mul_le_mul_right _ hl
  obtain ⟨b, e1, l1⟩ := derTLV_ok (tag := 0x30) (c := c) (by omega)
  exact ⟨b, by simp only [derEncode, h1, bind, Except.bind, e1], by omega⟩

theorem derSeq2_ok {u v : Asn1} {a b : Bytes} (hu : derEncode u = .ok a) (hv : derEncode v = .ok b) (h : a.length + b.length < 2 ^ 64) :
    ∃ c, derEncode (.seq [u, v]) = .ok c ∧ c.length ≤ a.length + b.length + 10 := by
  obtain ⟨c, e1, l1⟩ := derTLV_ok (tag := 0x30) (c := a ++ b) (by simpa using h)
  refine ⟨c, ?_, by simpa using l1⟩
  simp only [derEncode, derEncodeList, hu, hv, bind, Except.bind, pure, Except.pure, List.append_nil, e1]

theorem derSeq3_ok {u v w : Asn1} {a b d : Bytes} (hu : derEncode u = .ok a) (hv : derEncode v = .ok b) (hw : derEncode w = .ok d)
    (h : a.length + b.length + d.length < 2 ^ 64) : ∃ c, derEncode (.seq [u, v, w]) = .ok c := by
  obtain ⟨c, e1, l1⟩ := derTLV_ok (tag := 0x30) (c := a ++ (b ++ d)) (by simpa [Nat.add_assoc] using h)
  refine ⟨c, ?_⟩
  simp only [derEncode, derEncodeList, hu, hv, hw, bind, Except.bind, pure, Except.pure, List.append_nil, e1]

theorem derFlat_ok (b : Bytes) (h : b.length ≤ 2 ^ 60) :
    (∃ c, derEncode (.octets b) = .ok c ∧ c.length ≤ b.length + 10) ∧ (∃ c, derEncode (.bits b) = .ok c ∧ c.length ≤ b.length + 11) ∧
    (∃ c, derEncode (.oid b) = .ok c ∧ c.length ≤ b.length + 10) := by
  obtain ⟨c1, e1, l1⟩ := derTLV_ok (tag := 0x04) (c := b) (by omega)
  obtain ⟨c2, e2, l2⟩ := derTLV_ok (tag := 0x03) (c := 0 :: b) (by simp; omega)
  obtain ⟨c3, e3, l3⟩ := derTLV_ok (tag := 0x06) (c := b) (by omega)
  rw [List.length_cons] at l2
  exact ⟨⟨c1, by simp only [derEncode, e1], l1⟩, ⟨c2, by simp only [derEncode, e2], by omega⟩, ⟨c3, by simp only [derEncode, e3], l3⟩⟩

theorem fits_zero : Fits 0 := by simp [Fits, BigIntToBytes_zero]

/-- C63: exporting succeeds for all parameters below 256^(2^50) in absolute value (negative ones too). -/
theorem C63_pkcs8_ok (ps : Pkcs8Params)
    (h : match ps with
      | .rsa n e d p q dp dq invq => ∀ x ∈ [n, e, d, p, q, dp, dq, invq], Fits x
      | .dsa p q g x => ∀ y ∈ [p, q, g, x], Fits y) : ∃ out, ExportPkcs8 ps = .ok out := by
  obtain ⟨z, hz, lz⟩ := derInt_ok fits_zero
  cases ps with
  | rsa n e d p q dp dq invq =>
    obtain ⟨k, hk, lk⟩ := derIntSeq_ok [0, n, e, d, p, q, dp, dq, invq] (by simp) (by
      intro x hx
      rcases List.mem_cons.mp hx with rfl | hx
      · exact fits_zero
      · exact h x hx)
    obtain ⟨⟨o, ho, lo⟩, -, -⟩ := derFlat_ok k (by omega)
    obtain ⟨-, -, ⟨r, hr, lr⟩⟩ := derFlat_ok RSA_OID (by decide)
    obtain ⟨a, ha, la⟩ := derSeq2_ok hr (v := .null) (b := [5, 0]) rfl (by simp only [List.length_cons, List.length_nil]; simp [RSA_OID] at lr; omega)
    simp only [RSA_OID, List.length_cons, List.length_nil] at lr la
    obtain ⟨i, hi⟩ := derSeq3_ok hz ha ho (by omega)
    exact ⟨Base64WSEncode i, by simp only [ExportPkcs8, hk, bind, Except.bind, pure, Except.pure, hi]⟩
  | dsa p q g x =>
    obtain ⟨k, hk, lk⟩ := derInt_ok (h x (by simp))
    obtain ⟨⟨o, ho, lo⟩, -, -⟩ := derFlat_ok k (by omega)
    obtain ⟨-, -, ⟨r, hr, lr⟩⟩ := derFlat_ok DSA_OID (by decide)
    obtain ⟨m, hm, lm⟩ := derIntSeq_ok [p, q, g] (by simp) (fun y hy => h y (by simp only [List.mem_cons, List.not_mem_nil, or_false] at hy ⊢; rcases hy with h | h | h <;> simp [h]))
    obtain ⟨a, ha, la⟩ := derSeq2_ok hr hm (by simp [DSA_OID] at lr; omega)
    simp only [DSA_OID, List.length_cons, List.length_nil] at lr
    obtain ⟨i, hi⟩ := derSeq3_ok hz ha ho (by omega)
    refine ⟨Base64WSEncode i, ?_⟩
    simp only [ExportPkcs8, hk, bind, Except.bind, pure, Except.pure]
    simp only [List.map_cons, List.map_nil] at hi
    rw [hi]

theorem C63_x509_ok (ps : X509Params)
    (h : match ps with
      | .rsa n e => ∀ x ∈ [n, e], Fits x
      | .dsa p q g y => ∀ x ∈ [p, q, g, y], Fits x) : ∃ out, ExportX509 ps = .ok out := by
  cases ps with
  | rsa n e =>
    obtain ⟨k, hk, lk⟩ := derIntSeq_ok [n, e] (by simp) h
    obtain ⟨-, ⟨o, ho, lo⟩, -⟩ := derFlat_ok k (by omega)
    obtain ⟨-, -, ⟨r, hr, lr⟩⟩ := derFlat_ok RSA_OID (by decide)
    obtain ⟨a, ha, la⟩ := derSeq2_ok hr (v := .null) (b := [5, 0]) rfl (by simp only [List.length_cons, List.length_nil]; simp [RSA_OID] at lr; omega)
    simp only [RSA_OID, List.length_cons, List.length_nil] at lr la
    obtain ⟨i, hi, -⟩ := derSeq2_ok ha ho (by omega)
    simp only [List.map_cons, List.map_nil] at hk
    exact ⟨Base64WSEncode i, by simp only [ExportX509, hk, bind, Except.bind, pure, Except.pure, bitStringOfBin_BytesToBin, hi]⟩
  | dsa p q g y =>
    obtain ⟨k, hk, lk⟩ := derInt_ok (h y (by simp))
    obtain ⟨-, ⟨o, ho, lo⟩, -⟩ := derFlat_ok k (by omega)
    obtain ⟨-, -, ⟨r, hr, lr⟩⟩ := derFlat_ok DSA_OID (by decide)
    obtain ⟨m, hm, lm⟩ := derIntSeq_ok [p, q, g] (by simp) (fun x hx => h x (by simp only [List.mem_cons, List.not_mem_nil, or_false] at hx ⊢; rcases hx with h | h | h <;> simp [h]))
    obtain ⟨a, ha, la⟩ := derSeq2_ok hr hm (by simp [DSA_OID] at lr; omega)
    simp only [DSA_OID, List.length_cons, List.length_nil] at lr
    obtain ⟨i, hi, -⟩ := derSeq2_ok ha ho (by omega)
    simp only [List.map_cons, List.map_nil] at hi
    exact ⟨Base64WSEncode i, by simp only [ExportX509, hk, bind, Except.bind, pure, Except.pure, bitStringOfBin_BytesToBin, hi]⟩

theorem fits_small {n : Int} (h : n.natAbs < 2 ^ 32) : Fits n := by
  have h1 := BigIntToBytes_minimal (IntToBytes n.natAbs)
  rw [beNat_IntToBytes, Nat.mod_eq_of_lt h, IntToBytes_length] at h1
  exact Nat.le_trans h1 (by decide)

/-- example: a toy RSA key, and a DSA key with a negative parameter, are exported and read back -/
example : ∃ out, ExportX509 (.rsa 3233 17) = .ok out ∧ ParseX509 out = .ok (.rsa 3233 17) := by
  obtain ⟨out, h⟩ := C63_x509_ok (.rsa 3233 17) (fun x hx => fits_small (by revert x; decide))
  exact ⟨out, h, C63_x509 _ _ h⟩
example : ∃ out, ExportPkcs8 (.dsa 23 11 4 (-129)) = .ok out ∧ ParsePkcs8 out = .ok (.dsa 23 11 4 (-129)) := by
  obtain ⟨out, h⟩ := C63_pkcs8_ok (.dsa 23 11 4 (-129)) (fun x hx => fits_small (by revert x; decide))
  exact ⟨out, h, C63_pkcs8 _ _ h⟩
/-- example: 3233 is 02 02 0C A1, and -129 is 02 02 FF 7F -/
example : derEncode (.integer 3233) = .ok [0x02, 0x02, 0x0c, 0xa1] ∧ derEncode (.integer (-129)) = .ok [0x02, 0x02, 0xff, 0x7f] := by
  constructor <;> simp [derEncode, derTLV, derLen, derIntBytes, derNatBytes, BigIntToBytes, bind, Except.bind, pure, Except.pure] <;> decide

end Verif.Props
