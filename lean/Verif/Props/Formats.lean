import Verif.Spec.Formats
import Verif.Props.Accepts
import Verif.Props.Sessions
/-
C84: exactly what `Sign`, `AttachedSign`, the unversioned `Sign` and RSA `Encrypt` produce.  keyczar.py:320-340, 587-628, 654-674,
keys.py:542-552, 684-698, 841-853, 990-1002.
-/
namespace Verif.Props
open Verif Spec
variable (P : Prims)

/-- keys that can sign: for RSA a valid key of a supported size, for DSA a prime q of at least three and p > 1 -/
def CanSign : Key → Prop
  | .hmac _ => True
  | .rsaPriv k => UsableRsa k
  | .dsaPriv k => k.key.q.Prime ∧ 3 ≤ k.key.q ∧ 1 < k.key.p
  | _ => False

theorem bigEndian_beNat (b : Bytes) : bigEndian b = beNat b := by rw [← C08_value, BytesToLong_eq]

theorem rsa_signature (k : RsaPrivateKey) (h : UsableRsa k) (msg sig : Bytes) :
    k.Sign P msg = .ok sig ↔ sig.length = k.size / 8 ∧ bigEndian sig < k.key.n ∧
      ∃ em, IsEmsa P.sha1 (k.size / 8) msg em ∧ bigEndian sig ^ k.key.e % k.key.n = bigEndian em := by
  have hs := h.size_facts
  simp only [C50_emsa P msg _ _ (show 368 ≤ k.size by omega), exists_eq_left, bigEndian_beNat]
  have e0 : beNat (0 :: MakeEmsaMessage P msg k.size) = beNat (MakeEmsaMessage P msg k.size) := by rw [beNat_cons]; simp
  rw [e0]
  obtain ⟨s, h1, h2, h3⟩ := C49_encrypt_decrypt P k.key h.valid _ (emsa_lt P h msg)
  have hlen : (BigIntToBytes s).length ≤ k.size / 8 := by
    apply BigIntToBytes_length_lt
    rw [pow256]
    have : 2 ^ k.size = 2 ^ (8 * (k.size / 8)) := by congr 1; omega
    have := h.bits.2
    omega
  have e1 : k.Sign P msg = .ok (PadBytes (BigIntToBytes s) ((k.size / 8 : Nat) - ((BigIntToBytes s).length : Int))) := by
    unfold RsaPrivateKey.Sign
    simp only [RsaObj.sign, BytesToLong_eq, h1, bind, Except.bind, pure, Except.pure]
  have e2 : (PadBytes (BigIntToBytes s) ((k.size / 8 : Nat) - ((BigIntToBytes s).length : Int))).length = k.size / 8 := by
    unfold PadBytes
    simp
    omega
  have e3 : beNat (PadBytes (BigIntToBytes s) ((k.size / 8 : Nat) - ((BigIntToBytes s).length : Int))) = s := by
    unfold PadBytes
    rw [beNat_replicate_zero, beNat_BigIntToBytes]
  have hn : 0 < k.key.n := h.valid.n_pos
  rw [encryptInt_ok P (k := k.key.pub) hn h2] at h3
  have h3 : s ^ k.key.e % k.key.n = beNat (MakeEmsaMessage P msg k.size) := Except.ok.inj h3
  rw [e1]
  constructor
  · intro h
    cases h
    exact ⟨e2, by rw [e3]; exact h2, by rw [e3]; exact h3⟩
  · rintro ⟨a, b, c⟩
    have hsame : beNat sig = s := by
      obtain ⟨x, -, -, hx, hx'⟩ := C49_decrypt_encrypt P k.key h.valid _ b
      rw [hx, c, h1] at hx'
      exact (Except.ok.inj hx').symm
    rw [beNat_inj_of_length (a := sig) (b := PadBytes _ _) (by rw [a, e2]) (by rw [e3, hsame])]

theorem dsa_signature (k : DsaPrivateKey) (hq : k.key.q.Prime) (h3 : 3 ≤ k.key.q) (hp : 1 < k.key.p) (rnd : Rand) (msg sig : Bytes) :
    k.Sign P (rnd.dsaK k.key.q) msg = .ok sig ↔
      ∃ r s : Nat, r = k.key.g ^ rnd.dsaK k.key.q % k.key.p % k.key.q ∧ s < k.key.q ∧
        rnd.dsaK k.key.q * s % k.key.q = (bigEndian (P.sha1 msg) + k.key.x * r) % k.key.q ∧
        IsDer (.seq [.integer r, .integer s]) sig := by
  obtain ⟨l1, l2⟩ := rnd.dsaK_range k.key.q h3
  generalize rnd.dsaK k.key.q = κ at *
  have hcop : Nat.Coprime κ k.key.q := by
    rw [Nat.coprime_comm]
    exact (Nat.Prime.coprime_iff_not_dvd hq).mpr (fun h => by have := Nat.le_of_dvd (by omega) h; omega)
  have hinv := inverse_spec (u := κ) hq.pos hcop
  unfold DsaPrivateKey.Sign
  rw [if_neg (by omega), dsa_sign_eq hp (by omega) (by omega)]
  simp only [bind, Except.bind, C80_makes, bigEndian_beNat, Hash, List.flatten_cons, List.flatten_nil, List.append_nil]
  have key : ∀ s t : Nat, s < k.key.q → (κ * s % k.key.q = t % k.key.q ↔ s = inverse κ k.key.q * t % k.key.q) := by
    intro s t hs
    have h1 : inverse κ k.key.q * (κ * s) ≡ s [MOD k.key.q] := by
      rw [← Nat.mul_assoc]
      simpa using hinv.mul_right s
    constructor
    · intro h
      have h2 : inverse κ k.key.q * (κ * s) ≡ inverse κ k.key.q * t [MOD k.key.q] := Nat.ModEq.mul_left _ h
      have := h1.symm.trans h2
      rw [← Nat.mod_eq_of_lt hs]
      exact this
    · rintro rfl
      have h2 : κ * (inverse κ k.key.q * t % k.key.q) ≡ κ * (inverse κ k.key.q * t) [MOD k.key.q] :=
        Nat.ModEq.mul_left _ (Nat.mod_modEq _ _)
      refine h2.trans ?_
      rw [← Nat.mul_assoc, Nat.mul_comm κ]
      simpa using hinv.mul_right t
  constructor
  · intro h
    exact ⟨_, _, rfl, Nat.mod_lt _ hq.pos, (key _ _ (Nat.mod_lt _ hq.pos)).mpr rfl, h⟩
  · rintro ⟨r, s, rfl, hs, e, h⟩
    rw [(key s _ hs).mp e] at h
    exact h

/-- C84: a key makes exactly the signature that the standard prescribes. -/
theorem C84_key (k : Key) (h : CanSign k) (rnd : Rand) (msg sig : Bytes) :
    k.Sign P rnd msg = .ok sig ↔ TheSignature P.sha1 rnd.dsaK k msg sig := by
  cases k with
  | hmac k =>
    show k.Sign P msg = .ok sig ↔ ∃ kb, Base64WSDecode k.keyString = .ok kb ∧ sig = hmac P.sha1 kb msg
    unfold HmacKey.Sign HmacKey.keyBytes
    cases hb : Base64WSDecode k.keyString with
    | error x => simp [bind, Except.bind]
    | ok kb =>
      simp only [bind, Except.bind, pure, Except.pure, Except.ok.injEq, exists_eq_left', hmacSha1_spec]
      exact eq_comm
  | aes k => exact h.elim
  | rsaPub k => exact h.elim
  | rsaPriv k => exact rsa_signature P k h msg sig
  | dsaPub k => exact h.elim
  | dsaPriv k => exact dsa_signature P k h.1 h.2.1 h.2.2 rnd msg sig

theorem map_iff {α β : Type} {x : Py α} {f : α → β} {b : β} : x.map f = .ok b ↔ ∃ a, x = .ok a ∧ f a = b := by
  cases x <;> simp [Except.map]

/-- C84: there is one such signature. -/
theorem C84_one (k : Key) (h : CanSign k) (rnd : Rand) (msg sig sig' : Bytes)
    (h1 : TheSignature P.sha1 rnd.dsaK k msg sig) (h2 : TheSignature P.sha1 rnd.dsaK k msg sig') : sig = sig' := by
  rw [← C84_key P k h] at h1 h2
  exact Except.ok.inj (h1.symm.trans h2)

/-- C84: a loaded key set makes the header of its primary key followed by the signature of the message and a zero byte. -/
theorem C84_sign (c : Czar) (hc : Loaded P c) (e : Entry) (hp : c.keySet.primaries = [e]) (hs : CanSign e.key)
    (rnd : Rand) (m out : Bytes) :
    c.Sign P rnd m none = .ok out ↔
      ∃ id sig, KeyId P.sha1 e.key id ∧ TheSignature P.sha1 rnd.dsaK e.key (m ++ [0]) sig ∧ out = header id ++ sig := by
  obtain ⟨id, hid⟩ := hc.keyId (primary_mem hp).1
  rw [Sign_eq P hc hp hid, map_iff]
  simp only [C84_key P _ hs, encoded]
  constructor
  · rintro ⟨sig, h1, rfl⟩; exact ⟨id, sig, hid, h1, rfl⟩
  · rintro ⟨id', sig, hid', h1, rfl⟩
    rw [KeyId_unique P hid' hid]
    exact ⟨sig, h1, rfl⟩

/-- C84: attached signatures: header, the data with its length, the signature of the data, the nonce with its length and a
zero byte. -/
theorem C84_attached (c : Czar) (hc : Loaded P c) (e : Entry) (hp : c.keySet.primaries = [e]) (hs : CanSign e.key)
    (rnd : Rand) (m nonce out : Bytes) (hm : m.length < 2 ^ 31) (hn : nonce.length < 2 ^ 31) :
    c.AttachedSign P rnd m nonce none = .ok out ↔
      ∃ id sig, KeyId P.sha1 e.key id ∧ TheSignature P.sha1 rnd.dsaK e.key (m ++ lengthPrefixed nonce ++ [0]) sig ∧
        out = header id ++ lengthPrefixed m ++ sig := by
  obtain ⟨id, hid⟩ := hc.keyId (primary_mem hp).1
  rw [AttachedSign_eq P hc hp hid rnd m nonce none hm hn, map_iff]
  simp only [C84_key P _ hs, encoded]
  constructor
  · rintro ⟨sig, h1, rfl⟩; exact ⟨id, sig, hid, h1, rfl⟩
  · rintro ⟨id', sig, hid', h1, rfl⟩
    rw [KeyId_unique P hid' hid]
    exact ⟨sig, h1, rfl⟩

/-- C84: unversioned signatures: the signature of the message, nothing else. -/
theorem C84_unversioned (c : Czar) (hc : Loaded P c) (e : Entry) (hp : c.keySet.primaries = [e]) (hs : CanSign e.key)
    (rnd : Rand) (m out : Bytes) :
    c.UnversionedSign P rnd m none = .ok out ↔ TheSignature P.sha1 rnd.dsaK e.key m out := by
  rw [UnversionedSign_eq P hc hp, map_iff]
  simp only [C84_key P _ hs, encoded, exists_eq_right]

/-! ### RSA encryption -/

theorem longToBytes_iff (n : Nat) (b : Bytes) : longToBytes n = b ↔ bigEndian b = n ∧ FewestOctets b := by
  unfold longToBytes FewestOctets
  rw [bigEndian_beNat]
  by_cases h0 : n = 0
  · subst h0
    rw [if_pos rfl]
    constructor
    · rintro rfl; exact ⟨rfl, .inl rfl⟩
    · rintro ⟨h1, rfl | ⟨h2, h3⟩⟩
      · rfl
      · exact absurd (beNat_inj_of_head (b := []) h3 (by simp) h1) h2
  · rw [if_neg h0]
    constructor
    · rintro rfl
      refine ⟨beNat_BigIntToBytes n, .inr ⟨fun h => h0 ?_, BigIntToBytes_head n⟩⟩
      rw [← beNat_BigIntToBytes n, h]; rfl
    · rintro ⟨rfl, rfl | ⟨-, h3⟩⟩
      · exact absurd rfl h0
      · exact beNat_inj_of_head (BigIntToBytes_head _) h3 (beNat_BigIntToBytes _)

/-- the public half of an RSA key -/
def RsaHalf : Key → RsaPublicKey → Prop
  | .rsaPub k, k' => k = k'
  | .rsaPriv k, k' => k.pub = k'
  | _, _ => False

/-- C84: a key set whose primary key is an RSA key makes the header followed by the fewest octets of the `e`-th power of the
OAEP encoding (PKCS#1 v2.1 7.1.1) with the drawn seed; it makes nothing if the message is longer than the modulus less 42. -/
theorem C84_rsa_encrypt (c : Czar) (hc : Loaded P c) (e : Entry) (hp : c.keySet.primaries = [e]) (k : RsaPublicKey)
    (hk : RsaHalf e.key k) (hn : k.key.n ≠ 0) (hl : (BigIntToBytes k.key.n).length ≤ 2 ^ 32) (rnd : Rand) (m out : Bytes) :
    c.Encrypt P rnd m none = .ok out ↔
      ∃ id b len, KeyId P.sha1 e.key id ∧ 256 ^ (len - 1) ≤ k.key.n ∧ k.key.n < 256 ^ len ∧ m.length + 42 ≤ len ∧
        bigEndian b = bigEndian (oaep P.sha1 len (rnd.bytes 0 20) m) ^ k.key.e % k.key.n ∧ FewestOctets b ∧
        out = header id ++ b := by
  have hs := rnd.bytes_length 0 20
  have hb := byteLength_bounds hn
  have hlen : ∀ len, 256 ^ (len - 1) ≤ k.key.n → k.key.n < 256 ^ len → len = (BigIntToBytes k.key.n).length := by
    intro len h1 h2
    have a1 : (BigIntToBytes k.key.n).length - 1 < len := (Nat.pow_lt_pow_iff_right (by norm_num)).mp (lt_of_le_of_lt hb.1 h2)
    have a2 : len - 1 < (BigIntToBytes k.key.n).length := (Nat.pow_lt_pow_iff_right (by norm_num)).mp (lt_of_le_of_lt h1 hb.2)
    omega
  obtain ⟨id, hid⟩ := hc.keyId (primary_mem hp).1
  have hh : headerOf (k.hashId P) = .ok (header id) := by
    have := Header_eq P hid
    unfold Key.Header at this
    revert hk this
    cases e.key <;> simp only [RsaHalf, Key.hashId, false_imp_iff]
    · rintro rfl h; exact h
    · rintro rfl h; exact h
  have hE : c.Encrypt P rnd m none = k.Encrypt P (rnd.bytes 0 20) m := by
    rw [Encrypt_raw P hc hp]
    have : e.key.Encrypt P rnd m = k.Encrypt P (rnd.bytes 0 20) m := by
      revert hk
      cases e.key <;> simp only [RsaHalf, Key.Encrypt, false_imp_iff]
      · rintro rfl; rfl
      · rintro rfl; rfl
    rw [this]
    cases k.Encrypt P (rnd.bytes 0 20) m <;> rfl
  rw [hE]
  unfold RsaPublicKey.Encrypt
  rw [C48_encode_is_oaep P k hn _ m hs hl]
  by_cases hm : m.length + 42 ≤ (BigIntToBytes k.key.n).length
  · rw [if_pos hm]
    have hol := oaep_length P hs hm
    have hlt : beNat (oaep P.sha1 (BigIntToBytes k.key.n).length (rnd.bytes 0 20) m) < k.key.n := by
      have : beNat (oaep P.sha1 (BigIntToBytes k.key.n).length (rnd.bytes 0 20) m)
          = beNat ((oaep P.sha1 (BigIntToBytes k.key.n).length (rnd.bytes 0 20) m).drop 1) := by
        unfold oaep
        simp only [List.singleton_append, List.cons_append, List.drop_succ_cons, List.drop_zero]
        rw [beNat_cons]; simp
      have h2 := beNat_lt ((oaep P.sha1 (BigIntToBytes k.key.n).length (rnd.bytes 0 20) m).drop 1)
      rw [List.length_drop, hol] at h2
      omega
    simp only [bind, Except.bind, RsaPubObj.encrypt, BytesToLong_eq, encryptInt_ok P (Nat.pos_of_ne_zero hn) hlt, hh, pure,
      Except.pure, Except.ok.injEq]
    constructor
    · rintro rfl
      obtain ⟨h1, h2⟩ := (longToBytes_iff _ _).mp
        (rfl : longToBytes (beNat (oaep P.sha1 (BigIntToBytes k.key.n).length (rnd.bytes 0 20) m) ^ k.key.e % k.key.n) = _)
      exact ⟨id, _, _, hid, hb.1, hb.2, hm, by rw [h1, bigEndian_beNat], h2, rfl⟩
    · rintro ⟨id', b, len, hid', h1, h2, -, h3, h4, rfl⟩
      rw [hlen len h1 h2, bigEndian_beNat (oaep _ _ _ _)] at h3
      rw [KeyId_unique P hid' hid, (longToBytes_iff _ _).mpr ⟨h3, h4⟩]
  · rw [if_neg hm]
    refine iff_of_false (by simp [bind, Except.bind]) ?_
    rintro ⟨id', b, len, -, h1, h2, h3, -⟩
    rw [hlen len h1 h2] at h3
    exact hm h3

/-- C84: PKCS#1 wants ciphertexts of the length of the modulus (7.1.1, step 4).  They are shorter whenever the number is less
than the greatest power of 256 of that length. -/
theorem C84_rsa_length (c : Czar) (hc : Loaded P c) (e : Entry) (hp : c.keySet.primaries = [e]) (k : RsaPublicKey)
    (hk : RsaHalf e.key k) (hn : k.key.n ≠ 0) (hl : (BigIntToBytes k.key.n).length ≤ 2 ^ 32) (rnd : Rand) (m out : Bytes)
    (h : c.Encrypt P rnd m none = .ok out) (len : Nat) (h1 : 256 ^ (len - 1) ≤ k.key.n) (h2 : k.key.n < 256 ^ len) :
    out.length ≤ 5 + len ∧
      (out.length = 5 + len ↔ 256 ^ (len - 1) ≤ bigEndian (oaep P.sha1 len (rnd.bytes 0 20) m) ^ k.key.e % k.key.n) := by
  obtain ⟨id, b, len', hid, h1', h2', hm, h3, h4, rfl⟩ := (C84_rsa_encrypt P c hc e hp k hk hn hl rnd m out).mp h
  have e1 : len' = len := by
    have a1 : len' - 1 < len := (Nat.pow_lt_pow_iff_right (by norm_num)).mp (lt_of_le_of_lt h1' h2)
    have a2 : len - 1 < len' := (Nat.pow_lt_pow_iff_right (by norm_num)).mp (lt_of_le_of_lt h1 h2')
    omega
  subst e1
  rw [← h3]
  have hid' := ((KeyId_iff P _ _).mp hid).1
  have hlt : bigEndian b < 256 ^ len' := by rw [h3]; exact lt_trans (Nat.mod_lt _ (Nat.pos_of_ne_zero hn)) h2'
  have hb : b.length ≤ len' ∧ (b.length = len' ↔ 256 ^ (len' - 1) ≤ bigEndian b) := by
    rw [bigEndian_beNat] at hlt ⊢
    rcases h4 with rfl | ⟨h4, h5⟩
    · have : beNat [0] = 0 := rfl
      rw [this]
      have : 0 < 256 ^ (len' - 1) := Nat.pos_of_ne_zero (by positivity)
      exact ⟨by simp; omega, by simp; omega⟩
    · cases b with
      | nil => exact absurd rfl h4
      | cons x t =>
        have hge := beNat_ge_of_head (t := t) (c := x) (fun h => h5 (by rw [h]; rfl))
        have hup := beNat_lt (x :: t)
        have a1 : t.length < len' := (Nat.pow_lt_pow_iff_right (by norm_num)).mp (lt_of_le_of_lt hge hlt)
        refine ⟨by simp; omega, fun h => ?_, fun h => ?_⟩
        · rw [← h]; exact hge
        · have a2 : len' - 1 < (x :: t).length := (Nat.pow_lt_pow_iff_right (by norm_num)).mp (lt_of_le_of_lt h hup)
          simp at a2 ⊢
          omega
  have e2 : (header id ++ b).length = 5 + b.length := by simp [header, hid']; omega
  rw [e2]
  exact ⟨by omega, by rw [← hb.2]; omega⟩

/-! ### instances -/

/-- a Signer with the 512-bit RSA key of C48: what it makes for the message `data` has 5 + 64 bytes -/
example (rnd : Rand) : ∃ c e out, Loaded P c ∧ c.keySet.primaries = [e] ∧ CanSign e.key ∧
    c.Sign P rnd (bstr "data") none = .ok out ∧ out.length = 69 := by
  have := Czar.init_gives (cls := .signer) (StaticKeyReader_gives (P := P) (k := .rsaPriv exRsa)
    ⟨⟨by decide +kernel, by decide⟩, by decide +kernel, by decide⟩ ⟨_, rfl⟩ .SIGN_AND_VERIFY)
  rw [if_pos (by refine ⟨rfl, fun h => ?_, by simp [staticSet, KeySet.primaries]⟩; cases h)] at this
  obtain ⟨c, h1, h2⟩ := this
  have hc : Loaded P c := ⟨_, _, h1⟩
  have hp : c.keySet.primaries = [⟨1, .PRIMARY, .bool false, .rsaPriv exRsa⟩] := by rw [h2]; rfl
  obtain ⟨id, hid⟩ := hc.keyId (primary_mem hp).1
  obtain ⟨sig, s1, s2, -⟩ := C50_sign_verify P exRsa exRsa_usable (bstr "data" ++ [0])
  refine ⟨c, _, header id ++ sig, hc, hp, exRsa_usable,
    (C84_sign P c hc _ hp exRsa_usable rnd _ _).mpr ⟨id, sig, hid, (C84_key P (.rsaPriv exRsa) exRsa_usable rnd _ _).mp s1, rfl⟩, ?_⟩
  have := ((KeyId_iff P _ _).mp hid).1
  simp [header, this, s2]
  decide

/-- an Encrypter with the public part of this key: the theorem applies, and every ciphertext of `data` is as it says -/
example (rnd : Rand) : ∃ c e, Loaded P c ∧ c.keySet.primaries = [e] ∧ RsaHalf e.key exRsa.pub ∧
    ∃ out, c.Encrypt P rnd (bstr "data") none = .ok out := by
  have := Czar.init_gives (cls := .encrypter) (StaticKeyReader_gives (P := P) (k := .rsaPub exRsa.pub)
    ⟨by decide +kernel, by decide⟩ ⟨_, rfl⟩ .ENCRYPT)
  rw [if_pos (by refine ⟨rfl, fun h => ?_, by simp [staticSet, KeySet.primaries]⟩; cases h)] at this
  obtain ⟨c, h1, h2⟩ := this
  have hc : Loaded P c := ⟨_, _, h1⟩
  have hp : c.keySet.primaries = [⟨1, .PRIMARY, .bool false, .rsaPub exRsa.pub⟩] := by rw [h2]; rfl
  have hn : exRsa.pub.key.n ≠ 0 := by decide +kernel
  have hl : (BigIntToBytes exRsa.pub.key.n).length = 64 := exRsa_length
  obtain ⟨id, hid⟩ := hc.keyId (primary_mem hp).1
  obtain ⟨b1, b2⟩ := byteLength_bounds hn
  obtain ⟨l1, l2⟩ := (longToBytes_iff (bigEndian (oaep P.sha1 64 (rnd.bytes 0 20) (bstr "data")) ^ exRsa.pub.key.e % exRsa.pub.key.n) _).mp rfl
  refine ⟨c, _, hc, hp, rfl, _, (C84_rsa_encrypt P c hc _ hp exRsa.pub rfl hn (by rw [hl]; decide) rnd _ _).mpr
    ⟨id, _, 64, hid, ?_, ?_, by decide, l1, l2, rfl⟩⟩
  · rw [hl] at b1; exact b1
  · rw [hl] at b2; exact b2

end Verif.Props
