import Verif.Spec.Dsa
import Verif.Props.Der
import Verif.Props.Signatures
/-
C80: exactly which byte strings are accepted as DSA signatures.  util.py:209-242, keys.py:906-925.
-/
namespace Verif.Props
open Verif Spec

/-! ### the decoder, on sequences of two integers -/

theorem derReadLen_iff (t rest : Bytes) (n : Nat) :
    derReadLen t = .ok (n, rest) ↔ ∃ l, t = l ++ rest ∧ BerLength n l := by
  constructor
  · intro h
    unfold derReadLen at h
    cases t with
    | nil => cases h
    | cons c t =>
      dsimp only at h
      split at h
      · next hc =>
        cases h
        exact ⟨[c], rfl, .inl ⟨c, rfl, rfl, hc⟩⟩
      · next hc =>
        split at h
        · cases h
        · next hk =>
          split at h
          · cases h
          · next hl =>
            simp only [Except.ok.injEq, Prod.mk.injEq] at h
            obtain ⟨rfl, rfl⟩ := h
            refine ⟨c :: t.take (c.toNat - 128), by simp, .inr ⟨c, _, rfl, ?_, ?_, ?_⟩⟩
            · rw [List.length_take]; omega
            · intro h0
              have := congrArg List.length h0
              rw [List.length_take, List.length_nil] at this
              omega
            · rw [← C08_value]
  · rintro ⟨l, rfl, ⟨c, rfl, hc, hn⟩ | ⟨c, b, rfl, hc, hb, hv⟩⟩
    · simp [derReadLen, hc, hn]
    · have hpos : 0 < b.length := List.length_pos_iff.mpr hb
      simp only [List.cons_append, derReadLen, hc]
      rw [if_neg (by omega), if_neg (by omega), if_neg (by simp),
        show 128 + b.length - 128 = b.length by omega, List.take_left, List.drop_left, C08_value, hv]

theorem derIntValue_eq (c : Bytes) : derIntValue c = twosComplement c := by
  cases c with
  | nil => rfl
  | cons a t =>
    unfold derIntValue twosComplement
    dsimp only
    by_cases h : a.toNat < 128
    · rw [if_neg (by omega), if_pos h, BytesToLong_eq]
    · rw [if_pos (by omega), if_neg h, BytesToLong_eq]
      have h5 := beNat_compl (a :: t)
      have h7 : ((256 : Int) ^ (a :: t).length) = ((256 ^ (a :: t).length : Nat) : Int) := (Int.natCast_pow 256 _).symm
      rw [h7, ← h5]
      push_cast
      omega

/-- one tag, length and content -/
theorem derDecode_ok {f : Nat} {b rest : Bytes} {v : Asn1} (h : derDecode (f + 1) b = .ok (v, rest)) :
    ∃ tag l content, b = tag :: (l ++ (content ++ rest)) ∧ BerLength content.length l ∧
      ((tag = 0x02 ∧ content ≠ [] ∧ v = .integer (twosComplement content)) ∨
        (tag = 0x30 ∧ ∃ vs, derDecodeList f content = .ok vs ∧ v = .seq vs) ∨
        (∀ n, v ≠ .integer n) ∧ ∀ vs, v ≠ .seq vs) := by
  unfold derDecode at h
  cases b with
  | nil => cases h
  | cons tag t =>
    obtain ⟨⟨len, r1⟩, h1, h2⟩ := bind_ok h
    clear h
    obtain ⟨l, rfl, hl⟩ := (derReadLen_iff _ _ _).mp h1
    clear h1
    have h := h2
    clear h2
    dsimp only at h
    split at h
    · cases h
    · next hlen =>
      have e1 : (r1.take len).length = len := by rw [List.length_take]; omega
      have key : ∀ {r2 : Bytes}, r1.drop len = r2 → tag :: (l ++ r1) = tag :: (l ++ (r1.take len ++ r2)) := by
        intro r2 e; rw [← e, List.take_append_drop]
      split at h
      · next ht =>
        split at h
        · cases h
        · next hne =>
          simp only [Except.ok.injEq, Prod.mk.injEq] at h
          obtain ⟨rfl, e⟩ := h
          exact ⟨tag, l, r1.take len, key e, by rw [e1]; exact hl, .inl ⟨ht, hne, by rw [derIntValue_eq]⟩⟩
      · split at h
        · simp only [Except.ok.injEq, Prod.mk.injEq] at h
          obtain ⟨rfl, e⟩ := h
          exact ⟨tag, l, r1.take len, key e, by rw [e1]; exact hl, .inr (.inr ⟨by simp, by simp⟩)⟩
        · split at h
          · split at h
            · simp only [Except.ok.injEq, Prod.mk.injEq] at h
              obtain ⟨rfl, e⟩ := h
              exact ⟨tag, l, r1.take len, key e, by rw [e1]; exact hl, .inr (.inr ⟨by simp, by simp⟩)⟩
            · cases h
          · split at h
            · simp only [Except.ok.injEq, Prod.mk.injEq] at h
              obtain ⟨rfl, e⟩ := h
              exact ⟨tag, l, r1.take len, key e, by rw [e1]; exact hl, .inr (.inr ⟨by simp, by simp⟩)⟩
            · split at h
              · simp only [Except.ok.injEq, Prod.mk.injEq] at h
                obtain ⟨rfl, e⟩ := h
                exact ⟨tag, l, r1.take len, key e, by rw [e1]; exact hl, .inr (.inr ⟨by simp, by simp⟩)⟩
              · split at h
                · next ht =>
                  obtain ⟨vs, hvs, h⟩ := bind_ok h
                  simp only [pure, Except.pure, Except.ok.injEq, Prod.mk.injEq] at h
                  obtain ⟨rfl, e⟩ := h
                  exact ⟨tag, l, r1.take len, key e, by rw [e1]; exact hl, .inr (.inl ⟨ht, vs, hvs, rfl⟩)⟩
                · cases h

theorem derDecode_integer {f : Nat} {b rest : Bytes} {n : Int} (h : derDecode f b = .ok (.integer n, rest)) :
    ∃ x, b = x ++ rest ∧ BerInteger n x := by
  cases f with
  | zero => cases h
  | succ f =>
    obtain ⟨tag, l, c, rfl, hl, ⟨rfl, hc, hv⟩ | ⟨-, vs, -, hv⟩ | ⟨hv, -⟩⟩ := derDecode_ok h
    · cases hv
      exact ⟨0x02 :: (l ++ c), by simp, l, c, rfl, hl, hc, rfl⟩
    · cases hv
    · exact absurd rfl (hv n)

theorem integer_derDecode {x : Bytes} {n : Int} (h : BerInteger n x) (f : Nat) (rest : Bytes) :
    derDecode (f + 1) (x ++ rest) = .ok (.integer n, rest) ∧ x ≠ [] := by
  obtain ⟨l, c, rfl, hl, hc, rfl⟩ := h
  have e1 := (derReadLen_iff (l ++ (c ++ rest)) (c ++ rest) c.length).mpr ⟨l, rfl, hl⟩
  refine ⟨?_, by simp⟩
  simp only [List.cons_append, List.append_assoc, derDecode, e1, bind, Except.bind]
  rw [if_neg (by simp), List.take_left, List.drop_left, if_pos trivial, if_neg hc, derIntValue_eq]

/-- C80: `ParseDsaSig` returns the pair (r, s) for exactly the strings that begin with a definite-length BER encoding of a
SEQUENCE of the two INTEGERs: lengths and integers need not be in their shortest form, and whatever follows is ignored. -/
theorem C80_parses (sig : Bytes) (r s : Int) :
    ParseDsaSig sig = .ok (r, s) ↔ ∃ b trailing, sig = b ++ trailing ∧ BerPair r s b := by
  constructor
  · intro h
    unfold ParseDsaSig derDecode0 at h
    obtain ⟨v, h1, h⟩ := bind_ok h
    obtain ⟨⟨v', rest⟩, h1, h2⟩ := bind_ok h1
    cases h2
    cases v with
    | seq vs =>
      dsimp only at h
      split at h
      · cases h
      · split at h
        · next hlen r' s' =>
          cases h
          rw [derFuel, show 2 * sig.length + 2 = (2 * sig.length + 1) + 1 from rfl] at h1
          obtain ⟨tag, l, c, rfl, hl, ⟨-, -, hv⟩ | ⟨rfl, ws, hws, hv⟩ | ⟨-, hv⟩⟩ := derDecode_ok h1
          · cases hv
          · cases hv
            refine ⟨0x30 :: (l ++ c), rest, by simp, ?_⟩
            generalize 2 * (48 :: (l ++ (c ++ rest))).length + 1 = f at hws
            cases f with
            | zero => simp [derDecodeList] at hws
            | succ f =>
              unfold derDecodeList at hws
              split at hws
              · cases hws
              · obtain ⟨⟨v1, c1⟩, g1, hws⟩ := bind_ok hws
                obtain ⟨l1, g2, hws⟩ := bind_ok hws
                cases hws
                obtain ⟨x, rfl, hx⟩ := derDecode_integer g1
                cases f with
                | zero => simp [derDecodeList] at g2
                | succ f =>
                  unfold derDecodeList at g2
                  split at g2
                  · cases g2
                  · obtain ⟨⟨v2, c2⟩, g3, g2⟩ := bind_ok g2
                    obtain ⟨l2, g4, g2⟩ := bind_ok g2
                    cases g2
                    obtain ⟨y, rfl, hy⟩ := derDecode_integer g3
                    cases f with
                    | zero => simp [derDecodeList] at g4
                    | succ f =>
                      unfold derDecodeList at g4
                      split at g4
                      · next hnil =>
                        subst hnil
                        rw [List.append_nil] at hl ⊢
                        exact ⟨l, x, y, rfl, hl, hx, hy⟩
                      · obtain ⟨_, _, g4⟩ := bind_ok g4
                        obtain ⟨_, _, g4⟩ := bind_ok g4
                        cases g4
          · exact absurd rfl (hv _)
        · cases h
    | _ => cases h
  · rintro ⟨b, trailing, rfl, l, x, y, rfl, hl, hx, hy⟩
    have e1 := (derReadLen_iff (l ++ ((x ++ y) ++ trailing)) ((x ++ y) ++ trailing) (x ++ y).length).mpr ⟨l, rfl, hl⟩
    obtain ⟨f, hf⟩ : ∃ f, derFuel (0x30 :: (l ++ (x ++ y)) ++ trailing) = f + 4 :=
      ⟨2 * (l ++ (x ++ y) ++ trailing).length, by simp [derFuel]; omega⟩
    have d1 := integer_derDecode hx (f + 1) y
    have d2 := integer_derDecode hy f []
    rw [List.append_nil] at d2
    have e2 : derDecodeList (f + 3) (x ++ y) = .ok [.integer r, .integer s] := by
      rw [derDecodeList, if_neg (by simp [d1.2])]
      simp only [d1.1, bind, Except.bind]
      rw [derDecodeList, if_neg d2.2]
      simp only [d2.1, bind, Except.bind]
      rw [derDecodeList, if_pos rfl]
      rfl
    have e3 : derDecode (f + 4) (0x30 :: (l ++ (x ++ y)) ++ trailing) = .ok (.seq [.integer r, .integer s], trailing) := by
      rw [List.cons_append, List.append_assoc]
      simp only [derDecode, e1, bind, Except.bind]
      rw [if_neg (by simp), List.take_left, List.drop_left]
      simp [e2, pure, Except.pure]
    unfold ParseDsaSig derDecode0
    rw [hf, e3]
    rfl

/-- C80: `MakeDsaSig` makes the DER encoding of the sequence of the two numbers, of which there is only one. -/
theorem C80_makes (r s : Int) (sig : Bytes) : MakeDsaSig r s = .ok sig ↔ IsDer (.seq [.integer r, .integer s]) sig :=
  derEncode_iff _ _

/-! ### which pairs are accepted -/

theorem dsa_verify_iff (k : DsaPubObj) (hq : k.q.Prime) (hp : k.p ≠ 0) (digest : Bytes) (r s : Int) :
    k.verify digest r s = .ok true ↔ DsaAccepts k (bigEndian digest) r s := by
  unfold DsaPubObj.verify DsaAccepts
  by_cases hr : ¬ (0 < r ∧ r < k.q) ∨ ¬ (0 < s ∧ s < k.q)
  · rw [if_pos hr]
    refine iff_of_false (by simp) ?_
    rintro ⟨a, b, c, d, -⟩
    rcases hr with h | h
    · exact h ⟨a, b⟩
    · exact h ⟨c, d⟩
  · rw [if_neg hr, if_neg hp]
    simp only [not_or, not_not] at hr
    obtain ⟨⟨h1, h2⟩, h3, h4⟩ := hr
    have hcs : Nat.Coprime s.toNat k.q := by
      rw [Nat.coprime_comm]
      exact (Nat.Prime.coprime_iff_not_dvd hq).mpr (fun h => by have := Nat.le_of_dvd (by omega) h; omega)
    have hw := inverse_spec (u := s.toNat) hq.pos hcs
    have h1q : 1 % k.q = 1 := Nat.mod_eq_of_lt hq.one_lt
    simp only [powMod_eq, C08_value, Except.ok.injEq, decide_eq_true_eq, ← Nat.mul_mod]
    have hz : ((k.g ^ (bigEndian digest * inverse s.toNat k.q % k.q) * k.y ^ (r.toNat * inverse s.toNat k.q % k.q) % k.p % k.q
        : Nat) : Int) = r ↔ k.g ^ (bigEndian digest * inverse s.toNat k.q % k.q) *
          k.y ^ (r.toNat * inverse s.toNat k.q % k.q) % k.p % k.q = r.toNat := by omega
    constructor
    · intro h
      refine ⟨h1, h2, h3, h4, inverse s.toNat k.q, ?_, hz.mp h⟩
      have : inverse s.toNat k.q * s.toNat % k.q = 1 % k.q := hw
      rw [this, h1q]
    · rintro ⟨-, -, -, -, w, hw', h⟩
      have hw2 : w * s.toNat ≡ 1 [MOD k.q] := by
        unfold Nat.ModEq; rw [hw', h1q]
      have e : w ≡ inverse s.toNat k.q [MOD k.q] := by
        have a1 := hw.mul_left w
        have a2 := hw2.mul_left (inverse s.toNat k.q)
        rw [mul_one] at a1 a2
        have a3 : w * (inverse s.toNat k.q * s.toNat) = inverse s.toNat k.q * (w * s.toNat) := by ring
        rw [a3] at a1
        exact a1.symm.trans a2
      have e1 : bigEndian digest * w % k.q = bigEndian digest * inverse s.toNat k.q % k.q := e.mul_left _
      have e2 : r.toNat * w % k.q = r.toNat * inverse s.toNat k.q % k.q := e.mul_left _
      rw [e1, e2] at h
      exact hz.mpr h

variable (P : Prims)

/-- C80: a DSA key accepts exactly the strings that begin with a BER encoding of a pair that FIPS 186-2 accepts for the
SHA-1 digest of the message. -/
theorem C80_key_accepts (k : DsaPublicKey) (hq : k.key.q.Prime) (hp : k.key.p ≠ 0) (msg sig : Bytes) :
    k.Verify P msg sig = .ok true ↔
      ∃ b trailing r s, sig = b ++ trailing ∧ BerPair r s b ∧ DsaAccepts k.key (bigEndian (P.sha1 msg)) r s := by
  have hh : Hash P [msg] = P.sha1 msg := by simp [Hash]
  unfold DsaPublicKey.Verify
  rw [hh]
  constructor
  · intro h
    cases hps : ParseDsaSig sig with
    | error e =>
      simp only [hps, bind, Except.bind] at h
      split at h <;> cases h
    | ok rs =>
      obtain ⟨r, s⟩ := rs
      simp only [hps, bind, Except.bind] at h
      obtain ⟨b, t, e, hb⟩ := (C80_parses _ _ _).mp hps
      refine ⟨b, t, r, s, e, hb, (dsa_verify_iff _ hq hp _ _ _).mp ?_⟩
      cases hv : k.key.verify (P.sha1 msg) r s with
      | error e =>
        rw [hv] at h
        dsimp only at h
        split at h <;> cases h
      | ok x => rw [hv] at h; exact h
  · rintro ⟨b, t, r, s, rfl, hb, ha⟩
    have hps := (C80_parses (b ++ t) r s).mpr ⟨b, t, rfl, hb⟩
    simp only [hps, bind, Except.bind, (dsa_verify_iff _ hq hp _ _ _).mpr ha]

/-- the public half of a DSA entry -/
def DsaHalf (e : Entry) (k : DsaPublicKey) : Prop := e.key = .dsaPub k ∨ ∃ pk : DsaPrivateKey, e.key = .dsaPriv pk ∧ pk.pub = k

theorem DsaHalf.verify {e : Entry} {k : DsaPublicKey} (h : DsaHalf e k) (msg sig : Bytes) :
    e.key.Verify P msg sig = k.Verify P msg sig := by
  rcases h with h | ⟨pk, h, rfl⟩ <;> rw [h] <;> rfl

/-- C80: a loaded DSA set accepts exactly these strings: the header of one of its keys, a BER encoding of a pair that
FIPS 186-2 accepts for the SHA-1 digest of the message and one zero byte, and anything after it. -/
theorem C80_accepts (c : Czar) (hc : Loaded P c) (hd : c.keySet.Distinct P)
    (hall : ∀ e ∈ c.keySet.entries, ∃ k, DsaHalf e k ∧ k.key.q.Prime ∧ k.key.p ≠ 0) (m input data : Bytes)
    (dec : Option (Bytes → Py Bytes)) (hdec : Decodes dec input data) :
    c.Verify P m input dec = .ok true ↔
      ∃ e ∈ c.keySet.entries, ∃ k id b trailing r s, DsaHalf e k ∧ KeyId P.sha1 e.key id ∧
        data = header id ++ (b ++ trailing) ∧ BerPair r s b ∧ DsaAccepts k.key (bigEndian (P.sha1 (m ++ [0]))) r s := by
  constructor
  · intro h
    rcases Verify_cases P hc hdec m with ⟨x, -, hx⟩ | ⟨e, he, id, rest, hid, hdata, -, hv⟩
    · rw [hx] at h; cases h
    · obtain ⟨k, hk, hq, hp⟩ := hall e he
      rw [hv, hk.verify P] at h
      obtain ⟨b, t, r, s, rfl, hb, ha⟩ := (C80_key_accepts P k hq hp _ _).mp h
      exact ⟨e, he, k, id, b, t, r, s, hk, hid, hdata, hb, ha⟩
  · rintro ⟨e, he, k, id, b, t, r, s, hk, hid, rfl, hb, ha⟩
    obtain ⟨k', hk', hq, hp⟩ := hall e he
    have : k' = k := by
      rcases hk with h | ⟨pk, h, rfl⟩ <;> rcases hk' with h' | ⟨pk', h', rfl⟩ <;> rw [h] at h' <;> cases h' <;> rfl
    subst this
    rw [Verify_dispatch P hc hd he hid hdec, hk.verify P]
    exact (C80_key_accepts P k' hq hp _ _).mpr ⟨b, t, r, s, rfl, hb, ha⟩

/-! ### malleability -/

/-- the length in the long form with `j` leading zero octets exists for lengths below 256 -/
theorem BerLength_long (n j : Nat) (hn : n < 256) (hj : j < 120) :
    BerLength n (UInt8.ofNat (129 + j) :: (List.replicate j 0 ++ [UInt8.ofNat n])) := by
  refine .inr ⟨_, _, rfl, ?_, by simp, ?_⟩
  · rw [UInt8.toNat_ofNat']; simp; omega
  · rw [← C08_value, BytesToLong_eq, beNat_replicate_zero, beNat_cons]
    simp [beNat_nil, UInt8.toNat_ofNat']
    omega

/-- C80: DSA signatures are malleable.  From any accepted signature, anyone can make others that are accepted for the
same message: anything can be appended; -/
theorem C80_append (c : Czar) (hc : Loaded P c) (hd : c.keySet.Distinct P)
    (hall : ∀ e ∈ c.keySet.entries, ∃ k, DsaHalf e k ∧ k.key.q.Prime ∧ k.key.p ≠ 0) (m sig more : Bytes)
    (h : c.Verify P m sig none = .ok true) : c.Verify P m (sig ++ more) none = .ok true := by
  obtain ⟨e, he, k, id, b, t, r, s, hk, hid, rfl, hb, ha⟩ := (C80_accepts P c hc hd hall m sig sig none rfl).mp h
  exact (C80_accepts P c hc hd hall m _ _ none rfl).mpr
    ⟨e, he, k, id, b, t ++ more, r, s, hk, hid, by simp, hb, ha⟩

/-- C80: and a string that is a well-formed sequence, with nothing after it, can be replaced by a different one (the
outer length written with more octets than needed) when the numbers take fewer than 256 octets, as they do for 160-bit q. -/
theorem C80_other_encoding (r s : Int) (x y : Bytes) (hx : BerInteger r x) (hy : BerInteger s y)
    (hl : (x ++ y).length < 256) (j : Nat) (hj : j < 120) :
    BerPair r s (0x30 :: ((UInt8.ofNat (129 + j) :: (List.replicate j 0 ++ [UInt8.ofNat (x ++ y).length])) ++ (x ++ y))) :=
  ⟨_, x, y, rfl, BerLength_long _ j hl hj, hx, hy⟩

/-- three encodings of (1, 2): DER, a long length, a longer integer -/
example : BerPair 1 2 [0x30, 6, 2, 1, 1, 2, 1, 2] ∧ BerPair 1 2 [0x30, 0x81, 6, 2, 1, 1, 2, 1, 2] ∧
    BerPair 1 2 [0x30, 7, 2, 2, 0, 1, 2, 1, 2] := by
  have hi : ∀ (n : Int) (c : Bytes), c.length < 128 → c ≠ [] → twosComplement c = n →
      BerInteger n (0x02 :: ([UInt8.ofNat c.length] ++ c)) := fun n c h1 h2 h3 =>
    ⟨_, c, rfl, .inl ⟨_, rfl, by rw [UInt8.toNat_ofNat']; omega, h1⟩, h2, h3⟩
  have i1 := hi 1 [1] (by decide) (by decide) (by decide)
  have i2 := hi 2 [2] (by decide) (by decide) (by decide)
  have i3 := hi 1 [0, 1] (by decide) (by decide) (by decide)
  exact ⟨⟨[6], _, _, rfl, .inl ⟨6, rfl, rfl, by decide⟩, i1, i2⟩,
    ⟨[0x81, 6], _, _, rfl, .inr ⟨0x81, [6], rfl, rfl, by decide, by decide⟩, i1, i2⟩,
    ⟨[7], _, _, rfl, .inl ⟨7, rfl, rfl, by decide⟩, i3, i2⟩⟩

end Verif.Props
