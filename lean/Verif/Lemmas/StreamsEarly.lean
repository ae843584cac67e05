import Verif.Lemmas.StreamsDec
import Verif.Spec.Early
/-
Lemmas for C94: reads of a decrypting stream while enough of the input is left.
-/
namespace Verif
open Spec Props

section
variable {σ : Type} {m : Source σ} {good : σ → Prop} {rest : σ → Bytes} {left : σ → Nat} {f : Nat → Nat}

/-- the end of the input is noticed only when fewer than `size` bytes are left -/
theorem readBytes_eof (hm : Serves m good rest left f) {size : Int} (hs : 0 < size) :
    ∀ (fuel : Nat) (s : σ) (result r : Bytes) (s' : σ), good s → left s < fuel → (result.length : Int) < size →
      readBytes m size false fuel s result = (.ok (r, false), s') →
      ((result.length + (rest s).length : Nat) : Int) < size
  | 0, _, _, _, _, _, h, _, _ => absurd h (by omega)
  | fuel + 1, s, result, r, s', hg, hf, hl, he => by
    unfold readBytes at he
    rcases hm.step s size hg (by omega) with ⟨s₁, e, hg', hr, hlt⟩ | ⟨s₁, e, hg', hr0, hr, hle⟩ | ⟨d, s₁, e, hd, hg', hr, hlt, hlen⟩
    · rw [e] at he
      simp at he
    · rw [hr0]; simpa using hl
    · obtain ⟨a, d, rfl⟩ : ∃ a d', d = a :: d' := by
        cases d with
        | nil => exact absurd rfl hd
        | cons a d => exact ⟨a, d, rfl⟩
      rw [e] at he
      simp only at he
      by_cases hmore : ((result ++ a :: d).length : Int) < size
      · rw [if_pos hmore] at he
        have := readBytes_eof hm hs fuel s₁ (result ++ a :: d) r s' hg' (by omega) hmore he
        rw [hr]
        simp only [List.length_append] at *; omega
      · rw [if_neg hmore] at he
        simp at he

/-- while enough is left, the loop finds whole blocks to decrypt -/
theorem fill_more (hm : Serves m good rest left f) (rfuel : Nat) :
    ∀ (fuel : Nat) (r : DecReader σ), good r.src → left r.src < fuel → left r.src < rfuel → r.enc.length < 52 →
      68 ≤ r.enc.length + (rest r.src).length →
      ∃ data s' bytes, DecReader.fill m rfuel fuel r = (.ok (data, true), { r with src := s', enc := r.enc ++ bytes }) ∧
        good s' ∧ left s' ≤ left r.src ∧ rest r.src = bytes ++ rest s' ∧ data ≠ [] ∧
        data = (r.enc ++ bytes).take (16 * (((r.enc ++ bytes).length - 36) / 16))
  | 0, _, _, h, _, _, _ => absurd h (by omega)
  | fuel + 1, r, hg, hf, hf2, he, ht => by
    unfold DecReader.fill
    obtain ⟨bytes, avail, s', p1, p2, p3, p4, p5, -⟩ := readBytes_nonblock hm (size := 16) (by omega) rfuel r.src [] hg hf2
    cases avail with
    | false =>
      have := readBytes_eof hm (size := 16) (by omega) rfuel r.src [] _ s' hg hf2 (by simp) p1
      simp only [List.length_nil] at this
      omega
    | true =>
      rw [p1]
      simp only [List.nil_append]
      by_cases hd : decryptable (r.enc ++ bytes) true = []
      · rw [if_pos ⟨trivial, hd⟩]
        have := p5 rfl
        have hl : (r.enc ++ bytes).length < 52 := by
          rw [decryptable_more, List.take_eq_nil_iff] at hd
          rcases hd with hd | hd
          · omega
          · rw [hd]; simp
        obtain ⟨data, s'', bytes', q1, q2, q3, q4, q5, q6⟩ := fill_more hm rfuel fuel { r with src := s', enc := r.enc ++ bytes } p2
          (by show left s' < fuel; omega) (by show left s' < rfuel; omega) hl (by
            show 68 ≤ (r.enc ++ bytes).length + (rest s').length
            rw [p4] at ht
            simp only [List.length_append] at *; omega)
        have q3' : left s'' ≤ left s' := q3
        have q4' : rest s' = bytes' ++ rest s'' := q4
        simp only [List.append_assoc] at q1 q6
        exact ⟨data, s'', bytes ++ bytes', q1, q2, by omega, by rw [p4, q4', List.append_assoc], q5, q6⟩
      · rw [if_neg (fun h => hd h.2)]
        exact ⟨_, s', bytes, rfl, p2, p3, p4, hd, decryptable_more _⟩
end

variable (P : Prims)

section
variable {σ : Type} {m : Source σ} {good : σ → Prop} {rest : σ → Bytes} {left : σ → Nat} {f : Nat → Nat} {c : Czar} {X : Bytes}

/-- while enough is left, some blocks are decrypted, and nothing is checked -/
theorem body_more (hm : Serves m good rest left f) {fuel : Nat} {r : DecReader σ} {outs : Bytes}
    {k : AesKey} {kb hb hdr iv done : Bytes} (h : Dec2 P good rest c X k kb hb hdr iv done r outs) (hfuel : left r.src < fuel)
    (he : r.enc.length < 52) (ht : 68 ≤ r.enc.length + (rest r.src).length) :
    ∃ r' data, r.body P m fuel ⟨hb, hdr ++ iv ++ done⟩ ⟨kb, chainD iv done⟩ = (.ok true, r') ∧
      Dec2 P good rest c X k kb hb hdr iv (done ++ data) r' outs ∧ r'.dec ≠ [] ∧ data ≠ [] ∧ r'.enc.length < 52 ∧
      left r'.src ≤ left r.src := by
  unfold DecReader.body
  obtain ⟨data, s', bytes, p1, p2, p3, p4, q1, q5⟩ := fill_more hm fuel fuel r h.src hfuel hfuel he ht
  rw [p1]
  simp only
  generalize henc : r.enc ++ bytes = enc at q5
  have hX : X = hdr ++ iv ++ done ++ enc ++ rest s' := by
    rw [h.cont, p4, ← henc]; simp only [List.append_assoc]
  have hchain : (chainD iv done).length = 16 := chainD_length h.iv16 h.full
  have hdl : data.length = 16 * ((enc.length - 36) / 16) := by rw [q5, List.length_take]; omega
  have hd0 : data.length ≠ 0 := fun h0 => q1 (List.length_eq_zero_iff.mp h0)
  have q2 : data.length % 16 = 0 := by omega
  have q4 : data = enc.take data.length := by rw [hdl]; exact q5
  rw [if_neg q1]
  unfold DecReader.process
  simp only [CbcObj.decrypt_cbcD P q2, if_true, sliceFrom_nat]
  have hplain : (cbcD P kb (chainD iv done) data).length = data.length := cbcD_length P h.usable.len hchain q2
  refine ⟨_, data, rfl, ?_, ?_, q1, ?_, p3⟩
  · exact { closed := h.closed, src := p2, parse := h.parse, usable := h.usable, hdr5 := h.hdr5, iv16 := h.iv16, key := h.key,
            hmac := by simp [HmacObj.update], cipher := by simp [chainD_append h.full],
            full := by rw [List.length_append]; have := h.full; omega,
            dec := by show outs ++ (r.dec ++ _) = _; rw [← List.append_assoc, h.dec, cbcD_append P h.full],
            cont := by
              rw [hX]
              have : enc = data ++ enc.drop data.length := by
                conv_lhs => rw [← List.take_append_drop data.length enc, ← q4]
              show _ = hdr ++ iv ++ (done ++ data) ++ enc.drop data.length ++ rest s'
              conv_lhs => rw [this]
              simp only [List.append_assoc],
            more := by
              right
              show 36 ≤ (enc.drop data.length).length + _
              rw [List.length_drop]; omega }
  · show r.dec ++ cbcD P kb (chainD iv done) data ≠ []
    intro h0
    have := (List.append_eq_nil_iff.mp h0).2
    rw [this] at hplain
    exact q1 (List.length_eq_zero_iff.mp hplain.symm)
  · show (enc.drop data.length).length < 52
    rw [List.length_drop]; omega

/-- a read of everything that can be had, from a reader that has handed out all it decrypted -/
theorem take_all {r' : DecReader σ} {outs : Bytes} {k : AesKey} {kb hb hdr iv done : Bytes}
    (h : Dec2 P good rest c X k kb hb hdr iv done r' outs) (hd : r'.dec ≠ []) :
    ∃ r'', r'.take (-1) true = (.ok (some r'.dec), r'') ∧ Dec2 P good rest c X k kb hb hdr iv done r'' (outs ++ r'.dec) ∧
      r''.dec = [] ∧ r''.enc = r'.enc ∧ r''.src = r'.src := by
  unfold DecReader.take
  simp only [show (-1 : Int) < 0 by omega, if_true, hd, false_and, if_false]
  exact ⟨_, rfl, { h with dec := by show (outs ++ r'.dec) ++ [] = _; rw [List.append_nil]; exact h.dec }, rfl, rfl, rfl⟩

/-- one read after the first -/
theorem read_more (hm : Serves m good rest left f) {fuel : Nat} {r : DecReader σ} {outs : Bytes}
    {k : AesKey} {kb hb hdr iv done : Bytes} (h : Dec2 P good rest c X k kb hb hdr iv done r outs) (hfuel : left r.src < fuel)
    (he : r.enc.length < 52) (ht : 68 ≤ r.enc.length + (rest r.src).length) :
    ∃ r' data o, r.read P m c fuel (-1) = (.ok (some o), r') ∧ o ≠ [] ∧
      Dec2 P good rest c X k kb hb hdr iv (done ++ data) r' (outs ++ o) ∧ data ≠ [] ∧ r'.dec = [] ∧ r'.enc.length < 52 ∧
      left r'.src ≤ left r.src := by
  obtain ⟨r', data, h1, h2, h3, h4, h5, h6⟩ := body_more P hm h hfuel he ht
  obtain ⟨r'', t1, t2, t3, t4, t5⟩ := take_all P h2 h3
  refine ⟨r'', data, r'.dec, ?_, h3, t2, h4, t3, by rw [t4]; exact h5, by rw [t5]; exact h6⟩
  unfold DecReader.read DecReader.advance
  rw [if_neg (by rw [h.closed]; simp)]
  simp only [h.key, DecReader.withKey, h.cipher, h.hmac, h1, t1]

/-- after the initialization vector, less than 52 bytes have been read in advance -/
theorem createCipher_enc (hm : Serves m good rest left f) (hf : ∀ n, 1 ≤ n → n ≤ 16 → f n ≤ 52) {fuel : Nat} {r r' : DecReader σ}
    {k : AesKey} (hg : good r.src) (hl : r.enc.length < 16) (hfuel : left r.src < fuel)
    (he : r.createCipher m k fuel = (.ok true, r')) : r'.enc.length < 52 := by
  unfold DecReader.createCipher at he
  have hsz : 16 - (r.enc.length : Int) = ((16 - r.enc.length : Nat) : Int) := by omega
  have hpos : (0 : Int) < ((16 - r.enc.length : Nat) : Int) := by omega
  rw [hsz] at he
  obtain ⟨bytes, avail, s', p1, p2, p3, p4, p5, p6⟩ := readBytes_block hm hpos fuel r.src [] hg hfuel (by simpa using hpos)
  rw [p1] at he
  simp only [List.nil_append] at he p5 p6
  have e16f : sliceFrom (r.enc ++ bytes) 16 = (r.enc ++ bytes).drop 16 := sliceFrom_nat _ 16
  by_cases hge : (r.enc ++ bytes).length ≥ 16
  · rw [if_pos hge] at he
    have hav : avail = true := by
      cases avail with
      | true => rfl
      | false =>
        obtain ⟨-, q2⟩ := p6 rfl
        rw [List.length_append] at hge; omega
    obtain ⟨-, q2⟩ := p5 hav
    rw [Int.toNat_natCast] at q2
    have := hf (16 - r.enc.length) (by omega) (by omega)
    have hlen : ((r.enc ++ bytes).drop 16).length < 52 := by rw [List.length_drop, List.length_append]; omega
    rw [e16f] at he
    split at he
    · simp at he
    · split at he
      · simp at he
      · simp only [Prod.mk.injEq] at he
        rw [← he.2]; exact hlen
  · rw [if_neg hge] at he
    simp only [Prod.mk.injEq] at he
    rw [← he.2]
    show (r.enc ++ bytes).length < 52
    omega

/-- the first read -/
theorem read_first (hm : Serves m good rest left f) (hf5 : ∀ n, 1 ≤ n → n ≤ 5 → f n ≤ 16) (hf : ∀ n, 1 ≤ n → n ≤ 16 → f n ≤ 52)
    {fuel : Nat} {s : σ} (hs : good s) (hfuel : left s < fuel) {k : AesKey} {kb hb hdr iv body : Bytes}
    (hp : c.ParseHeader hdr = .ok (.aes k)) (hu : UsableAes k kb hb) (h5 : hdr.length = 5) (hiv : iv.length = 16)
    (hX : rest s = hdr ++ iv ++ body) (hlong : 68 ≤ body.length) :
    ∃ r' data o, (DecReader.new s).read P m c fuel (-1) = (.ok (some o), r') ∧ o ≠ [] ∧
      Dec2 P good rest c (rest s) k kb hb hdr iv data r' o ∧ data ≠ [] ∧ r'.dec = [] ∧ r'.enc.length < 52 ∧
      left r'.src ≤ left s := by
  have hkey : ¬ NoKey c (rest s) := by
    rintro ⟨-, h⟩
    refine h ⟨k, kb, hb, ?_, hu⟩
    rw [hX, List.append_assoc, ← h5, List.take_left]; exact hp
  have hXl : (rest s).length = 21 + body.length := by rw [hX]; simp only [List.length_append, h5, hiv]
  have h0 : Dec0 good rest (rest s) (DecReader.new s) [] :=
    ⟨rfl, hs, rfl, rfl, rfl, rfl, rfl, by simp [DecReader.new], by simp [DecReader.new]⟩
  rcases createKey_spec P (c := c) hm hf5 h0 hfuel with ⟨_, _, _, _, h2⟩ | ⟨r1, _, h2, h3, _⟩ | ⟨r1, k1, hb1, hdr1, a1, a2, a3⟩
  · exact absurd h2 hkey
  · have := congrArg List.length h2.cont
    rw [h3, List.append_nil] at this
    have := h2.enc; omega
  · have a3 : left r1.src ≤ left s := a3
    rcases createCipher_spec P (c := c) hm a2 (fuel := fuel) (by omega) with ⟨_, _, _, _, h2⟩ | ⟨r2, _, h2, h3, _⟩ | ⟨r2, kb1, iv1, b1, b2, b3⟩
    · exact absurd h2 hkey
    · have := congrArg List.length h2.cont
      rw [h3, List.append_nil, List.length_append, h2.hdr5] at this
      have := h2.enc; omega
    · have henc := createCipher_enc hm hf a2.src a2.enc (by omega) b1
      have hcont := b2.cont
      rw [hX, List.append_nil, List.append_assoc, List.append_assoc, List.append_assoc] at hcont
      obtain ⟨rfl, hrest⟩ := List.append_inj hcont (by rw [h5, b2.hdr5])
      obtain ⟨rfl, hbody⟩ := List.append_inj hrest (by rw [hiv, b2.iv16])
      have hkk : k1 = k := by have := b2.parse; rw [hp] at this; cases this; rfl
      subst hkk
      have hkb : kb1 = kb := by have := b2.usable.aes; rw [hu.aes] at this; cases this; rfl
      have hhb : hb1 = hb := by have := b2.usable.mac; rw [hu.mac] at this; cases this; rfl
      subst hkb hhb
      have hdec : r2.dec = [] := by
        have := b2.dec
        simpa [cbcD, blocks16_nil, cbcDecBlocks] using this
      obtain ⟨r', data, d1, d2, d3, d4, d5, d6⟩ := body_more P hm b2 (fuel := fuel) (by omega) henc (by
        have := congrArg List.length hbody
        rw [List.length_append] at this; omega)
      rw [List.nil_append] at d2
      obtain ⟨r'', t1, t2, t3, t4, t5⟩ := take_all P d2 d3
      rw [List.nil_append] at t2
      refine ⟨r'', data, r'.dec, ?_, d3, t2, d4, t3, by rw [t4]; exact d5, by rw [t5]; omega⟩
      unfold DecReader.read DecReader.advance
      rw [if_neg (by simp [DecReader.new])]
      simp only [show (DecReader.new s).key = none from rfl, a1]
      unfold DecReader.withKey
      simp only [a2.key, a2.cipher, b1, b2.cipher, b2.hmac, d1, t1]
end
end Verif
