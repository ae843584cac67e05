import Verif.Lemmas.StreamsEnc
namespace Verif
open Spec Props

section
variable {σ : Type} {m : Source σ} {good : σ → Prop} {rest : σ → Bytes} {left : σ → Nat} {f : Nat → Nat}

theorem readBytes_block (hm : Serves m good rest left f) {size : Int} (hs : 0 < size) :
    ∀ (fuel : Nat) (s : σ) (result : Bytes), good s → left s < fuel → (result.length : Int) < size →
      ∃ bytes avail s', readBytes m size true fuel s result = (.ok (result ++ bytes, avail), s') ∧ good s' ∧
        left s' ≤ left s ∧ rest s = bytes ++ rest s' ∧
        (avail = true → size ≤ ((result ++ bytes).length : Int) ∧ (result ++ bytes).length ≤ size.toNat - 1 + f size.toNat) ∧
        (avail = false → rest s' = [] ∧ ((result ++ bytes).length : Int) < size)
  | 0, _, _, _, h, _ => absurd h (by omega)
  | fuel + 1, s, result, hg, hf, hl => by
    unfold readBytes
    rcases hm.step s size hg (by omega) with ⟨s', e, hg', hr, hlt⟩ | ⟨s', e, hg', hr0, hr, hle⟩ | ⟨d, s', e, hd, hg', hr, hlt, hlen⟩
    · rw [e]
      simp only [Bool.not_true, Bool.false_eq_true, if_false]
      rw [if_pos hl]
      obtain ⟨bytes, avail, s'', p1, p2, p3, p4, p5, p6⟩ := readBytes_block hm hs fuel s' result hg' (by omega) hl
      exact ⟨bytes, avail, s'', p1, p2, by omega, by rw [← hr]; exact p4, p5, p6⟩
    · rw [e]
      exact ⟨[], false, s', by simp, hg', hle, by rw [hr0, hr]; rfl, fun h => by simp at h,
        fun _ => ⟨hr, by simpa using hl⟩⟩
    · obtain ⟨a, d, rfl⟩ : ∃ a d', d = a :: d' := by
        cases d with
        | nil => exact absurd rfl hd
        | cons a d => exact ⟨a, d, rfl⟩
      rw [e]
      simp only
      by_cases hmore : ((result ++ a :: d).length : Int) < size
      · rw [if_pos hmore]
        obtain ⟨bytes, avail, s'', p1, p2, p3, p4, p5, p6⟩ := readBytes_block hm hs fuel s' (result ++ a :: d) hg' (by omega) hmore
        refine ⟨(a :: d) ++ bytes, avail, s'', ?_, p2, by omega, by rw [hr, p4, List.append_assoc], ?_, ?_⟩
        · rw [p1, List.append_assoc]
        · rw [← List.append_assoc]; exact p5
        · rw [← List.append_assoc]; exact p6
      · rw [if_neg hmore]
        refine ⟨a :: d, true, s', rfl, hg', by omega, hr, fun _ => ⟨by omega, ?_⟩, fun h => by simp at h⟩
        have := hlen hs
        rw [List.length_append]; omega

theorem readBytes_nonblock (hm : Serves m good rest left f) {size : Int} (hs : 0 < size) :
    ∀ (fuel : Nat) (s : σ) (result : Bytes), good s → left s < fuel →
      ∃ bytes avail s', readBytes m size false fuel s result = (.ok (result ++ bytes, avail), s') ∧ good s' ∧
        left s' ≤ left s ∧ rest s = bytes ++ rest s' ∧ (avail = true → left s' < left s) ∧
        (avail = false → rest s' = [])
  | 0, _, _, _, h => absurd h (by omega)
  | fuel + 1, s, result, hg, hf => by
    unfold readBytes
    rcases hm.step s size hg (by omega) with ⟨s', e, hg', hr, hlt⟩ | ⟨s', e, hg', hr0, hr, hle⟩ | ⟨d, s', e, hd, hg', hr, hlt, hlen⟩
    · rw [e]
      exact ⟨[], true, s', by simp, hg', by omega, by rw [hr]; rfl, fun _ => hlt, fun h => by simp at h⟩
    · rw [e]
      exact ⟨[], false, s', by simp, hg', hle, by rw [hr0, hr]; rfl, fun h => by simp at h, fun _ => hr⟩
    · obtain ⟨a, d, rfl⟩ : ∃ a d', d = a :: d' := by
        cases d with
        | nil => exact absurd rfl hd
        | cons a d => exact ⟨a, d, rfl⟩
      rw [e]
      simp only
      by_cases hmore : ((result ++ a :: d).length : Int) < size
      · rw [if_pos hmore]
        obtain ⟨bytes, avail, s'', p1, p2, p3, p4, p5, p6⟩ := readBytes_nonblock hm hs fuel s' (result ++ a :: d) hg' (by omega)
        refine ⟨(a :: d) ++ bytes, avail, s'', ?_, p2, by omega, by rw [hr, p4, List.append_assoc], fun h => ?_, p6⟩
        · rw [p1, List.append_assoc]
        · omega
      · rw [if_neg hmore]
        exact ⟨a :: d, true, s', rfl, hg', by omega, hr, fun _ => hlt, fun h => by simp at h⟩

theorem decryptable_eof (enc : Bytes) : decryptable enc false = enc.take (enc.length - 20) := by
  have : sliceTo enc (-(20 : Int)) = enc.take (enc.length - 20) := sliceTo_neg enc 20 (by omega)
  simp [decryptable, HLEN, this]

theorem decryptable_more (enc : Bytes) : decryptable enc true = enc.take (16 * ((enc.length - 36) / 16)) := by
  have : sliceTo enc (-(36 : Int)) = enc.take (enc.length - 36) := sliceTo_neg enc 36 (by omega)
  have hl : (enc.take (enc.length - 36)).length = enc.length - 36 := by rw [List.length_take]; omega
  simp only [decryptable, HLEN, if_true]
  have e : -(((20 + 16 : Nat)) : Int) = -(36 : Int) := by omega
  rw [e, this, hl]
  by_cases h : (enc.length - 36) % 16 ≠ 0
  · rw [if_pos h, sliceTo_neg _ _ (by omega), hl, List.take_take]
    congr 1; omega
  · rw [if_neg h]
    congr 1; omega

theorem fill_spec (hm : Serves m good rest left f) (rfuel : Nat) :
    ∀ (fuel : Nat) (r : DecReader σ), good r.src → left r.src < fuel → left r.src < rfuel →
      ∃ data avail s' bytes, DecReader.fill m rfuel fuel r = (.ok (data, avail), { r with src := s', enc := r.enc ++ bytes }) ∧
        good s' ∧ left s' ≤ left r.src ∧ rest r.src = bytes ++ rest s' ∧
        (avail = true → data ≠ [] ∧ data.length % 16 = 0 ∧ data.length + 36 ≤ (r.enc ++ bytes).length ∧
          data = (r.enc ++ bytes).take data.length) ∧
        (avail = false → rest s' = [] ∧ data = (r.enc ++ bytes).take ((r.enc ++ bytes).length - 20))
  | 0, _, _, h, _ => absurd h (by omega)
  | fuel + 1, r, hg, hf, hf2 => by
    unfold DecReader.fill
    obtain ⟨bytes, avail, s', p1, p2, p3, p4, p5, p6⟩ := readBytes_nonblock hm (size := 16) (by omega) rfuel r.src [] hg hf2
    rw [p1]
    simp only [List.nil_append]
    cases avail with
    | false =>
      rw [if_neg (by simp)]
      exact ⟨_, _, s', bytes, rfl, p2, p3, p4, fun h => by simp at h, fun _ => ⟨p6 rfl, decryptable_eof _⟩⟩
    | true =>
      by_cases hd : decryptable (r.enc ++ bytes) true = []
      · rw [if_pos ⟨rfl, hd⟩]
        have := p5 rfl
        obtain ⟨data, avail, s'', bytes', q1, q2, q3, q4, q5, q6⟩ := fill_spec hm rfuel fuel { r with src := s', enc := r.enc ++ bytes } p2
          (by show left s' < fuel; omega) (by show left s' < rfuel; omega)
        have q3' : left s'' ≤ left s' := q3
        have q4' : rest s' = bytes' ++ rest s'' := q4
        simp only [List.append_assoc] at q1 q5 q6
        exact ⟨data, avail, s'', bytes ++ bytes', q1, q2, by omega, by rw [p4, q4', List.append_assoc], q5, q6⟩
      · rw [if_neg (fun h => hd h.2)]
        refine ⟨_, _, s', bytes, rfl, p2, p3, p4, fun _ => ⟨hd, ?_⟩, fun h => by simp at h⟩
        rw [decryptable_more] at hd ⊢
        generalize r.enc ++ bytes = enc at hd ⊢
        have hlen : (enc.take (16 * ((enc.length - 36) / 16))).length = 16 * ((enc.length - 36) / 16) := by
          rw [List.length_take]; omega
        have : 16 * ((enc.length - 36) / 16) ≠ 0 := by
          intro h0; rw [h0] at hd; exact hd rfl
        rw [hlen]
        exact ⟨by omega, by omega, rfl⟩
end

variable (P : Prims)

/-- why a read of a decrypting stream over the input `X` may raise `e` -/
inductive StreamError (c : Czar) (X : Bytes) : PyErr → Prop
  /-- the header is wrong -/
  | header (e : PyErr) : 5 ≤ X.length → c.ParseHeader (X.take 5) = .error e → StreamError c X e
  /-- the key is not an AES key, or the stored key cannot be used -/
  | key (e : PyErr) (key : Key) : 5 ≤ X.length → c.ParseHeader (X.take 5) = .ok key →
      (¬ ∃ k kb hb, key = .aes k ∧ UsableAes k kb hb) → StreamError c X e
  /-- the ciphertext is not a sequence of blocks -/
  | blocks (k : AesKey) (kb hb hdr iv body tag : Bytes) : c.ParseHeader hdr = .ok (.aes k) → UsableAes k kb hb →
      X = hdr ++ iv ++ body ++ tag → hdr.length = 5 → iv.length = 16 → tag.length = 20 → body.length % 16 ≠ 0 →
      StreamError c X .valueError
  /-- the tag is wrong -/
  | tag (k : AesKey) (kb hb hdr iv body tag : Bytes) : c.ParseHeader hdr = .ok (.aes k) → UsableAes k kb hb →
      X = hdr ++ iv ++ body ++ tag → hdr.length = 5 → iv.length = 16 → tag.length = 20 → body ≠ [] →
      tag ≠ hmacSha1 P hb (hdr ++ iv ++ body) → StreamError c X .invalidSignature

section
variable {σ : Type} (good : σ → Prop) (rest : σ → Bytes) (c : Czar) (X : Bytes)

/-- header not complete -/
structure Dec0 (r : DecReader σ) (outs : Bytes) : Prop where
  closed : r.closed = false
  src : good r.src
  key : r.key = none
  hmac : r.hmac = none
  cipher : r.cipher = none
  dec : r.dec = []
  outs : outs = []
  enc : r.enc.length < 5
  cont : X = r.enc ++ rest r.src

/-- header read, IV not complete -/
structure Dec1 (k : AesKey) (hb hdr : Bytes) (r : DecReader σ) (outs : Bytes) : Prop where
  closed : r.closed = false
  src : good r.src
  parse : c.ParseHeader hdr = .ok (.aes k)
  mac : k.hmacKey.keyBytes = .ok hb
  hdr5 : hdr.length = 5
  key : r.key = some (.aes k)
  hmac : r.hmac = some ⟨hb, hdr⟩
  cipher : r.cipher = none
  dec : r.dec = []
  outs : outs = []
  enc : r.enc.length < 16
  cont : X = hdr ++ r.enc ++ rest r.src

/-- header and IV read, the blocks `done` decrypted -/
structure Dec2 (k : AesKey) (kb hb hdr iv done : Bytes) (r : DecReader σ) (outs : Bytes) : Prop where
  closed : r.closed = false
  src : good r.src
  parse : c.ParseHeader hdr = .ok (.aes k)
  usable : UsableAes k kb hb
  hdr5 : hdr.length = 5
  iv16 : iv.length = 16
  key : r.key = some (.aes k)
  hmac : r.hmac = some ⟨hb, hdr ++ iv ++ done⟩
  cipher : r.cipher = some ⟨kb, chainD iv done⟩
  full : done.length % 16 = 0
  dec : outs ++ r.dec = cbcD P kb iv done
  cont : X = hdr ++ iv ++ done ++ r.enc ++ rest r.src
  more : done = [] ∨ 36 ≤ r.enc.length + (rest r.src).length

/-- the end was reached and the tag was right; `done` and `last` are the two parts of the ciphertext
(the padding is removed from the second), `u` is the last piece of plaintext -/
structure Dec3 (k : AesKey) (kb hb hdr iv done last tag u : Bytes) (r : DecReader σ) (outs : Bytes) : Prop where
  closed : r.closed = false
  src : good r.src
  parse : c.ParseHeader hdr = .ok (.aes k)
  usable : UsableAes k kb hb
  hdr5 : hdr.length = 5
  iv16 : iv.length = 16
  tag20 : tag.length = 20
  key : r.key = some (.aes k)
  hmac : ∃ h, r.hmac = some h
  cipher : ∃ ci, r.cipher = some ci
  enc : r.enc = []
  rest : rest r.src = []
  full : done.length % 16 = 0
  full2 : last.length % 16 = 0
  last16 : 16 ≤ last.length
  cont : X = hdr ++ iv ++ (done ++ last) ++ tag
  mac : tag = hmacSha1 P hb (hdr ++ iv ++ (done ++ last))
  unpad : aesUnPad (cbcD P kb (chainD iv done) last) = .ok u
  dec : outs ++ r.dec = cbcD P kb iv done ++ u

/-- a state of a decrypting reader over `X` that has not raised, and has returned `outs` -/
def DecMid (r : DecReader σ) (outs : Bytes) : Prop :=
  Dec0 good rest X r outs ∨ (∃ k hb hdr, Dec1 good rest c X k hb hdr r outs) ∨
  (∃ k kb hb hdr iv done, Dec2 P good rest c X k kb hb hdr iv done r outs) ∨
  (∃ k kb hb hdr iv done last tag u, Dec3 P good rest c X k kb hb hdr iv done last tag u r outs)

/-- a state after the end of the input was found not to be authentic: what was decrypted before, `d`, is
still in the buffer -/
structure DecSpent (d : Bytes) (r : DecReader σ) : Prop where
  closed : r.closed = false
  src : good r.src
  rest : rest r.src = []
  key : ∃ k, r.key = some (.aes k)
  hmac : ∃ h, r.hmac = some h
  cipher : ∃ ci, r.cipher = some ci
  enc : r.enc.length ≤ 20
  dec : r.dec = d

/-- the header of `X` is complete but does not lead to a usable AES key -/
def NoKey : Prop :=
  5 ≤ X.length ∧ ¬ ∃ k kb hb, c.ParseHeader (X.take 5) = .ok (.aes k) ∧ UsableAes k kb hb

/-- a state in which there is nothing more to come -/
def DecEnd (r : DecReader σ) (outs : Bytes) : Prop :=
  r.dec = [] ∧ rest r.src = [] ∧
  (Dec0 good rest X r outs ∨ (∃ k hb hdr, Dec1 good rest c X k hb hdr r outs) ∨
  (∃ k kb hb hdr iv, Dec2 P good rest c X k kb hb hdr iv [] r outs ∧ r.enc.length ≤ 20) ∨
  (∃ k kb hb hdr iv done last tag u, Dec3 P good rest c X k kb hb hdr iv done last tag u r outs))
end

section
variable {σ : Type} {m : Source σ} {good : σ → Prop} {rest : σ → Bytes} {left : σ → Nat} {f : Nat → Nat} {c : Czar} {X : Bytes}

theorem DecMid_take {r : DecReader σ} {outs a b : Bytes} (h : DecMid P good rest c X r outs) (hab : r.dec = a ++ b) :
    DecMid P good rest c X { r with dec := b } (outs ++ a) := by
  rcases h with h | ⟨k, hb, hdr, h⟩ | ⟨k, kb, hb, hdr, iv, done, h⟩ | ⟨k, kb, hb, hdr, iv, done, last, tag, u, h⟩
  · left
    have hd := h.dec
    rw [hab] at hd
    obtain ⟨rfl, rfl⟩ := List.append_eq_nil_iff.mp hd
    exact { h with dec := rfl, outs := by rw [h.outs]; rfl }
  · right; left
    have hd := h.dec
    rw [hab] at hd
    obtain ⟨rfl, rfl⟩ := List.append_eq_nil_iff.mp hd
    exact ⟨k, hb, hdr, { h with dec := rfl, outs := by rw [h.outs]; rfl }⟩
  · right; right; left
    exact ⟨k, kb, hb, hdr, iv, done, { h with dec := by rw [← h.dec, hab, List.append_assoc] }⟩
  · right; right; right
    exact ⟨k, kb, hb, hdr, iv, done, last, tag, u, { h with dec := by rw [← h.dec, hab, List.append_assoc] }⟩

theorem createKey_spec (hm : Serves m good rest left f) (hf : ∀ n, 1 ≤ n → n ≤ 5 → f n ≤ 16) {fuel : Nat} {r : DecReader σ} {outs : Bytes}
    (h : Dec0 good rest X r outs) (hfuel : left r.src < fuel) :
    (∃ e r', r.createKey m c fuel = (.error e, r') ∧ StreamError P c X e ∧ NoKey c X) ∨
    (∃ r', r.createKey m c fuel = (.ok false, r') ∧ Dec0 good rest X r' outs ∧ rest r'.src = [] ∧ left r'.src ≤ left r.src) ∨
    (∃ r' k hb hdr, r.createKey m c fuel = (.ok true, r') ∧ Dec1 good rest c X k hb hdr r' outs ∧ left r'.src ≤ left r.src) := by
  unfold DecReader.createKey
  have hsz : (HEADER_SIZE : Int) - r.enc.length = ((5 - r.enc.length : Nat) : Int) := by
    have := h.enc; simp only [HEADER_SIZE, KEY_HASH_SIZE]; omega
  have hpos : (0 : Int) < ((5 - r.enc.length : Nat) : Int) := by have := h.enc; omega
  rw [hsz]
  obtain ⟨bytes, avail, s', p1, p2, p3, p4, p5, p6⟩ := readBytes_block hm hpos fuel r.src [] h.src hfuel (by simpa using hpos)
  rw [p1]
  simp only [List.nil_append]
  simp only [List.nil_append] at p5 p6
  cases avail with
  | false =>
    obtain ⟨q1, q2⟩ := p6 rfl
    have hlt : (r.enc ++ bytes).length < 5 := by rw [List.length_append]; omega
    rw [if_neg (show ¬ (r.enc ++ bytes).length ≥ HEADER_SIZE by simp only [HEADER_SIZE, KEY_HASH_SIZE]; omega)]
    right; left
    refine ⟨_, rfl, { h with src := p2, enc := hlt, cont := ?_ }, q1, p3⟩
    rw [h.cont, p4, List.append_assoc]
  | true =>
    obtain ⟨q1, q2⟩ := p5 rfl
    have hge : 5 ≤ (r.enc ++ bytes).length := by rw [List.length_append]; omega
    have hle : (r.enc ++ bytes).length ≤ 20 := by
      rw [List.length_append]
      have := hf (5 - r.enc.length) (by have := h.enc; omega) (by omega)
      have h3 : ((5 - r.enc.length : Nat) : Int).toNat = 5 - r.enc.length := by omega
      rw [h3] at q2
      have := h.enc; omega
    rw [if_pos (show (r.enc ++ bytes).length ≥ HEADER_SIZE by simp only [HEADER_SIZE, KEY_HASH_SIZE]; omega)]
    simp only [sliceTo_nat, sliceFrom_nat]
    have hH : HEADER_SIZE = 5 := rfl
    rw [hH]
    have hX : X = (r.enc ++ bytes) ++ rest s' := by rw [h.cont, p4, List.append_assoc]
    have hX5 : X.take 5 = (r.enc ++ bytes).take 5 := by
      rw [hX, List.take_append_of_le_length hge]
    have hXl : 5 ≤ X.length := by rw [hX, List.length_append]; omega
    cases hp : c.ParseHeader ((r.enc ++ bytes).take 5) with
    | error e =>
      left
      refine ⟨e, _, rfl, .header e hXl (by rw [hX5]; exact hp), hXl, ?_⟩
      rintro ⟨k, kb, hb, h1, -⟩
      rw [hX5, hp] at h1; cases h1
    | ok key =>
      simp only
      have bad : ∀ e, (¬ ∃ k kb hb, key = .aes k ∧ UsableAes k kb hb) → StreamError P c X e ∧ NoKey c X := by
        refine fun e hn => ⟨.key e key hXl (by rw [hX5]; exact hp) hn, hXl, ?_⟩
        rintro ⟨k, kb, hb, h1, h2⟩
        rw [hX5, hp] at h1
        exact hn ⟨k, kb, hb, Except.ok.inj h1, h2⟩
      cases key with
      | hmac _ => exact .inl ⟨_, _, rfl, bad _ (by rintro ⟨_, _, _, h, -⟩; cases h)⟩
      | rsaPub _ => exact .inl ⟨_, _, rfl, bad _ (by rintro ⟨_, _, _, h, -⟩; cases h)⟩
      | rsaPriv _ => exact .inl ⟨_, _, rfl, bad _ (by rintro ⟨_, _, _, h, -⟩; cases h)⟩
      | dsaPub _ => exact .inl ⟨_, _, rfl, bad _ (by rintro ⟨_, _, _, h, -⟩; cases h)⟩
      | dsaPriv _ => exact .inl ⟨_, _, rfl, bad _ (by rintro ⟨_, _, _, h, -⟩; cases h)⟩
      | aes k =>
        simp only
        cases hk : k.hmacKey.keyBytes with
        | error e =>
          refine .inl ⟨_, _, rfl, bad _ ?_⟩
          rintro ⟨k', kb, hb, h1, h2⟩
          cases h1
          rw [h2.mac] at hk; cases hk
        | ok hb =>
          right; right
          refine ⟨_, k, hb, (r.enc ++ bytes).take 5, rfl, ?_, p3⟩
          exact { closed := h.closed, src := p2, parse := hp, mac := hk, hdr5 := by rw [List.length_take]; omega,
                  key := rfl, hmac := by simp [HmacObj.new, HmacObj.update], cipher := h.cipher, dec := h.dec,
                  outs := h.outs, enc := by (show ((r.enc ++ bytes).drop 5).length < 16); rw [List.length_drop]; omega,
                  cont := by rw [hX]; show _ = (r.enc ++ bytes).take 5 ++ (r.enc ++ bytes).drop 5 ++ rest s'; rw [List.take_append_drop] }

theorem createCipher_spec (hm : Serves m good rest left f) {fuel : Nat} {r : DecReader σ} {outs : Bytes}
    {k : AesKey} {hb hdr : Bytes} (h : Dec1 good rest c X k hb hdr r outs) (hfuel : left r.src < fuel) :
    (∃ e r', r.createCipher m k fuel = (.error e, r') ∧ StreamError P c X e ∧ NoKey c X) ∨
    (∃ r', r.createCipher m k fuel = (.ok false, r') ∧ Dec1 good rest c X k hb hdr r' outs ∧ rest r'.src = [] ∧ left r'.src ≤ left r.src) ∨
    (∃ r' kb iv, r.createCipher m k fuel = (.ok true, r') ∧ Dec2 P good rest c X k kb hb hdr iv [] r' outs ∧ left r'.src ≤ left r.src) := by
  unfold DecReader.createCipher
  have hsz : 16 - (r.enc.length : Int) = ((16 - r.enc.length : Nat) : Int) := by
    have := h.enc; omega
  have hpos : (0 : Int) < ((16 - r.enc.length : Nat) : Int) := by have := h.enc; omega
  rw [hsz]
  obtain ⟨bytes, avail, s', p1, p2, p3, p4, p5, p6⟩ := readBytes_block hm hpos fuel r.src [] h.src hfuel (by simpa using hpos)
  rw [p1]
  simp only [List.nil_append]
  simp only [List.nil_append] at p5 p6
  have hX : X = hdr ++ (r.enc ++ bytes) ++ rest s' := by rw [h.cont, p4]; simp only [List.append_assoc]
  cases avail with
  | false =>
    obtain ⟨q1, q2⟩ := p6 rfl
    have hlt : (r.enc ++ bytes).length < 16 := by rw [List.length_append]; omega
    rw [if_neg (show ¬ (r.enc ++ bytes).length ≥ 16 by omega)]
    right; left
    exact ⟨_, rfl, { h with src := p2, enc := hlt, cont := hX }, q1, p3⟩
  | true =>
    obtain ⟨q1, q2⟩ := p5 rfl
    have hge : 16 ≤ (r.enc ++ bytes).length := by rw [List.length_append]; omega
    have e16t : sliceTo (r.enc ++ bytes) 16 = (r.enc ++ bytes).take 16 := sliceTo_nat _ 16
    have e16f : sliceFrom (r.enc ++ bytes) 16 = (r.enc ++ bytes).drop 16 := sliceFrom_nat _ 16
    rw [if_pos (show (r.enc ++ bytes).length ≥ 16 from hge)]
    simp only [h.hmac, e16t, e16f]
    have hXl : 5 ≤ X.length := by rw [hX]; simp only [List.length_append, h.hdr5]; omega
    have hX5 : X.take 5 = hdr := by
      rw [hX, List.append_assoc, ← h.hdr5, List.take_left]
    have hivl : ((r.enc ++ bytes).take 16).length = 16 := by rw [List.length_take]; omega
    have bad : ∀ e, (¬ ∃ kb, UsableAes k kb hb) → StreamError P c X e ∧ NoKey c X := by
      intro e hn
      have hno : ¬ ∃ k' kb hb, Key.aes k = .aes k' ∧ UsableAes k' kb hb := by
       rintro ⟨k', kb, hb', h1, h2⟩
       cases h1
       have : hb' = hb := by have := h2.mac; rw [h.mac] at this; exact (Except.ok.inj this).symm
       subst this
       exact hn ⟨kb, h2⟩
      refine ⟨.key e (.aes k) hXl (by rw [hX5]; exact h.parse) hno, hXl, ?_⟩
      rintro ⟨k', kb, hb', h1, h2⟩
      rw [hX5, h.parse] at h1
      cases h1
      have : hb' = hb := by have := h2.mac; rw [h.mac] at this; exact (Except.ok.inj this).symm
      subst this
      exact hn ⟨kb, h2⟩
    cases hk : k.keyBytes with
    | error e =>
      refine .inl ⟨_, _, rfl, bad _ ?_⟩
      rintro ⟨kb, h2⟩
      rw [h2.aes] at hk; cases hk
    | ok kb =>
      simp only [bind, Except.bind, CbcObj.new]
      by_cases hl : validAesKeyLen kb.length = true
      · rw [if_pos ⟨hl, hivl⟩]
        right; right
        refine ⟨_, kb, (r.enc ++ bytes).take 16, rfl, ?_, p3⟩
        exact { closed := h.closed, src := p2, parse := h.parse, usable := ⟨hk, hl, h.mac⟩, hdr5 := h.hdr5, iv16 := hivl,
                key := h.key, hmac := by simp [HmacObj.update], cipher := by simp [chainD, blocks16_nil, lastBlock],
                full := rfl, dec := by (show outs ++ r.dec = _); rw [h.outs, h.dec]; simp [cbcD, blocks16_nil, cbcDecBlocks],
                cont := by
                  rw [hX]
                  show _ = hdr ++ (r.enc ++ bytes).take 16 ++ [] ++ (r.enc ++ bytes).drop 16 ++ rest s'
                  simp only [List.append_nil, List.append_assoc]
                  rw [← List.append_assoc (List.take 16 _), List.take_append_drop, List.append_assoc],
                more := .inl rfl }
      · rw [if_neg (fun h' => hl h'.1)]
        refine .inl ⟨_, _, rfl, bad _ ?_⟩
        rintro ⟨kb', h2⟩
        have : kb' = kb := by have := h2.aes; rw [hk] at this; exact (Except.ok.inj this).symm
        subst this
        exact hl h2.len

theorem aesUnPad_ne_nil {d : Bytes} (h : d ≠ []) : ∃ u, aesUnPad d = .ok u := by
  unfold aesUnPad
  cases hl : d.getLast? with
  | none => exact absurd (List.getLast?_eq_none_iff.mp hl) h
  | some x => exact ⟨_, rfl⟩

theorem body_spec (hm : Serves m good rest left f) {fuel : Nat} {r : DecReader σ} {outs : Bytes}
    {k : AesKey} {kb hb hdr iv done : Bytes} (h : Dec2 P good rest c X k kb hb hdr iv done r outs) (hfuel : left r.src < fuel) :
    (∃ e r', r.body P m fuel ⟨hb, hdr ++ iv ++ done⟩ ⟨kb, chainD iv done⟩ = (.error e, r') ∧ StreamError P c X e ∧
      DecSpent good rest r.dec r' ∧ left r'.src ≤ left r.src) ∨
    (∃ r' done', r.body P m fuel ⟨hb, hdr ++ iv ++ done⟩ ⟨kb, chainD iv done⟩ = (.ok true, r') ∧
      Dec2 P good rest c X k kb hb hdr iv done' r' outs ∧ r'.dec ≠ [] ∧ left r'.src ≤ left r.src) ∨
    (∃ r', r.body P m fuel ⟨hb, hdr ++ iv ++ done⟩ ⟨kb, chainD iv done⟩ = (.ok false, r') ∧ done = [] ∧
      Dec2 P good rest c X k kb hb hdr iv [] r' outs ∧ r'.enc.length ≤ 20 ∧ rest r'.src = [] ∧ left r'.src ≤ left r.src) ∨
    (∃ r' done' last tag u, r.body P m fuel ⟨hb, hdr ++ iv ++ done⟩ ⟨kb, chainD iv done⟩ = (.ok false, r') ∧
      Dec3 P good rest c X k kb hb hdr iv done' last tag u r' outs ∧ left r'.src ≤ left r.src) := by
  unfold DecReader.body
  obtain ⟨data, avail, s', bytes, p1, p2, p3, p4, p5, p6⟩ := fill_spec hm fuel fuel r h.src hfuel hfuel
  rw [p1]
  simp only
  generalize henc : r.enc ++ bytes = enc at p5 p6
  have hX : X = hdr ++ iv ++ done ++ enc ++ rest s' := by
    rw [h.cont, p4, ← henc]; simp only [List.append_assoc]
  have hmore : done = [] ∨ 36 ≤ enc.length + (rest s').length := by
    rcases h.more with h1 | h1
    · exact .inl h1
    · right; rw [p4] at h1; rw [← henc]; simp only [List.length_append] at *; omega
  have hchain : (chainD iv done).length = 16 := chainD_length h.iv16 h.full
  cases avail with
  | true =>
    obtain ⟨q1, q2, q3, q4⟩ := p5 rfl
    rw [if_neg q1]
    unfold DecReader.process
    simp only [CbcObj.decrypt_cbcD P q2, if_true, sliceFrom_nat]
    right; left
    have hplain : (cbcD P kb (chainD iv done) data).length = data.length := cbcD_length P h.usable.len hchain q2
    refine ⟨_, done ++ data, rfl, ?_, ?_, p3⟩
    · exact { closed := h.closed, src := p2, parse := h.parse, usable := h.usable, hdr5 := h.hdr5, iv16 := h.iv16, key := h.key,
              hmac := by simp [HmacObj.update], cipher := by simp [chainD_append h.full],
              full := by rw [List.length_append]; have := h.full; omega,
              dec := by show outs ++ (r.dec ++ _) = _; rw [← List.append_assoc, h.dec, cbcD_append P h.full],
              cont := by
                rw [hX]
                have : enc = data ++ enc.drop data.length := by
                  conv_lhs => rw [← List.take_append_drop data.length enc, ← q4]
                show _ = hdr ++ iv ++ (done ++ data) ++ enc.drop data.length ++ rest s'
                conv_lhs => rw [this]
                simp only [List.append_assoc],
              more := by
                right
                show 36 ≤ (enc.drop data.length).length + _
                rw [List.length_drop]; omega }
    · show r.dec ++ cbcD P kb (chainD iv done) data ≠ []
      intro h0
      have := (List.append_eq_nil_iff.mp h0).2
      rw [this] at hplain
      exact q1 (List.length_eq_zero_iff.mp hplain.symm)
  | false =>
    obtain ⟨q1, q2⟩ := p6 rfl
    rw [q1, List.append_nil] at hX
    by_cases hd : data = []
    · rw [if_pos hd]
      right; right; left
      have hle : enc.length ≤ 20 := by
        rw [hd] at q2
        have := congrArg List.length q2
        rw [List.length_take, List.length_nil] at this; omega
      have hd0 : done = [] := by
        rcases hmore with h1 | h1
        · exact h1
        · rw [q1, List.length_nil] at h1; omega
      subst hd0
      have hX2 : X = hdr ++ iv ++ [] ++ enc ++ rest s' := by rw [q1, List.append_nil]; exact hX
      exact ⟨_, rfl, rfl, { h with src := p2, cont := hX2, more := .inl rfl }, hle, q1, p3⟩
    · rw [if_neg hd]
      have hgt : 20 < enc.length := by
        rcases Nat.lt_or_ge 20 enc.length with h1 | h1
        · exact h1
        · exact absurd (by rw [q2, show enc.length - 20 = 0 by omega]; rfl) hd
      have hdl : data.length = enc.length - 20 := by rw [q2, List.length_take]; omega
      have htag : (enc.drop data.length).length = 20 := by rw [List.length_drop]; omega
      have hencs : enc = data ++ enc.drop data.length := by
        conv_lhs => rw [← List.take_append_drop data.length enc]
        rw [hdl, ← q2]
      generalize enc.drop data.length = tag at htag hencs
      have hX' : X = hdr ++ iv ++ (done ++ data) ++ tag := by rw [hX, hencs]; simp only [List.append_assoc]
      unfold DecReader.process
      have hsl : sliceFrom enc (data.length : Int) = tag := by
        rw [sliceFrom_nat, hencs, List.drop_left]
      simp only [hsl]
      by_cases hb16 : data.length % 16 = 0
      · simp only [CbcObj.decrypt_cbcD P hb16, Bool.false_eq_true, if_false]
        rw [if_neg (by rw [htag]; simp [HLEN])]
        simp only [HmacObj.digest, HmacObj.update, VerifySignedData_iff]
        have hfed : hdr ++ iv ++ done ++ data = hdr ++ iv ++ (done ++ data) := by simp only [List.append_assoc]
        rw [hfed]
        by_cases ht : tag = hmacSha1 P hb (hdr ++ iv ++ (done ++ data))
        · have hplain : (cbcD P kb (chainD iv done) data).length = data.length := cbcD_length P h.usable.len hchain hb16
          obtain ⟨u, hu⟩ := aesUnPad_ne_nil (d := cbcD P kb (chainD iv done) data) (by
            intro h0; rw [h0] at hplain; exact hd (List.length_eq_zero_iff.mp hplain.symm))
          rw [if_pos (by rw [decide_eq_true_eq]; exact ht), hu]
          right; right; right
          refine ⟨_, done, data, tag, u, rfl, ?_, p3⟩
          have hpos : data.length ≠ 0 := fun h0 => hd (List.length_eq_zero_iff.mp h0)
          exact { closed := h.closed, src := p2, parse := h.parse, usable := h.usable, hdr5 := h.hdr5, iv16 := h.iv16, tag20 := htag,
                  key := h.key, hmac := ⟨_, rfl⟩, cipher := ⟨_, rfl⟩, enc := rfl, rest := q1, full := h.full, full2 := hb16,
                  last16 := by omega, cont := hX', mac := ht, unpad := hu,
                  dec := by show outs ++ (r.dec ++ u) = _; rw [← List.append_assoc, h.dec] }
        · rw [if_neg (by rw [decide_eq_true_eq]; exact ht)]
          left
          exact ⟨_, _, rfl, .tag k kb hb hdr iv (done ++ data) tag h.parse h.usable hX' h.hdr5 h.iv16 htag
            (fun h0 => hd (List.append_eq_nil_iff.mp h0).2) ht,
            ⟨h.closed, p2, q1, ⟨_, h.key⟩, ⟨_, rfl⟩, ⟨_, rfl⟩, by simp, rfl⟩, p3⟩
      · have : CbcObj.decrypt P ⟨kb, chainD iv done⟩ data = .error .valueError := by
          unfold CbcObj.decrypt; rw [if_pos hb16]
        simp only [this]
        left
        exact ⟨_, _, rfl, .blocks k kb hb hdr iv (done ++ data) tag h.parse h.usable hX' h.hdr5 h.iv16 htag
          (by rw [List.length_append]; have := h.full; omega),
          ⟨h.closed, p2, q1, ⟨_, h.key⟩, ⟨_, rfl⟩, ⟨_, h.cipher⟩, Nat.le_of_eq htag, rfl⟩, p3⟩

theorem body_done (hm : Serves m good rest left f) {fuel : Nat} {r : DecReader σ} {outs : Bytes}
    {k : AesKey} {kb hb hdr iv done last tag u : Bytes} (hobj : HmacObj) (ci : CbcObj)
    (h : Dec3 P good rest c X k kb hb hdr iv done last tag u r outs) (hfuel : left r.src < fuel) :
    ∃ r', r.body P m fuel hobj ci = (.ok false, r') ∧
      Dec3 P good rest c X k kb hb hdr iv done last tag u r' outs ∧ left r'.src ≤ left r.src := by
  unfold DecReader.body
  obtain ⟨data, avail, s', bytes, p1, p2, p3, p4, p5, p6⟩ := fill_spec hm fuel fuel r h.src hfuel hfuel
  rw [h.rest] at p4
  obtain ⟨rfl, hr⟩ := List.append_eq_nil_iff.mp p4.symm
  rw [h.enc, List.append_nil] at p5 p6
  rw [p1]
  cases avail with
  | true =>
    obtain ⟨-, -, q3, -⟩ := p5 rfl
    rw [List.length_nil] at q3; omega
  | false =>
    obtain ⟨-, q2⟩ := p6 rfl
    rw [List.take_nil] at q2
    subst q2
    simp only [if_true]
    exact ⟨_, rfl, { h with src := p2, enc := by show r.enc ++ [] = []; rw [h.enc]; rfl, rest := hr }, p3⟩

/-- what one `read` does before it cuts off the result -/
theorem step_spec (hm : Serves m good rest left f) (hf : ∀ n, 1 ≤ n → n ≤ 5 → f n ≤ 16) {fuel : Nat} {r : DecReader σ} {outs : Bytes}
    (h : DecMid P good rest c X r outs) (hfuel : left r.src < fuel) (chars : Int) :
    (∃ e r', r.read P m c fuel chars = (.error e, r') ∧ StreamError P c X e ∧ (NoKey c X ∨ DecSpent good rest r.dec r' ∧ left r'.src ≤ left r.src)) ∨
    (∃ r' avail, r.read P m c fuel chars = r'.take chars avail ∧ DecMid P good rest c X r' outs ∧
      (avail = true → r'.dec ≠ []) ∧ (avail = false → r'.dec = [] → DecEnd P good rest c X r' outs) ∧ left r'.src ≤ left r.src) := by
  have two : ∀ {r : DecReader σ} {k kb hb hdr iv done}, Dec2 P good rest c X k kb hb hdr iv done r outs → left r.src < fuel →
      (∃ e r', r.body P m fuel ⟨hb, hdr ++ iv ++ done⟩ ⟨kb, chainD iv done⟩ = (.error e, r') ∧ StreamError P c X e ∧ (NoKey c X ∨ DecSpent good rest r.dec r' ∧ left r'.src ≤ left r.src)) ∨
      (∃ r' avail, r.body P m fuel ⟨hb, hdr ++ iv ++ done⟩ ⟨kb, chainD iv done⟩ = (.ok avail, r') ∧ DecMid P good rest c X r' outs ∧
        (avail = true → r'.dec ≠ []) ∧ (avail = false → r'.dec = [] → DecEnd P good rest c X r' outs) ∧ left r'.src ≤ left r.src) := by
    intro r k kb hb hdr iv done h hfuel
    rcases body_spec P hm h hfuel with ⟨e, r', h1, h1', h1''⟩ | ⟨r', done', h1, h2, h3, h4⟩ | ⟨r', h1, rfl, h2, h3, h4, h5⟩ | ⟨r', done', last, tag, u, h1, h2, h3⟩
    · exact .inl ⟨e, r', h1, h1', .inr h1''⟩
    · exact .inr ⟨r', true, h1, .inr (.inr (.inl ⟨_, _, _, _, _, _, h2⟩)), fun _ => h3, fun h => by simp at h, h4⟩
    · exact .inr ⟨r', false, h1, .inr (.inr (.inl ⟨_, _, _, _, _, _, h2⟩)), fun h => by simp at h,
        fun _ hd => ⟨hd, h4, .inr (.inr (.inl ⟨_, _, _, _, _, h2, h3⟩))⟩, h5⟩
    · exact .inr ⟨r', false, h1, .inr (.inr (.inr ⟨_, _, _, _, _, _, _, _, _, h2⟩)), fun h => by simp at h,
        fun _ hd => ⟨hd, h2.rest, .inr (.inr (.inr ⟨_, _, _, _, _, _, _, _, _, h2⟩))⟩, h3⟩
  have one : ∀ {r : DecReader σ} {k hb hdr}, Dec1 good rest c X k hb hdr r outs → left r.src < fuel →
      (∃ e r', r.withKey P m fuel true = (.error e, r') ∧ StreamError P c X e ∧ (NoKey c X ∨ DecSpent good rest r.dec r' ∧ left r'.src ≤ left r.src)) ∨
      (∃ r' avail, r.withKey P m fuel true = (.ok avail, r') ∧ DecMid P good rest c X r' outs ∧
        (avail = true → r'.dec ≠ []) ∧ (avail = false → r'.dec = [] → DecEnd P good rest c X r' outs) ∧ left r'.src ≤ left r.src) := by
    intro r k hb hdr h hfuel
    unfold DecReader.withKey
    simp only [h.key, h.cipher]
    rcases createCipher_spec P hm h hfuel with ⟨e, r', h1, h2⟩ | ⟨r', h1, h2, h3, h4⟩ | ⟨r', kb, iv, h1, h2, h3⟩
    · rw [h1]; exact .inl ⟨e, r', rfl, h2.1, .inl h2.2⟩
    · rw [h1]
      exact .inr ⟨r', false, rfl, .inr (.inl ⟨_, _, _, h2⟩), fun h => by simp at h,
        fun _ hd => ⟨hd, h3, .inr (.inl ⟨_, _, _, h2⟩)⟩, h4⟩
    · rw [h1]
      simp only [h2.cipher, h2.hmac]
      have hd' : r'.dec = r.dec := by
        have h5 := h2.dec
        simp only [cbcD, blocks16_nil, cbcDecBlocks, List.flatten_nil] at h5
        rw [(List.append_eq_nil_iff.mp h5).2, h.dec]
      rcases two h2 (by omega) with ⟨e, r'', h4, h5, h6⟩ | ⟨r'', avail, h4, h5, h6, h7, h8⟩
      · rw [hd'] at h6
        exact .inl ⟨e, r'', h4, h5, h6.imp id fun h => ⟨h.1, by omega⟩⟩
      · exact .inr ⟨r'', avail, h4, h5, h6, h7, by omega⟩
  have fin : ∀ {r : DecReader σ}, (∃ e r', r.advance P m c fuel = (.error e, r') ∧ StreamError P c X e ∧ (NoKey c X ∨ DecSpent good rest r.dec r' ∧ left r'.src ≤ left r.src)) ∨
      (∃ r' avail, r.advance P m c fuel = (.ok avail, r') ∧ DecMid P good rest c X r' outs ∧
        (avail = true → r'.dec ≠ []) ∧ (avail = false → r'.dec = [] → DecEnd P good rest c X r' outs) ∧ left r'.src ≤ left r.src) →
      r.closed = false →
    (∃ e r', r.read P m c fuel chars = (.error e, r') ∧ StreamError P c X e ∧ (NoKey c X ∨ DecSpent good rest r.dec r' ∧ left r'.src ≤ left r.src)) ∨
    (∃ r' avail, r.read P m c fuel chars = r'.take chars avail ∧ DecMid P good rest c X r' outs ∧
      (avail = true → r'.dec ≠ []) ∧ (avail = false → r'.dec = [] → DecEnd P good rest c X r' outs) ∧ left r'.src ≤ left r.src) := by
    intro r h hc
    unfold DecReader.read
    rw [if_neg (by rw [hc]; simp)]
    rcases h with ⟨e, r', h1, h2⟩ | ⟨r', avail, h1, h2⟩
    · left; exact ⟨e, r', by simp only [h1], h2⟩
    · right; exact ⟨r', avail, by simp only [h1], h2⟩
  rcases h with h | ⟨k, hb, hdr, h⟩ | ⟨k, kb, hb, hdr, iv, done, h⟩ | ⟨k, kb, hb, hdr, iv, done, last, tag, u, h⟩
  · refine fin ?_ h.closed
    unfold DecReader.advance
    simp only [h.key]
    rcases createKey_spec P hm hf h hfuel with ⟨e, r', h1, h2⟩ | ⟨r', h1, h2, h3, h4⟩ | ⟨r', k, hb, hdr, h1, h2, h3⟩
    · rw [h1]; exact .inl ⟨e, r', rfl, h2.1, .inl h2.2⟩
    · rw [h1]
      simp only [DecReader.withKey]
      exact .inr ⟨r', false, rfl, .inl h2, fun h => by simp at h, fun _ hd => ⟨hd, h3, .inl h2⟩, h4⟩
    · rw [h1]
      have hd' : r'.dec = r.dec := by rw [h2.dec, h.dec]
      rcases one h2 (by omega) with ⟨e, r'', h4, h5, h6⟩ | ⟨r'', avail, h4, h5, h6, h7, h8⟩
      · rw [hd'] at h6
        exact .inl ⟨e, r'', h4, h5, h6.imp id fun h => ⟨h.1, by omega⟩⟩
      · exact .inr ⟨r'', avail, h4, h5, h6, h7, by omega⟩
  · refine fin ?_ h.closed
    unfold DecReader.advance
    simp only [h.key]
    exact one h hfuel
  · refine fin ?_ h.closed
    unfold DecReader.advance
    simp only [h.key, DecReader.withKey, h.cipher, h.hmac]
    exact two h hfuel
  · refine fin ?_ h.closed
    unfold DecReader.advance
    obtain ⟨ho, hho⟩ := h.hmac
    obtain ⟨ci, hci⟩ := h.cipher
    simp only [h.key, DecReader.withKey, hho, hci]
    obtain ⟨r', h1, h2, h3⟩ := body_done P hm ho ci h hfuel
    exact .inr ⟨r', false, h1, .inr (.inr (.inr ⟨_, _, _, _, _, _, _, _, _, h2⟩)), fun h => by simp at h,
      fun _ hd => ⟨hd, h2.rest, .inr (.inr (.inr ⟨_, _, _, _, _, _, _, _, _, h2⟩))⟩, h3⟩

/-- what one `read` does -/
theorem read_spec (hm : Serves m good rest left f) (hf : ∀ n, 1 ≤ n → n ≤ 5 → f n ≤ 16) {fuel : Nat} {r : DecReader σ} {outs : Bytes}
    (h : DecMid P good rest c X r outs) (hfuel : left r.src < fuel) (chars : Int) :
    (∃ e r', r.read P m c fuel chars = (.error e, r') ∧ StreamError P c X e ∧ (NoKey c X ∨ DecSpent good rest r.dec r' ∧ left r'.src ≤ left r.src)) ∨
    (∃ r' res, r.read P m c fuel chars = (.ok res, r') ∧ DecMid P good rest c X r' (outs ++ res.getD []) ∧
      (res = none → chars = 0) ∧ (0 ≤ chars → (res.getD []).length ≤ chars.toNat) ∧
      (res = some [] → chars ≠ 0 → DecEnd P good rest c X r' outs) ∧ left r'.src ≤ left r.src) := by
  rcases step_spec P hm hf h hfuel chars with h1 | ⟨r', avail, h1, h2, h3, h4, h5⟩
  · exact .inl h1
  · right
    rw [h1]
    unfold DecReader.take
    generalize ha : (if chars < 0 then r'.dec else sliceTo r'.dec chars) = a
    generalize hb : (if chars < 0 then [] else sliceFrom r'.dec chars) = b
    have hab : r'.dec = a ++ b := by
      rw [← ha, ← hb]
      split
      · simp
      · rw [← Int.toNat_of_nonneg (show 0 ≤ chars by omega), sliceTo_nat, sliceFrom_nat, List.take_append_drop]
    have hlen : 0 ≤ chars → a.length ≤ chars.toNat := by
      intro h
      rw [← ha, if_neg (by omega), ← Int.toNat_of_nonneg h, sliceTo_nat, List.length_take]; simp
    have hnil : a = [] → chars ≠ 0 → r'.dec = [] := by
      intro h hc
      rw [← ha] at h
      split at h
      · exact h
      · rw [← Int.toNat_of_nonneg (show 0 ≤ chars by omega), sliceTo_nat, List.take_eq_nil_iff] at h
        rcases h with h | h
        · omega
        · exact h
    have hmid := DecMid_take P h2 hab
    dsimp only
    by_cases hc : a = [] ∧ avail = true
    · rw [if_pos hc]
      refine ⟨_, none, rfl, by rw [hc.1] at hmid; exact hmid, fun _ => ?_, fun _ => by simp, fun h => by simp at h, h5⟩
      by_cases h0 : chars = 0
      · exact h0
      · exact absurd (hnil hc.1 h0) (h3 hc.2)
    · rw [if_neg hc]
      refine ⟨_, some a, rfl, hmid, fun h => by simp at h, hlen, fun h h0 => ?_, h5⟩
      have ha0 : a = [] := by simpa using h
      have hd := hnil ha0 h0
      have hav : avail = false := by
        cases avail with
        | false => rfl
        | true => exact absurd ⟨ha0, rfl⟩ hc
      have hb0 : b = [] := by rw [hd] at hab; exact (List.append_eq_nil_iff.mp hab.symm).2
      have : ({ r' with dec := b } : DecReader σ) = r' := by rw [hb0, ← hd]
      rw [this]
      exact h4 hav hd

/-- after a failure at the end of the input, reads hand out what is left in the buffer -/
theorem spent_read (hm : Serves m good rest left f) {fuel : Nat} {r : DecReader σ} {d : Bytes}
    (h : DecSpent good rest d r) (hfuel : left r.src < fuel) (chars : Int) :
    ∃ out d' r', r.read P m c fuel chars = (.ok (some out), r') ∧ d = out ++ d' ∧ DecSpent good rest d' r' ∧
      (out = [] → chars ≠ 0 → d = []) ∧ left r'.src ≤ left r.src := by
  obtain ⟨k, hk⟩ := h.key
  obtain ⟨ho, hho⟩ := h.hmac
  obtain ⟨ci, hci⟩ := h.cipher
  obtain ⟨data, avail, s', bytes, p1, p2, p3, p4, p5, p6⟩ := fill_spec hm fuel fuel r h.src hfuel hfuel
  rw [h.rest] at p4
  obtain ⟨rfl, hr⟩ := List.append_eq_nil_iff.mp p4.symm
  rw [List.append_nil] at p1 p5 p6
  have hav : avail = false := by
    cases avail with
    | false => rfl
    | true =>
      obtain ⟨-, -, q3, -⟩ := p5 rfl
      have := h.enc; omega
  subst hav
  obtain ⟨-, q2⟩ := p6 rfl
  have hd0 : data = [] := by rw [q2, show r.enc.length - 20 = 0 by have := h.enc; omega]; rfl
  subst hd0
  have hread : r.read P m c fuel chars = ({ r with src := s' } : DecReader σ).take chars false := by
    unfold DecReader.read
    rw [if_neg (by rw [h.closed]; simp)]
    simp only [DecReader.advance, hk, DecReader.withKey, hho, hci, DecReader.body, p1, if_true]
  rw [hread]
  unfold DecReader.take
  simp only [Bool.false_eq_true, and_false, if_false, h.dec]
  refine ⟨_, (if chars < 0 then [] else sliceFrom d chars), _, rfl, ?_, ⟨h.closed, p2, hr, ⟨k, hk⟩, ⟨ho, hho⟩, ⟨ci, hci⟩, h.enc, rfl⟩, ?_, p3⟩
  · split
    · simp
    · rw [← Int.toNat_of_nonneg (show 0 ≤ chars by omega), sliceTo_nat, sliceFrom_nat, List.take_append_drop]
  · intro h0 hc
    split at h0
    · exact h0
    · rw [← Int.toNat_of_nonneg (show 0 ≤ chars by omega), sliceTo_nat, List.take_eq_nil_iff] at h0
      rcases h0 with h0 | h0
      · omega
      · exact h0

end

end Verif
