import Verif.Spec.Early
import Verif.Lemmas.StreamsEarly
import Verif.Props.Streams
import Verif.Props.Leak
/-
C94: what a decrypting stream hands out before the authentication code is checked.  keys.py:1123-1228 (`read`) decrypts and
returns each block as soon as 36 more bytes are known, and compares the code only at the end of the input (1214-1226).
-/
namespace Verif.Props
open Verif Spec
variable (P : Prims)

theorem opened_cons (D : Bytes → Bytes) (iv c : Bytes) (cs : List Bytes) :
    opened D iv (c :: cs) = xorBlock (D c) iv :: opened D c cs := rfl

theorem opened_eq (kb iv : Bytes) (cs : List Bytes) : opened (P.aesDec kb) iv cs = cbcDecBlocks P kb iv cs := by
  induction cs generalizing iv with
  | nil => rfl
  | cons c cs ih => rw [opened_cons, ih]; rfl

theorem cbcD_opened (kb iv : Bytes) (cs : List Bytes) (h : AllBlocks cs) :
    cbcD P kb iv cs.flatten = (opened (P.aesDec kb) iv cs).flatten := by
  rw [cbcD, blocks16_flatten _ h, opened_eq]

section
variable {σ : Type} {m : Source σ} {good : σ → Prop} {rest : σ → Bytes} {left : σ → Nat} {f : Nat → Nat} {c : Czar}

theorem unpad_prefix {d u : Bytes} (h : aesUnPad d = .ok u) : u <+: d := by
  unfold aesUnPad at h
  split at h
  · cases h
  · next v _ =>
    cases h
    by_cases hv : v.toNat = 0
    · rw [hv]; exact List.take_prefix _ _
    · rw [sliceTo_neg _ _ (by omega)]; exact List.take_prefix _ _

/-- the decryption of whole blocks at the beginning of the data is the beginning of the decryption -/
theorem cbcD_prefix {kb iv done y : Bytes} (h : done.length % 16 = 0) :
    cbcD P kb iv done <+: cbcD P kb iv ((done ++ y).take (16 * ((done ++ y).length / 16))) := by
  have hle : done.length ≤ 16 * ((done ++ y).length / 16) := by rw [List.length_append]; omega
  rw [List.take_append, List.take_of_length_le hle, cbcD_append P h]
  exact List.prefix_append _ _

/-- everything decrypted so far comes from the blocks of the input before the authentication code -/
theorem mid_prefix {k : AesKey} {kb hb hdr iv body X : Bytes} (hp : c.ParseHeader hdr = .ok (.aes k))
    (hu : UsableAes k kb hb) (h5 : hdr.length = 5) (hiv : iv.length = 16)
    (hX : X = hdr ++ iv ++ body) {r : DecReader σ} {outs : Bytes} (h : DecMid P good rest c X r outs) :
    outs ++ r.dec <+: cbcD P kb iv (body.take (16 * (body.length / 16))) ∧
      (outs ++ r.dec = [] ∨ (outs ++ r.dec).length + 20 ≤ body.length) := by
  have same : ∀ {k' : AesKey} {kb' hb' hdr' iv' z : Bytes}, c.ParseHeader hdr' = .ok (.aes k') → UsableAes k' kb' hb' →
      hdr'.length = 5 → iv'.length = 16 → X = hdr' ++ (iv' ++ z) → kb' = kb ∧ iv' = iv ∧ z = body := by
    intro k' kb' hb' hdr' iv' z q1 q2 q3 q4 q5
    rw [hX, List.append_assoc] at q5
    obtain ⟨e1, q6⟩ := List.append_inj q5 (by rw [h5, q3])
    obtain ⟨e2, e3⟩ := List.append_inj q6 (by rw [hiv, q4])
    rw [← e1, hp] at q1
    cases q1
    have := q2.aes
    rw [hu.aes] at this
    cases this
    exact ⟨rfl, e2.symm, e3.symm⟩
  rcases h with h | ⟨_, _, _, h⟩ | ⟨k', kb', hb', hdr', iv', done, h⟩ | ⟨k', kb', hb', hdr', iv', done, last, tag, u, h⟩
  · rw [h.dec, h.outs]; exact ⟨List.nil_prefix, .inl rfl⟩
  · rw [h.dec, h.outs]; exact ⟨List.nil_prefix, .inl rfl⟩
  · obtain ⟨rfl, rfl, e⟩ := same h.parse h.usable h.hdr5 h.iv16 (z := done ++ (r.enc ++ rest r.src)) (by
      rw [h.cont]; simp only [List.append_assoc])
    have hl := cbcD_length P h.usable.len h.iv16 h.full
    rw [h.dec, ← e]
    refine ⟨cbcD_prefix P h.full, ?_⟩
    rcases h.more with h0 | h0
    · left; rw [h0] at hl ⊢; exact List.length_eq_zero_iff.mp hl
    · right; rw [hl]; simp only [List.length_append]; omega
  · obtain ⟨rfl, rfl, e⟩ := same h.parse h.usable h.hdr5 h.iv16 (z := (done ++ last) ++ tag) (by
      rw [h.cont]; simp only [List.append_assoc])
    have hfull : (done ++ last).length % 16 = 0 := by
      rw [List.length_append]; have := h.full; have := h.full2; omega
    have hpre : outs ++ r.dec <+: cbcD P kb' iv' (done ++ last) := by
      rw [h.dec, cbcD_append P h.full]
      exact (List.prefix_append_right_inj _).mpr (unpad_prefix h.unpad)
    rw [← e]
    refine ⟨hpre.trans (cbcD_prefix P hfull), .inr ?_⟩
    have h1 := hpre.length_le
    rw [cbcD_length P h.usable.len h.iv16 hfull] at h1
    rw [List.length_append (bs := tag), h.tag20]; omega

/-- all that any sequence of reads returns, also after an exception -/
theorem reads_prefix (hm : Serves m good rest left f) (hf : ∀ n, 1 ≤ n → n ≤ 5 → f n ≤ 16) (fuel : Nat)
    {k : AesKey} {kb hb hdr iv body X : Bytes} (hp : c.ParseHeader hdr = .ok (.aes k))
    (hu : UsableAes k kb hb) (h5 : hdr.length = 5) (hiv : iv.length = 16) (hX : X = hdr ++ iv ++ body) :
    ∀ (calls : List Int) (r : DecReader σ) (outs : Bytes), left r.src < fuel →
      (DecMid P good rest c X r outs ∨ ∃ d, DecSpent good rest d r ∧
        outs ++ d <+: cbcD P kb iv (body.take (16 * (body.length / 16))) ∧ (outs ++ d = [] ∨ (outs ++ d).length + 20 ≤ body.length)) →
      outs ++ ((decReads P m c fuel r calls).1.map delivered).flatten <+: cbcD P kb iv (body.take (16 * (body.length / 16))) ∧
        (outs ++ ((decReads P m c fuel r calls).1.map delivered).flatten = [] ∨
          (outs ++ ((decReads P m c fuel r calls).1.map delivered).flatten).length + 20 ≤ body.length)
  | [], r, outs, hl, h => by
    have key : ∀ d : Bytes, outs ++ d <+: cbcD P kb iv (body.take (16 * (body.length / 16))) →
        (outs ++ d = [] ∨ (outs ++ d).length + 20 ≤ body.length) →
        outs <+: cbcD P kb iv (body.take (16 * (body.length / 16))) ∧ (outs = [] ∨ outs.length + 20 ≤ body.length) := by
      intro d h1 h2
      refine ⟨(List.prefix_append outs d).trans h1, h2.imp (fun h => (List.append_eq_nil_iff.mp h).1) fun h => ?_⟩
      rw [List.length_append] at h; omega
    simp only [decReads, List.map_nil, List.flatten_nil, List.append_nil]
    rcases h with h | ⟨d, -, h1, h2⟩
    · obtain ⟨h1, h2⟩ := mid_prefix P hp hu h5 hiv hX h
      exact key _ h1 h2
    · exact key d h1 h2
  | ch :: calls, r, outs, hl, h => by
    rcases h with h | ⟨d, h, h1, h2⟩
    · rcases read_spec P hm hf h hl ch with ⟨e, r', q1, -, q2⟩ | ⟨r', x, q1, q2, -, -, -, q6⟩
      · rcases q2 with q2 | ⟨q2, q3⟩
        · refine absurd ⟨k, kb, hb, ?_, hu⟩ q2.2
          rw [hX, List.append_assoc, ← h5, List.take_left]; exact hp
        · have ih := reads_prefix hm hf fuel hp hu h5 hiv hX calls r' outs (by omega)
            (.inr ⟨r.dec, q2, mid_prefix P hp hu h5 hiv hX h⟩)
          simpa only [decReads, q1, List.map_cons, List.flatten_cons, delivered, List.nil_append] using ih
      · have ih := reads_prefix hm hf fuel hp hu h5 hiv hX calls r' (outs ++ x.getD []) (by omega) (.inl q2)
        have hx : delivered (.ok x) = x.getD [] := by cases x <;> rfl
        simpa only [decReads, q1, List.map_cons, List.flatten_cons, hx, List.append_assoc] using ih
    · obtain ⟨out, d', r', q1, q2, q3, -, q5⟩ := spent_read P (c := c) hm h hl ch
      have ih := reads_prefix hm hf fuel hp hu h5 hiv hX calls r' (outs ++ out) (by omega)
        (.inr ⟨d', q3, by rw [List.append_assoc, ← q2]; exact h1, by rw [List.append_assoc, ← q2]; exact h2⟩)
      have hx : delivered (.ok (some out)) = out := rfl
      simpa only [decReads, q1, List.map_cons, List.flatten_cons, hx, List.append_assoc] using ih

/-- reads of everything, once the header and the initialization vector have been read -/
theorem reads_released (hm : Serves m good rest left f) (fuel : Nat) {k : AesKey} {kb hb hdr iv X : Bytes} :
    ∀ (n : Nat) (r : DecReader σ) (outs done : Bytes), left r.src < fuel → Dec2 P good rest c X k kb hb hdr iv done r outs →
      r.dec = [] → r.enc.length < 52 → r.enc.length + (rest r.src).length ≤ n →
      ∃ (i : Nat) (oks : List Bytes) (more y : Bytes), i ≤ n ∧
        (decReads P m c fuel r (List.replicate n (-1))).1.take i = oks.map (fun o => .ok (some o)) ∧ (∀ o ∈ oks, o ≠ []) ∧
        oks.length = i ∧ outs ++ oks.flatten = cbcD P kb iv (done ++ more) ∧ more.length % 16 = 0 ∧
        X = hdr ++ iv ++ (done ++ more) ++ y ∧ y.length < 68 ∧ (more = [] ∨ 36 ≤ y.length)
  | 0, r, outs, done, hl, h, hd, he, hn => by
    refine ⟨0, [], [], r.enc ++ rest r.src, Nat.le_refl _, rfl, by simp, rfl, ?_, rfl, ?_, ?_, .inl rfl⟩
    · have := h.dec; rw [hd] at this; simpa using this
    · rw [h.cont]; simp
    · rw [List.length_append]; omega
  | n + 1, r, outs, done, hl, h, hd, he, hn => by
    by_cases ht : 68 ≤ r.enc.length + (rest r.src).length
    · obtain ⟨r', data, o, h1, h2, h3, h4, h5, h6, h7⟩ := read_more P hm h hl he ht
      have e1 := congrArg List.length h.cont
      have e2 := congrArg List.length h3.cont
      have hdl : data.length ≠ 0 := fun h0 => h4 (List.length_eq_zero_iff.mp h0)
      simp only [List.length_append] at e1 e2
      obtain ⟨i, oks, more, y, p1, p2, p3, p4, p5, p6, p7, p8, p9⟩ := reads_released hm fuel n r' (outs ++ o) (done ++ data)
        (by omega) h3 h5 h6 (by omega)
      have hfull := h3.full
      rw [List.length_append] at hfull
      have := h.full
      refine ⟨i + 1, o :: oks, data ++ more, y, by omega, ?_, ?_, by simp [p4], ?_, ?_, ?_, p8, ?_⟩
      · simp only [List.replicate_succ, decReads, h1, List.take_succ_cons, p2, List.map_cons]
      · intro x hx
        rcases List.mem_cons.mp hx with rfl | hx
        · exact h2
        · exact p3 x hx
      · rw [List.flatten_cons, ← List.append_assoc, p5, List.append_assoc]
      · rw [List.length_append]; omega
      · rw [p7]; simp only [List.append_assoc]
      · right
        rcases p9 with p9 | p9
        · have e3 := congrArg List.length p7
          rw [p9] at e3
          simp only [List.length_append, List.length_nil] at e3
          rcases h3.more with h8 | h8
          · exact absurd (List.append_eq_nil_iff.mp h8).2 h4
          · omega
        · exact p9
    · refine ⟨0, [], [], r.enc ++ rest r.src, by omega, rfl, by simp, rfl, ?_, rfl, ?_, ?_, .inl rfl⟩
      · have := h.dec; rw [hd] at this; simpa using this
      · rw [h.cont]; simp
      · rw [List.length_append]; omega
end

/-- C94: whatever the input is, if its header names a usable AES key of the set, then all that reads of a decrypting stream
return, before and after exceptions, is the beginning of the decryption of its blocks; no byte of the last twenty is
decrypted.  What is returned does not depend on the authentication code or the HMAC key. -/
theorem C94_blind {σ} (m : Source σ) (good : σ → Prop) (rest : σ → Bytes) (left : σ → Nat) (f : Nat → Nat)
    (hm : Serves m good rest left f) (hf : ∀ n, 1 ≤ n → n ≤ 5 → f n ≤ 16) (c : Czar) (s : σ) (hs : good s)
    (fuel : Nat) (hfuel : left s < fuel) (k : AesKey) (kb hb hdr iv t : Bytes) (cs : List Bytes)
    (hp : c.ParseHeader hdr = .ok (.aes k)) (hu : UsableAes k kb hb) (h5 : hdr.length = 5) (hiv : iv.length = 16)
    (hcs : AllBlocks cs) (ht : t.length < 16) (hX : rest s = hdr ++ iv ++ cs.flatten ++ t) (calls : List Int) :
    let out := ((decReads P m c fuel (c.CreateDecryptingStreamReader s) calls).1.map delivered).flatten
    out <+: (opened (P.aesDec kb) iv cs).flatten ∧ (out = [] ∨ out.length + 20 ≤ (cs.flatten ++ t).length) := by
  have h := reads_prefix P hm hf fuel hp hu h5 hiv (body := cs.flatten ++ t) (X := rest s) (by rw [hX]; simp only [List.append_assoc])
    calls (DecReader.new s) [] hfuel (.inl (DecMid_new P c hs))
  have hl := flatten_length hcs
  have e : (cs.flatten ++ t).take (16 * ((cs.flatten ++ t).length / 16)) = cs.flatten := by
    rw [List.length_append, hl, show 16 * ((16 * cs.length + t.length) / 16) = cs.flatten.length by omega, List.take_left]
  rw [e, cbcD_opened P _ _ _ hcs] at h
  simp only [List.nil_append] at h
  exact h

/-- C94 (finding): and if each read asks for all there is, the reads return the decryption of all blocks except some among the
last 67 bytes, of which twenty are the authentication code, before anything is checked: none of these reads raises an
exception, whatever the input is. -/
theorem C94_released {σ} (m : Source σ) (good : σ → Prop) (rest : σ → Bytes) (left : σ → Nat) (f : Nat → Nat)
    (hm : Serves m good rest left f) (hf5 : ∀ n, 1 ≤ n → n ≤ 5 → f n ≤ 16) (hf : ∀ n, 1 ≤ n → n ≤ 16 → f n ≤ 52)
    (c : Czar) (s : σ) (hs : good s) (fuel : Nat) (hfuel : left s < fuel) (k : AesKey) (kb hb hdr iv body : Bytes)
    (hp : c.ParseHeader hdr = .ok (.aes k)) (hu : UsableAes k kb hb) (h5 : hdr.length = 5) (hiv : iv.length = 16)
    (hX : rest s = hdr ++ iv ++ body) (n : Nat) (hn : body.length ≤ n) :
    ∃ (oks : List Bytes) (cs : List Bytes) (y : Bytes), oks.length ≤ n ∧
      (decReads P m c fuel (c.CreateDecryptingStreamReader s) (List.replicate n (-1))).1.take oks.length =
        oks.map (fun o => .ok (some o)) ∧ (∀ o ∈ oks, o ≠ []) ∧
      AllBlocks cs ∧ body = cs.flatten ++ y ∧ y.length < 68 ∧ (cs = [] ∨ 36 ≤ y.length) ∧
      oks.flatten = (opened (P.aesDec kb) iv cs).flatten := by
  by_cases hlong : 68 ≤ body.length
  · obtain ⟨n, rfl⟩ : ∃ n', n = n' + 1 := ⟨n - 1, by omega⟩
    obtain ⟨r', data, o, h1, h2, h3, h4, h6, h7, h8⟩ := read_first P hm hf5 hf hs hfuel hp hu h5 hiv hX hlong
    have e2 := congrArg List.length h3.cont
    rw [hX] at e2
    have hdl : data.length ≠ 0 := fun h0 => h4 (List.length_eq_zero_iff.mp h0)
    simp only [List.length_append] at e2
    obtain ⟨i, oks, more, y, p1, p2, p3, p4, p5, p6, p7, p8, p9⟩ := reads_released P hm fuel n r' o data (by omega) h3 h6 h7
      (by omega)
    have hfull : (data ++ more).length % 16 = 0 := by rw [List.length_append]; have := h3.full; omega
    have hcs : AllBlocks (blocks16 (data ++ more)) := blocks16_full _ hfull
    have hbody : body = (data ++ more) ++ y := by
      rw [hX, List.append_assoc, List.append_assoc, List.append_assoc] at p7
      exact List.append_cancel_left (List.append_cancel_left p7)
    refine ⟨o :: oks, blocks16 (data ++ more), y, by simp; omega, ?_, ?_, hcs, ?_, p8, ?_, ?_⟩
    · show (decReads P m c fuel (DecReader.new s) (List.replicate (n + 1) (-1))).1.take (oks.length + 1) = _
      simp only [List.replicate_succ, decReads, h1, List.take_succ_cons, p4, p2, List.map_cons]
    · intro x hx
      rcases List.mem_cons.mp hx with rfl | hx
      · exact h2
      · exact p3 x hx
    · rw [flatten_blocks16]; exact hbody
    · right
      rcases p9 with p9 | p9
      · have e3 := congrArg List.length hbody
        rw [p9] at e3
        simp only [List.length_append, List.length_nil] at e3
        rcases h3.more with h8 | h8
        · exact absurd h8 h4
        · omega
      · exact p9
    · rw [List.flatten_cons, p5, ← cbcD_opened P _ _ _ hcs, flatten_blocks16]
  · exact ⟨[], [], body, by simp, by simp, by simp, by simp [AllBlocks], by simp, by omega, .inl rfl, rfl⟩

/-- C94 (finding): what this gives for an input put together from a genuine ciphertext.  Wherever a ciphertext block is in its
place, the block handed out for it is the block of the message, combined with the block that was before it and the block that
is before it now.  So the chooser of the block before decides how the block handed out differs from the message. -/
theorem C94_spliced (E D : Bytes → Bytes) (hD : ∀ x : Bytes, x.length = 16 → D (E x) = x) (iv iv' : Bytes) (ps cs cs' : List Bytes)
    (h : Cbc E iv ps cs) (hps : AllBlocks ps) (hcs : AllBlocks cs) (hiv : iv.length = 16) (i : Nat) (p b a a' : Bytes)
    (hp : ps[i]? = some p) (hc : cs[i]? = some b) (hc' : cs'[i]? = some b) (ha : (iv :: cs)[i]? = some a)
    (ha' : (iv' :: cs')[i]? = some a') : (opened D iv' cs')[i]? = some (xorBlock (xorBlock p a) a') := by
  obtain ⟨hi, rfl⟩ := List.getElem?_eq_some_iff.mp hp
  obtain ⟨hi', rfl⟩ := List.getElem?_eq_some_iff.mp hc
  obtain ⟨hia, rfl⟩ := List.getElem?_eq_some_iff.mp ha
  have hall : AllBlocks (iv :: cs) := by
    intro b hb
    rcases List.mem_cons.mp hb with rfl | hb
    · exact hiv
    · exact hcs b hb
  unfold opened
  rw [List.getElem?_zipWith, hc', ha', Cbc_block h i hi hi']
  simp only [Option.some.injEq]
  rw [hD _ (xorBlock_length (hps _ (List.getElem_mem _)) (hall _ (List.getElem_mem _)))]

theorem flatten_take {bs : List Bytes} (h : AllBlocks bs) (t : Bytes) (j : Nat) (hj : j ≤ bs.length) :
    (bs.flatten ++ t).take (16 * j) = (bs.take j).flatten := by
  have h2 : AllBlocks (bs.take j) := fun b hb => h b (List.mem_of_mem_take hb)
  have hl := flatten_length h2
  rw [List.length_take, Nat.min_eq_left hj] at hl
  conv_lhs => rw [← List.take_append_drop j bs, List.flatten_append, List.append_assoc]
  rw [← hl, List.take_left]

/-- C94 (finding): so a ciphertext whose initialization vector was changed is handed out as a message with the same change.
For every output of `Encrypt` and every block `change`, reads of the ciphertext with `change` applied to its initialization
vector return the message with `change` applied to its first sixteen bytes, except at most the last 31 bytes, before anything
is checked. -/
theorem C94_changed {σ} (m : Source σ) (good : σ → Prop) (rest : σ → Bytes) (left : σ → Nat) (f : Nat → Nat)
    (hm : Serves m good rest left f) (hf5 : ∀ n, 1 ≤ n → n ≤ 5 → f n ≤ 16) (hf : ∀ n, 1 ≤ n → n ≤ 16 → f n ≤ 52)
    (r : Encrypted P) (c : Czar) (hc : Loaded P c) (hd : c.keySet.Distinct P) (he : r.entry ∈ c.keySet.entries)
    (change : Bytes) (hch : change.length = 16) (s : σ) (hs : good s)
    (hX : rest s = r.out.take 5 ++ xorBlock ((r.out.drop 5).take 16) change ++ r.out.drop 21) (fuel : Nat) (hfuel : left s < fuel)
    (n : Nat) (hn : r.out.length ≤ n) :
    ∃ (oks : List Bytes) (count : Nat),
      (decReads P m c fuel (c.CreateDecryptingStreamReader s) (List.replicate n (-1))).1.take oks.length =
        oks.map (fun o => .ok (some o)) ∧ (∀ o ∈ oks, o ≠ []) ∧
      count ≤ r.m.length ∧ r.m.length < count + 32 ∧
      oks.flatten = (xorBlock (r.m.take 16) change ++ r.m.drop 16).take count := by
  obtain ⟨id, ps, hid, hpad, cs, hiv, hps, hcs, hcbc, hout⟩ :=
    (C83_encrypts P r.czar r.loaded r.entry r.primary r.key r.kb r.hb r.isAes r.usable r.rnd r.m r.out).mp r.made
  obtain ⟨iv, hivd⟩ : ∃ iv, iv = r.rnd.bytes 0 16 := ⟨_, rfl⟩
  rw [← hivd] at hiv hcbc hout
  obtain ⟨tag, htag⟩ : ∃ tag, tag = hmac P.sha1 r.hb (header id ++ iv ++ cs.flatten) := ⟨_, rfl⟩
  rw [← htag] at hout
  have htl : tag.length = 20 := by rw [htag]; exact P.sha1_length _
  have hl : (header id).length = 5 := by simp [header, ((KeyId_iff P _ _).mp hid).1]
  have hpar : c.ParseHeader (header id) = .ok (.aes r.key) := by
    obtain ⟨e', -, -, h1, h2⟩ := C21_lookup P c hc r.entry he id hid
    rw [h2 hd, r.isAes] at h1
    exact h1
  have hXs : rest s = header id ++ xorBlock iv change ++ (cs.flatten ++ tag) := by
    have e1 : r.out = header id ++ (iv ++ (cs.flatten ++ tag)) := by rw [hout]; simp only [List.append_assoc]
    have e2 : r.out.take 5 = header id := by rw [e1, List.take_left' hl]
    have e3 : r.out.drop 5 = iv ++ (cs.flatten ++ tag) := by rw [e1, List.drop_left' hl]
    have e4 : r.out.drop 21 = cs.flatten ++ tag := by
      rw [show 21 = 5 + 16 from rfl, ← List.drop_drop, e3, List.drop_left' hiv]
    rw [hX, e2, e3, e4, List.take_left' hiv]
  have hlc := flatten_length hcs
  have hlp := flatten_length hps
  have hcc := Cbc_length hcbc
  have hlen : r.out.length = 41 + 16 * cs.length := by
    rw [hout]; simp only [List.length_append, hl, hiv, hlc, htl]; omega
  rw [padded_unique hpad, padded_length] at hlp
  have hblk : ps.length = r.m.length / 16 + 1 := by unfold blockCount at hlp; omega
  obtain ⟨oks, cs₁, y, q1, q2, q3, q4, q5, q6, q7, q8⟩ := C94_released P m good rest left f hm hf5 hf c s hs fuel hfuel r.key r.kb r.hb
    (header id) (xorBlock iv change) (cs.flatten ++ tag) hpar r.usable hl (xorBlock_length hiv hch) hXs n (by
      rw [List.length_append]; omega)
  have hl1 := flatten_length q4
  have hl5 := congrArg List.length q5
  simp only [List.length_append, hlc, hl1, htl] at hl5
  have hj : cs₁.length < cs.length := by
    rcases q7 with q7 | q7
    · rw [q7]; simp only [List.length_nil]; omega
    · omega
  have hcs1 : cs₁ = cs.take cs₁.length := by
    have e := congrArg (List.take (16 * cs₁.length)) q5
    rw [flatten_take hcs tag _ (by omega), flatten_take q4 y _ (by omega), List.take_of_length_le (Nat.le_refl _)] at e
    have e' := congrArg blocks16 e
    rw [blocks16_flatten _ q4, blocks16_flatten _ (fun b hb => hcs b (List.mem_of_mem_take hb))] at e'
    exact e'.symm
  refine ⟨oks, 16 * cs₁.length, q2, q3, by omega, by omega, ?_⟩
  rw [q8, hcs1, List.length_take, Nat.min_eq_left (by omega)]
  generalize cs₁.length = j at hj
  have hgen : opened (P.aesDec r.kb) iv cs = ps := by
    rw [opened_eq, cbc_blocks P hcbc, cbcDec_cbcEnc P r.usable.len hiv hps]
  have hm : r.m ++ List.replicate (16 - r.m.length % 16) (UInt8.ofNat (16 - r.m.length % 16)) = ps.flatten :=
    (padded_unique hpad).symm
  cases j with
  | zero => rfl
  | succ j =>
    obtain ⟨c0, ct, rfl⟩ : ∃ c0 ct, cs = c0 :: ct := by
      cases cs with
      | nil => simp at hj
      | cons a b => exact ⟨a, b, rfl⟩
    rw [opened_cons] at hgen
    subst hgen
    have hD : (P.aesDec r.kb c0).length = 16 := P.aesDec_length _ _ r.usable.len (hcs c0 (by simp))
    have htake : ∀ (iv : Bytes) (cs : List Bytes) (j : Nat), opened (P.aesDec r.kb) iv (cs.take j) = (opened (P.aesDec r.kb) iv cs).take j := by
      intro iv cs
      induction cs generalizing iv with
      | nil => intro j; simp [opened]
      | cons a b ih =>
        intro j
        cases j with
        | zero => rfl
        | succ j => rw [List.take_succ_cons, opened_cons, opened_cons, ih, List.take_succ_cons]
    rw [List.take_succ_cons, opened_cons, htake]
    have hps' : AllBlocks (opened (P.aesDec r.kb) c0 ct) := fun b hb => hps b (by simp [hb])
    have hp0 : (xorBlock (P.aesDec r.kb c0) iv).length = 16 := xorBlock_length hD hiv
    rw [List.flatten_cons] at hm
    have hlen16 : 16 * (j + 1) ≤ r.m.length := by
      simp only [List.length_cons] at hj hcc hblk; omega
    have e1 : r.m.take 16 = xorBlock (P.aesDec r.kb c0) iv := by
      have := congrArg (List.take 16) hm
      rw [List.take_left' hp0, List.take_append_of_le_length (by omega)] at this
      exact this
    have e2 : (r.m.drop 16).take (16 * j) = ((opened (P.aesDec r.kb) c0 ct).take j).flatten := by
      have := congrArg (fun x => (List.drop 16 x).take (16 * j)) hm
      rw [List.drop_left' hp0, List.drop_append_of_le_length (by omega),
        List.take_append_of_le_length (by rw [List.length_drop]; omega)] at this
      rw [this, ← flatten_take hps' [] j (by
        simp only [List.length_cons] at hj hcc; omega), List.append_nil]
    rw [e1, List.flatten_cons, ← e2]
    have e3 : xorBlock (P.aesDec r.kb c0) (xorBlock iv change) = xorBlock (xorBlock (P.aesDec r.kb c0) iv) change := by
      unfold xorBlock
      apply List.ext_getElem
      · simp [hD, hiv, hch]
      · intro i h1 h2
        simp only [List.getElem_zipWith, UInt8.xor_assoc]
    rw [e3]
    have hx : (xorBlock (xorBlock (P.aesDec r.kb c0) iv) change).length = 16 := xorBlock_length hp0 hch
    rw [show 16 * (j + 1) = 16 + 16 * j by omega, ← hx, List.take_length_add_append, hx]

/-- example: 70 times the letter A encrypted; the first bit but one of the initialization vector changed; reads of everything
return 48 letters, the first one changed to C, and then InvalidSignature; `Decrypt` returns nothing of it -/
example : ((Czar.init realPrims .crypter Ex.aes).bind fun c => do
    let ct ← c.Encrypt realPrims Ex.rnd (List.replicate 70 65) none
    let change : Bytes := 2 :: List.replicate 15 0
    let bad := ct.take 5 ++ xorBlock ((ct.drop 5).take 16) change ++ ct.drop 21
    let r := c.CreateDecryptingStreamReader (σ := Bytes × List (Option Nat)) (bad, [some 3, none, some 30])
    let (xs, _) := decReads realPrims scheduled c 500 r (List.replicate 4 (-1))
    return (xs, c.Decrypt realPrims bad none)) =
    .ok ([.ok (some (67 :: List.replicate 15 65)), .ok (some (List.replicate 16 65)), .ok (some (List.replicate 16 65)),
      .error .invalidSignature], .error .invalidSignature) := by decide +kernel

/-- example: the hypotheses of `C94_changed` hold for this key set, a source that delivers as it likes, and any change -/
example (change : Bytes) (h : change.length = 16) (rnd : Rand) (pauses : List (Option Nat)) : ∃ (r : Encrypted realPrims) (c : Czar),
    r.m = List.replicate 70 65 ∧ Loaded realPrims c ∧ c.keySet.Distinct realPrims ∧ r.entry ∈ c.keySet.entries ∧
    ∃ (oks : List Bytes) (count : Nat), (decReads realPrims scheduled c
        (r.out.length + pauses.length + 1) (c.CreateDecryptingStreamReader
          (r.out.take 5 ++ xorBlock ((r.out.drop 5).take 16) change ++ r.out.drop 21, pauses)) (List.replicate r.out.length (-1))).1.take
        oks.length = oks.map (fun o => .ok (some o)) ∧ 38 < count ∧
      oks.flatten = (xorBlock (List.replicate 16 65) change ++ List.replicate 54 65).take count := by
  obtain ⟨c, hc, hd, -, e, k, kb, hb, hp, hk, hu⟩ := exAes_set
  obtain ⟨out, ho⟩ := C22_aes_encrypts realPrims c hc e k kb hb hp hk hu none rnd (List.replicate 70 65)
  obtain ⟨r, hr⟩ : ∃ r : Encrypted realPrims, r = ⟨c, e, k, kb, hb, rnd, List.replicate 70 65, out, hc, hp, hk, hu, ho⟩ := ⟨_, rfl⟩
  have hm : r.m = List.replicate 70 65 := by rw [hr]
  have hre : r.entry = e := by rw [hr]
  have hmem : r.entry ∈ c.keySet.entries := by rw [hre]; exact (primary_mem hp).1
  refine ⟨r, c, hm, hc, hd, hmem, ?_⟩
  obtain ⟨oks, count, h1, -, h3, h4, h5⟩ := C94_changed realPrims scheduled _ _ _ _ scheduled_serves (fun n _ h => by omega)
    (fun n _ h => by omega) r c hc hd hmem change h
    (r.out.take 5 ++ xorBlock ((r.out.drop 5).take 16) change ++ r.out.drop 21, pauses) trivial rfl (r.out.length + pauses.length + 1)
    (by simp [xorBlock]; omega) r.out.length (Nat.le_refl _)
  refine ⟨oks, count, h1, ?_, ?_⟩
  · rw [hm] at h4; simp at h4; omega
  · rw [h5, hm]; rfl

/-- example: the conditions on `f` hold for the reader of Base64 text that `CreateDecryptingStreamReader` puts in between -/
example : (∀ n, 1 ≤ n → n ≤ 5 → n - 1 + 3 * ((3 + n) / 4) ≤ 16) ∧ (∀ n, 1 ≤ n → n ≤ 16 → n - 1 + 3 * ((3 + n) / 4) ≤ 52) :=
  ⟨fun n _ _ => by omega, fun n _ _ => by omega⟩

/-- example: the hypotheses of `C94_spliced`, with a cipher that changes nothing: two blocks, of which the first is exchanged -/
example (a b iv x : Bytes) (ha : a.length = 16) (hb : b.length = 16) (hiv : iv.length = 16) :
    (opened id iv [x, xorBlock b (xorBlock a iv)])[1]? = some (xorBlock (xorBlock b (xorBlock a iv)) x) :=
  C94_spliced id id (fun _ _ => rfl) iv iv [a, b] [xorBlock a iv, xorBlock b (xorBlock a iv)] [x, xorBlock b (xorBlock a iv)]
    (.cons _ _ _ _ _ rfl (.cons _ _ _ _ _ rfl (.nil _))) (by simp [AllBlocks, ha, hb])
    (by
      have h1 := xorBlock_length ha hiv
      simp [AllBlocks, h1, xorBlock_length hb h1]) hiv 1 b _ _ x rfl rfl rfl rfl rfl

end Verif.Props
