import Verif.Lemmas.StreamsB64
import Verif.Lemmas.Cbc
import Verif.Props.Symmetric
namespace Verif
open Spec Props

variable (P : Prims)

/-- CBC encryption of whole blocks -/
def cbcE (kb iv d : Bytes) : Bytes := (cbcEncBlocks P kb iv (blocks16 d)).flatten

/-- CBC decryption of whole blocks -/
def cbcD (kb iv d : Bytes) : Bytes := (cbcDecBlocks P kb iv (blocks16 d)).flatten

/-- the chaining value after the ciphertext `d` -/
def chainD (iv d : Bytes) : Bytes := lastBlock iv (blocks16 d)

theorem lastBlock_append (iv : Bytes) (as bs : List Bytes) : lastBlock iv (as ++ bs) = lastBlock (lastBlock iv as) bs := by
  induction as generalizing iv with
  | nil => rfl
  | cons a as ih => rw [List.cons_append, lastBlock_cons, lastBlock_cons, ih]

theorem cbcE_length {kb iv d : Bytes} (hk : validAesKeyLen kb.length) (hiv : iv.length = 16) (h : d.length % 16 = 0) :
    (cbcE P kb iv d).length = d.length := by
  unfold cbcE
  have hf := blocks16_full _ h
  rw [flatten_length_full _ (cbcEnc_full P hk hiv hf), cbcEnc_length, ← flatten_length_full _ hf, flatten_blocks16]

theorem cbcD_length {kb iv d : Bytes} (hk : validAesKeyLen kb.length) (hiv : iv.length = 16) (h : d.length % 16 = 0) :
    (cbcD P kb iv d).length = d.length := by
  unfold cbcD
  have hf := blocks16_full _ h
  rw [flatten_length_full _ (cbcDec_full P hk hiv hf), cbcDec_length, ← flatten_length_full _ hf, flatten_blocks16]

theorem chainD_cbcE {kb iv d : Bytes} (hk : validAesKeyLen kb.length) (hiv : iv.length = 16) (h : d.length % 16 = 0) :
    chainD iv (cbcE P kb iv d) = lastBlock iv (cbcEncBlocks P kb iv (blocks16 d)) := by
  unfold chainD cbcE
  rw [blocks16_flatten _ (cbcEnc_full P hk hiv (blocks16_full _ h))]

theorem chainD_length {iv d : Bytes} (hiv : iv.length = 16) (h : d.length % 16 = 0) : (chainD iv d).length = 16 :=
  lastBlock_full hiv (blocks16_full _ h)

theorem cbcE_append {kb iv a b : Bytes} (hk : validAesKeyLen kb.length) (hiv : iv.length = 16) (h : a.length % 16 = 0) :
    cbcE P kb iv (a ++ b) = cbcE P kb iv a ++ cbcE P kb (chainD iv (cbcE P kb iv a)) b := by
  rw [chainD_cbcE P hk hiv h]
  unfold cbcE
  rw [blocks16_append _ _ h, cbcEnc_append, List.flatten_append]

theorem cbcD_append {kb iv a b : Bytes} (h : a.length % 16 = 0) :
    cbcD P kb iv (a ++ b) = cbcD P kb iv a ++ cbcD P kb (chainD iv a) b := by
  unfold cbcD chainD
  rw [blocks16_append _ _ h, cbcDec_append, List.flatten_append]

theorem chainD_append {iv a b : Bytes} (h : a.length % 16 = 0) : chainD iv (a ++ b) = chainD (chainD iv a) b := by
  unfold chainD
  rw [blocks16_append _ _ h, lastBlock_append]

theorem cbcD_cbcE {kb iv d : Bytes} (hk : validAesKeyLen kb.length) (hiv : iv.length = 16) (h : d.length % 16 = 0) :
    cbcD P kb iv (cbcE P kb iv d) = d := by
  unfold cbcD cbcE
  rw [blocks16_flatten _ (cbcEnc_full P hk hiv (blocks16_full _ h)), cbcDec_cbcEnc P hk hiv (blocks16_full _ h),
    flatten_blocks16]

theorem CbcObj.encrypt_cbcE {kb iv : Bytes} {d : Bytes} (hk : validAesKeyLen kb.length) (hiv : iv.length = 16) (h : d.length % 16 = 0) :
    CbcObj.encrypt P ⟨kb, iv⟩ d = .ok (cbcE P kb iv d, ⟨kb, chainD iv (cbcE P kb iv d)⟩) := by
  rw [chainD_cbcE P hk hiv h]
  unfold CbcObj.encrypt
  rw [if_neg (by omega)]; rfl

theorem CbcObj.decrypt_cbcD {kb iv : Bytes} {d : Bytes} (h : d.length % 16 = 0) :
    CbcObj.decrypt P ⟨kb, iv⟩ d = .ok (cbcD P kb iv d, ⟨kb, chainD iv d⟩) := by
  unfold CbcObj.decrypt
  rw [if_neg (by omega)]; rfl

/-- the state of an encrypting writer after the whole blocks `done` have been encrypted; `ws` are the
writes it has made to its output stream -/
structure EncMid {τ} (S : Sink τ) (out0 : τ) (k : AesKey) (kb hb iv : Bytes) (w : EncWriter τ) (ws : List Bytes) (done : Bytes) : Prop where
  key : w.key = k
  closed : w.closed = false
  hmac : w.hmac = ⟨hb, aesHeader P kb hb ++ iv ++ cbcE P kb iv done⟩
  cipher : w.cipher = ⟨kb, chainD iv (cbcE P kb iv done)⟩
  out : w.out = ws.foldl S.write out0
  flat : ws.flatten = aesHeader P kb hb ++ iv ++ cbcE P kb iv done
  full : done.length % 16 = 0
  data : w.data.length < 16

theorem EncWriter.new_mid {τ} (S : Sink τ) (out0 : τ) {k : AesKey} {kb hb iv : Bytes} (h : UsableAes k kb hb) (hiv : iv.length = 16) :
    ∃ w, EncWriter.new P S (.aes k) iv out0 = .ok w ∧ w.data = [] ∧
      EncMid P S out0 k kb hb iv w [aesHeader P kb hb ++ iv] [] := by
  have hh := aes_header P h
  simp only [bind, Except.bind] at hh
  refine ⟨⟨k, [], false, ⟨hb, aesHeader P kb hb ++ iv⟩, ⟨kb, iv⟩, S.write out0 (aesHeader P kb hb ++ iv)⟩, ?_, rfl, ?_⟩
  · unfold EncWriter.new
    simp only [h.aes, h.mac, bind, Except.bind, pure, Except.pure, CbcObj.new]
    rw [if_pos ⟨h.len, hiv⟩]
    simp only [HmacObj.new, HmacObj.update, List.nil_append]
    cases hx : k.hashId P with
    | error e => rw [hx] at hh; simp at hh
    | ok x => rw [hx] at hh; simp only at hh ⊢; rw [hh]
  · have e : cbcE P kb iv [] = [] := by unfold cbcE; rw [blocks16_nil]; rfl
    have e2 : chainD iv [] = iv := by unfold chainD; rw [blocks16_nil]; rfl
    exact ⟨rfl, rfl, by rw [e, List.append_nil], by rw [e, e2], rfl, by simp [e], by simp, by simp⟩

theorem EncMid.writeEncrypted {τ} {S : Sink τ} {out0 : τ} {k : AesKey} {kb hb iv : Bytes} (h : UsableAes k kb hb)
    (hiv : iv.length = 16) {w : EncWriter τ} {ws : List Bytes} {done : Bytes} (hw : EncMid P S out0 k kb hb iv w ws done)
    (d : Bytes) (pad : Bool) (x : Bytes) (hx : x = if pad then aesPad d else d) (hd : x.length % 16 = 0) :
    ∃ w', w.writeEncrypted P S d pad = (.ok (), w') ∧ w'.data = w.data ∧
      EncMid P S out0 k kb hb iv w' (ws ++ [cbcE P kb (chainD iv (cbcE P kb iv done)) x]) (done ++ x) := by
  have hl : (chainD iv (cbcE P kb iv done)).length = 16 :=
    chainD_length hiv (by rw [cbcE_length P h.len hiv hw.full]; exact hw.full)
  unfold EncWriter.writeEncrypted
  simp only [← hx, hw.cipher, CbcObj.encrypt_cbcE P h.len hl hd]
  refine ⟨_, rfl, rfl, ?_⟩
  have e := cbcE_append P (kb := kb) (b := x) h.len hiv hw.full
  have hfd : (cbcE P kb iv done).length % 16 = 0 := by rw [cbcE_length P h.len hiv hw.full]; exact hw.full
  refine ⟨hw.key, hw.closed, ?_, ?_, ?_, ?_, ?_, hw.data⟩
  · simp only [hw.hmac, HmacObj.update, e, List.append_assoc]
  · simp only [e, chainD_append hfd]
  · simp only [hw.out, List.foldl_append, List.foldl_cons, List.foldl_nil]
  · simp only [List.flatten_append, hw.flat, e, List.flatten_cons, List.flatten_nil, List.append_nil, List.append_assoc]
  · rw [List.length_append]; have := hw.full; omega

theorem noPad_nat (n : Nat) : noPadBufferSize (n : Int) = ((max (16 * (n / 16)) 16 : Nat) : Int) := by
  unfold noPadBufferSize; omega

theorem EncMid.write {τ} {S : Sink τ} {out0 : τ} {k : AesKey} {kb hb iv : Bytes} (h : UsableAes k kb hb)
    (hiv : iv.length = 16) {w : EncWriter τ} {ws : List Bytes} {done : Bytes} (hw : EncMid P S out0 k kb hb iv w ws done)
    (d : Bytes) :
    ∃ w' ws' done', w.write P S d = (.ok (), w') ∧ EncMid P S out0 k kb hb iv w' ws' done' ∧
      done' ++ w'.data = done ++ w.data ++ d := by
  unfold EncWriter.write
  rw [if_neg (by rw [hw.closed]; simp)]
  simp only [noPad_nat, sliceTo_nat, sliceFrom_nat]
  generalize hD : w.data ++ d = D
  by_cases hn : 16 ≤ D.length
  · have hmax : max (16 * (D.length / 16)) 16 = 16 * (D.length / 16) := by omega
    rw [hmax, if_pos (by omega)]
    -- the state with the longer buffer differs only in `data`
    have hl : (chainD iv (cbcE P kb iv done)).length = 16 :=
      chainD_length hiv (by rw [cbcE_length P h.len hiv hw.full]; exact hw.full)
    have hx : (D.take (16 * (D.length / 16))).length % 16 = 0 := by rw [List.length_take]; omega
    obtain ⟨w1, q1, q2, q3⟩ := EncMid.writeEncrypted P h hiv hw (D.take (16 * (D.length / 16))) false
      (D.take (16 * (D.length / 16))) (by simp) hx
    have q1' : ({ w with data := D } : EncWriter τ).writeEncrypted P S (D.take (16 * (D.length / 16))) false =
        (.ok (), { w1 with data := D }) := by
      unfold EncWriter.writeEncrypted at q1 ⊢
      simp only [Bool.false_eq_true, if_false, hw.cipher, CbcObj.encrypt_cbcE P h.len hl hx, Prod.mk.injEq, true_and] at q1 ⊢
      rw [← q1]
    rw [q1']
    refine ⟨_, _, _, rfl, ⟨q3.key, q3.closed, q3.hmac, q3.cipher, q3.out, q3.flat, q3.full, ?_⟩, ?_⟩
    · show (D.drop (16 * (D.length / 16))).length < 16
      rw [List.length_drop]; omega
    · show (done ++ D.take (16 * (D.length / 16))) ++ D.drop (16 * (D.length / 16)) = _
      rw [List.append_assoc, List.take_append_drop, List.append_assoc, hD]
  · have hmax : max (16 * (D.length / 16)) 16 = 16 := by omega
    rw [hmax, if_neg (by omega)]
    have e0 : sliceFrom D 0 = D := by
      have := sliceFrom_nat D 0; simpa using this
    refine ⟨_, ws, done, rfl, ⟨hw.key, hw.closed, hw.hmac, hw.cipher, hw.out, hw.flat, hw.full, ?_⟩, ?_⟩
    · show (sliceFrom D 0).length < 16
      rw [e0]; omega
    · show done ++ sliceFrom D 0 = _
      rw [e0, List.append_assoc, hD]

/-- a program that writes the chunks one after the other, stopping at the first exception -/
def EncWriter.writeAll {τ} (S : Sink τ) (w : EncWriter τ) : List Bytes → Py Unit × EncWriter τ
  | [] => (.ok (), w)
  | d :: ds =>
    match w.write P S d with
    | (.error e, w) => (.error e, w)
    | (.ok (), w) => EncWriter.writeAll S w ds

theorem EncMid.writeAll {τ} {S : Sink τ} {out0 : τ} {k : AesKey} {kb hb iv : Bytes} (h : UsableAes k kb hb)
    (hiv : iv.length = 16) : ∀ (chunks : List Bytes) {w : EncWriter τ} {ws : List Bytes} {done : Bytes},
      EncMid P S out0 k kb hb iv w ws done →
    ∃ w' ws' done', w.writeAll P S chunks = (.ok (), w') ∧ EncMid P S out0 k kb hb iv w' ws' done' ∧
      done' ++ w'.data = done ++ w.data ++ chunks.flatten
  | [], w, ws, done, hw => ⟨w, ws, done, rfl, hw, by simp⟩
  | d :: ds, w, ws, done, hw => by
    obtain ⟨w1, ws1, done1, p1, p2, p3⟩ := EncMid.write P h hiv hw d
    obtain ⟨w2, ws2, done2, q1, q2, q3⟩ := EncMid.writeAll h hiv ds p2
    refine ⟨w2, ws2, done2, ?_, q2, ?_⟩
    · simp only [EncWriter.writeAll, p1, q1]
    · rw [q3, p3]; simp

theorem aesPad_append {a b : Bytes} (h : a.length % 16 = 0) : a ++ aesPad b = aesPad (a ++ b) := by
  unfold aesPad
  have : (a ++ b).length % 16 = b.length % 16 := by rw [List.length_append]; omega
  simp only [this, List.append_assoc]

theorem EncMid.flush {τ} {S : Sink τ} {out0 : τ} {k : AesKey} {kb hb iv : Bytes} (h : UsableAes k kb hb)
    (hiv : iv.length = 16) {w : EncWriter τ} {ws : List Bytes} {done : Bytes} (hw : EncMid P S out0 k kb hb iv w ws done) :
    ∃ (w' : EncWriter τ) (ws' : List Bytes), w.flush P S = (.ok (), w') ∧ w'.data = w.data ∧ w'.closed = false ∧
      w'.hmac = ⟨hb, aesHeader P kb hb ++ iv ++ aesBody P kb iv (done ++ w.data)⟩ ∧
      w'.cipher = ⟨kb, chainD iv (aesBody P kb iv (done ++ w.data))⟩ ∧
      w'.out = S.flush (ws'.foldl S.write out0) ∧
      ws'.flatten = aesHeader P kb hb ++ iv ++ aesBody P kb iv (done ++ w.data) ++
        hmacSha1 P hb (aesHeader P kb hb ++ iv ++ aesBody P kb iv (done ++ w.data)) := by
  obtain ⟨w1, q1, q2, q3⟩ := EncMid.writeEncrypted P h hiv hw w.data true (aesPad w.data) (by simp)
    (by rw [aesPad_length]; omega)
  have e : cbcE P kb iv (done ++ aesPad w.data) = aesBody P kb iv (done ++ w.data) := by
    rw [aesPad_append hw.full]; rfl
  unfold EncWriter.flush
  simp only [hw.closed, Bool.false_eq_true, if_false, q1]
  refine ⟨_, ws ++ [cbcE P kb (chainD iv (cbcE P kb iv done)) (aesPad w.data)] ++
    [hmacSha1 P hb (aesHeader P kb hb ++ iv ++ aesBody P kb iv (done ++ w.data))], rfl, q2, q3.closed, ?_, ?_, ?_, ?_⟩
  · simp only [q3.hmac, e]
  · simp only [q3.cipher, e]
  · simp only [q3.out, q3.hmac, HmacObj.digest, e, List.foldl_append, List.foldl_cons, List.foldl_nil]
  · have := q3.flat
    rw [e] at this
    rw [List.flatten_append, this]; simp

end Verif
