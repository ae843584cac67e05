import Verif.Model.M2Crypto
import Verif.Lemmas.StreamsEnc
import Verif.Model.Aes
/-
C66: encrypting with M2Crypto instead of PyCrypto.
-/
namespace Verif.Props
open Spec
variable (P : Prims)

theorem evp_update_append (c : EvpCtx) (a b : Bytes) :
    c.update P (a ++ b) =
      ((c.update P a).1 ++ ((c.update P a).2.update P b).1, ((c.update P a).2.update P b).2) := by
  obtain ⟨op, key, iv, buf⟩ := c
  have hd : (buf ++ a) = (buf ++ a).take (16 * ((buf ++ a).length / 16)) ++ (buf ++ a).drop (16 * ((buf ++ a).length / 16)) :=
    (List.take_append_drop _ _).symm
  generalize hx : (buf ++ a).take (16 * ((buf ++ a).length / 16)) = x at hd
  generalize hy : (buf ++ a).drop (16 * ((buf ++ a).length / 16)) = y at hd
  have lx : x.length = 16 * ((buf ++ a).length / 16) := by rw [← hx, List.length_take]; omega
  have ly : y.length = (buf ++ a).length % 16 := by rw [← hy, List.length_drop]; omega
  have hall : buf ++ (a ++ b) = x ++ (y ++ b) := by rw [← List.append_assoc, hd, List.append_assoc]
  have hdiv : 16 * ((buf ++ (a ++ b)).length / 16) = x.length + 16 * ((y ++ b).length / 16) := by
    rw [hall]; simp only [List.length_append] at *; omega
  have ht : (buf ++ (a ++ b)).take (16 * ((buf ++ (a ++ b)).length / 16)) = x ++ (y ++ b).take (16 * ((y ++ b).length / 16)) := by
    rw [hdiv, hall, List.take_append, List.take_of_length_le (Nat.le_add_right _ _), Nat.add_sub_cancel_left]
  have hr : (buf ++ (a ++ b)).drop (16 * ((buf ++ (a ++ b)).length / 16)) = (y ++ b).drop (16 * ((y ++ b).length / 16)) := by
    rw [hdiv, hall, List.drop_append, List.drop_eq_nil_of_le (Nat.le_add_right _ _), Nat.add_sub_cancel_left, List.nil_append]
  have hbl : blocks16 (x ++ (y ++ b).take (16 * ((y ++ b).length / 16))) =
      blocks16 x ++ blocks16 ((y ++ b).take (16 * ((y ++ b).length / 16))) := blocks16_append _ _ (by omega)
  cases op with
  | encrypt =>
    simp only [EvpCtx.update, ht, hr, hx, hy, hbl, cbcEnc_append, List.flatten_append, lastBlock_append]
  | decrypt =>
    simp only [EvpCtx.update, ht, hr, hx, hy, hbl, cbcDec_append, List.flatten_append, lastBlock_append]

theorem evp_update_op (c : EvpCtx) (a : Bytes) : (c.update P a).2.op = c.op := by
  obtain ⟨op, key, iv, buf⟩ := c; cases op <;> rfl

theorem evp_update_buf (c : EvpCtx) (a : Bytes) :
    (c.update P a).2.buf = (c.buf ++ a).drop (16 * ((c.buf ++ a).length / 16)) := by
  obtain ⟨op, key, iv, buf⟩ := c; cases op <;> rfl

/-- the call of the adaptor for a direction -/
def evpCall (op : EvpOp) (a : EvpAdaptor) (s : Bytes) : Py (Bytes × EvpAdaptor) :=
  match op with
  | .encrypt => a.encrypt P s
  | .decrypt => a.decrypt P s

/-- several calls of `encrypt`, or of `decrypt`, with the given pieces, one after the other, and then `final`; the
outputs put together -/
def evpAll (op : EvpOp) : EvpAdaptor → List Bytes → Py Bytes
  | a, [] => a.final
  | a, d :: ds =>
    match evpCall P op a d with
    | .error e => .error e
    | .ok (out, a) => (evpAll op a ds).map (out ++ ·)

/-- the call of PyCrypto's object for a direction -/
def pycCall (op : EvpOp) (c : CbcObj) (s : Bytes) : Py (Bytes × CbcObj) :=
  match op with
  | .encrypt => c.encrypt P s
  | .decrypt => c.decrypt P s

/-- the same with PyCrypto's object, whose `final` is empty -/
def pycAll (op : EvpOp) : CbcObj → List Bytes → Py Bytes
  | _, [] => .ok []
  | c, d :: ds =>
    match pycCall P op c d with
    | .error e => .error e
    | .ok (out, c) => (pycAll op c ds).map (out ++ ·)

private def only (op : EvpOp) (key iv : Bytes) (c : EvpCtx) : EvpAdaptor :=
  match op with
  | .encrypt => ⟨key, iv, none, some c⟩
  | .decrypt => ⟨key, iv, some c, none⟩

private theorem only_call (op : EvpOp) (key iv : Bytes) (c : EvpCtx) (d : Bytes) :
    evpCall P op (only op key iv c) d = .ok ((c.update P d).1, only op key iv (c.update P d).2) := by
  cases op <;> rfl

private theorem only_final (op : EvpOp) (key iv : Bytes) (c : EvpCtx) : (only op key iv c).final = c.final := by
  cases op <;> rfl

theorem evp_update_buf_lt (c : EvpCtx) (a : Bytes) : (c.update P a).2.buf.length < 16 := by
  rw [evp_update_buf, List.length_drop]; omega

private theorem only_all (op : EvpOp) (key iv : Bytes) (c : EvpCtx) (d : Bytes) (ds : List Bytes) :
    evpAll P op (only op key iv c) (d :: ds) =
      ((c.update P (d ++ ds.flatten)).2.final).map ((c.update P (d ++ ds.flatten)).1 ++ ·) := by
  induction ds generalizing c d with
  | nil =>
    rw [evpAll, only_call, List.flatten_nil, List.append_nil]
    dsimp only
    rw [evpAll, only_final]
  | cons e ds ih =>
    rw [evpAll, only_call]
    dsimp only
    rw [ih, List.flatten_cons, evp_update_append P c d]
    dsimp only
    rcases ((c.update P d).2.update P (e ++ ds.flatten)).2.final with e | o
    · rfl
    · simp [Except.map]

private theorem new_call (op : EvpOp) (key iv d : Bytes) (hk : validAesKeyLen key.length) (hiv : iv.length = 16) :
    evpCall P op (EvpAdaptor.new key iv) d = evpCall P op (only op key iv ⟨op, key, iv, []⟩) d := by
  cases op <;>
    simp [evpCall, EvpAdaptor.encrypt, EvpAdaptor.decrypt, EvpAdaptor.new, EvpAdaptor.cipher, EvpCtx.new, hk, hiv, only]

private theorem new_all (op : EvpOp) (key iv : Bytes) (hk : validAesKeyLen key.length) (hiv : iv.length = 16)
    (d : Bytes) (ds : List Bytes) :
    evpAll P op (EvpAdaptor.new key iv) (d :: ds) =
      (((⟨op, key, iv, []⟩ : EvpCtx).update P (d ++ ds.flatten)).2.final).map
        (((⟨op, key, iv, []⟩ : EvpCtx).update P (d ++ ds.flatten)).1 ++ ·) := by
  rw [← only_all P op key iv, evpAll, evpAll, new_call P op key iv d hk hiv]

theorem cbc_unique {E : Bytes → Bytes} {iv : Bytes} {ps cs cs' : List Bytes} (h : Cbc E iv ps cs) (h' : Cbc E iv ps cs') :
    cs = cs' := by
  induction h generalizing cs' with
  | nil => cases h'; rfl
  | cons iv p c ps cs hc _ ih =>
    cases h' with
    | cons _ _ c' _ cs' hc' h' =>
      subst hc; subst hc'
      rw [ih h']

private theorem update_whole (op : EvpOp) (key iv : Bytes) (bs : List Bytes) (hb : AllBlocks bs) :
    (⟨op, key, iv, []⟩ : EvpCtx).update P bs.flatten =
      match op with
      | .encrypt => ((cbcEncBlocks P key iv bs).flatten, ⟨op, key, lastBlock iv (cbcEncBlocks P key iv bs), []⟩)
      | .decrypt => ((cbcDecBlocks P key iv bs).flatten, ⟨op, key, lastBlock iv bs, []⟩) := by
  have hl := flatten_length_full bs hb
  have hn : 16 * (bs.flatten.length / 16) = bs.flatten.length := by omega
  cases op <;> simp only [EvpCtx.update, List.nil_append, hn, List.take_length, List.drop_length, blocks16_flatten bs hb]

/-- C66: with M2Crypto, a message made of whole blocks may be handed to `encrypt` in pieces of any lengths: what
`encrypt` and `final` return, put together, is the CBC encryption of the message. -/
theorem C66_pieces (key iv : Bytes) (hk : validAesKeyLen key.length) (hiv : iv.length = 16)
    (ps cs pieces : List Bytes) (hps : AllBlocks ps) (hcs : Cbc (P.aesEnc key) iv ps cs)
    (hne : pieces ≠ []) (hp : pieces.flatten = ps.flatten) :
    evpAll P .encrypt (EvpAdaptor.new key iv) pieces = .ok cs.flatten := by
  obtain ⟨d, ds, rfl⟩ := List.exists_cons_of_ne_nil hne
  rw [new_all P .encrypt key iv hk hiv, ← List.flatten_cons, hp, update_whole P .encrypt key iv ps hps]
  dsimp only
  rw [cbc_unique hcs (cbc_spec P key iv ps)]
  simp [EvpCtx.final, Except.map]

/-- C66: and the ciphertext may be handed to `decrypt` in pieces of any lengths. -/
theorem C66_pieces_decrypt (key iv : Bytes) (hk : validAesKeyLen key.length) (hiv : iv.length = 16)
    (ps cs pieces : List Bytes) (hps : AllBlocks ps) (hcs : Cbc (P.aesEnc key) iv ps cs)
    (hne : pieces ≠ []) (hp : pieces.flatten = cs.flatten) :
    evpAll P .decrypt (EvpAdaptor.new key iv) pieces = .ok ps.flatten := by
  have e := cbc_unique hcs (cbc_spec P key iv ps)
  have hcf : AllBlocks cs := by rw [e]; exact cbcEnc_full P hk hiv hps
  obtain ⟨d, ds, rfl⟩ := List.exists_cons_of_ne_nil hne
  rw [new_all P .decrypt key iv hk hiv, ← List.flatten_cons, hp, update_whole P .decrypt key iv cs hcf]
  dsimp only
  rw [e, cbcDec_cbcEnc P hk hiv hps]
  simp [EvpCtx.final, Except.map]

/-- C66: a message which is not made of whole blocks is an error when `final` is called, whatever the pieces. -/
theorem C66_incomplete (op : EvpOp) (key iv : Bytes) (hk : validAesKeyLen key.length) (hiv : iv.length = 16)
    (pieces : List Bytes) (hp : pieces.flatten.length % 16 ≠ 0) :
    evpAll P op (EvpAdaptor.new key iv) pieces = .error .valueError := by
  have hne : pieces ≠ [] := by rintro rfl; simp at hp
  obtain ⟨d, ds, rfl⟩ := List.exists_cons_of_ne_nil hne
  rw [new_all P op key iv hk hiv, ← List.flatten_cons]
  unfold EvpCtx.final
  rw [evp_update_buf, if_neg, Except.map]
  intro h
  have := congrArg List.length h
  simp only [List.nil_append, List.length_drop, List.length_nil] at this
  omega

/-- C66: PyCrypto's object takes pieces only if each of them is made of whole blocks. -/
theorem C66_pycrypto_pieces (op : EvpOp) (c : CbcObj) (pieces : List Bytes) :
    (∃ out, pycAll P op c pieces = .ok out) ↔ ∀ d ∈ pieces, d.length % 16 = 0 := by
  induction pieces generalizing c with
  | nil => simp [pycAll]
  | cons d ds ih =>
    rw [pycAll, List.forall_mem_cons]
    by_cases h : d.length % 16 = 0
    · cases op <;>
      · simp only [pycCall, CbcObj.encrypt, CbcObj.decrypt, h, ne_eq, not_true_eq_false, if_false, true_and]
        rw [← ih]
        constructor
        · rintro ⟨out, ho⟩
          generalize pycAll P _ _ ds = r at ho ⊢
          rcases r with e | o
          · cases ho
          · exact ⟨o, rfl⟩
        · rintro ⟨out, ho⟩
          rw [ho]; exact ⟨_, rfl⟩
    · cases op <;> simp [pycCall, CbcObj.encrypt, CbcObj.decrypt, h]

/-- C66: `final()` is an assertion error on an adaptor that has not been used, and on one that has been used in both
directions. -/
theorem C66_final_assertion (key iv p q : Bytes) :
    (EvpAdaptor.new key iv).final = .error .assertionError ∧
    (∀ o o' a b, (EvpAdaptor.new key iv).encrypt P p = .ok (o, a) → a.decrypt P q = .ok (o', b) →
      b.final = .error .assertionError) ∧
    (∀ o o' a b, (EvpAdaptor.new key iv).decrypt P p = .ok (o, a) → a.encrypt P q = .ok (o', b) →
      b.final = .error .assertionError) := by
  refine ⟨rfl, ?_, ?_⟩ <;>
  · intro o o' a b h1 h2
    simp only [EvpAdaptor.encrypt, EvpAdaptor.decrypt, bind, Except.bind, pure, Except.pure] at h1 h2
    split at h1
    · cases h1
    · cases h1
      split at h2
      · cases h2
      · cases h2; rfl

/-- C66: the two directions of an adaptor do not disturb each other: each has its own chaining value, which starts
from the IV.  (PyCrypto's object has one chaining value for both.) -/
theorem C66_directions (key iv p q : Bytes) (hk : validAesKeyLen key.length) (hiv : iv.length = 16) :
    ∃ o a b o', (EvpAdaptor.new key iv).encrypt P p = .ok (o, a) ∧ a.decrypt P q = .ok (o', b) ∧
      ∃ a', (EvpAdaptor.new key iv).decrypt P q = .ok (o', a') := by
  simp [EvpAdaptor.encrypt, EvpAdaptor.decrypt, EvpAdaptor.new, EvpAdaptor.cipher, EvpCtx.new, hk, hiv, bind, Except.bind,
    pure, Except.pure]

/-- C66: `AesKey.Encrypt` gives the same ciphertext, or the same exception, with either library, for every key,
initialisation vector and message. -/
theorem C66_same_ciphertext (lib : CryptLib) (k : AesKey) (iv data : Bytes) (hiv : iv.length = 16) :
    k.EncryptLib P lib iv data = k.Encrypt P iv data := by
  unfold AesKey.EncryptLib AesKey.Encrypt
  dsimp only
  rcases k.keyBytes with e | kb
  · rfl
  have hp : (aesPad data).length % 16 = 0 := by rw [aesPad_length]; omega
  have : encryptWith P lib kb iv (aesPad data) =
      (do let c ← CbcObj.new kb iv; let (ciph, _) ← c.encrypt P (aesPad data); return ciph : Py Bytes) := by
    cases lib with
    | pycrypto =>
      simp only [encryptWith, List.append_nil]
    | m2crypto =>
      have h16 : 16 * ((aesPad data).length / 16) = (aesPad data).length := by omega
      by_cases hv : validAesKeyLen kb.length
      · simp [encryptWith, EvpAdaptor.encrypt, EvpAdaptor.new, EvpAdaptor.cipher, EvpCtx.new, hv, hiv, CbcObj.new,
          CbcObj.encrypt, hp, EvpAdaptor.final, EvpCtx.update, EvpCtx.final, h16, bind, Except.bind, pure, Except.pure]
      · simp [encryptWith, EvpAdaptor.encrypt, EvpAdaptor.new, EvpAdaptor.cipher, EvpCtx.new, hv, hiv, CbcObj.new,
          bind, Except.bind]
  show (do let ciph ← encryptWith P lib kb iv (aesPad data); _ : Py Bytes) = _
  rw [this]
  show _ = (do let c ← CbcObj.new kb iv; _ : Py Bytes)
  rcases CbcObj.new kb iv with e | c
  · rfl
  · show (do let ciph ← (do let (ciph, _) ← c.encrypt P (aesPad data); return ciph : Py Bytes); _ : Py Bytes) =
      (do let (ciph, _) ← c.encrypt P (aesPad data); _ : Py Bytes)
    rcases c.encrypt P (aesPad data) with e | ⟨a, b⟩ <;> rfl

/-- C66: in particular a ciphertext made with M2Crypto is decrypted (with PyCrypto, keys.py:468) to the message. -/
theorem C66_round_trip (lib : CryptLib) (k : AesKey) (kb hb : Bytes) (h : UsableAes k kb hb) (iv data : Bytes)
    (hiv : iv.length = 16) :
    ∃ c, k.EncryptLib P lib iv data = .ok c ∧ k.Decrypt P c = .ok data := by
  rw [C66_same_ciphertext P lib k iv data hiv]
  obtain ⟨c, hc, hd, -⟩ := C15_round_trip_layout P k kb hb h iv hiv data
  exact ⟨c, hc, hd⟩

/-- instance: a message of two blocks in pieces of 5, 0, 20 and 7 bytes, which PyCrypto refuses -/
example :
    evpAll realPrims .encrypt (EvpAdaptor.new (List.replicate 16 9) (List.replicate 16 1))
        [List.replicate 5 3, [], List.replicate 20 3, List.replicate 7 3] =
      .ok (cbcEncBlocks realPrims (List.replicate 16 9) (List.replicate 16 1) [List.replicate 16 3, List.replicate 16 3]).flatten ∧
    ¬ ∃ out, pycAll realPrims .encrypt ⟨List.replicate 16 9, List.replicate 16 1⟩
        [List.replicate 5 3, [], List.replicate 20 3, List.replicate 7 3] = .ok out := by
  refine ⟨C66_pieces realPrims _ _ (by decide) (by decide) [List.replicate 16 3, List.replicate 16 3] _ _ (by unfold AllBlocks; decide)
    (cbc_spec _ _ _ _) (by decide) (by decide), ?_⟩
  rw [C66_pycrypto_pieces]
  decide

example : ∃ c, exAes.EncryptLib realPrims .m2crypto (List.replicate 16 1) (bstr "attack at dawn") = .ok c ∧
    exAes.Decrypt realPrims c = .ok (bstr "attack at dawn") :=
  C66_round_trip realPrims .m2crypto exAes _ _
    ⟨Base64WSDecode_encode (List.replicate 16 9), by decide, Base64WSDecode_encode (List.replicate 32 7)⟩ _ _ (by decide)

end Verif.Props
