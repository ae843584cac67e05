import Verif.Spec.Attached
import Verif.Props.Signatures
/-
C81: exactly which blobs `AttachedVerify` accepts.  keyczar.py:408-447, util.py:421-429.
-/
namespace Verif.Props
open Verif Spec

theorem i2osp4_length (n : Nat) : (i2osp4 n).length = 4 := rfl

theorem unpackI_i2osp4 {v : Nat} (h : v < 2 ^ 32) :
    structUnpackI (i2osp4 v) = .ok (if v < 2 ^ 31 then (v : Int) else (v : Int) - 2 ^ 32) := by
  have e : ∀ m : Nat, (UInt8.ofNat (m % 256)).toNat = m % 256 := fun m => by rw [UInt8.toNat_ofNat']; omega
  have h1 : ((v / 16777216 % 256 * 256 + v / 65536 % 256) * 256 + v / 256 % 256) * 256 + v % 256 = v := by omega
  simp only [i2osp4, structUnpackI, e, h1]

theorem four_bytes (f : Bytes) (h : f.length = 4) : ∃ v, v < 2 ^ 32 ∧ f = i2osp4 v := by
  match f, h with
  | [a, b, c, d], _ =>
    have ha := UInt8.toNat_lt a; have hb := UInt8.toNat_lt b; have hc := UInt8.toNat_lt c; have hd := UInt8.toNat_lt d
    refine ⟨((a.toNat * 256 + b.toNat) * 256 + c.toNat) * 256 + d.toNat, by omega, ?_⟩
    have e : ∀ (x : UInt8) (n : Nat), n = x.toNat → x = UInt8.ofNat n := fun x n h => by rw [h]; simp
    simp only [i2osp4, List.cons.injEq, and_true]
    exact ⟨e _ _ (by omega), e _ _ (by omega), e _ _ (by omega), e _ _ (by omega)⟩

/-- how the blob is cut, from its length field -/
theorem unpack_field (hd rest : Bytes) (hl : hd.length = 5) (v : Nat) (hv : v < 2 ^ 32) :
    UnpackByteArray (hd ++ i2osp4 v ++ rest) (HEADER_SIZE : Nat) =
      let n : Int := if v < 2 ^ 31 then (v : Int) else (v : Int) - 2 ^ 32
      .ok (slice (hd ++ i2osp4 v ++ rest) 9 (9 + n), 9 + n) := by
  unfold UnpackByteArray
  have e : slice (hd ++ i2osp4 v ++ rest) ((HEADER_SIZE : Nat) : Int) (((HEADER_SIZE : Nat) : Int) + 4) = i2osp4 v := by
    have : (((HEADER_SIZE : Nat) : Int) + 4) = ((9 : Nat) : Int) := rfl
    rw [this, slice_nat]
    have e1 : (hd ++ i2osp4 v ++ rest).take 9 = hd ++ i2osp4 v := List.take_left' (by simp [hl, i2osp4])
    rw [e1]
    exact List.drop_left' hl
  rw [e, unpackI_i2osp4 hv]
  rfl

/-- what the reader takes out of a blob is given by `AttachedForm` -/
theorem cut_iff (id : Bytes) (hl : id.length = 4) (blob data sig : Bytes) :
    (blob.take 5 = header id ∧ ∃ off, UnpackByteArray blob (HEADER_SIZE : Nat) = .ok (data, off) ∧ sig = sliceFrom blob off) ↔
      AttachedForm id data sig blob := by
  have h5 : (header id).length = 5 := by simp [header, hl]
  constructor
  · rintro ⟨ht, off, h1, rfl⟩
    have hlen : 9 ≤ blob.length := by
      by_contra hlt
      have hu := h1
      unfold UnpackByteArray at hu
      obtain ⟨n, hn, -⟩ := bind_ok hu
      have e0 : (((HEADER_SIZE : Nat) : Int) + 4) = ((9 : Nat) : Int) := rfl
      rw [e0, slice_nat] at hn
      have : ((blob.take 9).drop HEADER_SIZE).length ≠ 4 := by
        simp [HEADER_SIZE, KEY_HASH_SIZE]; omega
      unfold structUnpackI at hn
      split at hn
      · next heq => rw [heq] at this; exact this rfl
      · cases hn
    obtain ⟨f, rest, hf, rfl⟩ : ∃ f rest, f.length = 4 ∧ blob = header id ++ f ++ rest := by
      refine ⟨(blob.drop 5).take 4, (blob.drop 5).drop 4, by simp; omega, ?_⟩
      rw [List.append_assoc, List.take_append_drop, ← ht, List.take_append_drop]
    obtain ⟨v, hv, rfl⟩ := four_bytes f hf
    rw [unpack_field _ _ h5 v hv] at h1
    dsimp only at h1
    have h1' := Prod.mk.inj (Except.ok.inj h1)
    clear h1
    obtain ⟨hdata, hoff⟩ := h1'
    have hL : (header id ++ i2osp4 v ++ rest).length = 9 + rest.length := by simp [h5, i2osp4]; omega
    have h9 : (header id ++ i2osp4 v).length = 9 := by simp [h5, i2osp4]
    by_cases hs : v < 2 ^ 31
    · rw [if_pos hs] at hdata hoff
      have e1 : (9 + (v : Int)) = ((9 + v : Nat) : Int) := by push_cast; rfl
      have e2 : (9 : Int) = ((9 : Nat) : Int) := rfl
      rw [e1, e2, slice_nat] at hdata
      rw [← hoff, e1, sliceFrom_nat]
      have e3 : ((header id ++ i2osp4 v ++ rest).take (9 + v)).drop 9 = rest.take v := by
        rw [← h9, List.take_length_add_append, List.drop_left]
      have e4 : (header id ++ i2osp4 v ++ rest).drop (9 + v) = rest.drop v := by
        rw [← h9, List.drop_length_add_append]
      rw [e3] at hdata
      rw [e4]
      by_cases hle : v ≤ rest.length
      · have hv' : v = data.length := by rw [← hdata, List.length_take]; omega
        have := AttachedForm.normal (id := id) data (rest.drop v) (by omega)
        have e5 : header id ++ i2osp4 v ++ rest = header id ++ lengthPrefixed data ++ rest.drop v := by
          rw [lengthPrefixed, ← hv', ← hdata]
          simp only [List.append_assoc, List.take_append_drop]
        rwa [← e5] at this
      · rw [List.take_of_length_le (by omega)] at hdata
        rw [List.drop_eq_nil_of_le (by omega), hdata]
        exact .beyond _ v (by rw [← hdata]; omega) hs
    · rw [if_neg hs] at hdata hoff
      by_cases hb : 2 ^ 32 - 9 ≤ v
      · -- the offset is between 0 and 8
        have e1 : 9 + ((v : Int) - 2 ^ 32) = ((v - (2 ^ 32 - 9) : Nat) : Int) := by omega
        have e2 : (9 : Int) = ((9 : Nat) : Int) := rfl
        rw [e1, e2, slice_nat, List.drop_eq_nil_of_le (by rw [List.length_take]; omega)] at hdata
        rw [← hoff, e1, sliceFrom_nat, ← hdata]
        have := AttachedForm.before (id := id) rest (2 ^ 32 - v) (by omega) (by omega)
        rw [show 2 ^ 32 - (2 ^ 32 - v) = v by omega, show 9 - (2 ^ 32 - v) = v - (2 ^ 32 - 9) by omega] at this
        exact this
      · -- from the end
        obtain ⟨t, ht0, hvt⟩ : ∃ t, 0 < t ∧ v = 2 ^ 32 - 9 - t := ⟨2 ^ 32 - 9 - v, by omega, by omega⟩
        have htb : 9 + t ≤ 2 ^ 31 := by omega
        have e1 : 9 + ((v : Int) - 2 ^ 32) = -(t : Int) := by omega
        rw [e1] at hdata hoff
        rw [← hoff, sliceFrom_neg _ _ ht0, hL]
        unfold slice at hdata
        have e2 : clampIdx (header id ++ i2osp4 v ++ rest).length (-(t : Int)) = 9 + rest.length - t := by
          unfold clampIdx; rw [if_pos (by omega), hL]; omega
        have e3 : clampIdx (header id ++ i2osp4 v ++ rest).length 9 = 9 := by
          unfold clampIdx; rw [if_neg (by omega), hL]; simp
        rw [e2, e3] at hdata
        by_cases hle : t ≤ rest.length
        · have e4 : 9 + rest.length - t = 9 + (rest.length - t) := by omega
          have e5 : ((header id ++ i2osp4 v ++ rest).take (9 + (rest.length - t))).drop 9 = rest.take (rest.length - t) := by
            rw [← h9, List.take_length_add_append, List.drop_left]
          have e6 : (header id ++ i2osp4 v ++ rest).drop (9 + (rest.length - t)) = rest.drop (rest.length - t) := by
            rw [← h9, List.drop_length_add_append]
          rw [e4, e5] at hdata
          rw [e4, e6]
          have hsl : (rest.drop (rest.length - t)).length = t := by rw [List.length_drop]; omega
          have := AttachedForm.fromEnd (id := id) data (rest.drop (rest.length - t))
            (by intro h0; rw [h0] at hsl; simp at hsl; omega) (by omega)
          rw [hsl, ← hvt, List.append_assoc, ← hdata, List.take_append_drop] at this
          rwa [← hdata]
        · rw [List.drop_eq_nil_of_le (by rw [List.length_take]; omega)] at hdata
          rw [← hdata, hvt]
          exact .over rest t (by omega) htb
  · have head : ∀ (v : Nat) (rest : Bytes), (header id ++ i2osp4 v ++ rest).take 5 = header id := by
      intro v rest
      rw [List.append_assoc]
      exact List.take_left' h5
    have hL : ∀ (v : Nat) (rest : Bytes), (header id ++ i2osp4 v ++ rest).length = 9 + rest.length := by
      intro v rest; simp [h5, i2osp4]; omega
    have h9 : ∀ v, (header id ++ i2osp4 v).length = 9 := by intro v; simp [h5, i2osp4]
    have pos : ∀ (v n : Nat) (rest : Bytes), slice (header id ++ i2osp4 v ++ rest) 9 (9 + (n : Int)) = rest.take n := by
      intro v n rest
      rw [show 9 + (n : Int) = ((9 + n : Nat) : Int) by push_cast; rfl, show (9 : Int) = ((9 : Nat) : Int) from rfl, slice_nat]
      rw [← h9 v, List.take_length_add_append, List.drop_left]
    have posFrom : ∀ (v n : Nat) (rest : Bytes), sliceFrom (header id ++ i2osp4 v ++ rest) (9 + (n : Int)) = rest.drop n := by
      intro v n rest
      rw [show 9 + (n : Int) = ((9 + n : Nat) : Int) by push_cast; rfl, sliceFrom_nat]
      rw [← h9 v, List.drop_length_add_append]
    have neg : ∀ (v t : Nat) (rest : Bytes), 0 < t → slice (header id ++ i2osp4 v ++ rest) 9 (-(t : Int)) =
        ((header id ++ i2osp4 v ++ rest).take (9 + rest.length - t)).drop 9 := by
      intro v t rest ht0
      unfold slice
      have e2 : clampIdx (header id ++ i2osp4 v ++ rest).length (-(t : Int)) = 9 + rest.length - t := by
        unfold clampIdx; rw [if_pos (by omega), hL]; omega
      have e3 : clampIdx (header id ++ i2osp4 v ++ rest).length 9 = 9 := by
        unfold clampIdx; rw [if_neg (by omega), hL]; simp
      rw [e2, e3]
    intro h
    cases h with
    | normal data sig hd =>
      have e0 : header id ++ lengthPrefixed data ++ sig = header id ++ i2osp4 data.length ++ (data ++ sig) := by
        simp [lengthPrefixed]
      rw [e0]
      refine ⟨head _ _, 9 + (data.length : Int), ?_, ?_⟩
      · rw [unpack_field _ _ h5 data.length (by omega)]
        dsimp only
        rw [if_pos hd, pos, List.take_left' rfl]
      · rw [posFrom, List.drop_left' rfl]
    | fromEnd data sig hne hs =>
      have ht0 : 0 < sig.length := List.length_pos_iff.2 hne
      rw [List.append_assoc (header id ++ _)]
      obtain ⟨v, hv⟩ : ∃ v, v = 2 ^ 32 - 9 - sig.length := ⟨_, rfl⟩
      rw [← hv]
      refine ⟨head _ _, -(sig.length : Int), ?_, ?_⟩
      · rw [unpack_field _ _ h5 v (by omega)]
        dsimp only
        rw [if_neg (by omega), show 9 + ((v : Int) - 2 ^ 32) = -(sig.length : Int) by omega,
          neg _ _ _ ht0, List.length_append, show 9 + (data.length + sig.length) - sig.length = 9 + data.length by omega]
        congr 2
        rw [← h9 v, List.take_length_add_append, List.drop_left, List.take_left' rfl]
      · rw [sliceFrom_neg _ _ ht0, hL, List.length_append,
          show 9 + (data.length + sig.length) - sig.length = 9 + data.length by omega,
          ← h9 v, List.drop_length_add_append, List.drop_left' rfl]
    | beyond _ n h1 h2 =>
      refine ⟨head _ _, 9 + (n : Int), ?_, ?_⟩
      · rw [unpack_field _ _ h5 n (by omega)]
        dsimp only
        rw [if_pos h2, pos, List.take_of_length_le (by omega)]
      · rw [posFrom, List.drop_eq_nil_of_le (by omega)]
    | before rest n h1 h2 =>
      refine ⟨head _ _, ((9 - n : Nat) : Int), ?_, ?_⟩
      · rw [unpack_field _ _ h5 _ (by omega)]
        dsimp only
        rw [if_neg (by omega), show 9 + (((2 ^ 32 - n : Nat) : Int) - 2 ^ 32) = ((9 - n : Nat) : Int) by omega,
          show (9 : Int) = ((9 : Nat) : Int) from rfl, slice_nat, List.drop_eq_nil_of_le (by rw [List.length_take]; omega)]
      · rw [sliceFrom_nat]
    | over rest t h1 h2 =>
      refine ⟨head _ _, -(t : Int), ?_, ?_⟩
      · rw [unpack_field _ _ h5 _ (by omega)]
        dsimp only
        rw [if_neg (by omega), show 9 + (((2 ^ 32 - 9 - t : Nat) : Int) - 2 ^ 32) = -(t : Int) by omega,
          neg _ _ _ (by omega), List.drop_eq_nil_of_le (by rw [List.length_take]; omega)]
      · rw [sliceFrom_neg _ _ (by omega), hL]

variable (P : Prims)

/-- C81: a loaded key set accepts a blob, and returns `data`, exactly when the blob names a key of the set, is cut into `data`
and a signature as `AttachedForm` says, and that key verifies the signature over the data, the nonce with its length and the
version byte. -/
theorem C81_accepts (c : Czar) (hc : Loaded P c) (hd : c.keySet.Distinct P) (input blob nonce data : Bytes)
    (dec : Option (Bytes → Py Bytes)) (hdec : Decodes dec input blob) (hn : nonce.length < 2 ^ 31) :
    c.AttachedVerify P input nonce dec = .ok (some data) ↔
      ∃ e ∈ c.keySet.entries, ∃ id sig, KeyId P.sha1 e.key id ∧ AttachedForm id data sig blob ∧
        e.key.Verify P (attachedPayload data nonce) sig = .ok true := by
  have e5 : ∀ m, attachedPayload m nonce = m ++ packOne nonce ++ VERSION_BYTE := fun m => by
    simp [attachedPayload, lengthPrefixed, packOne, IntToBytes_i2osp4, VERSION_BYTE]
  constructor
  · intro h
    unfold Czar.AttachedVerify at h
    rw [hdec.bind] at h
    obtain ⟨⟨d, off⟩, h1, h⟩ := bind_ok h
    simp only at h
    obtain ⟨b, h2, h⟩ := bind_ok h
    cases b with
    | false => cases h
    | true =>
      have := Option.some.inj (Except.ok.inj h)
      subst this
      unfold Czar.InternalVerify at h2
      obtain ⟨k, h3, h2⟩ := bind_ok h2
      obtain ⟨n, h4, h2⟩ := bind_ok h2
      rw [sliceTo5] at h3
      rcases ParseHeader_cases P hc (blob.take 5) with ⟨-, hx⟩ | ⟨x, -, hx⟩ | ⟨e, he, id, hid, hb, hp⟩
      · rw [hx] at h3; cases h3
      · rw [hx] at h3; cases h3
      · rw [hp] at h3
        cases h3
        rw [PackByteArray_some hn] at h4
        cases h4
        exact ⟨e, he, id, sliceFrom blob off, hid,
          (cut_iff id ((KeyId_iff P _ _).mp hid).1 _ _ _).mp ⟨hb, off, h1, rfl⟩, by rw [e5]; exact h2⟩
  · rintro ⟨e, he, id, sig, hid, hf, hv⟩
    obtain ⟨hl, hk⟩ := (KeyId_iff P _ _).mp hid
    obtain ⟨hb, off, h1, rfl⟩ := (cut_iff id hl _ _ _).mpr hf
    unfold Czar.AttachedVerify Czar.InternalVerify
    have e7 : c.ParseHeader (header id) = .ok e.key := by
      rw [header, ParseHeader_zero, Czar.GetKeyByHash_distinct hc.inv hc.fresh hd he hk]
    rw [hdec.bind]
    rw [e5] at hv
    simp only [h1, bind, Except.bind, sliceTo5, hb, e7, PackByteArray_some hn, hv]
    rfl

/-- C81: attached blobs are malleable.  If the blob `AttachedSign` makes of `m` and `sig` is accepted, so is another, with
the length field replaced by a negative number that counts the signature from the end, and the same `m` is returned. -/
theorem C81_other_length (c : Czar) (hc : Loaded P c) (hd : c.keySet.Distinct P) (e : Entry) (he : e ∈ c.keySet.entries)
    (id m sig nonce : Bytes) (hid : KeyId P.sha1 e.key id) (hs : sig ≠ []) (hm : m.length < 2 ^ 31)
    (hsl : sig.length + 9 ≤ 2 ^ 31) (hn : nonce.length < 2 ^ 31)
    (h : c.AttachedVerify P (attachedBlob id m sig) nonce none = .ok (some m)) :
    c.AttachedVerify P (header id ++ i2osp4 (2 ^ 32 - 9 - sig.length) ++ m ++ sig) nonce none = .ok (some m) ∧
      header id ++ i2osp4 (2 ^ 32 - 9 - sig.length) ++ m ++ sig ≠ attachedBlob id m sig := by
  refine ⟨(C81_accepts P c hc hd _ _ nonce m none rfl hn).mpr ⟨e, he, id, sig, hid, .fromEnd m sig hs hsl, ?_⟩, ?_⟩
  · rw [AttachedVerify_blob P hc hd he hid (dec := none) rfl hm hn] at h
    cases hv : e.key.Verify P (attachedPayload m nonce) sig with
    | error x => rw [hv] at h; cases h
    | ok b =>
      rw [hv] at h
      cases b with
      | true => rfl
      | false => cases h
  · intro heq
    have e1 : attachedBlob id m sig = header id ++ (i2osp4 m.length ++ (m ++ sig)) := by
      simp [attachedBlob, lengthPrefixed]
    rw [e1, List.append_assoc, List.append_assoc, List.append_cancel_left_eq] at heq
    have h4 := (List.append_inj heq rfl).1
    have a := unpackI_i2osp4 (v := 2 ^ 32 - 9 - sig.length) (by omega)
    rw [h4, unpackI_i2osp4 (by omega), if_pos hm, if_neg (by omega)] at a
    have := Except.ok.inj a
    omega

/-- the blob that `AttachedSign` makes of [7] and a signature of two bytes, and the other blob that is cut in the same way -/
example : AttachedForm [1, 2, 3, 4] [7] [8, 9] [0, 1, 2, 3, 4, 0, 0, 0, 1, 7, 8, 9] ∧
    AttachedForm [1, 2, 3, 4] [7] [8, 9] [0, 1, 2, 3, 4, 0xFF, 0xFF, 0xFF, 0xF5, 7, 8, 9] :=
  ⟨.normal [7] [8, 9] (by decide), .fromEnd [7] [8, 9] (by decide) (by decide)⟩

/-- with the HMAC set of testdata: the signature takes the last 20 bytes, so a length field of -29 is accepted too -/
example : ((Czar.init realPrims .signer (Ex.hmac .ACTIVE .PRIMARY)).bind fun c =>
    (c.AttachedSign realPrims Ex.rnd [1, 2, 3] [] none).bind fun x =>
      c.AttachedVerify realPrims (x.take 5 ++ [0xFF, 0xFF, 0xFF, 0xE3] ++ x.drop 9) [] none) = .ok (some [1, 2, 3]) := by
  decide +kernel

end Verif.Props
