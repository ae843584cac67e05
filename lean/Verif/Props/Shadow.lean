import Verif.Spec.Shadow
import Verif.Props.Forgery
import Verif.Props.Tamper
import Verif.Lemmas.Disk
/-
C93: key sets in which several keys have the same identifier.  The library never makes such a set (C28), but nothing keeps
it from loading one.  For each identifier one of the keys is seen by `Decrypt`, `Verify` and `AttachedVerify`, and the others
are as good as absent.  Which one it is depends on the order of a dictionary; the theorems hold for any.
-/
namespace Verif.Props
open Verif Spec
variable (P : Prims)

/-- everything that reads headers depends on the table of identifiers only -/
theorem same_table {c c' : Czar} (h : ∀ hash, c.GetKeyByHash hash = c'.GetKeyByHash hash) (input m nonce : Bytes)
    (dec : Option (Bytes → Py Bytes)) :
    c.Decrypt P input dec = c'.Decrypt P input dec ∧ c.Verify P m input dec = c'.Verify P m input dec ∧
      c.AttachedVerify P input nonce dec = c'.AttachedVerify P input nonce dec := by
  have hp : ∀ x, c.ParseHeader x = c'.ParseHeader x := by
    intro x
    unfold Czar.ParseHeader
    simp only [h]
  unfold Czar.Decrypt Czar.Verify Czar.AttachedVerify Czar.InternalVerify
  simp only [hp]
  exact ⟨trivial, trivial, trivial⟩

theorem hash_get {k : Key} (h : ∃ hash, k.hashId P = .ok hash) : ∃ id, KeyId P.sha1 k id ∧ k.hashId P = .ok (Base64WSEncode id) := by
  obtain ⟨hash, h⟩ := h
  obtain ⟨id, rfl, hid⟩ := KeyId_of_hashId P h
  exact ⟨id, hid, h⟩

/-- one version for every identifier, with the keys that `g` says -/
theorem choose_seen (g : Bytes → Option Key) (l : List Entry) (hl : ∀ e ∈ l, ∃ hash, e.key.hashId P = .ok hash)
    (hn : (l.map Entry.num).Nodup) :
    ∃ seen : List Entry, seen.Sublist l ∧ (seen.Pairwise fun a b => a.key.hashId P ≠ b.key.hashId P) ∧
      (∀ e ∈ seen, ∀ hash, e.key.hashId P = .ok hash → g hash = some e.key) ∧
      ∀ e ∈ l, ∀ hash, e.key.hashId P = .ok hash → g hash = some e.key → ∃ e' ∈ seen, e'.key = e.key := by
  induction l with
  | nil => exact ⟨[], .slnil, .nil, by simp, by simp⟩
  | cons e t ih =>
    rw [List.map_cons, List.nodup_cons] at hn
    obtain ⟨seen, h1, h2, h3, h4⟩ := ih (fun x hx => hl x (List.mem_cons_of_mem _ hx)) hn.2
    obtain ⟨hash, hh⟩ := hl e List.mem_cons_self
    by_cases hg : g hash = some e.key ∧ ∀ x ∈ seen, x.key.hashId P ≠ .ok hash
    · refine ⟨e :: seen, h1.cons₂ e, List.pairwise_cons.mpr ⟨fun b hb => ?_, h2⟩, ?_, ?_⟩
      · rw [hh]; exact (hg.2 b hb).symm
      · intro x hx hash' hx'
        rcases List.mem_cons.mp hx with rfl | hx
        · rw [hh] at hx'; cases hx'; exact hg.1
        · exact h3 x hx hash' hx'
      · intro x hx hash' hx' hg'
        rcases List.mem_cons.mp hx with rfl | hx
        · exact ⟨x, List.mem_cons_self, rfl⟩
        · obtain ⟨e', he', hk⟩ := h4 x hx hash' hx' hg'
          exact ⟨e', List.mem_cons_of_mem _ he', hk⟩
    · refine ⟨seen, h1.cons e, h2, h3, ?_⟩
      intro x hx hash' hx' hg'
      rcases List.mem_cons.mp hx with rfl | hx
      · rw [hh] at hx'
        cases hx'
        have : ∃ y ∈ seen, y.key.hashId P = .ok hash := by
          by_contra hno
          push Not at hno
          exact hg ⟨hg', hno⟩
        obtain ⟨y, hy, hyh⟩ := this
        have := h3 y hy hash hyh
        rw [hg'] at this
        exact ⟨y, hy, (Option.some.inj this).symm⟩
      · exact h4 x hx hash' hx' hg'

/-- C93: a loaded set reads ciphertexts and signatures as a loaded set does that has one version for each identifier. -/
theorem C93_seen (c : Czar) (hc : Loaded P c) :
    ∃ seen, Seen P.sha1 c.keySet.entries seen ∧
      ∃ c', Loaded P c' ∧ c'.keySet.Distinct P ∧
        c'.keySet = ⟨c.keySet.name, c.keySet.purpose, c.keySet.type, .bool false, seen⟩ ∧
        ∀ (input m nonce : Bytes) (dec : Option (Bytes → Py Bytes)),
          c.Decrypt P input dec = c'.Decrypt P input dec ∧ c.Verify P m input dec = c'.Verify P m input dec ∧
            c.AttachedVerify P input nonce dec = c'.AttachedVerify P input nonce dec := by
  have hl := hc.loadable
  obtain ⟨cls, r, hi⟩ := hc
  obtain ⟨hinv, hf, -⟩ := Czar.init_ok hi
  have hh : ∀ e ∈ c.keySet.entries, ∃ hash, e.key.hashId P = .ok hash := fun e he => (hl.key_ok e he).2.2
  obtain ⟨seen, h1, h2, h3, h4⟩ := choose_seen P (fun hash => (c.GetKeyByHash hash).toOption) c.keySet.entries hh hl.valid.nodup
  have hmem : ∀ {e}, e ∈ seen → e ∈ c.keySet.entries := fun he => h1.subset he
  refine ⟨seen, ⟨h1, ?_, ?_⟩, ?_⟩
  · intro e he e' he' id hid hid'
    have := Distinct.eq (ks := ⟨c.keySet.name, c.keySet.purpose, c.keySet.type, .bool false, seen⟩) (P := P) h2 he he'
    exact this (((KeyId_iff P _ _).mp hid).2.trans ((KeyId_iff P _ _).mp hid').2.symm)
  · intro e he id hid
    have hid2 := ((KeyId_iff P _ _).mp hid).2
    rcases c.GetKeyByHash_spec hinv hf (Base64WSEncode id) with ⟨e', he', h5, h6⟩ | ⟨h5, -⟩
    · obtain ⟨e2, he2, hk⟩ := h4 e' he' _ h5 (by rw [h6]; rfl)
      exact ⟨e2, he2, by rw [hk]; exact (KeyId_iff P _ _).mpr ⟨((KeyId_iff P _ _).mp hid).1, h5⟩⟩
    · exact absurd hid2 (h5 e he)
  · have hl' : KeySet.Loadable P ⟨c.keySet.name, c.keySet.purpose, c.keySet.type, .bool false, seen⟩ := by
      refine ⟨⟨hl.view_wf.name, trivial, ?_⟩, ⟨(h1.map Entry.num).nodup hl.valid.nodup, ?_⟩, fun e he => hl.key_ok e (hmem he)⟩
      · intro x hx
        obtain ⟨e, he, rfl⟩ := List.mem_map.mp hx
        exact hl.view_wf.versions _ (List.mem_map.mpr ⟨e, hmem he, rfl⟩)
      · exact (h1.filter _).length_le.trans hl.valid.primary
    have hg := gives_of_files (P := P) hl' (enc := none) (rd := none) trivial
      (d := fun f => match f with
        | .metaFile => some (metaText ⟨c.keySet.name, c.keySet.purpose, c.keySet.type, .bool false, seen⟩)
        | .key n => (seen.find? fun e => e.num = n).map fun e => dumps e.key.json
        | _ => none) rfl (by
          intro e he
          refine ⟨Ex.rnd, dumps e.key.json, rfl, ?_⟩
          have : seen.find? (fun x => x.num = e.num) = some e := by
            have hn : (seen.map Entry.num).Nodup := (h1.map Entry.num).nodup hl.valid.nodup
            simp only at he
            clear h2 h3 h4 hmem hl' h1
            induction seen with
            | nil => cases he
            | cons x t ih =>
              rw [List.map_cons, List.nodup_cons] at hn
              rw [List.find?_cons]
              rcases List.mem_cons.mp he with rfl | he
              · simp
              · have : x.num ≠ e.num := fun hx => hn.1 (hx ▸ List.mem_map.mpr ⟨e, he, rfl⟩)
                simp only [this, decide_false]
                exact ih he hn.2
          simp only [this, Option.map_some])
    obtain ⟨c', hc', hks⟩ := (Czar.init_iff (cls := .generic)).mpr ⟨hg, by
      show CzarClass.IsAcceptablePurpose .generic c.keySet.purpose = true
      cases c.keySet.purpose <;> rfl, (fun h => (Bool.false_ne_true h).elim), hl'.valid.primary⟩
    obtain ⟨hinv', hf', -⟩ := Czar.init_ok hc'
    have hd' : c'.keySet.Distinct P := by rw [hks]; exact h2
    refine ⟨c', ⟨_, _, hc'⟩, hd', hks, fun input m nonce dec => same_table P (fun hash => ?_) input m nonce dec⟩
    rcases c.GetKeyByHash_spec hinv hf hash with ⟨e, he, h5, h6⟩ | ⟨h5, h6⟩
    · obtain ⟨e2, he2, hk⟩ := h4 e he hash h5 (by rw [h6]; rfl)
      have he2' : e2 ∈ c'.keySet.entries := by rw [hks]; exact he2
      rw [h6, ← hk, Czar.GetKeyByHash_distinct hinv' hf' hd' he2' (by rw [hk]; exact h5)]
    · rcases c'.GetKeyByHash_spec hinv' hf' hash with ⟨e, he, h7, -⟩ | ⟨-, h8⟩
      · rw [hks] at he
        exact absurd h7 (h5 e (hmem he))
      · rw [h6, h8]

/-- C93: for each identifier of the set, one key with this identifier answers for all of them. -/
theorem C93_dispatch (c : Czar) (hc : Loaded P c) (e : Entry) (he : e ∈ c.keySet.entries) (id : Bytes)
    (hid : KeyId P.sha1 e.key id) :
    ∃ e' ∈ c.keySet.entries, KeyId P.sha1 e'.key id ∧ ∀ (m input rest : Bytes) (dec : Option (Bytes → Py Bytes)),
      Decodes dec input (header id ++ rest) →
        c.Decrypt P input dec = e'.key.Decrypt P (header id ++ rest) ∧
        c.Verify P m input dec = e'.key.Verify P (m ++ [0]) rest := by
  obtain ⟨seen, hs, c', hc', hd', hks, heq⟩ := C93_seen P c hc
  obtain ⟨e', he', hid'⟩ := hs.some e he id hid
  refine ⟨e', hs.sub.subset he', hid', fun m input rest dec hdec => ?_⟩
  obtain ⟨h1, h2, -⟩ := heq input m [] dec
  have he2 : e' ∈ c'.keySet.entries := by rw [hks]; exact he'
  rw [h1, h2]
  obtain ⟨cls, r, hi⟩ := hc'
  obtain ⟨hl, hk⟩ := (KeyId_iff P _ _).mp hid'
  exact C23_dispatch P cls r c' hi hd' e' he2 input id rest m dec hl hdec hk

/-- C93: accepted signatures are signatures under a key of the set, whatever the identifiers. -/
theorem C93_verify (c : Czar) (hc : Loaded P c) (hk : ∀ e ∈ c.keySet.entries, SoundKey e.key) (m input data : Bytes)
    (dec : Option (Bytes → Py Bytes)) (hdec : Decodes dec input data) (h : c.Verify P m input dec = .ok true) :
    ∃ e ∈ c.keySet.entries, ∃ id sig, KeyId P.sha1 e.key id ∧ data = header id ++ sig ∧
      SignatureFor P.sha1 P.rsaRangeCheck e.key (m ++ [0]) sig := by
  obtain ⟨seen, hs, c', hc', hd', hks, heq⟩ := C93_seen P c hc
  rw [(heq input m [] dec).2.1] at h
  have hent : c'.keySet.entries = seen := by rw [hks]
  obtain ⟨e, he, rest⟩ := (C82_accepts P c' hc' hd' (fun e he => hk e (hs.sub.subset (hent ▸ he))) m input data dec hdec).mp h
  exact ⟨e, hs.sub.subset (hent ▸ he), rest⟩

/-- C93: accepted AES ciphertexts were made by the library or hold a forged MAC, whatever the identifiers. -/
theorem C93_decrypt (runs : List (Encrypted P)) (c : Czar) (hc : Loaded P c) (ha : AllAes c)
    (input data m : Bytes) (dec : Option (Bytes → Py Bytes)) (hdec : Decodes dec input data)
    (h : c.Decrypt P input dec = .ok m) :
    (∃ r ∈ runs, data = r.out) ∨
      ∃ e ∈ c.keySet.entries, ∃ k hb tag, e.key = .aes k ∧ Base64WSDecode k.hmacKey.keyString = .ok hb ∧
        data = data.take (data.length - 20) ++ tag ∧
        MacForgery P.sha1 (macked P runs) hb (data.take (data.length - 20)) tag := by
  obtain ⟨seen, hs, c', hc', hd', hks, heq⟩ := C93_seen P c hc
  rw [(heq input [] [] dec).1] at h
  have hent : c'.keySet.entries = seen := by rw [hks]
  rcases C89_decrypt P runs c' hc' hd' (fun e he => ha e (hs.sub.subset (hent ▸ he))) input data m dec hdec h with h | ⟨e, he, h⟩
  · exact .inl h
  · exact .inr ⟨e, hs.sub.subset (hent ▸ he), h⟩

/-- C93: of two HMAC keys with the same identifier one is shadowed: its signatures are refused, except where the MACs of both
keys agree. -/
theorem C93_shadowed (c : Czar) (hc : Loaded P c) (e e' : Entry) (he : e ∈ c.keySet.entries) (he' : e' ∈ c.keySet.entries)
    (htwo : ∀ x ∈ c.keySet.entries, ∀ id, KeyId P.sha1 e.key id → KeyId P.sha1 x.key id → x = e ∨ x = e')
    (k k' : HmacKey) (hk : e.key = .hmac k) (hk' : e'.key = .hmac k') (kb kb' : Bytes)
    (hb : Base64WSDecode k.keyString = .ok kb) (hb' : Base64WSDecode k'.keyString = .ok kb') (id : Bytes)
    (hid : KeyId P.sha1 e.key id) (hid' : KeyId P.sha1 e'.key id) :
    (∀ m, c.Verify P m (header id ++ hmac P.sha1 kb (m ++ [0])) none = .ok true ∧
      c.Verify P m (header id ++ hmac P.sha1 kb' (m ++ [0])) none =
        .ok (decide (hmac P.sha1 kb' (m ++ [0]) = hmac P.sha1 kb (m ++ [0])))) ∨
    (∀ m, c.Verify P m (header id ++ hmac P.sha1 kb' (m ++ [0])) none = .ok true ∧
      c.Verify P m (header id ++ hmac P.sha1 kb (m ++ [0])) none =
        .ok (decide (hmac P.sha1 kb (m ++ [0]) = hmac P.sha1 kb' (m ++ [0])))) := by
  obtain ⟨x, hx, hxid, hall⟩ := C93_dispatch P c hc e he id hid
  have hv : ∀ (k : HmacKey) (kb m s : Bytes), Base64WSDecode k.keyString = .ok kb →
      (Key.hmac k).Verify P m s = .ok (decide (s = hmac P.sha1 kb m)) := by
    intro k kb m s hkb
    obtain ⟨b, hb⟩ : ∃ b, (Key.hmac k).Verify P m s = .ok b := by
      show ∃ b, k.Verify P m s = .ok b
      unfold HmacKey.Verify HmacKey.Sign HmacKey.keyBytes
      rw [hkb]
      exact ⟨_, rfl⟩
    rw [hb]
    have h := C82_key P (.hmac k) trivial m s
    rw [hb] at h
    congr 1
    rw [Bool.eq_iff_iff, decide_eq_true_iff]
    have h2 : b = true ↔ SignatureFor P.sha1 P.rsaRangeCheck (.hmac k) m s := by
      rw [← h]
      exact ⟨fun h => by rw [h], fun h => Except.ok.inj h⟩
    rw [h2]
    constructor
    · rintro ⟨kb2, h3, h4⟩
      rw [hkb] at h3
      cases h3
      exact h4
    · exact fun h => ⟨kb, hkb, h⟩
  rcases htwo x hx id hid hxid with rfl | rfl
  · refine .inl fun m => ⟨?_, ?_⟩
    · rw [(hall m _ (hmac P.sha1 kb (m ++ [0])) none rfl).2, hk, hv k kb _ _ hb]; simp
    · rw [(hall m _ (hmac P.sha1 kb' (m ++ [0])) none rfl).2, hk, hv k kb _ _ hb]
  · refine .inr fun m => ⟨?_, ?_⟩
    · rw [(hall m _ (hmac P.sha1 kb' (m ++ [0])) none rfl).2, hk', hv k' kb' _ _ hb']; simp
    · rw [(hall m _ (hmac P.sha1 kb (m ++ [0])) none rfl).2, hk', hv k' kb' _ _ hb']

/-! ### instances -/

/-- two HMAC keys of 32 bytes with the same identifier -/
def exTwin1 : HmacKey := ⟨Base64WSEncode (List.replicate 30 0 ++ [0xfd, 0x3f]), 256⟩
def exTwin2 : HmacKey := ⟨Base64WSEncode (List.replicate 29 0 ++ [0x01, 0x02, 0x48]), 256⟩

/-- a key set with these keys as versions 1 and 2 -/
def exTwins (s1 s2 : KeyStatus) : Reader :=
  Ex.reader2 (Ex.hmacMeta s1 s2) (dumps (Key.hmac exTwin1).json) (dumps (Key.hmac exTwin2).json)

/-- example: the keys differ, their identifiers do not -/
example : exTwin1 ≠ exTwin2 ∧ KeyId realPrims.sha1 (.hmac exTwin1) [0xe4, 0x19, 0xb7, 0x93] ∧
    KeyId realPrims.sha1 (.hmac exTwin2) [0xe4, 0x19, 0xb7, 0x93] :=
  ⟨by decide +kernel, (KeyId_iff realPrims _ _).mpr (by decide +kernel), (KeyId_iff realPrims _ _).mpr (by decide +kernel)⟩

/-- example: a Signer with this set refuses its own signatures if version 1 is primary, and accepts them as unversioned ones -/
example : ((Czar.init realPrims .signer (exTwins .PRIMARY .ACTIVE)).bind fun c =>
      (c.Sign realPrims Ex.rnd (bstr "data") none).bind fun s => c.Verify realPrims (bstr "data") s none) = .ok false ∧
    ((Czar.init realPrims .signer (exTwins .PRIMARY .ACTIVE)).bind fun c =>
      (c.UnversionedSign realPrims Ex.rnd (bstr "data") none).bind fun s =>
        c.UnversionedVerify realPrims (bstr "data") s none) = .ok true ∧
    ((Czar.init realPrims .signer (exTwins .ACTIVE .PRIMARY)).bind fun c =>
      (c.Sign realPrims Ex.rnd (bstr "data") none).bind fun s => c.Verify realPrims (bstr "data") s none) = .ok true := by
  decide +kernel

/-- the hypotheses of `C93_shadowed` hold of this set -/
example : ∃ c e e', Loaded realPrims c ∧ c.keySet.entries = [e, e'] ∧ e.key = .hmac exTwin1 ∧ e'.key = .hmac exTwin2 := by
  have h : (match Czar.init realPrims .signer (exTwins .PRIMARY .ACTIVE) with
      | .ok c => (match c.keySet.entries with
        | [e, e'] => decide (e.key = .hmac exTwin1 ∧ e'.key = .hmac exTwin2)
        | _ => false)
      | .error _ => false) = true := by decide +kernel
  cases hi : Czar.init realPrims .signer (exTwins .PRIMARY .ACTIVE) with
  | error x => rw [hi] at h; cases h
  | ok c =>
    rw [hi] at h
    simp only at h
    split at h
    · next e e' he => exact ⟨c, e, e', ⟨_, _, hi⟩, he, by simpa using h⟩
    · cases h

end Verif.Props
