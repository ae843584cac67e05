import Verif.Spec.Tamper
import Verif.Props.Forgery
import Verif.Props.JsonText
import Verif.Props.Malformed
import Verif.Props.MalformedKeys
import Verif.Props.Asymmetric
import Verif.Lemmas.ExampleKeys2
import Verif.Lemmas.Session
/-
C92: what somebody who can write to the directory of an encrypted key set can do.  An `EncryptedReader` decrypts the key
files, and nothing else: the metadata is read as it is, and nothing ties a key file to its version number, to its status
or to its key set.
-/
namespace Verif.Props
open Verif Spec
variable (P : Prims)

theorem KeyText_iff (t : KeyType) (text : Bytes) (k : Key) :
    KeyText P.sha1 t text k ↔ ReadKey t text = .ok k ∧ ∃ hash, k.hashId P = .ok hash := by
  unfold KeyText
  constructor
  · rintro ⟨⟨j, h1, h2⟩, id, h3⟩
    exact ⟨(C76_key_accepts t text j ((C78_accepts _ _).mpr h1) k).mpr h2, _, ((KeyId_iff P k id).mp h3).2⟩
  · rintro ⟨h1, hash, h2⟩
    obtain ⟨id, -, hid⟩ := KeyId_of_hashId P h2
    refine ⟨?_, id, hid⟩
    cases hj : loads text with
    | error x =>
      exfalso
      unfold ReadKey at h1
      rw [mapErr_ok] at h1
      cases t <;> simp only [map_ok] at h1 <;> obtain ⟨a, h1, -⟩ := h1 <;>
        simp [AesKey.Read, HmacKey.Read, DsaPrivateKey.Read, DsaPublicKey.Read, RsaPrivateKey.Read, RsaPublicKey.Read, hj,
          bind, Except.bind] at h1
    | ok j => exact ⟨j, (C78_accepts _ _).mp hj, (C76_key_accepts t text j hj k).mp h1⟩

theorem MetaText_iff (text : Bytes) (v : KeySet.View) :
    MetaText text v ↔ ∃ kmd h, KeyMetadata.Read text = .ok (kmd, h) ∧ kmd.view h = v := by
  rw [C76_accepts]
  constructor
  · rintro ⟨j, w, h1, h2, h3⟩; exact ⟨j, w, (C78_accepts _ _).mpr h1, h2, h3⟩
  · rintro ⟨j, w, h1, h2, h3⟩; exact ⟨j, w, (C78_accepts _ _).mp h1, h2, h3⟩

theorem Gives_iff (r : Reader) (ks : KeySet) :
    r.Gives P ks ↔ (∃ text, r.GetMetadata = .ok text ∧ MetaText text ks.view) ∧
      ∀ e ∈ ks.entries, ∃ text, r.GetKey e.num = .ok text ∧ KeyText P.sha1 ks.type text e.key := by
  unfold Reader.Gives Reader.Delivers
  simp only [MetaText_iff, KeyText_iff]
  refine and_congr ⟨?_, ?_⟩ Iff.rfl
  · rintro ⟨text, kmd, h, h1, h2, h3⟩; exact ⟨text, h1, kmd, h, h2, h3⟩
  · rintro ⟨text, h1, kmd, h, h2, h3⟩; exact ⟨text, kmd, h, h1, h2, h3⟩

/-- C92: exactly which key sets are opened through an `EncryptedReader`, for any reader underneath: the metadata is taken as
it stands, whatever it says about encryption, and each key file is whatever the crypter decrypts to a key of the type. -/
theorem C92_opened (cls : CzarClass) (r : Reader) (crypter : Czar) (ks : KeySet) :
    (∃ c, Czar.init P cls (EncryptedReader P r crypter) = .ok c ∧ c.keySet = ks) ↔
      (∃ text, r.GetMetadata = .ok text ∧ MetaText text ks.view) ∧
      (∀ e ∈ ks.entries, ∃ file, r.GetKey e.num = .ok file ∧ SealedKey P crypter ks.type file e.key) ∧
      ks.purpose ∈ purposes cls ∧ ks.primaries.length ≤ 1 := by
  rw [Czar.init_iff, Gives_iff, accepts_iff]
  have hk : ∀ e : Entry, (∃ text, (EncryptedReader P r crypter).GetKey e.num = .ok text ∧ KeyText P.sha1 ks.type text e.key) ↔
      ∃ file, r.GetKey e.num = .ok file ∧ SealedKey P crypter ks.type file e.key := by
    intro e
    unfold SealedKey
    constructor
    · rintro ⟨text, h1, h2⟩
      obtain ⟨file, h3, h4⟩ := bind_ok h1
      exact ⟨file, h3, text, h4, h2⟩
    · rintro ⟨file, h3, text, h4, h2⟩
      refine ⟨text, ?_, h2⟩
      show (r.GetKey e.num).bind _ = _
      rw [h3]
      exact h4
  constructor
  · rintro ⟨⟨h1, h2⟩, h3, -, h4⟩
    exact ⟨h1, fun e he => (hk e).mp (h2 e he), h3, h4⟩
  · rintro ⟨h1, h2, h3, h4⟩
    exact ⟨⟨h1, fun e he => (hk e).mpr (h2 e he)⟩, h3, fun _ => rfl, h4⟩

/-- C92: and exactly which are opened without one: those that do not say that they are encrypted, whoever wrote them. -/
theorem C92_plain (cls : CzarClass) (r : Reader) (hr : r.isEncryptedReader = false) (ks : KeySet) :
    (∃ c, Czar.init P cls r = .ok c ∧ c.keySet = ks) ↔
      (∃ text, r.GetMetadata = .ok text ∧ MetaText text ks.view) ∧
      (∀ e ∈ ks.entries, ∃ file, r.GetKey e.num = .ok file ∧ KeyText P.sha1 ks.type file e.key) ∧
      ks.purpose ∈ purposes cls ∧ ks.encrypted.truthy = false ∧ ks.primaries.length ≤ 1 := by
  rw [Czar.init_iff, Gives_iff, accepts_iff, hr]
  simp only [Bool.not_eq_true, Bool.false_eq_true, imp_false]
  tauto

/-- C92: any records with distinct numbers can be written as metadata. -/
theorem C92_metadata (v : KeySet.View) (hw : v.WF) (hn : (v.versions.map KeyVersion.num).Nodup) :
    MetaText (dumps (viewJson v)) v := by
  obtain ⟨kmd, h, h1, -, h2⟩ := KeyMetadata.Read_viewJson hw hn
  exact (MetaText_iff _ _).mpr ⟨kmd, h, h1, h2⟩

/-- C92: key files that were once read with a crypter can be put together with any metadata, under any version numbers, and
taken from different key sets of the type: the result opens, and no error tells of it. -/
theorem C92_regrouped (crypter : Czar) (sets : List (Reader × Czar))
    (hs : ∀ s ∈ sets, ∃ cls, Czar.init P cls (EncryptedReader P s.1 crypter) = .ok s.2)
    (r : Reader) (ks : KeySet) (hm : ∃ text, r.GetMetadata = .ok text ∧ MetaText text ks.view)
    (hk : ∀ e ∈ ks.entries, ∃ s ∈ sets, ∃ e' ∈ s.2.keySet.entries,
      s.2.keySet.type = ks.type ∧ e'.key = e.key ∧ r.GetKey e.num = s.1.GetKey e'.num)
    (hp : ks.primaries.length ≤ 1) (cls : CzarClass) (hcls : ks.purpose ∈ purposes cls) :
    ∃ c, Czar.init P cls (EncryptedReader P r crypter) = .ok c ∧ c.keySet = ks := by
  refine (C92_opened P cls r crypter ks).mpr ⟨hm, fun e he => ?_, hcls, hp⟩
  obtain ⟨s, hs1, e', he', ht, hkey, hg⟩ := hk e he
  obtain ⟨cls', hi⟩ := hs s hs1
  obtain ⟨-, h2, -, -⟩ := (C92_opened P cls' s.1 crypter s.2.keySet).mp ⟨_, hi, rfl⟩
  obtain ⟨file, h3, h4⟩ := h2 e' he'
  rw [ht, hkey] at h4
  exact ⟨file, hg.trans h3, h4⟩

/-- C92: replacing only the metadata changes the statuses at will, and the name, the purpose and the flags: any selection
of the versions, with any statuses and at most one of them primary, opens. -/
theorem C92_statuses (crypter : Czar) (r : Reader) (cls : CzarClass) (c : Czar)
    (hi : Czar.init P cls (EncryptedReader P r crypter) = .ok c) (es : List Entry)
    (hes : ∀ e ∈ es, ∃ e' ∈ c.keySet.entries, e'.num = e.num ∧ e'.key = e.key) (hx : ∀ e ∈ es, e.exportable.WF)
    (hn : (es.map Entry.num).Nodup) (hp : (es.filter fun e => e.status = .PRIMARY).length ≤ 1)
    (name encrypted : Json) (hname : name.WF) (henc : encrypted.WF) (purpose : KeyPurpose) (cls' : CzarClass)
    (hcls : purpose ∈ purposes cls') :
    ∃ text, ∀ r' : Reader, r'.GetMetadata = .ok text → r'.GetKey = r.GetKey →
      ∃ c', Czar.init P cls' (EncryptedReader P r' crypter) = .ok c' ∧
        c'.keySet = ⟨name, purpose, c.keySet.type, encrypted, es⟩ := by
  refine ⟨dumps (viewJson (KeySet.view ⟨name, purpose, c.keySet.type, encrypted, es⟩)), fun r' h1 h2 => ?_⟩
  refine C92_regrouped P crypter [(r, c)] ?_ r' _ ⟨_, h1, C92_metadata _ ⟨hname, henc, ?_⟩ ?_⟩ ?_ hp cls' hcls
  · intro s hs
    rw [List.mem_singleton] at hs
    subst hs
    exact ⟨cls, hi⟩
  · intro x hx'
    obtain ⟨e, he, rfl⟩ := List.mem_map.mp hx'
    exact hx e he
  · simpa [KeySet.view, Function.comp_def] using hn
  · intro e he
    obtain ⟨e', he', h3, h4⟩ := hes e he
    exact ⟨_, List.mem_singleton.mpr rfl, e', he', rfl, h4, by rw [h2, h3]⟩

/-- C92: key files exchanged among the versions, or copied over others, with the metadata left alone: the set opens, and each
version has the key of the file that now bears its number. -/
theorem C92_renumbered (crypter : Czar) (r : Reader) (cls : CzarClass) (c : Czar)
    (hi : Czar.init P cls (EncryptedReader P r crypter) = .ok c) (es : List Entry)
    (hsame : (es.map fun e => (⟨e.num, e.status, e.exportable⟩ : KeyVersion)) = c.keySet.view.versions)
    (r' : Reader) (hm : r'.GetMetadata = r.GetMetadata)
    (hk : ∀ e ∈ es, ∃ e' ∈ c.keySet.entries, e'.key = e.key ∧ r'.GetKey e.num = r.GetKey e'.num) :
    ∃ c', Czar.init P cls (EncryptedReader P r' crypter) = .ok c' ∧ c'.keySet = { c.keySet with entries := es } := by
  obtain ⟨⟨text, h1, h2⟩, -, h3, h4⟩ := (C92_opened P cls r crypter c.keySet).mp ⟨_, hi, rfl⟩
  refine C92_regrouped P crypter [(r, c)] ?_ r' _ ⟨text, hm.trans h1, ?_⟩ ?_ ?_ cls h3
  · intro s hs
    rw [List.mem_singleton] at hs
    subst hs
    exact ⟨cls, hi⟩
  · have : KeySet.view { c.keySet with entries := es } = c.keySet.view := by
      unfold KeySet.view at hsame ⊢
      simp only [hsame]
    rwa [this]
  · intro e he
    obtain ⟨e', he', h5, h6⟩ := hk e he
    exact ⟨_, List.mem_singleton.mpr rfl, e', he', rfl, h5, h6⟩
  · have count : ∀ l : List Entry, (l.filter fun e => e.status = .PRIMARY).length =
        ((l.map fun e => (⟨e.num, e.status, e.exportable⟩ : KeyVersion)).filter fun v => v.status = .PRIMARY).length := by
      intro l
      rw [List.filter_map, List.length_map]
      rfl
    unfold KeySet.primaries at h4 ⊢
    rw [count] at h4 ⊢
    simp only
    rw [hsame]
    exact h4

/-- C92: but with an AES crypter nobody brings in a key of their own: each key of a set that opens is the one in a text that
was encrypted with a key of the crypter, or its file holds the forgery of a MAC. -/
theorem C92_made (crypter : Czar) (hc : Loaded P crypter) (hd : crypter.keySet.Distinct P) (ha : AllAes crypter)
    (runs : List (Encrypted P)) (hr : ∀ x ∈ runs, ∃ e ∈ crypter.keySet.entries, e.key = .aes x.key)
    (cls : CzarClass) (r : Reader) (c : Czar) (hi : Czar.init P cls (EncryptedReader P r crypter) = .ok c)
    (e : Entry) (he : e ∈ c.keySet.entries) :
    ∃ file data, r.GetKey e.num = .ok file ∧ Base64WSDecode file = .ok data ∧
      ((∃ x ∈ runs, data = x.out ∧ KeyText P.sha1 c.keySet.type x.m e.key) ∨
        ∃ e' ∈ crypter.keySet.entries, ∃ k hb tag, e'.key = .aes k ∧ Base64WSDecode k.hmacKey.keyString = .ok hb ∧
          data = data.take (data.length - 20) ++ tag ∧
          MacForgery P.sha1 (macked P runs) hb (data.take (data.length - 20)) tag) := by
  obtain ⟨-, h2, -, -⟩ := (C92_opened P cls r crypter c.keySet).mp ⟨_, hi, rfl⟩
  obtain ⟨file, h3, text, h4, h5⟩ := h2 e he
  have hb64 : ∃ data, Base64WSDecode file = .ok data := by
    unfold Czar.Decrypt at h4
    obtain ⟨data, h6, -⟩ := bind_ok h4
    exact ⟨data, h6⟩
  obtain ⟨data, hdata⟩ := hb64
  refine ⟨file, data, h3, hdata, ?_⟩
  rcases C89_decrypt P runs crypter hc hd ha file data text (some Base64WSDecode) hdata h4 with ⟨x, hx, hout⟩ | h
  · refine .inl ⟨x, hx, hout, ?_⟩
    obtain ⟨e', he', hk'⟩ := hr x hx
    have hm := C22_aes_round_trip P x.czar crypter x.loaded hc hd x.entry e' x.key x.primary x.isAes he' hk' none none
      trivial x.rnd x.m x.out x.made
    have ht := (C83_accepts P crypter hc hd ha file data text (some Base64WSDecode) hdata).mp h4
    have ht' := (C83_accepts P crypter hc hd ha x.out data text none hout.symm).mpr ht
    rw [hm] at ht'
    rw [Except.ok.inj ht']
    exact h5
  · exact .inr h

/-- C92: with an RSA crypter everybody can: the public key set is enough to seal any key whose document is short enough. -/
theorem C92_public (c crypter : Czar) (hc : Loaded P c) (hc' : Loaded P crypter) (hd : crypter.keySet.Distinct P)
    (e e' : Entry) (k : RsaPrivateKey) (hp : c.keySet.primaries = [e]) (hk : e.key = .rsaPub k.pub)
    (he' : e' ∈ crypter.keySet.entries) (hk' : e'.key = .rsaPriv k)
    (hv : RsaValid k.key) (hpub : k.pub.key = k.key.pub) (hlen : (BigIntToBytes k.key.n).length ≤ 2 ^ 32)
    (rnd : Rand) (x : Key) (text : Bytes) (hx : KeyText P.sha1 x.type text x)
    (hm : text.length + 42 ≤ (BigIntToBytes k.key.n).length)
    (hz : 42 ≤ (strip0 (oaep P.sha1 (BigIntToBytes k.key.n).length (rnd.bytes 0 20) text)).length) :
    ∃ file, c.Encrypt P rnd text (some Base64WSEncode) = .ok file ∧ SealedKey P crypter x.type file x := by
  obtain ⟨out, h1, h2⟩ := C22_rsa_round_trip P c crypter hc hc' hd e e' k hp (.inr hk) he' hk' hv hpub hlen
    (some Base64WSEncode) (some Base64WSDecode) inverse_base64 rnd text hm
  rw [if_neg (by omega)] at h2
  exact ⟨out, h1, text, h2, hx⟩

/-- C92: encrypting the key files of a set that opens, with an AES crypter, gives one that opens as the same set. -/
theorem C92_seals (crypter : Czar) (hc : Loaded P crypter) (hd : crypter.keySet.Distinct P) (e : Entry) (k : AesKey)
    (kb hb : Bytes) (hp : crypter.keySet.primaries = [e]) (hk : e.key = .aes k) (hu : UsableAes k kb hb)
    (cls : CzarClass) (r₀ : Reader) (c₀ : Czar) (hi : Czar.init P cls r₀ = .ok c₀) (rnd : Int → Rand) (r : Reader)
    (hm : r.GetMetadata = r₀.GetMetadata)
    (hf : ∀ n text, r₀.GetKey n = .ok text → r.GetKey n = crypter.Encrypt P (rnd n) text (some Base64WSEncode)) :
    ∃ c, Czar.init P cls (EncryptedReader P r crypter) = .ok c ∧ c.keySet = c₀.keySet := by
  obtain ⟨hg, h1, -, h2⟩ := Czar.init_iff.mp ⟨c₀, hi, rfl⟩
  obtain ⟨⟨text, h3, h4⟩, h5⟩ := (Gives_iff P _ _).mp hg
  refine (C92_opened P cls r crypter _).mpr ⟨⟨text, hm.trans h3, h4⟩, fun e' he' => ?_, (accepts_iff _ _).mp h1, h2⟩
  obtain ⟨t, h6, h7⟩ := h5 e' he'
  obtain ⟨out, h8⟩ := C22_aes_encrypts P crypter hc e k kb hb hp hk hu (some Base64WSEncode) (rnd e'.num) t
  exact ⟨out, (hf _ _ h6).trans h8, t, C22_aes_round_trip P crypter crypter hc hc hd e e k hp hk (primary_mem hp).1 hk
    (some Base64WSEncode) (some Base64WSDecode) inverse_base64 _ _ _ h8, h7⟩

/-! ### instances -/

/-- the key set testdata/hmac with its key files encrypted by the set testdata/aes -/
theorem exSealed : ∃ crypter c₀ c r e k kb hb, Loaded realPrims crypter ∧ crypter.keySet.Distinct realPrims ∧ AllAes crypter ∧
    crypter.keySet.primaries = [e] ∧ e.key = .aes k ∧ UsableAes k kb hb ∧
    Czar.init realPrims .signer (Ex.hmac .ACTIVE .PRIMARY) = .ok c₀ ∧
    Czar.init realPrims .signer (EncryptedReader realPrims r crypter) = .ok c ∧ c.keySet = c₀.keySet := by
  obtain ⟨crypter, hc, hd, ha, e, k, kb, hb, hp, hk, hu⟩ := exAes_set
  obtain ⟨c₀, h0⟩ := Ex.hmac_loads
  obtain ⟨c, h1, h2⟩ := C92_seals realPrims crypter hc hd e k kb hb hp hk hu .signer _ c₀ h0 (fun _ => Ex.rnd)
    ⟨(Ex.hmac .ACTIVE .PRIMARY).GetMetadata, fun n => match (Ex.hmac .ACTIVE .PRIMARY).GetKey n with
      | .ok text => crypter.Encrypt realPrims Ex.rnd text (some Base64WSEncode)
      | .error x => .error x, false⟩ rfl (fun n text h => by simp only [h])
  exact ⟨crypter, c₀, c, _, e, k, kb, hb, hc, hd, ha, hp, hk, hu, h0, h1, h2⟩

theorem exHmac_entries {c : Czar} (h : Czar.init realPrims .signer (Ex.hmac .ACTIVE .PRIMARY) = .ok c) :
    ∃ e e', c.keySet.entries = [e, e'] ∧ e.num ≠ e'.num := by
  have h' : (match Czar.init realPrims .signer (Ex.hmac .ACTIVE .PRIMARY) with
      | .ok c => (match c.keySet.entries with
        | [e, e'] => decide (e.num ≠ e'.num)
        | _ => false)
      | .error _ => false) = true := by decide +kernel
  rw [h] at h'
  simp only at h'
  split at h'
  · next e e' he => exact ⟨e, e', he, by simpa using h'⟩
  · cases h'

/-- example: metadata alone makes either version of that set the only one, and the primary one -/
example : ∃ crypter r c, Czar.init realPrims .signer (EncryptedReader realPrims r crypter) = .ok c ∧
    c.keySet.entries.length = 2 ∧ ∀ e ∈ c.keySet.entries, ∃ text, ∀ r' : Reader, r'.GetMetadata = .ok text →
      r'.GetKey = r.GetKey → ∃ c', Czar.init realPrims .signer (EncryptedReader realPrims r' crypter) = .ok c' ∧
        c'.keySet.entries = [{ e with status := .PRIMARY, exportable := .bool true }] := by
  obtain ⟨crypter, c₀, c, r, -, -, -, -, -, -, -, -, -, -, h0, h1, h2⟩ := exSealed
  obtain ⟨e, e', he, hne⟩ := exHmac_entries h0
  refine ⟨crypter, r, c, h1, by rw [h2, he]; rfl, fun x hx => ?_⟩
  obtain ⟨text, ht⟩ := C92_statuses realPrims crypter r .signer c h1 [{ x with status := .PRIMARY, exportable := .bool true }]
    (fun y hy => ⟨x, hx, by rw [List.mem_singleton.mp hy], by rw [List.mem_singleton.mp hy]⟩)
    (fun y hy => by rw [List.mem_singleton.mp hy]; trivial) (by simp) (by simp) (Json.ofString "") (.bool false) trivial
    trivial .SIGN_AND_VERIFY .signer (by decide)
  refine ⟨text, fun r' a b => ?_⟩
  obtain ⟨c', h3, h4⟩ := ht r' a b
  exact ⟨c', h3, by rw [h4]⟩

/-- example: the two key files of that set exchanged -/
example : ∃ crypter r r' c c' e e', Czar.init realPrims .signer (EncryptedReader realPrims r crypter) = .ok c ∧
    c.keySet.entries = [e, e'] ∧ e.num ≠ e'.num ∧ r'.GetMetadata = r.GetMetadata ∧
    Czar.init realPrims .signer (EncryptedReader realPrims r' crypter) = .ok c' ∧
    c'.keySet.entries = [{ e with key := e'.key }, { e' with key := e.key }] := by
  obtain ⟨crypter, c₀, c, r, -, -, -, -, -, -, -, -, -, -, h0, h1, h2⟩ := exSealed
  obtain ⟨e, e', he, hne⟩ := exHmac_entries h0
  rw [← h2] at he
  let r' : Reader := ⟨r.GetMetadata, fun n => if n = e.num then r.GetKey e'.num else r.GetKey e.num, false⟩
  obtain ⟨c', h3, h4⟩ := C92_renumbered realPrims crypter r .signer c h1 [{ e with key := e'.key }, { e' with key := e.key }]
    (by simp [KeySet.view, he]) r' rfl
    (by
      intro y hy
      simp only [List.mem_cons, List.not_mem_nil, or_false] at hy
      rcases hy with rfl | rfl
      · exact ⟨e', by rw [he]; simp, rfl, by simp [r']⟩
      · exact ⟨e, by rw [he]; simp, rfl, by simp [r', Ne.symm hne]⟩)
  exact ⟨crypter, r, r', c, c', e, e', h1, he, hne, rfl, h3, by rw [h4]⟩

/-- the hypotheses of `C92_made` hold of that set, with the two runs of `Encrypt` that made its files -/
example : ∃ (crypter c : Czar) (r : Reader) (runs : List (Encrypted realPrims)), Loaded realPrims crypter ∧ crypter.keySet.Distinct realPrims ∧
    AllAes crypter ∧ runs.map Encrypted.m = [Ex.hmacKey1, Ex.hmacKey2] ∧
    (∀ x ∈ runs, ∃ e ∈ crypter.keySet.entries, e.key = .aes x.key) ∧
    Czar.init realPrims .signer (EncryptedReader realPrims r crypter) = .ok c ∧ c.keySet.entries.length = 2 := by
  obtain ⟨crypter, c₀, c, r, e, k, kb, hb, hc, hd, ha, hp, hk, hu, h0, h1, h2⟩ := exSealed
  obtain ⟨e1, e2, he, -⟩ := exHmac_entries h0
  obtain ⟨o1, ho1⟩ := C22_aes_encrypts realPrims crypter hc e k kb hb hp hk hu none Ex.rnd Ex.hmacKey1
  obtain ⟨o2, ho2⟩ := C22_aes_encrypts realPrims crypter hc e k kb hb hp hk hu none Ex.rnd Ex.hmacKey2
  refine ⟨crypter, c, r, [⟨crypter, e, k, kb, hb, Ex.rnd, _, o1, hc, hp, hk, hu, ho1⟩,
    ⟨crypter, e, k, kb, hb, Ex.rnd, _, o2, hc, hp, hk, hu, ho2⟩], hc, hd, ha, rfl, ?_, h1, by rw [h2, he]; rfl⟩
  intro x hx
  simp only [List.mem_cons, List.not_mem_nil, or_false] at hx
  rcases hx with rfl | rfl <;> exact ⟨e, (primary_mem hp).1, hk⟩

/-- a 2048-bit RSA key -/
def exBigRsa : RsaPrivateKey := RsaPrivateKey.ofObj exBigObj 2048
theorem exBigRsa_length : (BigIntToBytes exBigRsa.key.n).length = 256 := by decide +kernel

/-- example: with the public half of a 2048-bit key alone one makes the file of an AES key of one's own choice -/
example : ∃ c crypter file, Loaded realPrims c ∧ (∀ e ∈ c.keySet.entries, e.key = .rsaPub exBigRsa.pub) ∧
    c.Encrypt realPrims Ex.rnd (dumps (Key.aes exAes).json) (some Base64WSEncode) = .ok file ∧
    SealedKey realPrims crypter .AES file (.aes exAes) := by
  have g := Czar.init_gives (cls := .crypter) (StaticKeyReader_gives (P := realPrims) (k := .rsaPriv exBigRsa)
    ⟨⟨by decide +kernel, by decide⟩, by decide +kernel, by decide⟩ ⟨_, rfl⟩ .DECRYPT_AND_ENCRYPT)
  rw [if_pos (by refine ⟨rfl, fun h => ?_, by simp [staticSet, KeySet.primaries]⟩; cases h)] at g
  obtain ⟨crypter, h1, h2⟩ := g
  have g := Czar.init_gives (cls := .encrypter) (StaticKeyReader_gives (P := realPrims) (k := .rsaPub exBigRsa.pub)
    ⟨by decide +kernel, by decide⟩ ⟨_, rfl⟩ .ENCRYPT)
  rw [if_pos (by refine ⟨rfl, fun h => ?_, by simp [staticSet, KeySet.primaries]⟩; cases h)] at g
  obtain ⟨c, h3, h4⟩ := g
  have hok : (Key.aes exAes).Ok := by
    unfold Key.Ok AesKey.Ok HmacKey.Ok Plain
    decide +kernel
  obtain ⟨file, h5, h6⟩ := C92_public realPrims c crypter ⟨_, _, h3⟩ ⟨_, _, h1⟩ (by rw [h2]; exact staticSet_distinct _ _)
    _ _ exBigRsa (by rw [h4]; rfl) rfl (by rw [h2]; exact List.mem_singleton.mpr rfl) rfl exBigObj_valid rfl
    (by rw [exBigRsa_length]; decide) Ex.rnd (.aes exAes) _ ((KeyText_iff realPrims _ _ _).mpr ⟨ReadKey_str _ hok, ⟨_, rfl⟩⟩)
    (by rw [exBigRsa_length]; decide +kernel) (by rw [exBigRsa_length]; decide +kernel)
  exact ⟨c, crypter, file, ⟨_, _, h3⟩, by rw [h4]; intro e he; rw [List.mem_singleton.mp he], h5, h6⟩

end Verif.Props
