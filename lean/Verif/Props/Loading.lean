import Verif.Lemmas.Names
import Verif.Lemmas.ExampleSets
/-
Property theorems C18-C20, C23, C24, C35: loading key sets, looking up keys, metadata.
-/
namespace Verif.Props
open Verif Spec
variable (P : Prims)

/-! ## C18 -/

/-- C18: a constructed object has at most one PRIMARY version, and the key it uses for new output
is the key of exactly that version; without PRIMARY version there is no such key. -/
theorem C18_loaded_primary (cls : CzarClass) (r : Reader) (c : Czar) (h : Czar.init P cls r = .ok c) :
    (c.keySet.primaries = [] ∧ c.primaryKey = .error .keyNotFound) ∨
    (∃ e, c.keySet.primaries = [e] ∧ c.primaryKey = .ok e.key) := by
  obtain ⟨hi, -, -, hl, -, -⟩ := Czar.init_ok h
  have hk := Czar.primaryKey_spec hi
  have hp := hl.valid.primary
  cases hs : c.keySet.primaries with
  | nil => rw [hs] at hk; exact .inl ⟨rfl, hk⟩
  | cons e t =>
    rw [hs] at hk hp
    cases t with
    | nil => exact .inr ⟨e, rfl, hk⟩
    | cons f u => simp at hp

/-- C18: two PRIMARY versions make construction fail, whatever the reader returns for the keys. -/
theorem C18_two_primaries_fail (cls : CzarClass) (r : Reader) (text : Bytes) (kmd : KeyMetadata) (h : Heap)
    (hm : r.GetMetadata = .ok text) (hr : KeyMetadata.Read text = .ok (kmd, h))
    (h2 : 2 ≤ ((kmd.view h).versions.filter fun v => v.status = .PRIMARY).length) :
    ∃ e, Czar.init P cls r = .error e := by
  cases hc : Czar.init P cls r with
  | error e => exact ⟨e, rfl⟩
  | ok c =>
    exfalso
    obtain ⟨-, -, ⟨⟨text', kmd', h', h1, h3, h4⟩, -⟩, hl, -, -⟩ := Czar.init_ok hc
    rw [hm] at h1
    cases h1
    rw [hr] at h3
    cases h3
    have := hl.valid.primary
    rw [h4] at h2
    unfold KeySet.view KeySet.primaries at *
    simp only [List.filter_map, List.length_map] at h2
    have e : (fun v : KeyVersion => decide (v.status = .PRIMARY)) ∘
        (fun e : Entry => (⟨e.num, e.status, e.exportable⟩ : KeyVersion)) =
        fun e : Entry => decide (e.status = .PRIMARY) := rfl
    rw [e] at h2
    omega

/-- C18: and when the files describe a key set with two PRIMARY versions, the error is KeyczarError. -/
theorem C18_two_primaries_error (cls : CzarClass) (r : Reader) (ks : KeySet) (h : r.Gives P ks)
    (h2 : 2 ≤ ks.primaries.length) : Czar.init P cls r = .error .keyczarError := by
  have := Czar.init_gives (P := P) (cls := cls) h
  rwa [if_neg (by omega)] at this

/-- examples: one PRIMARY version loads, none loads, two fail with KeyczarError -/
example : Ex.isOk (Czar.init realPrims .signer (Ex.hmac .ACTIVE .PRIMARY)) = true ∧
    Ex.isOk (Czar.init realPrims .signer (Ex.hmac .INACTIVE .ACTIVE)) = true ∧
    (Czar.init realPrims .signer (Ex.hmac .PRIMARY .PRIMARY)).map (fun _ => ()) = .error .keyczarError := by
  decide +kernel

/-! ## C19 -/

theorem accepts_iff (cls : CzarClass) (p : KeyPurpose) : cls.IsAcceptablePurpose p = true ↔ p ∈ purposes cls := by
  cases cls <;> cases p <;> decide

/-- C19: a class only ever loads key sets with one of its documented purposes. -/
theorem C19_only_accepted (cls : CzarClass) (r : Reader) (c : Czar) (h : Czar.init P cls r = .ok c) :
    c.keySet.purpose ∈ purposes cls := by
  obtain ⟨-, -, -, -, ha, -⟩ := Czar.init_ok h
  exact (accepts_iff cls _).mp ha

/-- C19: any other purpose raises KeyczarError, whatever the key files contain (they are not read). -/
theorem C19_rejected_before_keys (cls : CzarClass) (r : Reader) (text : Bytes) (kmd : KeyMetadata) (h : Heap)
    (hm : r.GetMetadata = .ok text) (hr : KeyMetadata.Read text = .ok (kmd, h))
    (hp : (kmd.view h).purpose ∉ purposes cls) (getKey : Int → Py Bytes) :
    Czar.init P cls { r with GetKey := getKey } = .error .keyczarError := by
  unfold Czar.init
  simp only [hm, hr, bind, Except.bind]
  rw [if_pos]
  intro ha
  exact hp ((accepts_iff cls _).mp ha)

/-- C19: and for an accepted purpose the class loads exactly the described key set. -/
theorem C19_accepted_loads (cls : CzarClass) (r : Reader) (ks : KeySet) (h : r.Gives P ks)
    (hp : ks.purpose ∈ purposes cls) (he : ks.encrypted.truthy = true → r.isEncryptedReader = true)
    (h1 : ks.primaries.length ≤ 1) : ∃ c, Czar.init P cls r = .ok c ∧ c.keySet = ks := by
  have := Czar.init_gives (P := P) (cls := cls) h
  rwa [if_pos ⟨(accepts_iff cls _).mpr hp, he, h1⟩] at this

/-- example: the AES set loads as Crypter and Encrypter, not as Signer, Verifier or base class -/
example : Ex.isOk (Czar.init realPrims .crypter Ex.aes) = true ∧
    Ex.isOk (Czar.init realPrims .encrypter Ex.aes) = true ∧
    Ex.isOk (Czar.init realPrims .signer Ex.aes) = false ∧
    Ex.isOk (Czar.init realPrims .verifier Ex.aes) = false ∧
    Ex.isOk (Czar.init realPrims .keyczar Ex.aes) = false := by decide +kernel

/-! ## C20 -/

theorem truthy_iff (j : Json) : j.truthy = true ↔ ¬ Falsy j := by
  constructor
  · intro h hf
    cases hf <;> simp [Json.truthy] at h
  · intro h
    by_contra ht
    refine h ?_
    cases j with
    | null => exact .null
    | bool b => cases b with | false => exact .no | true => exact absurd rfl ht
    | num n =>
      by_cases hn : n = 0
      · subst hn; exact .zero
      · simp [Json.truthy, hn] at ht
    | str s => cases s with | nil => exact .noText | cons => simp [Json.truthy] at ht
    | arr s => cases s with | nil => exact .noItems | cons => simp [Json.truthy] at ht
    | obj s => cases s with | nil => exact .noFields | cons => simp [Json.truthy] at ht

/-- C20: encrypted metadata with a plain reader raises KeyczarError, whatever the key files contain. -/
theorem C20_rejected_before_keys (cls : CzarClass) (r : Reader) (text : Bytes) (kmd : KeyMetadata) (h : Heap)
    (hm : r.GetMetadata = .ok text) (hr : KeyMetadata.Read text = .ok (kmd, h))
    (he : ¬ Falsy (kmd.view h).encrypted) (hre : r.isEncryptedReader = false) (getKey : Int → Py Bytes) :
    Czar.init P cls { r with GetKey := getKey } = .error .keyczarError := by
  unfold Czar.init
  have he : kmd.encrypted.truthy = true := (truthy_iff _).2 he
  simp only [hm, hr, bind, Except.bind]
  split
  · rfl
  · rw [if_pos ⟨he, by simp [hre]⟩]

/-- C20: so whatever was loaded through a plain reader was not marked encrypted. -/
theorem C20_loaded_plain (cls : CzarClass) (r : Reader) (c : Czar) (h : Czar.init P cls r = .ok c)
    (hre : r.isEncryptedReader = false) : Falsy c.keySet.encrypted := by
  obtain ⟨-, -, -, -, -, he⟩ := Czar.init_ok h
  by_contra hf
  rw [he ((truthy_iff _).2 hf)] at hre
  cases hre

/-- C20: an EncryptedReader passes the check: the outcome is that of the decrypted key files. -/
theorem C20_encrypted_reader (cls : CzarClass) (r : Reader) (crypter : Czar) (ks : KeySet)
    (h : (EncryptedReader P r crypter).Gives P ks) (hp : ks.purpose ∈ purposes cls)
    (h1 : ks.primaries.length ≤ 1) :
    ∃ c, Czar.init P cls (EncryptedReader P r crypter) = .ok c ∧ c.keySet = ks :=
  C19_accepted_loads P cls _ ks h hp (fun _ => rfl) h1

example : (Czar.init realPrims .crypter Ex.aesEncrypted).map (fun _ => ()) = .error .keyczarError ∧
    Ex.isOk (Czar.init realPrims .crypter { Ex.aesEncrypted with isEncryptedReader := true }) = true := by
  decide +kernel

/-! ## C23 -/

/-- the raw bytes of an input: `decoder` is None or a decoding function -/
def Decodes (decoder : Option (Bytes → Py Bytes)) (input data : Bytes) : Prop :=
  match decoder with
  | some f => f input = .ok data
  | none => input = data

theorem Decodes.eq {decoder : Option (Bytes → Py Bytes)} {input data : Bytes} (h : Decodes decoder input data) :
    decodeWith decoder input = .ok data := by
  cases decoder with
  | none => exact congrArg Except.ok h
  | some f => exact h

theorem Decodes.bind {α} {decoder : Option (Bytes → Py Bytes)} {input data : Bytes} (h : Decodes decoder input data)
    (g : Bytes → Py α) : (decodeWith decoder input >>= g) = g data := by
  rw [h.eq]; rfl

theorem ParseHeader_bad {c : Czar} {v : UInt8} {t : Bytes} (hv : v ≠ 0) :
    c.ParseHeader (v :: t) = .error (.badVersion v.toNat) := by
  unfold Czar.ParseHeader
  simp only
  rw [if_pos]
  intro h
  exact hv (UInt8.toNat_inj.mp h)

theorem ParseHeader_zero {c : Czar} {t : Bytes} :
    c.ParseHeader (0 :: t) = c.GetKeyByHash (Base64WSEncode t) := by
  unfold Czar.ParseHeader
  simp only
  rw [if_neg (by decide), show (1 : Int) = ((1 : Nat) : Int) from rfl, sliceFrom_nat]
  rfl

theorem GetKeyByHash_none {c : Czar} (hi : c.Inv P) (hf : c.Fresh) {id : Bytes}
    (hn : ∀ e ∈ c.keySet.entries, e.key.hashId P ≠ .ok (Base64WSEncode id)) :
    c.GetKeyByHash (Base64WSEncode id) = .error .keyNotFound := by
  rcases c.GetKeyByHash_spec hi hf (Base64WSEncode id) with ⟨e, he, h1, -⟩ | ⟨-, h⟩
  · exact absurd h1 (hn e he)
  · exact h

theorem sliceTo5 {data : Bytes} : sliceTo data ((HEADER_SIZE : Nat) : Int) = data.take 5 := sliceTo_nat data 5

/-- C23: fewer than 5 bytes. -/
theorem C23_short (c : Czar) (input data msg : Bytes) (decoder : Option (Bytes → Py Bytes))
    (hd : Decodes decoder input data) (hl : data.length < 5) :
    c.Decrypt P input decoder = .error (.shortCiphertext data.length) ∧
    c.Verify P msg input decoder = .error (.shortSignature data.length) := by
  unfold Czar.Decrypt Czar.Verify
  rw [hd.bind, hd.bind]
  exact ⟨if_pos hl, if_pos hl⟩

/-- C23: a first byte other than 0. -/
theorem C23_bad_version (c : Czar) (input data msg : Bytes) (decoder : Option (Bytes → Py Bytes)) (v : UInt8)
    (hd : Decodes decoder input (v :: data)) (hl : 4 ≤ data.length) (hv : v ≠ 0) :
    c.Decrypt P input decoder = .error (.badVersion v.toNat) ∧
    c.Verify P msg input decoder = .error (.badVersion v.toNat) := by
  unfold Czar.Decrypt Czar.Verify
  rw [hd.bind, hd.bind]
  rw [if_neg (by simp [HEADER_SIZE, KEY_HASH_SIZE]; omega), if_neg (by simp [HEADER_SIZE, KEY_HASH_SIZE]; omega)]
  rw [sliceTo5, List.take_succ_cons]
  unfold Czar.InternalVerify
  rw [ParseHeader_bad hv]
  exact ⟨rfl, rfl⟩

/-- C23: an identifier that no key of the loaded set has (`id` are the 4 identifier bytes). -/
theorem C23_unknown_key (cls : CzarClass) (r : Reader) (c : Czar) (hc : Czar.init P cls r = .ok c)
    (input id rest msg : Bytes) (decoder : Option (Bytes → Py Bytes)) (hid : id.length = 4)
    (hd : Decodes decoder input (0 :: id ++ rest))
    (hn : ∀ e ∈ c.keySet.entries, e.key.hashId P ≠ .ok (Base64WSEncode id)) :
    c.Decrypt P input decoder = .error .keyNotFound ∧ c.Verify P msg input decoder = .error .keyNotFound := by
  obtain ⟨hi, hf, -⟩ := Czar.init_ok hc
  unfold Czar.Decrypt Czar.Verify
  rw [hd.bind, hd.bind]
  rw [if_neg (by simp [HEADER_SIZE, KEY_HASH_SIZE]; omega), if_neg (by simp [HEADER_SIZE, KEY_HASH_SIZE]; omega)]
  have e : (0 :: id ++ rest : Bytes).take 5 = 0 :: id := by
    rw [show (0 :: id ++ rest : Bytes) = (0 :: id) ++ rest from rfl, List.take_append_of_le_length (by simp [hid]),
      List.take_of_length_le (by simp [hid])]
  rw [sliceTo5, e]
  unfold Czar.InternalVerify
  rw [ParseHeader_zero, GetKeyByHash_none P hi hf hn]
  exact ⟨rfl, rfl⟩

/-- C23: otherwise the key with that identifier decides: in a set with pairwise distinct
identifiers, decryption is done by the key named in the header. -/
theorem C23_dispatch (cls : CzarClass) (r : Reader) (c : Czar) (hc : Czar.init P cls r = .ok c)
    (hdis : c.keySet.Distinct P) (e : Entry) (he : e ∈ c.keySet.entries)
    (input id rest msg : Bytes) (decoder : Option (Bytes → Py Bytes)) (hid : id.length = 4)
    (hd : Decodes decoder input (0 :: id ++ rest)) (hk : e.key.hashId P = .ok (Base64WSEncode id)) :
    c.Decrypt P input decoder = e.key.Decrypt P (0 :: id ++ rest) ∧
    c.Verify P msg input decoder = e.key.Verify P (msg ++ [0]) rest := by
  obtain ⟨hi, hf, -⟩ := Czar.init_ok hc
  unfold Czar.Decrypt Czar.Verify
  rw [hd.bind, hd.bind]
  rw [if_neg (by simp [HEADER_SIZE, KEY_HASH_SIZE]; omega), if_neg (by simp [HEADER_SIZE, KEY_HASH_SIZE]; omega)]
  have e1 : (0 :: id ++ rest : Bytes).take 5 = 0 :: id := by
    rw [show (0 :: id ++ rest : Bytes) = (0 :: id) ++ rest from rfl, List.take_append_of_le_length (by simp [hid]),
      List.take_of_length_le (by simp [hid])]
  have e2 : sliceFrom (0 :: id ++ rest : Bytes) ((HEADER_SIZE : Nat) : Int) = rest := by
    rw [sliceFrom_nat, show (0 :: id ++ rest : Bytes) = (0 :: id) ++ rest from rfl,
      show HEADER_SIZE = (0 :: id : Bytes).length from by simp [hid, HEADER_SIZE, KEY_HASH_SIZE], List.drop_left]
  rw [sliceTo5, e1, e2]
  unfold Czar.InternalVerify
  rw [ParseHeader_zero, Czar.GetKeyByHash_distinct hi hf hdis he hk]
  simp only [bind, Except.bind, PackByteArray]
  refine ⟨trivial, ?_⟩
  simp [pure, Except.pure, VERSION_BYTE]

/-- examples on the loaded HMAC set: too short, wrong version byte, unknown identifier -/
example : ((Czar.init realPrims .signer (Ex.hmac .ACTIVE .PRIMARY)).bind fun c => c.Verify realPrims [1] [0, 1, 2] none)
      = .error (.shortSignature 3) ∧
    ((Czar.init realPrims .signer (Ex.hmac .ACTIVE .PRIMARY)).bind fun c => c.Verify realPrims [1] [1, 1, 2, 3, 4] none)
      = .error (.badVersion 1) ∧
    ((Czar.init realPrims .signer (Ex.hmac .ACTIVE .PRIMARY)).bind fun c => c.Verify realPrims [1] [0, 1, 2, 3, 4, 5] none)
      = .error .keyNotFound := by decide +kernel

/-! ## C24 -/

/-- C24: without PRIMARY version nothing is encrypted or signed: every such call raises
KeyNotFoundError.  (`CreateEncryptingStreamWriter` also starts with `self.primary_key`, see C56.) -/
theorem C24_no_primary (cls : CzarClass) (r : Reader) (c : Czar) (hc : Czar.init P cls r = .ok c)
    (hn : ∀ e ∈ c.keySet.entries, e.status ≠ .PRIMARY) (rnd : Rand) (m nonce : Bytes)
    (encoder : Option (Bytes → Bytes)) :
    c.Encrypt P rnd m encoder = .error .keyNotFound ∧
    c.Sign P rnd m encoder = .error .keyNotFound ∧
    c.AttachedSign P rnd m nonce encoder = .error .keyNotFound ∧
    c.UnversionedSign P rnd m encoder = .error .keyNotFound := by
  obtain ⟨hi, -⟩ := Czar.init_ok hc
  have hk := Czar.primaryKey_spec hi
  have : c.keySet.primaries = [] := by
    unfold KeySet.primaries
    rw [List.filter_eq_nil_iff]
    intro e he
    simpa using hn e he
  rw [this] at hk
  simp only at hk
  unfold Czar.Encrypt Czar.Sign Czar.AttachedSign Czar.UnversionedSign
  rw [hk]
  exact ⟨rfl, rfl, rfl, rfl⟩

/-- C24: the documented NoPrimaryKeyError is raised by no call on any object, loaded or not. -/
theorem C24_never_no_primary_error (c : Czar) : c.primaryKey ≠ .error .noPrimaryKey := by
  unfold Czar.primaryKey Czar.GetKeyByVersion
  cases c.primary with
  | none => simp
  | some o =>
    simp only
    cases assocGet c.vkeys o <;> simp

example : ((Czar.init realPrims .signer (Ex.hmac .INACTIVE .ACTIVE)).bind fun c =>
    c.Sign realPrims Ex.rnd [1] none) = .error .keyNotFound := by decide +kernel

/-! ## C35 -/

/-- the JSON document of a metadata record with the given fields -/
def metaDoc (v : KeySet.View) : Json :=
  .obj [("name".toList, v.name), ("purpose".toList, .str v.purpose.name.toList),
    ("type".toList, .str v.type.name.toList), ("encrypted".toList, v.encrypted),
    ("versions".toList, .arr (v.versions.map fun x =>
      .obj [("versionNumber".toList, .num x.num), ("status".toList, .str x.status.name.toList),
        ("exportable".toList, x.exportable)]))]

theorem metaDoc_eq (v : KeySet.View) : metaDoc v = viewJson v := rfl

/-- C35: a metadata object (versions indexed by their own number, JSON values serialisable) is
written as the documented JSON text, and reading that text gives the same fields and the same
versions in the same order. -/
theorem C35_round_trip (h : Heap) (kmd : KeyMetadata) (hnum : ∀ p ∈ kmd.versions, (h.obj p.2).num = p.1)
    (hnd : (kmd.versions.map Prod.fst).Nodup) (hw : (kmd.view h).WF) :
    kmd.str h = .ok (dumps (metaDoc (kmd.view h))) ∧
    ∃ kmd' h', KeyMetadata.Read (dumps (metaDoc (kmd.view h))) = .ok (kmd', h') ∧ kmd'.view h' = kmd.view h := by
  refine ⟨?_, ?_⟩
  · rw [metaDoc_eq]
    apply KeyMetadata.str_eq
    intro p hp
    exact hw.versions _ (List.mem_map.mpr ⟨p, hp, rfl⟩)
  · rw [metaDoc_eq]
    obtain ⟨kmd', h', h1, -, h3⟩ := KeyMetadata.Read_viewJson hw (by
      have : (kmd.view h).versions.map KeyVersion.num = kmd.versions.map Prod.fst := by
        unfold KeyMetadata.view
        simp only [List.map_map]
        apply List.map_congr_left
        intro p hp
        exact hnum p hp
      rw [this]; exact hnd)
    exact ⟨kmd', h', h1, h3⟩

/-- C35: every metadata object that was read from a text meets these conditions. -/
theorem C35_read_objects (text : Bytes) (kmd : KeyMetadata) (h : Heap) (hr : KeyMetadata.Read text = .ok (kmd, h)) :
    (∀ p ∈ kmd.versions, (h.obj p.2).num = p.1) ∧ (kmd.versions.map Prod.fst).Nodup ∧ (kmd.view h).WF := by
  obtain ⟨hm, -⟩ := KeyMetadata.Read_ok hr
  exact ⟨hm.num, hm.nodup, KeyMetadata.Read_WF hr⟩

theorem VersionSays.read {j : Json} {v : KeyVersion} (h : VersionSays j v) : KeyVersion.Read j = .ok v := by
  obtain ⟨f, rfl, h1, h2, h3⟩ := h
  unfold KeyVersion.Read
  simp only [Json.get, h1, h2, h3, bind, Except.bind, statusWord_eq, GetStatus_name, pure, Except.pure]

theorem MetaSays.doc {j : Json} {v : KeySet.View} (h : MetaSays j v) : docOf j = .ok v := by
  obtain ⟨f, l, rfl, h1, h2, h3, h4, h5, h6⟩ := h
  have hm : l.mapM KeyVersion.Read = .ok v.versions := by
    clear h5
    generalize v.versions = vs at h6
    induction h6 with
    | nil => rfl
    | cons hab _ ih => rw [List.mapM_cons, VersionSays.read hab, ih]; rfl
  unfold docOf
  simp only [Json.get, h1, h2, h3, h4, h5, bind, Except.bind, purposeWord_eq, typeWord_eq, GetPurpose_name, GetType_name, jsonItems, hm,
    pure, Except.pure]

/-- C35: reading any JSON text that has the documented fields (in any order and layout, with other
fields ignored) gives these fields; of several records with one version number the first counts. -/
theorem C35_read_document (text : Bytes) (j : Json) (v : KeySet.View) (hl : loads text = .ok j)
    (hs : MetaSays j v) :
    ∃ kmd h, KeyMetadata.Read text = .ok (kmd, h) ∧
      kmd.view h = { v with versions := firstOfEach v.versions } := by
  obtain ⟨kmd, h, h1, -, h3⟩ := KeyMetadata.Read_of_doc hl (MetaSays.doc hs)
  exact ⟨kmd, h, h1, h3⟩

/-- example: a document with two records for version 1; the first one counts -/
def exDoc : KeySet.View := ⟨.str ['a', '"'], .VERIFY, .RSA_PUB, .bool false,
  [⟨1, .PRIMARY, .bool false⟩, ⟨2, .ACTIVE, .null⟩, ⟨1, .INACTIVE, .bool true⟩]⟩
example : loads (dumps (metaDoc exDoc)) = .ok (metaDoc exDoc) :=
  loads_dumps _ (viewJson_WF ⟨trivial, trivial, by simp [exDoc, Json.WF]⟩)
example : MetaSays (metaDoc exDoc) exDoc := by
  refine ⟨_, _, rfl, by simp [dictGet], by simp [dictGet]; rfl, by simp [dictGet]; rfl, by simp [dictGet],
    by simp [dictGet]; rfl, ?_⟩
  simp only [exDoc, List.map_cons, List.map_nil, List.forall₂_cons, List.forall₂_nil_left_iff, and_true]
  refine ⟨⟨_, rfl, ?_⟩, ⟨_, rfl, ?_⟩, ⟨_, rfl, ?_⟩⟩ <;> simp [dictGet, Json.ofString, statusWord_eq]
example : firstOfEach exDoc.versions = [⟨1, .PRIMARY, .bool false⟩, ⟨2, .ACTIVE, .null⟩] := by
  simp [exDoc, firstOfEach]

end Verif.Props
