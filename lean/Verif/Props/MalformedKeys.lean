import Verif.Props.Malformed
import Verif.Lemmas.JsonErr
import Verif.Lemmas.JsonWF
import Verif.Props.Encodings
/-
C76: which key files are accepted and which exceptions the others raise; texts that are not JSON.
-/
namespace Verif.Props
open Verif Verif.Spec

theorem bind_ok_eq {α β} (a : α) (f : α → Py β) : ((.ok a : Py α) >>= f) = f a := rfl

/-- C76: a text that is not JSON raises ValueError, from metadata and keys of every type alike. -/
theorem C76_not_json (text : Bytes) (e : PyErr) (h : loads text = .error e) :
    (e = .valueError ∨ e = .unmodelled) ∧ KeyMetadata.Read text = .error e ∧ ∀ t, ReadKey t text = .error e := by
  have he := loads_error h
  refine ⟨he, ?_, fun t => ?_⟩
  · unfold KeyMetadata.Read; rw [h]; rfl
  · have : ¬ e = .keyError := by rcases he with rfl | rfl <;> simp
    unfold ReadKey AesKey.Read HmacKey.Read DsaPrivateKey.Read RsaPrivateKey.Read DsaPublicKey.Read RsaPublicKey.Read
    rw [h]
    cases t <;> simp [bind, Except.bind, Except.map, Py.mapErr, this]

example : (match loads (bstr "{\"name\": ") with | .error e => e | .ok _ => .unmodelled) = .valueError := by
  decide +kernel

theorem toBytes_ok (j : Json) (b : Bytes) :
    j.toBytes = .ok b ↔ ∃ s, j = .str s ∧ s.all plainChar ∧ b = s.map fun c => UInt8.ofNat c.toNat := by
  cases j with
  | str s =>
    unfold Json.toBytes
    by_cases h : s.all plainChar
    · simp only [h, if_true, Except.ok.injEq, Json.str.injEq]
      constructor
      · rintro rfl; exact ⟨s, rfl, h, rfl⟩
      · rintro ⟨_, rfl, -, rfl⟩; rfl
    · simp only [h, Json.str.injEq]
      constructor
      · intro hc; simp at hc
      · rintro ⟨_, rfl, hc, -⟩; exact absurd hc h
  | _ => simp [Json.toBytes]

theorem text_ok (j : Json) (k : String) (b : Bytes) :
    (j.get k >>= Json.toBytes) = .ok b ↔ TextField j k b := by
  constructor
  · intro h
    obtain ⟨v, h1, h2⟩ := bind_ok h
    obtain ⟨s, rfl, h3, h4⟩ := (toBytes_ok _ _).mp h2
    exact ⟨s, (get_ok _ _ _).mp h1, h3, h4⟩
  · rintro ⟨s, h1, h3, h4⟩
    rw [(get_ok _ _ _).mpr h1]
    exact (toBytes_ok _ _).mpr ⟨s, rfl, h3, h4⟩

theorem getB64_ok (j : Json) (k : String) (b : Bytes) : getB64 j k = .ok b ↔ B64Field j k b := by
  have : getB64 j k = ((j.get k >>= Json.toBytes) >>= Base64WSDecode) := by
    unfold getB64; simp only [bind_assoc]
  rw [this]
  constructor
  · intro h
    obtain ⟨t, h1, h2⟩ := bind_ok h
    exact ⟨t, (text_ok _ _ _).mp h1, h2⟩
  · rintro ⟨t, h1, h2⟩
    rw [(text_ok _ _ _).mpr h1]; exact h2

theorem size_ok (j : Json) (t : KeyType) (n : Nat) :
    (∃ v, j.get "size" = .ok v ∧ setSizeJson t v = n) ↔ SizeField j t.sizes n := by
  have key : ∀ v, setSizeJson t v = n ↔
      ((n ∈ t.sizes ∧ v = .num n) ∨ ((∀ s ∈ t.sizes, v ≠ .num s) ∧ t.sizes.head? = some n)) := by
    intro v
    have hd : t.sizes.head? = some n ↔ t.defaultSize = n := by
      unfold KeyType.defaultSize
      cases t <;> simp [KeyType.sizes]
    rw [hd]
    cases v with
    | num i =>
      show setSize t i = n ↔ _
      unfold setSize KeyType.IsValidSize
      by_cases hi : (t.sizes.map Int.ofNat).contains i = true
      · rw [if_pos hi]
        obtain ⟨s, hs, rfl⟩ := List.mem_map.mp (List.contains_iff_mem.mp hi)
        constructor
        · rintro rfl; exact .inl ⟨by simpa using hs, by simp⟩
        · rintro (⟨-, h⟩ | ⟨h, -⟩)
          · obtain h := Json.num.inj h; simpa using h
          · exact absurd rfl (h s hs)
      · rw [if_neg hi]
        constructor
        · rintro rfl
          refine .inr ⟨fun s hs h => hi ?_, rfl⟩
          exact List.contains_iff_mem.mpr (List.mem_map.mpr ⟨s, hs, (Json.num.inj h).symm⟩)
        · rintro (⟨h1, h⟩ | ⟨-, h⟩)
          · exact absurd (List.contains_iff_mem.mpr (List.mem_map.mpr ⟨n, h1, (Json.num.inj h).symm⟩)) hi
          · exact h
    | _ => simp [setSizeJson]
  simp only [key, get_ok, SizeField]

theorem HmacKey.ofJson_ok (j : Json) (k : HmacKey) : HmacKey.ofJson j = .ok k ↔ HmacSays j k := by
  have e : HmacKey.ofJson j = (j.get "hmacKeyString" >>= Json.toBytes) >>= fun ks =>
      j.get "size" >>= fun v => .ok ⟨ks, setSizeJson .HMAC_SHA1 v⟩ := by
    unfold HmacKey.ofJson; simp only [bind_assoc]; rfl
  rw [e]
  constructor
  · intro h
    obtain ⟨ks, h1, ha⟩ := bind_ok h
    obtain ⟨v, h2, hb⟩ := bind_ok ha
    obtain rfl := Except.ok.inj hb
    exact ⟨(text_ok _ _ _).mp h1, (size_ok _ .HMAC_SHA1 _).mp ⟨v, h2, rfl⟩⟩
  · rintro ⟨h1, h2⟩
    obtain ⟨v, h2, h3⟩ := (size_ok _ .HMAC_SHA1 _).mpr h2
    rw [(text_ok _ _ _).mpr h1]
    show (j.get "size" >>= _) = _
    rw [h2]
    show Except.ok _ = _
    rw [h3]

/-- the body of `AesKey.Read` after parsing -/
theorem AesKey.Read_ok {text : Bytes} {j : Json} (hj : loads text = .ok j) (k : AesKey) :
    AesKey.Read text = .ok k ↔ AesSays j k := by
  have e : AesKey.Read text = j.get "hmacKey" >>= fun hv => (j.get "aesKeyString" >>= Json.toBytes) >>= fun ks =>
      HmacKey.ofJson hv >>= fun hmac => j.get "size" >>= fun size => j.get "mode" >>= fun m => GetMode m >>= fun mode =>
      if mode ≠ .CBC then .error .assertionError else .ok ⟨ks, hmac, setSizeJson .AES size⟩ := by
    unfold AesKey.Read; rw [hj]; simp only [bind_assoc]; rfl
  rw [e]
  constructor
  · intro h
    obtain ⟨hv, h1, ha⟩ := bind_ok h
    obtain ⟨ks, h2, hb⟩ := bind_ok ha
    obtain ⟨hmac, h3, hc⟩ := bind_ok hb
    obtain ⟨size, h4, hd⟩ := bind_ok hc
    obtain ⟨m, h5, he⟩ := bind_ok hd
    obtain ⟨mode, h6, hf⟩ := bind_ok he
    by_cases hm : mode ≠ .CBC
    · simp [hm] at hf
    · rw [if_neg hm] at hf
      have hm : mode = .CBC := by simpa using hm
      obtain rfl := Except.ok.inj hf
      rw [hm, GetMode_ok] at h6
      subst h6
      exact ⟨(text_ok _ _ _).mp h2, ⟨hv, (get_ok _ _ _).mp h1, (HmacKey.ofJson_ok _ _).mp h3⟩, (get_ok _ _ _).mp h5,
        (size_ok _ .AES _).mp ⟨size, h4, rfl⟩⟩
  · rintro ⟨h1, ⟨hv, h2, h3⟩, h4, h5⟩
    obtain ⟨v, h5, h6⟩ := (size_ok _ .AES _).mpr h5
    have hm : GetMode (Json.ofString "CBC") = .ok .CBC := GetMode_name .CBC
    simp only [(get_ok _ _ _).mpr h2, (text_ok _ _ _).mpr h1, (HmacKey.ofJson_ok _ _).mpr h3, h5,
      (get_ok _ _ _).mpr h4, hm, bind_ok_eq, h6]
    rfl

theorem DsaPublicKey.Read_ok {text : Bytes} {j : Json} (hj : loads text = .ok j) (k : DsaPublicKey) :
    DsaPublicKey.Read text = .ok k ↔ DsaPubSays j k := by
  unfold DsaPublicKey.Read
  rw [hj, bind_ok_eq]
  constructor
  · intro h
    obtain ⟨y, h1, ha⟩ := bind_ok h
    obtain ⟨p, h2, hb⟩ := bind_ok ha
    obtain ⟨g, h3, hc⟩ := bind_ok hb
    obtain ⟨q, h4, hd⟩ := bind_ok hc
    obtain ⟨size, h5, he⟩ := bind_ok hd
    obtain rfl := Except.ok.inj he
    rw [getB64_ok] at h1 h2 h3 h4
    exact ⟨h2, h4, h3, h1, (size_ok _ .DSA_PUB _).mp ⟨size, h5, rfl⟩, rfl⟩
  · rintro ⟨h1, h2, h3, h4, h5, h6⟩
    obtain ⟨v, h5, h7⟩ := (size_ok _ .DSA_PUB _).mpr h5
    simp only [(getB64_ok _ _ _).mpr h1, (getB64_ok _ _ _).mpr h2, (getB64_ok _ _ _).mpr h3, (getB64_ok _ _ _).mpr h4,
      h5, bind_ok_eq, h7, ← h6]
    rfl

theorem RsaPublicKey.Read_ok {text : Bytes} {j : Json} (hj : loads text = .ok j) (k : RsaPublicKey) :
    RsaPublicKey.Read text = .ok k ↔ RsaPubSays j k := by
  unfold RsaPublicKey.Read
  rw [hj, bind_ok_eq]
  constructor
  · intro h
    obtain ⟨m, h1, ha⟩ := bind_ok h
    obtain ⟨x, h2, hb⟩ := bind_ok ha
    obtain ⟨size, h5, he⟩ := bind_ok hb
    obtain rfl := Except.ok.inj he
    rw [getB64_ok] at h1 h2
    exact ⟨h1, h2, (size_ok _ .RSA_PUB _).mp ⟨size, h5, rfl⟩, rfl⟩
  · rintro ⟨h1, h2, h5, h6⟩
    obtain ⟨v, h5, h7⟩ := (size_ok _ .RSA_PUB _).mpr h5
    simp only [(getB64_ok _ _ _).mpr h1, (getB64_ok _ _ _).mpr h2, h5, bind_ok_eq, h7, ← h6]
    rfl

theorem DsaPrivateKey.Read_ok {text : Bytes} {j : Json} (hj : loads text = .ok j) (k : DsaPrivateKey) :
    DsaPrivateKey.Read text = .ok k ↔ DsaPrivSays j k := by
  have hw := loads_WF hj
  unfold DsaPrivateKey.Read
  rw [hj, bind_ok_eq]
  constructor
  · intro h
    obtain ⟨pj, h1, ha⟩ := bind_ok h
    obtain ⟨pub, h2, hb⟩ := bind_ok ha
    obtain ⟨x, h3, hc⟩ := bind_ok hb
    obtain ⟨size, h5, he⟩ := bind_ok hc
    obtain rfl := Except.ok.inj he
    rw [DsaPublicKey.Read_ok (loads_dumps _ (get_WF hw h1))] at h2
    exact ⟨⟨pj, (get_ok _ _ _).mp h1, h2⟩, (getB64_ok _ _ _).mp h3, (size_ok _ .DSA_PRIV _).mp ⟨size, h5, rfl⟩, rfl⟩
  · rintro ⟨⟨pj, h1, h2⟩, h3, h5, h6⟩
    obtain ⟨v, h5, h7⟩ := (size_ok _ .DSA_PRIV _).mpr h5
    have h1 := (get_ok _ _ _).mpr h1
    rw [← DsaPublicKey.Read_ok (loads_dumps _ (get_WF hw h1))] at h2
    simp only [h1, h2, (getB64_ok _ _ _).mpr h3, h5, bind_ok_eq, h7, ← h6]
    rfl

theorem RsaPrivateKey.Read_ok {text : Bytes} {j : Json} (hj : loads text = .ok j) (k : RsaPrivateKey) :
    RsaPrivateKey.Read text = .ok k ↔ RsaPrivSays j k := by
  have hw := loads_WF hj
  unfold RsaPrivateKey.Read
  rw [hj, bind_ok_eq]
  constructor
  · intro h
    obtain ⟨pj, h1, ha⟩ := bind_ok h
    obtain ⟨pub, h2, hb⟩ := bind_ok ha
    obtain ⟨d, h3, hc⟩ := bind_ok hb
    obtain ⟨p, h4, hd⟩ := bind_ok hc
    obtain ⟨q, h5, he⟩ := bind_ok hd
    obtain ⟨dp, h6, hf⟩ := bind_ok he
    obtain ⟨dq, h7, hg⟩ := bind_ok hf
    obtain ⟨u, h8, hh⟩ := bind_ok hg
    obtain ⟨size, h9, hi⟩ := bind_ok hh
    obtain rfl := Except.ok.inj hi
    rw [RsaPublicKey.Read_ok (loads_dumps _ (get_WF hw h1))] at h2
    rw [getB64_ok] at h3 h4 h5 h6 h7 h8
    exact ⟨⟨pj, (get_ok _ _ _).mp h1, h2⟩, h3, h4, h5, h6, h7, h8, (size_ok _ .RSA_PRIV _).mp ⟨size, h9, rfl⟩, rfl⟩
  · rintro ⟨⟨pj, h1, h2⟩, h3, h4, h5, h6, h7, h8, h9, h10⟩
    obtain ⟨v, h9, h11⟩ := (size_ok _ .RSA_PRIV _).mpr h9
    have h1 := (get_ok _ _ _).mpr h1
    rw [← RsaPublicKey.Read_ok (loads_dumps _ (get_WF hw h1))] at h2
    simp only [h1, h2, (getB64_ok _ _ _).mpr h3, (getB64_ok _ _ _).mpr h4, (getB64_ok _ _ _).mpr h5,
      (getB64_ok _ _ _).mpr h6, (getB64_ok _ _ _).mpr h7, (getB64_ok _ _ _).mpr h8, h9, bind_ok_eq, h11, ← h10]
    rfl

theorem mapErr_ok {α} (x : Py α) (f : PyErr → PyErr) (a : α) : x.mapErr f = .ok a ↔ x = .ok a := by
  cases x <;> simp [Py.mapErr]

theorem map_ok {α β} (x : Py α) (f : α → β) (b : β) : x.map f = .ok b ↔ ∃ a, x = .ok a ∧ f a = b := by
  cases x <;> simp [Except.map]

/-- C76: `ReadKey` gives exactly the key that the document describes, and accepts no other document. -/
theorem C76_key_accepts (t : KeyType) (text : Bytes) (j : Json) (hj : loads text = .ok j) (k : Key) :
    ReadKey t text = .ok k ↔ KeySays j t k := by
  unfold ReadKey
  rw [mapErr_ok]
  constructor
  · intro h
    cases t <;> simp only [map_ok] at h <;> obtain ⟨a, h1, rfl⟩ := h
    · exact .aes ((AesKey.Read_ok hj a).mp h1)
    · exact .hmac (by unfold HmacKey.Read at h1; rw [hj] at h1; exact (HmacKey.ofJson_ok _ _).mp h1)
    · exact .dsaPriv ((DsaPrivateKey.Read_ok hj a).mp h1)
    · exact .dsaPub ((DsaPublicKey.Read_ok hj a).mp h1)
    · exact .rsaPriv ((RsaPrivateKey.Read_ok hj a).mp h1)
    · exact .rsaPub ((RsaPublicKey.Read_ok hj a).mp h1)
  · intro h
    cases h with
    | aes h => simp only [(AesKey.Read_ok hj _).mpr h]; rfl
    | @hmac k h =>
      have : HmacKey.Read text = .ok k := by unfold HmacKey.Read; rw [hj]; exact (HmacKey.ofJson_ok _ _).mpr h
      simp only [this]; rfl
    | dsaPriv h => simp only [(DsaPrivateKey.Read_ok hj _).mpr h]; rfl
    | dsaPub h => simp only [(DsaPublicKey.Read_ok hj _).mpr h]; rfl
    | rsaPriv h => simp only [(RsaPrivateKey.Read_ok hj _).mpr h]; rfl
    | rsaPub h => simp only [(RsaPublicKey.Read_ok hj _).mpr h]; rfl

/-! ## Exceptions -/

/-- the exceptions of reading items -/
def ReadErr (e : PyErr) : Prop :=
  e = .valueError ∨ e = .unmodelled ∨ e = .keyError ∨ e = .typeError ∨ e = .base64Decoding

/-- the exceptions of a computation are among these -/
def Raises {α} (E : PyErr → Prop) (x : Py α) : Prop := ∀ e, x = .error e → E e

theorem Raises.bind {α β} {E : PyErr → Prop} {x : Py α} {f : α → Py β} (h : Raises E x) (hf : ∀ a, Raises E (f a)) :
    Raises E (x >>= f) := by
  cases x with
  | error e => intro e' h'; exact h e' (by simpa [Bind.bind, Except.bind] using h')
  | ok a => exact hf a

theorem Raises.pure {α} {E : PyErr → Prop} (a : α) : Raises E (Pure.pure a : Py α) := by
  intro e h; simp [Pure.pure, Except.pure] at h

theorem Raises.mono {α} {E F : PyErr → Prop} {x : Py α} (h : Raises E x) (hi : ∀ e, E e → F e) : Raises F x :=
  fun e he => hi e (h e he)

theorem loads_raises (s : Bytes) : Raises ReadErr (loads s) := fun e h => by
  rcases loads_error h with rfl | rfl <;> simp [ReadErr]

theorem get_raises (j : Json) (k : String) : Raises ReadErr (j.get k) := fun e h => by
  cases (get_fault _ _ _).mp h <;> simp [ReadErr]

theorem toBytes_raises (j : Json) : Raises ReadErr j.toBytes := fun e h => by
  unfold Json.toBytes at h
  split at h
  · split at h <;> simp at h; subst h; simp [ReadErr]
  · obtain rfl := Except.error.inj h; simp [ReadErr]

theorem decode_raises (b : Bytes) : Raises ReadErr (Base64WSDecode b) := fun e h => by
  rcases C03_only_failure b with ⟨x, hx⟩ | hx
  · rw [hx] at h; simp at h
  · rw [hx] at h; obtain rfl := Except.error.inj h; simp [ReadErr]

theorem getB64_raises (j : Json) (k : String) : Raises ReadErr (getB64 j k) :=
  (get_raises j k).bind fun _ => (toBytes_raises _).bind fun _ => decode_raises _

theorem HmacKey.ofJson_raises (j : Json) : Raises ReadErr (HmacKey.ofJson j) :=
  (get_raises _ _).bind fun _ => (toBytes_raises _).bind fun _ => (get_raises _ _).bind fun _ => .pure _

theorem DsaPublicKey.Read_raises (t : Bytes) : Raises ReadErr (DsaPublicKey.Read t) :=
  (loads_raises t).bind fun _ => (getB64_raises _ _).bind fun _ => (getB64_raises _ _).bind fun _ =>
    (getB64_raises _ _).bind fun _ => (getB64_raises _ _).bind fun _ => (get_raises _ _).bind fun _ => .pure _

theorem RsaPublicKey.Read_raises (t : Bytes) : Raises ReadErr (RsaPublicKey.Read t) :=
  (loads_raises t).bind fun _ => (getB64_raises _ _).bind fun _ => (getB64_raises _ _).bind fun _ =>
    (get_raises _ _).bind fun _ => .pure _

theorem DsaPrivateKey.Read_raises (t : Bytes) : Raises ReadErr (DsaPrivateKey.Read t) :=
  (loads_raises t).bind fun _ => (get_raises _ _).bind fun _ => (DsaPublicKey.Read_raises _).bind fun _ =>
    (getB64_raises _ _).bind fun _ => (get_raises _ _).bind fun _ => .pure _

theorem RsaPrivateKey.Read_raises (t : Bytes) : Raises ReadErr (RsaPrivateKey.Read t) :=
  (loads_raises t).bind fun _ => (get_raises _ _).bind fun _ => (RsaPublicKey.Read_raises _).bind fun _ =>
    (getB64_raises _ _).bind fun _ => (getB64_raises _ _).bind fun _ => (getB64_raises _ _).bind fun _ =>
    (getB64_raises _ _).bind fun _ => (getB64_raises _ _).bind fun _ => (getB64_raises _ _).bind fun _ =>
    (get_raises _ _).bind fun _ => .pure _

/-- the exceptions of reading an AES key: an unknown mode, or one that is not CBC, besides -/
def AesErr (e : PyErr) : Prop := ReadErr e ∨ e = .keyczarError ∨ e = .assertionError

theorem AesKey.Read_raises (t : Bytes) : Raises AesErr (AesKey.Read t) := by
  have m : ∀ {α} {x : Py α}, Raises ReadErr x → Raises AesErr x := fun h => h.mono fun _ => .inl
  refine (m (loads_raises t)).bind fun j => (m (get_raises _ _)).bind fun _ => (m (get_raises _ _)).bind fun _ =>
    (m (toBytes_raises _)).bind fun _ => (m (HmacKey.ofJson_raises _)).bind fun _ => (m (get_raises _ _)).bind fun _ =>
    (m (get_raises _ _)).bind fun v => Raises.bind ?_ fun mode => ?_
  · intro e h
    cases (GetMode_fault _ _).mp h with
    | list => simp [AesErr, ReadErr]
    | dict => simp [AesErr, ReadErr]
    | other => simp [AesErr]
  · by_cases hm : mode ≠ .CBC
    · rw [if_pos hm]; intro e h; obtain rfl := Except.error.inj h; simp [AesErr]
    · rw [if_neg hm]; exact .pure _

theorem map_error {α β} (x : Py α) (f : α → β) (e : PyErr) : x.map f = .error e ↔ x = .error e := by
  cases x <;> simp [Except.map]

/-- C76: the exceptions of `ReadKey`.  KeyError is turned into KeyczarError, but a document of the wrong shape
raises TypeError, a text that is not JSON ValueError, and an AES key with a mode other than CBC AssertionError. -/
theorem C76_key_exceptions (t : KeyType) (text : Bytes) (e : PyErr) (h : ReadKey t text = .error e) :
    e = .keyczarError ∨ e = .base64Decoding ∨ e = .valueError ∨ e = .typeError ∨ e = .unmodelled ∨
      (e = .assertionError ∧ t = .AES) := by
  have key : ∀ (x : Py Key), Raises ReadErr x ∨ (Raises AesErr x ∧ t = .AES) →
      (x.mapErr fun e => if e = .keyError then .keyczarError else e) = .error e →
      e = .keyczarError ∨ e = .base64Decoding ∨ e = .valueError ∨ e = .typeError ∨ e = .unmodelled ∨
        (e = .assertionError ∧ t = .AES) := by
    intro x hx h
    cases x with
    | ok a => simp [Py.mapErr] at h
    | error e' =>
      simp only [Py.mapErr, Except.error.injEq] at h
      subst h
      have := hx.imp (fun h => h e' rfl) (fun h => And.intro (h.1 e' rfl) h.2)
      simp only [AesErr, ReadErr] at this
      rcases this with (rfl | rfl | rfl | rfl | rfl) | ⟨(rfl | rfl | rfl | rfl | rfl) | rfl | rfl, ht⟩ <;> simp_all
  refine key _ ?_ h
  cases t with
  | AES => exact .inr ⟨fun e h => AesKey.Read_raises _ e ((map_error _ _ _).mp h), rfl⟩
  | HMAC_SHA1 =>
    exact .inl fun e h => ((loads_raises text).bind fun j => HmacKey.ofJson_raises j) e ((map_error _ _ _).mp h)
  | DSA_PRIV => exact .inl fun e h => DsaPrivateKey.Read_raises _ e ((map_error _ _ _).mp h)
  | DSA_PUB => exact .inl fun e h => DsaPublicKey.Read_raises _ e ((map_error _ _ _).mp h)
  | RSA_PRIV => exact .inl fun e h => RsaPrivateKey.Read_raises _ e ((map_error _ _ _).mp h)
  | RSA_PUB => exact .inl fun e h => RsaPublicKey.Read_raises _ e ((map_error _ _ _).mp h)

/-- C76: an AES key with another known mode fails the assertion. -/
theorem C76_aes_mode (text : Bytes) (j : Json) (hj : loads text = .ok j) (k : AesKey) (m : CipherMode) (hm : m ≠ .CBC)
    (h1 : TextField j "aesKeyString" k.keyString) (h2 : ∃ h, HasField j "hmacKey" h ∧ HmacSays h k.hmacKey)
    (h3 : SizeField j [128, 192, 256] k.size) (h4 : HasField j "mode" (Json.ofString m.name)) :
    ReadKey .AES text = .error .assertionError := by
  obtain ⟨hv, h2, h2'⟩ := h2
  obtain ⟨v, h5, h6⟩ := (size_ok _ .AES _).mpr h3
  have : AesKey.Read text = .error .assertionError := by
    unfold AesKey.Read
    simp only [hj, ← bind_assoc, (get_ok _ _ _).mpr h2, bind_ok_eq, (text_ok _ _ _).mpr h1]
    simp only [(HmacKey.ofJson_ok _ _).mpr h2', h5, (get_ok _ _ _).mpr h4, bind_ok_eq, GetMode_name, if_pos hm]
  unfold ReadKey
  rw [this]
  rfl

/-- C76: a key document that is not a dictionary raises TypeError, whatever the type. -/
theorem C76_key_not_dict (t : KeyType) (text : Bytes) (j : Json) (hj : loads text = .ok j) (h : ∀ f, j ≠ .obj f) :
    ReadKey t text = .error .typeError := by
  have hg : ∀ k, j.get k = .error .typeError := fun k => (get_fault _ _ _).mpr (.notDict h)
  unfold ReadKey AesKey.Read HmacKey.Read HmacKey.ofJson DsaPrivateKey.Read RsaPrivateKey.Read DsaPublicKey.Read
    RsaPublicKey.Read getB64
  rw [hj]
  cases t <;> simp [bind, Except.bind, Except.map, Py.mapErr, hg]

/-- C76: items that contradict one another are accepted: a modulus that is not the product of the primes, a size
that is not that of the modulus. -/
theorem C76_key_unchecked (text : Bytes) (j : Json) (hj : loads text = .ok j) (n e d p q dp dq u : Bytes) (pj : Json)
    (hn : B64Field pj "modulus" n) (he : B64Field pj "publicExponent" e) (hps : HasField pj "size" (.num 512))
    (hp : HasField j "publicKey" pj) (hd : B64Field j "privateExponent" d) (h1 : B64Field j "primeP" p)
    (h2 : B64Field j "primeQ" q) (h3 : B64Field j "primeExponentP" dp) (h4 : B64Field j "primeExponentQ" dq)
    (h5 : B64Field j "crtCoefficient" u) (hs : HasField j "size" (.num 4096)) :
    ∃ k, ReadKey .RSA_PRIV text = .ok (.rsaPriv k) ∧ k.pub.modulus = n ∧ k.primeP = p ∧ k.primeQ = q ∧ k.size = 4096 ∧
      k.pub.size = 512 := by
  refine ⟨⟨d, p, q, dp, dq, u, ⟨n, e, ⟨BytesToLong n, BytesToLong e⟩, 512⟩, ⟨BytesToLong n, BytesToLong e, BytesToLong d,
    BytesToLong q, BytesToLong p, BytesToLong u⟩, 4096⟩, (C76_key_accepts _ _ j hj _).mpr (.rsaPriv ?_), rfl, rfl, rfl,
    rfl, rfl⟩
  exact ⟨⟨pj, hp, hn, he, ⟨_, hps, .inl ⟨by simp, rfl⟩⟩, rfl⟩, hd, h1, h2, h3, h4, h5, ⟨_, hs, .inl ⟨by simp, rfl⟩⟩, rfl⟩

/-- an RSA key whose parts are all the single byte 65, and documents for the theorems above -/
def exPub : Json := .obj [("modulus".toList, .str "QQ".toList), ("publicExponent".toList, .str "QQ".toList),
  ("size".toList, .num 512)]
def exPriv : Json := .obj (("publicKey".toList, exPub) :: ("size".toList, .num 4096) ::
  ["privateExponent", "primeP", "primeQ", "primeExponentP", "primeExponentQ", "crtCoefficient"].map
    fun s => (s.toList, Json.str "QQ".toList))
theorem exB64 (j : Json) (k : String) (h : HasField j k (.str "QQ".toList)) : B64Field j k [65] :=
  ⟨bstr "QQ", ⟨_, h, by decide, by decide⟩, by decide⟩
example : B64Field exPriv "primeQ" [65] := exB64 _ _ ⟨_, rfl, by simp [dictGet]⟩
example : HasField exPriv "publicKey" exPub := ⟨_, rfl, by simp [dictGet]⟩
example : B64Field exPub "modulus" [65] := exB64 _ _ ⟨_, rfl, by simp [dictGet]⟩
example : loads (dumps exPriv) = .ok exPriv :=
  loads_dumps _ (by simp [exPriv, exPub, Json.WF, WFMembers])
def exEcb : Json := .obj [("aesKeyString".toList, .str []), ("mode".toList, .str "ECB".toList),
  ("hmacKey".toList, .obj [("hmacKeyString".toList, .str []), ("size".toList, .null)]), ("size".toList, .num 7)]
example : SizeField exEcb [128, 192, 256] 128 := ⟨.num 7, ⟨_, rfl, by simp [dictGet]⟩, .inr ⟨by simp, rfl⟩⟩
example : HmacSays (.obj [("hmacKeyString".toList, .str []), ("size".toList, .null)]) ⟨[], 256⟩ :=
  ⟨⟨[], ⟨_, rfl, by simp [dictGet]⟩, rfl, rfl⟩, ⟨.null, ⟨_, rfl, by simp [dictGet]⟩, .inr ⟨by simp, rfl⟩⟩⟩

end Verif.Props
