import Verif.Spec.Forgery
import Verif.Props.SessionText
import Verif.Props.Formats
/-
C89: whoever makes the library accept something that it did not make has broken one of the primitives, and which requests
can be confused with each other.  A history is a list of calls that succeeded, on key sets in any state, with the requests
in any order; so the theorems cover an adversary who chooses each request after seeing the earlier outputs, with keys
added, promoted and revoked in between.
-/
namespace Verif.Props
open Verif Spec
variable (P : Prims)

/-- one successful call of `Sign`, `AttachedSign` or the unversioned `Sign`, of a loaded key set with a primary key that
can sign -/
structure Signed where
  czar : Czar
  entry : Entry
  request : Request
  rnd : Rand
  out : Bytes
  loaded : Loaded P czar
  primary : czar.keySet.primaries = [entry]
  able : CanSign entry.key
  made : match request with
    | .plain m => czar.Sign P rnd m none = .ok out
    | .attached m nonce => m.length < 2 ^ 31 ∧ nonce.length < 2 ^ 31 ∧ czar.AttachedSign P rnd m nonce none = .ok out
    | .unversioned m => czar.UnversionedSign P rnd m none = .ok out

/-- what the calls asked for, and of which keys -/
def requests (runs : List (Signed P)) : List (Key × Request) := runs.map fun r => (r.entry.key, r.request)

/-- C89: an output is made of one signature by the primary key over the text of the request and of what everybody knows:
the identifier of the key and the message.  So the calls can be answered by somebody who may only ask for signatures of
these texts. -/
theorem C89_answers (r : Signed P) :
    ∃ id sig, KeyId P.sha1 r.entry.key id ∧ TheSignature P.sha1 r.rnd.dsaK r.entry.key r.request.text sig ∧
      r.out = match r.request with
        | .plain _ => header id ++ sig
        | .attached m _ => header id ++ lengthPrefixed m ++ sig
        | .unversioned _ => sig := by
  obtain ⟨c, e, q, rnd, out, hc, hp, hs, hm⟩ := r
  cases q with
  | plain m =>
    obtain ⟨id, sig, h1, h2, h3⟩ := (C84_sign P c hc e hp hs rnd m out).mp hm
    exact ⟨id, sig, h1, h2, h3⟩
  | attached m nonce =>
    obtain ⟨id, sig, h1, h2, h3⟩ := (C84_attached P c hc e hp hs rnd m nonce out hm.1 hm.2.1).mp hm.2.2
    exact ⟨id, sig, h1, h2, h3⟩
  | unversioned m =>
    obtain ⟨id, hid⟩ := hc.keyId (primary_mem hp).1
    exact ⟨id, out, hid, (C84_unversioned P c hc e hp hs rnd m out).mp hm, rfl⟩

theorem forged_or_asked (runs : List (Signed P)) (k : Key) (text sig : Bytes)
    (h : SignatureFor P.sha1 P.rsaRangeCheck k text sig) :
    Forgery P.sha1 P.rsaRangeCheck (requests P runs) k text sig ∨
      ∃ r ∈ runs, SameSignatures P.sha1 P.rsaRangeCheck r.entry.key k ∧ r.request.text = text := by
  by_cases hr : ∃ r ∈ runs, SameSignatures P.sha1 P.rsaRangeCheck r.entry.key k ∧ r.request.text = text
  · exact .inr hr
  · refine .inl ⟨h, ?_⟩
    intro p hp h1 h2
    obtain ⟨r, hr', rfl⟩ := List.mem_map.mp hp
    exact hr ⟨r, hr', h1, h2⟩

/-- C89: if `Verify` accepts a signature of `m`, it holds a forgery, or `m` was signed before, or something else was signed
before that amounts to the same bytes: `m` ends with the nonce, and its length, of an attached signature; or `m` with a zero
byte was signed without version. -/
theorem C89_verify (runs : List (Signed P)) (c : Czar) (hc : Loaded P c) (hd : c.keySet.Distinct P)
    (hs : ∀ e ∈ c.keySet.entries, SoundKey e.key) (m input data : Bytes) (dec : Option (Bytes → Py Bytes))
    (hdec : Decodes dec input data) (h : c.Verify P m input dec = .ok true) :
    ∃ e ∈ c.keySet.entries, ∃ id sig, KeyId P.sha1 e.key id ∧ data = header id ++ sig ∧
      (Forgery P.sha1 P.rsaRangeCheck (requests P runs) e.key (m ++ [0]) sig ∨
        ∃ r ∈ runs, SameSignatures P.sha1 P.rsaRangeCheck r.entry.key e.key ∧
          (r.request = .plain m ∨ (∃ m' nonce, r.request = .attached m' nonce ∧ m = m' ++ lengthPrefixed nonce) ∨
            r.request = .unversioned (m ++ [0]))) := by
  obtain ⟨e, he, id, sig, hid, hdata, hf⟩ := (C82_accepts P c hc hd hs m input data dec hdec).mp h
  refine ⟨e, he, id, sig, hid, hdata, ?_⟩
  rcases forged_or_asked P runs e.key _ sig hf with h1 | ⟨r, hr, h1, h2⟩
  · exact .inl h1
  · refine .inr ⟨r, hr, h1, ?_⟩
    cases hq : r.request with
    | plain m' => rw [hq] at h2; exact .inl (by rw [List.append_left_injective [0] h2])
    | attached m' nonce =>
      rw [hq] at h2
      exact .inr (.inl ⟨m', nonce, rfl, (List.append_left_injective [0] h2).symm⟩)
    | unversioned m' => rw [hq] at h2; exact .inr (.inr (by rw [← h2]; rfl))

/-- C89: if `AttachedVerify` returns `data` for a nonce, it holds a forgery, or `data` was signed with an attached signature
before under this nonce, or something else was that amounts to the same bytes. -/
theorem C89_attached (runs : List (Signed P)) (c : Czar) (hc : Loaded P c) (hd : c.keySet.Distinct P)
    (hs : ∀ e ∈ c.keySet.entries, SoundKey e.key) (input blob nonce data : Bytes) (dec : Option (Bytes → Py Bytes))
    (hdec : Decodes dec input blob) (hn : nonce.length < 2 ^ 31)
    (h : c.AttachedVerify P input nonce dec = .ok (some data)) :
    ∃ e ∈ c.keySet.entries, ∃ id sig, KeyId P.sha1 e.key id ∧ AttachedForm id data sig blob ∧
      (Forgery P.sha1 P.rsaRangeCheck (requests P runs) e.key (data ++ lengthPrefixed nonce ++ [0]) sig ∨
        ∃ r ∈ runs, SameSignatures P.sha1 P.rsaRangeCheck r.entry.key e.key ∧
          (r.request = .attached data nonce ∨
            (∃ m' nonce', r.request = .attached m' nonce' ∧ nonce'.length ≠ nonce.length ∧
              m' ++ lengthPrefixed nonce' = data ++ lengthPrefixed nonce) ∨
            r.request = .plain (data ++ lengthPrefixed nonce) ∨
            r.request = .unversioned (data ++ lengthPrefixed nonce ++ [0]))) := by
  obtain ⟨e, he, id, sig, hid, hform, hf⟩ := (C82_attached P c hc hd hs input blob nonce data dec hdec hn).mp h
  refine ⟨e, he, id, sig, hid, hform, ?_⟩
  rcases forged_or_asked P runs e.key _ sig hf with h1 | ⟨r, hr, h1, h2⟩
  · exact .inl h1
  · refine .inr ⟨r, hr, h1, ?_⟩
    cases hq : r.request with
    | plain m' => rw [hq] at h2; exact .inr (.inr (.inl (by rw [List.append_left_injective [0] h2])))
    | attached m' nonce' =>
      rw [hq] at h2
      by_cases hl : nonce'.length = nonce.length
      · obtain ⟨rfl, rfl⟩ := C45_binding m' data nonce' nonce hl h2
        exact .inl rfl
      · exact .inr (.inl ⟨m', nonce', rfl, hl, List.append_left_injective [0] h2⟩)
    | unversioned m' => rw [hq] at h2; exact .inr (.inr (.inr (by rw [← h2]; rfl)))

/-- C89: if the unversioned `Verify` accepts a signature of `m`, some key of the set holds a forgery, or `m` is the text of
a request signed before. -/
theorem C89_unversioned (runs : List (Signed P)) (c : Czar) (hc : Loaded P c)
    (hs : ∀ e ∈ c.keySet.entries, SoundKey e.key) (m input sig : Bytes) (dec : Option (Bytes → Py Bytes))
    (hdec : Decodes dec input sig) (h : c.UnversionedVerify P m input dec = .ok true) :
    ∃ e ∈ c.keySet.entries,
      (Forgery P.sha1 P.rsaRangeCheck (requests P runs) e.key m sig ∨
        ∃ r ∈ runs, SameSignatures P.sha1 P.rsaRangeCheck r.entry.key e.key ∧ r.request.text = m) := by
  obtain ⟨e, he, hf⟩ := (C82_unversioned P c hc hs m input sig dec hdec).mp h
  exact ⟨e, he, forged_or_asked P runs e.key m sig hf⟩

/-- C89: with a key set that is only used for plain signatures, whatever `Verify` accepts was signed, or holds a forgery
after its header. -/
theorem C89_only_plain (runs : List (Signed P)) (hruns : ∀ r ∈ runs, ∃ m, r.request = .plain m) (c : Czar)
    (hc : Loaded P c) (hd : c.keySet.Distinct P) (hs : ∀ e ∈ c.keySet.entries, SoundKey e.key) (m input data : Bytes)
    (dec : Option (Bytes → Py Bytes)) (hdec : Decodes dec input data) (h : c.Verify P m input dec = .ok true) :
    (∃ r ∈ runs, r.request = .plain m) ∨
      ∃ e ∈ c.keySet.entries, Forgery P.sha1 P.rsaRangeCheck (requests P runs) e.key (m ++ [0]) (data.drop 5) := by
  obtain ⟨e, he, id, sig, hid, rfl, h1 | ⟨r, hr, -, h1⟩⟩ := C89_verify P runs c hc hd hs m input data dec hdec h
  · have hl : (header id).length = 5 := by simp [header, ((KeyId_iff P _ _).mp hid).1]
    rw [List.drop_left' hl]
    exact .inr ⟨e, he, h1⟩
  · refine .inl ⟨r, hr, ?_⟩
    obtain ⟨m', hm'⟩ := hruns r hr
    rcases h1 with h1 | ⟨m'', n, h1, -⟩ | h1
    · exact h1
    · rw [h1] at hm'; cases hm'
    · rw [h1] at hm'; cases hm'

/-- C89: with a key set that is only used for attached signatures with nonces of one length, as signed sessions do,
whatever `AttachedVerify` returns was signed for this nonce, or a part of the blob is a forgery. -/
theorem C89_only_attached (len : Nat) (runs : List (Signed P))
    (hruns : ∀ r ∈ runs, ∃ m n, r.request = .attached m n ∧ n.length = len) (c : Czar)
    (hc : Loaded P c) (hd : c.keySet.Distinct P) (hs : ∀ e ∈ c.keySet.entries, SoundKey e.key)
    (nonce data input blob : Bytes) (hn : nonce.length < 2 ^ 31) (hlen : nonce.length = len)
    (dec : Option (Bytes → Py Bytes)) (hdec : Decodes dec input blob)
    (h : c.AttachedVerify P input nonce dec = .ok (some data)) :
    (∃ r ∈ runs, r.request = .attached data nonce) ∨
      ∃ e ∈ c.keySet.entries, ∃ id sig, AttachedForm id data sig blob ∧
        Forgery P.sha1 P.rsaRangeCheck (requests P runs) e.key (data ++ lengthPrefixed nonce ++ [0]) sig := by
  obtain ⟨e, he, id, sig, -, hform, h1 | ⟨r, hr, -, h1⟩⟩ :=
    C89_attached P runs c hc hd hs input blob nonce data dec hdec hn h
  · exact .inr ⟨e, he, id, sig, hform, h1⟩
  · refine .inl ⟨r, hr, ?_⟩
    obtain ⟨m', n', hm', hl'⟩ := hruns r hr
    rcases h1 with h1 | ⟨m'', n, h1, h2, -⟩ | h1 | h1
    · exact h1
    · rw [h1] at hm'; cases hm'; exact (h2 (hl'.trans hlen.symm)).elim
    · rw [h1] at hm'; cases hm'
    · rw [h1] at hm'; cases hm'

/-- C89: with a signer that is only used for signed sessions, whose nonces have one length, a message that
`SignedSessionDecrypter.Decrypt` returns is the decryption of a ciphertext that was signed for this session, or the message
holds a forgery. -/
theorem C89_session (runs : List (Signed P)) (s : Session) (nonce : Bytes) (hnonce : s.nonce = some nonce)
    (hn : nonce.length < 2 ^ 31) (hruns : ∀ r ∈ runs, ∃ m n, r.request = .attached m n ∧ n.length = nonce.length)
    (verifier : Czar) (hv : Loaded P verifier) (hd : verifier.keySet.Distinct P)
    (hs : ∀ e ∈ verifier.keySet.entries, SoundKey e.key) (signed blob m : Bytes) (hb64 : Base64WSDecode signed = .ok blob)
    (h : SignedSessionDecrypter.Decrypt P s verifier signed = .ok (some m)) :
    ∃ ct, SessionDecrypter.Decrypt P s ct none = .ok m ∧
      ((∃ r ∈ runs, r.request = .attached ct nonce) ∨
        ∃ e ∈ verifier.keySet.entries, ∃ id sig, AttachedForm id ct sig blob ∧
          Forgery P.sha1 P.rsaRangeCheck (requests P runs) e.key (ct ++ lengthPrefixed nonce ++ [0]) sig) := by
  obtain ⟨ct, h1, -, h2⟩ := (C54_exact P s nonce hnonce verifier signed).2.2 m h
  exact ⟨ct, h2, C89_only_attached P nonce.length runs hruns verifier hv hd hs nonce ct signed blob hn rfl
    (some Base64WSDecode) hb64 h1⟩

/-- C89: the other cases do occur: after one attached signature and nothing else, a key set of HMAC keys accepts a plain
and an unversioned signature of messages that nobody asked it to sign, and neither is a forgery. -/
theorem C89_confused (c : Czar) (hc : Loaded P c) (hd : c.keySet.Distinct P) (e : Entry) (k : HmacKey)
    (hp : c.keySet.primaries = [e]) (hk : e.key = .hmac k) (hs : ∀ e ∈ c.keySet.entries, SoundKey e.key) (rnd : Rand)
    (m nonce : Bytes) (hm : m.length < 2 ^ 31) (hn : nonce.length < 2 ^ 31) :
    ∃ (r : Signed P) (id sig : Bytes), r.czar = c ∧ r.request = .attached m nonce ∧
      r.out = header id ++ lengthPrefixed m ++ sig ∧
      c.Verify P (m ++ lengthPrefixed nonce) (header id ++ sig) none = .ok true ∧
      c.UnversionedVerify P (m ++ lengthPrefixed nonce ++ [0]) sig none = .ok true ∧
      ¬ Forgery P.sha1 P.rsaRangeCheck (requests P [r]) e.key (m ++ lengthPrefixed nonce ++ [0]) sig := by
  have he := (primary_mem hp).1
  have hcs : CanSign e.key := by rw [hk]; trivial
  obtain ⟨id, hid⟩ := hc.keyId he
  obtain ⟨kb, hkb⟩ := hc.hmac_bytes he hk
  obtain ⟨sig, hsig⟩ : ∃ sig, sig = hmac P.sha1 kb (m ++ lengthPrefixed nonce ++ [0]) := ⟨_, rfl⟩
  have ht : TheSignature P.sha1 rnd.dsaK e.key (m ++ lengthPrefixed nonce ++ [0]) sig := by
    rw [hk]; exact ⟨kb, hkb, hsig⟩
  have hf : SignatureFor P.sha1 P.rsaRangeCheck e.key (m ++ lengthPrefixed nonce ++ [0]) sig := by
    rw [hk]; exact ⟨kb, hkb, hsig⟩
  refine ⟨⟨c, e, .attached m nonce, rnd, header id ++ lengthPrefixed m ++ sig, hc, hp, hcs, hm, hn, ?_⟩, id, sig, rfl, rfl,
    rfl, ?_, ?_, ?_⟩
  · exact (C84_attached P c hc e hp hcs rnd m nonce _ hm hn).mpr ⟨id, sig, hid, ht, rfl⟩
  · exact (C82_accepts P c hc hd hs _ _ _ none rfl).mpr ⟨e, he, id, sig, hid, rfl, hf⟩
  · exact (C82_unversioned P c hc hs _ _ _ none rfl).mpr ⟨e, he, hf⟩
  · rintro ⟨-, h⟩
    exact h _ (List.mem_singleton.mpr rfl) (fun _ _ => Iff.rfl) rfl

/-- example: a key set with one HMAC key meets the hypotheses -/
example (rnd : Rand) : ∃ c e k, Loaded P c ∧ c.keySet.Distinct P ∧ c.keySet.primaries = [e] ∧ e.key = .hmac k ∧
    (∀ e ∈ c.keySet.entries, SoundKey e.key) ∧ ∃ r : Signed P, r.czar = c ∧ r.request = .plain (bstr "data") := by
  have hh : ∃ hash, (Key.hmac exHmac).hashId P = .ok hash := by
    simp only [Key.hashId, HmacKey.hashId, exHmac, HmacKey.keyBytes, Base64WSDecode_encode, bind, Except.bind, pure,
      Except.pure]
    exact ⟨_, rfl⟩
  have := Czar.init_gives (cls := .signer) (StaticKeyReader_gives (P := P) (k := .hmac exHmac)
    ⟨WSE_plain _, by decide⟩ hh .SIGN_AND_VERIFY)
  rw [if_pos (by refine ⟨rfl, fun h => ?_, by simp [staticSet, KeySet.primaries]⟩; cases h)] at this
  obtain ⟨c, h1, h2⟩ := this
  have hc : Loaded P c := ⟨_, _, h1⟩
  have hp : c.keySet.primaries = [⟨1, .PRIMARY, .bool false, .hmac exHmac⟩] := by rw [h2]; rfl
  have hall : ∀ e ∈ c.keySet.entries, e = ⟨1, .PRIMARY, .bool false, .hmac exHmac⟩ := by
    rw [h2]; intro e he; simpa [staticSet] using he
  obtain ⟨id, hid⟩ := hc.keyId (primary_mem hp).1
  obtain ⟨kb, hkb⟩ := hc.hmac_bytes (primary_mem hp).1 rfl
  have hmade := (C84_sign P c hc _ hp trivial rnd (bstr "data") _).mpr ⟨id, _, hid, ⟨kb, hkb, rfl⟩, rfl⟩
  refine ⟨c, _, exHmac, hc, ?_, hp, rfl, fun e he => by rw [hall e he]; trivial,
    ⟨c, _, .plain (bstr "data"), _, _, hc, hp, trivial, hmade⟩, rfl, rfl⟩
  rw [h2]
  exact staticSet_distinct _ _

/-! ### encryption -/

/-- one successful call of `Encrypt` of a loaded key set with an AES key as primary -/
structure Encrypted where
  czar : Czar
  entry : Entry
  key : AesKey
  kb : Bytes
  hb : Bytes
  rnd : Rand
  m : Bytes
  out : Bytes
  loaded : Loaded P czar
  primary : czar.keySet.primaries = [entry]
  isAes : entry.key = .aes key
  usable : UsableAes key kb hb
  made : czar.Encrypt P rnd m none = .ok out

/-- the texts the HMAC keys were applied to -/
def macked (runs : List (Encrypted P)) : List (Bytes × Bytes) := runs.map fun r => (r.hb, r.out.take (r.out.length - 20))

theorem AesText_tag {H E : Bytes → Bytes} (hH : ∀ x, (H x).length = 20) {hb id iv data : Bytes} {ps : List Bytes}
    (h : AesText H E hb id iv ps data) :
    data = data.take (data.length - 20) ++ hmac H hb (data.take (data.length - 20)) := by
  obtain ⟨cs, -, -, -, -, rfl⟩ := h
  have hl : (hmac H hb (header id ++ iv ++ cs.flatten)).length = 20 := hH _
  rw [List.length_append, hl, Nat.add_sub_cancel, List.take_left]

/-- C89: an output of `Encrypt` is what the HMAC key was applied to, followed by the MAC. -/
theorem C89_encrypt_answers (r : Encrypted P) :
    r.out = r.out.take (r.out.length - 20) ++ hmac P.sha1 r.hb (r.out.take (r.out.length - 20)) := by
  obtain ⟨id, ps, -, -, h⟩ := (C83_encrypts P r.czar r.loaded r.entry r.primary r.key r.kb r.hb r.isAes r.usable r.rnd r.m r.out).mp r.made
  exact AesText_tag P.sha1_length h

/-- C89: if `Decrypt` returns anything for a string, the string is an output of `Encrypt`, or it ends with the forgery of a
MAC under the HMAC key of a key of the set. -/
theorem C89_decrypt (runs : List (Encrypted P)) (c : Czar) (hc : Loaded P c) (hd : c.keySet.Distinct P) (ha : AllAes c)
    (input data m : Bytes) (dec : Option (Bytes → Py Bytes)) (hdec : Decodes dec input data)
    (h : c.Decrypt P input dec = .ok m) :
    (∃ r ∈ runs, data = r.out) ∨
      ∃ e ∈ c.keySet.entries, ∃ k hb tag, e.key = .aes k ∧ Base64WSDecode k.hmacKey.keyString = .ok hb ∧
        data = data.take (data.length - 20) ++ tag ∧
        MacForgery P.sha1 (macked P runs) hb (data.take (data.length - 20)) tag := by
  obtain ⟨e, he, k, kb, hb, id, iv, ps, hk, -, hhb, -, ht, -⟩ := (C83_accepts P c hc hd ha input data m dec hdec).mp h
  have hdata := AesText_tag P.sha1_length ht
  by_cases hr : (hb, data.take (data.length - 20)) ∈ macked P runs
  · obtain ⟨r, hr', hr''⟩ := List.mem_map.mp hr
    have h1 : r.hb = hb := congrArg Prod.fst hr''
    have h2 : r.out.take (r.out.length - 20) = data.take (data.length - 20) := congrArg Prod.snd hr''
    refine .inl ⟨r, hr', ?_⟩
    rw [C89_encrypt_answers P r, h1, h2]
    exact hdata
  · exact .inr ⟨e, he, k, hb, _, hk, hhb, hdata, rfl, hr⟩

/-- example: the key set testdata/aes and a message encrypted with it -/
example (rnd : Rand) : ∃ r : Encrypted realPrims, r.m = bstr "data" ∧ r.czar.keySet.Distinct realPrims ∧ AllAes r.czar := by
  obtain ⟨c, hc, hd, ha, e, k, kb, hb, hp, hk, hu⟩ := exAes_set
  obtain ⟨out, ho⟩ := C22_aes_encrypts realPrims c hc e k kb hb hp hk hu none rnd (bstr "data")
  exact ⟨⟨c, e, k, kb, hb, rnd, bstr "data", out, hc, hp, hk, hu, ho⟩, rfl, hd, ha⟩

end Verif.Props
