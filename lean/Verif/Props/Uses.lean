import Verif.Spec.Uses
import Verif.Props.Forgery
import Verif.Lemmas.ExampleSets
/-
Property theorems C96: signatures made in one way and verified in another.  keyczar.py:378-487, 587-674.
-/
namespace Verif.Props
open Verif Spec
variable (P : Prims)

/-! ## C96 -/

/-- the key set makes the signature `sig` (without header and message) for a request; `id` is the identifier in the header -/
def Makes (c : Czar) (rnd : Rand) (id sig : Bytes) : Request → Prop
  | .plain m => c.Sign P rnd m none = .ok (header id ++ sig)
  | .attached m nonce => c.AttachedSign P rnd m nonce none = .ok (attachedBlob id m sig)
  | .unversioned m => c.UnversionedSign P rnd m none = .ok sig

/-- the key set accepts `sig`, with the header for `id` where there is one, as a signature for the request -/
def Takes (c : Czar) (id sig : Bytes) : Request → Prop
  | .plain m => c.Verify P m (header id ++ sig) none = .ok true
  | .attached m nonce => c.AttachedVerify P (attachedBlob id m sig) nonce none = .ok (some m)
  | .unversioned m => c.UnversionedVerify P m sig none = .ok true

/-- C96: what is signed is the text, whatever the way of signing: nothing in it says which way it was. -/
theorem C96_makes (c : Czar) (hc : Loaded P c) (e : Entry) (hp : c.keySet.primaries = [e]) (hs : CanSign e.key)
    (rnd : Rand) (id sig : Bytes) (hid : KeyId P.sha1 e.key id) (r : Request) (hr : r.Fits) :
    Makes P c rnd id sig r ↔ TheSignature P.sha1 rnd.dsaK e.key r.text sig := by
  cases r with
  | plain m =>
    refine (C84_sign P c hc e hp hs rnd m _).trans ⟨?_, fun h => ⟨id, sig, hid, h, rfl⟩⟩
    rintro ⟨id', sig', hid', h, heq⟩
    rw [KeyId_unique P hid' hid] at heq
    rw [List.append_cancel_left heq]
    exact h
  | attached m nonce =>
    refine (C84_attached P c hc e hp hs rnd m nonce _ hr.1 hr.2).trans ⟨?_, fun h => ⟨id, sig, hid, h, rfl⟩⟩
    rintro ⟨id', sig', hid', h, heq⟩
    rw [KeyId_unique P hid' hid] at heq
    rw [List.append_cancel_left heq]
    exact h
  | unversioned m => exact C84_unversioned P c hc e hp hs rnd m sig

/-- C96: so two requests with the same text get the same signature. -/
theorem C96_same_signature (c : Czar) (hc : Loaded P c) (e : Entry) (hp : c.keySet.primaries = [e]) (hs : CanSign e.key)
    (rnd : Rand) (id sig : Bytes) (hid : KeyId P.sha1 e.key id) (r r' : Request) (hr : r.Fits) (hr' : r'.Fits)
    (h : r.text = r'.text) : Makes P c rnd id sig r ↔ Makes P c rnd id sig r' := by
  rw [C96_makes P c hc e hp hs rnd id sig hid r hr, C96_makes P c hc e hp hs rnd id sig hid r' hr', h]

/-- C96: and a signature that is accepted for a request with some header of the set is one of the text under a key of the
set, and conversely. -/
theorem C96_takes (c : Czar) (hc : Loaded P c) (hd : c.keySet.Distinct P) (hs : ∀ e ∈ c.keySet.entries, SoundKey e.key)
    (sig : Bytes) (r : Request) (hr : r.Fits) :
    (∃ e ∈ c.keySet.entries, ∃ id, KeyId P.sha1 e.key id ∧ Takes P c id sig r) ↔
      ∃ e ∈ c.keySet.entries, SignatureFor P.sha1 P.rsaRangeCheck e.key r.text sig := by
  have hids : ∀ e ∈ c.keySet.entries, ∃ id, KeyId P.sha1 e.key id := by
    intro e he
    obtain ⟨-, -, h, hh⟩ := hc.loadable.key_ok e he
    obtain ⟨id, -, hid⟩ := KeyId_of_hashId P hh
    exact ⟨id, hid⟩
  cases r with
  | plain m =>
    have key : ∀ e ∈ c.keySet.entries, ∀ id, KeyId P.sha1 e.key id →
        (Takes P c id sig (.plain m) ↔ SignatureFor P.sha1 P.rsaRangeCheck e.key (m ++ [0]) sig) := by
      intro e he id hid
      have h : c.Verify P m (header id ++ sig) none = e.key.Verify P (plainPayload m) sig :=
        Verify_dispatch P hc hd he hid (dec := none) rfl _
      unfold Takes
      simp only
      rw [h]
      exact C82_key P _ (hs e he) _ _
    constructor
    · rintro ⟨e, he, id, hid, h⟩
      exact ⟨e, he, (key e he id hid).mp h⟩
    · rintro ⟨e, he, h⟩
      obtain ⟨id, hid⟩ := hids e he
      exact ⟨e, he, id, hid, (key e he id hid).mpr h⟩
  | attached m nonce =>
    have key : ∀ e ∈ c.keySet.entries, ∀ id, KeyId P.sha1 e.key id →
        (Takes P c id sig (.attached m nonce) ↔
          SignatureFor P.sha1 P.rsaRangeCheck e.key (m ++ lengthPrefixed nonce ++ [0]) sig) := by
      intro e he id hid
      unfold Takes
      simp only
      rw [AttachedVerify_blob P hc hd he hid (dec := none) rfl hr.1 hr.2, ← C82_key P _ (hs e he)]
      show _ ↔ e.key.Verify P (attachedPayload m nonce) sig = _
      cases hv : e.key.Verify P (attachedPayload m nonce) sig with
      | error x => exact ⟨fun h => (by cases h), fun h => (by cases h)⟩
      | ok b => cases b <;> exact ⟨fun h => (by first | rfl | cases h), fun h => (by first | rfl | cases h)⟩
    constructor
    · rintro ⟨e, he, id, hid, h⟩
      exact ⟨e, he, (key e he id hid).mp h⟩
    · rintro ⟨e, he, h⟩
      obtain ⟨id, hid⟩ := hids e he
      exact ⟨e, he, id, hid, (key e he id hid).mpr h⟩
  | unversioned m =>
    have key := C82_unversioned P c hc hs m sig sig none rfl
    constructor
    · rintro ⟨e, he, id, hid, h⟩
      exact key.mp h
    · intro h
      obtain ⟨e, he, -⟩ := id h
      obtain ⟨id, hid⟩ := hids e he
      exact ⟨e, he, id, hid, key.mpr h⟩

/-- C96: so whatever is accepted for a request is accepted for every other with the same text. -/
theorem C96_transfers (c : Czar) (hc : Loaded P c) (hd : c.keySet.Distinct P) (hs : ∀ e ∈ c.keySet.entries, SoundKey e.key)
    (sig : Bytes) (r r' : Request) (hr : r.Fits) (hr' : r'.Fits) (h : r.text = r'.text) :
    (∃ e ∈ c.keySet.entries, ∃ id, KeyId P.sha1 e.key id ∧ Takes P c id sig r) ↔
      ∃ e ∈ c.keySet.entries, ∃ id, KeyId P.sha1 e.key id ∧ Takes P c id sig r' := by
  rw [C96_takes P c hc hd hs sig r hr, C96_takes P c hc hd hs sig r' hr', h]

/-- C96: for two requests of the same kind that is harmless when there is no nonce. -/
theorem C96_plain_distinct (m m' : Bytes) :
    ((Request.plain m).text = (Request.plain m').text → m = m') ∧
    ((Request.unversioned m).text = (Request.unversioned m').text → m = m') :=
  ⟨fun h => List.append_cancel_right h, fun h => h⟩

/-- C96: otherwise, these are all the confusions: between plain and unversioned signatures, -/
theorem C96_plain_unversioned (m m' : Bytes) :
    (Request.plain m).text = (Request.unversioned m').text ↔ m' = m ++ [0] :=
  ⟨fun h => h.symm, fun h => h.symm⟩

/-- C96: between plain and attached signatures: every attached signature is a plain one of a longer message, and every plain
signature of a message that ends like a nonce with its length is an attached one, -/
theorem C96_plain_attached (m m' nonce : Bytes) :
    (Request.plain m).text = (Request.attached m' nonce).text ↔ m = m' ++ lengthPrefixed nonce :=
  ⟨fun h => List.append_cancel_right h, fun h => by rw [h]; rfl⟩

/-- C96: between unversioned and attached signatures, -/
theorem C96_unversioned_attached (m m' nonce : Bytes) :
    (Request.unversioned m).text = (Request.attached m' nonce).text ↔ m = m' ++ lengthPrefixed nonce ++ [0] := Iff.rfl

/-- C96: and between two attached signatures, with nonces of different lengths: the shorter nonce with its length is the end
of the longer one, and the beginning of the longer one with its length has moved to the message. -/
theorem C96_attached_attached (m m' nonce nonce' : Bytes) (hl : nonce'.length < nonce.length) :
    (Request.attached m nonce).text = (Request.attached m' nonce').text ↔
      (∃ y, nonce = y ++ lengthPrefixed nonce' ∧ m' = m ++ i2osp4 nonce.length ++ y) ∨
      ∃ z z', z' ≠ [] ∧ z ++ z' = i2osp4 nonce.length ∧ m' = m ++ z ∧ z' ++ nonce = lengthPrefixed nonce' := by
  have hpay : (Request.attached m nonce).text = (Request.attached m' nonce').text ↔
      m ++ (i2osp4 nonce.length ++ nonce) = m' ++ lengthPrefixed nonce' := by
    constructor
    · intro h
      have := List.append_cancel_right h
      exact this
    · intro h
      show m ++ (i2osp4 nonce.length ++ nonce) ++ [0] = m' ++ lengthPrefixed nonce' ++ [0]
      rw [h]
  rw [hpay]
  constructor
  · intro h
    have hlen := congrArg List.length h
    simp only [List.length_append, i2osp4_length, lengthPrefixed] at hlen
    rcases List.append_eq_append_iff.mp h with ⟨a, ha, hb⟩ | ⟨a, ha, hb⟩
    · rcases List.append_eq_append_iff.mp hb with ⟨b, hb1, hb2⟩ | ⟨b, hb1, hb2⟩
      · exact .inl ⟨b, hb2, by rw [ha, hb1, List.append_assoc]⟩
      · by_cases hbe : b = []
        · subst hbe
          refine .inl ⟨[], by simpa using hb2.symm, by rw [ha, hb1]; simp⟩
        · exact .inr ⟨a, b, hbe, hb1.symm, ha, hb2.symm⟩
    · have := congrArg List.length ha
      simp only [List.length_append] at this
      have := congrArg List.length hb
      simp only [List.length_append, i2osp4_length, lengthPrefixed] at this
      omega
  · rintro (⟨y, hy, rfl⟩ | ⟨z, z', -, hz, rfl, hz'⟩)
    · rw [hy]; simp
    · rw [← hz, ← hz']; simp

/-- C96: so who gets plain signatures of messages of their choice has attached signatures for every nonce: no key, and no
header, tells the two apart. -/
theorem C96_forged_nonce (c : Czar) (hc : Loaded P c) (hd : c.keySet.Distinct P) (e : Entry) (he : e ∈ c.keySet.entries)
    (id sig : Bytes) (hid : KeyId P.sha1 e.key id) (m nonce : Bytes) (hm : m.length < 2 ^ 31) (hn : nonce.length < 2 ^ 31) :
    c.AttachedVerify P (attachedBlob id m sig) nonce none = .ok (some m) ↔
      c.Verify P (m ++ lengthPrefixed nonce) (header id ++ sig) none = .ok true := by
  refine ⟨C45_attached_is_plain P c hc hd e he id hid m nonce sig hm hn, fun h => ?_⟩
  have e1 : c.Verify P (m ++ lengthPrefixed nonce) (header id ++ sig) none =
      e.key.Verify P (attachedPayload m nonce) sig := Verify_dispatch P hc hd he hid (dec := none) rfl _
  rw [AttachedVerify_blob P hc hd he hid (dec := none) rfl hm hn, ← e1, h]
  rfl

/-- C96: a program that keeps to a discipline is safe: all its requests have different texts. -/
theorem C96_disciplined (n : Nat) (r r' : Request) (hr : r.Disciplined n) (hr' : r'.Disciplined n)
    (h : r.text = r'.text) : r = r' := by
  cases r with
  | plain m =>
    cases r' with
    | plain m' => rw [(C96_plain_distinct m m').1 h]
    | attached m' x => exact absurd ((C96_plain_attached m m' x).mp h) (hr _ _ hr')
    | unversioned m' => exact absurd ((C96_plain_unversioned m m').mp h) (hr' _)
  | attached m x =>
    cases r' with
    | plain m' => exact absurd ((C96_plain_attached m' m x).mp h.symm) (hr' _ _ hr)
    | attached m' x' =>
      obtain ⟨rfl, rfl⟩ := C45_binding m m' x x' (hr.trans hr'.symm) h
      rfl
    | unversioned m' => exact absurd ((C96_unversioned_attached m' m x).mp h.symm) (hr' _)
  | unversioned m =>
    cases r' with
    | plain m' => exact absurd ((C96_plain_unversioned m' m).mp h.symm) (hr _)
    | attached m' x' => exact absurd ((C96_unversioned_attached m m' x').mp h) (hr _)
    | unversioned m' => rw [(C96_plain_distinct m m').2 h]

/-- C96: so if all requests ever signed keep to the discipline, then what is accepted for a request that does was signed for
that request, of whatever kind, or is a forgery. -/
theorem C96_safe (n : Nat) (runs : List (Signed P)) (hruns : ∀ x ∈ runs, x.request.Disciplined n) (c : Czar)
    (hc : Loaded P c) (hd : c.keySet.Distinct P) (hs : ∀ e ∈ c.keySet.entries, SoundKey e.key) (e : Entry)
    (he : e ∈ c.keySet.entries) (id sig : Bytes) (hid : KeyId P.sha1 e.key id) (r : Request) (hr : r.Fits)
    (hrn : r.Disciplined n) (h : Takes P c id sig r) :
    (∃ x ∈ runs, x.request = r) ∨
      ∃ e ∈ c.keySet.entries, Forgery P.sha1 P.rsaRangeCheck (requests P runs) e.key r.text sig := by
  obtain ⟨e', he', hf⟩ := (C96_takes P c hc hd hs sig r hr).mp ⟨e, he, id, hid, h⟩
  rcases forged_or_asked P runs e'.key _ sig hf with h1 | ⟨x, hx, -, h2⟩
  · exact .inr ⟨e', he', h1⟩
  · exact .inl ⟨x, hx, C96_disciplined n _ _ (hruns x hx) hrn h2⟩

/-- example: "pay" signed in all three ways, with a nonce of eight bytes -/
example : (Request.plain [112, 97, 121]).Disciplined 8 ∧ (Request.attached [112, 97, 121] [1, 2, 3, 4, 5, 6, 7, 8]).Disciplined 8 ∧
    (Request.unversioned [112, 97, 121]).Disciplined 8 := by
  refine ⟨fun x y hy h => ?_, rfl, fun x h => ?_⟩
  · have := congrArg List.length h
    simp [lengthPrefixed, i2osp4_length, hy] at this
  · have := congrArg List.getLast? h
    simp at this

/-- example: four requests that can be read from the same signed bytes: "pay", a length, four zero bytes and the zero byte at the end -/
example : let p : Bytes := [112, 97, 121] ++ [0, 0, 0, 4, 0, 0, 0, 0] ++ [0]
    (Request.unversioned p).text = p ∧
    (Request.plain ([112, 97, 121] ++ [0, 0, 0, 4, 0, 0, 0, 0])).text = p ∧
    (Request.attached [112, 97, 121] [0, 0, 0, 0]).text = p ∧
    (Request.attached ([112, 97, 121] ++ [0, 0, 0, 4]) []).text = p := by decide +kernel

/-- example: overlapping length fields (the second case of C96_attached_attached), nonces of 256 and 253 bytes -/
example : let nonce' : Bytes := List.replicate 253 7
    let nonce : Bytes := [0, 0, 253] ++ nonce'
    (Request.attached [112] nonce).text = (Request.attached [112, 0, 0, 1] nonce').text := by decide +kernel

/-- example: a plain signature made with testdata/hmac as an attached signature with the nonce "ab", and as an unversioned
one -/
example : (match Czar.init realPrims .signer (Ex.hmac .ACTIVE .PRIMARY) with
    | .error _ => false
    | .ok c => match c.Sign realPrims Ex.rnd ([112, 97, 121] ++ [0, 0, 0, 2, 97, 98]) none with
      | .error _ => false
      | .ok out =>
        decide (c.AttachedVerify realPrims (out.take 5 ++ [0, 0, 0, 3, 112, 97, 121] ++ out.drop 5) [97, 98] none =
          .ok (some [112, 97, 121])) &&
        decide (c.UnversionedVerify realPrims ([112, 97, 121] ++ [0, 0, 0, 2, 97, 98] ++ [0]) (out.drop 5) none =
          .ok true)) = true := by
  decide +kernel

end Verif.Props
