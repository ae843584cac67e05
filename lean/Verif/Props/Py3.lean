import Verif.Model.Py3
/-
C62: under Python 3 no key identifier can be computed, so no key set with a version can be loaded and no version can
be added.
-/
namespace Verif.Props
open Verif.Py3

/-! ## Specification -/

/-- the key object is one that a reader could have built from well-formed key material: its Base64 strings decode, or
its parameters are all there and are text or bytes -/
def WellFormed3 : Key → Prop
  | .plain ks | .hmac ks => ∃ b, Py3.Base64WSDecode ks = .ok (.bytes b)
  | .aes ks hs => (∃ b, Py3.Base64WSDecode ks = .ok (.bytes b)) ∧ ∃ b, Py3.Base64WSDecode hs = .ok (.bytes b)
  | .dsaPub ps => ∀ n ∈ ["p", "q", "g", "y"], ∃ v, ps.lookup n = some v ∧ ((∃ s, v = .str s) ∨ ∃ b, v = .bytes b)
  | .rsaPub ps => ∀ n ∈ ["modulus", "publicExponent"],
      ∃ v, ps.lookup n = some v ∧ ((∃ s, v = .str s) ∨ ∃ b, v = .bytes b)
  | .priv k => WellFormed3 k

/-! ## The functions -/

/-- Base64 encoding raises `TypeError` whatever it is given: text, bytes or anything else. -/
theorem C62_encode (E : Env) (v : Val) : Py3.Base64WSEncode E v = .error .typeError := by
  cases v <;> rfl

/-- The hash of anything that includes a text is a `TypeError`, if nothing before it raised. -/
theorem C62_hash_text (E : Env) (pre post : List Val) (s : List Nat) (h : ∀ v ∈ pre, ∃ b, v = .bytes b) :
    Py3.Hash E (pre ++ .str s :: post) = .error .typeError := by
  have key : ∀ (pre : List Val) (md : Bytes), (∀ v ∈ pre, ∃ b, v = .bytes b) →
      (pre ++ .str s :: post).foldlM update md = (.error .typeError : Py Bytes) := by
    intro pre
    induction pre with
    | nil => intro md _; rfl
    | cons v pre ih =>
      intro md hv
      obtain ⟨b, rfl⟩ := hv v (by simp)
      exact ih (md ++ b) fun w hw => hv w (by simp [hw])
  unfold Py3.Hash
  rw [key pre [] h]
  rfl

/-- the bytes of the length that `PrefixHash` puts first are a text: it raises `TypeError` for every first input that has
a length -/
theorem C62_prefix_hash (E : Env) (v : Val) (vs : List Val) : Py3.PrefixHash E (v :: vs) = .error .typeError := by
  cases v <;> rfl

/-- No integer is read from a bytes value. -/
theorem C62_bytes_to_long (b : Bytes) (h : b ≠ []) : Py3.BytesToLong (.bytes b) = .error .typeError := by
  cases b with
  | nil => exact absurd rfl h
  | cons _ _ => rfl

/-- Three separate steps of Base64 encoding and key generation fail, so repairing one of them changes nothing: `str()`
turns everything into text, which the library's encoder refuses; -/
theorem C62_str_is_text (E : Env) (v : Val) :
    ∃ s, strOf E v = .str s ∧ Py3.urlsafe_b64encode (strOf E v) = .error .typeError := by
  cases v <;> exact ⟨_, rfl, rfl⟩

/-- without the `str()`, bytes are encoded but the padding cannot be removed from the bytes that result; -/
theorem C62_padding (b : Bytes) :
    (Py3.urlsafe_b64encode (.bytes b) >>= replaceStr 61) = .error .typeError := rfl

/-- and no length that was computed by a division is accepted by the random source. -/
theorem C62_random (E : Env) (a b : Int) : Py3.RandBytes E (div a b) = .error .typeError := rfl

/-- Base64 decoding accepts text only: with bytes it raises `TypeError` (which is not the library's own exception), except
that nothing decodes to nothing. -/
theorem C62_decode_bytes (b : Bytes) :
    Py3.Base64WSDecode (.bytes b) = if b = [] then .ok (.bytes []) else .error .typeError := by
  cases b with
  | nil => rfl
  | cons _ _ => rfl

/-- Decoding gives bytes, so a decoded value cannot be decoded or encoded again. -/
theorem C62_decode_type (v w : Val) (h : Py3.Base64WSDecode v = .ok w) : ∃ b, w = .bytes b := by
  have key : ∀ s w, Py3.urlsafe_b64decode s = .ok w → ∃ b, w = .bytes b := by
    intro s w h
    unfold Py3.urlsafe_b64decode at h
    split at h
    · split at h
      · cases h; exact ⟨_, rfl⟩
      · cases h
    · cases h
  unfold Py3.Base64WSDecode at h
  simp only [bind, Except.bind] at h
  split at h
  · cases h
  · split at h
    · cases h
    · split at h
      · cases h
      · exact key _ _ h

/-- an encoding at the end makes a computation fail -/
private theorem ends (E : Env) (x : Py Val) :
    ∃ e, (do let full ← x; Py3.Base64WSEncode E (← take4 full)) = (.error e : Py Val) := by
  rcases x with e | full
  · exact ⟨e, rfl⟩
  · show ∃ e, (do Py3.Base64WSEncode E (← take4 full)) = (.error e : Py Val)
    rcases take4 full with e | f
    · exact ⟨e, rfl⟩
    · exact ⟨_, C62_encode E f⟩

/-- No key has an identifier: computing it raises, for every key of every type. -/
theorem C62_identifier (E : Env) (k : Key) : ∃ e, k.hash_id E = .error e := by
  induction k with
  | priv k ih => exact ih
  | hmac ks =>
    unfold Key.hash_id
    rcases Py3.Base64WSDecode ks with e | v
    · exact ⟨e, rfl⟩
    · exact ends E (Py3.Hash E [v])
  | plain ks =>
    unfold Key.hash_id
    rcases Py3.Base64WSDecode ks with e | v
    · exact ⟨e, rfl⟩
    · rcases hl : len v with e | n
      · exact ⟨e, by simp [bind, Except.bind, hl]⟩
      · obtain ⟨e, h⟩ := ends E (Py3.Hash E [IntToBytes n, v])
        exact ⟨e, by simpa [bind, Except.bind, hl] using h⟩
  | aes ks hs =>
    unfold Key.hash_id
    rcases Py3.Base64WSDecode ks with e | v
    · exact ⟨e, rfl⟩
    · rcases hl : len v with e | n
      · exact ⟨e, by simp [bind, Except.bind, hl]⟩
      · rcases Py3.Base64WSDecode hs with e | w
        · exact ⟨e, by simp [bind, Except.bind, hl]⟩
        · obtain ⟨e, h⟩ := ends E (Py3.Hash E [IntToBytes n, v, w])
          exact ⟨e, by simpa [bind, Except.bind, hl] using h⟩
  | dsaPub ps =>
    unfold Key.hash_id
    simp only [C62_prefix_hash]
    rcases param ps "p" with e | a
    · exact ⟨e, rfl⟩
    rcases h1 : TrimBytes a with e | a'
    · exact ⟨e, by simp [bind, Except.bind, h1]⟩
    rcases param ps "q" with e | b
    · exact ⟨e, by simp [bind, Except.bind, h1]⟩
    rcases h2 : TrimBytes b with e | b'
    · exact ⟨e, by simp [bind, Except.bind, h1, h2]⟩
    rcases param ps "g" with e | c
    · exact ⟨e, by simp [bind, Except.bind, h1, h2]⟩
    rcases h3 : TrimBytes c with e | c'
    · exact ⟨e, by simp [bind, Except.bind, h1, h2, h3]⟩
    rcases param ps "y" with e | d
    · exact ⟨e, by simp [bind, Except.bind, h1, h2, h3]⟩
    rcases h4 : TrimBytes d with e | d'
    · exact ⟨e, by simp [bind, Except.bind, h1, h2, h3, h4]⟩
    exact ⟨.typeError, by simp [bind, Except.bind, h1, h2, h3, h4]⟩
  | rsaPub ps =>
    unfold Key.hash_id
    simp only [C62_prefix_hash]
    rcases param ps "modulus" with e | a
    · exact ⟨e, rfl⟩
    rcases h1 : TrimBytes a with e | a'
    · exact ⟨e, by simp [bind, Except.bind, h1]⟩
    rcases param ps "publicExponent" with e | b
    · exact ⟨e, by simp [bind, Except.bind, h1]⟩
    rcases h2 : TrimBytes b with e | b'
    · exact ⟨e, by simp [bind, Except.bind, h1, h2]⟩
    exact ⟨.typeError, by simp [bind, Except.bind, h1, h2]⟩

/-- reading one parameter either raises `TypeError` or gives a value -/
private theorem trim_param (ps : List (String × Val)) (n : String) (v : Val) (h : ps.lookup n = some v)
    (hv : (∃ s, v = .str s) ∨ ∃ b, v = .bytes b) :
    param ps n = .ok v ∧ (TrimBytes v = .error .typeError ∨ ∃ w, TrimBytes v = .ok w) := by
  refine ⟨by simp [param, h], ?_⟩
  rcases hv with ⟨s, rfl⟩ | ⟨b, rfl⟩
  · exact .inr ⟨_, rfl⟩
  · exact .inl rfl

/-- On well-formed key material the exception is `TypeError`. -/
theorem C62_identifier_type_error (E : Env) (k : Key) (h : WellFormed3 k) : k.hash_id E = .error .typeError := by
  induction k with
  | priv k ih => exact ih h
  | hmac ks =>
    obtain ⟨b, hb⟩ := h
    unfold Key.hash_id
    rw [hb]
    rfl
  | plain ks =>
    obtain ⟨b, hb⟩ := h
    unfold Key.hash_id
    rw [hb]
    rfl
  | aes ks hs =>
    obtain ⟨⟨b, hb⟩, c, hc⟩ := h
    unfold Key.hash_id
    rw [hb, hc]
    rfl
  | dsaPub ps =>
    obtain ⟨p, hp, p'⟩ := h "p" (by simp)
    obtain ⟨q, hq, q'⟩ := h "q" (by simp)
    obtain ⟨g, hg, g'⟩ := h "g" (by simp)
    obtain ⟨y, hy, y'⟩ := h "y" (by simp)
    obtain ⟨p1, p2⟩ := trim_param ps "p" p hp p'
    obtain ⟨q1, q2⟩ := trim_param ps "q" q hq q'
    obtain ⟨g1, g2⟩ := trim_param ps "g" g hg g'
    obtain ⟨y1, y2⟩ := trim_param ps "y" y hy y'
    unfold Key.hash_id
    simp only [C62_prefix_hash, p1, q1, g1, y1]
    rcases p2 with e | ⟨_, e⟩
    · simp [bind, Except.bind, e]
    rcases q2 with e2 | ⟨_, e2⟩
    · simp [bind, Except.bind, e, e2]
    rcases g2 with e3 | ⟨_, e3⟩
    · simp [bind, Except.bind, e, e2, e3]
    rcases y2 with e4 | ⟨_, e4⟩
    · simp [bind, Except.bind, e, e2, e3, e4]
    simp [bind, Except.bind, e, e2, e3, e4]
  | rsaPub ps =>
    obtain ⟨p, hp, p'⟩ := h "modulus" (by simp)
    obtain ⟨q, hq, q'⟩ := h "publicExponent" (by simp)
    obtain ⟨p1, p2⟩ := trim_param ps "modulus" p hp p'
    obtain ⟨q1, q2⟩ := trim_param ps "publicExponent" q hq q'
    unfold Key.hash_id
    simp only [C62_prefix_hash, p1, q1]
    rcases p2 with e | ⟨_, e⟩
    · simp [bind, Except.bind, e]
    rcases q2 with e2 | ⟨_, e2⟩
    · simp [bind, Except.bind, e, e2]
    simp [bind, Except.bind, e, e2]

/-! ## Loading -/

/-- The key sets that load are those without a version: with any version at all, however it is stored and whatever
reading it gives, the constructor raises. -/
theorem C62_load (E : Env) (checks : Py (List Version)) (read : Version → Py Key) (c : Py3.Czar) :
    Py3.load E checks read = .ok c ↔ checks = .ok [] ∧ c = ⟨[], [], none⟩ := by
  rcases checks with e | vs
  · simp [Py3.load]
  cases vs with
  | nil =>
    simp only [Py3.load, Py3.loadLoop, Except.ok.injEq, true_and]
    exact eq_comm
  | cons v vs =>
    simp only [Py3.load, Py3.loadLoop, Option.isSome_none, Bool.and_false, Bool.false_eq_true, if_false,
      Except.ok.injEq, List.cons_ne_nil, false_and, iff_false]
    rcases read v with e | k
    · simp
    · obtain ⟨e, he⟩ := C62_identifier E k
      simp [he]

/-- With well-formed keys the exception is the `TypeError` of the first version's identifier. -/
theorem C62_load_type_error (E : Env) (v : Version) (vs : List Version) (read : Version → Py Key) (k : Key)
    (h : read v = .ok k) (hk : WellFormed3 k) : Py3.load E (.ok (v :: vs)) read = .error .typeError := by
  simp [Py3.load, Py3.loadLoop, h, C62_identifier_type_error E k hk]

/-! ## Adding a version -/

/-- No symmetric key is generated: the number of bytes asked for is a float. -/
theorem C62_generate_symmetric (E : Env) (t : KType) (ht : t = .AES ∨ t = .HMAC_SHA1) (size : Nat)
    (hs : size ∈ t.sizes) : Py3.GenKey E t size = .error .typeError := by
  rcases ht with rfl | rfl <;> simp [Py3.GenKey, hs] <;> rfl

/-- A generated asymmetric key is well formed, and has no identifier all the same. -/
theorem C62_generate_asymmetric (E : Env) (t : KType) (size : Nat) (k : Key) (h : Py3.GenKey E t size = .ok k) :
    WellFormed3 k ∧ k.hash_id E = .error .typeError := by
  have wf : WellFormed3 k := by
    unfold Py3.GenKey at h
    split at h
    · exact absurd h (by simp)
    · split at h
      · exact absurd h (by intro h'; cases h')
      · exact absurd h (by intro h'; cases h')
      · rcases hg : E.dsaGenerate size with e | ⟨y, g, p, q⟩
        · rw [hg] at h; exact absurd h (by intro h'; cases h')
        · rw [hg] at h
          cases h
          intro n hn
          simp only [List.mem_cons, List.not_mem_nil, or_false] at hn
          rcases hn with rfl | rfl | rfl | rfl
          · exact ⟨_, rfl, .inl ⟨_, rfl⟩⟩
          · exact ⟨_, rfl, .inl ⟨_, rfl⟩⟩
          · exact ⟨_, rfl, .inl ⟨_, rfl⟩⟩
          · exact ⟨_, rfl, .inl ⟨_, rfl⟩⟩
      · rcases hg : E.rsaGenerate size with e | ⟨m, e'⟩
        · rw [hg] at h; exact absurd h (by intro h'; cases h')
        · rw [hg] at h
          cases h
          intro n hn
          simp only [List.mem_cons, List.not_mem_nil, or_false] at hn
          rcases hn with rfl | rfl
          · exact ⟨_, rfl, .inl ⟨_, rfl⟩⟩
          · exact ⟨_, rfl, .inl ⟨_, rfl⟩⟩
      · exact absurd h (by simp)
      · exact absurd h (by simp)
  exact ⟨wf, C62_identifier_type_error E k wf⟩

/-- Adding a version never succeeds, for any key type, any size and any number of repetitions. -/
theorem C62_add (E : Nat → Env) (t : KType) (c : Py3.Czar) (v : Version) (size : Option Nat) (fuel : Nat) :
    ∃ e, Py3.AddVersion E t c v size fuel = .error e := by
  unfold Py3.AddVersion
  dsimp only
  split
  · exact ⟨_, rfl⟩
  · cases fuel with
    | zero => exact ⟨_, rfl⟩
    | succ fuel =>
      unfold Py3.genLoop
      rcases GenKey (E 0) t (size.getD (t.sizes.headD 0)) with e | k
      · exact ⟨e, rfl⟩
      · obtain ⟨e, he⟩ := C62_identifier (E 0) k
        exact ⟨e, by simp [he]⟩

/-- It does not fail by looping: with one repetition allowed the exception is Python's own, the `TypeError` for a
symmetric key of a valid size. -/
theorem C62_add_type_error (E : Nat → Env) (t : KType) (ht : t = .AES ∨ t = .HMAC_SHA1) (c : Py3.Czar) (v : Version)
    (fuel : Nat) : Py3.AddVersion E t c v none (fuel + 1) = .error .typeError := by
  have hs : t.sizes.headD 0 ∈ t.sizes := by rcases ht with rfl | rfl <;> decide
  simp only [Py3.AddVersion, Option.getD_none, hs, not_true, if_false, Py3.genLoop,
    C62_generate_symmetric (E 0) t ht _ hs]

/-- The same for an asymmetric key type whenever the library generates a key. -/
theorem C62_add_asymmetric (E : Nat → Env) (t : KType) (c : Py3.Czar) (v : Version) (size : Nat)
    (hs : size ∈ t.sizes) (k : Key) (h : Py3.GenKey (E 0) t size = .ok k) (fuel : Nat) :
    Py3.AddVersion E t c v (some size) (fuel + 1) = .error .typeError := by
  simp [Py3.AddVersion, hs, Py3.genLoop, h, (C62_generate_asymmetric (E 0) t size k h).2]

/-! ## Cases -/

/-- an environment -/
def env3 : Env :=
  ⟨fun _ => [98, 39, 39], fun b => b.take 20, fun n => List.replicate n 7, fun _ => .ok (5, 4, 3, 2), fun _ => .ok (35, 5)⟩

/-- the text `AAEC` is a well-formed HMAC key string: it decodes to bytes -/
example : WellFormed3 (.hmac (.str [65, 65, 69, 67])) := ⟨[0, 1, 2], by decide +kernel⟩

/-- a hash of bytes alone does work, so the failure is in the encoding of the identifier -/
example : Py3.Hash env3 [.bytes [1, 2]] = .ok (.bytes [1, 2]) := by decide +kernel

/-- text decodes; the same characters as bytes do not -/
example : Py3.Base64WSDecode (.str [65, 65, 69, 67]) = .ok (.bytes [0, 1, 2]) ∧
    Py3.Base64WSDecode (.bytes [65, 65, 69, 67]) = .error .typeError := by decide +kernel

/-- the library does generate keys in this environment -/
example : ∃ k, Py3.GenKey env3 .RSA_PRIV 2048 = .ok k := ⟨_, rfl⟩

example : Py3.load env3 (.ok [⟨1, true⟩]) (fun _ => .ok (.hmac (.str [65, 65, 69, 67]))) = .error .typeError :=
  C62_load_type_error env3 ⟨1, true⟩ [] _ _ rfl ⟨[0, 1, 2], by decide +kernel⟩

example : Py3.load env3 (.ok []) (fun _ => .error .osError) = .ok ⟨[], [], none⟩ :=
  (C62_load _ _ _ _).mpr ⟨rfl, rfl⟩

end Verif.Props
