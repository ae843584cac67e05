import Verif.Lemmas.Session
import Verif.Props.Signatures
/-
Property theorems C53-C55: sessions and signed sessions.
-/
namespace Verif.Props
open Verif Spec
variable (P : Prims)

/-! ## C53 -/

/-- C53: what the outer key set encrypts: the number of fields, then each field with its length, all
lengths as 4 big-endian bytes; 60 bytes in total. -/
theorem C53_material_layout (rnd : Rand) : ∃ packed, (Session.New rnd).packedKey = .ok packed ∧ packed.length = 60 ∧
    packed = [0, 0, 0, 2] ++ ([0, 0, 0, 16] ++ rnd.bytes 0 16) ++ ([0, 0, 0, 32] ++ rnd.bytes 1 32) := by
  refine ⟨_, Session.New_packed rnd, by simp [rnd.bytes_length], by simp⟩

/-- C53: the key built from material that packs any two arrays holds exactly these bytes, and the size it records is
their size in bits when that is a size the key type knows. -/
theorem C53_loaded_key (a h packed : Bytes) (hp : PackMultipleByteArrays [a, h] = .ok packed) (fuel : Nat) (hf : 2 < fuel) :
    ∃ s, Session.LoadPackedKey fuel packed = .ok s ∧ s.nonce = none ∧
      s.key.keyBytes = .ok a ∧ s.key.hmacKey.keyBytes = .ok h ∧
      (a.length ∈ [16, 24, 32] → s.key.size = 8 * a.length) ∧ (h.length = 32 → s.key.hmacKey.size = 256) := by
  unfold Session.LoadPackedKey
  rw [C06_pack_unpack _ _ hp fuel hf]
  refine ⟨_, rfl, rfl, Base64WSDecode_encode _, Base64WSDecode_encode _, fun ha => ?_, fun hh => ?_⟩
  · simp only [List.mem_cons, List.not_mem_nil, or_false] at ha
    rcases ha with ha | ha | ha <;> (simp only [ha]; decide)
  · simp only [hh]; decide

example : PackMultipleByteArrays [List.replicate 24 1, List.replicate 32 2] =
    .ok ([0, 0, 0, 2, 0, 0, 0, 24] ++ List.replicate 24 1 ++ [0, 0, 0, 32] ++ List.replicate 32 2) := by
  decide +kernel

/-- both ends of a session whose material arrives: the decrypter holds the encrypter's key -/
theorem session_arrives {c c' : Czar} {rnd rnd' : Rand} {fuel : Nat} (hf : 2 < fuel) {mat packed : Bytes}
    (hpk : (Session.New rnd).packedKey = .ok packed)
    (h1 : c.Encrypt P rnd' packed (some Base64WSEncode) = .ok mat)
    (h2 : c'.Decrypt P mat (some Base64WSDecode) = .ok packed) :
    SessionEncrypter.new P c rnd rnd' = .ok ⟨Session.New rnd, mat⟩ ∧
    SessionDecrypter.new P fuel c' mat = .ok ⟨(Session.New rnd).key, none⟩ := by
  constructor
  · unfold SessionEncrypter.new
    simp only [hpk, bind, Except.bind, h1]
    rfl
  · unfold SessionDecrypter.new
    rw [h2]
    exact Session.Load_packed rnd hpk hf

/-- messages of a session whose two ends hold the same key -/
theorem session_messages (rnd : Rand) (mat : Bytes) (n : Option Bytes) (enc : Option (Bytes → Bytes))
    (dec : Option (Bytes → Py Bytes)) (hinv : Inverse enc dec) (r : Rand) (m : Bytes) :
    ∃ out, SessionEncrypter.Encrypt P ⟨Session.New rnd, mat⟩ r m enc = .ok out ∧
      SessionDecrypter.Decrypt P ⟨(Session.New rnd).key, n⟩ out dec = .ok m := by
  obtain ⟨c, h1, -, h2, -⟩ := Session.crypter_round_trip (P := P) (Session.New_key rnd) (Session.New_usable rnd)
  obtain ⟨out, h3, h4⟩ := h2 enc dec hinv r m
  refine ⟨out, ?_, ?_⟩
  · unfold SessionEncrypter.Encrypt
    simp only [h1, bind, Except.bind, h3]
  · unfold SessionDecrypter.Decrypt
    rw [show (Session.crypter P ⟨(Session.New rnd).key, n⟩) = (Session.New rnd).crypter P from rfl, h1]
    exact h4

/-- C53 (AES): an encrypter set with a usable AES PRIMARY key, any set with that key and distinct
identifiers on the other side: construction succeeds on both sides, for all random bytes, and every
message of the session decrypts to itself, with any encoding that the decoding undoes. -/
theorem C53_aes (c c' : Czar) (hc : Loaded P c) (hc' : Loaded P c') (hd : c'.keySet.Distinct P)
    (e e' : Entry) (k : AesKey) (kb hb : Bytes) (hp : c.keySet.primaries = [e]) (hk : e.key = .aes k)
    (hu : UsableAes k kb hb) (he' : e' ∈ c'.keySet.entries) (hk' : e'.key = .aes k)
    (rnd rnd' : Rand) (fuel : Nat) (hf : 2 < fuel) :
    ∃ s d, SessionEncrypter.new P c rnd rnd' = .ok s ∧ SessionDecrypter.new P fuel c' s.material = .ok d ∧
      ∀ enc dec, Inverse enc dec → ∀ (r : Rand) (m : Bytes),
        ∃ out, SessionEncrypter.Encrypt P s r m enc = .ok out ∧ SessionDecrypter.Decrypt P d out dec = .ok m := by
  obtain ⟨mat, h1⟩ := C22_aes_encrypts P c hc e k kb hb hp hk hu (some Base64WSEncode) rnd'
    ([0, 0, 0, 2] ++ [0, 0, 0, 16] ++ rnd.bytes 0 16 ++ [0, 0, 0, 32] ++ rnd.bytes 1 32)
  have h2 := C22_aes_round_trip P c c' hc hc' hd e e' k hp hk he' hk' (some Base64WSEncode) (some Base64WSDecode)
    Base64WSDecode_encode rnd' _ mat h1
  obtain ⟨h3, h4⟩ := session_arrives P hf (Session.New_packed rnd) h1 h2
  exact ⟨_, _, h3, h4, fun enc dec hi r m => session_messages P rnd mat none enc dec hi r m⟩

/-- C53 (RSA): a valid key pair with a modulus of at least 102 bytes, the encrypter holding the pair
or its public part; the decrypter can be constructed except in the leading-zero case of C48. -/
theorem C53_rsa (c c' : Czar) (hc : Loaded P c) (hc' : Loaded P c') (hd : c'.keySet.Distinct P)
    (e e' : Entry) (k : RsaPrivateKey) (hp : c.keySet.primaries = [e])
    (hk : e.key = .rsaPriv k ∨ e.key = .rsaPub k.pub)
    (he' : e' ∈ c'.keySet.entries) (hk' : e'.key = .rsaPriv k)
    (hv : RsaValid k.key) (hpub : k.pub.key = k.key.pub) (hlen : (BigIntToBytes k.key.n).length ≤ 2 ^ 32)
    (hsize : 102 ≤ (BigIntToBytes k.key.n).length) (rnd rnd' : Rand) (fuel : Nat) (hf : 2 < fuel) :
    ∃ s packed, SessionEncrypter.new P c rnd rnd' = .ok s ∧ (Session.New rnd).packedKey = .ok packed ∧
      if (strip0 (oaep P.sha1 (BigIntToBytes k.key.n).length (rnd'.bytes 0 20) packed)).length < 42
      then SessionDecrypter.new P fuel c' s.material = .error .keyczarError
      else ∃ d, SessionDecrypter.new P fuel c' s.material = .ok d ∧
        ∀ enc dec, Inverse enc dec → ∀ (r : Rand) (m : Bytes),
          ∃ out, SessionEncrypter.Encrypt P s r m enc = .ok out ∧ SessionDecrypter.Decrypt P d out dec = .ok m := by
  obtain ⟨packed, hpk, hl, -⟩ := C53_material_layout rnd
  obtain ⟨mat, h1, h2⟩ := C22_rsa_round_trip P c c' hc hc' hd e e' k hp hk he' hk' hv hpub hlen (some Base64WSEncode)
    (some Base64WSDecode) Base64WSDecode_encode rnd' packed (by omega)
  refine ⟨⟨Session.New rnd, mat⟩, packed, ?_, hpk, ?_⟩
  · unfold SessionEncrypter.new
    simp only [hpk, bind, Except.bind, h1]
    rfl
  · split at h2
    · next hs =>
      rw [if_pos hs]
      unfold SessionDecrypter.new
      rw [h2]; rfl
    · next hs =>
      rw [if_neg hs]
      obtain ⟨h3, h4⟩ := session_arrives P hf hpk h1 h2
      exact ⟨_, h4, fun enc dec hi r m => session_messages P rnd mat none enc dec hi r m⟩

/-- `Decrypt` either raises or is the decryption by a key of the set -/
theorem Decrypt_cases {c : Czar} (hc : Loaded P c) {input data : Bytes} {dec : Option (Bytes → Py Bytes)}
    (hd : Decodes dec input data) :
    (∃ x : PyErr, c.Decrypt P input dec = .error x) ∨
    ∃ e ∈ c.keySet.entries, c.Decrypt P input dec = e.key.Decrypt P data := by
  unfold Czar.Decrypt
  rw [hd.bind]
  split
  · exact .inl ⟨_, rfl⟩
  · rw [sliceTo5]
    rcases ParseHeader_cases P hc (data.take 5) with ⟨-, hx⟩ | ⟨x, -, hx⟩ | ⟨e, he, id, -, -, hx⟩
    · exact .inl ⟨_, by rw [hx]; rfl⟩
    · exact .inl ⟨_, by rw [hx]; rfl⟩
    · exact .inr ⟨e, he, by rw [hx]; rfl⟩

/-- C53: what a session Crypter accepts is authenticated by the HMAC key of the session: the last
20 bytes are the HMAC of everything before. -/
theorem C53_authentic (s : Session) (kb hb : Bytes) (hk : s.key.Ok) (hu : UsableAes s.key kb hb) (input blob m : Bytes)
    (dec : Option (Bytes → Py Bytes)) (hd : Decodes dec input blob)
    (h : SessionDecrypter.Decrypt P s input dec = .ok m) :
    41 ≤ blob.length ∧ blob.drop (blob.length - 20) = Spec.hmac P.sha1 hb (blob.take (blob.length - 20)) := by
  obtain ⟨c, h1, h2, h3⟩ := Session.crypter_ok (P := P) hk hu
  unfold SessionDecrypter.Decrypt at h
  simp only [h1, bind, Except.bind] at h
  have key : s.key.Decrypt P blob = .ok m := by
    rcases Decrypt_cases P h2 hd with ⟨x, hx⟩ | ⟨e, he, hx⟩
    · rw [hx] at h; cases h
    · rw [h3] at he
      simp only [staticSet, List.mem_singleton] at he
      subst he
      rw [hx] at h
      exact h
  obtain ⟨hb', h4, h5, h6⟩ := C16_accepted_is_authenticated P s.key blob m key
  rw [hu.mac] at h4
  cases h4
  exact ⟨h5, h6⟩

/-! ## C55 -/

/-- C48: every public key with a non-zero modulus encrypts every message of at most k-42 bytes. -/
theorem C48_encrypts (key : RsaPublicKey) (hn : key.key.n ≠ 0) (hk : (BigIntToBytes key.key.n).length ≤ 2 ^ 32)
    (seed msg : Bytes) (hs : seed.length = 20) (hm : msg.length + 42 ≤ (BigIntToBytes key.key.n).length) :
    ∃ c, key.Encrypt P seed msg = .ok c := by
  have henc := C48_encode_is_oaep P key hn seed msg hs hk
  rw [if_pos hm] at henc
  obtain ⟨hd, hhd, hl⟩ := headerLength P key
  have hol := oaep_length P hs hm
  have hlt : beNat (oaep P.sha1 (BigIntToBytes key.key.n).length seed msg) < key.key.n := by
    have hb := byteLength_bounds hn
    have : beNat (oaep P.sha1 (BigIntToBytes key.key.n).length seed msg)
        = beNat ((oaep P.sha1 (BigIntToBytes key.key.n).length seed msg).drop 1) := by
      unfold oaep
      simp only [List.singleton_append, List.cons_append, List.drop_succ_cons, List.drop_zero]
      rw [beNat_cons]; simp
    have h2 := beNat_lt ((oaep P.sha1 (BigIntToBytes key.key.n).length seed msg).drop 1)
    rw [List.length_drop, hol] at h2
    omega
  unfold RsaPublicKey.Encrypt
  simp only [henc, bind, Except.bind, RsaPubObj.encrypt, BytesToLong_eq, encryptInt_ok P (by omega) hlt, hhd, pure, Except.pure]
  exact ⟨_, rfl⟩

/-- the public key of the PRIMARY version of an Encrypter set -/
def PrimaryRsa (c : Czar) (k : RsaPublicKey) : Prop :=
  ∃ e, c.keySet.primaries = [e] ∧ (e.key = .rsaPub k ∨ ∃ kp : RsaPrivateKey, e.key = .rsaPriv kp ∧ kp.pub = k)

theorem rsa_material {c : Czar} (hc : Loaded P c) {k : RsaPublicKey} (hp : PrimaryRsa c k)
    (hn : k.key.n ≠ 0) (hlen : (BigIntToBytes k.key.n).length ≤ 2 ^ 32) (rnd : Rand) (m : Bytes) :
    if m.length + 42 ≤ (BigIntToBytes k.key.n).length
    then ∃ out, c.Encrypt P rnd m (some Base64WSEncode) = .ok out
    else c.Encrypt P rnd m (some Base64WSEncode) = .error .keyczarError := by
  obtain ⟨e, hp, hk⟩ := hp
  rw [Encrypt_raw P hc hp]
  have he : e.key.Encrypt P rnd m = k.Encrypt P (rnd.bytes 0 20) m := by
    rcases hk with hk | ⟨kp, hk, rfl⟩ <;> rw [hk] <;> rfl
  rw [he]
  split
  · next h =>
    obtain ⟨ct, hct⟩ := C48_encrypts P k hn hlen (rnd.bytes 0 20) m (rnd.bytes_length 0 20) h
    rw [hct]
    exact ⟨_, rfl⟩
  · next h =>
    rw [C48_too_long P k hn hlen (rnd.bytes 0 20) m (rnd.bytes_length 0 20) (by omega)]
    rfl

/-- C55: with an RSA encrypter, SessionEncrypter can be constructed exactly when the modulus has at
least 102 bytes, whatever the random source returns; otherwise it raises KeyczarError. -/
theorem C55_session (c : Czar) (hc : Loaded P c) (k : RsaPublicKey) (hp : PrimaryRsa c k)
    (hn : k.key.n ≠ 0) (hlen : (BigIntToBytes k.key.n).length ≤ 2 ^ 32) (rnd rnd' : Rand) :
    if 102 ≤ (BigIntToBytes k.key.n).length
    then ∃ s, SessionEncrypter.new P c rnd rnd' = .ok s
    else SessionEncrypter.new P c rnd rnd' = .error .keyczarError := by
  obtain ⟨packed, hpk, hl, -⟩ := C53_material_layout rnd
  have h := rsa_material P hc hp hn hlen rnd' packed
  unfold SessionEncrypter.new
  simp only [hpk, bind, Except.bind]
  rw [hl] at h
  split
  · rw [if_pos (by omega)] at h
    obtain ⟨out, h⟩ := h
    rw [h]
    exact ⟨_, rfl⟩
  · rw [if_neg (by omega)] at h
    rw [h]

/-- number of bytes of a modulus with exactly `8 * b` bits -/
theorem bytes_of_bits {n b : Nat} (hb : 0 < b) (h1 : 2 ^ (8 * b - 1) ≤ n) (h2 : n < 2 ^ (8 * b)) :
    (BigIntToBytes n).length = b := by
  have hn : n ≠ 0 := by have := Nat.two_pow_pos (8 * b - 1); omega
  have hx := byteLength_bounds hn
  generalize (BigIntToBytes n).length = l at hx
  rw [pow256, pow256] at hx
  by_contra hne
  rcases Nat.lt_or_gt_of_ne hne with h | h
  · have : 2 ^ (8 * l) ≤ 2 ^ (8 * b - 1) := Nat.pow_le_pow_right (by omega) (by omega)
    omega
  · have : 2 ^ (8 * b) ≤ 2 ^ (8 * (l - 1)) := Nat.pow_le_pow_right (by omega) (by omega)
    omega

/-- C55: so keys of 512 and 768 bits always fail and keys of 1024, 2048 and 4096 bits never do. -/
theorem C55_sizes (c : Czar) (hc : Loaded P c) (k : RsaPublicKey) (hp : PrimaryRsa c k) (bits : Nat)
    (hbits : bits ∈ KeyType.RSA_PUB.sizes) (h1 : 2 ^ (bits - 1) ≤ k.key.n) (h2 : k.key.n < 2 ^ bits) (rnd rnd' : Rand) :
    if bits ≤ 768 then SessionEncrypter.new P c rnd rnd' = .error .keyczarError
    else ∃ s, SessionEncrypter.new P c rnd rnd' = .ok s := by
  have h8 : bits = 8 * (bits / 8) ∧ 0 < bits / 8 ∧ bits / 8 ≤ 512 := by
    simp only [KeyType.sizes, List.mem_cons, List.not_mem_nil, or_false] at hbits
    omega
  have hl := bytes_of_bits (n := k.key.n) (b := bits / 8) h8.2.1 (by rw [← h8.1]; exact h1) (by rw [← h8.1]; exact h2)
  have hn : k.key.n ≠ 0 := by have := Nat.two_pow_pos (bits - 1); omega
  have h := C55_session P c hc k hp hn (by rw [hl]; omega) rnd rnd'
  rw [hl] at h
  have hb : 102 ≤ bits / 8 ↔ ¬ bits ≤ 768 := by
    simp only [KeyType.sizes, List.mem_cons, List.not_mem_nil, or_false] at hbits
    omega
  by_cases hx : bits ≤ 768
  · rw [if_neg (by tauto)] at h
    rwa [if_pos hx]
  · rw [if_pos (by tauto)] at h
    rwa [if_neg hx]

/-! ### signed sessions: the material is a JSON document of 204 bytes -/

theorem dumpStr_WSE (b : Bytes) : (dumps (jb64 b)).length = (Base64WSEncode b).length + 2 := by
  unfold jb64 Json.ofBytes
  rw [dumps, dumpStr]
  simp only [List.length_cons, List.length_append, List.length_nil, List.map_map]
  have : ∀ l : Bytes, (∀ c ∈ l, ∃ n, n < 64 ∧ c = wsChar n) →
      ((l.map (escapeChar ∘ fun c => Char.ofNat c.toNat)).flatten).length = l.length := by
    intro l hl
    induction l with
    | nil => rfl
    | cons a t ih =>
      obtain ⟨n, hn, ha⟩ := hl a (by simp)
      have h64 : ∀ n : Fin 64, (escapeChar (Char.ofNat (wsChar n).toNat)).length = 1 := by decide +kernel
      have := h64 ⟨n, hn⟩
      subst ha
      simp only [List.map_cons, List.flatten_cons, List.length_append, Function.comp, List.length_cons]
      have ih := ih (fun c hc => hl c (by simp [hc]))
      simp only at this
      omega
  have h := this (Base64WSEncode b) (WSE_mem b)
  omega

theorem signed_material_length (rnd : Rand) :
    ∃ text, (Session.New rnd).json = .ok text ∧ text.length = 204 := by
  refine ⟨_, Session.json_eq, ?_⟩
  have hk : (Session.New rnd).key.json = jobj [("mode", Json.ofString CipherMode.CBC.name), ("size", .num 128),
      ("aesKeyString", jb64 (rnd.bytes 0 16)), ("hmacKey", jobj [("size", .num 256), ("hmacKeyString", jb64 (rnd.bytes 1 32))])] := rfl
  have hj : sessionJson (Session.New rnd).key (rnd.bytes 2 SESSION_NONCE_SIZE) =
      jobj [("key", (Session.New rnd).key.json), ("nonce", jb64 (rnd.bytes 2 SESSION_NONCE_SIZE))] := rfl
  rw [show AesKey.Generate rnd KeyType.AES.defaultSize = (Session.New rnd).key from rfl, hj, hk]
  have e1 := dumpStr_WSE (rnd.bytes 0 16)
  have e2 := dumpStr_WSE (rnd.bytes 1 32)
  have e3 := dumpStr_WSE (rnd.bytes 2 SESSION_NONCE_SIZE)
  simp only [WSE_length, rnd.bytes_length, SESSION_NONCE_SIZE] at e1 e2 e3
  have f1 : (dumpStr "key".toList).length = 5 := by decide +kernel
  have f2 : (dumpStr "nonce".toList).length = 7 := by decide +kernel
  have f3 : (dumpStr "mode".toList).length = 6 := by decide +kernel
  have f4 : (dumpStr "size".toList).length = 6 := by decide +kernel
  have f5 : (dumpStr "aesKeyString".toList).length = 14 := by decide +kernel
  have f6 : (dumpStr "hmacKey".toList).length = 9 := by decide +kernel
  have f7 : (dumpStr "hmacKeyString".toList).length = 15 := by decide +kernel
  have f8 : (dumps (Json.ofString CipherMode.CBC.name)).length = 5 := by decide +kernel
  have f9 : (dumps (.num 128)).length = 3 := by decide +kernel
  have f10 : (dumps (.num 256)).length = 3 := by decide +kernel
  simp only [jobj, List.map_cons, List.map_nil]
  simp only [dumps.eq_7, dumpMembers, List.length_cons, List.length_append, List.length_nil, f1, f2, f3, f4, f5, f6, f7, f8, f9, f10, e1, e2, e3,
    SESSION_NONCE_SIZE]

/-- C55: SignedSessionEncrypter encrypts 204 bytes of JSON, so its RSA modulus must have at least 246
bytes. -/
theorem C55_signed (c : Czar) (hc : Loaded P c) (k : RsaPublicKey) (hp : PrimaryRsa c k)
    (hn : k.key.n ≠ 0) (hlen : (BigIntToBytes k.key.n).length ≤ 2 ^ 32) (rnd rnd' : Rand) :
    if 246 ≤ (BigIntToBytes k.key.n).length
    then ∃ s, SignedSessionEncrypter.new P c rnd rnd' = .ok s
    else SignedSessionEncrypter.new P c rnd rnd' = .error .keyczarError := by
  obtain ⟨text, ht, hl⟩ := signed_material_length rnd
  have h := rsa_material P hc hp hn hlen rnd' text
  unfold SignedSessionEncrypter.new
  simp only [ht, bind, Except.bind]
  rw [hl] at h
  split
  · rw [if_pos (by omega)] at h
    obtain ⟨out, h⟩ := h
    rw [h]
    exact ⟨_, rfl⟩
  · rw [if_neg (by omega)] at h
    rw [h]

/-- C55: so signed sessions always fail with 512-, 768- and 1024-bit keys, and never with 2048 or
4096 bits. -/
theorem C55_signed_sizes (c : Czar) (hc : Loaded P c) (k : RsaPublicKey) (hp : PrimaryRsa c k) (bits : Nat)
    (hbits : bits ∈ KeyType.RSA_PUB.sizes) (h1 : 2 ^ (bits - 1) ≤ k.key.n) (h2 : k.key.n < 2 ^ bits) (rnd rnd' : Rand) :
    if bits ≤ 1024 then SignedSessionEncrypter.new P c rnd rnd' = .error .keyczarError
    else ∃ s, SignedSessionEncrypter.new P c rnd rnd' = .ok s := by
  have h8 : bits = 8 * (bits / 8) ∧ 0 < bits / 8 ∧ bits / 8 ≤ 512 := by
    simp only [KeyType.sizes, List.mem_cons, List.not_mem_nil, or_false] at hbits
    omega
  have hl := bytes_of_bits (n := k.key.n) (b := bits / 8) h8.2.1 (by rw [← h8.1]; exact h1) (by rw [← h8.1]; exact h2)
  have hn : k.key.n ≠ 0 := by have := Nat.two_pow_pos (bits - 1); omega
  have h := C55_signed P c hc k hp hn (by rw [hl]; omega) rnd rnd'
  rw [hl] at h
  have hb : 246 ≤ bits / 8 ↔ ¬ bits ≤ 1024 := by
    simp only [KeyType.sizes, List.mem_cons, List.not_mem_nil, or_false] at hbits
    omega
  by_cases hx : bits ≤ 1024
  · rw [if_neg (by tauto)] at h
    rwa [if_pos hx]
  · rw [if_pos (by tauto)] at h
    rwa [if_neg hx]

/-! ## C54 -/

/-- C54: the material of a signed session is read back as the session itself, key and nonce. -/
theorem C54_json_round_trip (s : Session) (nonce : Bytes) (hn : s.nonce = some nonce) (hk : s.key.Ok) :
    ∃ text, s.json = .ok text ∧ Session.LoadJsonSession text = .ok s := by
  obtain ⟨k, n⟩ := s
  cases hn
  exact ⟨_, Session.json_eq, Session.Load_json hk⟩

theorem signed_arrives {c c' : Czar} {rnd rnd' : Rand} {mat text : Bytes}
    (hj : (Session.New rnd).json = .ok text)
    (h1 : c.Encrypt P rnd' text (some Base64WSEncode) = .ok mat)
    (h2 : c'.Decrypt P mat (some Base64WSDecode) = .ok text) :
    SignedSessionEncrypter.new P c rnd rnd' = .ok ⟨Session.New rnd, mat⟩ ∧
    SignedSessionDecrypter.new P c' mat = .ok (Session.New rnd) := by
  constructor
  · unfold SignedSessionEncrypter.new
    simp only [hj, bind, Except.bind, h1]
    rfl
  · unfold SignedSessionDecrypter.new
    rw [h2]
    obtain ⟨t, h3, h4⟩ := C54_json_round_trip (Session.New rnd) _ rfl (Session.New_key rnd)
    rw [hj] at h3
    cases h3
    exact h4

/-- C54 (AES material): construction succeeds on both sides and both hold the same session. -/
theorem C54_aes_material (c c' : Czar) (hc : Loaded P c) (hc' : Loaded P c') (hd : c'.keySet.Distinct P)
    (e e' : Entry) (k : AesKey) (kb hb : Bytes) (hp : c.keySet.primaries = [e]) (hk : e.key = .aes k)
    (hu : UsableAes k kb hb) (he' : e' ∈ c'.keySet.entries) (hk' : e'.key = .aes k) (rnd rnd' : Rand) :
    ∃ mat, SignedSessionEncrypter.new P c rnd rnd' = .ok ⟨Session.New rnd, mat⟩ ∧
      SignedSessionDecrypter.new P c' mat = .ok (Session.New rnd) := by
  obtain ⟨text, ht, -⟩ := signed_material_length rnd
  obtain ⟨mat, h1⟩ := C22_aes_encrypts P c hc e k kb hb hp hk hu (some Base64WSEncode) rnd' text
  have h2 := C22_aes_round_trip P c c' hc hc' hd e e' k hp hk he' hk' (some Base64WSEncode) (some Base64WSDecode)
    Base64WSDecode_encode rnd' _ mat h1
  exact ⟨mat, signed_arrives P ht h1 h2⟩

/-- C54 (RSA material): with at least 246 bytes, except in the leading-zero case of C48. -/
theorem C54_rsa_material (c c' : Czar) (hc : Loaded P c) (hc' : Loaded P c') (hd : c'.keySet.Distinct P)
    (e e' : Entry) (k : RsaPrivateKey) (hp : c.keySet.primaries = [e])
    (hk : e.key = .rsaPriv k ∨ e.key = .rsaPub k.pub)
    (he' : e' ∈ c'.keySet.entries) (hk' : e'.key = .rsaPriv k)
    (hv : RsaValid k.key) (hpub : k.pub.key = k.key.pub) (hlen : (BigIntToBytes k.key.n).length ≤ 2 ^ 32)
    (hsize : 246 ≤ (BigIntToBytes k.key.n).length) (rnd rnd' : Rand) :
    ∃ mat text, SignedSessionEncrypter.new P c rnd rnd' = .ok ⟨Session.New rnd, mat⟩ ∧
      (Session.New rnd).json = .ok text ∧
      SignedSessionDecrypter.new P c' mat =
        if (strip0 (oaep P.sha1 (BigIntToBytes k.key.n).length (rnd'.bytes 0 20) text)).length < 42
        then .error .keyczarError else .ok (Session.New rnd) := by
  obtain ⟨text, ht, hl⟩ := signed_material_length rnd
  obtain ⟨mat, h1, h2⟩ := C22_rsa_round_trip P c c' hc hc' hd e e' k hp hk he' hk' hv hpub hlen (some Base64WSEncode)
    (some Base64WSDecode) Base64WSDecode_encode rnd' text (by omega)
  refine ⟨mat, text, ?_, ht, ?_⟩
  · unfold SignedSessionEncrypter.new
    simp only [ht, bind, Except.bind, h1]
    rfl
  · split at h2
    · next hs =>
      rw [if_pos hs]
      unfold SignedSessionDecrypter.new
      rw [h2]; rfl
    · next hs =>
      rw [if_neg hs]
      exact (signed_arrives P ht h1 h2).2

/-- messages of a signed session, given what the signer and verifier do with the ciphertext -/
theorem signed_messages (rnd : Rand) (mat : Bytes) (r : Rand) (m : Bytes) (hm : m.length + 57 < 2 ^ 31) :
    ∃ ct, (Session.New rnd).key.Encrypt P (r.bytes 0 16) m = .ok ct ∧ ct.length < 2 ^ 31 ∧
      (∀ (signer : Czar) (r' : Rand), SignedSessionEncrypter.Encrypt P ⟨Session.New rnd, mat⟩ signer r r' m =
        signer.AttachedSign P r' ct (rnd.bytes 2 16) (some Base64WSEncode)) ∧
      ∀ (verifier : Czar) (signed : Bytes),
        (verifier.AttachedVerify P signed (rnd.bytes 2 16) (some Base64WSDecode) = .ok (some ct) →
          SignedSessionDecrypter.Decrypt P (Session.New rnd) verifier signed = .ok (some m)) := by
  obtain ⟨c, h1, -, h2, h2'⟩ := Session.crypter_round_trip (P := P) (Session.New_key rnd) (Session.New_usable rnd)
  obtain ⟨ct, h3, h4⟩ := h2 none none trivial r m
  have hl : ct.length = 57 + 16 * (m.length / 16) := by
    rw [h2'] at h3
    obtain ⟨c2, h5, -, h6, -⟩ := C15_round_trip_layout P _ _ _ (Session.New_usable rnd) _ (r.bytes_length 0 16) m
    rw [h5] at h3
    rw [← Except.ok.inj h3]
    exact h6
  have hne : ct ≠ [] := by rintro rfl; rw [List.length_nil] at hl; omega
  refine ⟨ct, by rw [← h2', h3], by omega, fun signer r' => ?_, fun verifier signed hv => ?_⟩
  · unfold SignedSessionEncrypter.Encrypt
    simp only [h1, h3, bind, Except.bind]
    rfl
  · unfold SignedSessionDecrypter.Decrypt
    rw [show (Session.New rnd).nonceBytes = .ok (rnd.bytes 2 16) from rfl]
    simp only [bind, Except.bind, hv]
    obtain ⟨a, t, rfl⟩ := List.exists_cons_of_ne_nil hne
    simp only [h1, h4]
    rfl

/-- C54 (HMAC): every message of a signed session comes back. -/
theorem C54_hmac (sg ve : Czar) (hs : Loaded P sg) (hv : Loaded P ve) (hd : ve.keySet.Distinct P)
    (e e' : Entry) (k : HmacKey) (hp : sg.keySet.primaries = [e]) (hk : e.key = .hmac k)
    (he' : e' ∈ ve.keySet.entries) (hk' : e'.key = .hmac k)
    (rnd r r' : Rand) (mat m : Bytes) (hm : m.length + 57 < 2 ^ 31) :
    ∃ out, SignedSessionEncrypter.Encrypt P ⟨Session.New rnd, mat⟩ sg r r' m = .ok out ∧
      SignedSessionDecrypter.Decrypt P (Session.New rnd) ve out = .ok (some m) := by
  obtain ⟨ct, -, h1, h2, h3⟩ := signed_messages P rnd mat r m hm
  obtain ⟨out, h4, h5⟩ := C44_hmac P sg ve hs hv hd e e' k hp hk he' hk' (some Base64WSEncode) (some Base64WSDecode)
    Base64WSDecode_encode r' ct (rnd.bytes 2 16) h1 (by rw [rnd.bytes_length]; decide)
  exact ⟨out, by rw [h2, h4], h3 ve out h5⟩

/-- C54 (RSA). -/
theorem C54_rsa (sg ve : Czar) (hs : Loaded P sg) (hv : Loaded P ve) (hd : ve.keySet.Distinct P)
    (e e' : Entry) (k : RsaPrivateKey) (hu : UsableRsa k) (hp : sg.keySet.primaries = [e]) (hk : e.key = .rsaPriv k)
    (he' : e' ∈ ve.keySet.entries) (hk' : e'.key = .rsaPriv k ∨ e'.key = .rsaPub k.pub)
    (rnd r r' : Rand) (mat m : Bytes) (hm : m.length + 57 < 2 ^ 31) :
    ∃ out, SignedSessionEncrypter.Encrypt P ⟨Session.New rnd, mat⟩ sg r r' m = .ok out ∧
      SignedSessionDecrypter.Decrypt P (Session.New rnd) ve out = .ok (some m) := by
  obtain ⟨ct, -, h1, h2, h3⟩ := signed_messages P rnd mat r m hm
  obtain ⟨out, h4, h5⟩ := C44_rsa P sg ve hs hv hd e e' k hu hp hk he' hk' (some Base64WSEncode) (some Base64WSDecode)
    Base64WSDecode_encode r' ct (rnd.bytes 2 16) h1 (by rw [rnd.bytes_length]; decide)
  exact ⟨out, by rw [h2, h4], h3 ve out h5⟩

/-- C54 (DSA): the message comes back when both numbers of the signature are non-zero, otherwise
None (see C51). -/
theorem C54_dsa (sg ve : Czar) (hs : Loaded P sg) (hv : Loaded P ve) (hd : ve.keySet.Distinct P)
    (e e' : Entry) (k : DsaPrivateKey) (hkv : DsaValid k.key) (hpub : k.pub.key = k.key.pub) (hq : 3 ≤ k.key.q)
    (hsize : (BigIntToBytes k.key.q).length < 2 ^ 32)
    (hp : sg.keySet.primaries = [e]) (hk : e.key = .dsaPriv k)
    (he' : e' ∈ ve.keySet.entries) (hk' : e'.key = .dsaPriv k ∨ e'.key = .dsaPub k.pub)
    (rnd r r' : Rand) (mat m : Bytes) (hm : m.length + 57 < 2 ^ 31) :
    ∃ out ct a b, (Session.New rnd).key.Encrypt P (r.bytes 0 16) m = .ok ct ∧
      k.key.sign (P.sha1 (attachedPayload ct (rnd.bytes 2 16))) (r'.dsaK k.key.q) = .ok (a, b) ∧
      SignedSessionEncrypter.Encrypt P ⟨Session.New rnd, mat⟩ sg r r' m = .ok out ∧
      SignedSessionDecrypter.Decrypt P (Session.New rnd) ve out = .ok (if a ≠ 0 ∧ b ≠ 0 then some m else none) := by
  obtain ⟨ct, h0, h1, h2, h3⟩ := signed_messages P rnd mat r m hm
  obtain ⟨out, a, b, h4, h5, h6⟩ := C44_dsa P sg ve hs hv hd e e' k hkv hpub hq hsize hp hk he' hk' (some Base64WSEncode)
    (some Base64WSDecode) Base64WSDecode_encode r' ct (rnd.bytes 2 16) h1 (by rw [rnd.bytes_length]; decide)
  refine ⟨out, ct, a, b, h0, h5, by rw [h2, h4], ?_⟩
  by_cases hab : a ≠ 0 ∧ b ≠ 0
  · rw [if_pos hab] at h6 ⊢
    exact h3 ve out h6
  · rw [if_neg hab] at h6 ⊢
    unfold SignedSessionDecrypter.Decrypt
    rw [show (Session.New rnd).nonceBytes = .ok (rnd.bytes 2 16) from rfl]
    simp only [bind, Except.bind, h6]
    rfl

/-- C54: what SignedSessionDecrypter returns, exactly: None when the verifier does not accept (or
accepts empty data), otherwise the decryption of the data the verifier returned. -/
theorem C54_exact (s : Session) (nonce : Bytes) (hn : s.nonce = some nonce) (verifier : Czar) (signed : Bytes) :
    (verifier.AttachedVerify P signed nonce (some Base64WSDecode) = .ok none →
      SignedSessionDecrypter.Decrypt P s verifier signed = .ok none) ∧
    (∀ x, verifier.AttachedVerify P signed nonce (some Base64WSDecode) = .error x →
      SignedSessionDecrypter.Decrypt P s verifier signed = .error x) ∧
    ∀ m, SignedSessionDecrypter.Decrypt P s verifier signed = .ok (some m) →
      ∃ ct, verifier.AttachedVerify P signed nonce (some Base64WSDecode) = .ok (some ct) ∧ ct ≠ [] ∧
        SessionDecrypter.Decrypt P s ct none = .ok m := by
  have hnb : s.nonceBytes = .ok nonce := by unfold Session.nonceBytes; rw [hn]
  unfold SignedSessionDecrypter.Decrypt SessionDecrypter.Decrypt
  simp only [hnb, bind, Except.bind, pure, Except.pure]
  generalize s.crypter P = cr
  refine ⟨fun h => by rw [h], fun x h => by rw [h], fun m h => ?_⟩
  cases hv : verifier.AttachedVerify P signed nonce (some Base64WSDecode) with
  | error x => rw [hv] at h; cases h
  | ok o =>
    rw [hv] at h
    match o with
    | none => cases h
    | some [] => cases h
    | some (a :: t) =>
      simp only at h
      refine ⟨a :: t, rfl, by simp, ?_⟩
      cases cr with
      | error x => cases h
      | ok c =>
        simp only at h ⊢
        cases hx : c.Decrypt P (a :: t) none with
        | error x => rw [hx] at h; cases h
        | ok y => rw [hx] at h; cases h; rfl

/-- C54: a plaintext is only returned for input on which a key of the verifier accepted a signature
over ciphertext and session nonce, and whose ciphertext the session key authenticates. -/
theorem C54_sound (s : Session) (nonce kb hb : Bytes) (hn : s.nonce = some nonce) (hk : s.key.Ok)
    (hu : UsableAes s.key kb hb) (verifier : Czar) (hv : Loaded P verifier) (signed blob m : Bytes)
    (hb64 : Base64WSDecode signed = .ok blob)
    (h : SignedSessionDecrypter.Decrypt P s verifier signed = .ok (some m)) :
    ∃ ct, ct <:+: blob ∧ 41 ≤ ct.length ∧
      ct.drop (ct.length - 20) = Spec.hmac P.sha1 hb (ct.take (ct.length - 20)) ∧
      ∃ e ∈ verifier.keySet.entries, ∃ id sig, KeyId P.sha1 e.key id ∧ header id <+: blob ∧ sig <:+ blob ∧
        e.key.Verify P (attachedPayload ct nonce) sig = .ok true := by
  obtain ⟨ct, h1, -, h2⟩ := (C54_exact P s nonce hn verifier signed).2.2 m h
  obtain ⟨e, he, id, sig, g1, g2, g3, g4, g5⟩ := C44_sound P verifier hv signed blob nonce ct (some Base64WSDecode) hb64 h1
  obtain ⟨h3, h4⟩ := C53_authentic P s kb hb hk hu ct ct m none rfl h2
  exact ⟨ct, g4, h3, h4, e, he, id, sig, g1, g2, g3, g5⟩

/-- C54: with an HMAC verifier, a signed message accepted in two sessions whose nonces differ (but
have the same length, as all generated nonces do) exhibits a collision of one HMAC key. -/
theorem C54_other_session (s s' : Session) (nonce nonce' kb hb kb' hb' : Bytes)
    (hn : s.nonce = some nonce) (hn' : s'.nonce = some nonce') (hlen : nonce.length = nonce'.length) (hne : nonce ≠ nonce')
    (hk : s.key.Ok) (hu : UsableAes s.key kb hb) (hk' : s'.key.Ok) (hu' : UsableAes s'.key kb' hb')
    (verifier : Czar) (hv : Loaded P verifier) (ht : verifier.keySet.type = .HMAC_SHA1) (hd : verifier.keySet.Distinct P)
    (signed m m' : Bytes)
    (h : SignedSessionDecrypter.Decrypt P s verifier signed = .ok (some m))
    (h' : SignedSessionDecrypter.Decrypt P s' verifier signed = .ok (some m')) :
    ∃ e ∈ verifier.keySet.entries, ∃ k key p p', e.key = .hmac k ∧ Base64WSDecode k.keyString = .ok key ∧ p ≠ p' ∧
      Spec.hmac P.sha1 key p = Spec.hmac P.sha1 key p' := by
  cases hb64 : Base64WSDecode signed with
  | error x =>
    obtain ⟨ct, h1, -⟩ := (C54_exact P s nonce hn verifier signed).2.2 m h
    unfold Czar.AttachedVerify at h1
    simp [decodeWith, hb64, bind, Except.bind] at h1
  | ok blob =>
    obtain ⟨ct, -, -, -, e, he, id, sig, g1, g2, g3, g4⟩ := C54_sound P s nonce kb hb hn hk hu verifier hv signed blob m hb64 h
    obtain ⟨ct', -, -, -, e', he', id', sig', g1', g2', g3', g4'⟩ :=
      C54_sound P s' nonce' kb' hb' hn' hk' hu' verifier hv signed blob m' hb64 h'
    obtain ⟨l1, i1⟩ := (KeyId_iff P _ _).mp g1
    obtain ⟨l2, i2⟩ := (KeyId_iff P _ _).mp g1'
    have hid : header id = header id' := by
      have a := List.prefix_iff_eq_take.mp g2
      have b := List.prefix_iff_eq_take.mp g2'
      rw [a, b]
      simp [header, l1, l2]
    have hid : id = id' := by simpa [header] using hid
    subst hid
    have hee := Distinct.eq hd he he' (i1.trans i2.symm)
    subst hee
    obtain ⟨k, key, hkk, hkey⟩ := hv.hmac_key ht he
    rw [hkk] at g4 g4'
    simp only [Key.Verify] at g4 g4'
    rw [C13_accepts_exactly_mac P k key hkey] at g4 g4'
    have q := of_decide_eq_true (Except.ok.inj g4)
    have q' := of_decide_eq_true (Except.ok.inj g4')
    refine ⟨e, he, k, key, attachedPayload ct nonce, attachedPayload ct' nonce', hkk, hkey, ?_, ?_⟩
    · intro hp
      exact hne (C45_binding ct ct' nonce nonce' hlen hp).2
    · rw [← q, ← q']
      have a := List.suffix_iff_eq_drop.mp g3
      have b := List.suffix_iff_eq_drop.mp g3'
      have la : sig.length = sig'.length := by
        rw [q, q', ← hmacSha1_spec, ← hmacSha1_spec, hmacSha1_length, hmacSha1_length]
      rw [a, b, la]

/-! ## examples -/

/-- example: a session over the AES set of testdata, from construction to the plaintext -/
example : ((Czar.init realPrims .crypter Ex.aes).bind fun c =>
    (SessionEncrypter.new realPrims c Ex.rnd Ex.rnd).bind fun s =>
    (SessionDecrypter.new realPrims 3 c s.material).bind fun d =>
    (SessionEncrypter.Encrypt realPrims s Ex.rnd [1, 2, 3] (some Base64WSEncode)).bind fun x =>
      SessionDecrypter.Decrypt realPrims d x (some Base64WSDecode)) = .ok [1, 2, 3] := by decide +kernel

/-- example: a signed session over the AES and HMAC sets of testdata; after one changed byte of the
signature the result is None -/
example : ((Czar.init realPrims .crypter Ex.aes).bind fun c =>
    (Czar.init realPrims .signer (Ex.hmac .ACTIVE .PRIMARY)).bind fun sg =>
    (SignedSessionEncrypter.new realPrims c Ex.rnd Ex.rnd).bind fun s =>
    (SignedSessionDecrypter.new realPrims c s.material).bind fun d =>
    (SignedSessionEncrypter.Encrypt realPrims s sg Ex.rnd Ex.rnd [1, 2, 3]).bind fun x =>
    (SignedSessionDecrypter.Decrypt realPrims d sg x).bind fun a =>
    (SignedSessionDecrypter.Decrypt realPrims d sg (x.dropLast ++ [if x.getLast? = some 103 then 119 else 103])).bind fun b =>
      .ok (a, b)) = .ok (some [1, 2, 3], none) := by decide +kernel

/-- example: an Encrypter with the 512-bit public key of C48, to which C55 applies -/
example : ∃ c, Loaded P c ∧ PrimaryRsa c exRsa.pub ∧ exRsa.pub.key.n ≠ 0 ∧
    (BigIntToBytes exRsa.pub.key.n).length = 64 := by
  have := Czar.init_gives (cls := .encrypter) (StaticKeyReader_gives (P := P) (k := .rsaPub exRsa.pub)
    ⟨by decide +kernel, by decide⟩ ⟨_, rfl⟩ .ENCRYPT)
  rw [if_pos (by refine ⟨rfl, fun h => ?_, by simp [staticSet, KeySet.primaries]⟩; cases h)] at this
  obtain ⟨c, h1, h2⟩ := this
  refine ⟨c, ⟨_, _, h1⟩, ⟨⟨1, .PRIMARY, .bool false, .rsaPub exRsa.pub⟩, ?_, .inl rfl⟩, by decide +kernel, exRsa_length⟩
  rw [h2]
  rfl

end Verif.Props
