import Verif.Model.Session
import Verif.Props.Crypters
import Verif.Props.Encodings
/-
The Crypter of a session, and loading of packed and JSON sessions.
-/
namespace Verif
open Spec (Entry KeySet)
open Verif.Props
variable {P : Prims}

/-- the key set that a StaticKeyReader describes -/
def staticSet (k : Key) (p : KeyPurpose) : KeySet :=
  ⟨Json.ofString "Imported", p, k.type, .bool false, [⟨1, .PRIMARY, .bool false, k⟩]⟩

theorem StaticKeyReader_gives {k : Key} (hk : k.Ok) (hh : ∃ hash, k.hashId P = .ok hash) (p : KeyPurpose) :
    (StaticKeyReader k p).Gives P (staticSet k p) := by
  refine ⟨?_, ?_⟩
  · obtain ⟨kmd, h, h1, -, h3⟩ := KeyMetadata.Read_viewJson (v := (staticSet k p).view)
      ⟨trivial, trivial, by simp [staticSet, KeySet.view, Json.WF]⟩ (by simp [staticSet, KeySet.view])
    refine ⟨_, kmd, h, ?_, h1, h3⟩
    unfold StaticKeyReader
    simp only
    rw [KeyMetadata.str_eq]
    · rfl
    · intro q hq
      simp only [KeyMetadata.AddVersion] at hq
      have : q = (1, 0) := List.mem_singleton.mp hq
      subst this
      trivial
  · intro e he
    simp only [staticSet, List.mem_singleton] at he
    subst he
    exact ⟨_, k.str_eq, ReadKey_str k hk, hh⟩

theorem staticSet_distinct (k : Key) (p : KeyPurpose) : (staticSet k p).Distinct P := by
  unfold KeySet.Distinct staticSet
  simp

theorem Props.UsableAes.hash {k : AesKey} {kb hb : Bytes} (h : UsableAes k kb hb) :
    ∃ hash, (Key.aes k).hashId P = .ok hash := by
  simp only [Key.hashId, AesKey.hashId, h.aes, h.mac, bind, Except.bind, pure, Except.pure]
  exact ⟨_, rfl⟩

/-- the Crypter of a session -/
theorem Session.crypter_ok {s : Session} {kb hb : Bytes} (hk : s.key.Ok) (hu : UsableAes s.key kb hb) :
    ∃ c, s.crypter P = .ok c ∧ Loaded P c ∧ c.keySet = staticSet (.aes s.key) .DECRYPT_AND_ENCRYPT := by
  have := Czar.init_gives (cls := .crypter)
    (StaticKeyReader_gives (P := P) (k := .aes s.key) hk hu.hash .DECRYPT_AND_ENCRYPT)
  rw [if_pos (by refine ⟨rfl, fun h => ?_, by simp [staticSet, KeySet.primaries]⟩; cases h)] at this
  obtain ⟨c, h1, h2⟩ := this
  exact ⟨c, h1, ⟨_, _, h1⟩, h2⟩

/-- session encryption and decryption through the session Crypter -/
theorem Session.crypter_round_trip {s : Session} {kb hb : Bytes} (hk : s.key.Ok) (hu : UsableAes s.key kb hb) :
    ∃ c, s.crypter P = .ok c ∧ Loaded P c ∧
      (∀ (enc : Option (Bytes → Bytes)) (dec : Option (Bytes → Py Bytes)), Spec.Inverse enc dec → ∀ (rnd : Rand) (m : Bytes),
        ∃ out, c.Encrypt P rnd m enc = .ok out ∧ c.Decrypt P out dec = .ok m) ∧
      (∀ (rnd : Rand) (m : Bytes), c.Encrypt P rnd m none = s.key.Encrypt P (rnd.bytes 0 16) m) := by
  obtain ⟨c, h1, h2, h3⟩ := Session.crypter_ok (P := P) hk hu
  have hp : c.keySet.primaries = [⟨1, .PRIMARY, .bool false, .aes s.key⟩] := by rw [h3]; rfl
  refine ⟨c, h1, h2, fun enc dec hi rnd m => ?_, fun rnd m => ?_⟩
  · obtain ⟨out, h4⟩ := C22_aes_encrypts P c h2 _ s.key kb hb hp rfl hu enc rnd m
    exact ⟨out, h4, C22_aes_round_trip P c c h2 h2 (by rw [h3]; exact staticSet_distinct _ _) _
      ⟨1, .PRIMARY, .bool false, .aes s.key⟩ s.key hp rfl (by rw [h3]; simp [staticSet]) rfl enc dec hi rnd m out h4⟩
  · rw [Encrypt_raw P h2 hp]
    cases h : s.key.Encrypt P (rnd.bytes 0 16) m with
    | error x => simp [Key.Encrypt, h, Except.map]
    | ok x => simp [Key.Encrypt, h, Except.map, encoded]

/-! ### new sessions -/

theorem Session.New_key (rnd : Rand) : (Session.New rnd).key.Ok :=
  ⟨WSE_plain _, ⟨WSE_plain _, setSize_mem .HMAC_SHA1 (KeyType.HMAC_SHA1.defaultSize : Nat)⟩, setSize_mem .AES (KeyType.AES.defaultSize : Nat)⟩

theorem Session.New_usable (rnd : Rand) :
    UsableAes (Session.New rnd).key (rnd.bytes 0 16) (rnd.bytes 1 32) :=
  generated_aes_usable rnd 128 (by decide)

theorem structPackI_small {n : Nat} (h : n < 2 ^ 31) : structPackI n = .ok (IntToBytes n) := by
  unfold structPackI
  rw [if_pos h]

theorem Session.New_packed (rnd : Rand) : (Session.New rnd).packedKey =
    .ok ([0, 0, 0, 2] ++ [0, 0, 0, 16] ++ rnd.bytes 0 16 ++ [0, 0, 0, 32] ++ rnd.bytes 1 32) := by
  unfold Session.packedKey
  rw [(Session.New_usable rnd).aes, (Session.New_usable rnd).mac]
  simp only [bind, Except.bind]
  unfold PackMultipleByteArrays
  simp only [List.length_cons, List.length_nil, List.mapM_cons, List.mapM_nil, PackByteArray, rnd.bytes_length]
  rw [structPackI_small (by decide), structPackI_small (by decide), structPackI_small (by decide)]
  rw [show IntToBytes (0 + 1 + 1 : Nat) = [0, 0, 0, 2] from by decide, show IntToBytes (16 : Nat) = [0, 0, 0, 16] from by decide,
    show IntToBytes (32 : Nat) = [0, 0, 0, 32] from by decide]
  simp [bind, Except.bind, pure, Except.pure]

theorem Session.Load_packed (rnd : Rand) {packed : Bytes} (h : (Session.New rnd).packedKey = .ok packed)
    {fuel : Nat} (hf : 2 < fuel) : Session.LoadPackedKey fuel packed = .ok ⟨(Session.New rnd).key, none⟩ := by
  unfold Session.packedKey at h
  rw [(Session.New_usable rnd).aes, (Session.New_usable rnd).mac] at h
  simp only [bind, Except.bind] at h
  unfold Session.LoadPackedKey
  rw [C06_pack_unpack _ _ h fuel hf]
  simp only [bind, Except.bind, pure, Except.pure, rnd.bytes_length]
  rfl

/-- the JSON document of a session -/
def sessionJson (k : AesKey) (nonce : Bytes) : Json := jobj [("key", k.json), ("nonce", jb64 nonce)]

theorem sessionJson_WF (k : AesKey) (nonce : Bytes) : (sessionJson k nonce).WF := by
  refine jobj_WF _ (by simp) ?_
  intro p hp
  simp only [List.mem_cons, List.not_mem_nil, or_false] at hp
  rcases hp with rfl | rfl
  · exact k.json_WF
  · trivial

theorem Session.json_eq {k : AesKey} {nonce : Bytes} : Session.json ⟨k, some nonce⟩ = .ok (dumps (sessionJson k nonce)) := by
  unfold Session.json
  simp only [k.str_eq, bind, Except.bind]
  rw [loads_dumps _ k.json_WF]
  rfl

theorem Session.Load_json {k : AesKey} {nonce : Bytes} (hk : k.Ok) :
    Session.LoadJsonSession (dumps (sessionJson k nonce)) = .ok ⟨k, some nonce⟩ := by
  unfold Session.LoadJsonSession
  rw [loads_dumps _ (sessionJson_WF k nonce)]
  unfold sessionJson
  simp only [jget_cons, String.reduceEq, if_true, if_false, bind, Except.bind]
  rw [k.Read_str hk]
  simp only [pure, Except.pure]
  rw [getB64_ok]
  simp [jget_cons]

end Verif
