import Verif.Lemmas.Names
import Verif.Model.Keys
import Verif.Lemmas.Json
import Verif.Lemmas.Base64
import Verif.Lemmas.Util
import Verif.Lemmas.Cbc
/-
Lemmas about reading and writing key objects as JSON text.
-/
namespace Verif

/-! ### access to members of dict displays -/

theorem toList_ne {a b : String} (h : a ≠ b) : a.toList ≠ b.toList :=
  fun e => h (String.toList_inj.mp e)

theorem jget_cons (a : String) (v : Json) (t : List (String × Json)) (k : String) :
    (jobj ((a, v) :: t)).get k = if a = k then .ok v else (jobj t).get k := by
  unfold jobj Json.get
  simp only [List.map_cons, dictGet]
  by_cases h : a = k
  · subst h; simp
  · rw [if_neg (toList_ne h), if_neg h]

theorem jget_nil (k : String) : (jobj []).get k = .error .keyError := rfl

theorem WFMembers_map (l : List (String × Json)) (h : ∀ p ∈ l, p.2.WF) :
    WFMembers (l.map fun p => (p.1.toList, p.2)) := by
  induction l with
  | nil => trivial
  | cons a t ih => exact ⟨h a (by simp), ih fun p hp => h p (by simp [hp])⟩

theorem jobj_WF (l : List (String × Json)) (h1 : (l.map Prod.fst).Nodup) (h2 : ∀ p ∈ l, p.2.WF) :
    (jobj l).WF := by
  refine ⟨?_, WFMembers_map l h2⟩
  rw [List.map_map]
  have : (Prod.fst ∘ fun p : String × Json => (p.1.toList, p.2)) = String.toList ∘ Prod.fst := rfl
  rw [this, ← List.map_map]
  exact List.Pairwise.map _ (fun a b h => toList_ne h) h1

theorem ofBytes_WF (b : Bytes) : (Json.ofBytes b).WF := trivial
theorem jb64_WF (b : Bytes) : (jb64 b).WF := trivial

/-! ### Base64 members -/

theorem WSE_plain (s : Bytes) : ∀ c ∈ Base64WSEncode s, plainChar (Char.ofNat c.toNat) = true := by
  intro c hc
  obtain ⟨n, hn, rfl⟩ := WSE_mem s c hc
  have : ∀ n : Fin 64, plainChar (Char.ofNat (wsChar n).toNat) = true := by decide +kernel
  exact this ⟨n, hn⟩

theorem jb64_toBytes (b : Bytes) : (jb64 b).toBytes = .ok (Base64WSEncode b) :=
  toBytes_ofBytes _ (WSE_plain b)

theorem getB64_ok {d : Json} {name : String} {b : Bytes} (h : d.get name = .ok (jb64 b)) :
    getB64 d name = .ok b := by
  unfold getB64
  simp only [h, bind, Except.bind, jb64_toBytes]
  exact Base64WSDecode_encode b

theorem setSizeJson_valid (t : KeyType) (n : Nat) (h : n ∈ t.sizes) : setSizeJson t (.num n) = n := by
  unfold setSizeJson setSize
  simp only
  rw [if_pos]
  · rfl
  · unfold KeyType.IsValidSize
    simp only [List.contains_iff_mem, List.mem_map]
    exact ⟨n, h, rfl⟩

theorem setSize_mem (t : KeyType) (n : Int) : setSize t n ∈ t.sizes := by
  unfold setSize
  split
  · next h =>
    unfold KeyType.IsValidSize at h
    simp only [List.contains_iff_mem, List.mem_map] at h
    obtain ⟨m, hm, rfl⟩ := h
    exact hm
  · cases t <;> decide

theorem setSizeJson_mem (t : KeyType) (j : Json) : setSizeJson t j ∈ t.sizes := by
  unfold setSizeJson
  split
  · exact setSize_mem t _
  · cases t <;> decide

/-! ### Keys whose stored fields are consistent -/

def Plain (b : Bytes) : Prop := ∀ c ∈ b, plainChar (Char.ofNat c.toNat) = true

/-- fields that serialisation keeps determine the object -/
def HmacKey.Ok (k : HmacKey) : Prop := Plain k.keyString ∧ k.size ∈ KeyType.HMAC_SHA1.sizes
def AesKey.Ok (k : AesKey) : Prop := Plain k.keyString ∧ k.hmacKey.Ok ∧ k.size ∈ KeyType.AES.sizes
def RsaPublicKey.Ok (k : RsaPublicKey) : Prop :=
  k.key = ⟨BytesToLong k.modulus, BytesToLong k.publicExponent⟩ ∧ k.size ∈ KeyType.RSA_PUB.sizes
def RsaPrivateKey.Ok (k : RsaPrivateKey) : Prop :=
  k.pub.Ok ∧ k.key = ⟨BytesToLong k.pub.modulus, BytesToLong k.pub.publicExponent,
    BytesToLong k.privateExponent, BytesToLong k.primeQ, BytesToLong k.primeP,
    BytesToLong k.crtCoefficient⟩ ∧ k.size ∈ KeyType.RSA_PRIV.sizes
def DsaPublicKey.Ok (k : DsaPublicKey) : Prop :=
  k.key = ⟨BytesToLong k.y, BytesToLong k.g, BytesToLong k.p, BytesToLong k.q⟩ ∧
    k.size ∈ KeyType.DSA_PUB.sizes
def DsaPrivateKey.Ok (k : DsaPrivateKey) : Prop :=
  k.pub.Ok ∧ k.key = ⟨BytesToLong k.pub.y, BytesToLong k.pub.g, BytesToLong k.pub.p,
    BytesToLong k.pub.q, BytesToLong k.x⟩ ∧ k.size ∈ KeyType.DSA_PRIV.sizes

def Key.Ok : Key → Prop
  | .aes k => k.Ok | .hmac k => k.Ok | .dsaPriv k => k.Ok | .dsaPub k => k.Ok
  | .rsaPriv k => k.Ok | .rsaPub k => k.Ok

/-! ### reading what was written -/

def HmacKey.json (k : HmacKey) : Json :=
  jobj [("size", .num k.size), ("hmacKeyString", Json.ofBytes k.keyString)]
theorem HmacKey.json_WF (k : HmacKey) : k.json.WF := by
  refine jobj_WF _ (by simp) ?_
  intro p hp
  simp at hp
  rcases hp with rfl | rfl <;> trivial

theorem HmacKey.ofJson_json (k : HmacKey) (h : k.Ok) : HmacKey.ofJson k.json = .ok k := by
  unfold HmacKey.ofJson HmacKey.json
  simp only [jget_cons, jget_nil, String.reduceEq, if_true, if_false, bind, Except.bind, pure, Except.pure]
  rw [toBytes_ofBytes _ h.1]
  simp only
  rw [setSizeJson_valid _ _ h.2]

theorem HmacKey.Read_str (k : HmacKey) (h : k.Ok) : HmacKey.Read k.str = .ok k := by
  unfold HmacKey.Read
  rw [show k.str = dumps k.json from rfl, loads_dumps _ k.json_WF]
  exact k.ofJson_json h

def AesKey.json (k : AesKey) : Json :=
  jobj [("mode", Json.ofString CipherMode.CBC.name), ("size", .num k.size),
    ("aesKeyString", Json.ofBytes k.keyString), ("hmacKey", k.hmacKey.json)]
theorem AesKey.json_WF (k : AesKey) : k.json.WF := by
  refine jobj_WF _ (by simp) ?_
  intro p hp
  simp only [List.mem_cons, List.not_mem_nil, or_false] at hp
  rcases hp with rfl | rfl | rfl | rfl
  · trivial
  · trivial
  · trivial
  · exact k.hmacKey.json_WF

theorem AesKey.str_eq (k : AesKey) : k.str = .ok (dumps k.json) := by
  unfold AesKey.str HmacKey.str
  rw [show dumps (jobj [("size", Json.num k.hmacKey.size), _]) = dumps k.hmacKey.json from rfl,
    loads_dumps _ k.hmacKey.json_WF]
  rfl

theorem AesKey.Read_str (k : AesKey) (h : k.Ok) : AesKey.Read (dumps k.json) = .ok k := by
  unfold AesKey.Read
  rw [loads_dumps _ k.json_WF]
  unfold AesKey.json
  simp only [jget_cons, jget_nil, String.reduceEq, if_true, if_false, bind, Except.bind, pure, Except.pure]
  rw [toBytes_ofBytes _ h.1]
  simp only
  rw [k.hmacKey.ofJson_json h.2.1]
  simp only
  rw [GetMode_name]
  simp only [ne_eq, not_true_eq_false, if_false]
  rw [setSizeJson_valid _ _ h.2.2]

def DsaPublicKey.json (k : DsaPublicKey) : Json :=
  jobj [("p", jb64 k.p), ("q", jb64 k.q), ("g", jb64 k.g), ("y", jb64 k.y), ("size", .num k.size)]
theorem DsaPublicKey.json_WF (k : DsaPublicKey) : k.json.WF := by
  refine jobj_WF _ (by simp) ?_
  intro p hp
  simp only [List.mem_cons, List.not_mem_nil, or_false] at hp
  rcases hp with rfl | rfl | rfl | rfl | rfl <;> trivial

theorem DsaPublicKey.Read_str (k : DsaPublicKey) (h : k.Ok) : DsaPublicKey.Read k.str = .ok k := by
  unfold DsaPublicKey.Read
  rw [show k.str = dumps k.json from rfl, loads_dumps _ k.json_WF]
  have hg : ∀ n, k.json.get n = _ := fun n => rfl
  have e1 : getB64 k.json "y" = .ok k.y := getB64_ok (by simp [DsaPublicKey.json, jget_cons])
  have e2 : getB64 k.json "p" = .ok k.p := getB64_ok (by simp [DsaPublicKey.json, jget_cons])
  have e3 : getB64 k.json "g" = .ok k.g := getB64_ok (by simp [DsaPublicKey.json, jget_cons])
  have e4 : getB64 k.json "q" = .ok k.q := getB64_ok (by simp [DsaPublicKey.json, jget_cons])
  have e5 : k.json.get "size" = .ok (.num k.size) := by simp [DsaPublicKey.json, jget_cons]
  simp only [bind, Except.bind, pure, Except.pure, e1, e2, e3, e4, e5]
  rw [setSizeJson_valid _ _ h.2, ← h.1]

def DsaPrivateKey.json (k : DsaPrivateKey) : Json :=
  jobj [("publicKey", k.pub.json), ("x", jb64 k.x), ("size", .num k.size)]
theorem DsaPrivateKey.json_WF (k : DsaPrivateKey) : k.json.WF := by
  refine jobj_WF _ (by simp) ?_
  intro p hp
  simp only [List.mem_cons, List.not_mem_nil, or_false] at hp
  rcases hp with rfl | rfl | rfl
  · exact k.pub.json_WF
  · trivial
  · trivial

theorem DsaPrivateKey.str_eq (k : DsaPrivateKey) : k.str = .ok (dumps k.json) := by
  unfold DsaPrivateKey.str
  rw [show k.pub.str = dumps k.pub.json from rfl, loads_dumps _ k.pub.json_WF]
  rfl

theorem DsaPrivateKey.Read_str (k : DsaPrivateKey) (h : k.Ok) : DsaPrivateKey.Read (dumps k.json) = .ok k := by
  unfold DsaPrivateKey.Read
  rw [loads_dumps _ k.json_WF]
  have e1 : k.json.get "publicKey" = .ok k.pub.json := by simp [DsaPrivateKey.json, jget_cons]
  have e2 : getB64 k.json "x" = .ok k.x := getB64_ok (by simp [DsaPrivateKey.json, jget_cons])
  have e5 : k.json.get "size" = .ok (.num k.size) := by simp [DsaPrivateKey.json, jget_cons]
  have e6 : DsaPublicKey.Read (dumps k.pub.json) = .ok k.pub := k.pub.Read_str h.1
  simp only [bind, Except.bind, pure, Except.pure, e1, e2, e5, e6]
  rw [setSizeJson_valid _ _ h.2.2, ← h.2.1]

def RsaPublicKey.json (k : RsaPublicKey) : Json :=
  jobj [("modulus", jb64 k.modulus), ("publicExponent", jb64 k.publicExponent), ("size", .num k.size)]
theorem RsaPublicKey.json_WF (k : RsaPublicKey) : k.json.WF := by
  refine jobj_WF _ (by simp) ?_
  intro p hp
  simp only [List.mem_cons, List.not_mem_nil, or_false] at hp
  rcases hp with rfl | rfl | rfl <;> trivial

theorem RsaPublicKey.Read_str (k : RsaPublicKey) (h : k.Ok) : RsaPublicKey.Read k.str = .ok k := by
  unfold RsaPublicKey.Read
  rw [show k.str = dumps k.json from rfl, loads_dumps _ k.json_WF]
  have e1 : getB64 k.json "modulus" = .ok k.modulus := getB64_ok (by simp [RsaPublicKey.json, jget_cons])
  have e2 : getB64 k.json "publicExponent" = .ok k.publicExponent :=
    getB64_ok (by simp [RsaPublicKey.json, jget_cons])
  have e5 : k.json.get "size" = .ok (.num k.size) := by simp [RsaPublicKey.json, jget_cons]
  simp only [bind, Except.bind, pure, Except.pure, e1, e2, e5]
  rw [setSizeJson_valid _ _ h.2, ← h.1]

def RsaPrivateKey.json (k : RsaPrivateKey) : Json :=
  jobj [("publicKey", k.pub.json), ("privateExponent", jb64 k.privateExponent),
    ("primeP", jb64 k.primeP), ("primeQ", jb64 k.primeQ),
    ("primeExponentP", jb64 k.primeExponentP), ("primeExponentQ", jb64 k.primeExponentQ),
    ("crtCoefficient", jb64 k.crtCoefficient), ("size", .num k.size)]
theorem RsaPrivateKey.json_WF (k : RsaPrivateKey) : k.json.WF := by
  refine jobj_WF _ (by simp) ?_
  intro p hp
  simp only [List.mem_cons, List.not_mem_nil, or_false] at hp
  rcases hp with rfl | rfl | rfl | rfl | rfl | rfl | rfl | rfl
  · exact k.pub.json_WF
  all_goals trivial

theorem RsaPrivateKey.str_eq (k : RsaPrivateKey) : k.str = .ok (dumps k.json) := by
  unfold RsaPrivateKey.str
  rw [show k.pub.str = dumps k.pub.json from rfl, loads_dumps _ k.pub.json_WF]
  rfl

theorem RsaPrivateKey.Read_str (k : RsaPrivateKey) (h : k.Ok) : RsaPrivateKey.Read (dumps k.json) = .ok k := by
  unfold RsaPrivateKey.Read
  rw [loads_dumps _ k.json_WF]
  have e1 : k.json.get "publicKey" = .ok k.pub.json := by simp [RsaPrivateKey.json, jget_cons]
  have f1 : getB64 k.json "privateExponent" = .ok k.privateExponent := getB64_ok (by simp [RsaPrivateKey.json, jget_cons])
  have f2 : getB64 k.json "primeP" = .ok k.primeP := getB64_ok (by simp [RsaPrivateKey.json, jget_cons])
  have f3 : getB64 k.json "primeQ" = .ok k.primeQ := getB64_ok (by simp [RsaPrivateKey.json, jget_cons])
  have f4 : getB64 k.json "primeExponentP" = .ok k.primeExponentP := getB64_ok (by simp [RsaPrivateKey.json, jget_cons])
  have f5 : getB64 k.json "primeExponentQ" = .ok k.primeExponentQ := getB64_ok (by simp [RsaPrivateKey.json, jget_cons])
  have f6 : getB64 k.json "crtCoefficient" = .ok k.crtCoefficient := getB64_ok (by simp [RsaPrivateKey.json, jget_cons])
  have e5 : k.json.get "size" = .ok (.num k.size) := by simp [RsaPrivateKey.json, jget_cons]
  have e6 : RsaPublicKey.Read (dumps k.pub.json) = .ok k.pub := k.pub.Read_str h.1
  simp only [bind, Except.bind, pure, Except.pure, e1, f1, f2, f3, f4, f5, f6, e5, e6]
  rw [setSizeJson_valid _ _ h.2.2, ← h.2.1]

def Key.json : Key → Json
  | .aes k => k.json | .hmac k => k.json | .dsaPriv k => k.json | .dsaPub k => k.json
  | .rsaPriv k => k.json | .rsaPub k => k.json

theorem Key.str_eq (k : Key) : k.str = .ok (dumps k.json) := by
  cases k with
  | aes k => exact k.str_eq
  | hmac k => rfl
  | dsaPriv k => exact k.str_eq
  | dsaPub k => rfl
  | rsaPriv k => exact k.str_eq
  | rsaPub k => rfl

theorem ReadKey_str (k : Key) (h : k.Ok) : ReadKey k.type (dumps k.json) = .ok k := by
  cases k with
  | aes k => unfold ReadKey Key.type Key.json; rw [k.Read_str h]; rfl
  | hmac k => unfold ReadKey Key.type Key.json; rw [show dumps k.json = k.str from rfl]; simp only; rw [k.Read_str h]; rfl
  | dsaPriv k => unfold ReadKey Key.type Key.json; rw [k.Read_str h]; rfl
  | dsaPub k => unfold ReadKey Key.type Key.json; rw [show dumps k.json = k.str from rfl]; simp only; rw [k.Read_str h]; rfl
  | rsaPriv k => unfold ReadKey Key.type Key.json; rw [k.Read_str h]; rfl
  | rsaPub k => unfold ReadKey Key.type Key.json; rw [show dumps k.json = k.str from rfl]; simp only; rw [k.Read_str h]; rfl

/-! ### all key objects the API produces are consistent -/

theorem toBytes_plain {j : Json} {b : Bytes} (h : j.toBytes = .ok b) : Plain b := by
  unfold Json.toBytes at h
  split at h
  · next s =>
    split at h
    · next hs =>
      have := Except.ok.inj h
      subst this
      intro c hc
      simp only [List.mem_map] at hc
      obtain ⟨d, hd, rfl⟩ := hc
      have hp : plainChar d = true := by simpa using (List.all_eq_true.mp hs) d hd
      have hlt : d.toNat < 127 := by
        unfold plainChar at hp
        simp at hp
        omega
      have : (UInt8.ofNat d.toNat).toNat = d.toNat := by
        simp; omega
      rw [this, Char.ofNat_toNat]
      exact hp
    · cases h
  · cases h

theorem bind_ok {α β} {x : Py α} {f : α → Py β} {b : β} (h : x.bind f = .ok b) : ∃ a, x = .ok a ∧ f a = .ok b := by
  cases x with
  | error e => cases h
  | ok a => exact ⟨a, rfl, h⟩

theorem HmacKey.ofJson_Ok {j : Json} {k : HmacKey} (h : HmacKey.ofJson j = .ok k) : k.Ok := by
  unfold HmacKey.ofJson at h
  obtain ⟨a, _, h⟩ := bind_ok h
  obtain ⟨b, hb, h⟩ := bind_ok h
  obtain ⟨c, _, h⟩ := bind_ok h
  have := Except.ok.inj h
  subst this
  exact ⟨toBytes_plain hb, setSizeJson_mem _ _⟩

theorem HmacKey.Read_Ok {t : Bytes} {k : HmacKey} (h : HmacKey.Read t = .ok k) : k.Ok := by
  obtain ⟨a, _, h⟩ := bind_ok h
  exact HmacKey.ofJson_Ok h

theorem AesKey.Read_Ok {t : Bytes} {k : AesKey} (h : AesKey.Read t = .ok k) : k.Ok := by
  unfold AesKey.Read at h
  obtain ⟨_, _, h⟩ := bind_ok h
  obtain ⟨_, _, h⟩ := bind_ok h
  obtain ⟨_, _, h⟩ := bind_ok h
  obtain ⟨_, h1, h⟩ := bind_ok h
  obtain ⟨_, h2, h⟩ := bind_ok h
  obtain ⟨_, _, h⟩ := bind_ok h
  obtain ⟨_, _, h⟩ := bind_ok h
  obtain ⟨_, _, h⟩ := bind_ok h
  split at h
  · cases h
  · have := Except.ok.inj h
    subst this
    exact ⟨toBytes_plain h1, HmacKey.ofJson_Ok h2, setSizeJson_mem _ _⟩

theorem DsaPublicKey.Read_Ok {t : Bytes} {k : DsaPublicKey} (h : DsaPublicKey.Read t = .ok k) : k.Ok := by
  unfold DsaPublicKey.Read at h
  obtain ⟨_, _, h⟩ := bind_ok h
  obtain ⟨_, _, h⟩ := bind_ok h
  obtain ⟨_, _, h⟩ := bind_ok h
  obtain ⟨_, _, h⟩ := bind_ok h
  obtain ⟨_, _, h⟩ := bind_ok h
  obtain ⟨_, _, h⟩ := bind_ok h
  have := Except.ok.inj h
  subst this
  exact ⟨rfl, setSizeJson_mem _ _⟩

theorem DsaPrivateKey.Read_Ok {t : Bytes} {k : DsaPrivateKey} (h : DsaPrivateKey.Read t = .ok k) : k.Ok := by
  unfold DsaPrivateKey.Read at h
  obtain ⟨_, _, h⟩ := bind_ok h
  obtain ⟨_, _, h⟩ := bind_ok h
  obtain ⟨_, h1, h⟩ := bind_ok h
  obtain ⟨_, _, h⟩ := bind_ok h
  obtain ⟨_, _, h⟩ := bind_ok h
  have := Except.ok.inj h
  subst this
  exact ⟨DsaPublicKey.Read_Ok h1, rfl, setSizeJson_mem _ _⟩

theorem RsaPublicKey.Read_Ok {t : Bytes} {k : RsaPublicKey} (h : RsaPublicKey.Read t = .ok k) : k.Ok := by
  unfold RsaPublicKey.Read at h
  obtain ⟨_, _, h⟩ := bind_ok h
  obtain ⟨_, _, h⟩ := bind_ok h
  obtain ⟨_, _, h⟩ := bind_ok h
  obtain ⟨_, _, h⟩ := bind_ok h
  have := Except.ok.inj h
  subst this
  exact ⟨rfl, setSizeJson_mem _ _⟩

theorem RsaPrivateKey.Read_Ok {t : Bytes} {k : RsaPrivateKey} (h : RsaPrivateKey.Read t = .ok k) : k.Ok := by
  unfold RsaPrivateKey.Read at h
  obtain ⟨_, _, h⟩ := bind_ok h
  obtain ⟨_, _, h⟩ := bind_ok h
  obtain ⟨_, h1, h⟩ := bind_ok h
  obtain ⟨_, _, h⟩ := bind_ok h
  obtain ⟨_, _, h⟩ := bind_ok h
  obtain ⟨_, _, h⟩ := bind_ok h
  obtain ⟨_, _, h⟩ := bind_ok h
  obtain ⟨_, _, h⟩ := bind_ok h
  obtain ⟨_, _, h⟩ := bind_ok h
  obtain ⟨_, _, h⟩ := bind_ok h
  have := Except.ok.inj h
  subst this
  exact ⟨RsaPublicKey.Read_Ok h1, rfl, setSizeJson_mem _ _⟩

theorem mapErr_ok {α} {x : Py α} {f : PyErr → PyErr} {a : α} (h : x.mapErr f = .ok a) : x = .ok a := by
  cases x with
  | ok b => exact h
  | error e => cases h

theorem map_ok {α β} {x : Py α} {f : α → β} {b : β} (h : x.map f = .ok b) : ∃ a, x = .ok a ∧ f a = b := by
  cases x with
  | ok a => exact ⟨a, rfl, Except.ok.inj h⟩
  | error e => cases h

theorem ReadKey_Ok {t : KeyType} {text : Bytes} {k : Key} (h : ReadKey t text = .ok k) : k.Ok ∧ k.type = t := by
  unfold ReadKey at h
  have h := mapErr_ok h
  cases t <;> simp only at h <;> obtain ⟨a, h1, rfl⟩ := map_ok h
  · exact ⟨AesKey.Read_Ok h1, rfl⟩
  · exact ⟨HmacKey.Read_Ok h1, rfl⟩
  · exact ⟨DsaPrivateKey.Read_Ok h1, rfl⟩
  · exact ⟨DsaPublicKey.Read_Ok h1, rfl⟩
  · exact ⟨RsaPrivateKey.Read_Ok h1, rfl⟩
  · exact ⟨RsaPublicKey.Read_Ok h1, rfl⟩

theorem BytesToLong_padInt' (n : Nat) : BytesToLong (padInt n) = n := by
  unfold padInt PadBytes
  rw [BytesToLong_eq, beNat_replicate_zero, beNat_BigIntToBytes]

theorem GenKey_Ok {rnd : Rand} {t : KeyType} {size : Option Int} {k : Key} (h : GenKey rnd t size = .ok k) :
    k.Ok ∧ k.type = t := by
  unfold GenKey at h
  simp only at h
  split at h
  · cases h
  · cases t <;> simp only at h
    · have := Except.ok.inj h; subst this
      exact ⟨⟨WSE_plain _, ⟨WSE_plain _, setSize_mem .HMAC_SHA1 (KeyType.HMAC_SHA1.defaultSize : Nat)⟩, setSize_mem .AES _⟩, rfl⟩
    · have := Except.ok.inj h; subst this
      exact ⟨⟨WSE_plain _, setSize_mem _ _⟩, rfl⟩
    · have := Except.ok.inj h; subst this
      refine ⟨⟨⟨?_, setSize_mem _ _⟩, ?_, setSize_mem _ _⟩, rfl⟩ <;>
        simp only [DsaPrivateKey.ofObj, BytesToLong_padInt', DsaObj.pub]
    · cases h
    · have := Except.ok.inj h; subst this
      refine ⟨⟨⟨?_, setSize_mem _ _⟩, ?_, setSize_mem _ _⟩, rfl⟩ <;>
        simp only [RsaPrivateKey.ofObj, BytesToLong_padInt', RsaObj.pub]
    · cases h

/-- the public part of a private key (used by `pubkey`) -/
def Key.public? : Key → Option Key
  | .dsaPriv k => some (.dsaPub k.pub)
  | .rsaPriv k => some (.rsaPub k.pub)
  | _ => none

theorem public_Ok {k p : Key} (h : k.Ok) (hp : k.public? = some p) : p.Ok := by
  cases k <;> simp [Key.public?] at hp <;> subst hp <;> exact h.1

end Verif
