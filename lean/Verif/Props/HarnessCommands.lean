import Verif.Props.InteropCreate
import Verif.Props.Harness
/-
C97: the commands that interop.py passes on when it has key sets created are, for the shipped configuration, those of which
C77 says what they do.
-/
namespace Verif.Props
open Verif Spec Harness

/-- an ASCII text as bytes -/
def ascii (t : Text) : Bytes := t.map fun c => UInt8.ofNat c.toNat

/-- the purpose and type of the keys of a shipped algorithm -/
inductive Kind : Text → KeyPurpose → KeyType → Prop
  | rsaCrypt : Kind "rsa-crypt".toList .DECRYPT_AND_ENCRYPT .RSA_PRIV
  | rsaSign : Kind "rsa-sign".toList .SIGN_AND_VERIFY .RSA_PRIV
  | dsa : Kind "dsa".toList .SIGN_AND_VERIFY .DSA_PRIV
  | aes : Kind "aes".toList .DECRYPT_AND_ENCRYPT .AES
  | hmac : Kind "hmac".toList .SIGN_AND_VERIFY .HMAC_SHA1

/-- flags that choose the purpose and the type -/
def typeFlags (p : KeyPurpose) (t : KeyType) (purpose asymmetric : Option Bytes) : Bool :=
  match p, t with
  | .SIGN_AND_VERIFY, .HMAC_SHA1 => decide (purpose = some [115, 105, 103, 110] ∧ asymmetric = none)
  | .SIGN_AND_VERIFY, .RSA_PRIV => decide (purpose = some [115, 105, 103, 110] ∧ asymmetric = some (bstr "rsa"))
  | .SIGN_AND_VERIFY, .DSA_PRIV => decide (purpose = some [115, 105, 103, 110] ∧ asymmetric = some (bstr "dsa"))
  | .DECRYPT_AND_ENCRYPT, .AES => decide (purpose = some [99, 114, 121, 112, 116] ∧ asymmetric = none)
  | .DECRYPT_AND_ENCRYPT, .RSA_PRIV => decide (purpose = some [99, 114, 121, 112, 116] ∧ asymmetric = some (bstr "rsa"))
  | _, _ => false

theorem typeFlags_sound {p : KeyPurpose} {t : KeyType} {u a : Option Bytes} (h : typeFlags p t u a = true) :
    ∃ po, PurposeFlag u po ∧ NewType po a p t := by
  unfold typeFlags at h
  split at h
  · obtain ⟨rfl, rfl⟩ := of_decide_eq_true h; exact ⟨_, .sign, .hmac⟩
  · obtain ⟨rfl, rfl⟩ := of_decide_eq_true h
    exact ⟨_, .sign, .rsaSign ((isRsa_iff _).mp (by decide +kernel))⟩
  · obtain ⟨rfl, rfl⟩ := of_decide_eq_true h
    exact ⟨_, .sign, .dsa fun h => absurd ((isRsa_iff _).mpr h) (by decide +kernel)⟩
  · obtain ⟨rfl, rfl⟩ := of_decide_eq_true h; exact ⟨_, .crypt, .aes⟩
  · obtain ⟨rfl, rfl⟩ := of_decide_eq_true h; exact ⟨_, .crypt, .rsaCrypt⟩
  · cases h

def checkCreate (argv : List Bytes) (l : Loc) (name : Text) (p : KeyPurpose) (t : KeyType) : Bool :=
  decide (argv.head? = some (commandName .create)) &&
  match parseFlags argv [] with
  | .error _ => false
  | .ok fl => decide (assocGet fl .location = some l ∧ assocGet fl .version = none ∧ assocGet fl .size = none ∧
      assocGet fl .name = some (ascii name) ∧ (∀ c ∈ ascii name, c < 128) ∧
      ((ascii name).map fun c => Char.ofNat c.toNat) = name) &&
    typeFlags p t (assocGet fl .purpose) (assocGet fl .asymmetric)

theorem checkCreate_sound {argv : List Bytes} {l : Loc} {name : Text} {p : KeyPurpose} {t : KeyType}
    (h : checkCreate argv l name p t = true) : CreateArgs argv l name p t := by
  simp only [checkCreate, Bool.and_eq_true] at h
  obtain ⟨h1, h2⟩ := h
  cases hf : parseFlags argv [] with
  | error e => rw [hf] at h2; cases h2
  | ok fl =>
    rw [hf] at h2
    simp only [Bool.and_eq_true, decide_eq_true_eq] at h1 h2
    obtain ⟨⟨h3, h4, h5, h6, h7, h8⟩, h9⟩ := h2
    obtain ⟨po, h10, h11⟩ := typeFlags_sound h9
    refine ⟨_, po, parsed_of h1 hf, h3, fun _ h => absurd (h4.symm.trans h) (by simp),
      fun _ h => absurd (h5.symm.trans h) (by simp), h10, h11, ?_⟩
    rw [h6]
    have := NameFlag.ascii h7
    rwa [h8] at this

instance (b : Bytes) : Decidable (Digits b) := by unfold Digits; infer_instance

def checkAdd (argv : List Bytes) (l : Loc) (size : Nat) (crypter : Option Loc) : Bool :=
  decide (argv.head? = some (commandName .addkey)) &&
  match parseFlags argv [] with
  | .error _ => false
  | .ok fl => decide (assocGet fl .location = some l ∧ assocGet fl .version = none ∧ assocGet fl .crypter = crypter ∧
      assocGet fl .status = some (statusText .PRIMARY) ∧
      assocGet fl .size = some (ascii (Nat.toDigits 10 size)) ∧ Digits (ascii (Nat.toDigits 10 size)) ∧
      decimal (ascii (Nat.toDigits 10 size)) = size)

theorem checkAdd_sound {argv : List Bytes} {l : Loc} {size : Nat} {crypter : Option Loc}
    (h : checkAdd argv l size crypter = true) : AddArgs argv l size crypter := by
  simp only [checkAdd, Bool.and_eq_true] at h
  obtain ⟨h1, h2⟩ := h
  cases hf : parseFlags argv [] with
  | error e => rw [hf] at h2; cases h2
  | ok fl =>
    rw [hf] at h2
    simp only [decide_eq_true_eq] at h1 h2
    obtain ⟨h3, h4, h5, h6, h7, h8, h9⟩ := h2
    refine ⟨_, -1, parsed_of h1 hf, h3, by rw [h4]; exact .absent, ?_, by rw [h6]; exact .given (by decide), h5⟩
    rw [h7]
    have := IntText.plain [] _ [] (by intro c hc; cases hc) h8 (by intro c hc; cases hc)
    rw [List.append_nil, List.nil_append, h9] at this
    exact .given this

def checkPub (argv : List Bytes) (l dest : Loc) : Bool :=
  decide (argv.head? = some (commandName .pubkey)) &&
  match parseFlags argv [] with
  | .error _ => false
  | .ok fl => decide (assocGet fl .location = some l ∧ assocGet fl .version = none ∧ assocGet fl .size = none ∧
      assocGet fl .destination = some dest)

theorem checkPub_sound {argv : List Bytes} {l dest : Loc} (h : checkPub argv l dest = true) : PubArgs argv l dest := by
  simp only [checkPub, Bool.and_eq_true] at h
  obtain ⟨h1, h2⟩ := h
  cases hf : parseFlags argv [] with
  | error e => rw [hf] at h2; cases h2
  | ok fl =>
    rw [hf] at h2
    simp only [decide_eq_true_eq] at h1 h2
    obtain ⟨h3, h4, h5, h6⟩ := h2
    exact ⟨_, parsed_of h1 hf, h3, fun _ h => absurd (h4.symm.trans h) (by simp),
      fun _ h => absurd (h5.symm.trans h) (by simp), h6⟩

/-- purpose and type of a shipped algorithm, by its name -/
def kindOf (a : Text) : KeyPurpose × KeyType :=
  if a = "rsa-crypt".toList then (.DECRYPT_AND_ENCRYPT, .RSA_PRIV)
  else if a = "rsa-sign".toList then (.SIGN_AND_VERIFY, .RSA_PRIV)
  else if a = "dsa".toList then (.SIGN_AND_VERIFY, .DSA_PRIV)
  else if a = "aes".toList then (.DECRYPT_AND_ENCRYPT, .AES)
  else (.SIGN_AND_VERIFY, .HMAC_SHA1)

def checkAll (i a : Text) (alg : Algorithm) (s : Nat) : Bool :=
  let name := a ++ Nat.toDigits 10 s
  let loc := ascii (GetKeyDir i name)
  let loc' := ascii (GetKeyDir i (name ++ "aes128".toList))
  let k := kindOf a
  (match (Harness.Create i a alg s).commands.map (·.map ascii), alg.asymmetric with
    | [cr, ad, ad'], false => decide (ad = ad') && checkCreate cr loc name k.1 k.2 && checkAdd ad loc s none
    | [cr, ad, ad', pb], true => decide (ad = ad') && checkCreate cr loc name k.1 k.2 && checkAdd ad loc s none &&
        checkPub pb loc (loc ++ bstr "public")
    | _, _ => false) &&
  match (CreateEncrypted i a alg s "aes128".toList).commands.map (·.map ascii) with
    | [cr, ad] => checkCreate cr loc' name k.1 k.2 && checkAdd ad loc' s (some (ascii (GetKeyDir i "aes128".toList)))
    | _ => false

/-- C97: with the shipped configuration, `_Create` passes on the commands of C77_create (for symmetric algorithms) and
C77_create_public (for asymmetric ones), and `_CreateEncrypted` those of C77_create_encrypted: the key set is created under
its own name, with the purpose and type of the algorithm, keys of the given size are added as primary ones, the public part
is exported, and keys are encrypted with the key set `aes128`, each in the directory in which it is looked for. -/
theorem C97_commands (b : Bool) {i a : Text} {alg : Algorithm} {s : Nat} (hi : i ∈ (shipped b).implementations)
    (ha : (a, alg) ∈ (shipped b).algorithms) (hs : s ∈ alg.keySizes) : ∃ p t, Kind a p t ∧
      (∃ cr ad pb, (Harness.Create i a alg s).commands.map (·.map ascii) =
          [cr, ad, ad] ++ (if alg.asymmetric = true then [pb] else []) ∧
        CreateArgs cr (ascii (GetKeyDir i (a ++ Nat.toDigits 10 s))) (a ++ Nat.toDigits 10 s) p t ∧
        AddArgs ad (ascii (GetKeyDir i (a ++ Nat.toDigits 10 s))) s none ∧
        (alg.asymmetric = true → PubArgs pb (ascii (GetKeyDir i (a ++ Nat.toDigits 10 s)))
          (ascii (GetKeyDir i (a ++ Nat.toDigits 10 s)) ++ bstr "public"))) ∧
      ∃ cr ad, (CreateEncrypted i a alg s "aes128".toList).commands.map (·.map ascii) = [cr, ad] ∧
        CreateArgs cr (ascii (GetKeyDir i (a ++ Nat.toDigits 10 s ++ "aes128".toList))) (a ++ Nat.toDigits 10 s) p t ∧
        AddArgs ad (ascii (GetKeyDir i (a ++ Nat.toDigits 10 s ++ "aes128".toList))) s
          (some (ascii (GetKeyDir i "aes128".toList))) := by
  have hk : Kind a (kindOf a).1 (kindOf a).2 := by
    have : a ∈ (shipped b).algorithms.map Prod.fst := List.mem_map_of_mem (f := Prod.fst) ha
    have e : (shipped b).algorithms.map Prod.fst = ["rsa-crypt".toList, "rsa-sign".toList, "dsa".toList, "aes".toList,
        "hmac".toList] := rfl
    rw [e] at this
    simp only [List.mem_cons, List.not_mem_nil, or_false] at this
    rcases this with rfl | rfl | rfl | rfl | rfl
    · exact Kind.rsaCrypt
    · exact Kind.rsaSign
    · exact Kind.dsa
    · exact Kind.aes
    · exact Kind.hmac
  have hall : ∀ b, ∀ i ∈ (shipped b).implementations, ∀ a ∈ (shipped b).algorithms, ∀ s ∈ a.2.keySizes,
      checkAll i a.1 a.2 s = true := by decide +kernel
  have h := hall b i hi (a, alg) ha s hs
  simp only [checkAll, Bool.and_eq_true] at h
  obtain ⟨h1, h2⟩ := h
  refine ⟨_, _, hk, ?_, ?_⟩
  · split at h1
    · rename_i cr ad ad' hc hb
      simp only [Bool.and_eq_true, decide_eq_true_eq] at h1
      obtain ⟨⟨rfl, h3⟩, h4⟩ := h1
      exact ⟨cr, ad, [], by rw [hc, hb]; rfl, checkCreate_sound h3, checkAdd_sound h4, fun h => by rw [hb] at h; cases h⟩
    · rename_i cr ad ad' pb hc hb
      simp only [Bool.and_eq_true, decide_eq_true_eq] at h1
      obtain ⟨⟨⟨rfl, h3⟩, h4⟩, h5⟩ := h1
      exact ⟨cr, ad, pb, by rw [hc, hb]; rfl, checkCreate_sound h3, checkAdd_sound h4, fun _ => checkPub_sound h5⟩
    · cases h1
  · split at h2
    · rename_i cr ad hc
      simp only [Bool.and_eq_true] at h2
      exact ⟨cr, ad, hc, checkCreate_sound h2.1, checkAdd_sound h2.2⟩
    · cases h2

/-- C97_commands: the commands for the key set dsa1024 of the implementation in Python -/
example : ((Harness.Create "python".toList "dsa".toList ⟨sign, true, [1024], ["--purpose=sign".toList,
    "--asymmetric=dsa".toList], []⟩ 1024).commands.map (·.map ascii)) =
    [[bstr "create", bstr "--name=dsa1024", bstr "--location=keys/python/dsa1024", bstr "--purpose=sign",
        bstr "--asymmetric=dsa"],
      [bstr "addkey", bstr "--status=primary", bstr "--size=1024", bstr "--location=keys/python/dsa1024"],
      [bstr "addkey", bstr "--status=primary", bstr "--size=1024", bstr "--location=keys/python/dsa1024"],
      [bstr "pubkey", bstr "--destination=keys/python/dsa1024public", bstr "--location=keys/python/dsa1024"]] := by
  decide +kernel

end Verif.Props
