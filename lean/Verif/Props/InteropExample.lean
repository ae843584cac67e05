import Verif.Props.InteropCreate
import Verif.Props.Accepts
import Verif.Props.Formats
/-
C77: a case of the theorems about the interoperability tests, from the creation of the key sets to the tests.
-/
namespace Verif.Props
open Verif Spec

namespace ExInterop
/-- every directory exists and is empty -/
def fs : FS := fun _ => some fun _ => none
noncomputable def env : InteropEnv where
  gen := genExEnv
  cmd i := { Ex.env with gen := fun _ => genRnd (i - 1) }
  rnd := genRnd

/-- the argument that interop.py passes for commands of ASCII texts -/
def argOf (cmds : List (List Bytes)) : Bytes :=
  dumps (.obj [("command".toList, .str "create".toList),
    ("keyczartCommands".toList, .arr (cmds.map fun a => .arr (a.map Json.ofBytes)))])

def okEmpty (r : Py Bytes) : Bool := match r with | .ok [] => true | _ => false
theorem okEmpty_iff {r : Py Bytes} (h : okEmpty r = true) : r = .ok [] := by
  unfold okEmpty at h
  split at h
  · rfl
  · cases h

def plainAll (cmds : List (List Bytes)) : Bool :=
  cmds.all fun a => a.all fun b => b.all fun c => plainChar (Char.ofNat c.toNat)

theorem wfElems {l : List Json} (h : ∀ j ∈ l, j.WF) : WFElems l := by
  induction l with
  | nil => trivial
  | cons a t ih => exact ⟨h a (by simp), ih fun j hj => h j (by simp [hj])⟩

theorem argOf_ok {cmds : List (List Bytes)} (h : plainAll cmds = true) : CreateText (argOf cmds) cmds := by
  refine ⟨_, _, loads_dumps _ ⟨by simp only [List.map_cons, List.map_nil]; decide, trivial, ?_, trivial⟩, rfl, rfl, ?_⟩
  · exact wfElems fun j hj => by
      obtain ⟨a, -, rfl⟩ := List.mem_map.mp hj
      exact wfElems fun j hj => by
        obtain ⟨b, -, rfl⟩ := List.mem_map.mp hj
        trivial
  · unfold plainAll at h
    induction cmds with
    | nil => exact .nil
    | cons a t ih =>
      simp only [List.all_cons, Bool.and_eq_true] at h
      refine .cons ⟨_, rfl, ?_⟩ (ih h.2)
      have h1 := h.1
      induction a with
      | nil => exact .nil
      | cons b u ihu =>
        simp only [List.all_cons, Bool.and_eq_true] at h1
        refine .cons (toBytes_ofBytes b fun c hc => List.all_eq_true.mp h1.1 c hc) (ihu ⟨h1.2, h.2⟩ h1.2)

def create : List Bytes := [bstr "create", bstr "--name=hmac256", bstr "--location=k/hmac256", bstr "--purpose=sign"]
def add : List Bytes := [bstr "addkey", bstr "--status=primary", bstr "--size=256", bstr "--location=k/hmac256"]
def createA : List Bytes := [bstr "create", bstr "--name=aes128", bstr "--location=k/aes128", bstr "--purpose=crypt"]
def addA : List Bytes := [bstr "addkey", bstr "--status=primary", bstr "--size=128", bstr "--location=k/aes128"]
def createE : List Bytes :=
  [bstr "create", bstr "--name=hmac256", bstr "--location=k/hmac256aes128", bstr "--purpose=sign"]
def addE : List Bytes :=
  [bstr "addkey", bstr "--status=primary", bstr "--size=256", bstr "--location=k/hmac256aes128", bstr "--crypter=k/aes128"]

theorem runs : okEmpty (interopMain realPrims env [argOf [create, add, add]] fs).1 = true := by decide +kernel
theorem runs2 : okEmpty (interopMain realPrims env [argOf [create, add, add]]
    ((interopMain realPrims env [argOf [createA, addA, addA]]).after fs)).1 = true := by decide +kernel
theorem runsA : okEmpty (interopMain realPrims env [argOf [createA, addA, addA]] fs).1 = true := by decide +kernel
theorem runsE : okEmpty (interopMain realPrims env [argOf [createE, addE]]
    ((interopMain realPrims env [argOf [createA, addA, addA]]).after fs)).1 = true := by decide +kernel

theorem digits (d : Bytes) (h : Digits d) : NumFlag (some d) (decimal d) := by
  have := IntText.plain [] d [] (by intro c hc; cases hc) h (by intro c hc; cases hc)
  rw [List.append_nil, List.nil_append] at this
  exact .given this

theorem createArgs_of {argv : List Bytes} {fl : List (Flag × Bytes)} {l : Loc} {b : Bytes} {po : Option KeyPurpose}
    {p : KeyPurpose} {t : KeyType} (h1 : argv.head? = some (commandName .create)) (h2 : parseFlags argv [] = .ok fl)
    (h3 : assocGet fl .location = some l) (h4 : assocGet fl .version = none) (h5 : assocGet fl .size = none)
    (h6 : PurposeFlag (assocGet fl .purpose) po) (h7 : NewType po (assocGet fl .asymmetric) p t)
    (h8 : assocGet fl .name = some b) (h9 : ∀ c ∈ b, c < 128) :
    CreateArgs argv l (b.map fun c => Char.ofNat c.toNat) p t :=
  ⟨_, po, parsed_of h1 h2, h3, fun _ h => absurd (h4.symm.trans h) (by simp),
    fun _ h => absurd (h5.symm.trans h) (by simp), h6, h7,
    by rw [h8]; exact NameFlag.ascii h9⟩

theorem createArgs : CreateArgs create (pathJoin (bstr "k") (bstr "hmac256")) ((bstr "hmac256").map fun c => Char.ofNat c.toNat) .SIGN_AND_VERIFY .HMAC_SHA1 :=
  createArgs_of
    (fl := [(.name, bstr "hmac256"), (.location, bstr "k/hmac256"), (.purpose, [115, 105, 103, 110])])
    (b := bstr "hmac256") (by decide +kernel) (by decide +kernel) (by decide +kernel) rfl rfl .sign .hmac rfl
    (by decide +kernel)
theorem addArgs : AddArgs add (pathJoin (bstr "k") (bstr "hmac256")) 256 none :=
  ⟨_, -1, parsed_of (cmd := .addkey)
    (fl := [(.status, bstr "primary"), (.size, [50, 53, 54]), (.location, bstr "k/hmac256")])
    (by decide +kernel) (by decide +kernel), by decide +kernel, .absent, digits [50, 53, 54] (by unfold Digits; decide),
    .given (by decide +kernel), rfl⟩
theorem createArgsA :
    CreateArgs createA (pathJoin (bstr "k") (bstr "aes128")) ((bstr "aes128").map fun c => Char.ofNat c.toNat) .DECRYPT_AND_ENCRYPT .AES :=
  createArgs_of
    (fl := [(.name, bstr "aes128"), (.location, bstr "k/aes128"), (.purpose, [99, 114, 121, 112, 116])])
    (b := bstr "aes128") (by decide +kernel) (by decide +kernel) (by decide +kernel) rfl rfl .crypt .aes rfl
    (by decide +kernel)
theorem addArgsA : AddArgs addA (pathJoin (bstr "k") (bstr "aes128")) 128 none :=
  ⟨_, -1, parsed_of (cmd := .addkey)
    (fl := [(.status, bstr "primary"), (.size, [49, 50, 56]), (.location, bstr "k/aes128")])
    (by decide +kernel) (by decide +kernel), by decide +kernel, .absent, digits [49, 50, 56] (by unfold Digits; decide),
    .given (by decide +kernel), rfl⟩
theorem createArgsE : CreateArgs createE (pathJoin (bstr "k") (bstr "hmac256" ++ bstr "aes128")) ((bstr "hmac256").map fun c => Char.ofNat c.toNat)
    .SIGN_AND_VERIFY .HMAC_SHA1 :=
  createArgs_of
    (fl := [(.name, bstr "hmac256"), (.location, bstr "k/hmac256aes128"), (.purpose, [115, 105, 103, 110])])
    (b := bstr "hmac256") (by decide +kernel) (by decide +kernel) (by decide +kernel) rfl rfl .sign .hmac rfl
    (by decide +kernel)
theorem addArgsE : AddArgs addE (pathJoin (bstr "k") (bstr "hmac256" ++ bstr "aes128")) 256
    (some (pathJoin (bstr "k") (bstr "aes128"))) :=
  ⟨_, -1, parsed_of (cmd := .addkey)
    (fl := [(.status, bstr "primary"), (.size, [50, 53, 54]), (.location, bstr "k/hmac256aes128"),
      (.crypter, bstr "k/aes128")])
    (by decide +kernel) (by decide +kernel), by decide +kernel, .absent, digits [50, 53, 54] (by unfold Digits; decide),
    .given (by decide +kernel), by decide +kernel⟩

def createD : List Bytes := [bstr "create", bstr "--name=dsa1024", bstr "--location=k/dsa1024", bstr "--purpose=sign",
  bstr "--asymmetric=dsa"]
def addD : List Bytes := [bstr "addkey", bstr "--status=primary", bstr "--size=1024", bstr "--location=k/dsa1024"]
def pubD : List Bytes := [bstr "pubkey", bstr "--destination=k/dsa1024public", bstr "--location=k/dsa1024"]

theorem createArgsD : CreateArgs createD (pathJoin (bstr "k") (bstr "dsa1024"))
    ((bstr "dsa1024").map fun c => Char.ofNat c.toNat) .SIGN_AND_VERIFY .DSA_PRIV :=
  createArgs_of
    (fl := [(.name, bstr "dsa1024"), (.location, bstr "k/dsa1024"), (.purpose, [115, 105, 103, 110]),
      (.asymmetric, bstr "dsa")])
    (b := bstr "dsa1024") (by decide +kernel) (by decide +kernel) (by decide +kernel) rfl rfl .sign
    (.dsa (a := bstr "dsa") (fun h => absurd ((isRsa_iff _).mpr h) (by decide +kernel))) rfl (by decide +kernel)
theorem addArgsD : AddArgs addD (pathJoin (bstr "k") (bstr "dsa1024")) 1024 none :=
  ⟨_, -1, parsed_of (cmd := .addkey)
    (fl := [(.status, bstr "primary"), (.size, [49, 48, 50, 52]), (.location, bstr "k/dsa1024")])
    (by decide +kernel) (by decide +kernel), by decide +kernel, .absent, digits [49, 48, 50, 52] (by unfold Digits; decide),
    .given (by decide +kernel), rfl⟩
theorem pubArgsD : PubArgs pubD (pathJoin (bstr "k") (bstr "dsa1024")) (pathJoin (bstr "k") (bstr "dsa1024") ++ bstr "public") :=
  ⟨_, parsed_of (cmd := .pubkey)
    (fl := [(.destination, bstr "k/dsa1024public"), (.location, bstr "k/dsa1024")])
    (by decide +kernel) (by decide +kernel), by decide +kernel,
    fun _ h => absurd ((show assocGet _ Flag.version = none from rfl).symm.trans h) (by simp),
    fun _ h => absurd ((show assocGet _ Flag.size = none from rfl).symm.trans h) (by simp), by decide +kernel⟩
theorem runsD : okEmpty (interopMain realPrims env [argOf [createD, addD, addD, pubD]] fs).1 = true := by decide +kernel

/-- options of one choice -/
def options (crypted : String) : Json := .obj [("encoding".toList, .str "encoded".toList),
  ("class".toList, .str "crypter".toList), ("cryptedKeySet".toList, .str crypted.toList)]
def publicOptions : Json :=
  .obj [("class".toList, .str "verifier".toList), ("pubKey".toList, .str "public".toList)]
def sessionOptions : Json := .obj [("cryptedKeySet".toList, .str []), ("signer".toList, .str "hmac256".toList)]
def testOptions : Json := .obj [("class".toList, .str "verifier".toList)]

/-- the HMAC key set is created, and what is signed with it is accepted -/
example : ∃ out j, let fs' := (interopMain realPrims env [argOf [create, add, add]]).after fs
    interopGenerate realPrims fs' genRnd (Json.ofString "sign") (.str ['k']) (.str "hmac256".toList) (options "")
      (.str "some data".toList) = .ok out ∧ loads out = .ok j ∧
    interopTest realPrims fs' (Json.ofString "sign") j (.str ['k']) (.str "hmac256".toList) (options "") testOptions
      (.str "some data".toList) = .ok (bstr "Test passes\n") := by
  obtain ⟨k1, k2, g1, g2, h1, h2, h3, h4, -⟩ := C77_create (P := realPrims) env fs (bstr "k") (bstr "hmac256") _ rfl rfl
    _ _ _ _ _ _ createArgs addArgs _ _ (argOf_ok (cmds := [create, add, add]) (by decide +kernel)) (okEmpty_iff runs)
  have hv : ∀ i g k, GenKey ((env.cmd i).gen g) .HMAC_SHA1 (sizeArg 256) = .ok k → ∃ x, k = .hmac x := by
    intro i g k h
    cases h
    exact ⟨_, rfl⟩
  obtain ⟨x1, rfl⟩ := hv _ _ _ h1
  obtain ⟨x2, rfl⟩ := hv _ _ _ h2
  obtain ⟨out, j, o1, o2, o3⟩ := C77_sign (P := realPrims) _ _ genRnd (.str ['k']) (.str "hmac256".toList) (options "")
    testOptions (.str "some data".toList) (bstr "k") (bstr "hmac256") [] [] (bstr "some data") _ _
    { pathText := rfl, nameText := rfl, dataText := rfl, encoding := ⟨_, rfl⟩, cryptedText := ⟨_, rfl, rfl⟩
      gPub := ⟨_, rfl, rfl⟩, tPub := ⟨_, rfl, rfl⟩, cls := ⟨_, rfl, .inl rfl⟩, gSet := h3, tSet := h3, same := .inl rfl
      good := h4 trivial trivial _ (by decide) } _ rfl
  exact ⟨out, j, o1, o2, o3 trivial⟩

/-- the AES key set is created, what is encrypted with it is decrypted, and an HMAC key set encrypted with it is created
and works -/
example : ∃ out j out' j', let fs1 := (interopMain realPrims env [argOf [createA, addA, addA]]).after fs
    let fs2 := (interopMain realPrims env [argOf [createE, addE]]).after fs1
    interopGenerate realPrims fs1 genRnd (Json.ofString "encrypt") (.str ['k']) (.str "aes128".toList) (options "")
      (.str "some data".toList) = .ok out ∧ loads out = .ok j ∧
    interopTest realPrims fs2 (Json.ofString "encrypt") j (.str ['k']) (.str "aes128".toList) (options "") testOptions
      (.str "some data".toList) = .ok (bstr "Test passes\n") ∧
    interopGenerate realPrims fs2 genRnd (Json.ofString "attached") (.str ['k']) (.str "hmac256".toList) (options "aes128")
      (.str "some data".toList) = .ok out' ∧ loads out' = .ok j' ∧
    interopTest realPrims fs2 (Json.ofString "attached") j' (.str ['k']) (.str "hmac256".toList) (options "aes128")
      testOptions (.str "some data".toList) = .ok (bstr "Test passes\n") := by
  obtain ⟨k1, k2, g1, g2, h1, h2, h3, h4, h5⟩ := C77_create (P := realPrims) env fs (bstr "k") (bstr "aes128") _ rfl rfl
    _ _ _ _ _ _ createArgsA addArgsA _ _ (argOf_ok (cmds := [createA, addA, addA]) (by decide +kernel)) (okEmpty_iff runsA)
  have hv : ∀ i g k, GenKey ((env.cmd i).gen g) .AES (sizeArg 128) = .ok k → ∃ x, k = .aes x := by
    intro i g k h
    cases h
    exact ⟨_, rfl⟩
  obtain ⟨x1, rfl⟩ := hv _ _ _ h1
  obtain ⟨x2, rfl⟩ := hv _ _ _ h2
  have hg := h4 trivial trivial
  obtain ⟨kx, gx, e1, e2, e3, e4⟩ := C77_create_encrypted (P := realPrims) env _ (bstr "k") (bstr "hmac256") (bstr "aes128")
    (by decide +kernel) (by decide +kernel) _ (h5 _ (by decide +kernel)) rfl _ h3 (hg _ (by decide)) _ _ _ _ _ _
    createArgsE addArgsE _ _ (argOf_ok (cmds := [createE, addE]) (by decide +kernel)) (okEmpty_iff runsE)
  obtain ⟨x, rfl⟩ : ∃ x, kx = .hmac x := by
    cases e1
    exact ⟨_, rfl⟩
  obtain ⟨out, j, o1, o2, o3⟩ := C77_encrypt (P := realPrims) _ ((interopMain realPrims env [argOf [createE, addE]]).after
      ((interopMain realPrims env [argOf [createA, addA, addA]]).after fs))
    genRnd (.str ['k']) (.str "aes128".toList) (options "")
    testOptions (.str "some data".toList) (bstr "k") (bstr "aes128") [] [] (bstr "some data") _ _
    { pathText := rfl, nameText := rfl, dataText := rfl, encoding := ⟨_, rfl⟩, cryptedText := ⟨_, rfl, rfl⟩
      gPub := ⟨_, rfl, rfl⟩, tPub := ⟨_, rfl, rfl⟩, cls := ⟨_, rfl, .inl rfl⟩, gSet := h3
      tSet := by
        obtain ⟨d, q1, q2⟩ := h3
        exact ⟨d, by rw [e4 _ (by decide +kernel)]; exact q1, .inl (q2.resolve_right fun q => q.1 rfl)⟩
      same := .inl rfl, good := hg _ (by decide) } _ rfl trivial
  obtain ⟨out', j', o1', o2', o3'⟩ := C77_attached (P := realPrims) _ _ genRnd (.str ['k']) (.str "hmac256".toList)
    (options "aes128") testOptions (.str "some data".toList) (bstr "k") (bstr "hmac256") (bstr "aes128") []
    (bstr "some data") _ _
    { pathText := rfl, nameText := rfl, dataText := rfl, encoding := ⟨_, rfl⟩, cryptedText := ⟨_, rfl, rfl⟩
      gPub := ⟨_, rfl, rfl⟩, tPub := ⟨_, rfl, rfl⟩, cls := ⟨_, rfl, .inl rfl⟩, gSet := e2, tSet := e2, same := .inl rfl
      good := e3 trivial _ (by decide) } _ rfl (by decide +kernel)
  exact ⟨out, j, out', j', o1, o2, o3 trivial, o1', o2',
    (o3' trivial).trans (if_neg (by decide +kernel))⟩

def nonzero (x : Py (Nat × Nat)) : Bool := match x with | .ok (r, s) => r != 0 && s != 0 | _ => false

/-- a DSA key set and its public key set are created; a signature without version made with the former is accepted by
the latter -/
example : ∃ out j, let fs' := (interopMain realPrims env [argOf [createD, addD, addD, pubD]]).after fs
    interopGenerate realPrims fs' genRnd (Json.ofString "unversioned") (.str ['k']) (.str "dsa1024".toList) (options "")
      (.str "data".toList) = .ok out ∧ loads out = .ok j ∧
    interopTest realPrims fs' (Json.ofString "unversioned") j (.str ['k']) (.str "dsa1024".toList) (options "")
      publicOptions (.str "data".toList) = .ok (bstr "Test passes\n") := by
  obtain ⟨k1, k2, g1, g2, ks', h1, h2, h3, h4, h5, h6, -⟩ := C77_create_public (P := realPrims) env fs (bstr "k")
    (bstr "dsa1024") _ rfl rfl _ _ _ _ _ .dsa _ _ _ _ createArgsD addArgsD pubArgsD _ _
    (argOf_ok (cmds := [createD, addD, addD, pubD]) (by decide +kernel)) (okEmpty_iff runsD)
  have e1 : k1 = .dsaPriv (DsaPrivateKey.ofObj exDsa 1024) := by cases h1; rfl
  have e2 : k2 = .dsaPriv (DsaPrivateKey.ofObj genDsa 1024) := by cases h2; rfl
  subst e1 e2
  obtain ⟨out, j, o1, o2, o3⟩ := C77_unversioned (P := realPrims) _ _ genRnd (.str ['k']) (.str "dsa1024".toList) (options "")
    publicOptions (.str "data".toList) (bstr "k") (bstr "dsa1024") [] (bstr "public") (bstr "data") _ _
    { pathText := rfl, nameText := rfl, dataText := rfl, encoding := ⟨_, rfl⟩, cryptedText := ⟨_, rfl, rfl⟩
      gPub := ⟨_, rfl, rfl⟩, tPub := ⟨_, rfl, rfl⟩, cls := ⟨_, rfl, .inr rfl⟩, gSet := h3, tSet := h4, same := .inr h5
      good := h6 ⟨exDsa_valid, rfl, by decide +kernel, by decide +kernel⟩
        ⟨genDsa_valid, rfl, by decide +kernel, by decide +kernel⟩ _ (by decide) } _ rfl
  refine ⟨out, j, o1, o2, o3 fun r s h => ?_⟩
  have hk : genDsa.sign (realPrims.sha1 (bstr "data")) ((genRnd 0).dsaK genDsa.q) = .ok (r, s) := h
  have : ∀ x : Py (Nat × Nat), x = .ok (r, s) → nonzero x = true → r ≠ 0 ∧ s ≠ 0 := by
    rintro x rfl h
    simpa [nonzero] using h
  exact this _ hk (by decide +kernel)

/-- the DSA key set of the last example meets the conditions of the theorems of C80-C82, and accepts what it signs -/
theorem dsaSet : ∃ c, Loaded realPrims c ∧ c.keySet.Distinct realPrims ∧
    (∀ e ∈ c.keySet.entries, ∃ k, DsaHalf e k ∧ k.key.q.Prime ∧ k.key.p ≠ 0) ∧
    (∀ e ∈ c.keySet.entries, SoundKey e.key) ∧ (∃ e, c.keySet.primaries = [e] ∧ CanSign e.key) ∧
    ∃ sig, c.Sign realPrims (genRnd 0) (bstr "data") none = .ok sig ∧ c.Verify realPrims (bstr "data") sig none = .ok true := by
  obtain ⟨k1, k2, g1, g2, ks', h1, h2, h3, h4, h5, h6, -⟩ := C77_create_public (P := realPrims) env fs (bstr "k")
    (bstr "dsa1024") _ rfl rfl _ _ _ _ _ .dsa _ _ _ _ createArgsD addArgsD pubArgsD _ _
    (argOf_ok (cmds := [createD, addD, addD, pubD]) (by decide +kernel)) (okEmpty_iff runsD)
  have e1 : k1 = .dsaPriv (DsaPrivateKey.ofObj exDsa 1024) := by cases h1; rfl
  have e2 : k2 = .dsaPriv (DsaPrivateKey.ofObj genDsa 1024) := by cases h2; rfl
  subst e1 e2
  have hg := h6 ⟨exDsa_valid, rfl, by decide +kernel, by decide +kernel⟩
    ⟨genDsa_valid, rfl, by decide +kernel, by decide +kernel⟩ [.DSA_PRIV] (by decide)
  obtain ⟨d, -, ⟨-, c, hc, hks⟩ | ⟨h, -⟩⟩ := h3
  swap
  · exact absurd rfl h
  have hl : Loaded realPrims c := ⟨_, _, hc⟩
  have hd : c.keySet.Distinct realPrims := by rw [hks]; exact hg.distinct
  refine ⟨c, hl, hd, ?_, ?_, ?_, ?_⟩
  · rw [hks]
    intro e he
    simp only [pairKeys, List.mem_cons, List.not_mem_nil, or_false] at he
    rcases he with rfl | rfl
    · exact ⟨_, .inr ⟨_, rfl, rfl⟩, exDsa_valid.q_prime, by decide +kernel⟩
    · exact ⟨_, .inr ⟨_, rfl, rfl⟩, genDsa_valid.q_prime, by decide +kernel⟩
  · rw [hks]
    intro e he
    simp only [pairKeys, List.mem_cons, List.not_mem_nil, or_false] at he
    rcases he with rfl | rfl
    · exact ⟨exDsa_valid.q_prime, by decide +kernel⟩
    · exact ⟨genDsa_valid.q_prime, by decide +kernel⟩
  · refine ⟨_, by rw [hks]; rfl, ?_⟩
    exact ⟨genDsa_valid.q_prime, by decide +kernel, by decide +kernel⟩
  obtain ⟨sig, r, s, s1, s2, s3⟩ := C42_dsa realPrims c c hl hl hd _ _ (DsaPrivateKey.ofObj genDsa 1024) genDsa_valid rfl
    (by decide +kernel) (by decide +kernel) (by rw [hks]; rfl) rfl (by rw [hks]; exact List.mem_cons_of_mem _ (List.mem_cons_self ..))
    (.inl rfl) none none trivial (genRnd 0) (bstr "data")
  refine ⟨sig, s1, ?_⟩
  have : ∀ x : Py (Nat × Nat), x = .ok (r, s) → nonzero x = true → r ≠ 0 ∧ s ≠ 0 := by
    rintro x rfl h
    simpa [nonzero] using h
  rw [s3, decide_eq_true (this _ s2 (by decide +kernel))]

/-- C80, C82: a signature that the DSA key set makes is accepted with anything appended, and, without its header, as an
unversioned signature of the message and a zero byte -/
example : ∃ c sig, Loaded realPrims c ∧ c.Sign realPrims (genRnd 0) (bstr "data") none = .ok sig ∧
    c.Verify realPrims (bstr "data") (sig ++ bstr "more") none = .ok true ∧
    c.UnversionedVerify realPrims (bstr "data" ++ [0]) (sig.drop 5) none = .ok true := by
  obtain ⟨c, hl, hd, hall, hs, -, sig, h1, h2⟩ := dsaSet
  exact ⟨c, sig, hl, h1, C80_append realPrims c hl hd hall _ _ _ h2, C82_plain_is_unversioned realPrims c hl hd hs _ _ h2⟩

/-- C84: what it makes is the header, followed by the DER encoding of two numbers, of which the first is the one prescribed -/
example : ∃ c e sig, Loaded realPrims c ∧ c.keySet.primaries = [e] ∧ c.Sign realPrims (genRnd 0) (bstr "data") none = .ok sig ∧
    ∃ id s, KeyId realPrims.sha1 e.key id ∧ TheSignature realPrims.sha1 (genRnd 0).dsaK e.key (bstr "data" ++ [0]) s ∧
      sig = header id ++ s := by
  obtain ⟨c, hl, -, -, -, ⟨e, hp, hs⟩, sig, h1, -⟩ := dsaSet
  exact ⟨c, e, sig, hl, hp, h1, (C84_sign realPrims c hl e hp hs _ _ _).mp h1⟩

/-- a signed session between the AES and the HMAC key sets -/
example : ∃ out j, let fs1 := (interopMain realPrims env [argOf [createA, addA, addA]]).after fs
    let fs2 := (interopMain realPrims env [argOf [create, add, add]]).after fs1
    interopGenerate realPrims fs2 genRnd (Json.ofString "signedSession") (.str ['k']) (.str "aes128".toList) sessionOptions
      (.str "data".toList) = .ok out ∧ loads out = .ok j ∧
    interopTest realPrims fs2 (Json.ofString "signedSession") j (.str ['k']) (.str "aes128".toList) sessionOptions
      testOptions (.str "data".toList) = .ok (bstr "Test passes\n") := by
  obtain ⟨k1, k2, g1, g2, h1, h2, h3, h4, h5⟩ := C77_create (P := realPrims) env fs (bstr "k") (bstr "aes128") _ rfl rfl
    _ _ _ _ _ _ createArgsA addArgsA _ _ (argOf_ok (cmds := [createA, addA, addA]) (by decide +kernel)) (okEmpty_iff runsA)
  obtain ⟨x1, rfl⟩ : ∃ x, k1 = .aes x := by cases h1; exact ⟨_, rfl⟩
  obtain ⟨x2, rfl⟩ : ∃ x, k2 = .aes x := by cases h2; exact ⟨_, rfl⟩
  obtain ⟨l1, l2, m1, m2, s1, s2, s3, s4, s5⟩ := C77_create (P := realPrims) env _ (bstr "k") (bstr "hmac256") _
    (h5 _ (by decide +kernel)) rfl _ _ _ _ _ _ createArgs addArgs _ _
    (argOf_ok (cmds := [create, add, add]) (by decide +kernel)) (okEmpty_iff runs2)
  obtain ⟨y1, rfl⟩ : ∃ x, l1 = .hmac x := by cases s1; exact ⟨_, rfl⟩
  obtain ⟨y2, rfl⟩ : ∃ x, l2 = .hmac x := by cases s2; exact ⟨_, rfl⟩
  have h3' : OnDisk realPrims ((interopMain realPrims env [argOf [create, add, add]]).after
      ((interopMain realPrims env [argOf [createA, addA, addA]]).after fs)) (bstr "k") (bstr "aes128") [] []
      (pairKeys (.str ((bstr "aes128").map fun c => Char.ofNat c.toNat)) .DECRYPT_AND_ENCRYPT .AES false (.aes x1) (.aes x2)) := by
    obtain ⟨d, q1, q2⟩ := h3
    exact ⟨d, by rw [s5 _ (by decide +kernel)]; exact q1, .inl (q2.resolve_right fun q => q.1 rfl)⟩
  obtain ⟨out, j, o1, o2, o3⟩ := C77_signed_session (P := realPrims) _ _ genRnd (.str ['k']) (.str "aes128".toList)
    sessionOptions testOptions (.str "data".toList) (bstr "k") (bstr "aes128") (bstr "hmac256") [] [] (bstr "data") _ _ _
    { pathText := rfl, nameText := rfl, dataText := rfl, cryptedText := ⟨_, rfl, rfl⟩, signerText := ⟨_, rfl, rfl⟩
      gPub := ⟨_, rfl, rfl⟩, tPub := ⟨_, rfl, rfl⟩, gSet := h3', tSet := h3', gSign := s3, tSign := s3, same := .inl rfl
      good := h4 trivial trivial _ (by decide), goodSign := s4 trivial trivial _ (by decide) } _ _ rfl rfl trivial
    (by decide +kernel)
  exact ⟨out, j, o1, o2, o3 (fun _ _ => trivial) (fun _ _ => trivial)⟩

end ExInterop
end Verif.Props
