import Verif.Spec.EndToEnd
import Verif.Props.InteropExample
/-
C98: every planned interoperability test between implementations that do what the one in Python does passes.
-/
namespace Verif.Props
open Verif Spec Harness

variable {P : Prims}

theorem dictGet_json (o : Options) (k : Text) :
    dictGet (o.map fun p => (p.1, Json.str p.2)) k = (o.lookup k).map Json.str := by
  induction o with
  | nil => rfl
  | cons p t ih =>
    obtain ⟨a, b⟩ := p
    simp only [List.map_cons, dictGet, List.lookup_cons]
    by_cases h : a = k
    · subst h; simp
    · have h' : (k == a) = false := beq_false_of_ne fun e => h e.symm
      rw [if_neg h, h']
      exact ih

theorem json_get {o : Options} {k : String} {v : Text} (h : o.lookup k.toList = some v) :
    (jsonOptions o).get k = .ok (.str v) := by
  simp only [jsonOptions, Json.get, dictGet_json, h, Option.map_some]

theorem toBytes_ascii {t : Text} (h : t.all plainChar = true) : Json.toBytes (.str t) = .ok (ascii t) := by
  simp only [Json.toBytes, h, if_true, ascii]

theorem json_text {o : Options} {k : String} {v : Text} (h : o.lookup k.toList = some v) (hv : v.all plainChar = true) :
    HasText (jsonOptions o) k (ascii v) := ⟨_, json_get h, toBytes_ascii hv⟩

theorem json_pub {o : Options} (hv : (valueOf o "pubKey").all plainChar = true) :
    PubText (jsonOptions o) (ascii (valueOf o "pubKey")) := by
  refine ⟨_, rfl, ?_⟩
  rw [dictGet_json]
  unfold valueOf at hv ⊢
  cases h : o.lookup "pubKey".toList with
  | none => rfl
  | some v => rw [h] at hv; exact toBytes_ascii hv

/-- the key sets that a call or test of the algorithm `a` reads, by evaluation: the purpose, the public part only of an
asymmetric algorithm and without encryption -/
def okSet (k : Keyset) (p : KeyPurpose) (cr pub : Text) : Bool :=
  decide ((kindOf k.algorithm).1 = p) && k.name.all plainChar &&
  (decide (pub = []) || decide (pub = "public".toList) && decide (cr = []) &&
    (decide ((kindOf k.algorithm).2 = .RSA_PRIV) || decide ((kindOf k.algorithm).2 = .DSA_PRIV)))

/-- what a planned test needs, by evaluation -/
def okCase (g : Planned) (r : Text × Options) : Bool :=
  let cr := valueOf g.options "cryptedKeySet"
  let gp := valueOf g.options "pubKey"
  let tp := valueOf r.2 "pubKey"
  (GetKeyPath g.implementation).all plainChar && decide (g.options.lookup "cryptedKeySet".toList = some cr) &&
  cr.all plainChar &&
  if g.operation.1 = "encrypt".toList then
    okSet g.keyset .DECRYPT_AND_ENCRYPT cr gp && decide (tp = []) && (g.options.lookup "encoding".toList).isSome &&
    (g.options.lookup "class".toList).isSome &&
    (decide (gp = []) || decide (g.options.lookup "class".toList ≠ some "crypter".toList)) &&
    decide ((kindOf g.keyset.algorithm).2 = .RSA_PRIV → 65 ≤ g.keyset.size / 8)
  else if g.operation.1 = "signedSession".toList then
    okSet g.keyset .DECRYPT_AND_ENCRYPT cr gp && decide (tp = []) &&
    decide ((kindOf g.keyset.algorithm).2 = .RSA_PRIV → 246 ≤ g.keyset.size / 8) &&
    decide (g.options.lookup "signer".toList = some (valueOf g.options "signer")) &&
    (GetGenerateKeysets (shipped true) sign).any fun k =>
      decide (k.name = valueOf g.options "signer") && okSet k .SIGN_AND_VERIFY cr []
  else
    okSet g.keyset .SIGN_AND_VERIFY cr tp && decide (gp = []) && (g.options.lookup "encoding".toList).isSome &&
    (r.2.lookup "class".toList).isSome &&
    (decide (tp = []) || decide (r.2.lookup "class".toList = some "verifier".toList))

theorem planned_ok {g : Planned} {r : Text × Options} (hg : IsCall (shipped true) g) (hr : IsTest (shipped true) g r) :
    okCase g r = true := by
  have hok : (match GenerateAll (shipped true) with
      | .error _ => false
      | .ok l => l.all fun g => match TestAll (shipped true) g.operation.1 g.operation.2 g.keyset g.options with
        | .error _ => false
        | .ok rs => rs.all fun r => okCase g r) = true := by decide +kernel
  cases hl : GenerateAll (shipped true) with
  | error e => rw [hl] at hok; cases hok
  | ok l =>
    rw [hl] at hok
    have h1 := List.all_eq_true.1 hok g ((C97_calls (shipped_dicts true) hl g).2 hg)
    cases ht : TestAll (shipped true) g.operation.1 g.operation.2 g.keyset g.options with
    | error e => rw [ht] at h1; cases h1
    | ok rs =>
      rw [ht] at h1
      exact List.all_eq_true.1 h1 r ((C97_tests (shipped_dicts true) hg.operation
        (call_nodup (shipped_dicts true) hg) ht r).2 hr)

theorem Kind.eq {a : Text} {p : KeyPurpose} {t : KeyType} (h : Kind a p t) : p = (kindOf a).1 ∧ t = (kindOf a).2 := by
  cases h <;> decide +kernel

theorem Kind.types {a : Text} {p : KeyPurpose} {t : KeyType} (h : Kind a p t) :
    (p = .SIGN_AND_VERIFY → t ∈ signTypes) ∧ (p = .DECRYPT_AND_ENCRYPT → t ∈ cryptTypes) := by
  cases h <;> decide

theorem goodSet_mono {p : KeyPurpose} {ts ts' : List KeyType} {ks : KeySet} (h : GoodSet P p ts ks)
    (hs : ∀ t ∈ ts, t ∈ ts') : GoodSet P p ts' ks := ⟨h.purpose, hs _ h.type, h.primary, h.distinct, h.good⟩

/-- the sets that a call and a test read -/
theorem stored_sets {fs : FS} {path : Bytes} {k : Keyset} {p : KeyPurpose} {cr pub : Text}
    (hs : Stored P fs path k.algorithm k.size cr) (hk : okSet k p cr pub = true) :
    ∃ ks ks' e, OnDisk P fs path (ascii k.name) (ascii cr) [] ks ∧ OnDisk P fs path (ascii k.name) (ascii cr) (ascii pub) ks' ∧
      (ks' = ks ∨ ks'.PublicOf ks) ∧ (pub = [] → ks' = ks) ∧ ks.primaries = [e] ∧
      GoodSet P p [(kindOf k.algorithm).2] ks ∧ KeyFor (kindOf k.algorithm).2 k.size e.key ∧
      Kind k.algorithm p (kindOf k.algorithm).2 ∧ k.name.all plainChar = true := by
  obtain ⟨p', t, ks, h1, h2, h3, h4, h5⟩ := hs
  obtain ⟨e1, e2⟩ := h1.eq
  subst e1 e2
  simp only [okSet, Bool.and_eq_true, Bool.or_eq_true, decide_eq_true_eq] at hk
  obtain ⟨⟨rfl, hn⟩, hp⟩ := hk
  obtain ⟨e, he⟩ := List.length_eq_one_iff.1 h3.primary
  have hm : e ∈ ks.entries := by
    have : e ∈ ks.primaries := by rw [he]; exact List.mem_singleton.2 rfl
    exact (List.mem_filter.1 this).1
  rcases hp with rfl | ⟨⟨rfl, rfl⟩, ht⟩
  · exact ⟨ks, ks, e, h2, h2, .inl rfl, fun _ => rfl, he, h3, h4 e hm, h1, hn⟩
  · obtain ⟨ks', h6, h7⟩ := h5 ht rfl
    have hpub : ascii "public".toList = bstr "public" := by decide +kernel
    exact ⟨ks, ks', e, h2, by rw [hpub]; exact h6, .inr h7, (fun h => absurd h (by decide +kernel)), he, h3, h4 e hm, h1, hn⟩

/-- C98 (signing): for every planned call and every planned test of its output, if the key set of the call is on the disk
and both sides do what the implementation in Python does, an output is made, it is a JSON text, and the test passes, unless
one of the two numbers of a DSA signature is zero. -/
theorem C98_signatures {fs : FS} (rnd : Nat → Rand) {g : Planned} {r : Text × Options} (hg : IsCall (shipped true) g)
    (hr : IsTest (shipped true) g r)
    (ho : g.operation.1 ∈ ["sign".toList, "attached".toList, "unversioned".toList])
    (hs : Stored P fs (ascii (GetKeyPath g.implementation)) g.keyset.algorithm g.keyset.size
      (valueOf g.options "cryptedKeySet")) :
    ∃ e out j, PrimaryOf P fs g g.keyset.algorithm g.keyset.size e ∧
      interopGenerate P fs rnd (.str g.operation.1) (.str (GetKeyPath g.implementation)) (.str g.keyset.name)
        (jsonOptions g.options) (.str testData.toList) = .ok out ∧ loads out = .ok j ∧
      (FairSign P (rnd 0) (Signed g.operation.1 (bstr testData)) e.key →
        interopTest P fs (.str g.operation.1) j (.str (GetKeyPath g.implementation)) (.str g.keyset.name)
          (jsonOptions g.options) (jsonOptions r.2) (.str testData.toList) = .ok (bstr "Test passes\n")) := by
  have hc := planned_ok hg hr
  have hne : g.operation.1 ≠ "encrypt".toList ∧ g.operation.1 ≠ "signedSession".toList := by
    revert ho; generalize g.operation.1 = x
    intro ho
    simp only [List.mem_cons, List.not_mem_nil, or_false] at ho
    rcases ho with rfl | rfl | rfl <;> decide +kernel
  simp only [okCase, if_neg hne.1, if_neg hne.2, Bool.and_eq_true, Bool.or_eq_true, decide_eq_true_eq] at hc
  obtain ⟨⟨⟨c1, c2⟩, c3⟩, ⟨⟨⟨⟨c4, c5⟩, c6⟩, c7⟩, c8⟩⟩ := hc
  obtain ⟨ks, ks', e, s1, s2, s3, s4, s5, s6, s7, s8, s9⟩ := stored_sets hs c4
  obtain ⟨v, hv⟩ := Option.isSome_iff_exists.1 c6
  obtain ⟨w, hw⟩ := Option.isSome_iff_exists.1 c7
  have hp : (valueOf r.2 "pubKey").all plainChar = true := by
    simp only [okSet, Bool.and_eq_true, Bool.or_eq_true, decide_eq_true_eq] at c4
    rcases c4.2 with h | ⟨⟨h, -⟩, -⟩ <;> rw [h] <;> decide +kernel
  have hcase : SignCase P fs fs (.str (GetKeyPath g.implementation)) (.str g.keyset.name) (jsonOptions g.options)
      (jsonOptions r.2) (.str testData.toList) (ascii (GetKeyPath g.implementation)) (ascii g.keyset.name)
      (ascii (valueOf g.options "cryptedKeySet")) (ascii (valueOf r.2 "pubKey")) (bstr testData) ks ks' :=
    { pathText := toBytes_ascii c1
      nameText := toBytes_ascii s9
      dataText := by decide +kernel
      encoding := ⟨_, json_get hv⟩
      cryptedText := json_text c2 c3
      gPub := by
        have := json_pub (o := g.options) (by rw [c5]; rfl)
        rwa [c5] at this
      tPub := json_pub hp
      cls := by
        refine ⟨_, json_get hw, ?_⟩
        rcases c8 with h | h
        · exact .inl (s4 h)
        · rw [hw] at h; cases h; exact .inr rfl
      gSet := s1
      tSet := s2
      same := s3
      good := goodSet_mono s6 fun t ht => by rw [List.mem_singleton.1 ht]; exact s8.types.1 rfl }
  revert ho
  generalize g.operation.1 = x
  intro ho
  simp only [List.mem_cons, List.not_mem_nil, or_false] at ho
  rcases ho with rfl | rfl | rfl
  · obtain ⟨out, j, o1, o2, o3⟩ := C77_sign P fs fs rnd _ _ _ _ _ _ _ _ _ _ _ _ hcase e s5
    exact ⟨e, out, j, ⟨ks, _, _, s1, s5, s8, s7⟩, o1, o2, o3⟩
  · obtain ⟨out, j, o1, o2, o3⟩ := C77_attached P fs fs rnd _ _ _ _ _ _ _ _ _ _ _ _ hcase e s5 (by decide +kernel)
    exact ⟨e, out, j, ⟨ks, _, _, s1, s5, s8, s7⟩, o1, o2, fun h => (o3 h).trans (if_neg (by decide +kernel))⟩
  · obtain ⟨out, j, o1, o2, o3⟩ := C77_unversioned P fs fs rnd _ _ _ _ _ _ _ _ _ _ _ _ hcase e s5
    exact ⟨e, out, j, ⟨ks, _, _, s1, s5, s8, s7⟩, o1, o2, o3⟩

theorem fits_of {t : KeyType} {s m : Nat} {k : Key} (hk : KeyFor t s k) (h : t = .RSA_PRIV → m + 42 ≤ s / 8) :
    Spec.Fits m k := by
  unfold KeyFor at hk
  split at hk
  · obtain ⟨x, rfl⟩ := hk; trivial
  · obtain ⟨x, rfl⟩ := hk; trivial
  · obtain ⟨x, rfl, hx⟩ := hk; exact (h rfl).trans hx
  · obtain ⟨x, rfl⟩ := hk; trivial
  · cases hk

/-- C98 (encryption): likewise, unless the padded message of RSA begins with too many zeros (C48). -/
theorem C98_encryption {fs : FS} (rnd : Nat → Rand) {g : Planned} {r : Text × Options} (hg : IsCall (shipped true) g)
    (hr : IsTest (shipped true) g r) (ho : g.operation.1 = "encrypt".toList)
    (hs : Stored P fs (ascii (GetKeyPath g.implementation)) g.keyset.algorithm g.keyset.size
      (valueOf g.options "cryptedKeySet")) :
    ∃ e out j, PrimaryOf P fs g g.keyset.algorithm g.keyset.size e ∧
      interopGenerate P fs rnd (.str g.operation.1) (.str (GetKeyPath g.implementation)) (.str g.keyset.name)
        (jsonOptions g.options) (.str testData.toList) = .ok out ∧ loads out = .ok j ∧
      (FairCrypt P (rnd 0) (bstr testData) e.key →
        interopTest P fs (.str g.operation.1) j (.str (GetKeyPath g.implementation)) (.str g.keyset.name)
          (jsonOptions g.options) (jsonOptions r.2) (.str testData.toList) = .ok (bstr "Test passes\n")) := by
  have hc := planned_ok hg hr
  simp only [okCase, if_pos ho, Bool.and_eq_true, Bool.or_eq_true, decide_eq_true_eq] at hc
  obtain ⟨⟨⟨c1, c2⟩, c3⟩, ⟨⟨⟨⟨⟨c4, c5⟩, c6⟩, c7⟩, c8⟩, c9⟩⟩ := hc
  obtain ⟨ks, kg, e, s1, s2, s3, s4, s5, s6, s7, s8, s9⟩ := stored_sets hs c4
  obtain ⟨v, hv⟩ := Option.isSome_iff_exists.1 c6
  obtain ⟨w, hw⟩ := Option.isSome_iff_exists.1 c7
  have hp : (valueOf g.options "pubKey").all plainChar = true := by
    simp only [okSet, Bool.and_eq_true, Bool.or_eq_true, decide_eq_true_eq] at c4
    rcases c4.2 with h | ⟨⟨h, -⟩, -⟩ <;> rw [h] <;> decide +kernel
  have hcase : CryptCase P fs fs (.str (GetKeyPath g.implementation)) (.str g.keyset.name) (jsonOptions g.options)
      (jsonOptions r.2) (.str testData.toList) (ascii (GetKeyPath g.implementation)) (ascii g.keyset.name)
      (ascii (valueOf g.options "cryptedKeySet")) (ascii (valueOf g.options "pubKey")) (bstr testData) kg ks :=
    { pathText := toBytes_ascii c1
      nameText := toBytes_ascii s9
      dataText := by decide +kernel
      encoding := ⟨_, json_get hv⟩
      cryptedText := json_text c2 c3
      gPub := json_pub hp
      tPub := by
        have := json_pub (o := r.2) (by rw [c5]; rfl)
        rwa [c5] at this
      cls := by
        refine ⟨_, json_get hw, ?_⟩
        rcases c8 with h | h
        · exact .inl (s4 h)
        · refine .inr fun e => h ?_
          rw [hw]; cases e; rfl
      gSet := s2
      tSet := s1
      same := s3
      good := goodSet_mono s6 fun t ht => by rw [List.mem_singleton.1 ht]; exact s8.types.2 rfl }
  have hl : (bstr testData).length = 23 := by decide +kernel
  obtain ⟨out, j, o1, o2, o3⟩ := C77_encrypt P fs fs rnd _ _ _ _ _ _ _ _ _ _ _ _ hcase e s5
    (by rw [hl]; exact fits_of s7 c9)
  rw [ho]
  exact ⟨e, out, j, ⟨ks, _, _, s1, s5, s8, s7⟩, o1, o2, o3⟩

/-- C98 (signed sessions): likewise, for a call whose signer is of the algorithm `k`, if the key set of the signer is on
the disk as well.  That the session material fits the key is due to the entry of ignoredTests.json for rsa-crypt1024. -/
theorem C98_sessions {fs : FS} (rnd : Nat → Rand) {g : Planned} {r : Text × Options} (hg : IsCall (shipped true) g)
    (hr : IsTest (shipped true) g r) (ho : g.operation.1 = "signedSession".toList)
    (hs : Stored P fs (ascii (GetKeyPath g.implementation)) g.keyset.algorithm g.keyset.size
      (valueOf g.options "cryptedKeySet"))
    (hsig : ∀ a alg s, (a, alg) ∈ (shipped true).algorithms → s ∈ alg.keySizes →
      valueOf g.options "signer" = a ++ Nat.toDigits 10 s →
      Stored P fs (ascii (GetKeyPath g.implementation)) a s (valueOf g.options "cryptedKeySet")) :
    ∃ e s out j, PrimaryOf P fs g g.keyset.algorithm g.keyset.size e ∧
      (∃ a n, valueOf g.options "signer" = a ++ Nat.toDigits 10 n ∧ PrimaryOf P fs g a n s) ∧
      interopGenerate P fs rnd (.str g.operation.1) (.str (GetKeyPath g.implementation)) (.str g.keyset.name)
        (jsonOptions g.options) (.str testData.toList) = .ok out ∧ loads out = .ok j ∧
      ((∀ text, (Session.New (rnd 0)).json = .ok text → FairCrypt P (rnd 1) text e.key) →
       (∀ ct, (Session.New (rnd 0)).key.Encrypt P ((rnd 2).bytes 0 16) (bstr testData) = .ok ct →
          FairSign P (rnd 3) (attachedPayload ct ((rnd 0).bytes 2 16)) s.key) →
        interopTest P fs (.str g.operation.1) j (.str (GetKeyPath g.implementation)) (.str g.keyset.name)
          (jsonOptions g.options) (jsonOptions r.2) (.str testData.toList) = .ok (bstr "Test passes\n")) := by
  have hc := planned_ok hg hr
  have hne : g.operation.1 ≠ "encrypt".toList := by rw [ho]; decide +kernel
  simp only [okCase, if_pos ho, if_neg hne, Bool.and_eq_true, Bool.or_eq_true, decide_eq_true_eq, List.any_eq_true] at hc
  obtain ⟨⟨⟨c1, c2⟩, c3⟩, ⟨⟨⟨⟨c4, c5⟩, c6⟩, c7⟩, ⟨k, c8, c9, c10⟩⟩⟩ := hc
  obtain ⟨ks, kg, e, s1, s2, s3, s4, s5, s6, s7, s8, s9⟩ := stored_sets hs c4
  obtain ⟨alg, k1, -, k3, -⟩ := (mem_GetGenerateKeysets _ _ _).1 c8
  obtain ⟨ss, ss', se, q1, -, -, -, q5, q6, q7, q8, q9⟩ := stored_sets (hsig _ _ _ k1 k3 c9.symm) c10
  have hp : (valueOf g.options "pubKey").all plainChar = true := by
    simp only [okSet, Bool.and_eq_true, Bool.or_eq_true, decide_eq_true_eq] at c4
    rcases c4.2 with h | ⟨⟨h, -⟩, -⟩ <;> rw [h] <;> decide +kernel
  have hcase : SessionCase P fs fs (.str (GetKeyPath g.implementation)) (.str g.keyset.name) (jsonOptions g.options)
      (jsonOptions r.2) (.str testData.toList) (ascii (GetKeyPath g.implementation)) (ascii g.keyset.name) (ascii k.name)
      (ascii (valueOf g.options "cryptedKeySet")) (ascii (valueOf g.options "pubKey")) (bstr testData) kg ks ss :=
    { pathText := toBytes_ascii c1
      nameText := toBytes_ascii s9
      dataText := by decide +kernel
      cryptedText := json_text c2 c3
      signerText := json_text (by rw [c9]; exact c7) q9
      gPub := json_pub hp
      tPub := by
        have := json_pub (o := r.2) (by rw [c5]; rfl)
        rwa [c5] at this
      gSet := s2
      tSet := s1
      gSign := q1
      tSign := q1
      same := s3
      good := goodSet_mono s6 fun t ht => by rw [List.mem_singleton.1 ht]; exact s8.types.2 rfl
      goodSign := goodSet_mono q6 fun t ht => by rw [List.mem_singleton.1 ht]; exact q8.types.1 rfl }
  obtain ⟨out, j, o1, o2, o3⟩ := C77_signed_session P fs fs rnd _ _ _ _ _ _ _ _ _ _ _ _ _ _ hcase e se s5 q5
    (fits_of s7 c6) (by decide +kernel)
  rw [ho]
  exact ⟨e, se, out, j, ⟨ks, _, _, s1, s5, s8, s7⟩, ⟨_, _, c9.symm, ss, _, _, q1, q5, q8, q7⟩, o1, o2, o3⟩

/-- C98: every call of the plan is one of the five operations of the theorems above. -/
theorem C98_operations {g : Planned} (hg : IsCall (shipped true) g) : g.operation.1 = "encrypt".toList ∨
    g.operation.1 = "signedSession".toList ∨ g.operation.1 ∈ ["sign".toList, "attached".toList, "unversioned".toList] := by
  have h : ∀ o ∈ (shipped true).operations, o.1 = "encrypt".toList ∨ o.1 = "signedSession".toList ∨
      o.1 ∈ ["sign".toList, "attached".toList, "unversioned".toList] := by decide +kernel
  exact h _ hg.operation

theorem keyDir (b : Bool) {i a : Text} {alg : Algorithm} {s : Nat} (hi : i ∈ (shipped b).implementations)
    (ha : (a, alg) ∈ (shipped b).algorithms) (hs : s ∈ alg.keySizes) :
    ascii (GetKeyDir i (a ++ Nat.toDigits 10 s)) =
      pathJoin (ascii (GetKeyPath i)) (ascii (a ++ Nat.toDigits 10 s)) ∧
    ascii (GetKeyDir i (a ++ Nat.toDigits 10 s ++ "aes128".toList)) =
      pathJoin (ascii (GetKeyPath i)) (ascii (a ++ Nat.toDigits 10 s) ++ ascii "aes128".toList) ∧
    ascii (GetKeyDir i "aes128".toList) = pathJoin (ascii (GetKeyPath i)) (ascii "aes128".toList) ∧
    pathJoin (ascii (GetKeyPath i)) (ascii (a ++ Nat.toDigits 10 s)) ++ bstr "public" =
      pathJoin (ascii (GetKeyPath i)) (ascii (a ++ Nat.toDigits 10 s) ++ bstr "public") ∧
    ascii (a ++ Nat.toDigits 10 s) ≠ [] ∧
    (alg.asymmetric = true ↔ (kindOf a).2 = .RSA_PRIV ∨ (kindOf a).2 = .DSA_PRIV) := by
  have h : ∀ b, ∀ i ∈ (shipped b).implementations, ∀ x ∈ (shipped b).algorithms, ∀ s ∈ x.2.keySizes,
      ascii (GetKeyDir i (x.1 ++ Nat.toDigits 10 s)) =
        pathJoin (ascii (GetKeyPath i)) (ascii (x.1 ++ Nat.toDigits 10 s)) ∧
      ascii (GetKeyDir i (x.1 ++ Nat.toDigits 10 s ++ "aes128".toList)) =
        pathJoin (ascii (GetKeyPath i)) (ascii (x.1 ++ Nat.toDigits 10 s) ++ ascii "aes128".toList) ∧
      ascii (GetKeyDir i "aes128".toList) = pathJoin (ascii (GetKeyPath i)) (ascii "aes128".toList) ∧
      pathJoin (ascii (GetKeyPath i)) (ascii (x.1 ++ Nat.toDigits 10 s)) ++ bstr "public" =
        pathJoin (ascii (GetKeyPath i)) (ascii (x.1 ++ Nat.toDigits 10 s) ++ bstr "public") ∧
      ascii (x.1 ++ Nat.toDigits 10 s) ≠ [] ∧
      (x.2.asymmetric = true ↔ (kindOf x.1).2 = .RSA_PRIV ∨ (kindOf x.1).2 = .DSA_PRIV) := by
    unfold pathJoin
    decide +kernel
  exact h b i hi (a, alg) ha s hs

theorem Kind.exports {a : Text} {p : KeyPurpose} {t : KeyType} (h : Kind a p t) (ht : t = .RSA_PRIV ∨ t = .DSA_PRIV) :
    ∃ t' p', Exports t p t' p' := by
  cases h
  · exact ⟨_, _, .rsaCrypt⟩
  · exact ⟨_, _, .rsaSign⟩
  · exact ⟨_, _, .dsa⟩
  · rcases ht with h | h <;> cases h
  · rcases ht with h | h <;> cases h

/-- C98 (key sets): when the implementation in Python runs the commands of `_Create` on an empty directory without an
exception, and the generator gives valid keys of the size asked for, the key set is then on the disk as the tests need it; no other directory
has changed. -/
theorem C98_created (b : Bool) {env : InteropEnv} {fs : FS} {i a : Text} {alg : Algorithm} {s : Nat}
    (hi : i ∈ (shipped b).implementations) (ha : (a, alg) ∈ (shipped b).algorithms) (hs : s ∈ alg.keySizes) {d : Dir}
    (hd : fs (ascii (GetKeyDir i (a ++ Nat.toDigits 10 s))) = some d) (hm : d .metaFile = none) {text out : Bytes}
    (ht : CreateText text ((Harness.Create i a alg s).commands.map (·.map ascii)))
    (hok : (interopMain P env [text] fs).1 = .ok out) (hgen : GoodGenerator env a s) :
    Stored P ((interopMain P env [text]).after fs) (ascii (GetKeyPath i)) a s [] ∧
      ∀ l, l ≠ ascii (GetKeyDir i (a ++ Nat.toDigits 10 s)) →
        (alg.asymmetric = true → l ≠ ascii (GetKeyDir i (a ++ Nat.toDigits 10 s) ++ "public".toList)) →
        (interopMain P env [text]).after fs l = fs l := by
  obtain ⟨p, t, hk, ⟨cr, ad, pb, h1, h2, h3, h4⟩, -⟩ := C97_commands b hi ha hs
  obtain ⟨n1, -, -, n4, -, n6⟩ := keyDir b hi ha hs
  have n7 : ascii (GetKeyDir i (a ++ Nat.toDigits 10 s) ++ "public".toList) =
      pathJoin (ascii (GetKeyPath i)) (ascii (a ++ Nat.toDigits 10 s) ++ bstr "public") := by
    rw [← n4, ← n1]
    have : bstr "public" = ascii "public".toList := by decide +kernel
    rw [this]
    exact List.map_append
  rw [n7]
  rw [n1] at hd h2 h3 h4 ⊢
  rw [h1] at ht
  rw [← hk.eq.2] at n6
  by_cases hb : alg.asymmetric = true
  · rw [if_pos hb] at ht
    obtain ⟨t', p', hx⟩ := hk.exports (n6.1 hb)
    obtain ⟨k1, k2, g1, g2, ks', e1, e2, e3, e4, e5, e6, e7⟩ := C77_create_public (P := P) env fs _ _ d hd hm _ p t t' p' hx
      s cr ad pb h2 h3 (h4 hb) text out ht hok
    refine ⟨⟨p, t, _, hk, e3, e6 (hgen _ _ _ _ _ hk e1).1 (hgen _ _ _ _ _ hk e2).1 [t] (List.mem_singleton.2 rfl), ?_,
      fun _ _ => ⟨ks', e4, e5⟩⟩, fun l hl hl' => e7 l hl (hl' hb)⟩
    intro e he
    simp only [pairKeys, List.mem_cons, List.not_mem_nil, or_false] at he
    rcases he with rfl | rfl
    · exact (hgen _ _ _ _ _ hk e1).2
    · exact (hgen _ _ _ _ _ hk e2).2
  · rw [if_neg hb, List.append_nil] at ht
    obtain ⟨k1, k2, g1, g2, e1, e2, e3, e6, e7⟩ := C77_create (P := P) env fs _ _ d hd hm _ p t
      s cr ad h2 h3 text out ht hok
    refine ⟨⟨p, t, _, hk, e3, e6 (hgen _ _ _ _ _ hk e1).1 (hgen _ _ _ _ _ hk e2).1 [t] (List.mem_singleton.2 rfl), ?_,
      fun h => absurd (n6.2 h) hb⟩, fun l hl _ => e7 l hl⟩
    intro e he
    simp only [pairKeys, List.mem_cons, List.not_mem_nil, or_false] at he
    rcases he with rfl | rfl
    · exact (hgen _ _ _ _ _ hk e1).2
    · exact (hgen _ _ _ _ _ hk e2).2

/-- C98 (encrypted key sets): likewise for `_CreateEncrypted`, if the key set `aes128` is on the disk. -/
theorem C98_created_encrypted (b : Bool) {env : InteropEnv} {fs : FS} {i a : Text} {alg : Algorithm} {s : Nat}
    (hi : i ∈ (shipped b).implementations) (ha : (a, alg) ∈ (shipped b).algorithms) (hs : s ∈ alg.keySizes) {d : Dir}
    (hd : fs (ascii (GetKeyDir i (a ++ Nat.toDigits 10 s ++ "aes128".toList))) = some d) (hm : d .metaFile = none)
    (hc : Stored P fs (ascii (GetKeyPath i)) "aes".toList 128 []) {text out : Bytes}
    (ht : CreateText text ((CreateEncrypted i a alg s "aes128".toList).commands.map (·.map ascii)))
    (hok : (interopMain P env [text] fs).1 = .ok out) (hgen : GoodGenerator env a s) :
    Stored P ((interopMain P env [text]).after fs) (ascii (GetKeyPath i)) a s "aes128".toList ∧
      ∀ l, l ≠ ascii (GetKeyDir i (a ++ Nat.toDigits 10 s ++ "aes128".toList)) →
        (interopMain P env [text]).after fs l = fs l := by
  obtain ⟨p, t, hk, -, ⟨cr, ad, h1, h2, h3⟩⟩ := C97_commands b hi ha hs
  obtain ⟨-, n2, n3, -, n5, -⟩ := keyDir b hi ha hs
  obtain ⟨pc, tc, kc, c1, c2, c3, -⟩ := hc
  have ec := c1.eq
  have ek : kindOf "aes".toList = (.DECRYPT_AND_ENCRYPT, .AES) := by decide +kernel
  rw [ek] at ec
  obtain ⟨rfl, rfl⟩ := ec
  have en : ascii ("aes".toList ++ Nat.toDigits 10 128) = ascii "aes128".toList := by decide +kernel
  rw [en] at c2
  rw [n2] at hd h2 h3 ⊢
  rw [n3] at h3
  rw [h1] at ht
  obtain ⟨k, g, e1, e2, e3, e4⟩ := C77_create_encrypted (P := P) env fs _ _ _ (by decide +kernel) n5 d hd hm kc c2 c3 _ p t
    s cr ad h2 h3 text out ht hok
  refine ⟨⟨p, t, _, hk, e2, e3 (hgen _ _ _ _ _ hk e1).1 [t] (List.mem_singleton.2 rfl), ?_,
    fun _ h => absurd h (by decide +kernel)⟩, e4⟩
  intro e he
  simp only [oneKey, List.mem_singleton] at he
  rw [he]
  exact (hgen _ _ _ _ _ hk e1).2

/-- `Stored` is about at most three directories -/
theorem stored_frame {fs fs' : FS} {path : Bytes} {a : Text} {s : Nat} {cr : Text} (h : Stored P fs path a s cr)
    (h1 : fs' (pathJoin path (ascii (a ++ Nat.toDigits 10 s) ++ ascii cr)) =
      fs (pathJoin path (ascii (a ++ Nat.toDigits 10 s) ++ ascii cr)))
    (h2 : cr ≠ [] → fs' (pathJoin path (ascii cr)) = fs (pathJoin path (ascii cr)))
    (h3 : (kindOf a).2 = .RSA_PRIV ∨ (kindOf a).2 = .DSA_PRIV → cr = [] →
      fs' (pathJoin path (ascii (a ++ Nat.toDigits 10 s) ++ bstr "public")) =
      fs (pathJoin path (ascii (a ++ Nat.toDigits 10 s) ++ bstr "public"))) : Stored P fs' path a s cr := by
  obtain ⟨p, t, ks, k1, ⟨d, k2, k2'⟩, k3, k4, k5⟩ := h
  have hcr : ascii cr ≠ [] → cr ≠ [] := fun h e => h (by rw [e]; rfl)
  refine ⟨p, t, ks, k1, ⟨d, ?_, ?_⟩, k3, k4, ?_⟩
  · rw [List.append_nil] at k2 ⊢
    rw [h1]; exact k2
  · rcases k2' with h | ⟨h, d', c, q1, q2⟩
    · exact .inl h
    · exact .inr ⟨h, d', c, by rw [h2 (hcr h)]; exact q1, q2⟩
  · intro ht he
    obtain ⟨ks', ⟨d', q1, q2⟩, q3⟩ := k5 ht he
    subst he
    have en : ascii (a ++ Nat.toDigits 10 s) ++ ascii [] = ascii (a ++ Nat.toDigits 10 s) := List.append_nil _
    rw [en] at q1
    refine ⟨ks', ⟨d', ?_, .inl (q2.resolve_right fun q => q.1 rfl)⟩, q3⟩
    rw [en, h3 (by rw [← k1.eq.2]; exact ht) rfl]
    exact q1

/-- a creation of the given kind -/
def PlainCreation (b : Bool) (c : Creation) : Prop :=
  ∃ i a alg s, i ∈ (shipped b).implementations ∧ (a, alg) ∈ (shipped b).algorithms ∧ s ∈ alg.keySizes ∧
    c = Harness.Create i a alg s
def EncryptedCreation (b : Bool) (c : Creation) : Prop :=
  ∃ i a alg s, i ∈ (shipped b).implementations ∧ (a, alg) ∈ (shipped b).algorithms ∧ s ∈ alg.keySizes ∧
    c = CreateEncrypted i a alg s "aes128".toList

theorem locs_create (i a : Text) (alg : Algorithm) (s : Nat) : Creation.locs (Harness.Create i a alg s) =
    ascii (GetKeyDir i (a ++ Nat.toDigits 10 s)) ::
      if alg.asymmetric = true then [ascii (GetKeyDir i (a ++ Nat.toDigits 10 s) ++ "public".toList)] else [] := by
  unfold Creation.locs Harness.Create
  by_cases h : alg.asymmetric = true <;> simp [h]

theorem emptied_mem {dirs : List Loc} {fs : FS} {l : Loc} (h : l ∈ dirs) : emptied dirs fs l = some fun _ => none := if_pos h
theorem emptied_not {dirs : List Loc} {fs : FS} {l : Loc} (h : l ∉ dirs) : emptied dirs fs l = fs l := if_neg h

/-- C98 (key sets): after a number of creations of `_Create`, all in different directories, the key sets of the
implementation `i` are on the disk, and no other directory has changed. -/
theorem C98_ran_plain (b : Bool) {i : Text} {l : List Creation} {fs fs' : FS} (h : Ran P i l fs fs')
    (hl : ∀ c ∈ l, PlainCreation b c) (hn : (l.flatMap Creation.locs).Nodup) :
    (∀ x, x ∉ l.flatMap Creation.locs → fs' x = fs x) ∧
    ∀ a alg s, i ∈ (shipped b).implementations → (a, alg) ∈ (shipped b).algorithms → s ∈ alg.keySizes →
      Harness.Create i a alg s ∈ l → Stored P fs' (ascii (GetKeyPath i)) a s [] := by
  induction h with
  | nil => exact ⟨fun _ _ => rfl, fun _ _ _ _ _ _ h => by cases h⟩
  | @own c t fs fs' env text out hi ht hok hgen _ ih =>
    rw [List.flatMap_cons, List.nodup_append] at hn
    obtain ⟨hn1, hn2, hn3⟩ := hn
    obtain ⟨f1, f2⟩ := ih (fun c hc => hl c (List.mem_cons_of_mem _ hc)) hn2
    have step : ∀ j a alg s, j ∈ (shipped b).implementations → (a, alg) ∈ (shipped b).algorithms → s ∈ alg.keySizes →
        c = Harness.Create j a alg s →
        Stored P ((interopMain P env [text]).after (emptied (Creation.locs c) fs)) (ascii (GetKeyPath j)) a s [] ∧
        ∀ x, x ∉ Creation.locs c → (interopMain P env [text]).after (emptied (Creation.locs c) fs) x = fs x := by
      intro j a alg s hj ha hs hc
      have hlocs := locs_create j a alg s
      rw [← hc] at hlocs
      have hm : ascii (GetKeyDir j (a ++ Nat.toDigits 10 s)) ∈ Creation.locs c := by rw [hlocs]; exact List.mem_cons_self
      have hji : j = i := by rw [hc] at hi; exact hi
      have hg := hgen a alg s (.inl (hji ▸ hc))
      rw [hc] at ht
      obtain ⟨r1, r2⟩ := C98_created b hj ha hs (emptied_mem hm) rfl ht hok hg
      refine ⟨r1, fun x hx => ?_⟩
      rw [r2 x, emptied_not hx]
      · intro e; exact hx (by rw [e]; exact hm)
      · intro hb e
        refine hx ?_
        rw [e, hlocs, if_pos hb]
        exact List.mem_cons_of_mem _ (List.mem_singleton.2 rfl)
    constructor
    · intro x hx
      rw [List.flatMap_cons, List.mem_append, not_or] at hx
      obtain ⟨j, a, alg, s, hj, ha, hs, hc⟩ := hl c List.mem_cons_self
      rw [f1 x hx.2]
      exact (step j a alg s hj ha hs hc).2 x hx.1
    · intro a alg s hi' ha hs hm
      rcases List.mem_cons.1 hm with hm | hm
      · have hst := (step i a alg s hi' ha hs hm.symm).1
        obtain ⟨n1, -, -, n4, -, n6⟩ := keyDir b hi' ha hs
        have hlocs := locs_create i a alg s
        rw [hm] at hlocs
        have en : ascii (a ++ Nat.toDigits 10 s) ++ ascii [] = ascii (a ++ Nat.toDigits 10 s) := List.append_nil _
        refine stored_frame hst ?_ (fun h => absurd rfl h) ?_
        · rw [en, ← n1]
          refine f1 _ fun hx => hn3 _ ?_ _ hx rfl
          rw [hlocs]; exact List.mem_cons_self
        · intro hb _
          have n7 : pathJoin (ascii (GetKeyPath i)) (ascii (a ++ Nat.toDigits 10 s) ++ bstr "public") =
              ascii (GetKeyDir i (a ++ Nat.toDigits 10 s) ++ "public".toList) := by
            rw [← n4, ← n1]
            have : bstr "public" = ascii "public".toList := by decide +kernel
            rw [this]
            exact List.map_append.symm
          rw [n7]
          refine f1 _ fun hx => hn3 _ ?_ _ hx rfl
          rw [hlocs, if_pos (n6.2 hb)]
          exact List.mem_cons_of_mem _ (List.mem_singleton.2 rfl)
      · exact f2 a alg s hi' ha hs hm
  | @other c t fs fs1 fs' hi hfr _ ih =>
    rw [List.flatMap_cons, List.nodup_append] at hn
    obtain ⟨f1, f2⟩ := ih (fun c hc => hl c (List.mem_cons_of_mem _ hc)) hn.2.1
    constructor
    · intro x hx
      rw [List.flatMap_cons, List.mem_append, not_or] at hx
      rw [f1 x hx.2, hfr x hx.1]
    · intro a alg s hi' ha hs hm
      rcases List.mem_cons.1 hm with hm | hm
      · exact absurd (by rw [← hm]; rfl) hi
      · exact f2 a alg s hi' ha hs hm

/-- C98 (encrypted key sets): likewise for creations of `_CreateEncrypted`, if `aes128` is on the disk. -/
theorem C98_ran_encrypted (b : Bool) {i : Text} {l : List Creation} {fs fs' : FS} (h : Ran P i l fs fs')
    (hl : ∀ c ∈ l, EncryptedCreation b c) (hn : (l.flatMap Creation.locs).Nodup)
    (hi : i ∈ (shipped b).implementations)
    (hk : ascii (GetKeyDir i "aes128".toList) ∉ l.flatMap Creation.locs)
    (hc : Stored P fs (ascii (GetKeyPath i)) "aes".toList 128 []) :
    (∀ x, x ∉ l.flatMap Creation.locs → fs' x = fs x) ∧
    ∀ a alg s, (a, alg) ∈ (shipped b).algorithms → s ∈ alg.keySizes →
      CreateEncrypted i a alg s "aes128".toList ∈ l → Stored P fs' (ascii (GetKeyPath i)) a s "aes128".toList := by
  have en : ascii ("aes".toList ++ Nat.toDigits 10 128) ++ ascii [] = ascii "aes128".toList := by decide +kernel
  have ek : (kindOf "aes".toList).2 = .AES := by decide +kernel
  have n3 : ascii (GetKeyDir i "aes128".toList) = pathJoin (ascii (GetKeyPath i)) (ascii "aes128".toList) := by
    have : ∀ b, ∀ i ∈ (shipped b).implementations,
        ascii (GetKeyDir i "aes128".toList) = pathJoin (ascii (GetKeyPath i)) (ascii "aes128".toList) := by
      unfold pathJoin; decide +kernel
    exact this b i hi
  have keep : ∀ fs fs' : FS, Stored P fs (ascii (GetKeyPath i)) "aes".toList 128 [] →
      fs' (ascii (GetKeyDir i "aes128".toList)) = fs (ascii (GetKeyDir i "aes128".toList)) →
      Stored P fs' (ascii (GetKeyPath i)) "aes".toList 128 [] := by
    intro fs fs' h he
    refine stored_frame h (by rw [en, ← n3]; exact he) (fun h => absurd rfl h) fun h => ?_
    rw [ek] at h
    rcases h with h | h <;> cases h
  induction h with
  | nil => exact ⟨fun _ _ => rfl, fun _ _ _ _ _ h => by cases h⟩
  | @own c t fs fs' env text out hi' ht hok hgen _ ih =>
    rw [List.flatMap_cons, List.nodup_append] at hn
    obtain ⟨hn1, hn2, hn3⟩ := hn
    rw [List.flatMap_cons, List.mem_append, not_or] at hk
    have hc1 : Stored P (emptied (Creation.locs c) fs) (ascii (GetKeyPath i)) "aes".toList 128 [] :=
      keep _ _ hc (emptied_not hk.1)
    have step : ∀ a alg s, (a, alg) ∈ (shipped b).algorithms → s ∈ alg.keySizes →
        c = CreateEncrypted i a alg s "aes128".toList →
        Stored P ((interopMain P env [text]).after (emptied (Creation.locs c) fs)) (ascii (GetKeyPath i)) a s
          "aes128".toList ∧
        ∀ x, x ∉ Creation.locs c → (interopMain P env [text]).after (emptied (Creation.locs c) fs) x = fs x := by
      intro a alg s ha hs hcc
      have hm : ascii (GetKeyDir i (a ++ Nat.toDigits 10 s ++ "aes128".toList)) ∈ Creation.locs c := by
        rw [hcc]; exact List.mem_singleton.2 rfl
      have hg := hgen a alg s (.inr hcc)
      rw [hcc] at ht
      obtain ⟨r1, r2⟩ := C98_created_encrypted b hi ha hs (emptied_mem hm) rfl hc1 ht hok hg
      refine ⟨r1, fun x hx => ?_⟩
      rw [r2 x, emptied_not hx]
      intro e; exact hx (by rw [e]; exact hm)
    obtain ⟨j, a0, alg0, s0, hj, ha0, hs0, hcc⟩ := hl c List.mem_cons_self
    have hji : j = i := by rw [hcc] at hi'; exact hi'
    subst hji
    have hfr := (step a0 alg0 s0 ha0 hs0 hcc).2
    obtain ⟨f1, f2⟩ := ih (fun c hc => hl c (List.mem_cons_of_mem _ hc)) hn2 hk.2 (keep _ _ hc (hfr _ hk.1))
    constructor
    · intro x hx
      rw [List.flatMap_cons, List.mem_append, not_or] at hx
      rw [f1 x hx.2]
      exact hfr x hx.1
    · intro a alg s ha hs hm
      rcases List.mem_cons.1 hm with hm | hm
      · have hst := (step a alg s ha hs hm.symm).1
        obtain ⟨-, n2, -, -, -, -⟩ := keyDir b hi ha hs
        refine stored_frame hst ?_ ?_ (fun _ h => absurd h (by decide +kernel))
        · rw [← n2]
          refine f1 _ fun hx => hn3 _ ?_ _ hx rfl
          rw [← hm]; exact List.mem_singleton.2 rfl
        · intro _
          rw [← n3]
          exact f1 _ hk.2
      · exact f2 a alg s ha hs hm
  | @other c t fs fs1 fs' hi' hfr _ ih =>
    rw [List.flatMap_cons, List.nodup_append] at hn
    rw [List.flatMap_cons, List.mem_append, not_or] at hk
    obtain ⟨f1, f2⟩ := ih (fun c hc => hl c (List.mem_cons_of_mem _ hc)) hn.2.1 hk.2 (keep _ _ hc (hfr _ hk.1))
    constructor
    · intro x hx
      rw [List.flatMap_cons, List.mem_append, not_or] at hx
      rw [f1 x hx.2, hfr x hx.1]
    · intro a alg s ha hs hm
      rcases List.mem_cons.1 hm with hm | hm
      · exact absurd (by rw [← hm]; rfl) hi'
      · exact f2 a alg s ha hs hm

theorem ran_append {i : Text} {l1 l2 : List Creation} {fs fs' : FS} (h : Ran P i (l1 ++ l2) fs fs') :
    ∃ fs1, Ran P i l1 fs fs1 ∧ Ran P i l2 fs1 fs' := by
  induction l1 generalizing fs with
  | nil => exact ⟨fs, .nil, h⟩
  | cons c t ih =>
    rw [List.cons_append] at h
    cases h with
    | own h1 h2 h3 h4 h5 =>
      obtain ⟨fs1, r1, r2⟩ := ih h5
      exact ⟨fs1, .own h1 h2 h3 h4 r1, r2⟩
    | other h1 h2 h3 =>
      obtain ⟨fs1, r1, r2⟩ := ih h3
      exact ⟨fs1, .other h1 h2 r1, r2⟩

/-- C98 (all key sets): after `CreateKeys`, whatever was on the disk before, all key sets that the implementation `i` has
had to make are on the disk as the tests need them, plain and encrypted, if `i` does what the implementation in Python does
and the others keep to their directories. -/
theorem C98_all_created (b : Bool) {i : Text} {fs fs' : FS} (h : Ran P i (CreateKeys (shipped b)) fs fs')
    (hi : i ∈ (shipped b).implementations) {a : Text} {alg : Algorithm} {s : Nat}
    (ha : (a, alg) ∈ (shipped b).algorithms) (hs : s ∈ alg.keySizes) {cr : Text} (hcr : cr ∈ [[], "aes128".toList]) :
    Stored P fs' (ascii (GetKeyPath i)) a s cr := by
  have hnd : ∀ b, ((CreateKeys (shipped b)).flatMap Creation.locs).Nodup := by decide +kernel
  have haes : ∀ b, ("aes".toList, (⟨crypt, false, [128, 192, 256], ["--purpose=crypt".toList], []⟩ : Algorithm)) ∈
      (shipped b).algorithms := by decide +kernel
  obtain ⟨fs1, r1, r2⟩ := ran_append h
  have hn := hnd b
  unfold CreateKeys at hn
  rw [List.flatMap_append, List.nodup_append] at hn
  obtain ⟨hn1, hn2, hn3⟩ := hn
  have in1 : ∀ {a alg s}, (a, alg) ∈ (shipped b).algorithms → s ∈ alg.keySizes → Harness.Create i a alg s ∈
      (shipped b).implementations.flatMap fun i => (shipped b).algorithms.flatMap fun a => a.2.keySizes.map fun s =>
        Harness.Create i a.1 a.2 s := fun {a alg s} ha hs =>
    List.mem_flatMap.2 ⟨i, hi, List.mem_flatMap.2 ⟨(a, alg), ha, List.mem_map.2 ⟨s, hs, rfl⟩⟩⟩
  have in2 : CreateEncrypted i a alg s "aes128".toList ∈
      (shipped b).implementations.flatMap fun i => (shipped b).algorithms.flatMap fun a => a.2.keySizes.map fun s =>
        CreateEncrypted i a.1 a.2 s "aes128".toList :=
    List.mem_flatMap.2 ⟨i, hi, List.mem_flatMap.2 ⟨(a, alg), ha, List.mem_map.2 ⟨s, hs, rfl⟩⟩⟩
  obtain ⟨-, p2⟩ := C98_ran_plain b r1 (fun c hc => by
    obtain ⟨j, hj, hc⟩ := List.mem_flatMap.1 hc
    obtain ⟨x, hx, hc⟩ := List.mem_flatMap.1 hc
    obtain ⟨s, hs, rfl⟩ := List.mem_map.1 hc
    exact ⟨j, x.1, x.2, s, hj, hx, hs, rfl⟩) hn1
  have hst := p2 _ _ 128 hi (haes b) (by decide +kernel) (in1 (haes b) (by decide +kernel))
  have hmem : ∀ {a alg s}, (a, alg) ∈ (shipped b).algorithms → s ∈ alg.keySizes → ∀ x ∈ Creation.locs (Harness.Create i a alg s),
      x ∉ ((shipped b).implementations.flatMap fun i => (shipped b).algorithms.flatMap fun a => a.2.keySizes.map fun s =>
        CreateEncrypted i a.1 a.2 s "aes128".toList).flatMap Creation.locs := fun ha hs x hx hx' =>
    hn3 x (List.mem_flatMap.2 ⟨_, in1 ha hs, hx⟩) x hx' rfl
  have hk := hmem (haes b) (s := 128) (by decide +kernel) (ascii (GetKeyDir i "aes128".toList)) (by
    have : Creation.locs (Harness.Create i "aes".toList ⟨crypt, false, [128, 192, 256], ["--purpose=crypt".toList], []⟩ 128)
        = [ascii (GetKeyDir i "aes128".toList)] := by
      rw [locs_create]
      have e : "aes".toList ++ Nat.toDigits 10 128 = "aes128".toList := by decide +kernel
      rw [e]
      rfl
    rw [this]
    exact List.mem_singleton.2 rfl)
  obtain ⟨f1, f2⟩ := C98_ran_encrypted b r2 (fun c hc => by
    obtain ⟨j, hj, hc⟩ := List.mem_flatMap.1 hc
    obtain ⟨x, hx, hc⟩ := List.mem_flatMap.1 hc
    obtain ⟨s, hs, rfl⟩ := List.mem_map.1 hc
    exact ⟨j, x.1, x.2, s, hj, hx, hs, rfl⟩) hn2 hi hk hst
  simp only [List.mem_cons, List.not_mem_nil, or_false] at hcr
  rcases hcr with rfl | rfl
  · have hst := p2 a alg s hi ha hs (in1 ha hs)
    obtain ⟨n1, -, -, n4, -, n6⟩ := keyDir b hi ha hs
    have en : ascii (a ++ Nat.toDigits 10 s) ++ ascii [] = ascii (a ++ Nat.toDigits 10 s) := List.append_nil _
    refine stored_frame hst ?_ (fun h => absurd rfl h) ?_
    · rw [en, ← n1]
      refine f1 _ (hmem ha hs _ ?_)
      rw [locs_create]; exact List.mem_cons_self
    · intro hb _
      have n7 : pathJoin (ascii (GetKeyPath i)) (ascii (a ++ Nat.toDigits 10 s) ++ bstr "public") =
          ascii (GetKeyDir i (a ++ Nat.toDigits 10 s) ++ "public".toList) := by
        rw [← n4, ← n1]
        have : bstr "public" = ascii "public".toList := by decide +kernel
        rw [this]
        exact List.map_append.symm
      rw [n7]
      refine f1 _ (hmem ha hs _ ?_)
      rw [locs_create, if_pos (n6.2 hb)]
      exact List.mem_cons_of_mem _ (List.mem_singleton.2 rfl)
  · exact f2 a alg s ha hs in2

/-- C98 (all key sets): so the key sets that a call of the plan uses, and those of its signer, are there. -/
theorem C98_read {g : Planned} (hg : IsCall (shipped true) g) {fs fs' : FS}
    (h : Ran P g.implementation (CreateKeys (shipped true)) fs fs') :
    Stored P fs' (ascii (GetKeyPath g.implementation)) g.keyset.algorithm g.keyset.size
      (valueOf g.options "cryptedKeySet") ∧
    ∀ a alg s, (a, alg) ∈ (shipped true).algorithms → s ∈ alg.keySizes →
      Stored P fs' (ascii (GetKeyPath g.implementation)) a s (valueOf g.options "cryptedKeySet") := by
  have hok : (match GenerateAll (shipped true) with
      | .error _ => false
      | .ok l => l.all fun g => decide (valueOf g.options "cryptedKeySet" ∈ [[], "aes128".toList])) = true := by
    decide +kernel
  have hcr : valueOf g.options "cryptedKeySet" ∈ [[], "aes128".toList] := by
    cases hl : GenerateAll (shipped true) with
    | error e => rw [hl] at hok; cases hok
    | ok l =>
      rw [hl] at hok
      exact of_decide_eq_true (List.all_eq_true.1 hok g ((C97_calls (shipped_dicts true) hl g).2 hg))
  obtain ⟨alg, h1, -, h3, -⟩ := hg.keyset
  exact ⟨C98_all_created true h hg.implementation h1 h3 hcr,
    fun a alg s ha hs => C98_all_created true h hg.implementation ha hs hcr⟩

namespace ExEndToEnd
open ExInterop

def hmacAlg : Algorithm := ⟨sign, false, [256], ["--purpose=sign".toList], []⟩
def cmds : List (List Bytes) := (Harness.Create "python".toList "hmac".toList hmacAlg 256).commands.map (·.map ascii)
theorem runs : okEmpty (interopMain realPrims env [argOf cmds] fs).1 = true := by decide +kernel

def call : Planned :=
  { implementation := "python".toList
    operation := ("sign".toList, ⟨sign, [("encoding".toList, .list ["encoded".toList, "unencoded".toList])], []⟩)
    keyset := ⟨"hmac".toList, 256, sign⟩
    options := [("cryptedKeySet".toList, []), ("encoding".toList, "encoded".toList)] }
def test : Text × Options := ("python".toList, [("class".toList, "verifier".toList), ("pubKey".toList, [])])

def planned (call : Planned) (test : Text × Options) : Bool :=
  (match GenerateAll (shipped true) with
    | .error _ => false
    | .ok l => decide (call ∈ l)) &&
  match TestAll (shipped true) call.operation.1 call.operation.2 call.keyset call.options with
    | .error _ => false
    | .ok l => decide (test ∈ l)
theorem inPlan_of {call : Planned} {test : Text × Options} (h : planned call test = true) :
    IsCall (shipped true) call ∧ IsTest (shipped true) call test := by
  simp only [planned, Bool.and_eq_true] at h
  obtain ⟨h, h'⟩ := h
  cases hl : GenerateAll (shipped true) with
  | error e => rw [hl] at h; cases h
  | ok l =>
    rw [hl] at h
    have hc := (C97_calls (shipped_dicts true) hl _).1 (of_decide_eq_true h)
    cases hl' : TestAll (shipped true) call.operation.1 call.operation.2 call.keyset call.options with
    | error e => rw [hl'] at h'; cases h'
    | ok l' =>
      rw [hl'] at h'
      exact ⟨hc, (C97_tests (shipped_dicts true) hc.operation (call_nodup (shipped_dicts true) hc) hl' _).1
        (of_decide_eq_true h')⟩
theorem inPlan : IsCall (shipped true) call ∧ IsTest (shipped true) call test := inPlan_of (by decide +kernel)

/-- C98_created, C98_signatures: from empty directories, the key set hmac256 is created as the harness asks for it, and a
planned test passes -/
example : ∃ out j, let fs' := (interopMain realPrims env [argOf cmds]).after fs
    interopGenerate realPrims fs' genRnd (Json.ofString "sign") (Json.ofString "keys/python") (Json.ofString "hmac256")
      (jsonOptions call.options) (.str testData.toList) = .ok out ∧ loads out = .ok j ∧
    interopTest realPrims fs' (Json.ofString "sign") j (Json.ofString "keys/python") (Json.ofString "hmac256")
      (jsonOptions call.options) (jsonOptions test.2) (.str testData.toList) = .ok (bstr "Test passes\n") := by
  have hgen : GoodGenerator env "hmac".toList 256 := by
    intro p t n g k hk h
    obtain ⟨-, rfl⟩ := hk.eq
    have ek : (kindOf "hmac".toList).2 = .HMAC_SHA1 := by decide +kernel
    rw [ek] at h ⊢
    cases h
    exact ⟨trivial, _, rfl⟩
  have hst := C98_created (P := realPrims) true (env := env) (fs := fs) (i := "python".toList) (a := "hmac".toList)
    (alg := hmacAlg) (s := 256) (by decide +kernel) (by decide +kernel) (by decide +kernel) rfl rfl
    (argOf_ok (cmds := cmds) (by decide +kernel)) (okEmpty_iff runs) hgen
  have ho : call.operation.1 ∈ ["sign".toList, "attached".toList, "unversioned".toList] := by decide +kernel
  obtain ⟨e, out, j, ⟨ks, p, t, h1, h2, hk, hf⟩, h3, h4, h5⟩ := C98_signatures genRnd inPlan.1 inPlan.2 ho hst.1
  refine ⟨out, j, h3, h4, h5 ?_⟩
  obtain ⟨-, rfl⟩ := hk.eq
  have ek : (kindOf call.keyset.algorithm).2 = .HMAC_SHA1 := by decide +kernel
  rw [ek] at hf
  obtain ⟨x, hx⟩ := hf
  rw [hx]
  trivial

def aesAlg : Algorithm := ⟨crypt, false, [128, 192, 256], ["--purpose=crypt".toList], []⟩
def c1 : Creation := Harness.Create "python".toList "aes".toList aesAlg 128
def c2 : Creation := Harness.Create "python".toList "hmac".toList hmacAlg 256
def c3 : Creation := CreateEncrypted "python".toList "hmac".toList hmacAlg 256 "aes128".toList
def textOf (c : Creation) : Bytes := argOf (c.commands.map (·.map ascii))
noncomputable def next (c : Creation) (fs : FS) : FS :=
  (interopMain realPrims env [textOf c]).after (emptied (Creation.locs c) fs)
def none' : FS := fun _ => none
theorem run1 : okEmpty (interopMain realPrims env [textOf c1] (emptied (Creation.locs c1) none')).1 = true := by
  decide +kernel
theorem run2 : okEmpty (interopMain realPrims env [textOf c2] (emptied (Creation.locs c2) (next c1 none'))).1 = true := by
  decide +kernel
theorem run3 : okEmpty (interopMain realPrims env [textOf c3] (emptied (Creation.locs c3)
    (next c2 (next c1 none')))).1 = true := by decide +kernel

theorem gen_aes (s : Nat) : GoodGenerator env "aes".toList s := by
  intro p t n g k hk h
  obtain ⟨-, rfl⟩ := hk.eq
  have ek : (kindOf "aes".toList).2 = .AES := by decide +kernel
  rw [ek] at h ⊢
  by_cases hv : KeyType.IsValidSize .AES ((sizeArg s).getD (KeyType.defaultSize .AES)) = true
  · have e := (if_neg (not_not.2 hv)).symm.trans h
    cases e
    exact ⟨trivial, _, rfl⟩
  · have e := (if_pos hv).symm.trans h
    cases e
theorem gen_hmac (s : Nat) : GoodGenerator env "hmac".toList s := by
  intro p t n g k hk h
  obtain ⟨-, rfl⟩ := hk.eq
  have ek : (kindOf "hmac".toList).2 = .HMAC_SHA1 := by decide +kernel
  rw [ek] at h ⊢
  by_cases hv : KeyType.IsValidSize .HMAC_SHA1 ((sizeArg s).getD (KeyType.defaultSize .HMAC_SHA1)) = true
  · have e := (if_neg (not_not.2 hv)).symm.trans h
    cases e
    exact ⟨trivial, _, rfl⟩
  · have e := (if_pos hv).symm.trans h
    cases e

/-- the name of an algorithm that begins with `a` or `h` -/
theorem gen_of {a : Text} {s : Nat} {n : Text} (h : a ++ Nat.toDigits 10 s = n)
    (hn : n.head? = some 'a' ∨ n.head? = some 'h') : GoodGenerator env a s := by
  intro p t m g k hk
  subst h
  cases hk with
  | aes => exact gen_aes s _ _ _ _ _ .aes
  | hmac => exact gen_hmac s _ _ _ _ _ .hmac
  | rsaCrypt => rcases hn with h | h <;> cases h
  | rsaSign => rcases hn with h | h <;> cases h
  | dsa => rcases hn with h | h <;> cases h

theorem gen_name {c : Creation} {n : Text} {r : List (List Text)} {loc : Text} {x : List Text}
    (hc : c.commands = ("create".toList :: ("--name=".toList ++ n) :: loc :: x) :: r)
    (hn : n.head? = some 'a' ∨ n.head? = some 'h') (a : Text) (alg : Algorithm) (s : Nat)
    (h : c = Harness.Create "python".toList a alg s ∨ c = CreateEncrypted "python".toList a alg s "aes128".toList) :
    GoodGenerator env a s := by
  have e : ∃ loc' x' r', c.commands =
      ("create".toList :: ("--name=".toList ++ (a ++ Nat.toDigits 10 s)) :: loc' :: x') :: r' := by
    rcases h with rfl | rfl
    · exact ⟨_, _, _, rfl⟩
    · exact ⟨_, _, _, rfl⟩
  obtain ⟨loc', x', r', e⟩ := e
  rw [hc] at e
  simp only [List.cons.injEq] at e
  exact gen_of (List.append_cancel_left e.1.2.1).symm hn

theorem ran : Ran realPrims "python".toList [c1, c2] none' (next c2 (next c1 none')) :=
  .own rfl (argOf_ok (by decide +kernel)) (okEmpty_iff run1) (gen_name (n := "aes128".toList) rfl (by decide))
    (.own rfl (argOf_ok (by decide +kernel)) (okEmpty_iff run2) (gen_name (n := "hmac256".toList) rfl (by decide)) .nil)
theorem ran3 : Ran realPrims "python".toList [c3] (next c2 (next c1 none')) (next c3 (next c2 (next c1 none'))) :=
  .own rfl (argOf_ok (by decide +kernel)) (okEmpty_iff run3) (gen_name (n := "hmac256".toList) rfl (by decide)) .nil

/-- C98_ran_plain, C98_ran_encrypted: the key sets aes128 and hmac256 and then hmac256 encrypted with aes128, beginning with
an empty disk -/
theorem stored : Stored realPrims (next c2 (next c1 none')) (bstr "keys/python") "aes".toList 128 [] ∧
    Stored realPrims (next c2 (next c1 none')) (bstr "keys/python") "hmac".toList 256 [] ∧
    Stored realPrims (next c3 (next c2 (next c1 none'))) (bstr "keys/python") "hmac".toList 256 "aes128".toList := by
  have ep : ascii (GetKeyPath "python".toList) = bstr "keys/python" := by decide +kernel
  obtain ⟨-, h⟩ := C98_ran_plain true ran (by
    intro c hc
    simp only [List.mem_cons, List.not_mem_nil, or_false] at hc
    rcases hc with rfl | rfl
    · exact ⟨_, _, _, _, by decide +kernel, by decide +kernel, by decide +kernel, rfl⟩
    · exact ⟨_, _, _, _, by decide +kernel, by decide +kernel, by decide +kernel, rfl⟩) (by decide +kernel)
  obtain ⟨-, h'⟩ := C98_ran_encrypted true ran3 (by
    intro c hc
    rw [List.mem_singleton.1 hc]
    exact ⟨_, _, _, _, by decide +kernel, by decide +kernel, by decide +kernel, rfl⟩) (by decide +kernel)
    (by decide +kernel) (by decide +kernel)
    (h _ aesAlg 128 (by decide +kernel) (by decide +kernel) (by decide +kernel) List.mem_cons_self)
  rw [← ep]
  exact ⟨h _ aesAlg 128 (by decide +kernel) (by decide +kernel) (by decide +kernel) List.mem_cons_self,
    h _ hmacAlg 256 (by decide +kernel) (by decide +kernel) (by decide +kernel)
      (List.mem_cons_of_mem _ List.mem_cons_self),
    h' _ hmacAlg 256 (by decide +kernel) (by decide +kernel) List.mem_cons_self⟩

def encryptCall : Planned :=
  { implementation := "python".toList
    operation := ("encrypt".toList, ⟨crypt, [("encoding".toList, .list ["encoded".toList, "unencoded".toList])], []⟩)
    keyset := ⟨"aes".toList, 128, crypt⟩
    options := [("class".toList, "encrypter".toList), ("pubKey".toList, []), ("cryptedKeySet".toList, []),
      ("encoding".toList, "unencoded".toList)] }
def sessionCall : Planned :=
  { implementation := "python".toList
    operation := ("signedSession".toList, ⟨crypt, [("signer".toList, .text "ALL_SIGNING_KEYS".toList)], []⟩)
    keyset := ⟨"aes".toList, 128, crypt⟩
    options := [("class".toList, "crypter".toList), ("pubKey".toList, []), ("cryptedKeySet".toList, []),
      ("signer".toList, "hmac256".toList)] }
def noOptions : Text × Options := ("python".toList, [])

/-- C98_encryption, C98_sessions: planned tests with these key sets pass -/
example : ∃ out j out' j', let fs := next c2 (next c1 none')
    interopGenerate realPrims fs genRnd (Json.ofString "encrypt") (Json.ofString "keys/python") (Json.ofString "aes128")
      (jsonOptions encryptCall.options) (.str testData.toList) = .ok out ∧ loads out = .ok j ∧
    interopTest realPrims fs (Json.ofString "encrypt") j (Json.ofString "keys/python") (Json.ofString "aes128")
      (jsonOptions encryptCall.options) (.obj []) (.str testData.toList) = .ok (bstr "Test passes\n") ∧
    interopGenerate realPrims fs genRnd (Json.ofString "signedSession") (Json.ofString "keys/python")
      (Json.ofString "aes128") (jsonOptions sessionCall.options) (.str testData.toList) = .ok out' ∧ loads out' = .ok j' ∧
    interopTest realPrims fs (Json.ofString "signedSession") j' (Json.ofString "keys/python") (Json.ofString "aes128")
      (jsonOptions sessionCall.options) (.obj []) (.str testData.toList) = .ok (bstr "Test passes\n") := by
  have ep : ascii (GetKeyPath "python".toList) = bstr "keys/python" := by decide +kernel
  obtain ⟨sa, sh, -⟩ := stored
  rw [← ep] at sa sh
  have pe : IsCall (shipped true) encryptCall ∧ IsTest (shipped true) encryptCall noOptions := inPlan_of (by decide +kernel)
  have ps : IsCall (shipped true) sessionCall ∧ IsTest (shipped true) sessionCall noOptions := inPlan_of (by decide +kernel)
  have isAes : ∀ {e : Entry}, PrimaryOf realPrims (next c2 (next c1 none')) encryptCall "aes".toList 128 e ∨
      PrimaryOf realPrims (next c2 (next c1 none')) sessionCall "aes".toList 128 e → ∃ x, e.key = .aes x := by
    intro e h
    have ek : (kindOf "aes".toList).2 = .AES := by decide +kernel
    rcases h with ⟨ks, p, t, -, -, hk, hf⟩ | ⟨ks, p, t, -, -, hk, hf⟩ <;>
    · rw [hk.eq.2, ek] at hf
      exact hf
  have only : ∀ x ∈ (shipped true).algorithms, ∀ s ∈ x.2.keySizes, "hmac256".toList = x.1 ++ Nat.toDigits 10 s →
      x.1 = "hmac".toList ∧ s = 256 := by decide +kernel
  obtain ⟨e, out, j, h1, h2, h3, h4⟩ := C98_encryption genRnd pe.1 pe.2 rfl sa
  obtain ⟨x, hx⟩ := isAes (.inl h1)
  obtain ⟨e', s', out', j', k1, ⟨a, n, k2, k3⟩, k4, k5, k6⟩ := C98_sessions genRnd ps.1 ps.2 rfl sa (by
    intro a alg s ha hs he
    obtain ⟨rfl, rfl⟩ := only (a, alg) ha s hs he
    exact sh)
  obtain ⟨x', hx'⟩ := isAes (.inr k1)
  have hs' : ∀ r m, FairSign realPrims r m s'.key := by
    obtain ⟨ks, p, t, -, -, hk, hf⟩ := k3
    intro r m
    cases hk with
    | rsaCrypt => cases k2
    | rsaSign => cases k2
    | dsa => cases k2
    | aes => cases k2
    | hmac =>
      obtain ⟨y, hy⟩ := hf
      rw [hy]
      trivial
  refine ⟨out, j, out', j', h2, h3, h4 (by rw [hx]; trivial), k4, k5, k6 (fun _ _ => by rw [hx']; trivial) fun _ _ => hs' _ _⟩

end ExEndToEnd

end Verif.Props
