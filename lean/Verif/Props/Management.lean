import Verif.Props.Crypters
/-
Property theorems C25-C30: AddVersion, Promote, Demote, Revoke on a GenericKeyczar object.
-/
namespace Verif.Props
open Verif Spec
variable (P : Prims)

/-- a key management call -/
inductive Op where
  | add (rnd : Nat → Rand) (fuel : Nat) (status : KeyStatus) (size : Option Int)
  | promote (n : Int)
  | demote (n : Int)
  | revoke (n : Int)

/-- outcome and object after the call -/
def Op.run (c : Czar) : Op → Py Unit × Czar
  | .add rnd fuel status size => c.AddVersion P rnd fuel status size
  | .promote n => c.Promote n
  | .demote n => c.Demote n
  | .revoke n => c.Revoke n

/-- the object after a sequence of calls, some of which may have raised -/
def runAll (c : Czar) (ops : List Op) : Czar := ops.foldl (fun c op => (op.run P c).2) c

variable {P}

theorem IsValidSize_default (t : KeyType) : t.IsValidSize t.defaultSize = true := by cases t <;> decide

/-- one call keeps the invariant -/
theorem Op.run_inv {c : Czar} (h : c.Inv P) (op : Op) : (op.run P c).2.Inv P := by
  cases op with
  | promote n =>
    have := Czar.Promote_spec h n
    cases hs : c.keySet.promote n with
    | none => rw [hs] at this; simp only [Op.run, this]; exact h
    | some ks =>
      rw [hs] at this
      obtain ⟨heap, pr, h1, -, h3⟩ := this
      simp only [Op.run, h1]; exact h3
  | demote n =>
    have := Czar.Demote_spec h n
    cases hs : c.keySet.demote n with
    | none => rw [hs] at this; simp only [Op.run, this]; exact h
    | some ks =>
      rw [hs] at this
      obtain ⟨heap, pr, h1, -, h3⟩ := this
      simp only [Op.run, h1]; exact h3
  | revoke n =>
    have := Czar.Revoke_spec h n
    cases hs : c.keySet.revoke n with
    | none => rw [hs] at this; simp only [Op.run, this]; exact h
    | some ks =>
      rw [hs] at this
      obtain ⟨m, h1, -, -, h3⟩ := this
      simp only [Op.run, h1]; exact h3
  | add rnd fuel status size =>
    simp only [Op.run, Czar.AddVersion_eq]
    split
    · exact h
    · split
      · exact Czar.addPrep_inv h status
      · next key hash hg =>
        obtain ⟨⟨j, -, -, h1⟩, h2, h3⟩ := genLoop_ok hg
        obtain ⟨hm, -, hh, -⟩ := c.addPrep_fields status
        rw [hm] at h1
        rw [hh] at h3
        obtain ⟨h4, h5⟩ := GenKey_Ok h1
        exact (Czar.AddKeyObj_spec h status key hash h2 h3 h4 h5).2.1

theorem runAll_inv {c : Czar} (h : c.Inv P) (ops : List Op) : (runAll P c ops).Inv P := by
  unfold runAll
  induction ops generalizing c with
  | nil => exact h
  | cons op t ih => exact ih (Op.run_inv h op)

/-- what a successful `AddVersion` does -/
theorem AddVersion_ok {c c' : Czar} (h : c.Inv P) {rnd : Nat → Rand} {fuel : Nat} {status : KeyStatus}
    {size : Option Int} (ha : c.AddVersion P rnd fuel status size = (.ok (), c')) :
    ∃ key hash j, GenKey (rnd j) c.keySet.type (some (size.getD c.keySet.type.defaultSize)) = .ok key ∧
      c.keySet.type.IsValidSize (size.getD c.keySet.type.defaultSize) = true ∧
      key.hashId P = .ok hash ∧ assocGet c.hkeys hash = none ∧
      c'.keySet = c.keySet.add (c.maxVersion + 1) status key ∧ c'.Inv P ∧
      c'.vkeys = c.vkeys ++ [(c.heap.next, key)] := by
  rw [Czar.AddVersion_eq] at ha
  split at ha
  · cases ha
  · next hsz =>
    split at ha
    · cases ha
    · next key hash hg =>
      obtain ⟨⟨j, -, -, h1⟩, h2, h3⟩ := genLoop_ok hg
      obtain ⟨hm, -, hh, -⟩ := c.addPrep_fields status
      rw [hm] at h1
      rw [hh] at h3
      obtain ⟨h4, h5⟩ := GenKey_Ok h1
      have := Czar.AddKeyObj_spec h status key hash h2 h3 h4 h5
      have hc := (Prod.mk.inj ha).2
      rw [← hc]
      exact ⟨key, hash, j, h1, not_not.mp hsz, h2, h3, this.1, this.2.1, this.2.2.1⟩

variable (P)

/-! ## C25 -/

/-- C25: after any sequence of calls on a loaded key set at most one version is PRIMARY, and the
primary key is exactly that version's (KeyNotFoundError if there is none). -/
theorem C25_single_primary (c : Czar) (hc : Loaded P c) (ops : List Op) :
    let c' := runAll P c ops
    (c'.keySet.primaries = [] ∧ c'.primaryKey = .error .keyNotFound) ∨
    ∃ e, c'.keySet.primaries = [e] ∧ c'.primaryKey = .ok e.key := by
  intro c'
  have hi : c'.Inv P := runAll_inv hc.inv ops
  have h1 := Czar.primaryKey_spec hi
  have h2 := hi.valid.primary
  match hp : c'.keySet.primaries with
  | [] => rw [hp] at h1; exact .inl ⟨rfl, h1⟩
  | [e] => rw [hp] at h1; exact .inr ⟨e, rfl, h1⟩
  | _ :: _ :: _ => rw [hp] at h2; simp at h2

/-- example: on the HMAC set of testdata: demote 2, promote 1, promote 2, add a primary -/
example : (Czar.init realPrims .generic (Ex.hmac .ACTIVE .PRIMARY)).map (fun c =>
    ((runAll realPrims c [.demote 2, .promote 1, .promote 2, .add (fun _ => Ex.rnd) 1 .PRIMARY none]).keySet.entries.map
      fun e => (e.num, e.status))) = .ok [(1, .ACTIVE), (2, .ACTIVE), (3, .PRIMARY)] := by decide +kernel

/-! ## C26 -/

/-- C26: on every reachable object `Promote` does what the specification says: a KeyczarError and no
change at all, or success and exactly the specified status changes. -/
theorem C26_promote (c : Czar) (hc : Loaded P c) (ops : List Op) (n : Int) :
    let c' := runAll P c ops
    match c'.keySet.promote n with
    | none => c'.Promote n = (.error .keyczarError, c')
    | some ks => ∃ c'', c'.Promote n = (.ok (), c'') ∧ c''.keySet = ks := by
  intro c'
  have := Czar.Promote_spec (runAll_inv hc.inv ops) n
  cases hs : c'.keySet.promote n with
  | none => rw [hs] at this; exact this
  | some ks =>
    rw [hs] at this
    obtain ⟨_, _, h1, h2, _⟩ := this
    exact ⟨_, h1, h2⟩

/-- C26: the same for `Demote`. -/
theorem C26_demote (c : Czar) (hc : Loaded P c) (ops : List Op) (n : Int) :
    let c' := runAll P c ops
    match c'.keySet.demote n with
    | none => c'.Demote n = (.error .keyczarError, c')
    | some ks => ∃ c'', c'.Demote n = (.ok (), c'') ∧ c''.keySet = ks := by
  intro c'
  have := Czar.Demote_spec (runAll_inv hc.inv ops) n
  cases hs : c'.keySet.demote n with
  | none => rw [hs] at this; exact this
  | some ks =>
    rw [hs] at this
    obtain ⟨_, _, h1, h2, _⟩ := this
    exact ⟨_, h1, h2⟩

/-- C26: the same for `Revoke`. -/
theorem C26_revoke (c : Czar) (hc : Loaded P c) (ops : List Op) (n : Int) :
    let c' := runAll P c ops
    match c'.keySet.revoke n with
    | none => c'.Revoke n = (.error .keyczarError, c')
    | some ks => ∃ c'', c'.Revoke n = (.ok (), c'') ∧ c''.keySet = ks := by
  intro c'
  have := Czar.Revoke_spec (runAll_inv hc.inv ops) n
  cases hs : c'.keySet.revoke n with
  | none => rw [hs] at this; exact this
  | some ks =>
    rw [hs] at this
    obtain ⟨_, h1, _, h2, _⟩ := this
    exact ⟨_, h1, h2⟩

/-- C26: a successful `AddVersion` appends one version with the requested status; when that is
PRIMARY the old primary becomes ACTIVE, and nothing else changes. -/
theorem C26_add (c : Czar) (hc : Loaded P c) (ops : List Op) (rnd : Nat → Rand) (fuel : Nat) (status : KeyStatus)
    (size : Option Int) (c'' : Czar) (h : (runAll P c ops).AddVersion P rnd fuel status size = (.ok (), c'')) :
    ∃ n key, c''.keySet = (runAll P c ops).keySet.add n status key := by
  obtain ⟨key, _, _, _, _, _, _, h1, _⟩ := AddVersion_ok (runAll_inv hc.inv ops) h
  exact ⟨_, key, h1⟩

/-- promoting changes no number and no key -/
theorem promote_keys {ks ks' : KeySet} {n : Int} (h : ks.promote n = some ks') :
    ks'.entries.map Entry.key = ks.entries.map Entry.key := by
  unfold KeySet.promote at h
  split at h
  · cases h
  · split at h
    · cases h
    · cases h; simp [KeySet.mapStatus]
    · cases h; simp [KeySet.mapStatus]

/-! ## C27 -/

/-- C27: in every reachable object the version numbers are pairwise distinct. -/
theorem C27_nodup (c : Czar) (hc : Loaded P c) (ops : List Op) :
    ((runAll P c ops).keySet.entries.map Entry.num).Nodup :=
  (runAll_inv hc.inv ops).valid.nodup

/-- C27: `AddVersion` on a reachable object gives a number that is positive and larger than every
number in the set, and keeps all versions. -/
theorem C27_fresh_number (c : Czar) (hc : Loaded P c) (ops : List Op) (rnd : Nat → Rand) (fuel : Nat)
    (status : KeyStatus) (size : Option Int) (c'' : Czar)
    (h : (runAll P c ops).AddVersion P rnd fuel status size = (.ok (), c'')) :
    ∃ n, 1 ≤ n ∧ (∀ e ∈ (runAll P c ops).keySet.entries, e.num < n) ∧
      c''.keySet.entries.map Entry.num = (runAll P c ops).keySet.entries.map Entry.num ++ [n] ∧
      ∃ key, c''.keySet.entries.map Entry.key = (runAll P c ops).keySet.entries.map Entry.key ++ [key] := by
  have hi := runAll_inv hc.inv ops
  obtain ⟨key, _, _, _, _, _, _, h1, _⟩ := AddVersion_ok hi h
  generalize runAll P c ops = c0 at *
  refine ⟨c0.maxVersion + 1, ?_, ?_, ?_, key, ?_⟩
  · have := c0.maxVersion_nonneg; omega
  · intro e he
    obtain ⟨p, hp, rfl⟩ := List.mem_map.mp he
    have h2 := c0.maxVersion_ge p.2 (hi.meta_mem p hp)
    rw [hi.meta_num p hp] at h2
    show p.1 < _
    omega
  · rw [h1]
    unfold KeySet.add
    simp only [List.map_append, List.map_cons, List.map_nil]
    split <;> simp [KeySet.mapStatus]
  · rw [h1]
    unfold KeySet.add
    simp only [List.map_append, List.map_cons, List.map_nil]
    split <;> simp [KeySet.mapStatus]

/-- in a freshly loaded object the number is one more than the highest in the set -/
theorem AddVersion_number {c c' : Czar} (hc : Loaded P c) {rnd : Nat → Rand} {fuel : Nat}
    {status : KeyStatus} {size : Option Int} (h : c.AddVersion P rnd fuel status size = (.ok (), c')) (m : Int)
    (hm : 0 ≤ m) (hle : ∀ e ∈ c.keySet.entries, e.num ≤ m) (hex : m = 0 ∨ ∃ e ∈ c.keySet.entries, e.num = m) :
    c'.keySet.entries.map Entry.num = c.keySet.entries.map Entry.num ++ [m + 1] := by
  have hi := hc.inv
  obtain ⟨key, _, _, _, _, _, _, h1, _⟩ := AddVersion_ok hi h
  have hmem : ∀ o ∈ c.versions, ∃ e ∈ c.keySet.entries, e.num = (c.heap.obj o).num := by
    intro o ho
    rw [hc.fresh] at ho
    obtain ⟨p, hp, rfl⟩ := List.mem_map.mp ho
    exact ⟨c.entryOf p, List.mem_map.mpr ⟨p, hp, rfl⟩, (hi.meta_num p hp).symm⟩
  have hmax : c.maxVersion = m := by
    apply le_antisymm
    · rcases c.maxVersion_attained with h0 | ⟨o, ho, h0⟩
      · omega
      · obtain ⟨e, he, he'⟩ := hmem o ho
        have := hle e he
        omega
    · rcases hex with rfl | ⟨e, he, rfl⟩
      · exact c.maxVersion_nonneg
      · obtain ⟨p, hp, rfl⟩ := List.mem_map.mp he
        have := c.maxVersion_ge p.2 (hi.meta_mem p hp)
        rw [hi.meta_num p hp] at this
        exact this
  rw [h1, hmax]
  unfold KeySet.add
  simp only [List.map_append, List.map_cons, List.map_nil]
  split <;> simp [KeySet.mapStatus]

/-- C27 (number reuse across processes): when the highest version `n` of a set that also has
version `n - 1` is revoked and the result is loaded again, the next version gets the number `n`. -/
theorem C27_reused_after_reload (c c1 c2 c3 : Czar) (hc : Loaded P c) (n : Int) (hn : 1 ≤ n)
    (hmax : ∀ e ∈ c.keySet.entries, e.num ≤ n) (hprev : n = 1 ∨ ∃ e ∈ c.keySet.entries, e.num = n - 1)
    (hrev : c.Revoke n = (.ok (), c1)) (hc2 : Loaded P c2) (hsame : c2.keySet.entries = c1.keySet.entries)
    (rnd : Nat → Rand) (fuel : Nat) (status : KeyStatus) (size : Option Int)
    (hadd : c2.AddVersion P rnd fuel status size = (.ok (), c3)) :
    ∃ e ∈ c.keySet.entries, ∃ e' ∈ c3.keySet.entries, e.num = n ∧ e'.num = n ∧
      e ∉ c1.keySet.entries := by
  have hs := Czar.Revoke_spec hc.inv n
  cases hr : c.keySet.revoke n with
  | none => rw [hr] at hs; rw [hs] at hrev; cases hrev
  | some ks =>
    rw [hr] at hs
    obtain ⟨m, h1, -, h2, -⟩ := hs
    rw [h1] at hrev
    cases hrev
    unfold KeySet.revoke at hr
    split at hr
    · cases hr
    · next e he =>
      split at hr
      · cases hr
        have hmem := List.mem_of_find?_eq_some he
        have hnum : e.num = n := by simpa using List.find?_some he
        have e1 : c2.keySet.entries = c.keySet.entries.filter fun x => x.num ≠ n := by rw [hsame, h2]
        have h3 := AddVersion_number P hc2 hadd (n - 1) (by omega)
          (by
            intro x hx
            rw [e1, List.mem_filter] at hx
            have h4 := hmax x hx.1
            have h5 : x.num ≠ n := by simpa using hx.2
            omega)
          (by
            rcases hprev with rfl | ⟨x, hx, hx'⟩
            · exact .inl rfl
            · refine .inr ⟨x, ?_, hx'⟩
              rw [e1, List.mem_filter]
              refine ⟨hx, ?_⟩
              have : x.num ≠ n := by omega
              simpa using this)
        have h6 : n ∈ c3.keySet.entries.map Entry.num := by rw [h3]; simp
        obtain ⟨e', he', hn'⟩ := List.mem_map.mp h6
        refine ⟨e, hmem, e', he', hnum, hn', ?_⟩
        rw [h2]
        intro hx
        have := (List.mem_filter.mp hx).2
        simp [hnum] at this
      · cases hr

/-! ## C28 -/

/-- histories: a key set created empty, then changed through the four operations (possibly failing)
and written and loaded again any number of times -/
inductive History : Czar → Prop
  | created {c : Czar} : Loaded P c → c.keySet.entries = [] → History c
  | call {c : Czar} (op : Op) : History c → History (op.run P c).2
  | reloaded {c c' : Czar} : History c → Loaded P c' → c'.keySet.entries = c.keySet.entries → History c'

theorem keys_mapStatus (ks : KeySet) (f : Entry → KeyStatus) :
    (ks.mapStatus f).entries.map Entry.key = ks.entries.map Entry.key := by
  simp [KeySet.mapStatus]

theorem Distinct_keys (ks : KeySet) :
    ks.Distinct P ↔ (ks.entries.map Entry.key).Pairwise fun a b => a.hashId P ≠ b.hashId P := by
  rw [List.pairwise_map]; rfl

theorem run_distinct {c : Czar} (h : c.Inv P) (hd : c.keySet.Distinct P) (op : Op) :
    (op.run P c).2.keySet.Distinct P := by
  rw [Distinct_keys] at hd ⊢
  cases op with
  | promote n =>
    have := Czar.Promote_spec h n
    cases hs : c.keySet.promote n with
    | none => rw [hs] at this; simp only [Op.run, this]; exact hd
    | some ks =>
      rw [hs] at this
      obtain ⟨heap, pr, h1, h2, h3⟩ := this
      simp only [Op.run, h1, h2]
      rw [promote_keys hs]
      exact hd
  | demote n =>
    have := Czar.Demote_spec h n
    cases hs : c.keySet.demote n with
    | none => rw [hs] at this; simp only [Op.run, this]; exact hd
    | some ks =>
      rw [hs] at this
      obtain ⟨heap, pr, h1, h2, h3⟩ := this
      simp only [Op.run, h1, h2]
      unfold KeySet.demote at hs
      split at hs
      · cases hs
      · split at hs
        · cases hs; rw [keys_mapStatus]; exact hd
        · cases hs; rw [keys_mapStatus]; exact hd
        · cases hs
  | revoke n =>
    have := Czar.Revoke_spec h n
    cases hs : c.keySet.revoke n with
    | none => rw [hs] at this; simp only [Op.run, this]; exact hd
    | some ks =>
      rw [hs] at this
      obtain ⟨m, h1, -, h2, h3⟩ := this
      simp only [Op.run, h1, h2]
      unfold KeySet.revoke at hs
      split at hs
      · cases hs
      · split at hs
        · cases hs
          exact hd.sublist (List.filter_sublist.map _)
        · cases hs
  | add rnd fuel status size =>
    have hprep : ((c.addPrep status).keySet.entries.map Entry.key) = c.keySet.entries.map Entry.key := by
      rw [Czar.addPrep_keySet h]
      split
      · exact keys_mapStatus _ _
      · rfl
    cases ha : c.AddVersion P rnd fuel status size with
    | mk r c' =>
      simp only [Op.run, ha]
      cases r with
      | error e =>
        rw [Czar.AddVersion_eq] at ha
        split at ha
        · cases ha; exact hd
        · split at ha
          · cases ha; rw [hprep]; exact hd
          · cases ha
      | ok u =>
        obtain ⟨key, hash, j, -, -, h2, h3, h1, -⟩ := AddVersion_ok h ha
        rw [h1]
        have : (c.keySet.add (c.maxVersion + 1) status key).entries.map Entry.key =
            c.keySet.entries.map Entry.key ++ [key] := by
          unfold KeySet.add
          simp only [List.map_append, List.map_cons, List.map_nil]
          split <;> simp [KeySet.mapStatus]
        rw [this, List.pairwise_append]
        refine ⟨hd, by simp, ?_⟩
        intro a ha b hb
        simp only [List.mem_singleton] at hb
        subst hb
        obtain ⟨e, he, rfl⟩ := List.mem_map.mp ha
        obtain ⟨p, hp, rfl⟩ := List.mem_map.mp he
        obtain ⟨k, hk⟩ := h.key_some hp
        obtain ⟨hx, h4, h5⟩ := h.hashed _ (assocGet_mem hk)
        have hkey : (c.entryOf p).key = k := by unfold Czar.entryOf; simp [hk]
        rw [hkey, h2]
        intro hcontra
        simp only at h4
        rw [h4] at hcontra
        cases hcontra
        rw [h3] at h5
        cases h5

/-- C28: in every such history the key identifiers of the versions are pairwise distinct, whatever
keys the generator produces. -/
theorem C28_distinct (c : Czar) (h : History P c) : c.keySet.Distinct P ∧ c.Inv P := by
  induction h with
  | created hl he =>
    refine ⟨?_, hl.inv⟩
    unfold KeySet.Distinct
    rw [he]
    exact List.Pairwise.nil
  | call op _ ih => exact ⟨run_distinct P ih.2 ih.1 op, Op.run_inv ih.2 op⟩
  | reloaded _ hl he ih =>
    refine ⟨?_, hl.inv⟩
    unfold KeySet.Distinct
    rw [he]
    exact ih.1

/-- C28: said of identifiers: two versions with the same 4 identifier bytes are the same version. -/
theorem C28_identifiers (c : Czar) (h : History P c) (e e' : Entry) (he : e ∈ c.keySet.entries)
    (he' : e' ∈ c.keySet.entries) (id : Bytes) (hid : KeyId P.sha1 e.key id) (hid' : KeyId P.sha1 e'.key id) :
    e = e' :=
  Distinct.eq (C28_distinct P c h).1 he he'
    (((KeyId_iff P _ _).mp hid).2.trans ((KeyId_iff P _ _).mp hid').2.symm)

/-- and key generation does collide when it can: the second and third key drawn equal the first, so
the loop goes on to the fourth -/
example : (Czar.init realPrims .generic Ex.hmacEmpty).map (fun c =>
    ((runAll realPrims c [.add (fun _ => Ex.rnd) 5 .PRIMARY none,
      .add (fun i => if i < 2 then Ex.rnd else Ex.rnd') 5 .ACTIVE none]).keySet.entries.map
      fun e => (e.num, e.status))) = .ok [(1, .PRIMARY), (2, .ACTIVE)] := by decide +kernel

/-! ## C29 -/

/-- C29: a size that the key type does not have is refused with KeyczarError and nothing changes. -/
theorem C29_bad_size (c : Czar) (rnd : Nat → Rand) (fuel : Nat) (status : KeyStatus) (size : Int)
    (h : ∀ s ∈ c.keySet.type.sizes, (s : Int) ≠ size) :
    c.AddVersion P rnd fuel status (some size) = (.error .keyczarError, c) := by
  rw [Czar.AddVersion_eq, if_pos]
  simp only [Option.getD_some, KeyType.IsValidSize]
  intro hc
  rw [List.contains_iff_mem, List.mem_map] at hc
  obtain ⟨s, hs, he⟩ := hc
  exact h s hs he

/-- the documented key lengths: AES and HMAC keys of `n` bits have n/8 key bytes (with an AES key
comes an HMAC key of 256 bits); RSA and DSA keys are what PyCrypto generates for `n` bits, in both
parts of the key -/
def HasBits (rnd : Rand) (n : Nat) : Key → Prop
  | .hmac k => k.size = n ∧ ∃ kb, Base64WSDecode k.keyString = .ok kb ∧ kb.length = n / 8
  | .aes k => k.size = n ∧ (∃ kb, Base64WSDecode k.keyString = .ok kb ∧ kb.length = n / 8) ∧
      k.hmacKey.size = 256 ∧ ∃ hb, Base64WSDecode k.hmacKey.keyString = .ok hb ∧ hb.length = 32
  | .rsaPriv k => k.size = n ∧ k.pub.size = n ∧ k.key = rnd.rsaGen n ∧ k.pub.key = (rnd.rsaGen n).pub
  | .dsaPriv k => k.size = n ∧ k.pub.size = n ∧ k.key = rnd.dsaGen n ∧ k.pub.key = (rnd.dsaGen n).pub
  | .rsaPub _ | .dsaPub _ => False

theorem setSize_valid {t : KeyType} {n : Nat} (h : t.IsValidSize n = true) : setSize t n = n := by
  unfold setSize
  rw [if_pos h]
  exact Int.toNat_natCast n

theorem GenKey_size {rnd : Rand} {t : KeyType} {n : Nat} {k : Key} (h : GenKey rnd t (some (n : Int)) = .ok k) :
    HasBits rnd n k := by
  unfold GenKey at h
  simp only [Option.getD_some] at h
  split at h
  · cases h
  · next hv =>
    have hv : t.IsValidSize n = true := by simpa using hv
    simp only [Int.toNat_natCast] at h
    cases t <;> simp only at h
    · cases h
      refine ⟨setSize_valid hv, ⟨_, Base64WSDecode_encode _, rnd.bytes_length _ _⟩, rfl, ?_⟩
      exact ⟨_, Base64WSDecode_encode _, rnd.bytes_length _ _⟩
    · cases h
      exact ⟨setSize_valid hv, _, Base64WSDecode_encode _, rnd.bytes_length _ _⟩
    · cases h
      exact ⟨setSize_valid hv, setSize_valid (t := .DSA_PUB) hv, rfl, rfl⟩
    · cases h
    · cases h
      exact ⟨setSize_valid hv, setSize_valid (t := .RSA_PUB) hv, rfl, rfl⟩
    · cases h

/-- C29: a successful `AddVersion` adds a key of the requested size, which is one of the type's
sizes; without a request it has the type's default size. -/
theorem C29_size (c : Czar) (hc : Loaded P c) (ops : List Op) (rnd : Nat → Rand) (fuel : Nat)
    (status : KeyStatus) (size : Option Int) (c'' : Czar)
    (h : (runAll P c ops).AddVersion P rnd fuel status size = (.ok (), c'')) :
    ∃ (n : Nat) (key : Key) (j : Nat) (num : Int), n ∈ (runAll P c ops).keySet.type.sizes ∧
      (size = some (n : Int) ∨ size = none ∧ n = (runAll P c ops).keySet.type.defaultSize) ∧
      c''.keySet = (runAll P c ops).keySet.add num status key ∧ HasBits (rnd j) n key := by
  obtain ⟨key, hash, j, h1, h2, -, -, h3, -⟩ := AddVersion_ok (runAll_inv hc.inv ops) h
  generalize runAll P c ops = c0 at *
  unfold KeyType.IsValidSize at h2
  rw [List.contains_iff_mem, List.mem_map] at h2
  obtain ⟨n, hn, he⟩ := h2
  refine ⟨n, key, j, _, hn, ?_, h3, ?_⟩
  · cases size with
    | none => exact .inr ⟨rfl, by simpa using he⟩
    | some s => exact .inl (by simpa using he.symm)
  · rw [← he] at h1
    exact GenKey_size h1

/-! ## C30 -/

/-- C30: for AES, HMAC, DSA_PRIV and RSA_PRIV sets a call that raises leaves the object unchanged
(`diverged` stands for a generation loop that still collides after `fuel` rounds). -/
theorem C30_unchanged (c : Czar) (ht : c.keySet.type ≠ .DSA_PUB ∧ c.keySet.type ≠ .RSA_PUB)
    (rnd : Nat → Rand) (fuel : Nat) (status : KeyStatus) (size : Option Int) (e : PyErr) (c' : Czar)
    (h : c.AddVersion P rnd fuel status size = (.error e, c')) :
    e = .diverged ∨ e = .keyczarError ∧ c' = c := by
  rw [Czar.AddVersion_eq] at h
  split at h
  · cases h; exact .inr ⟨rfl, rfl⟩
  · next hs =>
    split at h
    · next hg =>
      have hm := (c.addPrep_fields status).1
      cases h
      rcases genLoop_error (by rw [hm]; simpa using hs) hg with h1 | ⟨-, h2⟩
      · exact .inl h1
      · rw [hm] at h2
        exact absurd ht h2
    · cases h

/-- C30: and the loop ends as soon as one of the rounds draws a key with a new identifier. -/
theorem C30_terminates (c : Czar) (hc : Loaded P c) (ht : c.keySet.type ≠ .DSA_PUB ∧ c.keySet.type ≠ .RSA_PUB)
    (rnd : Nat → Rand) (fuel j : Nat) (hj : j < fuel) (status : KeyStatus) (size : Option Int)
    (hs : c.keySet.type.IsValidSize (size.getD c.keySet.type.defaultSize) = true)
    (key : Key) (hash : Bytes) (hg : GenKey (rnd j) c.keySet.type (some (size.getD c.keySet.type.defaultSize)) = .ok key)
    (hh : key.hashId P = .ok hash) (hnew' : ∀ e ∈ c.keySet.entries, e.key.hashId P ≠ .ok hash) :
    ∃ c', c.AddVersion P rnd fuel status size = (.ok (), c') := by
  have hnew : assocGet c.hkeys hash = none := by
    cases hk : assocGet c.hkeys hash with
    | none => rfl
    | some k =>
      obtain ⟨h1, h2⟩ := hc.inv.hash_ok _ _ hk
      obtain ⟨e, he, rfl⟩ := (hc.fresh.mem_entries hc.inv).mp h2
      exact absurd h1 (hnew' e he)
  change c.metadata.type.IsValidSize (size.getD c.metadata.type.defaultSize) = true at hs
  rw [Czar.AddVersion_eq, if_neg (not_not.mpr hs)]
  have hm := (c.addPrep_fields status).1
  have hhk := (c.addPrep_fields status).2.2.1
  have key2 : ∀ (f i : Nat), i ≤ j → j < i + f →
      ∃ r, genLoop P (c.addPrep status) (size.getD c.metadata.type.defaultSize) rnd f i = .ok r := by
    intro f
    induction f with
    | zero => intro i h1 h2; omega
    | succ f ih =>
      intro i h1 h2
      unfold genLoop
      rw [hm]
      obtain ⟨k, hk⟩ := GenKey_generable (rnd := rnd i) ht hs
      obtain ⟨h', hh'⟩ := GenKey_hash P hk
      have hk' : GenKey (rnd i) c.metadata.type (some (size.getD c.metadata.type.defaultSize)) = .ok k := hk
      simp only [hk', hh', bind, Except.bind, hhk]
      cases hg' : assocGet c.hkeys h' with
      | none => exact ⟨_, rfl⟩
      | some _ =>
        by_cases hij : i = j
        · subst hij
          cases hg.symm.trans hk
          rw [hh] at hh'
          cases hh'
          rw [hnew] at hg'
          cases hg'
        · exact ih (i + 1) (by omega) (by omega)
  obtain ⟨⟨k, h'⟩, hr⟩ := key2 fuel 0 (by omega) (by omega)
  rw [hr]
  exact ⟨_, rfl⟩

/-- C30 is false for public key sets: asking for a new PRIMARY key raises KeyczarError but leaves the
object without any primary version, whatever set with a primary it was. -/
theorem C30_public_set_loses_primary (c : Czar) (hc : Loaded P c)
    (ht : c.keySet.type = .DSA_PUB ∨ c.keySet.type = .RSA_PUB) (e : Entry) (hp : c.keySet.primaries = [e])
    (rnd : Nat → Rand) (fuel : Nat) :
    ∃ c', c.AddVersion P rnd (fuel + 1) .PRIMARY none = (.error .keyczarError, c') ∧
      c'.keySet.primaries = [] ∧ c'.primaryKey = .error .keyNotFound := by
  have hi := hc.inv
  refine ⟨c.addPrep .PRIMARY, ?_, ?_⟩
  · have hm := (c.addPrep_fields .PRIMARY).1
    have hng : ¬ c.metadata.type.Generable := by
      intro hg
      rcases ht with ht | ht
      · exact hg.1 ht
      · exact hg.2 ht
    rw [Czar.AddVersion_eq, if_neg (by simp [IsValidSize_default])]
    have : genLoop P (c.addPrep .PRIMARY) ((none : Option Int).getD c.metadata.type.defaultSize) rnd (fuel + 1) 0 =
        .error .keyczarError := by
      unfold genLoop
      rw [hm, GenKey_public hng]
      rfl
    rw [this]
  · have h1 : (c.addPrep .PRIMARY).keySet.primaries = [] := by
      rw [Czar.addPrep_keySet hi, if_pos rfl]
      unfold KeySet.primaries KeySet.mapStatus
      rw [List.filter_eq_nil_iff]
      intro a ha
      obtain ⟨b, -, rfl⟩ := List.mem_map.mp ha
      simp only [decide_eq_true_eq]
      split
      · simp
      · next h => exact h
    refine ⟨h1, ?_⟩
    have := Czar.primaryKey_spec (Czar.addPrep_inv hi .PRIMARY)
    rw [h1] at this
    exact this

/-- C30: with another status the public key set is unchanged by the failed call. -/
theorem C30_public_set_other (c : Czar) (hc : Loaded P c) (rnd : Nat → Rand) (fuel : Nat) (status : KeyStatus)
    (size : Option Int) (e : PyErr) (c' : Czar) (hs : status ≠ .PRIMARY)
    (h : c.AddVersion P rnd fuel status size = (.error e, c')) : c'.keySet = c.keySet := by
  rw [Czar.AddVersion_eq] at h
  split at h
  · cases h; rfl
  · split at h
    · cases h
      rw [Czar.addPrep_keySet hc.inv, if_neg hs]
    · cases h

end Verif.Props
