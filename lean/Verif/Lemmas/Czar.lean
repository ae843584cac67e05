import Verif.Model.Keyczar
import Verif.Spec.KeySet
import Verif.Lemmas.Serial
import Mathlib.Data.List.Nodup
import Mathlib.Tactic.ByContra
/-
Invariant of Keyczar objects and refinement of the key management operations.
-/
namespace Verif
open Spec (Entry KeySet)

/-! ### association lists -/
section Assoc
variable {α β : Type} [DecidableEq α]

theorem assocGet_nil (k : α) : assocGet ([] : List (α × β)) k = none := rfl

theorem assocGet_cons (a : α) (b : β) (t : List (α × β)) (k : α) :
    assocGet ((a, b) :: t) k = if a = k then some b else assocGet t k := by
  unfold assocGet
  by_cases h : a = k <;> simp [h]

theorem assocGet_append (l m : List (α × β)) (k : α) :
    assocGet (l ++ m) k = (assocGet l k).or (assocGet m k) := by
  induction l with
  | nil => simp [assocGet_nil]
  | cons a t ih =>
    obtain ⟨a, b⟩ := a
    rw [List.cons_append, assocGet_cons, assocGet_cons, ih]
    split <;> rfl

theorem assocGet_none {l : List (α × β)} {k : α} : assocGet l k = none ↔ k ∉ l.map Prod.fst := by
  induction l with
  | nil => simp [assocGet_nil]
  | cons a t ih =>
    obtain ⟨a, b⟩ := a
    rw [assocGet_cons]
    by_cases h : a = k
    · simp [h]
    · simp [h, ih]; tauto

theorem assocGet_isSome {l : List (α × β)} {k : α} : (assocGet l k).isSome = true ↔ k ∈ l.map Prod.fst := by
  rw [← not_iff_not, ← assocGet_none]
  cases assocGet l k <;> simp

theorem assocGet_mem {l : List (α × β)} {k : α} {v : β} (h : assocGet l k = some v) : (k, v) ∈ l := by
  induction l with
  | nil => simp [assocGet_nil] at h
  | cons a t ih =>
    obtain ⟨a, b⟩ := a
    rw [assocGet_cons] at h
    split at h
    · next e => simp at h; simp [e, h]
    · exact List.mem_cons_of_mem _ (ih h)

theorem assocGet_of_mem {l : List (α × β)} (hn : (l.map Prod.fst).Nodup) {k : α} {v : β} (h : (k, v) ∈ l) :
    assocGet l k = some v := by
  induction l with
  | nil => simp at h
  | cons a t ih =>
    obtain ⟨a, b⟩ := a
    rw [assocGet_cons]
    simp only [List.map_cons, List.nodup_cons] at hn
    rcases List.mem_cons.mp h with h | h
    · cases h; simp
    · have : a ≠ k := by
        rintro rfl
        exact hn.1 (List.mem_map.mpr ⟨_, h, rfl⟩)
      rw [if_neg this]
      exact ih hn.2 h

theorem assocGet_set (l : List (α × β)) (k k' : α) (v : β) :
    assocGet (assocSet l k v) k' = if k = k' then some v else assocGet l k' := by
  induction l with
  | nil => simp [assocSet, assocGet_cons, assocGet_nil]
  | cons a t ih =>
    obtain ⟨a, b⟩ := a
    rw [assocSet]
    split
    · next h => subst h; rw [assocGet_cons, assocGet_cons]; split <;> simp_all
    · next h => rw [assocGet_cons, assocGet_cons, ih]; split <;> split <;> simp_all

theorem assocSet_new {l : List (α × β)} {k : α} (h : k ∉ l.map Prod.fst) (v : β) :
    assocSet l k v = l ++ [(k, v)] := by
  induction l with
  | nil => rfl
  | cons a t ih =>
    obtain ⟨a, b⟩ := a
    simp only [List.map_cons, List.mem_cons, not_or] at h
    rw [assocSet, if_neg (fun e => h.1 e.symm), ih h.2]
    rfl

theorem assocSet_keys (l : List (α × β)) (k : α) (v : β) (x : α) :
    x ∈ (assocSet l k v).map Prod.fst ↔ x = k ∨ x ∈ l.map Prod.fst := by
  rw [← assocGet_isSome, assocGet_set, ← assocGet_isSome]
  split
  · next h => simp [h]
  · next h => simp [Ne.symm h]

theorem mem_assocSet {l : List (α × β)} {k : α} {v : β} {p : α × β} (h : p ∈ assocSet l k v) :
    p = (k, v) ∨ p ∈ l := by
  induction l with
  | nil => simp [assocSet] at h; exact .inl h
  | cons a t ih =>
    obtain ⟨a, b⟩ := a
    rw [assocSet] at h
    split at h
    · rcases List.mem_cons.mp h with h | h
      · exact .inl h
      · exact .inr (List.mem_cons_of_mem _ h)
    · rcases List.mem_cons.mp h with h | h
      · exact .inr (by simp [h])
      · rcases ih h with h | h
        · exact .inl h
        · exact .inr (List.mem_cons_of_mem _ h)

end Assoc

/-! ### the invariant -/

instance : Inhabited Key := ⟨.hmac ⟨[], 0⟩⟩

/-- the version the metadata entry `p` stands for -/
def Czar.entryOf (c : Czar) (p : Int × Nat) : Entry :=
  ⟨p.1, (c.heap.obj p.2).status, (c.heap.obj p.2).exportable, (assocGet c.vkeys p.2).getD default⟩

/-- the key set that the object's metadata and keys describe -/
def Czar.keySet (c : Czar) : KeySet :=
  ⟨c.metadata.name, c.metadata.purpose, c.metadata.type, c.metadata.encrypted,
   c.metadata.versions.map c.entryOf⟩

variable (P : Prims)

/-- invariant of every Keyczar object, also after failed operations -/
structure Czar.Inv (c : Czar) : Prop where
  meta_num : ∀ p ∈ c.metadata.versions, (c.heap.obj p.2).num = p.1
  meta_nodup : (c.metadata.versions.map Prod.fst).Nodup
  meta_mem : ∀ p ∈ c.metadata.versions, p.2 ∈ c.versions
  v_nodup : c.versions.Nodup
  v_lt : ∀ o ∈ c.versions, o < c.heap.next
  v_num : ∀ o ∈ c.versions, ∀ o' ∈ c.versions, (c.heap.obj o).num = (c.heap.obj o').num → o = o'
  primary_lt : ∀ o, c.primary = some o → o < c.heap.next
  primary_of : ∀ p ∈ c.metadata.versions, (c.heap.obj p.2).status = .PRIMARY → c.primary = some p.2
  primary_is : ∀ o, c.primary = some o → o ∈ c.versions →
    (c.heap.obj o).status = .PRIMARY ∧ ∃ n, (n, o) ∈ c.metadata.versions
  hash_ok : ∀ h k, assocGet c.hkeys h = some k → k.hashId P = .ok h ∧ ∃ o, assocGet c.vkeys o = some k
  hashed : ∀ p ∈ c.vkeys, ∃ h, p.2.hashId P = .ok h ∧ (assocGet c.hkeys h).isSome
  type_ok : ∀ p ∈ c.vkeys, p.2.Ok ∧ p.2.type = c.metadata.type

variable {P}

namespace Czar.Inv
variable {c : Czar}

theorem oid_eq (h : c.Inv P) {p q : Int × Nat} (hp : p ∈ c.metadata.versions) (hq : q ∈ c.metadata.versions)
    (e : p.2 = q.2) : p = q := by
  have h1 := h.meta_num p hp
  have h2 := h.meta_num q hq
  rw [e] at h1
  exact Prod.ext (h1.symm.trans h2) e

theorem num_eq (h : c.Inv P) {p q : Int × Nat} (hp : p ∈ c.metadata.versions) (hq : q ∈ c.metadata.versions)
    (e : p.1 = q.1) : p = q := by
  obtain ⟨n, o⟩ := p
  obtain ⟨m, o'⟩ := q
  simp only at e
  subst e
  have h1 := assocGet_of_mem h.meta_nodup hp
  have h2 := assocGet_of_mem h.meta_nodup hq
  rw [h1] at h2
  cases h2
  rfl

theorem key_some (h : c.Inv P) {p : Int × Nat} (hp : p ∈ c.metadata.versions) :
    ∃ k, assocGet c.vkeys p.2 = some k := by
  have := assocGet_isSome.mpr (h.meta_mem p hp)
  exact Option.isSome_iff_exists.mp this

theorem find_eq (h : c.Inv P) (n : Int) :
    c.keySet.find n = (assocGet c.metadata.versions n).map fun o => c.entryOf (n, o) := by
  have _ := h
  unfold Spec.KeySet.find Czar.keySet
  simp only
  generalize c.metadata.versions = l
  induction l with
  | nil => rfl
  | cons a t ih =>
    obtain ⟨m, o⟩ := a
    rw [assocGet_cons, List.map_cons, List.find?_cons]
    by_cases e : m = n
    · subst e; simp [Czar.entryOf]
    · have : decide ((c.entryOf (m, o)).num = n) = false := decide_eq_false e
      simp only [this, if_neg e]
      exact ih

/-- at most one version is primary -/
theorem valid (h : c.Inv P) : c.keySet.Valid := by
  constructor
  · unfold Czar.keySet
    simp only [List.map_map]
    have : (Entry.num ∘ c.entryOf) = Prod.fst := rfl
    rw [this]
    exact h.meta_nodup
  · unfold Spec.KeySet.primaries Czar.keySet
    simp only
    rw [List.filter_map, List.length_map]
    have hnd : (c.metadata.versions.filter ((fun e : Entry => decide (e.status = .PRIMARY)) ∘ c.entryOf)).Nodup :=
      (List.Nodup.of_map _ h.meta_nodup).filter _
    by_contra hlt
    generalize hl : c.metadata.versions.filter ((fun e : Entry => decide (e.status = .PRIMARY)) ∘ c.entryOf) = l at *
    match l, hlt with
    | p :: q :: t, _ =>
      have hp : p ∈ c.metadata.versions.filter ((fun e : Entry => decide (e.status = .PRIMARY)) ∘ c.entryOf) := by
        rw [hl]; simp
      have hq : q ∈ c.metadata.versions.filter ((fun e : Entry => decide (e.status = .PRIMARY)) ∘ c.entryOf) := by
        rw [hl]; simp
      rw [List.mem_filter] at hp hq
      have e1 := h.primary_of p hp.1 (of_decide_eq_true hp.2)
      have e2 := h.primary_of q hq.1 (of_decide_eq_true hq.2)
      rw [e1] at e2
      have : p = q := h.oid_eq hp.1 hq.1 (by simpa using e2)
      subst this
      simp at hnd
    | [], h => simp at h
    | [_], h => simp at h

end Czar.Inv

/-! ### status changes -/

theorem Heap.setStatus_num (h : Heap) (o : Nat) (s : KeyStatus) (o' : Nat) :
    ((h.setStatus o s).obj o').num = (h.obj o').num := by
  unfold Heap.setStatus
  simp only
  split
  · next e => rw [e]
  · rfl

theorem Heap.setStatus_exportable (h : Heap) (o : Nat) (s : KeyStatus) (o' : Nat) :
    ((h.setStatus o s).obj o').exportable = (h.obj o').exportable := by
  unfold Heap.setStatus
  simp only
  split
  · next e => rw [e]
  · rfl

theorem Heap.setStatus_status (h : Heap) (o : Nat) (s : KeyStatus) (o' : Nat) :
    ((h.setStatus o s).obj o').status = if o' = o then s else (h.obj o').status := by
  unfold Heap.setStatus
  simp only
  split <;> rfl

theorem Heap.setStatus_next (h : Heap) (o : Nat) (s : KeyStatus) : (h.setStatus o s).next = h.next := rfl

/-- a change of statuses (heap with the same numbers) and of the primary pointer keeps the invariant -/
theorem Czar.Inv.update {c : Czar} (h : c.Inv P) (heap : Heap) (primary : Option Nat)
    (hnext : heap.next = c.heap.next) (hnum : ∀ o, (heap.obj o).num = (c.heap.obj o).num)
    (hlt : ∀ o, primary = some o → o < c.heap.next)
    (hof : ∀ p ∈ c.metadata.versions, (heap.obj p.2).status = .PRIMARY → primary = some p.2)
    (his : ∀ o, primary = some o → o ∈ c.versions →
      (heap.obj o).status = .PRIMARY ∧ ∃ n, (n, o) ∈ c.metadata.versions) :
    ({ c with heap := heap, primary := primary } : Czar).Inv P where
  meta_num := by intro p hp; simp only; rw [hnum]; exact h.meta_num p hp
  meta_nodup := h.meta_nodup
  meta_mem := h.meta_mem
  v_nodup := h.v_nodup
  v_lt := by intro o ho; simp only; rw [hnext]; exact h.v_lt o ho
  v_num := by intro o ho o' ho' e; simp only [hnum] at e; exact h.v_num o ho o' ho' e
  primary_lt := by intro o ho; simp only; rw [hnext]; exact hlt o ho
  primary_of := hof
  primary_is := his
  hash_ok := h.hash_ok
  hashed := h.hashed
  type_ok := h.type_ok

/-- the key set after a change of statuses -/
theorem Czar.keySet_update (c : Czar) (heap : Heap) (primary : Option Nat) (f : Entry → KeyStatus)
    (hexp : ∀ o, (heap.obj o).exportable = (c.heap.obj o).exportable)
    (hf : ∀ p ∈ c.metadata.versions, (heap.obj p.2).status = f (c.entryOf p)) :
    ({ c with heap := heap, primary := primary } : Czar).keySet = c.keySet.mapStatus f := by
  unfold Czar.keySet Spec.KeySet.mapStatus
  simp only [List.map_map]
  congr 1
  apply List.map_congr_left
  intro p hp
  unfold Czar.entryOf
  simp only [Function.comp, hexp, hf p hp]
  rfl

/-- `Promote` refines the specification -/
theorem Czar.Promote_spec {c : Czar} (h : c.Inv P) (n : Int) :
    match c.keySet.promote n with
    | none => c.Promote n = (.error .keyczarError, c)
    | some ks => ∃ heap primary, c.Promote n = (.ok (), { c with heap := heap, primary := primary }) ∧
        ({ c with heap := heap, primary := primary } : Czar).keySet = ks ∧
        ({ c with heap := heap, primary := primary } : Czar).Inv P := by
  unfold Spec.KeySet.promote Czar.Promote KeyMetadata.GetVersion
  rw [h.find_eq]
  cases hg : assocGet c.metadata.versions n with
  | none => rfl
  | some o =>
    have hm := assocGet_mem hg
    have hov := h.meta_mem _ hm
    simp only [Option.map_some]
    have hst : (c.entryOf (n, o)).status = (c.heap.obj o).status := rfl
    rw [hst]
    cases hs : (c.heap.obj o).status with
    | PRIMARY => rfl
    | ACTIVE =>
      simp only
      -- the old primary is another object
      have hpo : c.primary ≠ some o := by
        intro e
        have := (h.primary_is o e hov).1
        rw [hs] at this
        cases this
      obtain ⟨heap, hheap⟩ : ∃ heap, heap = (match c.primary with
        | some p => (c.heap.setStatus o .PRIMARY).setStatus p .ACTIVE
        | none => c.heap.setStatus o .PRIMARY) := ⟨_, rfl⟩
      refine ⟨heap, some o, by rw [hheap]; cases c.primary <;> rfl, ?_, ?_⟩
      · apply Czar.keySet_update
        · intro o'; rw [hheap]; cases c.primary <;> simp only [Heap.setStatus_exportable]
        · intro p hp
          have hiff : p.2 = o ↔ p.1 = n := by
            constructor
            · intro e; exact congrArg Prod.fst (h.oid_eq hp hm e)
            · intro e; exact congrArg Prod.snd (h.num_eq hp hm e)
          rw [hheap]
          show _ = if p.1 = n then KeyStatus.PRIMARY else
            if (c.heap.obj p.2).status = .PRIMARY then .ACTIVE else (c.heap.obj p.2).status
          cases hpr : c.primary with
          | none =>
            simp only [Heap.setStatus_status]
            by_cases e : p.2 = o
            · rw [if_pos e, if_pos (hiff.mp e)]
            · rw [if_neg e, if_neg (fun x => e (hiff.mpr x)), if_neg]
              intro x
              have := h.primary_of p hp x
              rw [hpr] at this
              cases this
          | some q =>
            simp only [Heap.setStatus_status]
            have hqo : q ≠ o := fun e => hpo (by rw [hpr, e])
            by_cases e : p.2 = o
            · rw [if_neg (by rw [e]; exact fun x => hqo x.symm), if_pos e, if_pos (hiff.mp e)]
            · rw [if_neg (fun x => e (hiff.mpr x))]
              by_cases e2 : p.2 = q
              · rw [if_pos e2]
                have := (h.primary_is q hpr (by rw [← e2]; exact h.meta_mem p hp)).1
                rw [e2, if_pos this]
              · rw [if_neg e2, if_neg e, if_neg]
                intro x
                have := h.primary_of p hp x
                rw [hpr] at this
                exact e2 (by simpa using this.symm)
      · apply h.update
        · rw [hheap]; cases c.primary <;> rfl
        · intro o'; rw [hheap]; cases c.primary <;> simp only [Heap.setStatus_num]
        · intro o' e; cases e; exact h.v_lt o hov
        · intro p hp e
          rw [hheap] at e
          by_contra hne
          have hpo' : p.2 ≠ o := fun x => hne (by rw [x])
          cases hpr : c.primary with
          | none =>
            rw [hpr] at e
            simp only [Heap.setStatus_status, if_neg hpo'] at e
            have := h.primary_of p hp e
            rw [hpr] at this
            cases this
          | some q =>
            rw [hpr] at e
            simp only [Heap.setStatus_status, if_neg hpo'] at e
            split at e
            · cases e
            · next e2 =>
              have := h.primary_of p hp e
              rw [hpr] at this
              exact e2 (by simpa using this.symm)
        · intro o' e _
          cases e
          refine ⟨?_, n, hm⟩
          rw [hheap]
          cases hpr : c.primary with
          | none => simp only [Heap.setStatus_status, if_true]
          | some q =>
            have hqo : q ≠ o := fun e => hpo (by rw [hpr, e])
            simp only [Heap.setStatus_status]
            rw [if_neg (fun x => hqo x.symm), if_pos (by trivial)]
    | INACTIVE =>
      refine ⟨c.heap.setStatus o .ACTIVE, c.primary, rfl, ?_, ?_⟩
      · apply Czar.keySet_update
        · intro o'; exact Heap.setStatus_exportable _ _ _ _
        · intro p hp
          rw [Heap.setStatus_status]
          show _ = if p.1 = n then KeyStatus.ACTIVE else (c.heap.obj p.2).status
          by_cases e : p.2 = o
          · rw [if_pos e, if_pos (congrArg Prod.fst (h.oid_eq hp hm e))]
          · rw [if_neg e, if_neg (fun x => e (congrArg Prod.snd (h.num_eq hp hm x)))]
      · apply h.update
        · rfl
        · intro o'; exact Heap.setStatus_num _ _ _ _
        · exact h.primary_lt
        · intro p hp e
          rw [Heap.setStatus_status] at e
          split at e
          · cases e
          · exact h.primary_of p hp e
        · intro o' e hv
          have := h.primary_is o' e hv
          refine ⟨?_, this.2⟩
          rw [Heap.setStatus_status, if_neg]
          · exact this.1
          · rintro rfl
            rw [hs] at this
            cases this.1

/-- `Demote` refines the specification -/
theorem Czar.Demote_spec {c : Czar} (h : c.Inv P) (n : Int) :
    match c.keySet.demote n with
    | none => c.Demote n = (.error .keyczarError, c)
    | some ks => ∃ heap primary, c.Demote n = (.ok (), { c with heap := heap, primary := primary }) ∧
        ({ c with heap := heap, primary := primary } : Czar).keySet = ks ∧
        ({ c with heap := heap, primary := primary } : Czar).Inv P := by
  unfold Spec.KeySet.demote Czar.Demote KeyMetadata.GetVersion
  rw [h.find_eq]
  cases hg : assocGet c.metadata.versions n with
  | none => rfl
  | some o =>
    have hm := assocGet_mem hg
    have hov := h.meta_mem _ hm
    simp only [Option.map_some]
    have hst : (c.entryOf (n, o)).status = (c.heap.obj o).status := rfl
    rw [hst]
    have hf : ∀ (s : KeyStatus) p, p ∈ c.metadata.versions →
        ((c.heap.setStatus o s).obj p.2).status =
          (fun x : Entry => if x.num = n then s else x.status) (c.entryOf p) := by
      intro s p hp
      rw [Heap.setStatus_status]
      show _ = if p.1 = n then s else (c.heap.obj p.2).status
      by_cases e : p.2 = o
      · rw [if_pos e, if_pos (congrArg Prod.fst (h.oid_eq hp hm e))]
      · rw [if_neg e, if_neg (fun x => e (congrArg Prod.snd (h.num_eq hp hm x)))]
    cases hs : (c.heap.obj o).status with
    | PRIMARY =>
      refine ⟨c.heap.setStatus o .ACTIVE, none, rfl, ?_, ?_⟩
      · exact Czar.keySet_update c _ _ _ (fun o' => Heap.setStatus_exportable _ _ _ _) (hf .ACTIVE)
      · apply h.update
        · rfl
        · intro o'; exact Heap.setStatus_num _ _ _ _
        · intro o' e; cases e
        · intro p hp e
          rw [Heap.setStatus_status] at e
          split at e
          · cases e
          · next ne =>
            have e1 := h.primary_of p hp e
            have e2 := h.primary_of _ hm hs
            rw [e1] at e2
            exact absurd (by simpa using e2) ne
        · intro o' e; cases e
    | ACTIVE =>
      refine ⟨c.heap.setStatus o .INACTIVE, c.primary, rfl, ?_, ?_⟩
      · exact Czar.keySet_update c _ _ _ (fun o' => Heap.setStatus_exportable _ _ _ _) (hf .INACTIVE)
      · apply h.update
        · rfl
        · intro o'; exact Heap.setStatus_num _ _ _ _
        · exact h.primary_lt
        · intro p hp e
          rw [Heap.setStatus_status] at e
          split at e
          · cases e
          · exact h.primary_of p hp e
        · intro o' e hv
          have := h.primary_is o' e hv
          refine ⟨?_, this.2⟩
          rw [Heap.setStatus_status, if_neg]
          · exact this.1
          · rintro rfl
            rw [hs] at this
            cases this.1
    | INACTIVE => rfl

/-- `Revoke` refines the specification; the key stays in `_keys` -/
theorem Czar.Revoke_spec {c : Czar} (h : c.Inv P) (n : Int) :
    match c.keySet.revoke n with
    | none => c.Revoke n = (.error .keyczarError, c)
    | some ks => ∃ m, c.Revoke n = (.ok (), { c with metadata := m }) ∧
        m = { c.metadata with versions := c.metadata.versions.filter fun p => p.1 ≠ n } ∧
        ({ c with metadata := m } : Czar).keySet = ks ∧ ({ c with metadata := m } : Czar).Inv P := by
  unfold Spec.KeySet.revoke Czar.Revoke KeyMetadata.GetVersion KeyMetadata.RemoveVersion
  rw [h.find_eq]
  cases hg : assocGet c.metadata.versions n with
  | none => rfl
  | some o =>
    have hm := assocGet_mem hg
    simp only [Option.map_some]
    have hst : (c.entryOf (n, o)).status = (c.heap.obj o).status := rfl
    rw [hst]
    cases hs : (c.heap.obj o).status with
    | PRIMARY => rfl
    | ACTIVE => rfl
    | INACTIVE =>
      refine ⟨_, rfl, rfl, ?_, ?_⟩
      · unfold Czar.keySet
        simp only [List.filter_map]
        rfl
      · constructor
        · intro p hp; exact h.meta_num p (List.mem_of_mem_filter hp)
        · exact (h.meta_nodup.sublist ((List.filter_sublist).map _))
        · intro p hp; exact h.meta_mem p (List.mem_of_mem_filter hp)
        · exact h.v_nodup
        · exact h.v_lt
        · exact h.v_num
        · exact h.primary_lt
        · intro p hp; exact h.primary_of p (List.mem_of_mem_filter hp)
        · intro o' e hv
          obtain ⟨h1, m, h2⟩ := h.primary_is o' e hv
          refine ⟨h1, m, ?_⟩
          rw [List.mem_filter]
          refine ⟨h2, ?_⟩
          simp only [decide_eq_true_eq]
          rintro rfl
          have := congrArg Prod.snd (h.num_eq h2 hm rfl)
          simp only at this
          subst this
          rw [hs] at h1
          cases h1
        · exact h.hash_ok
        · exact h.hashed
        · exact h.type_ok
/-! ### AddVersion -/

theorem foldl_max (f : Nat → Int) (l : List Nat) (m : Int) :
    m ≤ l.foldl (fun m o => if m < f o then f o else m) m ∧
    (∀ o ∈ l, f o ≤ l.foldl (fun m o => if m < f o then f o else m) m) ∧
    (l.foldl (fun m o => if m < f o then f o else m) m = m ∨
      ∃ o ∈ l, l.foldl (fun m o => if m < f o then f o else m) m = f o) := by
  induction l generalizing m with
  | nil => simp
  | cons a t ih =>
    rw [List.foldl_cons]
    obtain ⟨h1, h2, h3⟩ := ih (if m < f a then f a else m)
    refine ⟨?_, ?_, ?_⟩
    · refine le_trans ?_ h1
      split <;> omega
    · intro o ho
      rcases List.mem_cons.mp ho with rfl | ho
      · refine le_trans ?_ h1
        split <;> omega
      · exact h2 o ho
    · rcases h3 with h3 | ⟨o, ho, h3⟩
      · by_cases hm : m < f a
        · rw [if_pos hm] at h3 ⊢
          exact .inr ⟨a, by simp, h3⟩
        · rw [if_neg hm] at h3 ⊢
          exact .inl h3
      · exact .inr ⟨o, by simp [ho], h3⟩

theorem Czar.maxVersion_ge (c : Czar) : ∀ o ∈ c.versions, (c.heap.obj o).num ≤ c.maxVersion :=
  (foldl_max _ _ _).2.1

theorem Czar.maxVersion_nonneg (c : Czar) : 0 ≤ c.maxVersion := (foldl_max _ _ _).1

theorem Czar.maxVersion_attained (c : Czar) :
    c.maxVersion = 0 ∨ ∃ o ∈ c.versions, c.maxVersion = (c.heap.obj o).num := (foldl_max _ _ _).2.2

/-- what the generation loop returns -/
theorem genLoop_ok {c : Czar} {size : Int} {rnd : Nat → Rand} {fuel i : Nat} {key : Key} {hash : Bytes}
    (h : genLoop P c size rnd fuel i = .ok (key, hash)) :
    (∃ j, i ≤ j ∧ j < i + fuel ∧ GenKey (rnd j) c.metadata.type (some size) = .ok key) ∧
      key.hashId P = .ok hash ∧ assocGet c.hkeys hash = none := by
  induction fuel generalizing i with
  | zero => cases h
  | succ fuel ih =>
    unfold genLoop at h
    obtain ⟨k, hk, h⟩ := bind_ok h
    obtain ⟨hs, hh, h⟩ := bind_ok h
    cases hg : assocGet c.hkeys hs with
    | none =>
      rw [hg] at h
      have := Except.ok.inj h
      cases this
      exact ⟨⟨i, by omega, by omega, hk⟩, hh, hg⟩
    | some k' =>
      rw [hg] at h
      obtain ⟨⟨j, h1, h2, h3⟩, h4⟩ := ih h
      exact ⟨⟨j, by omega, by omega, h3⟩, h4⟩

/-- generated keys have an identifier -/
theorem GenKey_hash (P : Prims) {rnd : Rand} {t : KeyType} {size : Option Int} {k : Key}
    (h : GenKey rnd t size = .ok k) : ∃ hash, k.hashId P = .ok hash := by
  unfold GenKey at h
  simp only at h
  split at h
  · cases h
  · cases t <;> simp only at h
    · have := Except.ok.inj h; subst this
      exact ⟨_, by simp only [Key.hashId, AesKey.hashId, AesKey.keyBytes, HmacKey.keyBytes, AesKey.Generate, HmacKey.Generate,
        Base64WSDecode_encode, bind, Except.bind, pure, Except.pure]; rfl⟩
    · have := Except.ok.inj h; subst this
      exact ⟨_, by simp only [Key.hashId, HmacKey.hashId, HmacKey.keyBytes, HmacKey.Generate,
        Base64WSDecode_encode, bind, Except.bind, pure, Except.pure]; rfl⟩
    · have := Except.ok.inj h; subst this
      exact ⟨_, rfl⟩
    · cases h
    · have := Except.ok.inj h; subst this
      exact ⟨_, rfl⟩
    · cases h

/-- key types for which keys can be generated -/
def KeyType.Generable (t : KeyType) : Prop := t ≠ .DSA_PUB ∧ t ≠ .RSA_PUB

theorem GenKey_generable {rnd : Rand} {t : KeyType} {size : Int} (ht : t.Generable) (hs : t.IsValidSize size = true) :
    ∃ k, GenKey rnd t (some size) = .ok k := by
  unfold GenKey
  simp only [Option.getD_some]
  rw [if_neg (by simp [hs])]
  cases t
  · exact ⟨_, rfl⟩
  · exact ⟨_, rfl⟩
  · exact ⟨_, rfl⟩
  · exact absurd rfl ht.1
  · exact ⟨_, rfl⟩
  · exact absurd rfl ht.2

theorem GenKey_public {rnd : Rand} {t : KeyType} {size : Option Int} (ht : ¬ t.Generable) :
    GenKey rnd t size = .error .keyczarError := by
  unfold GenKey
  simp only
  split
  · rfl
  · cases t <;> first | rfl | (exact absurd ⟨by decide, by decide⟩ ht)

theorem genLoop_error {c : Czar} {size : Int} {rnd : Nat → Rand} {fuel i : Nat} {e : PyErr}
    (hs : c.metadata.type.IsValidSize size = true)
    (h : genLoop P c size rnd fuel i = .error e) :
    e = .diverged ∨ (e = .keyczarError ∧ ¬ c.metadata.type.Generable) := by
  induction fuel generalizing i with
  | zero => cases h; exact .inl rfl
  | succ fuel ih =>
    unfold genLoop at h
    by_cases ht : c.metadata.type.Generable
    · obtain ⟨k, hk⟩ := GenKey_generable (rnd := rnd i) ht hs
      obtain ⟨hash, hh⟩ := GenKey_hash P hk
      simp only [hk, hh, bind, Except.bind] at h
      cases hg : assocGet c.hkeys hash with
      | none => rw [hg] at h; cases h
      | some k' => rw [hg] at h; exact ih h
    · rw [GenKey_public ht] at h
      cases h
      exact .inr ⟨rfl, ht⟩

/-- the object between the status bookkeeping and key generation -/
def Czar.addPrep (c : Czar) (status : KeyStatus) : Czar :=
  let heap := c.heap.alloc ⟨c.maxVersion + 1, status, .bool false⟩
  if status = .PRIMARY then
    { c with heap := (match c.primary with
                      | some p => heap.setStatus p .ACTIVE
                      | none => heap)
             primary := some c.heap.next }
  else { c with heap := heap }

theorem Czar.AddVersion_eq (c : Czar) (rnd : Nat → Rand) (fuel : Nat) (status : KeyStatus) (size : Option Int) :
    c.AddVersion P rnd fuel status size =
      if ¬ c.metadata.type.IsValidSize (size.getD c.metadata.type.defaultSize) then (.error .keyczarError, c)
      else match genLoop P (c.addPrep status) (size.getD c.metadata.type.defaultSize) rnd fuel 0 with
        | .error e => (.error e, c.addPrep status)
        | .ok (key, hash) => (.ok (), (c.addPrep status).AddKeyObj c.heap.next key hash) := rfl

theorem Czar.addPrep_fields (c : Czar) (status : KeyStatus) :
    (c.addPrep status).metadata = c.metadata ∧ (c.addPrep status).vkeys = c.vkeys ∧
    (c.addPrep status).hkeys = c.hkeys ∧ (c.addPrep status).heap.next = c.heap.next + 1 := by
  unfold Czar.addPrep
  simp only
  split
  · refine ⟨rfl, rfl, rfl, ?_⟩
    simp only
    split <;> rfl
  · exact ⟨rfl, rfl, rfl, rfl⟩

/-- objects of the prepared heap -/
theorem Czar.addPrep_obj {c : Czar} (h : c.Inv P) (status : KeyStatus) (o : Nat) :
    (c.addPrep status).heap.obj o =
      if o = c.heap.next then ⟨c.maxVersion + 1, status, .bool false⟩
      else if status = .PRIMARY ∧ c.primary = some o then { c.heap.obj o with status := .ACTIVE }
      else c.heap.obj o := by
  unfold Czar.addPrep
  simp only
  by_cases hs : status = .PRIMARY
  · rw [if_pos hs]
    simp only
    cases hp : c.primary with
    | none =>
      simp only [Heap.alloc]
      split
      · rfl
      · rw [if_neg (by simp)]
    | some q =>
      have hq := h.primary_lt q hp
      simp only [Heap.alloc, Heap.setStatus, Option.some.injEq]
      by_cases e : o = q
      · subst e
        rw [if_pos rfl, if_neg (by omega), if_neg (by omega), if_pos ⟨hs, rfl⟩]
      · rw [if_neg e]
        split
        · rfl
        · rw [if_neg (fun x => e x.2.symm)]
  · rw [if_neg hs]
    simp only [Heap.alloc]
    split
    · rfl
    · rw [if_neg (fun x => hs x.1)]

theorem Czar.addPrep_num {c : Czar} (h : c.Inv P) (status : KeyStatus) {o : Nat} (ho : o < c.heap.next) :
    ((c.addPrep status).heap.obj o).num = (c.heap.obj o).num := by
  rw [c.addPrep_obj h, if_neg (by omega)]
  split <;> rfl

theorem Czar.addPrep_primary (c : Czar) (status : KeyStatus) :
    (c.addPrep status).primary = if status = .PRIMARY then some c.heap.next else c.primary := by
  unfold Czar.addPrep
  simp only
  split <;> rfl

theorem Czar.Inv.meta_lt {c : Czar} (h : c.Inv P) {p : Int × Nat} (hp : p ∈ c.metadata.versions) :
    p.2 < c.heap.next := h.v_lt _ (h.meta_mem p hp)

/-- statuses before key generation -/
theorem Czar.addPrep_entry {c : Czar} (h : c.Inv P) (status : KeyStatus) {p : Int × Nat}
    (hp : p ∈ c.metadata.versions) :
    (c.addPrep status).entryOf p =
      { c.entryOf p with status := if status = .PRIMARY ∧ (c.entryOf p).status = .PRIMARY then .ACTIVE
                                   else (c.entryOf p).status } := by
  obtain ⟨hm, hv, hh, hn⟩ := c.addPrep_fields status
  unfold Czar.entryOf
  rw [hv, c.addPrep_obj h, if_neg (by have := h.meta_lt hp; omega)]
  by_cases hc : status = .PRIMARY ∧ c.primary = some p.2
  · rw [if_pos hc]
    have := (h.primary_is p.2 hc.2 (h.meta_mem p hp)).1
    simp only [this, hc.1, and_self, if_true]
  · rw [if_neg hc]
    simp only
    rw [if_neg]
    rintro ⟨h1, h2⟩
    exact hc ⟨h1, h.primary_of p hp h2⟩

theorem Czar.addPrep_keySet {c : Czar} (h : c.Inv P) (status : KeyStatus) :
    (c.addPrep status).keySet = if status = .PRIMARY
      then c.keySet.mapStatus fun x => if x.status = .PRIMARY then .ACTIVE else x.status
      else c.keySet := by
  obtain ⟨hm, hv, hh, hn⟩ := c.addPrep_fields status
  have key : c.metadata.versions.map (c.addPrep status).entryOf = c.metadata.versions.map (fun p =>
      { c.entryOf p with status := if status = .PRIMARY ∧ (c.entryOf p).status = .PRIMARY then .ACTIVE
                                   else (c.entryOf p).status }) :=
    List.map_congr_left fun p hp => c.addPrep_entry h status hp
  unfold Czar.keySet
  rw [hm, key]
  split
  · next hs =>
    unfold Spec.KeySet.mapStatus
    simp only [List.map_map]
    congr 1
    apply List.map_congr_left
    intro p _
    simp only [hs, Function.comp, true_and]
  · next hs =>
    congr 1
    apply List.map_congr_left
    intro p _
    simp only [hs, false_and, if_false]

theorem Czar.addPrep_inv {c : Czar} (h : c.Inv P) (status : KeyStatus) : (c.addPrep status).Inv P := by
  obtain ⟨hm, hv, hh, hn⟩ := c.addPrep_fields status
  have hvs : (c.addPrep status).versions = c.versions := by unfold Czar.versions; rw [hv]
  constructor
  · intro p hp
    rw [hm] at hp
    rw [c.addPrep_num h status (h.meta_lt hp)]
    exact h.meta_num p hp
  · rw [hm]; exact h.meta_nodup
  · rw [hm, hvs]; exact h.meta_mem
  · rw [hvs]; exact h.v_nodup
  · rw [hvs, hn]; intro o ho; have := h.v_lt o ho; omega
  · rw [hvs]
    intro o ho o' ho' e
    rw [c.addPrep_num h status (h.v_lt o ho), c.addPrep_num h status (h.v_lt o' ho')] at e
    exact h.v_num o ho o' ho' e
  · intro o ho
    rw [hn]
    rw [c.addPrep_primary] at ho
    split at ho
    · cases ho; omega
    · have := h.primary_lt o ho; omega
  · intro p hp e
    rw [hm] at hp
    have e' : ((c.addPrep status).entryOf p).status = .PRIMARY := e
    rw [c.addPrep_entry h status hp] at e'
    simp only at e'
    rw [c.addPrep_primary]
    split at e'
    · cases e'
    · next hc =>
      have hs : status ≠ .PRIMARY := fun x => hc ⟨x, e'⟩
      rw [if_neg hs]
      exact h.primary_of p hp e'
  · intro o ho hov
    rw [hvs] at hov
    have hlt := h.v_lt o hov
    rw [c.addPrep_primary] at ho
    split at ho
    · cases ho; omega
    · next hs =>
      rw [hm, c.addPrep_obj h, if_neg (by omega), if_neg (fun x => hs x.1)]
      exact h.primary_is o ho hov
  · rw [hh, hv]; exact h.hash_ok
  · rw [hh, hv]; exact h.hashed
  · rw [hv, hm]; exact h.type_ok

theorem Czar.AddKeyObj_spec {c : Czar} (h : c.Inv P) (status : KeyStatus) (key : Key) (hash : Bytes)
    (hh : key.hashId P = .ok hash) (hnew : assocGet c.hkeys hash = none)
    (hok : key.Ok) (hty : key.type = c.metadata.type) :
    ((c.addPrep status).AddKeyObj c.heap.next key hash).keySet = c.keySet.add (c.maxVersion + 1) status key ∧
    ((c.addPrep status).AddKeyObj c.heap.next key hash).Inv P ∧
    ((c.addPrep status).AddKeyObj c.heap.next key hash).vkeys = c.vkeys ++ [(c.heap.next, key)] ∧
    ((c.addPrep status).AddKeyObj c.heap.next key hash).hkeys = c.hkeys ++ [(hash, key)] ∧
    ((c.addPrep status).AddKeyObj c.heap.next key hash).metadata.versions =
      c.metadata.versions ++ [(c.maxVersion + 1, c.heap.next)] := by
  obtain ⟨hm, hv, hhk, hn⟩ := c.addPrep_fields status
  have hi := c.addPrep_inv h status
  have hks := c.addPrep_keySet h status
  have hfresh : c.heap.next ∉ c.vkeys.map Prod.fst := fun x => by have := h.v_lt _ x; omega
  have hnum : assocGet c.metadata.versions (c.maxVersion + 1) = none := by
    rw [assocGet_none]
    intro hx
    obtain ⟨p, hp, hp1⟩ := List.mem_map.mp hx
    have := c.maxVersion_ge p.2 (h.meta_mem p hp)
    rw [h.meta_num p hp, hp1] at this
    omega
  have hobj : (c.addPrep status).heap.obj c.heap.next = ⟨c.maxVersion + 1, status, .bool false⟩ := by
    rw [c.addPrep_obj h, if_pos rfl]
  have e1 : ((c.addPrep status).AddKeyObj c.heap.next key hash).vkeys = c.vkeys ++ [(c.heap.next, key)] := by
    unfold Czar.AddKeyObj
    simp only
    rw [hv, assocSet_new hfresh]
  have e2 : ((c.addPrep status).AddKeyObj c.heap.next key hash).hkeys = c.hkeys ++ [(hash, key)] := by
    unfold Czar.AddKeyObj
    simp only
    rw [hhk, assocSet_new (assocGet_none.mp hnew)]
  have e3 : ((c.addPrep status).AddKeyObj c.heap.next key hash).metadata =
      { c.metadata with versions := c.metadata.versions ++ [(c.maxVersion + 1, c.heap.next)] } := by
    unfold Czar.AddKeyObj KeyMetadata.AddVersion
    simp only
    rw [hm, hobj]
    simp only [hnum]
  have e4 : ((c.addPrep status).AddKeyObj c.heap.next key hash).heap = (c.addPrep status).heap := rfl
  have e5 : ((c.addPrep status).AddKeyObj c.heap.next key hash).primary = (c.addPrep status).primary := rfl
  generalize hc' : (c.addPrep status).AddKeyObj c.heap.next key hash = c' at *
  have hvs' : c'.versions = c.versions ++ [c.heap.next] := by
    unfold Czar.versions; rw [e1]; simp
  have hvs : (c.addPrep status).versions = c.versions := by unfold Czar.versions; rw [hv]
  have hget : ∀ o, o ≠ c.heap.next → assocGet c'.vkeys o = assocGet c.vkeys o := by
    intro o ho
    rw [e1, assocGet_append, assocGet_cons, if_neg (Ne.symm ho), assocGet_nil]
    cases assocGet c.vkeys o <;> rfl
  refine ⟨?_, ?_, e1, e2, by rw [e3]⟩
  · have hent : ∀ p ∈ c.metadata.versions, c'.entryOf p = (c.addPrep status).entryOf p := by
      intro p hp
      unfold Czar.entryOf
      rw [e4, hget p.2 (by have := h.meta_lt hp; omega), hv]
    have hnewent : c'.entryOf (c.maxVersion + 1, c.heap.next) = ⟨c.maxVersion + 1, status, .bool false, key⟩ := by
      unfold Czar.entryOf
      rw [e4, e1, assocGet_append, assocGet_none.mpr hfresh, assocGet_cons, if_pos rfl, hobj]
      rfl
    have : c'.keySet = ⟨c.metadata.name, c.metadata.purpose, c.metadata.type, c.metadata.encrypted,
        (c.addPrep status).keySet.entries ++ [⟨c.maxVersion + 1, status, .bool false, key⟩]⟩ := by
      unfold Czar.keySet
      rw [e3, hm]
      simp only [List.map_append, List.map_cons, List.map_nil, hnewent]
      rw [List.map_congr_left hent]
    rw [this, hks]
    unfold Spec.KeySet.add
    simp only
    split <;> rfl
  · constructor
    · intro p hp
      rw [e3] at hp
      rw [e4]
      rcases List.mem_append.mp hp with hp | hp
      · exact hi.meta_num p (by rw [hm]; exact hp)
      · simp at hp; subst hp; rw [hobj]
    · rw [e3]
      simp only [List.map_append, List.map_cons, List.map_nil]
      rw [List.nodup_append]
      refine ⟨h.meta_nodup, by simp, ?_⟩
      intro a ha b hb
      simp at hb
      subst hb
      rintro rfl
      exact assocGet_none.mp hnum ha
    · intro p hp
      rw [e3] at hp
      rw [hvs']
      rcases List.mem_append.mp hp with hp | hp
      · exact List.mem_append_left _ (h.meta_mem p hp)
      · simp at hp; subst hp; simp
    · rw [hvs', List.nodup_append]
      refine ⟨h.v_nodup, by simp, ?_⟩
      intro a ha b hb
      simp at hb
      subst hb
      have := h.v_lt a ha
      omega
    · intro o ho
      rw [hvs'] at ho
      rw [e4, hn]
      rcases List.mem_append.mp ho with ho | ho
      · have := h.v_lt o ho; omega
      · simp at ho; omega
    · intro o ho o' ho' e
      rw [e4] at e
      rw [hvs'] at ho ho'
      have hmax : ∀ o ∈ c.versions, ((c.addPrep status).heap.obj o).num ≤ c.maxVersion := by
        intro o ho
        rw [c.addPrep_num h status (h.v_lt o ho)]
        exact c.maxVersion_ge o ho
      rcases List.mem_append.mp ho with ho | ho <;> rcases List.mem_append.mp ho' with ho' | ho'
      · exact hi.v_num o (by rw [hvs]; exact ho) o' (by rw [hvs]; exact ho') e
      · simp at ho'
        subst ho'
        have := hmax o ho
        rw [hobj] at e
        simp only at e
        omega
      · simp at ho
        subst ho
        have := hmax o' ho'
        rw [hobj] at e
        simp only at e
        omega
      · simp at ho ho'; rw [ho, ho']
    · intro o ho
      rw [e5] at ho
      rw [e4]
      exact hi.primary_lt o ho
    · intro p hp e
      rw [e3] at hp
      rw [e4] at e
      rw [e5]
      rcases List.mem_append.mp hp with hp | hp
      · exact hi.primary_of p (by rw [hm]; exact hp) e
      · simp at hp
        subst hp
        rw [hobj] at e
        simp only at e
        rw [c.addPrep_primary, if_pos e]
    · intro o ho hov
      rw [e5] at ho
      rw [hvs'] at hov
      rw [e4, e3]
      rcases List.mem_append.mp hov with hov | hov
      · obtain ⟨h1, n, h2⟩ := hi.primary_is o ho (by rw [hvs]; exact hov)
        exact ⟨h1, n, List.mem_append_left _ (by rw [hm] at h2; exact h2)⟩
      · simp at hov
        subst hov
        rw [c.addPrep_primary] at ho
        split at ho
        · next hs =>
          refine ⟨by rw [hobj]; exact hs, c.maxVersion + 1, by simp⟩
        · have := h.primary_lt _ ho; omega
    · intro hs k hk
      rw [e2, assocGet_append] at hk
      cases hg : assocGet c.hkeys hs with
      | some k' =>
        rw [hg] at hk
        simp only [Option.some_or, Option.some.injEq] at hk
        subst hk
        obtain ⟨h1, o, h2⟩ := h.hash_ok hs k' hg
        refine ⟨h1, o, ?_⟩
        rw [hget]
        · exact h2
        · rintro rfl
          rw [assocGet_none.mpr hfresh] at h2
          cases h2
      | none =>
        rw [hg, Option.none_or, assocGet_cons] at hk
        split at hk
        · next e =>
          subst e
          cases hk
          refine ⟨hh, c.heap.next, ?_⟩
          rw [e1, assocGet_append, assocGet_none.mpr hfresh, assocGet_cons, if_pos rfl]
          rfl
        · cases hk
    · intro p hp
      rw [e1] at hp
      rcases List.mem_append.mp hp with hp | hp
      · obtain ⟨hs, h1, h2⟩ := h.hashed p hp
        refine ⟨hs, h1, ?_⟩
        rw [e2, assocGet_append]
        cases hg : assocGet c.hkeys hs with
        | some k' => rfl
        | none => rw [hg] at h2; cases h2
      · simp at hp
        subst hp
        refine ⟨hash, hh, ?_⟩
        rw [e2, assocGet_append, hnew, assocGet_cons, if_pos rfl]
        rfl
    · intro p hp
      rw [e1] at hp
      rw [e3]
      rcases List.mem_append.mp hp with hp | hp
      · exact h.type_ok p hp
      · simp at hp; subst hp; exact ⟨hok, hty⟩

end Verif
