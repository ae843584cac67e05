import Verif.Spec.Faults
import Verif.Lemmas.Load
import Verif.Model.Aes
/-
C76: which metadata documents are accepted, and which exception each of the others raises.
-/
namespace Verif.Props
open Verif Verif.Spec

/-! ## Names -/

theorem lookupName_fault {α} (table : List (String × α)) (j : Json) (e : PyErr) :
    lookupName table j = .error e ↔ NameFault (table.map Prod.fst) j e := by
  constructor
  · intro h
    cases j with
    | arr l => obtain rfl := Except.error.inj h; exact .list l rfl
    | obj l => obtain rfl := Except.error.inj h; exact .dict l rfl
    | str s =>
      by_cases hs : ∀ p ∈ table, p.1.toList ≠ s
      · rw [lookupName_error table s hs] at h
        obtain rfl := Except.error.inj h
        refine .other (by simp) (by simp) ?_
        intro n hn
        obtain ⟨p, hp, rfl⟩ := List.mem_map.mp hn
        simpa using fun q => hs p hp q.symm
      · unfold lookupName at h
        have : table.find? (fun p => p.1.toList = s) ≠ none := by simpa using hs
        cases hf : table.find? (fun p => p.1.toList = s) with
        | none => exact absurd hf this
        | some p => simp [hf] at h
    | null => obtain rfl := Except.error.inj h; exact .other (by simp) (by simp) (by simp)
    | bool b => obtain rfl := Except.error.inj h; exact .other (by simp) (by simp) (by simp)
    | num n => obtain rfl := Except.error.inj h; exact .other (by simp) (by simp) (by simp)
  · intro h
    cases h with
    | list l h => subst h; rfl
    | dict l h => subst h; rfl
    | other h1 h2 h3 =>
      cases j with
      | arr l => exact absurd rfl (h1 l)
      | obj l => exact absurd rfl (h2 l)
      | str s =>
        apply lookupName_error
        intro p hp hs
        exact h3 p.1 (List.mem_map_of_mem hp) (by rw [hs])
      | _ => rfl

theorem GetType_fault (j : Json) (e : PyErr) : GetType j = .error e ↔ NameFault typeNames j e := lookupName_fault _ j e
theorem GetStatus_fault (j : Json) (e : PyErr) : GetStatus j = .error e ↔ NameFault statusNames j e :=
  lookupName_fault _ j e
theorem GetPurpose_fault (j : Json) (e : PyErr) : GetPurpose j = .error e ↔ NameFault purposeNames j e :=
  lookupName_fault _ j e
theorem GetMode_fault (j : Json) (e : PyErr) : GetMode j = .error e ↔ NameFault modeNames j e := lookupName_fault _ j e

theorem GetType_ok (j : Json) (t : KeyType) : GetType j = .ok t ↔ j = Json.ofString t.name := by
  refine ⟨fun h => ?_, fun h => h ▸ GetType_name t⟩
  obtain ⟨p, hp, rfl, rfl⟩ := lookupName_ok h
  simp at hp
  rcases hp with rfl | rfl | rfl | rfl | rfl | rfl <;> rfl
theorem GetStatus_ok (j : Json) (t : KeyStatus) : GetStatus j = .ok t ↔ j = Json.ofString t.name := by
  refine ⟨fun h => ?_, fun h => h ▸ GetStatus_name t⟩
  obtain ⟨p, hp, rfl, rfl⟩ := lookupName_ok h
  simp at hp
  rcases hp with rfl | rfl | rfl <;> rfl
theorem GetPurpose_ok (j : Json) (t : KeyPurpose) : GetPurpose j = .ok t ↔ j = Json.ofString t.name := by
  refine ⟨fun h => ?_, fun h => h ▸ GetPurpose_name t⟩
  obtain ⟨p, hp, rfl, rfl⟩ := lookupName_ok h
  simp at hp
  rcases hp with rfl | rfl | rfl | rfl <;> rfl
theorem GetMode_ok (j : Json) (t : CipherMode) : GetMode j = .ok t ↔ j = Json.ofString t.name := by
  refine ⟨fun h => ?_, fun h => h ▸ GetMode_name t⟩
  obtain ⟨p, hp, rfl, rfl⟩ := lookupName_ok h
  simp at hp
  rcases hp with rfl | rfl | rfl | rfl <;> rfl

/-- C76: each of the four tables has exactly its documented names; anything else raises KeyczarError, except
that lists and dictionaries raise TypeError. -/
theorem C76_names (j : Json) :
    (∀ t, GetType j = .ok t ↔ j = Json.ofString (typeWord t)) ∧ (∀ e, GetType j = .error e ↔ NameFault typeNames j e) ∧
    (∀ t, GetStatus j = .ok t ↔ j = Json.ofString (statusWord t)) ∧
    (∀ e, GetStatus j = .error e ↔ NameFault statusNames j e) ∧
    (∀ t, GetPurpose j = .ok t ↔ j = Json.ofString (purposeWord t)) ∧
    (∀ e, GetPurpose j = .error e ↔ NameFault purposeNames j e) ∧
    (∀ t, GetMode j = .ok t ↔ j = Json.ofString (modeWord t)) ∧ (∀ e, GetMode j = .error e ↔ NameFault modeNames j e) :=
  ⟨fun t => typeWord_eq t ▸ GetType_ok j t, GetType_fault j, fun t => statusWord_eq t ▸ GetStatus_ok j t, GetStatus_fault j,
    fun t => purposeWord_eq t ▸ GetPurpose_ok j t, GetPurpose_fault j, fun t => modeWord_eq t ▸ GetMode_ok j t,
    GetMode_fault j⟩

example : NameFault statusNames (.arr [.str "PRIMARY".toList]) .typeError := .list _ rfl
example : NameFault statusNames (.str "primary".toList) .keyczarError :=
  .other (by simp) (by simp) (by simp [statusNames])

/-! ## Items -/

theorem get_ok (j : Json) (k : String) (v : Json) : j.get k = .ok v ↔ HasField j k v := by
  cases j with
  | obj f =>
    show (match dictGet f k.toList with | some v => Except.ok v | none => Except.error PyErr.keyError) = _ ↔ _
    cases hd : dictGet f k.toList with
    | none => simp [HasField, hd]
    | some w => simp [HasField, hd]
  | _ => simp [Json.get, HasField]

theorem get_fault (j : Json) (k : String) (e : PyErr) : j.get k = .error e ↔ FieldFault j k e := by
  constructor
  · intro h
    cases j with
    | obj f =>
      cases hd : dictGet f k.toList with
      | some w => simp [Json.get, hd] at h
      | none => simp only [Json.get, hd, Except.error.injEq] at h; exact h ▸ .missing f rfl hd
    | _ => simp only [Json.get, Except.error.injEq] at h; exact h ▸ .notDict (by simp)
  · intro h
    cases h with
    | missing f h1 h2 => subst h1; simp [Json.get, h2]
    | notDict h => cases j with
      | obj f => exact absurd rfl (h f)
      | _ => rfl

theorem mem_status {s : Json} : s ∈ statusNames.map Json.ofString ↔ ∃ t, GetStatus s = .ok t := by
  constructor
  · intro h
    simp only [statusNames, List.map_cons, List.map_nil, List.mem_cons, List.not_mem_nil, or_false] at h
    rcases h with rfl | rfl | rfl
    exacts [⟨_, GetStatus_name .PRIMARY⟩, ⟨_, GetStatus_name .ACTIVE⟩, ⟨_, GetStatus_name .INACTIVE⟩]
  · rintro ⟨t, h⟩
    rw [GetStatus_ok] at h
    subst h
    cases t <;> simp [statusNames, KeyStatus.name]

theorem mem_purpose {s : Json} : s ∈ purposeNames.map Json.ofString ↔ ∃ t, GetPurpose s = .ok t := by
  constructor
  · intro h
    simp only [purposeNames, List.map_cons, List.map_nil, List.mem_cons, List.not_mem_nil, or_false] at h
    rcases h with rfl | rfl | rfl | rfl
    exacts [⟨_, GetPurpose_name .DECRYPT_AND_ENCRYPT⟩, ⟨_, GetPurpose_name .ENCRYPT⟩,
      ⟨_, GetPurpose_name .SIGN_AND_VERIFY⟩, ⟨_, GetPurpose_name .VERIFY⟩]
  · rintro ⟨t, h⟩
    rw [GetPurpose_ok] at h
    subst h
    cases t <;> simp [purposeNames, KeyPurpose.name]

theorem mem_type {s : Json} : s ∈ typeNames.map Json.ofString ↔ ∃ t, GetType s = .ok t := by
  constructor
  · intro h
    simp only [typeNames, List.map_cons, List.map_nil, List.mem_cons, List.not_mem_nil, or_false] at h
    rcases h with rfl | rfl | rfl | rfl | rfl | rfl
    exacts [⟨_, GetType_name .AES⟩, ⟨_, GetType_name .HMAC_SHA1⟩, ⟨_, GetType_name .DSA_PRIV⟩,
      ⟨_, GetType_name .DSA_PUB⟩, ⟨_, GetType_name .RSA_PRIV⟩, ⟨_, GetType_name .RSA_PUB⟩]
  · rintro ⟨t, h⟩
    rw [GetType_ok] at h
    subst h
    cases t <;> simp [typeNames, KeyType.name]

/-! ## Version records -/

theorem KeyVersion.Read_fault (j : Json) (e : PyErr) : KeyVersion.Read j = .error e ↔ VersionFault j e := by
  constructor
  · intro h
    unfold KeyVersion.Read at h
    simp only [bind, Except.bind] at h
    cases h1 : j.get "versionNumber" with
    | error e1 => simp only [h1, Except.error.injEq] at h; exact h ▸ .number ((get_fault _ _ _).mp h1)
    | ok n =>
      have g1 := (get_ok _ _ _).mp h1
      simp only [h1] at h
      cases h2 : j.get "status" with
      | error e1 => simp only [h2, Except.error.injEq] at h; exact h ▸ .status g1 ((get_fault _ _ _).mp h2)
      | ok s =>
        have g2 := (get_ok _ _ _).mp h2
        simp only [h2] at h
        cases h3 : GetStatus s with
        | error e1 => simp only [h3, Except.error.injEq] at h; exact h ▸ .statusName g1 g2 ((GetStatus_fault _ _).mp h3)
        | ok t =>
          have g3 := mem_status.mpr ⟨t, h3⟩
          simp only [h3] at h
          cases h4 : j.get "exportable" with
          | error e1 => simp only [h4, Except.error.injEq] at h; exact h ▸ .exportable g1 g2 g3 ((get_fault _ _ _).mp h4)
          | ok x =>
            simp only [h4] at h
            have g4 := (get_ok _ _ _).mp h4
            cases n with
            | num i => simp [pure, Except.pure] at h
            | _ => obtain rfl := Except.error.inj h; exact .numberKind g1 g2 g3 g4 (by simp)
  · intro h
    unfold KeyVersion.Read
    cases h with
    | number h => rw [(get_fault _ _ _).mpr h]; rfl
    | status h1 h => rw [(get_ok _ _ _).mpr h1, (get_fault _ _ _).mpr h]; rfl
    | statusName h1 h2 h =>
      rw [(get_ok _ _ _).mpr h1, (get_ok _ _ _).mpr h2]
      simp only [bind, Except.bind, (GetStatus_fault _ _).mpr h]
    | exportable h1 h2 h3 h =>
      obtain ⟨t, h3⟩ := mem_status.mp h3
      simp only [(get_ok _ _ _).mpr h1, (get_ok _ _ _).mpr h2, (get_fault _ _ _).mpr h, bind, Except.bind, h3]
    | @numberKind n s x h1 h2 h3 h4 h =>
      obtain ⟨t, h3⟩ := mem_status.mp h3
      simp only [(get_ok _ _ _).mpr h1, (get_ok _ _ _).mpr h2, (get_ok _ _ _).mpr h4, bind, Except.bind, h3]

theorem KeyVersion.Read_says (j : Json) (v : KeyVersion) : KeyVersion.Read j = .ok v ↔ VersionSays j v := by
  constructor
  · intro h
    unfold KeyVersion.Read at h
    obtain ⟨n, h1, ha⟩ := bind_ok h
    obtain ⟨s, h2, hb⟩ := bind_ok ha
    obtain ⟨t, h3, hc⟩ := bind_ok hb
    obtain ⟨x, h4, hd⟩ := bind_ok hc
    clear h ha hb hc
    obtain ⟨f, rfl, g1⟩ := (get_ok _ _ _).mp h1
    obtain ⟨f', hf, g2⟩ := (get_ok _ _ _).mp h2
    obtain rfl := Json.obj.inj hf
    obtain ⟨f'', hf', g4⟩ := (get_ok _ _ _).mp h4
    obtain rfl := Json.obj.inj hf'
    cases n with
    | num i =>
      obtain rfl := Except.ok.inj hd
      exact ⟨f, rfl, g1, by rw [g2, (GetStatus_ok _ _).mp h3, statusWord_eq], g4⟩
    | _ => simp at hd
  · rintro ⟨f, rfl, h1, h2, h3⟩
    unfold KeyVersion.Read
    simp only [Json.get, h1, h2, h3, bind, Except.bind, statusWord_eq, GetStatus_name, pure, Except.pure]

theorem mapM_error {α β} {f : α → Py β} {l : List α} {e : PyErr} :
    l.mapM f = .error e ↔ ∃ l₁ x l₂, l = l₁ ++ x :: l₂ ∧ (∀ y ∈ l₁, ∃ v, f y = .ok v) ∧ f x = .error e := by
  induction l with
  | nil => simp [pure, Except.pure]
  | cons a t ih =>
    rw [List.mapM_cons]
    cases ha : f a with
    | error e1 =>
      simp only [bind, Except.bind]
      constructor
      · intro h
        obtain rfl := Except.error.inj h
        exact ⟨[], a, t, rfl, by simp, ha⟩
      · rintro ⟨l₁, x, l₂, h1, h2, h3⟩
        cases l₁ with
        | nil => simp only [List.nil_append, List.cons.injEq] at h1; rw [← h1.1, ha] at h3; rw [Except.error.inj h3]
        | cons b l₁ =>
          simp only [List.cons_append, List.cons.injEq] at h1
          obtain ⟨v, hv⟩ := h2 b (by simp)
          rw [← h1.1, ha] at hv; simp at hv
    | ok b =>
      have : (List.mapM f t >>= fun bs => pure (b :: bs)) = (.error e : Py _) ↔ List.mapM f t = .error e := by
        cases List.mapM f t <;> simp [bind, Except.bind, pure, Except.pure]
      show (List.mapM f t >>= fun bs => pure (b :: bs)) = _ ↔ _
      rw [this, ih]
      constructor
      · rintro ⟨l₁, x, l₂, rfl, h2, h3⟩
        refine ⟨a :: l₁, x, l₂, rfl, ?_, h3⟩
        intro y hy
        rcases List.mem_cons.mp hy with rfl | hy
        exacts [⟨b, ha⟩, h2 y hy]
      · rintro ⟨l₁, x, l₂, h1, h2, h3⟩
        cases l₁ with
        | nil => simp only [List.nil_append, List.cons.injEq] at h1; rw [← h1.1, ha] at h3; simp at h3
        | cons c l₁ =>
          simp only [List.cons_append, List.cons.injEq] at h1
          exact ⟨l₁, x, l₂, h1.2, fun y hy => h2 y (by simp [hy]), h3⟩

/-- the loop over the version records -/
def versionsOf (l : Json) : Py (List KeyVersion) := do (← jsonItems l).mapM KeyVersion.Read

theorem versionsOf_fault (l : Json) (e : PyErr) : versionsOf l = .error e ↔ VersionsFault l e := by
  constructor
  · intro h
    cases l with
    | arr l =>
      have h : l.mapM KeyVersion.Read = .error e := h
      obtain ⟨l₁, x, l₂, rfl, h2, h3⟩ := mapM_error.mp h
      refine .item rfl ?_ ((KeyVersion.Read_fault _ _).mp h3)
      intro y hy
      obtain ⟨v, hv⟩ := h2 y hy
      exact ⟨v, (KeyVersion.Read_says _ _).mp hv⟩
    | str s =>
      cases s with
      | nil => simp [versionsOf, jsonItems, bind, Except.bind, pure, Except.pure] at h
      | cons c s => obtain rfl := Except.error.inj h; exact .kind (by simp) (by simp [NothingIn])
    | obj s =>
      cases s with
      | nil => simp [versionsOf, jsonItems, bind, Except.bind, pure, Except.pure] at h
      | cons c s => obtain rfl := Except.error.inj h; exact .kind (by simp) (by simp [NothingIn])
    | _ => obtain rfl := Except.error.inj h; exact .kind (by simp) (by simp [NothingIn])
  · intro h
    cases h with
    | kind h1 h2 =>
      cases l with
      | arr l => exact absurd rfl (h1 l)
      | str s => cases s with
        | nil => exact absurd (by simp [NothingIn]) h2
        | cons c s => rfl
      | obj s => cases s with
        | nil => exact absurd (by simp [NothingIn]) h2
        | cons c s => rfl
      | _ => rfl
    | item h1 h2 h3 =>
      subst h1
      exact mapM_error.mpr ⟨_, _, _, rfl, fun y hy => (h2 y hy).imp fun v hv => (KeyVersion.Read_says _ _).mpr hv,
        (KeyVersion.Read_fault _ _).mpr h3⟩

theorem mapM_ok {α β} {f : α → Py β} {l : List α} {r : List β} :
    l.mapM f = .ok r ↔ List.Forall₂ (fun a b => f a = .ok b) l r := by
  induction l generalizing r with
  | nil => cases r <;> simp [pure, Except.pure]
  | cons a t ih =>
    rw [List.mapM_cons]
    cases ha : f a with
    | error e => cases r <;> simp [bind, Except.bind, ha]
    | ok b =>
      cases ht : List.mapM f t with
      | error e =>
        cases r with
        | nil => simp [bind, Except.bind]
        | cons c r =>
          simp only [bind, Except.bind, List.forall₂_cons, ← ih, ht]
          simp
      | ok bs =>
        cases r with
        | nil => simp [bind, Except.bind, pure, Except.pure]
        | cons c r =>
          simp only [bind, Except.bind, List.forall₂_cons, ← ih, ht, pure, Except.pure]
          simp [ha]

theorem versionsOf_ok (l : Json) (vs : List KeyVersion) :
    versionsOf l = .ok vs ↔ (∃ l', l = .arr l' ∧ List.Forall₂ VersionSays l' vs) ∨ (NothingIn l ∧ vs = []) := by
  cases l with
  | arr l =>
    show l.mapM KeyVersion.Read = _ ↔ _
    rw [mapM_ok]
    simp only [KeyVersion.Read_says]
    constructor
    · exact fun h => .inl ⟨l, rfl, h⟩
    · rintro (⟨l', h1, h2⟩ | ⟨h1, rfl⟩)
      · obtain rfl := Json.arr.inj h1; exact h2
      · simp only [NothingIn, Json.arr.injEq, reduceCtorEq, or_self, or_false] at h1
        subst h1; exact .nil
  | str s => cases s <;> simp [versionsOf, jsonItems, bind, Except.bind, pure, Except.pure, NothingIn, eq_comm]
  | obj s => cases s <;> simp [versionsOf, jsonItems, bind, Except.bind, pure, Except.pure, NothingIn, eq_comm]
  | _ => simp [versionsOf, jsonItems, bind, Except.bind, NothingIn]

/-! ## Documents -/

theorem docOf_eq (j : Json) : docOf j = do
    let name ← j.get "name"
    let purpose ← GetPurpose (← j.get "purpose")
    let type ← GetType (← j.get "type")
    let encrypted ← j.get "encrypted"
    let vs ← versionsOf (← j.get "versions")
    return ⟨name, purpose, type, encrypted, vs⟩ := by
  unfold docOf versionsOf
  simp only [bind_assoc]

theorem docOf_fault (j : Json) (e : PyErr) : docOf j = .error e ↔ MetaFault j e := by
  rw [docOf_eq]
  constructor
  · intro h
    simp only [bind, Except.bind] at h
    cases h1 : j.get "name" with
    | error e1 => simp only [h1, Except.error.injEq] at h; exact h ▸ .name ((get_fault _ _ _).mp h1)
    | ok n =>
      have g1 := (get_ok _ _ _).mp h1
      simp only [h1] at h
      cases h2 : j.get "purpose" with
      | error e1 => simp only [h2, Except.error.injEq] at h; exact h ▸ .purpose g1 ((get_fault _ _ _).mp h2)
      | ok p =>
        have g2 := (get_ok _ _ _).mp h2
        simp only [h2] at h
        cases h3 : GetPurpose p with
        | error e1 => simp only [h3, Except.error.injEq] at h; exact h ▸ .purposeName g1 g2 ((GetPurpose_fault _ _).mp h3)
        | ok p' =>
          have g3 := mem_purpose.mpr ⟨p', h3⟩
          simp only [h3] at h
          cases h4 : j.get "type" with
          | error e1 => simp only [h4, Except.error.injEq] at h; exact h ▸ .type g1 g2 g3 ((get_fault _ _ _).mp h4)
          | ok t =>
            have g4 := (get_ok _ _ _).mp h4
            simp only [h4] at h
            cases h5 : GetType t with
            | error e1 =>
              simp only [h5, Except.error.injEq] at h; exact h ▸ .typeName g1 g2 g3 g4 ((GetType_fault _ _).mp h5)
            | ok t' =>
              have g5 := mem_type.mpr ⟨t', h5⟩
              simp only [h5] at h
              cases h6 : j.get "encrypted" with
              | error e1 =>
                simp only [h6, Except.error.injEq] at h; exact h ▸ .encrypted g1 g2 g3 g4 g5 ((get_fault _ _ _).mp h6)
              | ok x =>
                have g6 := (get_ok _ _ _).mp h6
                simp only [h6] at h
                cases h7 : j.get "versions" with
                | error e1 =>
                  simp only [h7, Except.error.injEq] at h
                  exact h ▸ .versions g1 g2 g3 g4 g5 g6 ((get_fault _ _ _).mp h7)
                | ok l =>
                  have g7 := (get_ok _ _ _).mp h7
                  simp only [h7] at h
                  cases h8 : versionsOf l with
                  | error e1 =>
                    simp only [h8, Except.error.injEq] at h
                    exact h ▸ .records g1 g2 g3 g4 g5 g6 g7 ((versionsOf_fault _ _).mp h8)
                  | ok vs => simp [h8, pure, Except.pure] at h
  · intro h
    cases h with
    | name h => rw [(get_fault _ _ _).mpr h]; rfl
    | purpose h1 h => rw [(get_ok _ _ _).mpr h1, (get_fault _ _ _).mpr h]; rfl
    | purposeName h1 h2 h =>
      simp only [(get_ok _ _ _).mpr h1, (get_ok _ _ _).mpr h2, bind, Except.bind, (GetPurpose_fault _ _).mpr h]
    | type h1 h2 h3 h =>
      obtain ⟨p', h3⟩ := mem_purpose.mp h3
      simp only [(get_ok _ _ _).mpr h1, (get_ok _ _ _).mpr h2, bind, Except.bind, h3, (get_fault _ _ _).mpr h]
    | typeName h1 h2 h3 h4 h =>
      obtain ⟨p', h3⟩ := mem_purpose.mp h3
      simp only [(get_ok _ _ _).mpr h1, (get_ok _ _ _).mpr h2, bind, Except.bind, h3, (get_ok _ _ _).mpr h4,
        (GetType_fault _ _).mpr h]
    | encrypted h1 h2 h3 h4 h5 h =>
      obtain ⟨p', h3⟩ := mem_purpose.mp h3
      obtain ⟨t', h5⟩ := mem_type.mp h5
      simp only [(get_ok _ _ _).mpr h1, (get_ok _ _ _).mpr h2, bind, Except.bind, h3, (get_ok _ _ _).mpr h4, h5,
        (get_fault _ _ _).mpr h]
    | versions h1 h2 h3 h4 h5 h6 h =>
      obtain ⟨p', h3⟩ := mem_purpose.mp h3
      obtain ⟨t', h5⟩ := mem_type.mp h5
      simp only [(get_ok _ _ _).mpr h1, (get_ok _ _ _).mpr h2, bind, Except.bind, h3, (get_ok _ _ _).mpr h4, h5,
        (get_ok _ _ _).mpr h6, (get_fault _ _ _).mpr h]
    | records h1 h2 h3 h4 h5 h6 h7 h =>
      obtain ⟨p', h3⟩ := mem_purpose.mp h3
      obtain ⟨t', h5⟩ := mem_type.mp h5
      simp only [(get_ok _ _ _).mpr h1, (get_ok _ _ _).mpr h2, bind, Except.bind, h3, (get_ok _ _ _).mpr h4, h5,
        (get_ok _ _ _).mpr h6, (get_ok _ _ _).mpr h7, (versionsOf_fault _ _).mpr h]

theorem docOf_ok (j : Json) (v : KeySet.View) : docOf j = .ok v ↔ MetaAccepts j v := by
  rw [docOf_eq]
  constructor
  · intro h
    obtain ⟨n, h1, h⟩ := bind_ok h
    obtain ⟨p, h2, h⟩ := bind_ok h
    obtain ⟨p', h3, h⟩ := bind_ok h
    obtain ⟨t, h4, h⟩ := bind_ok h
    obtain ⟨t', h5, h⟩ := bind_ok h
    obtain ⟨x, h6, h⟩ := bind_ok h
    obtain ⟨l, h7, h⟩ := bind_ok h
    obtain ⟨vs, h8, h⟩ := bind_ok h
    obtain rfl := Except.ok.inj h
    rw [GetPurpose_ok] at h3
    rw [GetType_ok] at h5
    rw [← purposeWord_eq] at h3
    rw [← typeWord_eq] at h5
    subst h3 h5
    rw [get_ok] at h1 h2 h4 h6 h7
    rcases (versionsOf_ok _ _).mp h8 with ⟨l', rfl, g8⟩ | ⟨g8, rfl⟩
    · left
      obtain ⟨f, rfl, h1⟩ := h1
      obtain ⟨f', hf, h2⟩ := h2
      obtain rfl := Json.obj.inj hf
      obtain ⟨f', hf, h4⟩ := h4
      obtain rfl := Json.obj.inj hf
      obtain ⟨f', hf, h6⟩ := h6
      obtain rfl := Json.obj.inj hf
      obtain ⟨f', hf, h7⟩ := h7
      obtain rfl := Json.obj.inj hf
      exact ⟨f, l', rfl, h1, h2, h4, h6, h7, g8⟩
    · exact .inr ⟨rfl, l, g8, h1, h2, h4, h6, h7⟩
  · rintro (⟨f, l, rfl, h1, h2, h3, h4, h5, h6⟩ | ⟨hv, l, hl, h1, h2, h3, h4, h5⟩)
    · have := (versionsOf_ok (.arr l) v.versions).mpr (.inl ⟨l, rfl, h6⟩)
      simp only [Json.get, h1, h2, h3, h4, h5, bind, Except.bind, purposeWord_eq, typeWord_eq, GetPurpose_name,
        GetType_name, this, pure, Except.pure]
    · have := (versionsOf_ok l v.versions).mpr (.inr ⟨hl, hv⟩)
      simp only [(get_ok _ _ _).mpr h1, (get_ok _ _ _).mpr h2, (get_ok _ _ _).mpr h3, (get_ok _ _ _).mpr h4,
        (get_ok _ _ _).mpr h5, bind, Except.bind, purposeWord_eq, typeWord_eq, GetPurpose_name,
        GetType_name, this, pure, Except.pure]

/-- C76: `KeyMetadata.Read` gives exactly what an acceptable document says, and accepts no other. -/
theorem C76_accepts (text : Bytes) (w : KeySet.View) :
    (∃ kmd h, KeyMetadata.Read text = .ok (kmd, h) ∧ kmd.view h = w) ↔
      ∃ j v, loads text = .ok j ∧ MetaAccepts j v ∧ w = { v with versions := firstOfEach v.versions } := by
  constructor
  · rintro ⟨kmd, h, hr, rfl⟩
    obtain ⟨-, j, v, h1, h2, h3⟩ := KeyMetadata.Read_ok hr
    exact ⟨j, v, h1, (docOf_ok _ _).mp h2, h3⟩
  · rintro ⟨j, v, h1, h2, rfl⟩
    obtain ⟨kmd, h, h3, -, h4⟩ := KeyMetadata.Read_of_doc h1 ((docOf_ok _ _).mpr h2)
    exact ⟨kmd, h, h3, h4⟩

/-- C76: the exception raised for any other document is that of the first fault. -/
theorem C76_first_fault (text : Bytes) (j : Json) (hj : loads text = .ok j) (e : PyErr) :
    KeyMetadata.Read text = .error e ↔ MetaFault j e := by
  rw [KeyMetadata.Read_eq, hj, ← docOf_fault]
  show (docOf j >>= _) = _ ↔ _
  cases docOf j <;> simp [bind, Except.bind, pure, Except.pure]

/-- C76: no class hides these exceptions: each comes out of the constructor unchanged, whatever the keys. -/
theorem C76_constructor (P : Prims) (cls : CzarClass) (r : Reader) (text : Bytes) (j : Json) (e : PyErr)
    (hr : r.GetMetadata = .ok text) (hj : loads text = .ok j) (hf : MetaFault j e) :
    Czar.init P cls r = .error e := by
  unfold Czar.init
  rw [hr]
  show (KeyMetadata.Read text >>= _) = _
  rw [(C76_first_fault text j hj e).mpr hf]
  rfl

/-- C76: the exceptions of a document that parses: KeyczarError only for a wrong name, otherwise KeyError or
TypeError, which callers catching KeyczarError do not expect. -/
theorem C76_exceptions (text : Bytes) (j : Json) (hj : loads text = .ok j) (e : PyErr)
    (h : KeyMetadata.Read text = .error e) : e = .keyczarError ∨ e = .keyError ∨ e = .typeError ∨ e = .unmodelled := by
  have hF : ∀ {j k e}, FieldFault j k e → e = .keyError ∨ e = .typeError := by
    intro j k e h; cases h <;> simp
  have hN : ∀ {l j e}, NameFault l j e → e = .keyczarError ∨ e = .typeError := by
    intro l j e h; cases h <;> simp
  have hV : ∀ {j e}, VersionFault j e → e = .keyczarError ∨ e = .keyError ∨ e = .typeError ∨ e = .unmodelled := by
    intro j e h
    cases h with
    | number h => rcases hF h with rfl | rfl <;> simp
    | status _ h => rcases hF h with rfl | rfl <;> simp
    | statusName _ _ h => rcases hN h with rfl | rfl <;> simp
    | exportable _ _ _ h => rcases hF h with rfl | rfl <;> simp
    | numberKind => simp
  rw [C76_first_fault text j hj] at h
  cases h with
  | name h => rcases hF h with rfl | rfl <;> simp
  | purpose _ h => rcases hF h with rfl | rfl <;> simp
  | purposeName _ _ h => rcases hN h with rfl | rfl <;> simp
  | type _ _ _ h => rcases hF h with rfl | rfl <;> simp
  | typeName _ _ _ _ h => rcases hN h with rfl | rfl <;> simp
  | encrypted _ _ _ _ _ h => rcases hF h with rfl | rfl <;> simp
  | versions _ _ _ _ _ _ h => rcases hF h with rfl | rfl <;> simp
  | records _ _ _ _ _ _ _ h =>
    cases h with
    | kind => simp
    | item _ _ h => exact hV h

/-- examples: a document without `encrypted`, one whose status is a list, and one whose versions are `""` -/
def exMissing : Json := .obj [("name".toList, .null), ("purpose".toList, Json.ofString "VERIFY"),
  ("type".toList, Json.ofString "DSA_PUB"), ("versions".toList, .arr [])]
def exList : Json := .obj [("name".toList, .null), ("purpose".toList, Json.ofString "VERIFY"),
  ("type".toList, Json.ofString "DSA_PUB"), ("encrypted".toList, .bool false), ("versions".toList, .arr
    [.obj [("versionNumber".toList, .num 1), ("status".toList, .arr []), ("exportable".toList, .bool false)]])]
def exEmpty : Json := .obj [("name".toList, .null), ("purpose".toList, Json.ofString "VERIFY"),
  ("type".toList, Json.ofString "DSA_PUB"), ("encrypted".toList, .bool false), ("versions".toList, .str [])]
example : MetaFault exMissing .keyError :=
  .encrypted (n := .null) (p := Json.ofString "VERIFY") (t := Json.ofString "DSA_PUB")
    ⟨_, rfl, rfl⟩ ⟨_, rfl, by simp [dictGet]⟩ (by simp [purposeNames]) ⟨_, rfl, by simp [dictGet]⟩
    (by simp [typeNames]) (.missing _ rfl (by simp [dictGet]))
example : MetaFault exList .typeError := by
  refine .records (n := .null) (p := Json.ofString "VERIFY") (t := Json.ofString "DSA_PUB") (x := .bool false)
    (l := .arr [.obj [("versionNumber".toList, .num 1), ("status".toList, .arr []), ("exportable".toList, .bool false)]])
    ⟨_, rfl, rfl⟩ ⟨_, rfl, by simp [dictGet]⟩ (by simp [purposeNames]) ⟨_, rfl, by simp [dictGet]⟩
    (by simp [typeNames]) ⟨_, rfl, by simp [dictGet]⟩ ⟨_, rfl, by simp [dictGet]⟩
    (.item (l₁ := []) rfl (by simp) (.statusName (n := .num 1) (s := .arr []) ⟨_, rfl, by simp [dictGet]⟩
      ⟨_, rfl, by simp [dictGet]⟩ (.list _ rfl)))
example : MetaAccepts exEmpty ⟨.null, .VERIFY, .DSA_PUB, .bool false, []⟩ :=
  .inr ⟨rfl, .str [], .inr (.inl rfl), ⟨_, rfl, rfl⟩, ⟨_, rfl, by simp [dictGet, purposeWord]⟩,
    ⟨_, rfl, by simp [dictGet, typeWord]⟩, ⟨_, rfl, by simp [dictGet]⟩, ⟨_, rfl, by simp [dictGet]⟩⟩
example : loads (dumps exList) = .ok exList := loads_dumps _ (by simp [exList, Json.WF, Json.ofString, WFMembers, WFElems])

end Verif.Props
