import Verif.Model.KeyInfo
/- Looking up the names of types, statuses, purposes and modes. -/
namespace Verif

theorem GetType_name (t : KeyType) : GetType (Json.ofString t.name) = .ok t := by
  cases t <;> decide +kernel
theorem GetStatus_name (t : KeyStatus) : GetStatus (Json.ofString t.name) = .ok t := by
  cases t <;> decide +kernel
theorem GetPurpose_name (t : KeyPurpose) : GetPurpose (Json.ofString t.name) = .ok t := by
  cases t <;> decide +kernel
theorem GetMode_name (t : CipherMode) : GetMode (Json.ofString t.name) = .ok t := by
  cases t <;> decide +kernel

theorem lookupName_error {α} (table : List (String × α)) (s : List Char) (h : ∀ p ∈ table, p.1.toList ≠ s) :
    lookupName table (.str s) = .error .keyczarError := by
  unfold lookupName
  have : table.find? (fun p => p.1.toList = s) = none := by simpa using h
  simp only [this]

theorem lookupName_ok {α} {table : List (String × α)} {j : Json} {a : α} (h : lookupName table j = .ok a) :
    ∃ p ∈ table, j = .str p.1.toList ∧ p.2 = a := by
  unfold lookupName at h
  split at h
  · rename_i s
    split at h
    · rename_i p hp
      refine ⟨p, List.mem_of_find?_eq_some hp, ?_, by simpa using h⟩
      have := List.find?_some hp
      simp only [decide_eq_true_eq] at this
      rw [this]
    · simp at h
  all_goals simp at h

end Verif
