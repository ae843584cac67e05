import Verif.Lemmas.Serial
/-
Parsed JSON values have distinct keys in every object (they are Python dicts).
-/
namespace Verif

theorem WFElems_append {l m : List Json} (h1 : WFElems l) (h2 : WFElems m) : WFElems (l ++ m) := by
  induction l with
  | nil => exact h2
  | cons a t ih => exact ⟨h1.1, ih h1.2⟩

theorem dictSet_keys {β} (l : List (List Char × β)) (k : List Char) (v : β) (x : List Char) :
    x ∈ (dictSet l k v).map Prod.fst ↔ x = k ∨ x ∈ l.map Prod.fst := by
  induction l with
  | nil => simp [dictSet]
  | cons a t ih =>
    obtain ⟨a, b⟩ := a
    rw [dictSet]
    split
    · next h => subst h; simp
    · rw [List.map_cons, List.mem_cons, ih, List.map_cons, List.mem_cons]; tauto

theorem dictSet_nodup {β} {l : List (List Char × β)} (k : List Char) (v : β) (h : (l.map Prod.fst).Nodup) :
    ((dictSet l k v).map Prod.fst).Nodup := by
  induction l with
  | nil => simp [dictSet]
  | cons a t ih =>
    obtain ⟨a, b⟩ := a
    rw [List.map_cons, List.nodup_cons] at h
    rw [dictSet]
    split
    · next e => subst e; rw [List.map_cons, List.nodup_cons]; exact h
    · next e =>
      rw [List.map_cons, List.nodup_cons, dictSet_keys]
      refine ⟨?_, ih h.2⟩
      rintro (x | x)
      · exact e x
      · exact h.1 x

theorem dictSet_WF {l : List (List Char × Json)} {k : List Char} {v : Json} (h : WFMembers l) (hv : v.WF) :
    WFMembers (dictSet l k v) := by
  induction l with
  | nil => exact ⟨hv, trivial⟩
  | cons a t ih =>
    obtain ⟨a, b⟩ := a
    rw [dictSet]
    split
    · exact ⟨hv, h.2⟩
    · exact ⟨h.1, ih h.2⟩

theorem numEnd_WF {n : Int} {s rest : Bytes} {v : Json} (h : numEnd n s = .ok (v, rest)) : v.WF := by
  unfold numEnd at h
  split at h
  · split at h
    · cases h
    · cases h; trivial
  · cases h; trivial

theorem parse_WF (fuel : Nat) :
    (∀ s v rest, parseVal fuel s = .ok (v, rest) → v.WF) ∧
    (∀ s acc v rest, WFElems acc → parseElems fuel s acc = .ok (v, rest) → v.WF) ∧
    (∀ s acc v rest, (acc.map Prod.fst).Nodup → WFMembers acc → parseMembers fuel s acc = .ok (v, rest) → v.WF) := by
  induction fuel with
  | zero =>
    refine ⟨?_, ?_, ?_⟩
    · intro s v rest h; rw [parseVal] at h; cases h
    · intro s acc v rest _ h; rw [parseElems] at h; cases h
    · intro s acc v rest _ _ h; rw [parseMembers] at h; cases h
  | succ fuel ih =>
    obtain ⟨ih1, ih2, ih3⟩ := ih
    refine ⟨?_, ?_, ?_⟩
    · intro s v rest h
      rw [parseVal] at h
      simp only at h
      split at h
      · cases h
      · split at h
        · obtain ⟨⟨a, b⟩, h1, h2⟩ := bind_ok h
          cases h2; trivial
        · split at h
          · split at h
            · cases h
            · split at h
              · cases h; exact ⟨by simp, trivial⟩
              · exact ih3 _ [] _ _ (by simp) trivial h
          · split at h
            · split at h
              · cases h
              · split at h
                · cases h; trivial
                · exact ih2 _ [] _ _ trivial h
            · split at h
              · cases h; trivial
              · split at h
                · cases h; trivial
                · split at h
                  · cases h; trivial
                  · split at h
                    · cases h
                    · split at h
                      · obtain ⟨⟨a, b⟩, h1, h2⟩ := bind_ok h
                        exact numEnd_WF h2
                      · obtain ⟨⟨a, b⟩, h1, h2⟩ := bind_ok h
                        exact numEnd_WF h2
    · intro s acc v rest hacc h
      rw [parseElems] at h
      obtain ⟨⟨a, b⟩, h1, h2⟩ := bind_ok h
      have hw := ih1 _ _ _ h1
      simp only at h2
      split at h2
      · cases h2
      · split at h2
        · exact ih2 _ (acc ++ [a]) _ _ (WFElems_append hacc ⟨hw, trivial⟩) h2
        · split at h2
          · cases h2; exact WFElems_append hacc ⟨hw, trivial⟩
          · cases h2
    · intro s acc v rest hn hacc h
      rw [parseMembers] at h
      split at h
      · cases h
      · split at h
        · obtain ⟨⟨a, b⟩, h1, h2⟩ := bind_ok h
          simp only at h2
          split at h2
          · cases h2
          · split at h2
            · obtain ⟨⟨a', b'⟩, h3, h4⟩ := bind_ok h2
              have hw := ih1 _ _ _ h3
              simp only at h4
              split at h4
              · cases h4
              · split at h4
                · exact ih3 _ _ _ _ (dictSet_nodup _ _ hn) (dictSet_WF hacc hw) h4
                · split at h4
                  · cases h4
                    exact ⟨dictSet_nodup _ _ hn, dictSet_WF hacc hw⟩
                  · cases h4
            · cases h2
        · cases h

/-- parsed values are well-formed -/
theorem loads_WF {s : Bytes} {v : Json} (h : loads s = .ok v) : v.WF := by
  unfold loads at h
  obtain ⟨⟨a, b⟩, h1, h2⟩ := bind_ok h
  simp only at h2
  split at h2
  · cases h2; exact (parse_WF _).1 _ _ _ h1
  · cases h2

theorem dictGet_WF {l : List (List Char × Json)} (h : WFMembers l) {k : List Char} {v : Json}
    (hg : dictGet l k = some v) : v.WF := by
  induction l with
  | nil => cases hg
  | cons a t ih =>
    obtain ⟨a, b⟩ := a
    rw [dictGet] at hg
    split at hg
    · cases hg; exact h.1
    · exact ih h.2 hg

theorem get_WF {j v : Json} {k : String} (hj : j.WF) (h : j.get k = .ok v) : v.WF := by
  cases j with
  | obj l =>
    unfold Json.get at h
    simp only at h
    split at h
    · next v' hg => cases h; exact dictGet_WF hj.2 hg
    · cases h
  | _ => cases h

theorem WFElems_mem {l : List Json} (h : WFElems l) {j : Json} (hj : j ∈ l) : j.WF := by
  induction l with
  | nil => cases hj
  | cons a t ih =>
    rcases List.mem_cons.mp hj with rfl | hj
    · exact h.1
    · exact ih h.2 hj

end Verif
