import Verif.Model.Json
/-
`json.loads` ends on every text, and the exceptions it raises.
-/
namespace Verif

/-- the exceptions of the parser (the second stands for texts outside the model) -/
def ParseErr (e : PyErr) : Prop := e = .valueError ∨ e = .unmodelled

theorem skipWs_length (s : Bytes) : (skipWs s).length ≤ s.length := by
  unfold skipWs
  exact (List.dropWhile_suffix _).length_le

theorem utf8Three_error {c d e : UInt8} {x : PyErr} (h : utf8Three c d e = .error x) : ParseErr x := by
  unfold utf8Three at h
  simp only at h
  split at h
  · cases h; exact .inl rfl
  · split at h
    · cases h; exact .inr rfl
    · cases h

theorem scanStr_spec (s : Bytes) (acc : List Char) :
    (∀ r, scanStr s acc = .ok r → r.2.length < s.length) ∧ (∀ e, scanStr s acc = .error e → ParseErr e) := by
  fun_induction scanStr s acc <;>
    first
    | (exact ⟨fun r hr => (by cases hr), fun e he => (by cases he; exact utf8Three_error (by assumption))⟩)
    | (simp [ParseErr]; done)
    | (rename_i ih; refine ⟨fun r hr => ?_, fun e he => ih.2 e he⟩; have := ih.1 r hr; simp only [List.length_cons]; omega)
    | (constructor <;> intro _ h <;> simp_all [ParseErr])

theorem scanNat_spec (s : Bytes) :
    (∀ r, scanNat s = .ok r → r.2.length < s.length) ∧ (∀ e, scanNat s = .error e → ParseErr e) := by
  cases s with
  | nil => simp [scanNat, ParseErr]
  | cons c t =>
    unfold scanNat
    by_cases h0 : c = 48
    · simp only [if_pos h0]
      exact ⟨fun r h => by obtain rfl := Except.ok.inj h; simp, by simp⟩
    · by_cases hd : isDigit c = true
      · simp only [if_neg h0, if_pos hd]
        refine ⟨fun r h => ?_, by simp⟩
        obtain rfl := Except.ok.inj h
        simp only [List.dropWhile_cons, hd, if_true, List.length_cons]
        have := (List.dropWhile_suffix (l := t) isDigit).length_le
        omega
      · simp only [if_neg h0, if_neg hd]
        exact ⟨by simp, fun e h => by obtain rfl := Except.error.inj h; exact .inl rfl⟩

theorem numEnd_spec (n : Int) (s : Bytes) :
    (∀ r, numEnd n s = .ok r → r.2 = s) ∧ (∀ e, numEnd n s = .error e → ParseErr e) := by
  unfold numEnd
  split
  · split
    · simp [ParseErr]
    · exact ⟨fun r h => by obtain rfl := Except.ok.inj h; rfl, by simp⟩
  · exact ⟨fun r h => by obtain rfl := Except.ok.inj h; rfl, by simp⟩

theorem bind_cases {α β} {Q : β → Prop} {E : PyErr → Prop} (x : Py α) (f : α → Py β)
    (he : ∀ e, x = .error e → E e) (hf : ∀ a, x = .ok a → (∀ r, f a = .ok r → Q r) ∧ (∀ e, f a = .error e → E e)) :
    (∀ r, (x >>= f) = .ok r → Q r) ∧ (∀ e, (x >>= f) = .error e → E e) := by
  cases x with
  | error e => exact ⟨fun r h => by simp [bind, Except.bind] at h, fun e' h => he _ (by simpa [bind, Except.bind] using h)⟩
  | ok a => exact hf a rfl

theorem ok_cases {β} {Q : β → Prop} {E : PyErr → Prop} (b : β) (h : Q b) :
    (∀ r, (.ok b : Py β) = .ok r → Q r) ∧ (∀ e, (.ok b : Py β) = .error e → E e) :=
  ⟨fun r hr => Except.ok.inj hr ▸ h, by simp⟩

theorem err_cases {β} {Q : β → Prop} {E : PyErr → Prop} (e : PyErr) (h : E e) :
    (∀ r, (.error e : Py β) = .ok r → Q r) ∧ (∀ e', (.error e : Py β) = .error e' → E e') :=
  ⟨by simp, fun e' he => Except.error.inj he ▸ h⟩

theorem parse_spec (fuel : Nat) :
    (∀ s : Bytes, 2 * s.length < fuel → (∀ r, parseVal fuel s = .ok r → r.2.length < s.length) ∧
      (∀ e, parseVal fuel s = .error e → ParseErr e)) ∧
    (∀ (s : Bytes) acc, 2 * s.length + 1 < fuel → (∀ r, parseElems fuel s acc = .ok r → r.2.length < s.length) ∧
      (∀ e, parseElems fuel s acc = .error e → ParseErr e)) ∧
    (∀ (s : Bytes) acc, 2 * s.length + 1 < fuel → (∀ r, parseMembers fuel s acc = .ok r → r.2.length < s.length) ∧
      (∀ e, parseMembers fuel s acc = .error e → ParseErr e)) := by
  induction fuel with
  | zero => exact ⟨by omega, by omega, by omega⟩
  | succ fuel ih =>
    obtain ⟨ih1, ih2, ih3⟩ := ih
    have hV : ParseErr .valueError := .inl rfl
    have hU : ParseErr .unmodelled := .inr rfl
    refine ⟨fun s hs => ?_, fun s acc hs => ?_, fun s acc hs => ?_⟩
    · have hws := skipWs_length s
      rw [parseVal]
      generalize skipWs s = w at hws
      dsimp only
      cases w with
      | nil => exact err_cases _ hV
      | cons c t =>
        simp only [List.length_cons] at hws
        dsimp only
        by_cases h34 : c = 34
        · rw [if_pos h34]
          apply bind_cases
          · exact (scanStr_spec t []).2
          · rintro ⟨k, rest⟩ hk
            have := (scanStr_spec t []).1 _ hk
            exact ok_cases _ (by simp only at this ⊢; omega)
        rw [if_neg h34]
        by_cases h123 : c = 123
        · rw [if_pos h123]
          have hwt := skipWs_length t
          generalize skipWs t = u at hwt
          cases u with
          | nil => exact err_cases _ hV
          | cons d u =>
            simp only [List.length_cons] at hwt
            dsimp only
            by_cases hd : d = 125
            · rw [if_pos hd]; exact ok_cases _ (by simp only; omega)
            · rw [if_neg hd]
              have := ih3 (d :: u) [] (by simp only [List.length_cons]; omega)
              refine ⟨fun r hr => ?_, this.2⟩
              have := this.1 r hr
              simp only [List.length_cons] at this; omega
        rw [if_neg h123]
        by_cases h91 : c = 91
        · rw [if_pos h91]
          have hwt := skipWs_length t
          generalize skipWs t = u at hwt
          cases u with
          | nil => exact err_cases _ hV
          | cons d u =>
            simp only [List.length_cons] at hwt
            dsimp only
            by_cases hd : d = 93
            · rw [if_pos hd]; exact ok_cases _ (by simp only; omega)
            · rw [if_neg hd]
              have := ih2 (d :: u) [] (by simp only [List.length_cons]; omega)
              refine ⟨fun r hr => ?_, this.2⟩
              have := this.1 r hr
              simp only [List.length_cons] at this; omega
        rw [if_neg h91]
        by_cases hn : isPrefix (bstr "null") (c :: t)
        · rw [if_pos hn]; exact ok_cases _ (by simp only [List.length_drop, List.length_cons]; omega)
        rw [if_neg hn]
        by_cases htr : isPrefix (bstr "true") (c :: t)
        · rw [if_pos htr]; exact ok_cases _ (by simp only [List.length_drop, List.length_cons]; omega)
        rw [if_neg htr]
        by_cases hfa : isPrefix (bstr "false") (c :: t)
        · rw [if_pos hfa]; exact ok_cases _ (by simp only [List.length_drop, List.length_cons]; omega)
        rw [if_neg hfa]
        split
        · exact err_cases _ hU
        by_cases h45 : c = 45
        · rw [if_pos h45]
          apply bind_cases
          · exact (scanNat_spec t).2
          · rintro ⟨n, rest⟩ hk
            have h1 := (scanNat_spec t).1 _ hk
            refine ⟨fun r hr => ?_, (numEnd_spec _ rest).2⟩
            rw [(numEnd_spec _ rest).1 r hr]; simp only at h1; omega
        · rw [if_neg h45]
          apply bind_cases
          · exact (scanNat_spec (c :: t)).2
          · rintro ⟨n, rest⟩ hk
            have h1 := (scanNat_spec (c :: t)).1 _ hk
            refine ⟨fun r hr => ?_, (numEnd_spec _ rest).2⟩
            rw [(numEnd_spec _ rest).1 r hr]; simp only [List.length_cons] at h1; omega
    · rw [parseElems]
      have h1 := ih1 s (by omega)
      apply bind_cases
      · exact h1.2
      · rintro ⟨v, rest⟩ hv
        have h2 := h1.1 _ hv
        have hw := skipWs_length rest
        simp only at h2
        dsimp only
        generalize skipWs rest = w at hw
        cases w with
        | nil => exact err_cases _ hV
        | cons c t =>
          simp only [List.length_cons] at hw
          dsimp only
          split
          · have := ih2 t (acc ++ [v]) (by omega)
            exact ⟨fun r hr => by have := this.1 r hr; omega, this.2⟩
          · split
            · exact ok_cases _ (by simp only; omega)
            · exact err_cases _ hV
    · rw [parseMembers]
      have hws := skipWs_length s
      generalize skipWs s = w at hws
      cases w with
      | nil => exact err_cases _ hV
      | cons c t =>
        simp only [List.length_cons] at hws
        dsimp only
        split
        · apply bind_cases
          · exact (scanStr_spec t []).2
          · rintro ⟨k, rest⟩ hk
            have hk := (scanStr_spec t []).1 _ hk
            have hw := skipWs_length rest
            simp only at hk
            dsimp only
            generalize skipWs rest = u at hw
            cases u with
            | nil => exact err_cases _ hV
            | cons d u =>
              simp only [List.length_cons] at hw
              dsimp only
              split
              · have h1 := ih1 u (by omega)
                apply bind_cases
                · exact h1.2
                · rintro ⟨v, rest'⟩ hv
                  have h2 := h1.1 _ hv
                  have hw := skipWs_length rest'
                  simp only at h2
                  dsimp only
                  generalize skipWs rest' = w' at hw
                  cases w' with
                  | nil => exact err_cases _ hV
                  | cons c' t' =>
                    simp only [List.length_cons] at hw
                    dsimp only
                    split
                    · have := ih3 t' (dictSet acc k v) (by omega)
                      exact ⟨fun r hr => by have := this.1 r hr; omega, this.2⟩
                    · split
                      · exact ok_cases _ (by simp only; omega)
                      · exact err_cases _ hV
              · exact err_cases _ hV
        · exact err_cases _ hV

/-- `json.loads` raises nothing but ValueError (or the text is outside the model) -/
theorem loads_error {s : Bytes} {e : PyErr} (h : loads s = .error e) : ParseErr e := by
  have hp := (parse_spec (2 * s.length + 1)).1 s (by omega)
  unfold loads at h
  revert e h
  have := bind_cases (Q := fun _ => True) (E := ParseErr) (parseVal (2 * s.length + 1) s)
    (fun (v, rest) => match skipWs rest with
      | [] => return v
      | _ => .error .valueError) hp.2 (by
    rintro ⟨v, rest⟩ -
    dsimp only
    split
    · exact ok_cases _ trivial
    · exact err_cases _ (.inl rfl))
  exact fun {e} h => this.2 e h

end Verif
