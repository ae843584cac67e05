import Verif.Model.Convert
import Verif.Spec.Convert
import Verif.Lemmas.Load
import Verif.Lemmas.Base64
import Verif.Lemmas.Serial
/-
Lemmas about the conversion script.
-/
namespace Verif.Convert
open Verif

/-! ### the two Base64 decoders -/

theorem a2b_pads (m : Nat) : ∀ q lc lb out b,
    a2bGo (List.replicate m PAD) q lc lb out = some b → b = out := by
  induction m with
  | zero =>
    intro q lc lb out b h
    rw [List.replicate_zero, a2bGo] at h
    split at h
    · cases h
    · exact (Option.some.inj h).symm
  | succ m ih =>
    intro q lc lb out b h
    rw [List.replicate_succ, a2bGo, if_pos rfl] at h
    split at h
    · exact ih _ _ _ _ _ h
    · exact (Option.some.inj h).symm

/-- a text without valid characters is skipped -/
theorem a2b_invalid (l t : Bytes) (hl : ∀ c ∈ l, a2bTable c = none) (q lc lb : Nat) (out : Bytes) :
    a2bGo (l ++ t) q lc lb out = a2bGo t q lc lb out := by
  induction l with
  | nil => rfl
  | cons c l ih =>
    have hc := hl c (by simp)
    have hp : c ≠ PAD := by rintro rfl; cases hc
    rw [List.cons_append, a2bGo, if_neg hp, hc]
    exact ih fun c hc => hl c (by simp [hc])

/-- the first valid character is one of the text, or the text has none -/
theorem findValid_cases (l : Bytes) :
    (∀ c ∈ l, a2bTable c = none) ∨ ∃ c, ∀ t, findValid (l ++ t) 0 = some c := by
  induction l with
  | nil => exact .inl (by simp)
  | cons c l ih =>
    cases hc : a2bTable c with
    | some v => exact .inr ⟨c, fun t => by simp [findValid, hc]⟩
    | none =>
      rcases ih with h | ⟨c', h⟩
      · left
        intro x hx
        rcases List.mem_cons.mp hx with rfl | hx
        · exact hc
        · exact h x hx
      · exact .inr ⟨c', fun t => by rw [List.cons_append, findValid, hc]; exact h t⟩

/-- the number of padding characters decides whether a text is decoded, not what it decodes to -/
theorem a2b_pad_irrel (l : Bytes) (m n : Nat) : ∀ q lc lb out b b',
    a2bGo (l ++ List.replicate m PAD) q lc lb out = some b →
    a2bGo (l ++ List.replicate n PAD) q lc lb out = some b' → b = b' := by
  induction l with
  | nil =>
    intro q lc lb out b b' h h'
    rw [a2b_pads m _ _ _ _ _ h, a2b_pads n _ _ _ _ _ h']
  | cons c l ih =>
    intro q lc lb out b b' h h'
    rw [List.cons_append, a2bGo] at h h'
    by_cases hc : c = PAD
    · subst hc
      rw [if_pos rfl] at h h'
      have hv : ∀ t, findValid (PAD :: t) 1 = findValid t 0 := fun t => rfl
      rw [hv] at h h'
      rcases findValid_cases l with hi | ⟨c, hf⟩
      · have key : ∀ (k : Nat) (x : Bytes) (p : Prop) [Decidable p],
            (if p then a2bGo (l ++ List.replicate k PAD) q lc lb out else some out) = some x → x = out := by
          intro k x p _ hx
          split at hx
          · rw [a2b_invalid l _ hi] at hx
            exact a2b_pads k _ _ _ _ _ hx
          · exact (Option.some.inj hx).symm
        rw [key m b _ h, key n b' _ h']
      · rw [hf] at h h'
        split at h
        · next hq => rw [if_pos hq] at h'; exact ih _ _ _ _ _ _ h h'
        · next hq => rw [if_neg hq] at h'; exact Option.some.inj (h.symm.trans h')
    · rw [if_neg hc] at h h'
      cases ht : a2bTable c with
      | none => rw [ht] at h h'; exact ih _ _ _ _ _ _ h h'
      | some v =>
        rw [ht] at h h'
        simp only at h h'
        split at h
        · next hq => rw [if_pos hq] at h'; exact ih _ _ _ _ _ _ h h'
        · next hq => rw [if_neg hq] at h'; exact ih _ _ _ _ _ _ h h'

theorem findValid_filter (p : UInt8 → Bool) (hp : ∀ c, p c = false → a2bTable c = none) (l : Bytes) (n : Nat) :
    findValid (l.filter p) n = findValid l n := by
  induction l generalizing n with
  | nil => rfl
  | cons c l ih =>
    cases hc : p c with
    | true =>
      rw [List.filter_cons_of_pos hc, findValid, findValid]
      split
      · split
        · rfl
        · exact ih _
      · exact ih _
    | false =>
      rw [List.filter_cons_of_neg (by simp [hc]), findValid, hp c hc]
      exact ih n

/-- characters outside the alphabet may be removed -/
theorem a2b_filter (p : UInt8 → Bool) (hp : ∀ c, p c = false → a2bTable c = none) (l : Bytes) : ∀ q lc lb out,
    a2bGo (l.filter p) q lc lb out = a2bGo l q lc lb out := by
  induction l with
  | nil => intros; rfl
  | cons c l ih =>
    intro q lc lb out
    cases hc : p c with
    | true =>
      have hf := findValid_filter p hp (c :: l) 1
      rw [List.filter_cons_of_pos hc] at hf ⊢
      rw [a2bGo, a2bGo, hf]
      simp only [ih]
    | false =>
      have ht := hp c hc
      have hne : c ≠ PAD := by rintro rfl; cases ht
      rw [List.filter_cons_of_neg (by simp [hc]), a2bGo.eq_2, if_neg hne, ht]
      exact ih _ _ _ _

theorem trDec_skipped : ∀ c : UInt8, isSkipped c = true → trDec c = c ∧ a2bTable c = none := by
  intro c h
  simp only [isSkipped, Bool.or_eq_true, decide_eq_true_eq] at h
  rcases h with (rfl | rfl) | rfl <;> decide

theorem trDec_skip_iff (c : UInt8) : isSkipped (trDec c) = isSkipped c := by
  unfold trDec
  split
  · next h => subst h; rfl
  · split
    · next h => subst h; rfl
    · rfl

/-- a text decoded by both decoders is decoded to the same bytes -/
theorem decode_agree {s b b' : Bytes} (h : b64Decode s = .ok b) (h' : Base64WSDecode s = .ok b') : b = b' := by
  have key : ∀ (p : UInt8 → Bool) (m : Nat), (∀ c, p c = false → isSkipped c = true) →
      a2bGo ((s.filter p ++ List.replicate m PAD).map trDec) 0 0 0 [] =
      a2bGo (s.map trDec ++ List.replicate m PAD) 0 0 0 [] := by
    intro p m hp
    have e : ∀ x : Bytes, x.map trDec ++ List.replicate m PAD = (x ++ List.replicate m PAD).map trDec := by
      intro x; simp [show trDec PAD = PAD from rfl]
    have hk : ∀ c, (!isSkipped c) = false → a2bTable c = none := by
      intro c hc
      exact (trDec_skipped c (by simpa using hc)).2
    rw [e, ← a2b_filter (fun c => !isSkipped c) hk, ← a2b_filter (fun c => !isSkipped c) hk (List.map _ (s ++ _))]
    congr 1
    rw [List.filter_map, List.filter_map]
    congr 1
    rw [List.filter_append, List.filter_append, List.filter_filter]
    congr 1
    apply List.filter_congr
    intro c _
    simp only [Function.comp, trDec_skip_iff]
    cases hpc : p c with
    | true => simp
    | false => simp [hp c hpc]
  have val : ∀ (p : UInt8 → Bool) (x : Bytes), (∀ c, p c = false → isSkipped c = true) →
      urlsafeB64decode (if (s.filter p).length % 4 = 2 then s.filter p ++ [PAD, PAD]
        else if (s.filter p).length % 4 = 3 then s.filter p ++ [PAD] else s.filter p) = .ok x →
      ∃ m, a2bGo (s.map trDec ++ List.replicate m PAD) 0 0 0 [] = some x := by
    intro p x hp hx
    unfold urlsafeB64decode at hx
    split at hx
    · next y hy =>
      obtain rfl := Except.ok.inj hx
      split at hy
      · exact ⟨2, by rw [← key p 2 hp]; exact hy⟩
      · split at hy
        · exact ⟨1, by rw [← key p 1 hp]; exact hy⟩
        · exact ⟨0, by rw [← key p 0 hp, List.replicate_zero, List.append_nil]; exact hy⟩
    · cases hx
  have h1 : ∃ m, a2bGo (s.map trDec ++ List.replicate m PAD) 0 0 0 [] = some b := by
    unfold b64Decode at h
    simp only at h
    split at h
    · cases h
    · exact val (fun c => decide (c ≠ 32)) b (by intro c hc; simp at hc; subst hc; rfl) h
  have h2 : ∃ m, a2bGo (s.map trDec ++ List.replicate m PAD) 0 0 0 [] = some b' := by
    unfold Base64WSDecode at h'
    simp only at h'
    split at h'
    · cases h'
    · split at h'
      · next y hy =>
        obtain rfl := Except.ok.inj h'
        exact val (fun c => !isSkipped c) _ (by intro c hc; simpa using hc) hy
      · cases h'
      · cases h'
  obtain ⟨m, h1⟩ := h1
  obtain ⟨n, h2⟩ := h2
  exact a2b_pad_irrel _ m n _ _ _ _ _ _ h1 h2

/-! ### rewriting JSON values -/

mutual
theorem rewriteValue_WF (j : Json) (hj : j.WF) {j' : Json} (h : rewriteValue j = .ok j') : j'.WF := by
  cases j with
  | obj l =>
    rw [rewriteValue] at h
    obtain ⟨l', hl, h⟩ := bind_ok h
    obtain rfl := Except.ok.inj h
    rw [Json.WF] at hj ⊢
    obtain ⟨h1, h2⟩ := rewriteRec_WF l hj.2 hl
    exact ⟨h1 ▸ hj.1, h2⟩
  | null => rw [rewriteValue] at h; obtain rfl := Except.ok.inj h; exact hj
  | bool b => rw [rewriteValue] at h; obtain rfl := Except.ok.inj h; exact hj
  | num b => rw [rewriteValue] at h; obtain rfl := Except.ok.inj h; exact hj
  | str b => rw [rewriteValue] at h; obtain rfl := Except.ok.inj h; exact hj
  | arr b => rw [rewriteValue] at h; obtain rfl := Except.ok.inj h; exact hj
theorem rewriteRec_WF (l : List (List Char × Json)) (hl : WFMembers l) {l' : List (List Char × Json)}
    (h : rewriteInplaceRec l = .ok l') : l'.map Prod.fst = l.map Prod.fst ∧ WFMembers l' := by
  match l with
  | [] => rw [rewriteInplaceRec] at h; obtain rfl := Except.ok.inj h; exact ⟨rfl, hl⟩
  | (k, v) :: t =>
    rw [rewriteInplaceRec] at h
    rw [WFMembers] at hl
    obtain ⟨v1, h1, h⟩ := bind_ok h
    obtain ⟨v2, h2, h⟩ := bind_ok h
    obtain ⟨t', h3, h⟩ := bind_ok h
    obtain rfl := Except.ok.inj h
    obtain ⟨i1, i2⟩ := rewriteRec_WF t hl.2 h3
    refine ⟨by rw [List.map_cons, List.map_cons, i1], ?_⟩
    rw [WFMembers]
    refine ⟨?_, i2⟩
    unfold rewriteListed at h2
    split at h2
    · unfold rewriteField at h2
      obtain ⟨a, _, h2⟩ := bind_ok h2
      obtain ⟨b, _, h2⟩ := bind_ok h2
      obtain rfl := Except.ok.inj h2
      unfold Json.ofBytes
      rw [Json.WF]
      trivial
    · obtain rfl := Except.ok.inj h2
      exact rewriteValue_WF v hl.1 h1
end

theorem dictGet_rewrite (l : List (List Char × Json)) {l' : List (List Char × Json)}
    (h : rewriteInplaceRec l = .ok l') {k : List Char} {v : Json} (hv : dictGet l k = some v) :
    ∃ v1 v', rewriteValue v = .ok v1 ∧
      rewriteListed k v1 = .ok v' ∧ dictGet l' k = some v' := by
  induction l generalizing l' with
  | nil => cases hv
  | cons a t ih =>
    obtain ⟨k2, w⟩ := a
    rw [rewriteInplaceRec] at h
    obtain ⟨v1, h1, h⟩ := bind_ok h
    obtain ⟨v2, h2, h⟩ := bind_ok h
    obtain ⟨t', h3, h⟩ := bind_ok h
    obtain rfl := Except.ok.inj h
    rw [dictGet] at hv
    split at hv
    · next hk =>
      subst hk
      obtain rfl := Option.some.inj hv
      exact ⟨v1, v2, h1, h2, by rw [dictGet, if_pos rfl]⟩
    · next hk =>
      obtain ⟨x, y, e1, e2, e3⟩ := ih h3 hv
      exact ⟨x, y, e1, e2, by rw [dictGet, if_neg hk, e3]⟩

theorem get_rewrite {j j' v : Json} {k : String} (h : rewriteValue j = .ok j') (hv : j.get k = .ok v) :
    ∃ v1 v', rewriteValue v = .ok v1 ∧
      rewriteListed k.toList v1 = .ok v' ∧ j'.get k = .ok v' := by
  cases j with
  | obj l =>
    rw [rewriteValue] at h
    obtain ⟨l', hl, h⟩ := bind_ok h
    obtain rfl := Except.ok.inj h
    unfold Json.get at hv ⊢
    simp only at hv ⊢
    split at hv
    · next w hw =>
      obtain rfl := Except.ok.inj hv
      obtain ⟨v1, v', e1, e2, e3⟩ := dictGet_rewrite l hl hw
      exact ⟨v1, v', e1, e2, by rw [e3]⟩
    · cases hv
  | _ => cases hv

/-- a field of the list: the same bytes after a zero byte -/
theorem getB64_rewrite {j j' : Json} {k : String} {b : Bytes} (hk : k.toList ∈ FIELDS.map String.toList)
    (h : rewriteValue j = .ok j') (hb : getB64 j k = .ok b) : getB64 j' k = .ok (0 :: b) := by
  unfold getB64 at hb
  obtain ⟨v, h1, hb⟩ := bind_ok hb
  obtain ⟨s, h2, hd⟩ := bind_ok hb
  obtain ⟨v1, v', e1, e2, e3⟩ := get_rewrite h h1
  have hv : v1 = v := by
    cases v with
    | str s => rw [rewriteValue] at e1; exact (Except.ok.inj e1).symm
    | _ => cases h2
  subst hv
  rw [rewriteListed, if_pos hk] at e2
  unfold rewriteField at e2
  obtain ⟨s', f1, e2⟩ := bind_ok e2
  obtain ⟨c, f2, e2⟩ := bind_ok e2
  obtain rfl := Except.ok.inj e2
  rw [h2] at f1
  obtain rfl := Except.ok.inj f1
  obtain rfl := decode_agree f2 hd
  exact getB64_ok e3

/-- other fields -/
theorem get_rewrite_other {j j' v : Json} {k : String} (hk : k.toList ∉ FIELDS.map String.toList)
    (h : rewriteValue j = .ok j') (hv : j.get k = .ok v) : ∃ v', rewriteValue v = .ok v' ∧ j'.get k = .ok v' := by
  obtain ⟨v1, v', e1, e2, e3⟩ := get_rewrite h hv
  rw [rewriteListed, if_neg hk] at e2
  obtain rfl := Except.ok.inj e2
  exact ⟨v1, e1, e3⟩

theorem toBytes_rewrite {v v' : Json} {b : Bytes} (h : rewriteValue v = .ok v') (hb : v.toBytes = .ok b) :
    v' = v := by
  cases v with
  | str s => rw [rewriteValue] at h; exact (Except.ok.inj h).symm
  | _ => cases hb

theorem GetMode_rewrite {v v' : Json} {m : CipherMode} (h : rewriteValue v = .ok v') (hb : GetMode v = .ok m) :
    v' = v := by
  cases v with
  | str s => rw [rewriteValue] at h; exact (Except.ok.inj h).symm
  | _ => cases hb

theorem setSize_rewrite {v v' : Json} (t : KeyType) (h : rewriteValue v = .ok v') :
    setSizeJson t v' = setSizeJson t v := by
  cases v with
  | obj l =>
    rw [rewriteValue] at h
    obtain ⟨l', hl, h⟩ := bind_ok h
    obtain rfl := Except.ok.inj h
    rfl
  | _ => rw [rewriteValue] at h; obtain rfl := Except.ok.inj h; rfl

/-! ### reading converted keys -/

theorem BytesToLong_zero (b : Bytes) : BytesToLong (0 :: b) = BytesToLong b := by
  rw [BytesToLong_eq, BytesToLong_eq, beNat_cons]
  simp

theorem HmacKey_ofJson_rewrite {j j' : Json} {k : HmacKey} (h : rewriteValue j = .ok j')
    (hk : HmacKey.ofJson j = .ok k) : HmacKey.ofJson j' = .ok k := by
  unfold HmacKey.ofJson at hk ⊢
  obtain ⟨v, h1, hk⟩ := bind_ok hk
  obtain ⟨s, h2, hk⟩ := bind_ok hk
  obtain ⟨z, h3, hk⟩ := bind_ok hk
  obtain rfl := Except.ok.inj hk
  obtain ⟨v', e1, e2⟩ := get_rewrite_other (by decide) h h1
  obtain ⟨z', f1, f2⟩ := get_rewrite_other (by decide) h h3
  obtain rfl := toBytes_rewrite e1 h2
  simp only [bind, Except.bind, e2, h2, f2, setSize_rewrite _ f1]
  rfl

/-- what a text has to be for its converted text to be read -/
theorem newText_ok {text new : Bytes} (h : newText text = .ok new) :
    ∃ j j', loads text = .ok j ∧ rewriteValue j = .ok j' ∧ loads new = .ok j' := by
  unfold newText at h
  obtain ⟨j, h1, h⟩ := bind_ok h
  cases j with
  | obj l =>
    obtain ⟨l', h2, h⟩ := bind_ok h
    obtain rfl := Except.ok.inj h
    have hr : rewriteValue (.obj l) = .ok (.obj l') := by rw [rewriteValue, h2]; rfl
    exact ⟨_, _, h1, hr, loads_dumps _ (rewriteValue_WF _ (loads_WF h1) hr)⟩
  | _ => cases h

theorem RsaPub_rewrite {text new : Bytes} {j j' : Json} {k : RsaPublicKey} (h : rewriteValue j = .ok j')
    (ht : loads text = .ok j) (hn : loads new = .ok j') (hk : RsaPublicKey.Read text = .ok k) :
    RsaPublicKey.Read new = .ok (Spec.zeroRsaPub k) := by
  unfold RsaPublicKey.Read at hk ⊢
  obtain ⟨_, hj, hk⟩ := bind_ok hk
  obtain rfl := Except.ok.inj (ht.symm.trans hj)
  obtain ⟨m, h1, hk⟩ := bind_ok hk
  obtain ⟨e, h2, hk⟩ := bind_ok hk
  obtain ⟨z, h3, hk⟩ := bind_ok hk
  obtain rfl := Except.ok.inj hk
  obtain ⟨z', f1, f2⟩ := get_rewrite_other (by decide) h h3
  simp only [bind, Except.bind, hn, getB64_rewrite (by decide) h h1, getB64_rewrite (by decide) h h2, f2,
    setSize_rewrite _ f1, BytesToLong_zero]
  rfl

theorem DsaPub_rewrite {text new : Bytes} {j j' : Json} {k : DsaPublicKey} (h : rewriteValue j = .ok j')
    (ht : loads text = .ok j) (hn : loads new = .ok j') (hk : DsaPublicKey.Read text = .ok k) :
    DsaPublicKey.Read new = .ok (Spec.zeroDsaPub k) := by
  unfold DsaPublicKey.Read at hk ⊢
  obtain ⟨_, hj, hk⟩ := bind_ok hk
  obtain rfl := Except.ok.inj (ht.symm.trans hj)
  obtain ⟨y, h1, hk⟩ := bind_ok hk
  obtain ⟨p, h2, hk⟩ := bind_ok hk
  obtain ⟨g, h4, hk⟩ := bind_ok hk
  obtain ⟨q, h5, hk⟩ := bind_ok hk
  obtain ⟨z, h3, hk⟩ := bind_ok hk
  obtain rfl := Except.ok.inj hk
  obtain ⟨z', f1, f2⟩ := get_rewrite_other (by decide) h h3
  simp only [bind, Except.bind, hn, getB64_rewrite (by decide) h h1, getB64_rewrite (by decide) h h2,
    getB64_rewrite (by decide) h h4, getB64_rewrite (by decide) h h5, f2,
    setSize_rewrite _ f1, BytesToLong_zero]
  rfl

/-- the public part of a private key is read from its own text -/
theorem public_rewrite {j j' v : Json} (hj : j.WF) (h : rewriteValue j = .ok j') (hv : j.get "publicKey" = .ok v) :
    ∃ v', rewriteValue v = .ok v' ∧ j'.get "publicKey" = .ok v' ∧ loads (dumps v) = .ok v ∧
      loads (dumps v') = .ok v' := by
  obtain ⟨v', e1, e2⟩ := get_rewrite_other (by decide) h hv
  have hw := get_WF hj hv
  exact ⟨v', e1, e2, loads_dumps _ hw, loads_dumps _ (rewriteValue_WF _ hw e1)⟩

theorem RsaPriv_rewrite {text new : Bytes} {j j' : Json} {k : RsaPrivateKey} (h : rewriteValue j = .ok j')
    (ht : loads text = .ok j) (hn : loads new = .ok j') (hk : RsaPrivateKey.Read text = .ok k) :
    (RsaPrivateKey.Read new).map Key.rsaPriv = .ok (Spec.withZeros (.rsaPriv k)) := by
  have hw := loads_WF ht
  unfold RsaPrivateKey.Read at hk ⊢
  obtain ⟨_, hj, hk⟩ := bind_ok hk
  obtain rfl := Except.ok.inj (ht.symm.trans hj)
  obtain ⟨v, h1, hk⟩ := bind_ok hk
  obtain ⟨pub, h2, hk⟩ := bind_ok hk
  obtain ⟨a1, g1, hk⟩ := bind_ok hk
  obtain ⟨a2, g2, hk⟩ := bind_ok hk
  obtain ⟨a3, g3, hk⟩ := bind_ok hk
  obtain ⟨a4, g4, hk⟩ := bind_ok hk
  obtain ⟨a5, g5, hk⟩ := bind_ok hk
  obtain ⟨a6, g6, hk⟩ := bind_ok hk
  obtain ⟨z, h3, hk⟩ := bind_ok hk
  obtain rfl := Except.ok.inj hk
  obtain ⟨z', f1, f2⟩ := get_rewrite_other (by decide) h h3
  obtain ⟨v', e1, e2, e3, e4⟩ := public_rewrite hw h h1
  simp only [bind, Except.bind, hn, e2, RsaPub_rewrite e1 e3 e4 h2, getB64_rewrite (by decide) h g1,
    getB64_rewrite (by decide) h g2, getB64_rewrite (by decide) h g3, getB64_rewrite (by decide) h g4,
    getB64_rewrite (by decide) h g5, getB64_rewrite (by decide) h g6, f2, setSize_rewrite _ f1, BytesToLong_zero,
    Spec.zeroRsaPub]
  rfl

theorem DsaPriv_rewrite {text new : Bytes} {j j' : Json} {k : DsaPrivateKey} (h : rewriteValue j = .ok j')
    (ht : loads text = .ok j) (hn : loads new = .ok j') (hk : DsaPrivateKey.Read text = .ok k) :
    (DsaPrivateKey.Read new).map Key.dsaPriv = .ok (Spec.withZeros (.dsaPriv k)) := by
  have hw := loads_WF ht
  unfold DsaPrivateKey.Read at hk ⊢
  obtain ⟨_, hj, hk⟩ := bind_ok hk
  obtain rfl := Except.ok.inj (ht.symm.trans hj)
  obtain ⟨v, h1, hk⟩ := bind_ok hk
  obtain ⟨pub, h2, hk⟩ := bind_ok hk
  obtain ⟨a1, g1, hk⟩ := bind_ok hk
  obtain ⟨z, h3, hk⟩ := bind_ok hk
  obtain rfl := Except.ok.inj hk
  obtain ⟨z', f1, f2⟩ := get_rewrite_other (by decide) h h3
  obtain ⟨v', e1, e2, e3, e4⟩ := public_rewrite hw h h1
  simp only [bind, Except.bind, hn, e2, DsaPub_rewrite e1 e3 e4 h2, getB64_rewrite (by decide) h g1,
    f2, setSize_rewrite _ f1, BytesToLong_zero, Spec.zeroDsaPub]
  rfl

theorem Aes_rewrite {text new : Bytes} {j j' : Json} {k : AesKey} (h : rewriteValue j = .ok j')
    (ht : loads text = .ok j) (hn : loads new = .ok j') (hk : AesKey.Read text = .ok k) :
    AesKey.Read new = .ok k := by
  unfold AesKey.Read at hk ⊢
  obtain ⟨_, hj, hk⟩ := bind_ok hk
  obtain rfl := Except.ok.inj (ht.symm.trans hj)
  obtain ⟨hv, h1, hk⟩ := bind_ok hk
  obtain ⟨kv, h2, hk⟩ := bind_ok hk
  obtain ⟨s, h3, hk⟩ := bind_ok hk
  obtain ⟨hm, h4, hk⟩ := bind_ok hk
  obtain ⟨z, h5, hk⟩ := bind_ok hk
  obtain ⟨mv, h6, hk⟩ := bind_ok hk
  obtain ⟨m, h7, hm'⟩ := bind_ok hk
  obtain ⟨hv', a1, a2⟩ := get_rewrite_other (by decide) h h1
  obtain ⟨kv', b1, b2⟩ := get_rewrite_other (by decide) h h2
  obtain ⟨z', c1, c2⟩ := get_rewrite_other (by decide) h h5
  obtain ⟨mv', d1, d2⟩ := get_rewrite_other (by decide) h h6
  obtain rfl := toBytes_rewrite b1 h3
  obtain rfl := GetMode_rewrite d1 h7
  simp only [bind, Except.bind, hn, a2, b2, c2, d2, h3, HmacKey_ofJson_rewrite a1 h4, h7, setSize_rewrite _ c1]
  exact hm'

/-- a key read from a text is read from the converted text, with a zero byte before each number -/
theorem ReadKey_newText {t : KeyType} {text new : Bytes} {k : Key} (h : newText text = .ok new)
    (hk : ReadKey t text = .ok k) : ReadKey t new = .ok (Spec.withZeros k) := by
  obtain ⟨j, j', h1, h2, h3⟩ := newText_ok h
  have inv : ∀ {α} {x : Py α} {f : α → Key} {g : PyErr → PyErr}, Py.mapErr (x.map f) g = .ok k → ∃ a, x = .ok a ∧ f a = k := by
    intro α x f g hx
    cases x with
    | error e => cases hx
    | ok a => exact ⟨a, rfl, Except.ok.inj hx⟩
  have fwd : ∀ {x : Py Key} {k : Key} {g : PyErr → PyErr}, x = .ok k → Py.mapErr x g = .ok k := by
    rintro x k g rfl; rfl
  unfold ReadKey at hk ⊢
  cases t with
  | AES =>
    obtain ⟨a, ha, rfl⟩ := inv hk
    apply fwd
    simp only [Aes_rewrite h2 h1 h3 ha]
    rfl
  | HMAC_SHA1 =>
    obtain ⟨a, ha, rfl⟩ := inv hk
    unfold HmacKey.Read at ha
    rw [h1] at ha
    apply fwd
    simp only [HmacKey.Read, h3, bind, Except.bind, HmacKey_ofJson_rewrite h2 ha]
    rfl
  | DSA_PRIV =>
    obtain ⟨a, ha, rfl⟩ := inv hk
    exact fwd (DsaPriv_rewrite h2 h1 h3 ha)
  | RSA_PRIV =>
    obtain ⟨a, ha, rfl⟩ := inv hk
    exact fwd (RsaPriv_rewrite h2 h1 h3 ha)
  | DSA_PUB =>
    obtain ⟨a, ha, rfl⟩ := inv hk
    apply fwd
    simp only [DsaPub_rewrite h2 h1 h3 ha]
    rfl
  | RSA_PUB =>
    obtain ⟨a, ha, rfl⟩ := inv hk
    apply fwd
    simp only [RsaPub_rewrite h2 h1 h3 ha]
    rfl

theorem TrimBytes_zero (b : Bytes) : TrimBytes (0 :: b) = TrimBytes b := by
  have key : ∀ x : Bytes, TrimBytes x = if strip0 x = [] then [0] else strip0 x := fun x => rfl
  have : strip0 (0 :: b) = strip0 b := by
    rw [strip0_inj, beNat_cons]; simp
  rw [key, key, this]

/-- the identifier stays -/
theorem hashId_withZeros (P : Prims) (k : Key) : (Spec.withZeros k).hashId P = k.hashId P := by
  cases k <;>
    simp only [Spec.withZeros, Key.hashId, RsaPublicKey.hashId, DsaPublicKey.hashId, Spec.zeroRsaPub, Spec.zeroDsaPub,
      TrimBytes_zero]

/-! ### texts written by the library -/

theorem WSE_no_space (s : Bytes) : (Base64WSEncode s).filter (fun c => decide (c ≠ 32)) = Base64WSEncode s := by
  rw [List.filter_eq_self]
  intro c hc
  obtain ⟨n, hn, rfl⟩ := WSE_mem s c hc
  have := wsChar_skip hn
  simp only [decide_eq_true_eq]
  intro h
  rw [h] at this
  cases this

/-- the script reads what the library writes -/
theorem b64Decode_encode (s : Bytes) : b64Decode (Base64WSEncode s) = .ok s := by
  have h := Base64WSDecode_encode s
  unfold Base64WSDecode at h
  unfold b64Decode
  rw [WSE_no_space]
  rw [WSE_filter] at h
  simp only at h ⊢
  split at h
  · cases h
  · next hd =>
    rw [if_neg hd]
    split at h
    · next b hb => rw [hb, Except.ok.inj h]
    · cases h
    · cases h

theorem rewriteField_jb64 (b : Bytes) : rewriteField (jb64 b) = .ok (jb64 (0 :: b)) := by
  unfold rewriteField
  simp only [bind, Except.bind, jb64_toBytes, b64Decode_encode]
  rfl

theorem rewriteValue_jb64 (b : Bytes) : rewriteValue (jb64 b) = .ok (jb64 b) := by
  unfold jb64 Json.ofBytes; rw [rewriteValue]

theorem rewriteValue_ofBytes (b : Bytes) : rewriteValue (Json.ofBytes b) = .ok (Json.ofBytes b) := by
  unfold Json.ofBytes; rw [rewriteValue]

/-- members of an object, one after the other -/
theorem rec_listed {k : String} {b : Bytes} {t t' : List (List Char × Json)} (hk : k.toList ∈ FIELDS.map String.toList)
    (h : rewriteInplaceRec t = .ok t') :
    rewriteInplaceRec ((k.toList, jb64 b) :: t) = .ok ((k.toList, jb64 (0 :: b)) :: t') := by
  rw [rewriteInplaceRec]
  simp only [bind, Except.bind, rewriteValue_jb64, rewriteListed, if_pos hk, rewriteField_jb64, h]
  rfl

theorem rec_other {k : String} {v v' : Json} {t t' : List (List Char × Json)} (hk : k.toList ∉ FIELDS.map String.toList)
    (hv : rewriteValue v = .ok v') (h : rewriteInplaceRec t = .ok t') :
    rewriteInplaceRec ((k.toList, v) :: t) = .ok ((k.toList, v') :: t') := by
  rw [rewriteInplaceRec]
  simp only [bind, Except.bind, hv, rewriteListed, if_neg hk, h]
  rfl

theorem newText_dumps {l l' : List (String × Json)} (hw : (jobj l).WF)
    (h : rewriteInplaceRec (l.map fun p => (p.1.toList, p.2)) = .ok (l'.map fun p => (p.1.toList, p.2))) :
    newText (dumps (jobj l)) = .ok (dumps (jobj l')) := by
  unfold newText
  rw [loads_dumps _ hw]
  unfold jobj
  simp only [bind, Except.bind, h]
  rfl

theorem rec_nil : rewriteInplaceRec [] = .ok [] := by rw [rewriteInplaceRec]
theorem value_num (n : Int) : rewriteValue (.num n) = .ok (.num n) := by rw [rewriteValue]
theorem value_str (s : List Char) : rewriteValue (.str s) = .ok (.str s) := by rw [rewriteValue]

theorem value_obj {l l' : List (String × Json)}
    (h : rewriteInplaceRec (l.map fun p => (p.1.toList, p.2)) = .ok (l'.map fun p => (p.1.toList, p.2))) :
    rewriteValue (jobj l) = .ok (jobj l') := by
  unfold jobj
  rw [rewriteValue, h]
  rfl

/-- the members of an HMAC key -/
theorem hmac_members (n : Int) (s : Bytes) :
    rewriteInplaceRec ([("size", .num n), ("hmacKeyString", Json.ofBytes s)].map fun p => (p.1.toList, p.2)) =
      .ok ([("size", .num n), ("hmacKeyString", Json.ofBytes s)].map fun p => (p.1.toList, p.2)) :=
  rec_other (by dsimp only; decide) (value_num _) (rec_other (by dsimp only; decide) (rewriteValue_ofBytes _) rec_nil)

theorem rsa_members (m e : Bytes) (n : Int) :
    rewriteInplaceRec ([("modulus", jb64 m), ("publicExponent", jb64 e), ("size", .num n)].map
        fun p => (p.1.toList, p.2)) =
      .ok ([("modulus", jb64 (0 :: m)), ("publicExponent", jb64 (0 :: e)), ("size", .num n)].map
        fun p => (p.1.toList, p.2)) :=
  rec_listed (by dsimp only; decide) (rec_listed (by dsimp only; decide) (rec_other (by dsimp only; decide) (value_num _) rec_nil))

theorem dsa_members (p q g y : Bytes) (n : Int) :
    rewriteInplaceRec ([("p", jb64 p), ("q", jb64 q), ("g", jb64 g), ("y", jb64 y), ("size", .num n)].map
        fun p => (p.1.toList, p.2)) =
      .ok ([("p", jb64 (0 :: p)), ("q", jb64 (0 :: q)), ("g", jb64 (0 :: g)), ("y", jb64 (0 :: y)),
        ("size", .num n)].map fun p => (p.1.toList, p.2)) :=
  rec_listed (by dsimp only; decide) (rec_listed (by dsimp only; decide) (rec_listed (by dsimp only; decide) (rec_listed (by dsimp only; decide)
    (rec_other (by dsimp only; decide) (value_num _) rec_nil))))

/-- the text the library writes for a key becomes the text it writes for the key with the zero bytes -/
theorem newText_str (k : Key) : ∃ text, k.str = .ok text ∧ newText text = (Spec.withZeros k).str := by
  have small : ∀ l : List (String × Json), (l.map Prod.fst).Nodup → (∀ p ∈ l, p.2.WF) → (jobj l).WF := jobj_WF
  cases k with
  | hmac k =>
    exact ⟨_, rfl, newText_dumps (small _ (by simp) (by simp [Json.WF, ofBytes_WF])) (hmac_members _ _)⟩
  | aes k =>
    have hw : (jobj [("size", .num k.hmacKey.size), ("hmacKeyString", Json.ofBytes k.hmacKey.keyString)]).WF :=
      small _ (by simp) (by simp [Json.WF, ofBytes_WF])
    have hs : loads k.hmacKey.str = .ok _ := loads_dumps _ hw
    refine ⟨_, by simp only [Key.str, AesKey.str, hs, bind, Except.bind]; rfl, ?_⟩
    simp only [Spec.withZeros, Key.str, AesKey.str, hs, bind, Except.bind]
    refine newText_dumps (small _ (by simp) ?_) (rec_other (by dsimp only; decide) (value_str _) (rec_other (by dsimp only; decide)
      (value_num _) (rec_other (by dsimp only; decide) (rewriteValue_ofBytes _) (rec_other (by dsimp only; decide)
      (value_obj (hmac_members _ _)) rec_nil))))
    simp [Json.WF, ofBytes_WF, Json.ofString, hw]
  | rsaPub k =>
    exact ⟨_, rfl, newText_dumps (small _ (by simp) (by simp [Json.WF, jb64_WF])) (rsa_members _ _ _)⟩
  | dsaPub k =>
    exact ⟨_, rfl, newText_dumps (small _ (by simp) (by simp [Json.WF, jb64_WF])) (dsa_members _ _ _ _ _)⟩
  | rsaPriv k =>
    have hw : ∀ m e (n : Int), (jobj [("modulus", jb64 m), ("publicExponent", jb64 e), ("size", .num n)]).WF :=
      fun m e n => small _ (by simp) (by simp [Json.WF, jb64_WF])
    have hs : loads k.pub.str = .ok _ := loads_dumps _ (hw _ _ _)
    have hz : loads (Spec.zeroRsaPub k.pub).str = .ok _ := loads_dumps _ (hw _ _ _)
    refine ⟨_, by simp only [Key.str, RsaPrivateKey.str, hs, bind, Except.bind]; rfl, ?_⟩
    simp only [Spec.withZeros, Key.str, RsaPrivateKey.str, hz, bind, Except.bind]
    refine newText_dumps (small _ (by simp) ?_) (rec_other (by dsimp only; decide) (value_obj (rsa_members _ _ _))
      (rec_listed (by dsimp only; decide) (rec_listed (by dsimp only; decide) (rec_listed (by dsimp only; decide) (rec_listed (by dsimp only; decide)
      (rec_listed (by dsimp only; decide) (rec_listed (by dsimp only; decide) (rec_other (by dsimp only; decide) (value_num _) rec_nil))))))))
    simp [Json.WF, jb64_WF, hw]
  | dsaPriv k =>
    have hw : ∀ p q g y (n : Int), (jobj [("p", jb64 p), ("q", jb64 q), ("g", jb64 g), ("y", jb64 y),
        ("size", .num n)]).WF := fun p q g y n => small _ (by simp) (by simp [Json.WF, jb64_WF])
    have hs : loads k.pub.str = .ok _ := loads_dumps _ (hw _ _ _ _ _)
    have hz : loads (Spec.zeroDsaPub k.pub).str = .ok _ := loads_dumps _ (hw _ _ _ _ _)
    refine ⟨_, by simp only [Key.str, DsaPrivateKey.str, hs, bind, Except.bind]; rfl, ?_⟩
    simp only [Spec.withZeros, Key.str, DsaPrivateKey.str, hz, bind, Except.bind]
    refine newText_dumps (small _ (by simp) ?_) (rec_other (by dsimp only; decide) (value_obj (dsa_members _ _ _ _ _))
      (rec_listed (by dsimp only; decide) (rec_other (by dsimp only; decide) (value_num _) rec_nil)))
    simp [Json.WF, jb64_WF, hw]

end Verif.Convert
