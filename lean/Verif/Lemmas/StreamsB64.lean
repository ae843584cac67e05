import Verif.Spec.Streams
import Verif.Lemmas.Base64
import Verif.Lemmas.Util
import Verif.Lemmas.KeyId
namespace Verif
open Spec

theorem WSE_append (a b : Bytes) (h : a.length % 3 = 0) :
    Base64WSEncode (a ++ b) = Base64WSEncode a ++ Base64WSEncode b := by
  induction a using list_ind3 with
  | h0 => simp [WSE_nil]
  | h1 a => simp at h
  | h2 a b => simp at h
  | h3 x y z t ih =>
    have : t.length % 3 = 0 := by simp only [List.length_cons] at h; omega
    simp only [List.cons_append, WSE_three, ih this]

theorem WSE_eq_nil {a : Bytes} : Base64WSEncode a = [] ↔ a = [] := by
  constructor
  · intro h
    have := WSE_length a
    rw [h, List.length_nil] at this
    exact List.length_eq_zero_iff.mp (by omega)
  · rintro rfl; rfl

/-! ### writer -/

theorem b64Encode_eq (buffer d : Bytes) :
    b64Encode buffer d =
      (Base64WSEncode ((buffer ++ d).take (3 * ((buffer ++ d).length / 3))), (buffer ++ d).drop (3 * ((buffer ++ d).length / 3))) := by
  simp only [b64Encode, b64BufferEncode, Bool.false_eq_true, if_false, sliceTo_nat, sliceFrom_nat]

theorem b64Write_spec {τ} (S : Sink τ) (text : τ → Bytes) (hS : Collects S text) (w : B64Writer τ)
    (d : Bytes) (t : Bytes) (done : Bytes) (h3 : done.length % 3 = 0) (ht : text w.out = t ++ Base64WSEncode done) :
    ∃ done', done'.length % 3 = 0 ∧ text (w.write S d).out = t ++ Base64WSEncode done' ∧
      done' ++ (w.write S d).buffer = done ++ w.buffer ++ d ∧ (w.write S d).buffer.length < 3 := by
  refine ⟨done ++ (w.buffer ++ d).take (3 * ((w.buffer ++ d).length / 3)), ?_, ?_, ?_, ?_⟩
  · simp only [List.length_append, List.length_take]; omega
  · simp only [B64Writer.write, b64Encode_eq, hS.write, ht, WSE_append _ _ h3, List.append_assoc]
  · simp only [B64Writer.write, b64Encode_eq, List.append_assoc, List.take_append_drop]
  · simp only [B64Writer.write, b64Encode_eq, List.length_drop]; omega

theorem b64Writes_spec {τ} (S : Sink τ) (text : τ → Bytes) (hS : Collects S text) (t : Bytes) :
    ∀ (chunks : List Bytes) (w : B64Writer τ) (done : Bytes), done.length % 3 = 0 →
      text w.out = t ++ Base64WSEncode done → w.buffer.length < 3 →
      ∃ done', done'.length % 3 = 0 ∧ text (chunks.foldl (b64Sink S).write w).out = t ++ Base64WSEncode done' ∧
        done' ++ (chunks.foldl (b64Sink S).write w).buffer = done ++ w.buffer ++ chunks.flatten ∧
        (chunks.foldl (b64Sink S).write w).buffer.length < 3
  | [], w, done, h3, ht, hb => ⟨done, h3, ht, by simp, hb⟩
  | d :: chunks, w, done, h3, ht, hb => by
    obtain ⟨done', h3', ht', he, hl⟩ := b64Write_spec S text hS w d t done h3 ht
    obtain ⟨done'', h1, h2, h4, h5⟩ := b64Writes_spec S text hS t chunks (w.write S d) done' h3' ht' hl
    refine ⟨done'', h1, h2, ?_, h5⟩
    rw [List.foldl_cons]
    show done'' ++ (List.foldl (b64Sink S).write (w.write S d) chunks).buffer = _
    rw [h4, he]; simp

theorem b64Flush_spec {τ} (S : Sink τ) (text : τ → Bytes) (hS : Collects S text) (w : B64Writer τ) :
    text (w.flush S).out = text w.out ++ Base64WSEncode w.buffer ∧ (w.flush S).buffer = [] := by
  unfold B64Writer.flush
  by_cases hb : w.buffer = []
  · simp [hb, WSE_nil]
  · have : (b64BufferEncode w.buffer true).1 = Base64WSEncode w.buffer := by
      simp only [b64BufferEncode, if_true, sliceTo_nat, List.take_length]
    have h2 : Base64WSEncode w.buffer ≠ [] := fun h => hb (WSE_eq_nil.mp h)
    simp only [ne_eq, hb, not_false_eq_true, if_true, this, h2, hS.write, hS.flush, and_self]

/-! ### reader -/

theorem b64Decode_step {buffer d rest b : Bytes} (h : buffer ++ d ++ rest = Base64WSEncode b) :
    ∃ new buf' b', b64Decode buffer d = .ok (new, buf') ∧ buf'.length < 4 ∧ b = new ++ b' ∧
      buf' ++ rest = Base64WSEncode b' ∧ new.length = 3 * ((buffer.length + d.length) / 4) := by
  have hl := WSE_length b
  rw [← h] at hl
  simp only [List.length_append] at hl
  generalize hk : (buffer.length + d.length) / 4 = k
  have hkb : 3 * k ≤ b.length := by omega
  have hsplit : Base64WSEncode b = Base64WSEncode (b.take (3 * k)) ++ Base64WSEncode (b.drop (3 * k)) := by
    rw [← WSE_append _ _ (by rw [List.length_take, Nat.min_eq_left hkb]; omega), List.take_append_drop]
  have hlk : (Base64WSEncode (b.take (3 * k))).length = 4 * k := by
    rw [WSE_length, List.length_take, Nat.min_eq_left hkb]; omega
  have e1 : (buffer ++ d).take (4 * k) = Base64WSEncode (b.take (3 * k)) := by
    have : (buffer ++ d ++ rest).take (4 * k) = (buffer ++ d).take (4 * k) := by
      rw [List.take_append_of_le_length (by simp only [List.length_append]; omega)]
    rw [← this, h, hsplit, List.take_append_of_le_length (by omega), ← hlk, List.take_length]
  have e2 : (buffer ++ d).drop (4 * k) ++ rest = Base64WSEncode (b.drop (3 * k)) := by
    have : (buffer ++ d ++ rest).drop (4 * k) = (buffer ++ d).drop (4 * k) ++ rest := by
      rw [List.drop_append_of_le_length (by simp only [List.length_append]; omega)]
    rw [← this, h, hsplit, ← hlk, List.drop_left]
  refine ⟨b.take (3 * k), (buffer ++ d).drop (4 * k), b.drop (3 * k), ?_, ?_, (List.take_append_drop _ _).symm, e2, ?_⟩
  · have hk' : (buffer ++ d).length / 4 = k := by rw [List.length_append, hk]
    simp only [b64Decode, b64BufferDecode, Bool.false_eq_true, if_false, hk', sliceTo_nat, sliceFrom_nat, e1,
      Base64WSDecode_encode]
    rfl
  · simp only [List.length_drop, List.length_append]; omega
  · rw [List.length_take, Nat.min_eq_left hkb]

theorem b64Satisfied_ne_nil {cb : Bytes} {size chars : Int} (h1 : size ≠ 0) (h2 : chars ≠ 0)
    (h : b64Satisfied cb size chars = true) : cb ≠ [] := by
  rintro rfl
  simp only [b64Satisfied, List.length_nil] at h
  split at h
  · split at h
    · simp at h
    · simp only [decide_eq_true_eq] at h; omega
  · simp only [decide_eq_true_eq] at h; omega

theorem b64Loop_spec {σ} {m : Source σ} {good : σ → Prop} {rest : σ → Bytes} {left : σ → Nat} {f : Nat → Nat}
    (hm : Serves m good rest left f) {size chars : Int} (h1 : size ≠ 0) :
    ∀ (fuel : Nat) (r : B64Reader σ) (nd : Option Bytes) (b : Bytes), good r.src → left r.src < fuel →
      r.buffer.length < 4 → r.buffer ++ rest r.src = Base64WSEncode b →
      ∃ nd' r' new b', B64Reader.loop m size chars fuel r nd = (.ok nd', r') ∧ good r'.src ∧
        left r'.src ≤ left r.src ∧ (new ≠ [] → left r'.src < left r.src) ∧ r'.buffer.length < 4 ∧
        r'.buffer ++ rest r'.src = Base64WSEncode b' ∧ r'.chars = r.chars ++ new ∧ b = new ++ b' ∧
        (b64Satisfied r'.chars size chars = true ∨ (nd' = some [] ∧ rest r'.src = [])) ∧
        (left r'.src = left r.src → rest r'.src = [] → r'.buffer.length ≤ r.buffer.length) ∧
        (0 < size → chars < 0 → r.chars.length ≤ size.toNat - 1 + 3 * ((3 + f size.toNat) / 4) →
          r'.chars.length ≤ size.toNat - 1 + 3 * ((3 + f size.toNat) / 4))
  | 0, _, _, _, _, h, _, _ => absurd h (by omega)
  | fuel + 1, r, nd, b, hg, hf, hb, ht => by
    unfold B64Reader.loop
    by_cases hsat : b64Satisfied r.chars size chars = true
    · rw [if_pos hsat]
      exact ⟨nd, r, [], b, rfl, hg, Nat.le_refl _, fun h => absurd rfl h, hb, ht, by simp, rfl, .inl hsat,
        fun _ _ => Nat.le_refl _, fun _ _ h => h⟩
    · rw [if_neg hsat]
      have hn : (if size < 0 then (-1 : Int) else size) ≠ 0 := by split <;> omega
      rcases hm.step r.src _ hg hn with ⟨s', e, hg', hr, hl⟩ | ⟨s', e, hg', hr0, hr, hl⟩ | ⟨d, s', e, hd, hg', hr, hl, hlen⟩
      · rw [e]
        obtain ⟨nd', r', new, b', p1, p2, p3, p4, p5, p6, p7, p8, p9, p10, p11⟩ :=
          b64Loop_spec hm (chars := chars) h1 fuel { r with src := s' } none b hg' (by show left s' < fuel; omega) hb (by rw [hr]; exact ht)
        have p3' : left r'.src ≤ left s' := p3
        exact ⟨nd', r', new, b', p1, p2, by omega, fun h => by have : left r'.src < left s' := p4 h; omega, p5, p6, p7,
          p8, p9, fun h => by omega, p11⟩
      · rw [e]
        obtain ⟨new, buf', b', q1, q2, q3, q4, q5⟩ := b64Decode_step (buffer := r.buffer) (d := []) (rest := rest s') (b := b)
          (by rw [hr, List.append_nil, List.append_nil]; rw [hr0, List.append_nil] at ht; exact ht)
        simp only [q1, if_true]
        have hnew : new = [] := by
          apply List.length_eq_zero_iff.mp; rw [q5, List.length_nil]; omega
        subst hnew
        refine ⟨_, _, [], b', rfl, hg', hl, fun h => absurd rfl h, q2, q4, rfl, q3, .inr ⟨rfl, hr⟩, fun _ _ => ?_, ?_⟩
        · have h2 := congrArg List.length q4
          have h3 := congrArg List.length ht
          rw [q3] at h3
          simp only [hr, hr0, List.append_nil, List.nil_append] at h2 h3
          show buf'.length ≤ _
          omega
        · intro _ _ h; simpa using h
      · rw [e]
        obtain ⟨new, buf', b', q1, q2, q3, q4, q5⟩ := b64Decode_step (buffer := r.buffer) (d := d) (rest := rest s') (b := b)
          (by rw [List.append_assoc, ← hr]; exact ht)
        simp only [q1, if_neg hd]
        obtain ⟨nd', r', new', b'', p1, p2, p3, p4, p5, p6, p7, p8, p9, p10, p11⟩ :=
          b64Loop_spec hm (chars := chars) h1 fuel ⟨buf', r.chars ++ new, s'⟩ (some d) b' hg' (by show left s' < fuel; omega) q2 q4
        have p3' : left r'.src ≤ left s' := p3
        refine ⟨nd', r', new ++ new', b'', p1, p2, by omega, fun _ => by omega, p5, p6, by rw [p7, List.append_assoc],
          by rw [q3, p8, List.append_assoc], p9, fun h => by omega, fun hs hc hh => p11 hs hc ?_⟩
        have hlt : r.chars.length < size.toNat := by
          simp only [b64Satisfied, hc, if_true, if_neg (show ¬ size < 0 by omega)] at hsat
          simp only [ge_iff_le, decide_eq_true_eq] at hsat; omega
        have hd' : d.length ≤ f size.toNat := by
          have := hlen; rw [if_neg (by omega)] at this; exact this hs
        show (r.chars ++ new).length ≤ _
        rw [List.length_append, q5]
        have : (r.buffer.length + d.length) / 4 ≤ (3 + f size.toNat) / 4 := Nat.div_le_div_right (by omega)
        omega

/-- the state of a Base64 reader in the middle of the encoding of a byte string: `b` is what it will
still deliver -/
def B64Mid {σ} (good : σ → Prop) (rest : σ → Bytes) (r : B64Reader σ) (b : Bytes) : Prop :=
  good r.src ∧ r.buffer.length < 4 ∧ ∃ b', r.buffer ++ rest r.src = Base64WSEncode b' ∧ b = r.chars ++ b'

theorem b64DecoderFlush_WSE (b : Bytes) : b64DecoderFlush (Base64WSEncode b) = (.ok b, []) := by
  unfold b64DecoderFlush
  by_cases h : Base64WSEncode b = []
  · rw [if_pos h, WSE_eq_nil.mp h]
  · rw [if_neg h]
    simp only [b64BufferDecode, if_true, sliceTo_nat, List.take_length, Base64WSDecode_encode]
    rfl

theorem b64Read_spec {σ} {m : Source σ} {good : σ → Prop} {rest : σ → Bytes} {left : σ → Nat} {f : Nat → Nat}
    (hm : Serves m good rest left f) {size chars : Int} (h1 : size ≠ 0) (h2 : chars ≠ 0)
    (fuel : Nat) (r : B64Reader σ) (b : Bytes) (hr : B64Mid good rest r b) (hf : left r.src < fuel) :
    ∃ out r' b', r.read m fuel size chars = (.ok (some out), r') ∧ B64Mid good rest r' b' ∧ b = out ++ b' ∧
      (out = [] → b' = []) ∧ left r'.src ≤ left r.src ∧
      (0 ≤ chars → out.length ≤ max chars.toNat 2) ∧ (chars < 0 → r'.chars = []) ∧
      (r.chars = [] → chars < 0 →
        (out ≠ [] → 2 * left r'.src + (if r'.buffer = [] then 0 else 1) < 2 * left r.src + (if r.buffer = [] then 0 else 1)) ∧
        (out = [] → 2 * left r'.src + (if r'.buffer = [] then 0 else 1) ≤ 2 * left r.src + (if r.buffer = [] then 0 else 1)) ∧
        (0 < size → 1 ≤ f size.toNat → out.length ≤ size.toNat - 1 + 3 * ((3 + f size.toNat) / 4))) := by
  obtain ⟨hg, hb, b0, ht, rfl⟩ := hr
  obtain ⟨nd, r', new, b', p1, p2, p3, p4, p5, p6, p7, p8, p9, p10, p11⟩ :=
    b64Loop_spec hm (chars := chars) h1 fuel r (some []) b0 hg hf hb ht
  simp only [B64Reader.read, p1]
  generalize hres : (if chars < 0 then r'.chars else sliceTo r'.chars chars) = result
  generalize hrest : (if chars < 0 then [] else sliceFrom r'.chars chars) = keep
  have hcut : r'.chars = result ++ keep := by
    rw [← hres, ← hrest]
    split
    · simp
    · rw [← Int.toNat_of_nonneg (show 0 ≤ chars by omega), sliceTo_nat, sliceFrom_nat, List.take_append_drop]
  have hreslen : 0 ≤ chars → result.length ≤ chars.toNat := by
    intro h
    rw [← hres, if_neg (by omega), ← Int.toNat_of_nonneg h, sliceTo_nat, List.length_take]; simp
  have hnilchars : result = [] → r'.chars = [] := by
    intro h
    rw [← hres] at h
    split at h
    · exact h
    · rw [← Int.toNat_of_nonneg (show 0 ≤ chars by omega), sliceTo_nat, List.take_eq_nil_iff] at h
      rcases h with h | h
      · omega
      · exact h
  have hnil : result = [] → nd = some [] ∧ rest r'.src = [] := by
    intro h
    rcases p9 with h9 | h9
    · exact absurd (hnilchars h) (b64Satisfied_ne_nil h1 h2 h9)
    · exact h9
  have hall : r.chars ++ b0 = result ++ (keep ++ b') := by
    rw [p8, ← List.append_assoc, ← p7, hcut, List.append_assoc]
  have hkeep : chars < 0 → keep = [] := by intro h; rw [← hrest, if_pos h]
  by_cases hne : result = []
  · obtain ⟨rfl, hr0⟩ := hnil hne
    have hc0 := hnilchars hne
    have hk0 : keep = [] := by rw [hc0] at hcut; exact (List.append_eq_nil_iff.mp hcut.symm).2
    rw [if_neg (by simp), if_pos ⟨hne, rfl, h2⟩]
    rw [hr0, List.append_nil] at p6
    simp only [p6, b64DecoderFlush_WSE]
    have hb2 : b'.length ≤ 2 := by
      have := WSE_length b'; rw [← p6] at this; omega
    refine ⟨b', _, [], rfl, ⟨p2, by simp, [], ?_, by rw [hk0]; rfl⟩, ?_, fun _ => rfl, p3, fun h => by omega,
      fun h => hk0, fun hrc hc => ⟨fun h => ?_, fun h => ?_, fun hs hf1 => ?_⟩⟩
    · show [] ++ rest r'.src = _
      rw [hr0]; rfl
    · rw [hall, hne, hk0]; simp
    · show 2 * left r'.src + (if ([] : Bytes) = [] then 0 else 1) < _
      rw [if_pos rfl]
      by_cases hl : left r'.src = left r.src
      · have := p10 hl hr0
        have hb' : r'.buffer ≠ [] := by rw [p6]; exact fun h' => h (WSE_eq_nil.mp h')
        have : r.buffer ≠ [] := by
          intro h'; rw [h', List.length_nil] at this
          exact hb' (List.length_eq_zero_iff.mp (by omega))
        rw [if_neg this]; omega
      · split <;> omega
    · show 2 * left r'.src + (if ([] : Bytes) = [] then 0 else 1) ≤ _
      rw [if_pos rfl]; split <;> omega
    · have : 1 ≤ (3 + f size.toNat) / 4 := by omega
      omega
  · rw [if_neg (fun h => hne h.1), if_neg (fun h => hne h.1)]
    refine ⟨result, _, keep ++ b', rfl, ⟨p2, p5, b', p6, rfl⟩, hall, fun h => absurd h hne, p3,
      fun h => by have := hreslen h; omega, hkeep, fun hrc hc => ⟨fun _ => ?_, fun h => absurd h hne, fun hs hf1 => ?_⟩⟩
    · have : new ≠ [] := by
        rintro rfl
        rw [hrc, List.append_nil] at p7
        rw [p7] at hcut
        exact hne (List.append_eq_nil_iff.mp hcut.symm).1
      have := p4 this
      show 2 * left r'.src + (if r'.buffer = [] then 0 else 1) < _
      split <;> split <;> omega
    · have := p11 hs hc (by rw [hrc]; simp)
      rw [hcut, List.length_append] at this; omega

/-- A Base64 reader over a stream that delivers the encoding of `b` is itself a stream that delivers
`b` (when `f` allows at least one byte per read). -/
theorem b64Source_serves {σ} {m : Source σ} {good : σ → Prop} {rest : σ → Bytes} {left : σ → Nat} {f : Nat → Nat}
    (hm : Serves m good rest left f) (hf1 : ∀ n, 1 ≤ n → 1 ≤ f n) (fuel : Nat) :
    Serves (b64Source m fuel) (fun r => left r.src < fuel ∧ r.chars = [] ∧ ∃ b, B64Mid good rest r b)
      (fun r => match Base64WSDecode (r.buffer ++ rest r.src) with | .ok b => b | .error _ => [])
      (fun r => 2 * left r.src + (if r.buffer = [] then 0 else 1))
      (fun n => n - 1 + 3 * ((3 + f n) / 4)) := by
  constructor
  rintro r n ⟨hl, hc, b, hb⟩ hn
  obtain ⟨out, r', b', q1, q2, q3, q4, q5, -, q7, q8⟩ := b64Read_spec hm hn (show (-1 : Int) ≠ 0 by omega) fuel r b hb hl
  have hc' : r'.chars = [] := q7 (by omega)
  obtain ⟨q9, q10, q11⟩ := q8 hc (by omega)
  have hrest : ∀ (r : B64Reader σ) b, B64Mid good rest r b → r.chars = [] →
      (match Base64WSDecode (r.buffer ++ rest r.src) with | .ok b => b | .error _ => []) = b := by
    rintro r b ⟨-, -, b0, h, rfl⟩ h'
    rw [h, Base64WSDecode_encode, h']; rfl
  right
  rw [hrest r b hb hc]
  by_cases ho : out = []
  · left
    refine ⟨r', by rw [← ho]; exact q1, ⟨by omega, hc', b', q2⟩, ?_, ?_, q10 ho⟩
    · rw [q3, ho, q4 ho]; rfl
    · rw [hrest r' b' q2 hc', q4 ho]
  · right
    refine ⟨out, r', q1, ho, ⟨by omega, hc', b', q2⟩, ?_, q9 ho, fun h => q11 h (hf1 _ (by omega))⟩
    rw [hrest r' b' q2 hc']; exact q3

end Verif
