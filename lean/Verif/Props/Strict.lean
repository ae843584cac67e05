import Verif.Props.Backends
import Verif.Props.Encodings
import Verif.Props.Harness
import Verif.Lemmas.StreamsB64
/-
Sharper statements about pieces of which other theorems say less: foreign characters in Base64 texts (C03), truncated Base64
streams (C05), where plugins come from (C71), lines of `interop.py display` (C97).
-/
namespace Verif.Props
open Verif Spec

/-- a character with a meaning in Base64 texts: a letter, a digit, `+`, `/`, `-`, `_` or `=` -/
def IsB64 (c : UInt8) : Prop :=
  65 ≤ c.toNat ∧ c.toNat ≤ 90 ∨ 97 ≤ c.toNat ∧ c.toNat ≤ 122 ∨ 48 ≤ c.toNat ∧ c.toNat ≤ 57 ∨ c = 43 ∨ c = 47 ∨ c = 45 ∨
    c = 95 ∨ c = 61

instance (c : UInt8) : Decidable (IsB64 c) := by unfold IsB64; infer_instance

theorem isB64_iff (c : UInt8) : IsB64 c ↔ (a2bTable (trDec c)).isSome = true := by
  have h : ∀ n : Fin 256, IsB64 (UInt8.ofNat n) ↔ (a2bTable (trDec (UInt8.ofNat n))).isSome = true := by decide +kernel
  have := h ⟨c.toNat, c.toNat_lt⟩
  rwa [UInt8.ofNat_toNat] at this

theorem findValid_filter (s : Bytes) (n : Nat) :
    findValid (s.filter fun c => (a2bTable c).isSome) n = findValid s n := by
  induction s generalizing n with
  | nil => rfl
  | cons c t ih =>
    cases h : a2bTable c with
    | none => rw [List.filter_cons_of_neg (by simp [h]), ih]; simp only [findValid, h]
    | some v => rw [List.filter_cons_of_pos (by simp [h])]; simp only [findValid, h, ih]

theorem a2bGo_filter (s : Bytes) (q lc lb : Nat) (out : Bytes) :
    a2bGo (s.filter fun c => (a2bTable c).isSome) q lc lb out = a2bGo s q lc lb out := by
  induction s generalizing q lc lb out with
  | nil => rfl
  | cons c t ih =>
    cases h : a2bTable c with
    | none =>
      have hc : c ≠ PAD := by rintro rfl; revert h; decide
      rw [List.filter_cons_of_neg (by simp [h]), ih]
      simp only [a2bGo, if_neg hc, h]
    | some v =>
      rw [List.filter_cons_of_pos (by simp [h])]
      have hf := findValid_filter (c :: t) 1
      rw [List.filter_cons_of_pos (by simp [h])] at hf
      simp only [a2bGo, hf, ih, h]

/-- C03: `base64.urlsafe_b64decode` skips every byte that has no meaning in Base64 texts, wherever it stands, so that it does
not matter to the result, also among the padding. -/
theorem C03_foreign (s : Bytes) : urlsafeB64decode s = urlsafeB64decode (s.filter fun c => decide (IsB64 c)) := by
  unfold urlsafeB64decode
  rw [← a2bGo_filter (s.map trDec), List.filter_map]
  have : (fun c => decide (IsB64 c)) = ((fun c => (a2bTable c).isSome) ∘ trDec) := by
    funext c
    rw [Function.comp, Bool.eq_iff_iff, decide_eq_true_eq]
    exact isB64_iff c
  rw [this]

/-- C03: in `Base64WSDecode` foreign bytes count for the length, and for nothing else: four of them change nothing. -/
theorem C03_foreign_four (s t u : Bytes) (hu : ∀ c ∈ u, ¬ IsB64 c ∧ isSkipped c = false) (h4 : u.length = 4) :
    Base64WSDecode (s ++ u ++ t) = Base64WSDecode (s ++ t) := by
  have hk : u.filter (fun c => !isSkipped c) = u := List.filter_eq_self.2 fun c hc => by simp [(hu c hc).2]
  have hn : u.filter (fun c => decide (IsB64 c)) = [] := List.filter_eq_nil_iff.2 fun c hc => by simp [(hu c hc).1]
  have hd : ∀ x : Bytes, urlsafeB64decode (List.filter (fun c => !isSkipped c) s ++ u ++
      List.filter (fun c => !isSkipped c) t ++ x) = urlsafeB64decode (List.filter (fun c => !isSkipped c) s ++
      List.filter (fun c => !isSkipped c) t ++ x) := fun x => by
    rw [C03_foreign, C03_foreign (_ ++ x)]
    simp only [List.filter_append, hn, List.append_nil]
  have hd0 := hd []
  rw [List.append_nil, List.append_nil] at hd0
  unfold Base64WSDecode
  simp only [List.filter_append, hk, List.length_append, h4]
  have : ((List.filter (fun c => !isSkipped c) s).length + 4 + (List.filter (fun c => !isSkipped c) t).length) % 4 =
      ((List.filter (fun c => !isSkipped c) s).length + (List.filter (fun c => !isSkipped c) t).length) % 4 := by omega
  rw [this]
  generalize ((List.filter (fun c => !isSkipped c) s).length + (List.filter (fun c => !isSkipped c) t).length) % 4 = d
  by_cases h2 : d = 2
  · simp only [if_pos h2, hd]
  · by_cases h3 : d = 3
    · simp only [if_neg h2, if_pos h3, hd]
    · simp only [if_neg h2, if_neg h3, hd0]

/-- C03_foreign_four: four exclamation marks -/
example : Base64WSDecode (bstr "QU" ++ bstr "!!!!" ++ bstr "I") = .ok [65, 66] := by decide +kernel

/-- C05: a Base64 reader at the end of a stream whose last characters do not decode raises the same exception at every
further read: the truncated characters are not forgotten, and no end of data is reported. -/
theorem C05_truncated {σ} (m : Source σ) (fuel : Nat) (r : B64Reader σ) (size : Int) (hs : size ≠ 0) (hc : r.chars = [])
    (hb : r.buffer.length < 4) (hend : m.read r.src (if size < 0 then -1 else size) = (.ok (some []), r.src)) (e : PyErr)
    (he : Base64WSDecode r.buffer = .error e) : r.read m (fuel + 1) size (-1) = (.error e, r) := by
  obtain ⟨buffer, chars, src⟩ := r
  dsimp only at hc hb hend he
  subst hc
  have hne : buffer ≠ [] := by rintro rfl; revert he; simp [Base64WSDecode, urlsafeB64decode, a2bGo]
  have hsat : b64Satisfied [] size (-1) = false := by
    unfold b64Satisfied
    rw [if_pos (by decide)]
    split
    · rfl
    · simp only [List.length_nil, ge_iff_le, decide_eq_false_iff_not]; omega
  have hdec : b64Decode buffer [] = .ok ([], buffer) := by
    have h0 : 4 * (buffer.length / 4) = 0 := by omega
    have hz : Base64WSDecode [] = .ok [] := by decide +kernel
    simp only [b64Decode, b64BufferDecode, List.append_nil, Bool.false_eq_true, if_false, h0, sliceTo_nat, List.take_zero, hz,
      bind, Except.bind, pure, Except.pure, sliceFrom_nat, List.drop_zero]
  have hfl : b64DecoderFlush buffer = (.error e, buffer) := by
    have ht : sliceTo buffer (buffer.length : Nat) = buffer := by rw [sliceTo_nat, List.take_length]
    simp only [b64DecoderFlush, if_neg hne, b64BufferDecode, if_true, ht, he, bind, Except.bind]
  simp only [B64Reader.read, B64Reader.loop, hsat, hend, hdec]
  simp [hfl]

/-- C05_truncated: a stream that ends after one character -/
example : Base64WSDecode [65] = .error .base64Decoding := by decide +kernel

/-- C71: every plugin that is run comes from a directory that holds a file of its name. -/
theorem C71_from_directory {ω : Type} (disk : PluginDisk ω) (home : Bytes) (env : Option Bytes) (s : Interp ω) :
    ∃ more, (ImportBackends disk home env s).2.ran = s.ran ++ more ∧
      ∀ x ∈ more, ∃ names, disk.entry x.1 = .dir names ∧ x.2.1 ++ dotPy ∈ names := by
  obtain ⟨more, h1, h2⟩ := C71_first_directory disk home env s
  refine ⟨more, h1, fun x hx => ?_⟩
  obtain ⟨-, pre, post, -, h, -⟩ := h2 x hx
  unfold PathEntry.has at h
  split at h
  · exact ⟨_, by assumption, of_decide_eq_true h⟩
  · cases h

/-- C97: a line of `interop.py display` shows the two implementations, the operation, the key set, and the name and value of
every option of both sides. -/
theorem C97_line (g : Harness.Planned) (out : Bytes) (r : Harness.Text × Harness.Options) :
    (g.test out r).display = "test_".toList ++ r.1 ++ "_generated_by_".toList ++ g.implementation ++ "_".toList ++
      g.operation.1 ++ "_".toList ++ g.keyset.name ++ "_".toList ++
      List.intercalate "_".toList (g.options.map fun o => o.1 ++ "=".toList ++ o.2) ++ "_".toList ++
      List.intercalate "_".toList (r.2.map fun o => o.1 ++ "=".toList ++ o.2) := by
  have h1 : "_".toList = ['_'] := rfl
  have h2 : "=".toList = ['='] := rfl
  rw [h1, h2]
  rfl

end Verif.Props
