import Verif.Spec.Der
import Verif.Lemmas.Util
import Mathlib.Tactic.Linarith
import Mathlib.Tactic.Ring
/-
There is one DER encoding of every value.
-/
namespace Verif.Spec
open Verif

theorem LengthOctets.unique {n : Nat} {l l' : Bytes} (h : LengthOctets n l) (h' : LengthOctets n l') : l = l' := by
  rcases h with ⟨h1, c, h2, rfl⟩ | ⟨h1, c, b, rfl, h2, -, h3, h4⟩ <;>
    rcases h' with ⟨h1', c', h2', rfl⟩ | ⟨h1', c', b', rfl, h2', -, h3', h4'⟩
  · rw [UInt8.toNat_inj.mp (h2.trans h2'.symm)]
  · omega
  · omega
  · have e := beNat_inj_of_head h4 h4' (h3.trans h3'.symm)
    subst e
    rw [UInt8.toNat_inj.mp (h2.trans h2'.symm)]

/-- the values that content octets of one length can have -/
theorem twosComplement_range (c : UInt8) (t : Bytes) :
    -(128 * (256 : Int) ^ t.length) ≤ twosComplement (c :: t) ∧ twosComplement (c :: t) < 128 * (256 : Int) ^ t.length := by
  have hc := UInt8.toNat_lt c
  have hW : (0 : Int) < (256 : Int) ^ t.length := by positivity
  have hb : (beNat t : Int) < (256 : Int) ^ t.length := by exact_mod_cast beNat_lt t
  have hb0 : (0 : Int) ≤ (beNat t : Int) := by positivity
  have e : (beNat (c :: t) : Int) = (c.toNat : Int) * (256 : Int) ^ t.length + beNat t := by rw [beNat_cons]; push_cast; rfl
  unfold twosComplement
  simp only [List.length_cons, pow_succ]
  rw [e]
  generalize (256 : Int) ^ t.length = W at *
  split
  · next h =>
    have h1 : (c.toNat : Int) ≤ 127 := by omega
    have h2 : (0 : Int) ≤ (c.toNat : Int) := by omega
    constructor <;> nlinarith
  · next h =>
    have h1 : (128 : Int) ≤ (c.toNat : Int) := by omega
    have h2 : (c.toNat : Int) ≤ 255 := by omega
    constructor <;> nlinarith

/-- the shortest content octets have a value that fewer octets do not have -/
theorem shortest_range (c d : UInt8) (t : Bytes) (h : Shortest (c :: d :: t)) :
    twosComplement (c :: d :: t) < -(128 * (256 : Int) ^ t.length) ∨
      128 * (256 : Int) ^ t.length ≤ twosComplement (c :: d :: t) := by
  have hc := UInt8.toNat_lt c
  have hd := UInt8.toNat_lt d
  have hW : (0 : Int) < (256 : Int) ^ t.length := by positivity
  have hb : (beNat t : Int) < (256 : Int) ^ t.length := by exact_mod_cast beNat_lt t
  have hb0 : (0 : Int) ≤ (beNat t : Int) := by positivity
  have e : (beNat (c :: d :: t) : Int) =
      (c.toNat : Int) * ((256 : Int) ^ t.length * 256) + ((d.toNat : Int) * (256 : Int) ^ t.length + beNat t) := by
    rw [beNat_cons, beNat_cons]; push_cast; simp only [List.length_cons, pow_succ]
  obtain ⟨h1, h2⟩ := h
  unfold twosComplement
  simp only [List.length_cons, pow_succ]
  rw [e]
  generalize (256 : Int) ^ t.length = W at *
  have hc0 : (0 : Int) ≤ (c.toNat : Int) := by omega
  have hd0 : (0 : Int) ≤ (d.toNat : Int) := by omega
  have hd1 : (d.toNat : Int) ≤ 255 := by omega
  split
  · next h =>
    right
    by_cases hc1 : c.toNat = 0
    · have : (128 : Int) ≤ (d.toNat : Int) := by
        have : ¬ d.toNat < 128 := fun h => h1 ⟨hc1, h⟩
        omega
      rw [hc1]
      nlinarith
    · have : (1 : Int) ≤ (c.toNat : Int) := by omega
      nlinarith
  · next h =>
    left
    by_cases hc1 : c.toNat = 255
    · have : (d.toNat : Int) ≤ 127 := by
        have : ¬ 128 ≤ d.toNat := fun h => h2 ⟨hc1, h⟩
        omega
      rw [hc1]
      push_cast
      nlinarith
    · have : (c.toNat : Int) ≤ 254 := by omega
      nlinarith

theorem shortest_length {b b' : Bytes} (h : Shortest b) (h' : Shortest b') (e : twosComplement b = twosComplement b') :
    b.length ≤ b'.length := by
  by_contra hlt
  match b, h with
  | [c], _ =>
    cases b' with
    | nil => exact h'.elim
    | cons => simp at hlt
  | c :: d :: t, h =>
    cases b' with
    | nil => exact h'.elim
    | cons c' t' =>
      have hl : t'.length ≤ t.length := by simp at hlt; omega
      have hp : (256 : Int) ^ t'.length ≤ (256 : Int) ^ t.length := pow_le_pow_right₀ (by norm_num) hl
      obtain ⟨r1, r2⟩ := twosComplement_range c' t'
      rcases shortest_range c d t h with r | r <;> rw [e] at r <;> linarith

theorem shortest_unique {b b' : Bytes} (h : Shortest b) (h' : Shortest b') (e : twosComplement b = twosComplement b') :
    b = b' := by
  have hl : b.length = b'.length := le_antisymm (shortest_length h h' e) (shortest_length h' h e.symm)
  cases b with
  | nil => exact h.elim
  | cons c t =>
    cases b' with
    | nil => exact h'.elim
    | cons c' t' =>
      refine beNat_inj_of_length hl ?_
      have b1 : (beNat (c :: t) : Int) < (256 : Int) ^ (c :: t).length := by exact_mod_cast beNat_lt (c :: t)
      have b2 : (beNat (c' :: t') : Int) < (256 : Int) ^ (c' :: t').length := by exact_mod_cast beNat_lt (c' :: t')
      have n1 : (0 : Int) ≤ (beNat (c :: t) : Int) := by positivity
      have n2 : (0 : Int) ≤ (beNat (c' :: t') : Int) := by positivity
      unfold twosComplement at e
      dsimp only at e
      rw [hl] at b1 e
      split at e <;> split at e <;> first | omega | skip

mutual
theorem IsDer.unique : ∀ (v : Asn1) (b b' : Bytes), IsDer v b → IsDer v b' → b = b'
  | .integer n, _, _, .integer _ l c h1 h2 h3, .integer _ l' c' h1' h2' h3' => by
    have e := shortest_unique h2 h2' (h1.trans h1'.symm)
    subst e
    rw [h3.unique h3']
  | .octets b, _, _, .octets _ l h, .octets _ l' h' => by rw [h.unique h']
  | .bits b, _, _, .bits _ l h, .bits _ l' h' => by rw [h.unique h']
  | .null, _, _, .null, .null => rfl
  | .oid c, _, _, .oid _ l h, .oid _ l' h' => by rw [h.unique h']
  | .seq vs, _, _, .seq _ l c h1 h2, .seq _ l' c' h1' h2' => by
    have e := AreDer.unique vs c c' h1 h1'
    subst e
    rw [h2.unique h2']
theorem AreDer.unique : ∀ (vs : List Asn1) (b b' : Bytes), AreDer vs b → AreDer vs b' → b = b'
  | [], _, _, .nil, .nil => rfl
  | v :: vs, _, _, .cons _ _ b c h1 h2, .cons _ _ b' c' h1' h2' => by
    rw [IsDer.unique v b b' h1 h1', AreDer.unique vs c c' h2 h2']
end

end Verif.Spec
