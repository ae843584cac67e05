import Verif.Props.GenKeyRun
import Verif.Lemmas.ExampleDisk
/-
An instance of the theorems about `genkey`: with two valid 2048-bit RSA keys and two small DSA keys as the generated keys,
the command succeeds on eight empty directories.
-/
namespace Verif.Props
open Verif Spec

/-- 1015-bit prime -/
def genP : Nat := 2 ^ 961 * 3 ^ 34 + 1
/-- 1033-bit prime -/
def genQ : Nat := 2 ^ 969 * 3 ^ 40 + 1

theorem genP_prime : genP.Prime :=
  prime_of_lucas23 961 34 13 genP rfl (by decide +kernel) (by decide +kernel) (by decide +kernel) (by decide +kernel)
theorem genQ_prime : genQ.Prime :=
  prime_of_lucas23 969 40 5 genQ rfl (by decide +kernel) (by decide +kernel) (by decide +kernel) (by decide +kernel)

def genRsa (e : Nat) : RsaObj where
  n := genP * genQ
  e := e
  d := inverse e ((genP - 1) * (genQ - 1))
  p := genP
  q := genQ
  u := inverse genP genQ

theorem gen_ne : genP ≠ genQ := by decide +kernel
theorem gen_u : inverse genP genQ * genP % genQ = 1 := by decide +kernel
theorem gen_bits : 2 ^ 2047 ≤ genP * genQ ∧ genP * genQ < 2 ^ 2048 := by decide +kernel

theorem genRsa_valid {e : Nat} (hp : (genRsa e).e * (genRsa e).d % ((genRsa e).p - 1) = 1)
    (hq : (genRsa e).e * (genRsa e).d % ((genRsa e).q - 1) = 1) : RsaValid (genRsa e) where
  p_prime := genP_prime
  q_prime := genQ_prime
  ne := gen_ne
  n_eq := by rfl
  ed_p := hp
  ed_q := hq
  u_eq := gen_u

theorem genRsa_65537 : RsaValid (genRsa 65537) := genRsa_valid (by decide +kernel) (by decide +kernel)
theorem genRsa_5 : RsaValid (genRsa 5) := genRsa_valid (by decide +kernel) (by decide +kernel)

theorem genRsa_usable {e : Nat} (h : RsaValid (genRsa e)) : UsableRsa (RsaPrivateKey.ofObj (genRsa e) 2048) where
  valid := h
  pub := rfl
  pub_size := rfl
  size := show 2048 ∈ _ by decide
  bits := gen_bits

def genDsa : DsaObj := ⟨12, 4, 23, 11, 5⟩

theorem exDsa_valid : DsaValid exDsa := ⟨by norm_num [exDsa], by norm_num [exDsa], by norm_num [exDsa], by norm_num [exDsa]⟩
theorem genDsa_valid : DsaValid genDsa :=
  ⟨by norm_num [genDsa], by norm_num [genDsa], by norm_num [genDsa], by norm_num [genDsa]⟩

/-- the random source of round `i` -/
def genRnd (i : Nat) : Rand :=
  if i = 0 then { Ex.rnd with rsaGen := fun _ => genRsa 65537, dsaGen := fun _ => exDsa }
  else { Ex.rnd' with rsaGen := fun _ => genRsa 5, dsaGen := fun _ => genDsa }

open Classical in
noncomputable def genExEnv : GenEnv where
  add _ i := { Ex.env with gen := fun _ => genRnd i }
  use _ i := genRnd i
  pub _ := Ex.env
  ls d := if h : d.Finite then ((Classical.choose h).filter fun f => (d f).isSome).dedup else []
  ls_nodup d := by split <;> simp [List.nodup_dedup]
  ls_mem d h f := by
    rw [dif_pos h, List.mem_dedup, List.mem_filter]
    exact ⟨fun h => h.2, fun hf => ⟨Classical.choose_spec h f hf, hf⟩⟩

theorem genRnd_usable (i : Nat) (t : KeyType) (k : Key) (h : GenKey (genRnd i) t none = .ok k) : UsableKey k := by
  unfold genRnd at h
  by_cases hi : i = 0
  · rw [if_pos hi] at h
    cases t <;> cases h
    · trivial
    · trivial
    · exact ⟨exDsa_valid, rfl, show 3 ≤ exDsa.q by decide, show (BigIntToBytes exDsa.q).length < 2 ^ 32 by decide +kernel⟩
    · exact genRsa_usable genRsa_65537
  · rw [if_neg hi] at h
    cases t <;> cases h
    · trivial
    · trivial
    · exact ⟨genDsa_valid, rfl, show 3 ≤ genDsa.q by decide, show (BigIntToBytes genDsa.q).length < 2 ^ 32 by decide +kernel⟩
    · exact genRsa_usable genRsa_5

theorem genRnd_ids (t : KeyType) (ht : Generated t) :
    ((GenKey (genRnd 0) t none).bind fun k => k.hashId realPrims) ≠
      ((GenKey (genRnd 1) t none).bind fun k => k.hashId realPrims) := by
  rcases ht with rfl | rfl | rfl | rfl <;> decide +kernel

theorem genExEnv_good (name : Bytes) (t : KeyType) (ht : Generated t) : GoodRow realPrims genExEnv name t where
  usable i _ k h := genRnd_usable i t k h
  first := Nat.one_pos
  second := by
    refine ⟨0, Nat.one_pos, fun i k k' id h1 h2 h3 h4 => genRnd_ids t ht ?_⟩
    rw [show GenKey (genRnd 0) t none = .ok k from h1, show GenKey (genRnd 1) t none = .ok k' from h2]
    show k.hashId realPrims = k'.hashId realPrims
    rw [((KeyId_iff realPrims k id).mp h3).2, ((KeyId_iff realPrims k' id).mp h4).2]

/-- example: `genkey --location=t` on a disk where every directory is empty -/
example : (GenKeySet realPrims genExEnv (some (bstr "t")) fun _ => some fun _ => none).1 = .ok () :=
  C70_succeeds realPrims genExEnv (bstr "t") _ (fun _ _ => ⟨_, rfl, [], by simp⟩) fun name p t x h =>
    genExEnv_good name t (by cases h <;> simp [Generated])

/-- example: and so the test directories are there -/
example : ∃ d k1 k2 out1 out2,
    (GenKeySet realPrims genExEnv (some (bstr "t"))).after (fun _ => some fun _ => none) (bstr "t/hmac") = some d ∧
    TestDir realPrims genExEnv (bstr "hmac") none .SIGN_AND_VERIFY .HMAC_SHA1 d k1 k2 out1 out2 := by
  obtain ⟨-, cr, -, -, -, h, -⟩ := C70_generates (P := realPrims) genExEnv (bstr "t") (fun _ => some fun _ => none)
    (fun _ _ _ _ _ d hd => by cases hd; exact ⟨[], by simp⟩)
    (C70_succeeds realPrims genExEnv (bstr "t") _ (fun _ _ => ⟨_, rfl, [], by simp⟩) fun name p t x h =>
      genExEnv_good name t (by cases h <;> simp [Generated]))
  exact h _ _ _ _ .hmac

end Verif.Props
