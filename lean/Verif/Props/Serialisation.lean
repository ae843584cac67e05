import Verif.Lemmas.Serial
import Verif.Props.Asymmetric
/-
Property theorem C34: key serialisation.
-/
namespace Verif.Props
open Verif Spec

/-- The key objects a user can hold: generated, read from a key file, or the public part of such
a private key. -/
inductive Obtainable : Key → Prop
  | generated {rnd t size k} : GenKey rnd t size = .ok k → Obtainable k
  | read {t text k} : ReadKey t text = .ok k → Obtainable k
  | pub {k p} : Obtainable k → k.public? = some p → Obtainable p

theorem Obtainable.ok {k : Key} (h : Obtainable k) : k.Ok := by
  induction h with
  | generated h => exact (GenKey_Ok h).1
  | read h => exact (ReadKey_Ok h).1
  | pub _ hp ih => exact public_Ok ih hp

/-- C34: the JSON text of every key object exists and reads back as the same object (all stored
fields, the PyCrypto key and the size), hence with the same identifier and the same behaviour. -/
theorem C34_round_trip (k : Key) (h : Obtainable k) :
    ∃ text, k.str = .ok text ∧ ReadKey k.type text = .ok k :=
  ⟨_, k.str_eq, ReadKey_str k h.ok⟩

/-- C34: so a text determines the key: two key objects of one type with the same text are equal. -/
theorem C34_text_determines_key (k k' : Key) (h : Obtainable k) (h' : Obtainable k')
    (ht : k.type = k'.type) (hs : k.str = k'.str) : k = k' := by
  obtain ⟨t, h1, h2⟩ := C34_round_trip k h
  obtain ⟨t', h1', h2'⟩ := C34_round_trip k' h'
  have : t = t' := by rw [h1, h1'] at hs; exact Except.ok.inj hs
  subst this
  rw [ht, h2'] at h2
  exact (Except.ok.inj h2).symm

/-- C34: in particular for RSA: whatever (n, e, d, p, q, u) PyCrypto generated, the key read back
from the file holds p, q and u in the same order. -/
theorem C34_rsa_primes (rnd : Rand) (size : Option Int) (k : Key) (hg : GenKey rnd .RSA_PRIV size = .ok k) :
    ∃ text r, k.str = .ok text ∧ ReadKey .RSA_PRIV text = .ok (.rsaPriv r) ∧
      r.key = rnd.rsaGen ((size.getD 2048).toNat) ∧
      beNat r.primeP = r.key.q ∧ beNat r.primeQ = r.key.p ∧ beNat r.crtCoefficient = r.key.u := by
  obtain ⟨text, h1, h2⟩ := C34_round_trip k (.generated hg)
  rw [(GenKey_Ok hg).2] at h2
  unfold GenKey at hg
  simp only at hg
  split at hg
  · cases hg
  · have := Except.ok.inj hg
    subst this
    refine ⟨text, _, h1, h2, rfl, ?_, ?_, ?_⟩ <;>
      simp only [RsaPrivateKey.ofObj] <;> rw [← BytesToLong_eq, BytesToLong_padInt']

/-- instance: the 512-bit example key is generated by some random source -/
example : ∃ rnd : Rand, GenKey rnd .RSA_PRIV (some 512) = .ok (.rsaPriv exRsa) :=
  ⟨{ bytes := fun _ n => List.replicate n 0, bytes_length := by simp
     dsaK := fun _ => 2, dsaK_range := by intro q h; omega
     rsaGen := fun _ => exRsaObj, dsaGen := fun _ => exDsa }, rfl⟩

end Verif.Props
