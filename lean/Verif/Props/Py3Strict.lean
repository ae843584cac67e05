import Verif.Props.Py3Tool
/-
C85: which exceptions the failing steps raise under Python 3, and what the parts do that are not reached from the tool.
-/
namespace Verif.Props
open Verif.Py3

/-- C85: why a header is not recognised.  Bytes, which is what decoding gives, fail at `ord`; a text fails because of its
version, or when its identifier is encoded. -/
theorem C85_header_why (W : World) (c : Py3.Czar) :
    (∀ b, c.ParseHeader W (.bytes b) = .error (if b = [] then .indexError else .typeError)) ∧
    c.ParseHeader W (.str []) = .error .indexError ∧
    ∀ v s, c.ParseHeader W (.str (v :: s)) = .error (if v = 0 then .typeError else .badVersion v) := by
  refine ⟨fun b => ?_, rfl, fun v s => ?_⟩
  · cases b <;> rfl
  · by_cases hv : v = 0
    · subst hv; rfl
    · rw [if_neg hv]
      have : (v ≠ 0) := hv
      simp only [Czar.ParseHeader, ordHead, bind, Except.bind, if_pos this]

/-- C85: what is signed.  Signing a text without a nonce signs the text and a zero; bytes, or a nonce of any kind, raise
`TypeError` before the key is used. -/
theorem C85_payload (W : World) (c : Py3.Czar) (k : Key) (hk : c.primaryKey = .ok k) :
    (∀ s, c.InternalSign W (.str s) .none = W.sign k (.str (s ++ [0]))) ∧
    (∀ b, c.InternalSign W (.bytes b) .none = .error .typeError) ∧
    ∀ data nonce, nonce ≠ .none → c.InternalSign W data nonce = .error .typeError := by
  refine ⟨fun s => ?_, fun b => ?_, fun data nonce hn => ?_⟩
  · simp [Czar.InternalSign, hk, PackByteArray, add, bind, Except.bind]
  · simp [Czar.InternalSign, hk, PackByteArray, add, bind, Except.bind]
  · cases nonce with
    | none => exact absurd rfl hn
    | bytes b => cases data <;> simp [Czar.InternalSign, hk, PackByteArray, add, bind, Except.bind]
    | str s => simp [Czar.InternalSign, hk, PackByteArray, bind, Except.bind]
    | int s => simp [Czar.InternalSign, hk, PackByteArray, bind, Except.bind]
    | float => simp [Czar.InternalSign, hk, PackByteArray, bind, Except.bind]

/-- C85: the primary key is the key of the primary version, and of no other. -/
theorem C85_primary (c : Py3.Czar) (k : Key) : c.primaryKey = .ok k ↔
    ∃ v pre post, c.primary = some v ∧ c.versions = pre ++ (v, k) :: post ∧ ∀ x ∈ pre, x.1 ≠ v := by
  unfold Czar.primaryKey
  cases hp : c.primary with
  | none => simp
  | some v =>
    simp only [Option.some.injEq, exists_and_left, exists_eq_left']
    cases hf : c.versions.find? fun x => x.1 == v with
    | none =>
      simp only [reduceCtorEq, false_iff, not_exists, not_and]
      rintro pre post h -
      have := List.find?_eq_none.1 hf (v, k) (by rw [h]; simp)
      simp at this
    | some x =>
      obtain ⟨h1, pre, post, h2, h3⟩ := List.find?_eq_some_iff_append.1 hf
      have hx : x.1 = v := by simpa using h1
      constructor
      · intro h
        cases h
        exact ⟨pre, post, by rw [h2, ← hx], fun y hy => by simpa using h3 y hy⟩
      · rintro ⟨pre', post', h4, h5⟩
        have : c.versions.find? (fun x => x.1 == v) = some (v, k) :=
          List.find?_eq_some_iff_append.2 ⟨by simp, pre', post', h4, fun y hy => by simpa using h5 y hy⟩
        rw [hf] at this
        cases this
        rfl

/-- C85: writing what is not a text raises `TypeError` and leaves an empty file. -/
theorem C85_write (v : Val) (loc : Py3.Text) (n : Name) (fs : Py3.FS) (d : Py3.Dir) (hd : fs loc = some d) :
    (∀ t, v = .str t → Py3.WriteFile v loc n fs = (.ok (), fs.put loc (d.put n (some t)))) ∧
    ((∀ t, v ≠ .str t) → Py3.WriteFile v loc n fs = (.error .typeError, fs.put loc (d.put n (some [])))) := by
  refine ⟨?_, fun h => ?_⟩
  · rintro t rfl
    simp [Py3.WriteFile, hd]
  · cases v with
    | str t => exact absurd rfl (h t)
    | _ => simp [Py3.WriteFile, hd]

/-- C85: the statuses to which a version can be promoted and demoted, and which versions are revoked. -/
theorem C85_transitions (m : Meta) (n : Int) (v : Ver) (h : m.GetVersion n = .ok v) :
    m.Promote n = (match v.status with
      | .PRIMARY => .error .keyczarError
      | .ACTIVE => .ok (m.dethrone.set n .PRIMARY)
      | .INACTIVE => .ok (m.set n .ACTIVE)) ∧
    m.Demote n = (match v.status with
      | .PRIMARY => .ok (m.set n .ACTIVE)
      | .ACTIVE => .ok (m.set n .INACTIVE)
      | .INACTIVE => .error .keyczarError) ∧
    m.Revoke n = (match v.status with
      | .INACTIVE => .ok { m with versions := m.versions.filter fun v => v.number ≠ n }
      | _ => .error .keyczarError) := by
  refine ⟨?_, ?_, ?_⟩ <;> simp only [Meta.Promote, Meta.Demote, Meta.Revoke, h, bind, Except.bind] <;>
    cases v.status <;> rfl

/-- C85: without one of the two purposes no set is created. -/
theorem C85_no_purpose (W : World) (loc : Option Py3.Text) (name : Py3.Text) (purpose : Option Purpose)
    (h1 : purpose ≠ some .SIGN_AND_VERIFY) (h2 : purpose ≠ some .DECRYPT_AND_ENCRYPT) (asymmetric : Option Py3.Text)
    (fs : Py3.FS) : Py3.Create W loc name purpose asymmetric fs = (.error .keyczarError, fs) := by
  cases loc with
  | none => rfl
  | some l =>
    rcases purpose with _ | p
    · rfl
    · cases p with
      | SIGN_AND_VERIFY => exact absurd rfl h1
      | DECRYPT_AND_ENCRYPT => exact absurd rfl h2
      | _ => rfl

/-- C85: an exported set has a public type and a public purpose, and the name of the set. -/
theorem C85_public (m p : Meta) (h : publicMeta m = .ok p) :
    p.name = m.name ∧ p.encrypted = false ∧ p.versions = [] ∧
    (m.type = .DSA_PRIV ∧ m.purpose = .SIGN_AND_VERIFY ∧ p.type = .DSA_PUB ∧ p.purpose = .VERIFY ∨
     m.type = .RSA_PRIV ∧ m.purpose = .DECRYPT_AND_ENCRYPT ∧ p.type = .RSA_PUB ∧ p.purpose = .ENCRYPT ∨
     m.type = .RSA_PRIV ∧ m.purpose = .SIGN_AND_VERIFY ∧ p.type = .RSA_PUB ∧ p.purpose = .VERIFY) := by
  unfold publicMeta at h
  split at h <;> cases h <;> simp_all

/-- C85_payload, C85_primary: a set of one HMAC key -/
example : (⟨[(⟨1, true⟩, .hmac (.str [65]))], [], some ⟨1, true⟩⟩ : Py3.Czar).primaryKey = .ok (.hmac (.str [65])) := rfl

/-- C85_transitions: an inactive version -/
example : (⟨[], .VERIFY, .DSA_PUB, false, [⟨1, .PRIMARY⟩, ⟨2, .INACTIVE⟩]⟩ : Meta).GetVersion 2 = .ok ⟨2, .INACTIVE⟩ := rfl

/-- C85_public: a set of DSA keys -/
example : publicMeta ⟨[], .SIGN_AND_VERIFY, .DSA_PRIV, false, []⟩ = .ok ⟨[], .VERIFY, .DSA_PUB, false, []⟩ := rfl

end Verif.Props
