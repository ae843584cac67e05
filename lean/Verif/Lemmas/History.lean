import Verif.Lemmas.Commands
/-
Sequences of keyczart commands.
-/
namespace Verif
open Spec (Entry KeySet)
open Props (Op Loaded)

/-- one keyczart command with its flags (`genkey` left out); crypters as loaded -/
inductive KCmd where
  | create (loc : Option Loc) (name : Json) (purpose : Option KeyPurpose) (asymmetric : Option Bytes)
  | addkey (env : Env) (loc : Option Loc) (status : KeyStatus) (crypter : Option Czar) (size : Int)
  | pubkey (env : Env) (loc dest : Option Loc)
  | promote (env : Env) (loc : Option Loc) (n : Int)
  | demote (env : Env) (loc : Option Loc) (n : Int)
  | revoke (env : Env) (loc : Option Loc) (n : Int)

namespace KCmd

/-- what the command does -/
def run (P : Prims) : KCmd → Cmd Unit
  | create loc name purpose asym => Create loc name purpose asym
  | addkey env loc status cr size => AddKey P env loc status cr size
  | pubkey env loc dest => PubKey P env loc dest
  | promote env loc n => Promote P env loc n
  | demote env loc n => Demote P env loc n
  | revoke env loc n => Revoke P env loc n

/-- `--location` -/
def loc : KCmd → Option Loc
  | create l _ _ _ => l
  | addkey _ l _ _ _ => l
  | pubkey _ l _ => l
  | promote _ l _ => l
  | demote _ l _ => l
  | revoke _ l _ => l

/-- the directory the command writes to -/
def target : KCmd → Option Loc
  | pubkey _ _ dest => dest
  | k => k.loc

/-- `--crypter` -/
def crypter : KCmd → Option Czar
  | addkey _ _ _ cr _ => cr
  | _ => none

end KCmd

/-- the disk after a sequence of commands, whether they succeed or not -/
def history (P : Prims) (fs : FS) (ks : List KCmd) : FS := ks.foldl (fun fs k => (k.run P).after fs) fs

theorem history_nil (P : Prims) (fs : FS) : history P fs [] = fs := rfl
theorem history_cons (P : Prims) (fs : FS) (k : KCmd) (t : List KCmd) :
    history P fs (k :: t) = history P ((k.run P).after fs) t := rfl

variable {P : Prims}

theorem bind_effects {α β} {m : Cmd α} {f : α → Cmd β} {fs : FS} {Q : Effect → Prop} (h1 : ∀ e ∈ (m fs).2, Q e)
    (h2 : ∀ a, (m fs).1 = .ok a → ∀ e ∈ (f a (applyAll fs (m fs).2)).2, Q e) : ∀ e ∈ ((m >>= f) fs).2, Q e := by
  rw [Cmd.bind_def]
  cases hm : m fs with
  | mk r es =>
    rw [hm] at h1 h2
    cases r with
    | error x => exact h1
    | ok a =>
      intro e he
      rcases List.mem_append.mp he with he | he
      · exact h1 e he
      · exact h2 a rfl e he

theorem lift_effects {α} (x : Py α) (fs : FS) : (Cmd.lift x fs).2 = [] := rfl
theorem look_effects {α} (f : FS → Py α) (fs : FS) : (Cmd.look f fs).2 = [] := rfl

theorem WriteFile_loc (data : Bytes) (l : Loc) (f : FileName) (fs : FS) : ∀ e ∈ (WriteFile data l f fs).2, e.loc = l := by
  unfold WriteFile
  split
  · simp [Effect.loc]
  · simp

theorem exportKeys_loc (dest : Loc) (c : Czar) (os : List Nat) (kmd : KeyMetadata) (fs : FS) :
    ∀ e ∈ (exportKeys dest c os kmd fs).2, e.loc = dest := by
  induction os generalizing kmd fs with
  | nil => intro e he; cases he
  | cons o t ih =>
    rw [exportKeys]
    refine bind_effects (by simp [lift_effects]) fun key _ => ?_
    refine bind_effects (by simp [lift_effects]) fun pub _ => ?_
    refine bind_effects (by simp [lift_effects]) fun text _ => ?_
    exact bind_effects (WriteFile_loc _ _ _ _) fun _ _ => ih _ _

theorem PublicKeyExport_loc (env : Env) (c : Czar) (dest : Loc) (fs : FS) :
    ∀ e ∈ (c.PublicKeyExport env dest fs).2, e.loc = dest := by
  unfold Czar.PublicKeyExport
  refine bind_effects (by simp [lift_effects]) fun kmd _ => ?_
  refine bind_effects (exportKeys_loc _ _ _ _ _) fun kmd _ => ?_
  exact bind_effects (by simp [lift_effects]) fun text _ => WriteFile_loc _ _ _ _

theorem WriteMetadata_loc (l : Loc) (h : Heap) (kmd : KeyMetadata) (o : Bool) (fs : FS) :
    ∀ e ∈ (WriteMetadata l h kmd o fs).2, e.loc = l := by
  unfold WriteMetadata
  split
  · simp
  · exact bind_effects (by simp [lift_effects]) fun text _ => WriteFile_loc _ _ _ _

theorem CreateWriter_ok {l l' : Loc} {fs : FS} (h : CreateWriter l fs = .ok l') : l' = l := by
  unfold CreateWriter at h
  split at h <;> cases h
  rfl

/-- commands only write to their target directory -/
theorem KCmd.run_loc (k : KCmd) (fs : FS) : ∀ e ∈ (k.run P fs).2, k.target = some e.loc := by
  cases k with
  | create loc name purpose asym =>
    cases loc with
    | none => intro e he; cases he
    | some l =>
      refine bind_effects (by simp [lift_effects]) fun t _ => ?_
      refine bind_effects (by simp [look_effects]) fun w hw => ?_
      intro e he
      rw [WriteMetadata_loc _ _ _ _ _ e he, CreateWriter_ok hw]
      rfl
  | addkey env loc status cr size =>
    cases loc with
    | none => intro e he; cases he
    | some l =>
      intro e he
      simp only [KCmd.run, AddKey_eq] at he
      rw [manage_loc e he]
      rfl
  | pubkey env loc dest =>
    cases dest with
    | none => intro e he; cases he
    | some d =>
      refine bind_effects ?_ fun c _ => ?_
      · cases loc with
        | none => intro e he; cases he
        | some l => rw [CreateGenericKeyczar_eq]; simp
      · intro e he
        rw [PublicKeyExport_loc _ _ _ _ e he]; rfl
  | promote env loc n =>
    cases loc with
    | none => intro e he; cases he
    | some l =>
      intro e he
      simp only [KCmd.run, Promote_eq] at he
      rw [manage_loc e he]; rfl
  | demote env loc n =>
    cases loc with
    | none => intro e he; cases he
    | some l =>
      intro e he
      simp only [KCmd.run, Demote_eq] at he
      rw [manage_loc e he]; rfl
  | revoke env loc n =>
    cases loc with
    | none => intro e he; cases he
    | some l =>
      intro e he
      have key := manage_loc (P := P) (env := env) (l := l) (cr := none) (bad := decide (n < 0)) (op := .revoke n) (fs := fs)
      simp only [KCmd.run, Revoke_eq] at he
      cases hm : manage P env l none (decide (n < 0)) (.revoke n) fs with
      | mk r es =>
        rw [hm] at he key
        cases r with
        | error x => rw [key e he]; rfl
        | ok u =>
          rcases List.mem_append.mp he with he | he
          · rw [key e he]; rfl
          · simp only [List.mem_singleton] at he
            rw [he]; rfl

/-- commands with another target leave a directory alone -/
theorem KCmd.after_other {k : KCmd} {fs : FS} {l : Loc} (h : k.target ≠ some l) : (k.run P).after fs l = fs l := by
  unfold Cmd.after
  apply applyAll_other
  intro e he hl
  rw [k.run_loc fs e he, hl] at h
  exact h rfl

end Verif
