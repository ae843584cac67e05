import Verif.Model.Open
import Verif.Props.Backends
import Verif.Props.Loading
import Verif.Lemmas.ExampleDisk
/-
C79: opening a key set by its location.
-/
namespace Verif.Props
open Verif Spec

variable (P : Prims) {ω : Type}

/-- the classes for standard signatures without a header -/
def Unversioned (cls : CzarClass) : Prop := cls = .unversionedVerifier ∨ cls = .unversionedSigner

theorem Read_versioned {cls : CzarClass} (h : ¬ Unversioned cls) (disk : PluginDisk ω) (home : Bytes) (env : Option Bytes)
    (l : Loc) (fs : FS) (s : Interp ω) :
    cls.Read P disk home env l fs s = ((CreateReaderAny disk home env l fs s).1 >>= fun r => Czar.init P cls r,
      (CreateReaderAny disk home env l fs s).2) := by
  have : ∀ x : Py Reader × Interp ω, (match x with
      | (.error e, s) => (.error e, s)
      | (.ok r, s) => (Czar.init P cls r, s) : Py Czar × Interp ω) = (x.1 >>= fun r => Czar.init P cls r, x.2) := by
    rintro ⟨x, s⟩
    cases x <;> rfl
  cases cls <;> first | exact this _ | exact absurd (.inl rfl) h | exact absurd (.inr rfl) h

theorem Read_unversioned {cls : CzarClass} (h : Unversioned cls) (disk : PluginDisk ω) (home : Bytes) (env : Option Bytes)
    (l : Loc) (fs : FS) (s : Interp ω) :
    cls.Read P disk home env l fs s = (Czar.init P cls (FileReader.at l fs), s) := by
  rcases h with rfl | rfl <;> rfl

theorem FileReader.at_some {l : Loc} {fs : FS} {d : Dir} (h : fs l = some d) : FileReader.at l fs = FileReader d := by
  unfold FileReader.at; rw [h]

/-- C79: a key set in an existing directory is opened from its files by every class, whatever has been imported before,
as long as the imports of this call succeed. -/
theorem C79_files (path mods : List Bytes) (calls : List (BackendCall ω)) (disk : PluginDisk ω) (home : Bytes)
    (env : Option Bytes) (l : Loc) (fs : FS) (d : Dir) (hl : fs l = some d) (s : Interp ω)
    (hs : s = afterCalls (Interp.init path mods) calls) (hok : (ImportBackends disk home env s).1 = .ok ())
    (cls : CzarClass) : (cls.Read P disk home env l fs s).1 = Czar.init P cls (FileReader d) := by
  by_cases h : Unversioned cls
  · rw [Read_unversioned P h, FileReader.at_some hl]
  · rw [Read_versioned P h, (C71_existing path mods calls disk home env l fs d hl s hs hok).1]
    rfl

/-- C79: so two classes that accept the purpose open the same key set. -/
theorem C79_same_set (path mods : List Bytes) (calls : List (BackendCall ω)) (disk : PluginDisk ω) (home : Bytes)
    (env : Option Bytes) (l : Loc) (fs : FS) (hl : (fs l).isSome = true) (s : Interp ω)
    (hs : s = afterCalls (Interp.init path mods) calls) (hok : (ImportBackends disk home env s).1 = .ok ())
    (cls cls' : CzarClass) (c : Czar) (hc : (cls.Read P disk home env l fs s).1 = .ok c)
    (hp : c.keySet.purpose ∈ purposes cls') :
    ∃ c', (cls'.Read P disk home env l fs s).1 = .ok c' ∧ c'.keySet = c.keySet := by
  obtain ⟨d, hd⟩ := Option.isSome_iff_exists.mp hl
  rw [C79_files P path mods calls disk home env l fs d hd s hs hok] at hc ⊢
  obtain ⟨h1, -, h3, h4⟩ := Czar.init_iff.mp ⟨c, hc, rfl⟩
  exact Czar.init_iff.mpr ⟨h1, (accepts_iff cls' _).mpr hp, h3, h4⟩

/-- C79: `UnversionedVerifier.Read` and `UnversionedSigner.Read` import nothing and ask no backend: what they return
depends on the directory alone, and a location without a directory is a KeyczarError. -/
theorem C79_unversioned (cls : CzarClass) (h : Unversioned cls) (disk : PluginDisk ω) (home : Bytes) (env : Option Bytes)
    (l : Loc) (fs : FS) (s : Interp ω) :
    (cls.Read P disk home env l fs s).2 = s ∧
    (∀ d, fs l = some d → (cls.Read P disk home env l fs s).1 = Czar.init P cls (FileReader d)) ∧
    (fs l = none → (cls.Read P disk home env l fs s).1 = .error .keyczarError) := by
  rw [Read_unversioned P h]
  refine ⟨rfl, fun d hd => by rw [FileReader.at_some hd], fun hl => ?_⟩
  unfold FileReader.at
  rw [hl]
  rfl

/-- C79: a location that is no directory, but is served by a reader of a backend, can be opened by the classes that use
headers (with exactly this reader), and not by the two others. -/
theorem C79_backend (path mods : List Bytes) (calls : List (BackendCall ω)) (disk : PluginDisk ω) (home : Bytes)
    (env : Option Bytes) (l : Loc) (fs : FS) (hl : fs l = none) (s : Interp ω)
    (hs : s = afterCalls (Interp.init path mods) calls) (hok : (ImportBackends disk home env s).1 = .ok ())
    (r : Reader) (hr : FirstAnswer ((ImportBackends disk home env s).2.ran.map fun x => x.2.2.readers).flatten l fs r)
    (cls : CzarClass) :
    (¬ Unversioned cls → (cls.Read P disk home env l fs s).1 = Czar.init P cls r) ∧
    (Unversioned cls → (cls.Read P disk home env l fs s).1 = .error .keyczarError) := by
  refine ⟨fun h => ?_, fun h => (C79_unversioned P cls h disk home env l fs s).2.2 hl⟩
  rw [Read_versioned P h, ((C71_missing path mods calls disk home env l fs hl s hs hok).1 r).mpr hr]
  rfl

/-- C79: when an import fails, the classes that use headers fail for every location, with the exception of the import;
the two others do not notice. -/
theorem C79_broken (disk : PluginDisk ω) (home : Bytes) (env : Option Bytes) (s : Interp ω) (e : PyErr)
    (he : (ImportBackends disk home env s).1 = .error e) (l : Loc) (fs : FS) (cls : CzarClass) :
    (¬ Unversioned cls → (cls.Read P disk home env l fs s).1 = .error e) ∧
    (Unversioned cls → ∀ d, fs l = some d → (cls.Read P disk home env l fs s).1 = Czar.init P cls (FileReader d)) := by
  refine ⟨fun h => ?_, fun h => (C79_unversioned P cls h disk home env l fs s).2.1⟩
  rw [Read_versioned P h, (C71_broken disk home env s e he l fs).1]
  rfl

/-- C79: the base class opens nothing: `Keyczar.Read` always raises. -/
theorem C79_base (disk : PluginDisk ω) (home : Bytes) (env : Option Bytes) (l : Loc) (fs : FS) (s : Interp ω) :
    ∃ e, (CzarClass.keyczar.Read P disk home env l fs s).1 = .error e := by
  rw [Read_versioned P (by rintro (h | h) <;> cases h)]
  cases hr : (CreateReaderAny disk home env l fs s).1 with
  | error e => exact ⟨e, rfl⟩
  | ok r =>
    show ∃ e, Czar.init P .keyczar r = .error e
    cases hc : Czar.init P .keyczar r with
    | error e => exact ⟨e, rfl⟩
    | ok c => exact absurd (C19_only_accepted P _ _ _ hc) (by simp [purposes])

theorem loadKeys_keeps {r : Reader} {l : List (Int × Nat)} {c c' : Czar} (h : loadKeys P r l c = .ok c') :
    c'.metadata = c.metadata ∧ c'.heap = c.heap := by
  induction l generalizing c with
  | nil => obtain rfl := Except.ok.inj h; exact ⟨rfl, rfl⟩
  | cons p t ih =>
    rw [loadKeys] at h
    simp only at h
    split at h
    all_goals
      obtain ⟨pr, -, h⟩ := bind_ok h
      obtain ⟨text, -, h⟩ := bind_ok h
      obtain ⟨k, -, h⟩ := bind_ok h
      obtain ⟨hash, -, h⟩ := bind_ok h
      have ih := ih h
      exact ih

/-- C79: `str` of a Keyczar object is a metadata text for the key set it was opened from; it does not depend on the key
files. -/
theorem C79_str (cls : CzarClass) (r : Reader) (c : Czar) (h : Czar.init P cls r = .ok c) :
    ∃ text, c.str = .ok text ∧
      (∃ t kmd h' kmd' h'', r.GetMetadata = .ok t ∧ KeyMetadata.Read t = .ok (kmd, h') ∧
        KeyMetadata.Read text = .ok (kmd', h'') ∧ kmd'.view h'' = kmd.view h') ∧
      ∀ cls' r' c', Czar.init P cls' r' = .ok c' → r'.GetMetadata = r.GetMetadata → c'.str = .ok text := by
  have key : ∀ {cls r c}, Czar.init P cls r = .ok c → ∃ t kmd h', r.GetMetadata = .ok t ∧
      KeyMetadata.Read t = .ok (kmd, h') ∧ c.str = .ok (dumps (metaDoc (kmd.view h'))) := by
    intro cls r c h
    unfold Czar.init at h
    obtain ⟨t, h1, h⟩ := bind_ok h
    obtain ⟨⟨kmd, h'⟩, h2, h⟩ := bind_ok h
    simp only at h
    split at h
    · cases h
    split at h
    · cases h
    obtain ⟨e1, e2⟩ := loadKeys_keeps P h
    obtain ⟨a1, a2, a3⟩ := C35_read_objects t kmd h' h2
    refine ⟨t, kmd, h', h1, h2, ?_⟩
    unfold Czar.str
    rw [e1, e2]
    exact (C35_round_trip h' kmd a1 a2 a3).1
  obtain ⟨t, kmd, h', h1, h2, h3⟩ := key h
  obtain ⟨a1, a2, a3⟩ := C35_read_objects t kmd h' h2
  obtain ⟨-, kmd', h'', b1, b2⟩ := C35_round_trip h' kmd a1 a2 a3
  refine ⟨_, h3, ⟨t, kmd, h', kmd', h'', h1, h2, b1, b2⟩, fun cls' r' c' hc hm => ?_⟩
  obtain ⟨t', kmd2, h2', c1, c2, c3⟩ := key hc
  rw [hm, h1] at c1
  cases c1
  rw [h2] at c2
  cases c2
  exact c3

/-- the key set "h" of the example disk, with the plugins of Props/Backends: opened by Signer and UnversionedSigner;
the location `db:keys` is left to the plugin, whose text `{}` lacks a name (KeyError), but not by UnversionedSigner -/
example : ((CzarClass.signer.Read realPrims exPlugins (bstr "/home") none [104] (Ex.disk .ACTIVE .PRIMARY)
      (Interp.init [] [])).1.map fun c => c.keySet.entries.length) = .ok 2 ∧
    ((CzarClass.unversionedSigner.Read realPrims exPlugins (bstr "/home") none [104] (Ex.disk .ACTIVE .PRIMARY)
      (Interp.init [] [])).1.map fun c => c.keySet.entries.length) = .ok 2 ∧
    ((CzarClass.signer.Read realPrims exPlugins (bstr "/home") none (bstr "db:keys") (Ex.disk .ACTIVE .PRIMARY)
      (Interp.init [] [])).1.map fun c => c.keySet.entries.length) = .error .keyError ∧
    ((CzarClass.unversionedSigner.Read realPrims exPlugins (bstr "/home") none (bstr "db:keys") (Ex.disk .ACTIVE .PRIMARY)
      (Interp.init [] [])).1.map fun c => c.keySet.entries.length) = .error .keyczarError := by decide +kernel

end Verif.Props
