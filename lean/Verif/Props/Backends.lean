import Verif.Spec.Backends
/-
C71: which backend serves a location.
-/
namespace Verif.Props
open Verif Spec

/-! ### the loop over the classes -/

theorem firstBackend_iff {ρ : Type} (l : Loc) (fs : FS) (r : ρ) : ∀ classes : List (Backend ρ),
    firstBackend classes l fs = .ok r ↔ FirstAnswer classes l fs r
  | [] => by simp [firstBackend, FirstAnswer]
  | b :: t => by
    rw [firstBackend]
    constructor
    · intro h
      cases hb : b l fs with
      | error e => rw [hb] at h; cases h
      | ok x =>
        cases x with
        | some r' =>
          rw [hb] at h
          cases h
          exact ⟨[], b, t, rfl, by simp, hb⟩
        | none =>
          rw [hb] at h
          obtain ⟨pre, c, post, h1, h2, h3⟩ := (firstBackend_iff l fs r t).mp h
          refine ⟨b :: pre, c, post, by rw [h1]; rfl, ?_, h3⟩
          intro x hx
          rcases List.mem_cons.mp hx with rfl | hx
          · exact hb
          · exact h2 x hx
    · rintro ⟨pre, c, post, h1, h2, h3⟩
      cases pre with
      | nil =>
        cases h1
        rw [h3]
      | cons b' pre =>
        cases h1
        rw [h2 b (by simp)]
        exact (firstBackend_iff l fs r _).mpr ⟨pre, c, post, rfl, fun x hx => h2 x (by simp [hx]), h3⟩

theorem firstBackend_error {ρ : Type} (l : Loc) (fs : FS) (e : PyErr) : ∀ classes : List (Backend ρ),
    firstBackend classes l fs = .error e ↔
      ((∃ pre b post, classes = pre ++ b :: post ∧ (∀ c ∈ pre, c l fs = .ok none) ∧ b l fs = .error e) ∨
        e = .keyczarError ∧ ∀ c ∈ classes, c l fs = .ok none)
  | [] => by
    simp [firstBackend, eq_comm]
  | b :: t => by
    rw [firstBackend]
    cases hb : b l fs with
    | error e' =>
      constructor
      · rintro h
        cases h
        exact .inl ⟨[], b, t, rfl, by simp, hb⟩
      · rintro (⟨pre, c, post, h1, h2, h3⟩ | ⟨-, h⟩)
        · cases pre with
          | nil => cases h1; rw [hb] at h3; cases h3; rfl
          | cons b' pre => cases h1; have := h2 b (by simp); rw [hb] at this; cases this
        · have := h b (by simp); rw [hb] at this; cases this
    | ok x =>
      cases x with
      | some r =>
        constructor
        · intro h; cases h
        · rintro (⟨pre, c, post, h1, h2, h3⟩ | ⟨-, h⟩)
          · cases pre with
            | nil => cases h1; rw [hb] at h3; cases h3
            | cons b' pre => cases h1; have := h2 b (by simp); rw [hb] at this; cases this
          · have := h b (by simp); rw [hb] at this; cases this
      | none =>
        dsimp only
        rw [firstBackend_error l fs e t]
        constructor
        · rintro (⟨pre, c, post, h1, h2, h3⟩ | ⟨h1, h2⟩)
          · refine .inl ⟨b :: pre, c, post, by rw [h1]; rfl, ?_, h3⟩
            intro x hx
            rcases List.mem_cons.mp hx with rfl | hx
            · exact hb
            · exact h2 x hx
          · refine .inr ⟨h1, ?_⟩
            intro x hx
            rcases List.mem_cons.mp hx with rfl | hx
            · exact hb
            · exact h2 x hx
        · rintro (⟨pre, c, post, h1, h2, h3⟩ | ⟨h1, h2⟩)
          · cases pre with
            | nil => cases h1; rw [hb] at h3; cases h3
            | cons b' pre => cases h1; exact .inl ⟨pre, c, post, rfl, fun x hx => h2 x (by simp [hx]), h3⟩
          · exact .inr ⟨h1, fun x hx => h2 x (by simp [hx])⟩

theorem firstBackend_append {ρ : Type} (l : Loc) (fs : FS) (more : List (Backend ρ)) : ∀ classes : List (Backend ρ),
    (∀ c ∈ classes, c l fs = .ok none) → firstBackend (classes ++ more) l fs = firstBackend more l fs
  | [], _ => rfl
  | b :: t, h => by
    rw [List.cons_append, firstBackend, h b (by simp)]
    exact firstBackend_append l fs more t fun c hc => h c (by simp [hc])

/-! ### imports -/

section
variable {ω : Type} (disk : PluginDisk ω)

theorem ImportBackends_eq (home : Bytes) (env : Option Bytes) (s : Interp ω) :
    ImportBackends disk home env s = importDirs disk (backendDirs home env) s := by
  unfold ImportBackends backendDirs
  rw [importDirs]
  rcases ImportAll disk home s with ⟨x, s'⟩
  cases x with
  | error e => rfl
  | ok u =>
    dsimp only
    split
    · rfl
    · rfl

/-- whatever extending `sys.path` and importing a module keep, imports keep -/
theorem importNames_keeps (I : Interp ω → Prop) (hmod : ∀ n s, I s → I (importModule disk n s).2) :
    ∀ (names : List Bytes) (s : Interp ω), I s → I (importNames disk names s).2
  | [], _, h => h
  | n :: t, s, h => by
    rw [importNames]
    have := hmod n s h
    rcases hx : importModule disk n s with ⟨x, s'⟩
    rw [hx] at this
    cases x with
    | error e => exact this
    | ok u => exact importNames_keeps I hmod t s' this

theorem ImportAll_keeps (I : Interp ω → Prop) (hmod : ∀ n s, I s → I (importModule disk n s).2)
    (hpath : ∀ (s : Interp ω) d, I s → I { s with path := s.path ++ [d] }) (d : Bytes) (s : Interp ω) (h : I s) :
    I (ImportAll disk d s).2 := by
  rw [ImportAll]
  cases disk.entry d with
  | missing => exact h
  | file => exact h
  | dir names =>
    dsimp only
    apply importNames_keeps disk I hmod
    split
    · exact h
    · exact hpath s d h

theorem importDirs_keeps (I : Interp ω → Prop) (hmod : ∀ n s, I s → I (importModule disk n s).2)
    (hpath : ∀ (s : Interp ω) d, I s → I { s with path := s.path ++ [d] }) :
    ∀ (dirs : List Bytes) (s : Interp ω), I s → I (importDirs disk dirs s).2
  | [], _, h => h
  | d :: t, s, h => by
    rw [importDirs]
    have := ImportAll_keeps disk I hmod hpath d s h
    rcases hx : ImportAll disk d s with ⟨x, s'⟩
    rw [hx] at this
    cases x with
    | error e => exact this
    | ok u => exact importDirs_keeps I hmod hpath t s' this

/-- the classes are those of the package followed by those of the plugins that have been run, in the order of running,
and no name has been run twice or was there before -/
structure Sane (mods : List Bytes) (s : Interp ω) : Prop where
  readers : s.readers = builtinReaders ++ (s.ran.map fun x => x.2.2.readers).flatten
  writers : s.writers = builtinWriters ++ (s.ran.map fun x => x.2.2.writers).flatten
  modules : s.modules = mods ++ s.ran.map fun x => x.2.1
  nodup : (s.ran.map fun x => x.2.1).Nodup
  fresh : ∀ x ∈ s.ran, x.2.1 ∉ mods

theorem Sane.init (path mods : List Bytes) : Sane mods (Interp.init path mods : Interp ω) :=
  ⟨by simp [Interp.init], by simp [Interp.init], by simp [Interp.init], by simp [Interp.init], by simp [Interp.init]⟩

theorem Sane.importModule {mods : List Bytes} (n : Bytes) (s : Interp ω) (h : Sane mods s) :
    Sane mods (importModule disk n s).2 := by
  unfold Verif.importModule
  split
  · exact h
  split
  · exact h
  split
  · exact h
  next hn =>
  split
  · exact h
  · split
    · exact h
    next d _ m hm =>
    rw [h.modules, List.mem_append, not_or] at hn
    refine ⟨?_, ?_, ?_, ?_, ?_⟩
    · simp [h.readers]
    · simp [h.writers]
    · simp [h.modules]
    · simp only [List.map_append, List.map_cons, List.map_nil]
      rw [List.nodup_append]
      refine ⟨h.nodup, by simp, ?_⟩
      intro a ha b hb
      rw [List.mem_singleton] at hb
      subst hb
      rintro rfl
      exact hn.2 ha
    · intro x hx
      rcases List.mem_append.mp hx with hx | hx
      · exact h.fresh x hx
      · rw [List.mem_singleton] at hx
        subst hx
        exact hn.1

theorem Sane.importDirs {mods : List Bytes} (dirs : List Bytes) (s : Interp ω) (h : Sane mods s) :
    Sane mods (importDirs disk dirs s).2 :=
  importDirs_keeps disk (Sane mods) (fun n s h => h.importModule disk n s)
    (fun _ _ h => ⟨h.readers, h.writers, h.modules, h.nodup, h.fresh⟩) dirs s h

theorem Sane.ImportBackends {mods : List Bytes} (home : Bytes) (env : Option Bytes) (s : Interp ω) (h : Sane mods s) :
    Sane mods (ImportBackends disk home env s).2 := by
  rw [ImportBackends_eq]
  exact h.importDirs disk _ s
end

section
variable {ω : Type}

theorem CreateReaderAny_state (disk : PluginDisk ω) (home : Bytes) (env : Option Bytes) (l : Loc) (fs : FS)
    (s : Interp ω) : (CreateReaderAny disk home env l fs s).2 = (ImportBackends disk home env s).2 := by
  unfold CreateReaderAny
  rcases ImportBackends disk home env s with ⟨x, s'⟩
  cases x <;> rfl

theorem CreateWriterAny_state (disk : PluginDisk ω) (home : Bytes) (env : Option Bytes) (l : Loc) (fs : FS)
    (s : Interp ω) : (CreateWriterAny disk home env l fs s).2 = (ImportBackends disk home env s).2 := by
  unfold CreateWriterAny
  rcases ImportBackends disk home env s with ⟨x, s'⟩
  cases x <;> rfl

theorem BackendCall.after_eq (c : BackendCall ω) (s : Interp ω) :
    c.after s = (ImportBackends c.disk c.home c.env s).2 := by
  unfold BackendCall.after
  split
  · exact CreateWriterAny_state ..
  · exact CreateReaderAny_state ..

theorem Sane.afterCalls {mods : List Bytes} : ∀ (calls : List (BackendCall ω)) (s : Interp ω), Sane mods s →
    Sane mods (afterCalls s calls)
  | [], _, h => h
  | c :: t, s, h => by
    rw [Spec.afterCalls, List.foldl_cons]
    exact Sane.afterCalls t _ (by rw [BackendCall.after_eq]; exact h.ImportBackends ..)

/-! ### C71 -/

/-- C71: in every program, whatever plugins there are and however they, the environment and the disk change, each plugin
name is run at most once, and never if a module of this name was there before; of two files with the same name in
different directories at most one is ever run. -/
theorem C71_once (path mods : List Bytes) (calls : List (BackendCall ω)) :
    ((afterCalls (Interp.init path mods) calls).ran.map fun x => x.2.1).Nodup ∧
    ∀ x ∈ (afterCalls (Interp.init path mods) calls).ran, x.2.1 ∉ mods :=
  ⟨(Sane.afterCalls calls _ (Sane.init path mods)).nodup, (Sane.afterCalls calls _ (Sane.init path mods)).fresh⟩

/-- C71: a location that exists is served by a FileReader and a FileWriter for it, whatever plugins have been loaded, as
long as the imports of this call succeed. -/
theorem C71_existing (path mods : List Bytes) (calls : List (BackendCall ω)) (disk : PluginDisk ω) (home : Bytes)
    (env : Option Bytes) (l : Loc) (fs : FS) (d : Dir) (hl : fs l = some d) (s : Interp ω)
    (hs : s = afterCalls (Interp.init path mods) calls) (hok : (ImportBackends disk home env s).1 = .ok ()) :
    (CreateReaderAny disk home env l fs s).1 = .ok (FileReader d) ∧
    (CreateWriterAny disk home env l fs s).1 = .ok (.inl l) := by
  have h := (Sane.afterCalls calls _ (Sane.init path mods) : Sane mods (Spec.afterCalls (Interp.init path mods) calls))
  rw [← hs] at h
  have h := h.ImportBackends disk home env
  unfold CreateReaderAny CreateWriterAny
  rcases hi : ImportBackends disk home env s with ⟨x, s'⟩
  rw [hi] at hok h
  cases hok
  dsimp only at h ⊢
  rw [h.readers, h.writers]
  constructor
  · simp [builtinReaders, firstBackend, FileReader.backend, hl]
  · simp [builtinWriters, firstBackend, FileWriter.backend, hl]

/-- C71: a location that does not exist is offered to the classes of the plugins, in the order in which they were loaded;
the first that does not answer None decides. -/
theorem C71_missing (path mods : List Bytes) (calls : List (BackendCall ω)) (disk : PluginDisk ω) (home : Bytes)
    (env : Option Bytes) (l : Loc) (fs : FS) (hl : fs l = none) (s : Interp ω)
    (hs : s = afterCalls (Interp.init path mods) calls) (hok : (ImportBackends disk home env s).1 = .ok ()) :
    (∀ r, (CreateReaderAny disk home env l fs s).1 = .ok r ↔
      FirstAnswer ((ImportBackends disk home env s).2.ran.map fun x => x.2.2.readers).flatten l fs r) ∧
    (∀ w, (CreateWriterAny disk home env l fs s).1 = .ok w ↔
      FirstAnswer ((ImportBackends disk home env s).2.ran.map fun x => x.2.2.writers).flatten l fs w) := by
  have h := (Sane.afterCalls calls _ (Sane.init path mods) : Sane mods (Spec.afterCalls (Interp.init path mods) calls))
  rw [← hs] at h
  have h := h.ImportBackends disk home env
  unfold CreateReaderAny CreateWriterAny
  rcases hi : ImportBackends disk home env s with ⟨x, s'⟩
  rw [hi] at hok h
  cases hok
  dsimp only at h ⊢
  rw [h.readers, h.writers]
  constructor
  · intro r
    rw [firstBackend_append l fs _ _ (by simp [builtinReaders, FileReader.backend, silentBackend, hl])]
    exact firstBackend_iff l fs r _
  · intro w
    rw [firstBackend_append l fs _ _ (by simp [builtinWriters, FileWriter.backend, hl])]
    exact firstBackend_iff l fs w _

/-- C71: a location that does not exist and that every plugin declines is a KeyczarError; an exception raised by a plugin
class that is asked is passed on. -/
theorem C71_missing_error (path mods : List Bytes) (calls : List (BackendCall ω)) (disk : PluginDisk ω) (home : Bytes)
    (env : Option Bytes) (l : Loc) (fs : FS) (hl : fs l = none) (s : Interp ω)
    (hs : s = afterCalls (Interp.init path mods) calls) (hok : (ImportBackends disk home env s).1 = .ok ()) (e : PyErr) :
    (CreateReaderAny disk home env l fs s).1 = .error e ↔
      (∃ pre b post, ((ImportBackends disk home env s).2.ran.map fun x => x.2.2.readers).flatten = pre ++ b :: post ∧
        (∀ c ∈ pre, c l fs = .ok none) ∧ b l fs = .error e) ∨
      e = .keyczarError ∧
        ∀ c ∈ ((ImportBackends disk home env s).2.ran.map fun x => x.2.2.readers).flatten, c l fs = .ok none := by
  have h := (Sane.afterCalls calls _ (Sane.init path mods) : Sane mods (Spec.afterCalls (Interp.init path mods) calls))
  rw [← hs] at h
  have h := h.ImportBackends disk home env
  unfold CreateReaderAny
  rcases hi : ImportBackends disk home env s with ⟨x, s'⟩
  rw [hi] at hok h
  cases hok
  dsimp only at h ⊢
  rw [h.readers, firstBackend_append l fs _ _ (by simp [builtinReaders, FileReader.backend, silentBackend, hl])]
  exact firstBackend_error l fs e _

/-- C71: an exception raised while a plugin is imported is raised by every `CreateReader` and `CreateWriter`, for every
location: not even key sets in files can be opened. -/
theorem C71_broken (disk : PluginDisk ω) (home : Bytes) (env : Option Bytes) (s : Interp ω) (e : PyErr)
    (h : (ImportBackends disk home env s).1 = .error e) (l : Loc) (fs : FS) :
    (CreateReaderAny disk home env l fs s).1 = .error e ∧ (CreateWriterAny disk home env l fs s).1 = .error e := by
  unfold CreateReaderAny CreateWriterAny
  rcases hi : ImportBackends disk home env s with ⟨x, s'⟩
  rw [hi] at h
  cases h
  exact ⟨rfl, rfl⟩

/-- C71: without plugins (no directory `backends` and no directories in the environment variable, as in the repository)
nothing is imported, and `CreateReader` and `CreateWriter` are those of Model/Keyczart.lean. -/
theorem C71_no_plugins (path mods : List Bytes) (disk : PluginDisk ω) (home : Bytes) (env : Option Bytes)
    (h : ∀ d ∈ backendDirs home env, disk.entry d = .missing) (l : Loc) (fs : FS) :
    CreateReaderAny disk home env l fs (Interp.init path mods) = (CreateReader l fs, Interp.init path mods) ∧
    CreateWriterAny disk home env l fs (Interp.init path mods) = ((CreateWriter l fs).map .inl, Interp.init path mods) := by
  have key : ∀ (dirs : List Bytes) (s : Interp ω), (∀ d ∈ dirs, disk.entry d = .missing) →
      importDirs disk dirs s = (.ok (), s) := by
    intro dirs
    induction dirs with
    | nil => intro s _; rfl
    | cons d t ih =>
      intro s hd
      rw [importDirs, ImportAll, hd d (by simp)]
      exact ih s fun d hd' => hd d (by simp [hd'])
  unfold CreateReaderAny CreateWriterAny
  rw [ImportBackends_eq, key _ _ h]
  constructor
  · cases hl : fs l <;>
      simp [CreateReader, hl, Interp.init, builtinReaders, firstBackend, FileReader.backend, silentBackend]
  · cases hl : fs l <;>
      simp [CreateWriter, hl, Interp.init, builtinWriters, firstBackend, FileWriter.backend, Except.map]

/-! ### what has been loaded -/

theorem mem_pluginNames {names : List Bytes} {n : Bytes} : n ∈ pluginNames names ↔ n ++ dotPy ∈ names := by
  unfold pluginNames
  simp only [List.mem_map, List.mem_filter, decide_eq_true_eq]
  constructor
  · rintro ⟨f, ⟨hf, hd⟩, rfl⟩
    rw [← hd, List.take_append_drop]
    exact hf
  · intro h
    refine ⟨n ++ dotPy, ⟨h, ?_⟩, ?_⟩
    · simp [dotPy]
    · simp [dotPy]

/-- all plugins of the directory are there -/
def DirLoaded (disk : PluginDisk ω) (s : Interp ω) (d : Bytes) : Prop :=
  match disk.entry d with
  | .missing => True
  | .file => False
  | .dir names => d ∈ s.path ∧ ∀ n, n ++ dotPy ∈ names → n ≠ [] ∧ 46 ∉ n ∧ n ∈ s.modules

theorem importModule_ok (disk : PluginDisk ω) (n : Bytes) (s : Interp ω)
    (h : (importModule disk n s).1 = .ok ()) : n ≠ [] ∧ 46 ∉ n ∧ n ∈ (importModule disk n s).2.modules := by
  unfold importModule at h ⊢
  split at h
  · cases h
  next h1 =>
  split at h
  · cases h
  next h2 =>
  rw [if_neg h1, if_neg h2]
  split at h
  · next h3 => rw [if_pos h3]; exact ⟨h1, h2, h3⟩
  next h3 =>
  rw [if_neg h3]
  split at h
  · cases h
  · next d hd =>
    split at h
    · cases h
    · next m hm => refine ⟨h1, h2, by simp⟩

theorem importModule_mono (disk : PluginDisk ω) (n : Bytes) (s : Interp ω) :
    (importModule disk n s).2.path = s.path ∧ s.modules ⊆ (importModule disk n s).2.modules := by
  unfold importModule
  split
  · exact ⟨rfl, fun _ h => h⟩
  split
  · exact ⟨rfl, fun _ h => h⟩
  split
  · exact ⟨rfl, fun _ h => h⟩
  split
  · exact ⟨rfl, fun _ h => h⟩
  split
  · exact ⟨rfl, fun _ h => h⟩
  · exact ⟨rfl, fun _ h => List.mem_append_left _ h⟩

/-- a state with at least the path and modules of another -/
def Extends (s t : Interp ω) : Prop := s.path <+: t.path ∧ s.modules ⊆ t.modules

theorem Extends.trans {s t u : Interp ω} (h : Extends s t) (h' : Extends t u) : Extends s u :=
  ⟨h.1.trans h'.1, fun _ hx => h'.2 (h.2 hx)⟩

theorem importDirs_extends (disk : PluginDisk ω) (dirs : List Bytes) (s : Interp ω) :
    Extends s (importDirs disk dirs s).2 := by
  refine importDirs_keeps disk (Extends s) ?_ ?_ dirs s ⟨List.prefix_refl _, fun _ h => h⟩
  · intro n t h
    obtain ⟨h1, h2⟩ := importModule_mono disk n t
    exact ⟨by rw [h1]; exact h.1, fun x hx => h2 (h.2 hx)⟩
  · intro t d h
    exact ⟨h.1.trans (List.prefix_append _ _), h.2⟩

theorem importNames_extends (disk : PluginDisk ω) (names : List Bytes) (s : Interp ω) :
    Extends s (importNames disk names s).2 := by
  refine importNames_keeps disk (Extends s) ?_ names s ⟨List.prefix_refl _, fun _ h => h⟩
  intro n t h
  obtain ⟨h1, h2⟩ := importModule_mono disk n t
  exact ⟨by rw [h1]; exact h.1, fun x hx => h2 (h.2 hx)⟩

theorem DirLoaded.extends {disk : PluginDisk ω} {s t : Interp ω} {d : Bytes} (h : DirLoaded disk s d) (he : Extends s t) :
    DirLoaded disk t d := by
  unfold DirLoaded at h ⊢
  cases hd : disk.entry d with
  | missing => trivial
  | file => rw [hd] at h; exact h
  | dir names =>
    rw [hd] at h
    exact ⟨he.1.subset h.1, fun n hn => ⟨(h.2 n hn).1, (h.2 n hn).2.1, he.2 (h.2 n hn).2.2⟩⟩

theorem importNames_loaded (disk : PluginDisk ω) : ∀ (names : List Bytes) (s : Interp ω),
    (importNames disk names s).1 = .ok () →
    ∀ n ∈ names, n ≠ [] ∧ 46 ∉ n ∧ n ∈ (importNames disk names s).2.modules
  | [], _, _, n, hn => by cases hn
  | m :: t, s, h, n, hn => by
    have hm := importModule_ok disk m s
    rw [importNames] at h ⊢
    rcases hx : importModule disk m s with ⟨x, s'⟩
    rw [hx] at hm h
    cases x with
    | error e => cases h
    | ok u =>
      dsimp only at h ⊢
      rcases List.mem_cons.mp hn with rfl | hn
      · obtain ⟨h1, h2, h3⟩ := hm rfl
        exact ⟨h1, h2, (importNames_extends disk t s').2 h3⟩
      · exact importNames_loaded disk t s' h n hn

theorem importNames_done (disk : PluginDisk ω) : ∀ (names : List Bytes) (s : Interp ω),
    (∀ n ∈ names, n ≠ [] ∧ 46 ∉ n ∧ n ∈ s.modules) → importNames disk names s = (.ok (), s)
  | [], _, _ => rfl
  | m :: t, s, h => by
    obtain ⟨h1, h2, h3⟩ := h m (by simp)
    rw [importNames]
    have : importModule disk m s = (.ok (), s) := by
      unfold importModule
      rw [if_neg h1, if_neg h2, if_pos h3]
    rw [this]
    exact importNames_done disk t s fun n hn => h n (by simp [hn])

theorem importDirs_loaded (disk : PluginDisk ω) : ∀ (dirs : List Bytes) (s : Interp ω),
    (importDirs disk dirs s).1 = .ok () → ∀ d ∈ dirs, DirLoaded disk (importDirs disk dirs s).2 d
  | [], _, _, d, hd => by cases hd
  | a :: t, s, h, d, hd => by
    have ha : (ImportAll disk a s).1 = .ok () → DirLoaded disk (ImportAll disk a s).2 a := by
      unfold ImportAll DirLoaded
      cases disk.entry a with
      | missing => exact fun _ => trivial
      | file => intro h; cases h
      | dir names =>
        dsimp only
        intro h
        refine ⟨?_, fun n hn => importNames_loaded disk _ _ h n (mem_pluginNames.mpr hn)⟩
        apply (importNames_extends disk _ _).1.subset
        split
        · assumption
        · simp
    rw [importDirs] at h ⊢
    rcases hx : ImportAll disk a s with ⟨x, s'⟩
    rw [hx] at ha h
    cases x with
    | error e => cases h
    | ok u =>
      dsimp only at h ⊢
      rcases List.mem_cons.mp hd with rfl | hd
      · exact (ha rfl).extends (importDirs_extends disk t s')
      · exact importDirs_loaded disk t s' h d hd

theorem importDirs_done (disk : PluginDisk ω) : ∀ (dirs : List Bytes) (s : Interp ω),
    (∀ d ∈ dirs, DirLoaded disk s d) → importDirs disk dirs s = (.ok (), s)
  | [], _, _ => rfl
  | a :: t, s, h => by
    have ha := h a (by simp)
    rw [importDirs]
    have : ImportAll disk a s = (.ok (), s) := by
      unfold ImportAll
      unfold DirLoaded at ha
      cases hd : disk.entry a with
      | missing => rfl
      | file => rw [hd] at ha; exact ha.elim
      | dir names =>
        rw [hd] at ha
        dsimp only at ha ⊢
        rw [if_pos ha.1]
        exact importNames_done disk _ s fun n hn => ha.2 n (mem_pluginNames.mp hn)
    rw [this]
    exact importDirs_done disk t s fun d hd => h d (by simp [hd])

/-- C71: when the imports succeed, every `.py` file of every plugin directory has been run or had a name that was there
already. -/
theorem C71_loaded (disk : PluginDisk ω) (home : Bytes) (env : Option Bytes) (s : Interp ω)
    (h : (ImportBackends disk home env s).1 = .ok ()) (d : Bytes) (hd : d ∈ backendDirs home env) (names : List Bytes)
    (hn : disk.entry d = .dir names) (n : Bytes) (hm : n ++ dotPy ∈ names) :
    n ∈ (ImportBackends disk home env s).2.modules := by
  rw [ImportBackends_eq] at h ⊢
  have := importDirs_loaded disk _ s h d hd
  unfold DirLoaded at this
  rw [hn] at this
  exact (this.2 n hm).2.2

/-- C71: as long as the plugin files do not change, imports after a successful one succeed and change nothing, so every
location is offered to the same classes again. -/
theorem C71_repeat (disk : PluginDisk ω) (home : Bytes) (env : Option Bytes) (s : Interp ω)
    (h : (ImportBackends disk home env s).1 = .ok ()) :
    ImportBackends disk home env (ImportBackends disk home env s).2 = (.ok (), (ImportBackends disk home env s).2) := by
  rw [ImportBackends_eq] at h ⊢
  rw [ImportBackends_eq]
  exact importDirs_done disk _ _ fun d hd => importDirs_loaded disk _ s h d hd

/-! ### where a plugin is taken from, and what can go wrong -/

/-- the plugins run since `s`, with their directories -/
structure RunFrom (disk : PluginDisk ω) (s t : Interp ω) : Prop where
  ran : ∃ more, t.ran = s.ran ++ more ∧ ∀ x ∈ more, disk.exec x.1 x.2.1 = .ok x.2.2 ∧
    ∃ pre post, t.path = pre ++ x.1 :: post ∧ (disk.entry x.1).has x.2.1 = true ∧
      ∀ y ∈ pre, (disk.entry y).has x.2.1 = false

theorem RunFrom.importModule {disk : PluginDisk ω} {s t : Interp ω} (h : RunFrom disk s t) (n : Bytes) :
    RunFrom disk s (importModule disk n t).2 := by
  unfold Verif.importModule
  split
  · exact h
  split
  · exact h
  split
  · exact h
  split
  · exact h
  next d hd =>
  split
  · exact h
  next m hm =>
  obtain ⟨more, h1, h2⟩ := h.ran
  refine ⟨more ++ [(d, n, m)], by simp [h1], ?_⟩
  intro x hx
  rcases List.mem_append.mp hx with hx | hx
  · exact h2 x hx
  · rw [List.mem_singleton] at hx
    subst hx
    refine ⟨hm, ?_⟩
    rw [List.find?_eq_some_iff_append] at hd
    obtain ⟨h3, pre, post, h4, h5⟩ := hd
    exact ⟨pre, post, h4, h3, fun y hy => by simpa using h5 y hy⟩

/-- C71: a plugin that is run is the file in the first directory of `sys.path` that has a file of this name: files of the
same name in later directories are never run. -/
theorem C71_first_directory (disk : PluginDisk ω) (home : Bytes) (env : Option Bytes) (s : Interp ω) :
    ∃ more, (ImportBackends disk home env s).2.ran = s.ran ++ more ∧ ∀ x ∈ more, disk.exec x.1 x.2.1 = .ok x.2.2 ∧
      ∃ pre post, (ImportBackends disk home env s).2.path = pre ++ x.1 :: post ∧ (disk.entry x.1).has x.2.1 = true ∧
        ∀ y ∈ pre, (disk.entry y).has x.2.1 = false := by
  rw [ImportBackends_eq]
  refine (importDirs_keeps disk (RunFrom disk s) (fun n t h => h.importModule n) ?_ _ s ⟨[], by simp, by simp⟩).ran
  intro t d h
  obtain ⟨more, h1, h2⟩ := h.ran
  refine ⟨more, h1, fun x hx => ?_⟩
  obtain ⟨h3, pre, post, h4, h5⟩ := h2 x hx
  exact ⟨h3, pre, post ++ [d], by rw [h4]; simp, h5⟩

theorem importModule_error (disk : PluginDisk ω) (n : Bytes) (s : Interp ω) (e : PyErr)
    (h : (importModule disk n s).1 = .error e) (hf : ∃ d ∈ s.path, (disk.entry d).has n = true) :
    n = [] ∧ e = .valueError ∨ 46 ∈ n ∧ e = .unmodelled ∨ ∃ d, (disk.entry d).has n = true ∧ disk.exec d n = .error e := by
  unfold importModule at h
  split at h
  · next h1 => cases h; exact .inl ⟨h1, rfl⟩
  split at h
  · next h1 => cases h; exact .inr (.inl ⟨h1, rfl⟩)
  split at h
  · cases h
  split at h
  · next h1 =>
    obtain ⟨d, hd, hh⟩ := hf
    have := List.find?_eq_none.mp h1 d hd
    rw [hh] at this
    exact absurd rfl this
  · next d hd =>
    split at h
    · next e' he =>
      cases h
      have := List.find?_some hd
      exact .inr (.inr ⟨d, this, he⟩)
    · cases h

theorem importNames_error (disk : PluginDisk ω) (d : Bytes) : ∀ (names : List Bytes) (s : Interp ω) (e : PyErr),
    (importNames disk names s).1 = .error e → d ∈ s.path → (∀ n ∈ names, (disk.entry d).has n = true) →
    ∃ n ∈ names, n = [] ∧ e = .valueError ∨ 46 ∈ n ∧ e = .unmodelled ∨
      ∃ d, (disk.entry d).has n = true ∧ disk.exec d n = .error e
  | [], _, _, h, _, _ => by cases h
  | n :: t, s, e, h, hd, hn => by
    rw [importNames] at h
    have hm := importModule_error disk n s
    have hp := (importModule_mono disk n s).1
    rcases hx : importModule disk n s with ⟨x, s'⟩
    rw [hx] at h hm hp
    cases x with
    | error e' =>
      cases h
      exact ⟨n, by simp, hm e rfl ⟨d, hd, hn n (by simp)⟩⟩
    | ok u =>
      obtain ⟨k, h1, h2⟩ := importNames_error disk d t s' e h (by rw [hp]; exact hd) fun k hk => hn k (by simp [hk])
      exact ⟨k, by simp [h1], h2⟩

/-- C71: the imports fail only if one of the names is a plain file, or a directory holds a file called `.py` or a file
whose name has another dot, or a plugin raises.  In particular the file to be imported is always found. -/
theorem C71_found (disk : PluginDisk ω) (home : Bytes) (env : Option Bytes) (s : Interp ω) (e : PyErr)
    (h : (ImportBackends disk home env s).1 = .error e) :
    ∃ d ∈ backendDirs home env, disk.entry d = .file ∧ e = .osError ∨ ∃ names, disk.entry d = .dir names ∧
      ∃ n, n ++ dotPy ∈ names ∧ (n = [] ∧ e = .valueError ∨ 46 ∈ n ∧ e = .unmodelled ∨
        ∃ d', (disk.entry d').has n = true ∧ disk.exec d' n = .error e) := by
  rw [ImportBackends_eq] at h
  generalize backendDirs home env = dirs at h ⊢
  induction dirs generalizing s with
  | nil => cases h
  | cons a t ih =>
    rw [importDirs] at h
    rcases hx : ImportAll disk a s with ⟨x, s'⟩
    rw [hx] at h
    cases x with
    | ok u =>
      obtain ⟨d, h1, h2⟩ := ih s' h
      exact ⟨d, by simp [h1], h2⟩
    | error e' =>
      cases h
      refine ⟨a, by simp, ?_⟩
      unfold ImportAll at hx
      cases hd : disk.entry a with
      | missing => rw [hd] at hx; cases hx
      | file => rw [hd] at hx; cases hx; exact .inl ⟨rfl, rfl⟩
      | dir names =>
        rw [hd] at hx
        dsimp only at hx
        have hx := congrArg Prod.fst hx
        obtain ⟨n, h1, h2⟩ := importNames_error disk a _ _ e hx (by split <;> simp [*])
          (fun n hn => by rw [hd]; simpa [PathEntry.has] using mem_pluginNames.mp hn)
        exact .inr ⟨names, rfl, n, mem_pluginNames.mp h1, h2⟩
end

/-! ### an example -/

/-- a plugin whose reader serves locations that begin with `db:` -/
def dbBackend : Backend Reader := fun l _ =>
  if bstr "db:" <+: l then .ok (some ⟨.ok (bstr "{}"), fun _ => .error .keyczarError, false⟩) else .ok none

/-- `/home` and `/a` hold different files `db.py`; `/b` holds `random.py`; other directories are missing -/
def exPlugins : PluginDisk Unit :=
  { entry := fun d => if d = bstr "/home" ∨ d = bstr "/a" then .dir [bstr "db.py", bstr "README"]
      else if d = bstr "/b" then .dir [bstr "random.py"] else .missing
    exec := fun d _ => if d = bstr "/home" then .ok ⟨[dbBackend], []⟩ else .error .valueError }

/-- three directories; the second `db.py` (which would raise) is not run, nor is `random.py`, because Python has a module
of this name; so the hypotheses of the theorems above are met -/
example :
    (ImportBackends exPlugins (bstr "/home") (some (bstr "/a:/b:/missing"))
      (Interp.init [bstr "/usr/lib/python"] [bstr "random"])).1 = .ok () ∧
    (ImportBackends exPlugins (bstr "/home") (some (bstr "/a:/b:/missing"))
      (Interp.init [bstr "/usr/lib/python"] [bstr "random"])).2.ran.map (fun x => (x.1, x.2.1)) = [(bstr "/home", bstr "db")] := by
  decide +kernel

/-- the plugin answers for a location that does not exist on the disk -/
example : ((CreateReaderAny exPlugins (bstr "/home") (some (bstr "/a:/b:/missing")) (bstr "db:keys") (fun _ => none)
      (Interp.init [bstr "/usr/lib/python"] [bstr "random"])).1.map fun r => r.GetMetadata) = .ok (.ok (bstr "{}")) := by
  decide +kernel

/-- if Python has no module `random`, the plugin `/b/random.py` is run; it raises, and no key set can be opened -/
example : (ImportBackends exPlugins (bstr "/home") (some (bstr "/a:/b:/missing"))
      (Interp.init [bstr "/usr/lib/python"] [])).1 = .error .valueError := by decide +kernel

end Verif.Props
