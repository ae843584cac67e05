import Verif.Model.GenKey
/-
How a reader or writer is found for a location: readers.py:30-44 and writers.py:26-39, with extra backends imported by
util.py:869-895.

Simplifications.
* Objects made by a backend are true (`if reader:`), so a class answers with an object, None or an exception.
* A plugin module is a file `name.py`; packages and compiled modules are left out.  Running it defines classes derived
  directly from `Reader` and `Writer`, in this order, or raises an exception; then it leaves no classes behind.  It does
  not import other plugins and does not change `sys.path`.
* The directories of `sys.path` are searched afresh for every import.
-/
namespace Verif

/-- a class derived from `Reader` or `Writer`: its class method `CreateReader(location)` or `CreateWriter(location)`;
`none` is Python's None -/
abbrev Backend (ρ : Type) := Loc → FS → Py (Option ρ)

/-- readers.py:40-44, writers.py:34-39: the loop over `__subclasses__()` -/
def firstBackend {ρ : Type} : List (Backend ρ) → Loc → FS → Py ρ
  | [], _, _ => .error .keyczarError
  | b :: t, l, fs =>
    match b l fs with
    | .error e => .error e
    | .ok (some r) => .ok r
    | .ok none => firstBackend t l fs

/-- readers.py:112-116 `FileReader.CreateReader` -/
def FileReader.backend : Backend Reader := fun l fs => .ok ((fs l).map FileReader)

/-- readers.py:136-139 (StaticKeyReader), 158-161 (EncryptedReader), 220-223 (MockReader): never answer -/
def silentBackend {ρ : Type} : Backend ρ := fun _ _ => .ok none

/-- a writer: a `FileWriter` for a location, or an object of a plugin -/
abbrev AnyWriter (ω : Type) := Loc ⊕ ω

/-- writers.py:141-149 `FileWriter.CreateWriter` -/
def FileWriter.backend {ω : Type} : Backend (AnyWriter ω) := fun l fs => .ok (if (fs l).isSome then some (.inl l) else none)

/-- the subclasses that readers.py itself defines, in order -/
def builtinReaders : List (Backend Reader) := [FileReader.backend, silentBackend, silentBackend, silentBackend]

/-- the subclasses that writers.py itself defines -/
def builtinWriters {ω : Type} : List (Backend (AnyWriter ω)) := [FileWriter.backend]

/-- what running a plugin module defines -/
structure PluginModule (ω : Type) where
  readers : List (Backend Reader)
  writers : List (Backend (AnyWriter ω))

/-- what is found under the name of a directory for plugins -/
inductive PathEntry where
  | missing
  | file
  | dir (names : List Bytes)

/-- the plugin directories, and what happens when `dir/name.py` is run -/
structure PluginDisk (ω : Type) where
  entry : Bytes → PathEntry
  exec : (dir name : Bytes) → Py (PluginModule ω)

/-- the part of the interpreter that matters: `sys.path`, the names in `sys.modules`, the direct subclasses of `Reader`
and of `Writer` in the order of their definition, and (for the theorems) the plugin modules that have been run to their
end, with their directories -/
structure Interp (ω : Type) where
  path : List Bytes
  modules : List Bytes
  readers : List (Backend Reader)
  writers : List (Backend (AnyWriter ω))
  ran : List (Bytes × Bytes × PluginModule ω)

/-- the state when `readers` and `writers` have been imported -/
def Interp.init {ω : Type} (path modules : List Bytes) : Interp ω := ⟨path, modules, builtinReaders, builtinWriters, []⟩

/-- `.py` -/
def dotPy : Bytes := [46, 112, 121]

/-- does the directory hold `name.py`? -/
def PathEntry.has (e : PathEntry) (name : Bytes) : Bool :=
  match e with
  | .dir names => decide (name ++ dotPy ∈ names)
  | _ => false

variable {ω : Type} (disk : PluginDisk ω)

/-- `__import__(name)`, util.py:882: a name in `sys.modules` is not run again, otherwise the first directory of
`sys.path` that has the file is taken.  An empty name is a ValueError; names with a dot (which denote packages) are
`unmodelled`.  No directory having the file would be an ImportError, which does not happen in `ImportAll`
(`C71_found`). -/
def importModule (name : Bytes) (s : Interp ω) : Py Unit × Interp ω :=
  if name = [] then (.error .valueError, s)
  else if 46 ∈ name then (.error .unmodelled, s)
  else if name ∈ s.modules then (.ok (), s)
  else
    match s.path.find? fun d => (disk.entry d).has name with
    | none => (.error .unmodelled, s)
    | some d =>
      match disk.exec d name with
      | .error e => (.error e, s)
      | .ok m => (.ok (), { s with modules := s.modules ++ [name], readers := s.readers ++ m.readers
                                   writers := s.writers ++ m.writers, ran := s.ran ++ [(d, name, m)] })

/-- the list comprehension util.py:882 -/
def importNames : List Bytes → Interp ω → Py Unit × Interp ω
  | [], s => (.ok (), s)
  | n :: t, s =>
    match importModule disk n s with
    | (.error e, s) => (.error e, s)
    | (.ok (), s) => importNames t s

/-- util.py:878-879: the names of the files that end in `.py`, without it -/
def pluginNames (names : List Bytes) : List Bytes :=
  (names.filter fun f => f.drop (f.length - 3) = dotPy).map fun f => f.take (f.length - 3)

/-- util.py:869-882 `ImportAll`: `os.listdir` of a plain file raises OSError -/
def ImportAll (dir : Bytes) (s : Interp ω) : Py Unit × Interp ω :=
  match disk.entry dir with
  | .missing => (.ok (), s)
  | .file => (.error .osError, s)
  | .dir names =>
    importNames disk (pluginNames names) (if dir ∈ s.path then s else { s with path := s.path ++ [dir] })

/-- the loop util.py:894-895 -/
def importDirs : List Bytes → Interp ω → Py Unit × Interp ω
  | [], s => (.ok (), s)
  | d :: t, s =>
    match ImportAll disk d s with
    | (.error e, s) => (.error e, s)
    | (.ok (), s) => importDirs t s

/-- util.py:884-895 `ImportBackends`: `home` is the directory `backends` next to util.py, `env` the environment variable
`KEYCZAR_BACKEND_PATHS`; `os.pathsep` is a colon -/
def ImportBackends (home : Bytes) (env : Option Bytes) (s : Interp ω) : Py Unit × Interp ω :=
  match ImportAll disk home s with
  | (.error e, s) => (.error e, s)
  | (.ok (), s) => if env.getD [] = [] then (.ok (), s) else importDirs disk (splitOn 58 (env.getD [])) s

/-- readers.py:30-44 `CreateReader` -/
def CreateReaderAny (home : Bytes) (env : Option Bytes) (l : Loc) (fs : FS) (s : Interp ω) : Py Reader × Interp ω :=
  match ImportBackends disk home env s with
  | (.error e, s) => (.error e, s)
  | (.ok (), s) => (firstBackend s.readers l fs, s)

/-- writers.py:26-39 `CreateWriter` -/
def CreateWriterAny (home : Bytes) (env : Option Bytes) (l : Loc) (fs : FS) (s : Interp ω) :
    Py (AnyWriter ω) × Interp ω :=
  match ImportBackends disk home env s with
  | (.error e, s) => (.error e, s)
  | (.ok (), s) => (firstBackend s.writers l fs, s)

end Verif
