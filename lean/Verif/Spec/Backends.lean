import Verif.Model.Backends
/-
Which class serves a location, and programs that ask for readers and writers.
-/
namespace Verif.Spec
open Verif

/-- `r` is the answer of the first of the classes that does not answer None -/
def FirstAnswer {ρ : Type} (classes : List (Backend ρ)) (l : Loc) (fs : FS) (r : ρ) : Prop :=
  ∃ pre b post, classes = pre ++ b :: post ∧ (∀ c ∈ pre, c l fs = .ok none) ∧ b l fs = .ok (some r)

/-- the directories searched for plugins: `home`, then the parts of a non-empty environment variable -/
def backendDirs (home : Bytes) (env : Option Bytes) : List Bytes :=
  home :: if env.getD [] = [] then [] else splitOn 58 (env.getD [])

/-- one call of `CreateReader` or `CreateWriter`, with everything it depends on; plugins, environment and disk may change
from call to call -/
structure BackendCall (ω : Type) where
  disk : PluginDisk ω
  home : Bytes
  env : Option Bytes
  loc : Loc
  fs : FS
  writer : Bool

/-- the interpreter after the call -/
def BackendCall.after {ω : Type} (c : BackendCall ω) (s : Interp ω) : Interp ω :=
  if c.writer then (CreateWriterAny c.disk c.home c.env c.loc c.fs s).2
  else (CreateReaderAny c.disk c.home c.env c.loc c.fs s).2

/-- the interpreter after the calls, in this order -/
def afterCalls {ω : Type} (s : Interp ω) (calls : List (BackendCall ω)) : Interp ω :=
  calls.foldl (fun s c => c.after s) s

end Verif.Spec
