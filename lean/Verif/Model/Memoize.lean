import Verif.Model.Py
/-
util.Memoize (util.py:849-867).
-/
namespace Verif

/-- the state of a memoized function: its dictionary `memory`, the state `world` of whatever the original function
depends on or changes, and (for the theorems) the arguments with which the original function was called and what
it did -/
structure Memo (κ α β ω : Type) where
  memory : List (κ × β)
  world : ω
  runs : List (α × Py β)

/-- util.py:857-863 `memo(*args, **kwargs)`.  `pickle args` is `pickle.dumps((args, sorted(kwargs.items())))`, which
may raise; `func` is the original function, which may depend on and change the world.  Nothing is stored when it
raises. -/
def Memo.call {κ α β ω} [DecidableEq κ] (pickle : α → Py κ) (func : α → ω → Py β × ω) (s : Memo κ α β ω) (args : α) :
    Py β × Memo κ α β ω :=
  match pickle args with
  | .error e => (.error e, s)
  | .ok k =>
    match s.memory.lookup k with
    | some v => (.ok v, s)
    | none =>
      match func args s.world with
      | (.error e, w) => (.error e, { s with world := w, runs := s.runs ++ [(args, .error e)] })
      | (.ok v, w) => (.ok v, ⟨(k, v) :: s.memory, w, s.runs ++ [(args, .ok v)]⟩)

/-- util.py:854: the state when the decorator returns -/
def Memo.init {κ α β ω} (w : ω) : Memo κ α β ω := ⟨[], w, []⟩

end Verif
