import Verif.Lemmas.History
/-
Several keyczart processes at work at the same time (C69).

Each process runs one command.  It first reads files, one after the other while other processes go on writing, and then
performs the writes and removals of the command one by one, in between those of other processes.  Single reads, writes
and removals of a file are atomic.  What a process has read is any combination of contents that the files had since it
started; this includes combinations which the real order of reads does not allow.
-/
namespace Verif
variable (P : Prims)

/-- a process: not started, reading (with the disks there have been since it started), or with these effects to do -/
inductive Proc where
  | waiting (k : KCmd)
  | reading (k : KCmd) (past : List FS)
  | writing (es : List Effect)

/-- each file as it was on one of the disks -/
def Mixed (past : List FS) (seen : FS) : Prop :=
  ∀ l, match seen l with
    | none => ∃ g ∈ past, g l = none
    | some d => ∀ f, ∃ g ∈ past, ∃ d', g l = some d' ∧ d f = d' f

/-- a reading process after the disk has changed -/
def Proc.note (fs : FS) : Proc → Proc
  | .reading k past => .reading k (fs :: past)
  | p => p

/-- the disk and the processes -/
structure World where
  fs : FS
  procs : List Proc

/-- one step of one process -/
inductive World.Step : World → World → Prop
  | start (fs : FS) (a b : List Proc) (k : KCmd) :
      Step ⟨fs, a ++ .waiting k :: b⟩ ⟨fs, a ++ .reading k [fs] :: b⟩
  | decide (fs seen : FS) (a b : List Proc) (k : KCmd) (past : List FS) : Mixed past seen →
      Step ⟨fs, a ++ .reading k past :: b⟩ ⟨fs, a ++ .writing (k.run P seen).2 :: b⟩
  | effect (fs : FS) (a b : List Proc) (x : Effect) (es : List Effect) :
      Step ⟨fs, a ++ .writing (x :: es) :: b⟩
        ⟨x.apply fs, (a ++ .writing es :: b).map (Proc.note (x.apply fs))⟩

/-- any number of steps -/
inductive World.Steps : World → World → Prop
  | refl (w : World) : Steps w w
  | tail (u v w : World) : Steps u v → World.Step P v w → Steps u w

/-- What an application that loads the key set meanwhile may find: each file as it was at some time (this includes
combinations which the real order of reads does not allow). -/
def World.Seen (w : World) (seen : FS) : Prop :=
  ∃ past : List FS, (∀ g ∈ past, ∃ w', World.Steps P w w' ∧ w'.fs = g) ∧ Mixed past seen

/-- all processes have finished -/
def World.Done (w : World) : Prop := ∀ p ∈ w.procs, p = .writing []

end Verif
