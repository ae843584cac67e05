import Verif.Model.Keyczart
/-
The mock key set of the unit tests: readers.py:163-223 `MockReader`, and the branches of keyczart.py and keyczar.py taken
when the global `mock` is set.

Simplification.  The `KeyVersion` objects of `kmd` live in `heap`.  `mock.kmd = czar.metadata` (keyczart.py:266) shares
them with the key set object of the command, which is dropped when the command ends; the same for `pubkmd`.
-/
namespace Verif

/-- readers.py:166-170 -/
structure Mock where
  heap : Heap
  kmd : KeyMetadata
  keys : List (Int × Key)
  pubkmd : Option (Heap × KeyMetadata)
  pubkeys : List (Int × Key)

/-- readers.py:166-170 `__init__` -/
def Mock.new (name : Json) (purpose : KeyPurpose) (type : KeyType) (encrypted : Json) : Mock :=
  ⟨Heap.empty, ⟨name, purpose, type, encrypted, []⟩, [], none, []⟩

/-- readers.py:176-183 `GetMetadata`, `GetKey` -/
def MockReader (m : Mock) : Reader :=
  { GetMetadata := m.kmd.str m.heap
    GetKey := fun n => match assocGet m.keys n with
      | some k => k.str
      | none => .error .keyczarError
    isEncryptedReader := false }

/-- readers.py:185-186 `GetStatus` -/
def Mock.GetStatus (m : Mock) (n : Int) : Py KeyStatus := do return (m.heap.obj (← m.kmd.GetVersion n)).status

/-- readers.py:192-193 -/
def Mock.SetKey (m : Mock) (n : Int) (key : Key) : Mock := { m with keys := assocSet m.keys n key }

/-- readers.py:195-196 -/
def Mock.SetPubKey (m : Mock) (n : Int) (key : Key) : Mock := { m with pubkeys := assocSet m.pubkeys n key }

/-- readers.py:198-203 `AddKey` -/
def Mock.AddKey (m : Mock) (rnd : Rand) (n : Int) (status : KeyStatus) (size : Option Int) : Py Mock := do
  let key ← GenKey rnd m.kmd.type size
  let heap := m.heap.alloc ⟨n, status, .bool false⟩
  return { m with keys := assocSet m.keys n key, heap := heap, kmd := m.kmd.AddVersion heap m.heap.next }

/-- readers.py:205-207 `RemoveKey` -/
def Mock.RemoveKey (m : Mock) (n : Int) : Py Unit × Mock :=
  match assocGet m.keys n with
  | none => (.error .keyError, m)
  | some _ => (.ok (), { m with keys := m.keys.filter fun p => p.1 ≠ n })

/-- readers.py:209-210 `ExistsVersion` -/
def Mock.ExistsVersion (m : Mock) (n : Int) : Bool := (assocGet m.keys n).isSome

/-- A command run on the mock: its outcome, and the mock afterwards. -/
abbrev MockCmd := Mock → Py Unit × Mock

variable (P : Prims)

/-- keyczart.py:92-113 `Create` -/
def mockCreate (name : Json) (purpose : Option KeyPurpose) (asymmetric : Option Bytes) : MockCmd := fun m =>
  match createType purpose asymmetric with
  | .error e => (.error e, m)
  | .ok type => (.ok (), { m with heap := Heap.empty, kmd := ⟨name, type.1, type.2, .bool false, []⟩ })

/-- the loop of keyczart.py:267-268 -/
def mockSetKeys (c : Czar) : List Nat → MockCmd
  | [], m => (.ok (), m)
  | o :: t, m =>
    match c.GetKeyByVersion (some o) with
    | .error e => (.error e, m)
    | .ok key => mockSetKeys c t (m.SetKey (c.heap.obj o).num key)

/-- keyczart.py:264-268 `UpdateGenericKeyczar` -/
def mockUpdate (env : Env) (c : Czar) : MockCmd := fun m =>
  mockSetKeys c (env.order c.versions) { m with heap := c.heap, kmd := c.metadata }

/-- keyczart.py:249-250, then the command proper, then `UpdateGenericKeyczar`; `bad` is the check for a missing version -/
def mockManage (env : Env) (bad : Bool) (op : Czar → Py Unit × Czar) : MockCmd := fun m =>
  match Czar.init P .generic (MockReader m) with
  | .error e => (.error e, m)
  | .ok c =>
    if bad then (.error .keyczarError, m)
    else match (op c).1 with
      | .error e => (.error e, m)
      | .ok _ => mockUpdate env (op c).2 m

/-- keyczart.py:121-126 `AddKey`: the crypter is handed on to functions that do not use it -/
def mockAddKey (env : Env) (status : KeyStatus) (_crypter : Option Czar) (size : Int) : MockCmd :=
  mockManage P env false fun c => c.AddVersion P env.gen env.fuel status (if size = -1 then none else some size)

/-- keyczart.py:134-139 -/
def mockPromote (env : Env) (n : Int) : MockCmd := mockManage P env (decide (n < 0)) fun c => c.Promote n

/-- keyczart.py:141-146 -/
def mockDemote (env : Env) (n : Int) : MockCmd := mockManage P env (decide (n < 0)) fun c => c.Demote n

/-- keyczart.py:148-155 `Revoke` -/
def mockRevoke (env : Env) (n : Int) : MockCmd := fun m =>
  match mockManage P env (decide (n < 0)) (fun c => c.Revoke n) m with
  | (.error e, m') => (.error e, m')
  | (.ok _, m') => m'.RemoveKey n

/-- the loop of keyczar.py:267-271 -/
def mockExport (c : Czar) : List Nat → KeyMetadata → Mock → Py KeyMetadata × Mock
  | [], pubkmd, m => (.ok pubkmd, m)
  | o :: t, pubkmd, m =>
    match (do (← c.GetKeyByVersion (some o)).publicKey : Py Key) with
    | .error e => (.error e, m)
    | .ok pub => mockExport c t (pubkmd.AddVersion c.heap o) (m.SetPubKey (c.heap.obj o).num pub)

/-- keyczart.py:128-132 `PubKey` and keyczar.py:253-274 `PublicKeyExport`; the destination is not used -/
def mockPubKey (env : Env) : MockCmd := fun m =>
  match Czar.init P .generic (MockReader m) with
  | .error e => (.error e, m)
  | .ok c =>
    match publicMetadata c.metadata with
    | .error e => (.error e, m)
    | .ok pubkmd =>
      match mockExport c (env.order c.versions) pubkmd m with
      | (.error e, m') => (.error e, m')
      | (.ok kmd, m') => (.ok (), { m' with pubkmd := some (c.heap, kmd) })

end Verif
