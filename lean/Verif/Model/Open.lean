import Verif.Model.Backends
/-
Opening a key set by its location: the static methods `Read` of the eight classes of keyczar.py, and `str()` of a
Keyczar object.
-/
namespace Verif

/-- readers.py:98-106 `FileReader(location)`: nothing is checked until a file is read; files of a directory that does not
exist cannot be opened (util.py:477-480) -/
def FileReader.at (l : Loc) (fs : FS) : Reader :=
  match fs l with
  | some d => FileReader d
  | none => { GetMetadata := .error .keyczarError, GetKey := fun _ => .error .keyczarError, isEncryptedReader := false }

variable (P : Prims) {ω : Type} (disk : PluginDisk ω)

/-- keyczar.py:95-106, 136-139, 302-314, 372-384, 493-505, 569-581: `Read` of `Keyczar`, `GenericKeyczar`, `Encrypter`,
`Verifier`, `Crypter` and `Signer` goes through `CreateReader`; keyczar.py:443-456, 635-648: `Read` of
`UnversionedVerifier` and `UnversionedSigner` makes a `FileReader` -/
def CzarClass.Read (cls : CzarClass) (home : Bytes) (env : Option Bytes) (l : Loc) (fs : FS) (s : Interp ω) :
    Py Czar × Interp ω :=
  match cls with
  | .unversionedVerifier | .unversionedSigner => (Czar.init P cls (FileReader.at l fs), s)
  | _ =>
    match CreateReaderAny disk home env l fs s with
    | (.error e, s) => (.error e, s)
    | (.ok r, s) => (Czar.init P cls r, s)

/-- keyczar.py:74-75 `Keyczar.__str__` -/
def Czar.str (c : Czar) : Py Bytes := c.metadata.str c.heap

end Verif
