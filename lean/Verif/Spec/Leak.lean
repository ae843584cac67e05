import Verif.Model.Py
/-
Independent specification for C90: the blocks of a ciphertext and of a padded message.
-/
namespace Verif.Spec
open Verif

/-- PKCS#5: the message with as many bytes appended as are missing to a whole number of blocks, each saying how many -/
def padded (m : Bytes) : Bytes := m ++ List.replicate (16 - m.length % 16) (UInt8.ofNat (16 - m.length % 16))

/-- block number `i`, from 0, of the padded message -/
def plainBlock (m : Bytes) (i : Nat) : Bytes := ((padded m).drop (16 * i)).take 16

/-- how many there are -/
def blockCount (m : Bytes) : Nat := m.length / 16 + 1

/-- block number `i`, from 0, after the five bytes of the header of a ciphertext; number 0 is the initialization vector -/
def cipherBlock (data : Bytes) (i : Nat) : Bytes := (data.drop (5 + 16 * i)).take 16

/-- exclusive or of two blocks -/
def xorBlock (a b : Bytes) : Bytes := List.zipWith (· ^^^ ·) a b

end Verif.Spec
