import Verif.Model.Prims
import Verif.Model.Base64
/-
util.py: integer/byte conversions, packing, hashing, MGF1, EMSA.
-/
namespace Verif

/-! ### Integers and bytes -/

/-- util.py:275-282 `BigIntToBytes` (the loop appends least significant bytes, then reverses). -/
def BigIntToBytes (n : Nat) : Bytes :=
  if _h : n = 0 then [] else BigIntToBytes (n / 256) ++ [UInt8.ofNat (n % 256)]
decreasing_by omega

/-- util.py:284-287 `IntToBytes`; `>>` is division by a power of two. -/
def IntToBytes (n : Nat) : Bytes :=
  [n / 2 ^ 24, n / 2 ^ 16, n / 2 ^ 8, n].map fun m => UInt8.ofNat (m % 256)

/-- util.py:289-291 `BytesToLong`: `sum([ord(b[i]) * 256**(l-1-i) for i in range(l)])`. -/
def BytesToLong (b : Bytes) : Nat :=
  ((List.range b.length).map fun i => (b.getD i 0).toNat * 256 ^ (b.length - 1 - i)).sum

/-- util.py:306-308 `PadBytes`; Python's `n * '\x00'` is empty for `n <= 0`. -/
def PadBytes (b : Bytes) (n : Int) : Bytes := List.replicate n.toNat 0 ++ b

/-- util.py:310-316 `TrimBytes` -/
def TrimBytes (b : Bytes) : Bytes :=
  let trimmed := b.dropWhile (· = 0)
  if trimmed = [] then [0] else trimmed

/-- util.py:293-304 `Xor` -/
def Xor (a b : Bytes) : Bytes :=
  let m := max a.length b.length
  let a' := if m > a.length then PadBytes a (m - a.length : Nat) else a
  let b' := if m > a.length then b else if m > b.length then PadBytes b (m - b.length : Nat) else b
  (List.range m).map fun i => a'.getD i 0 ^^^ b'.getD i 0

/-! ### Bit strings -/

def c0 : UInt8 := 48
def c1 : UInt8 := 49

/-- util.py:267-273 `IntToBin` -/
def IntToBin (n : Nat) : Bytes :=
  if n = 0 then [c0] else if n = 1 then [c1]
  else if n % 2 = 0 then IntToBin (n / 2) ++ [c0] else IntToBin (n / 2) ++ [c1]

/-- util.py:262-265 `_PadByte` -/
def PadByte (bits : Bytes) : Bytes :=
  let r := bits.length % 8
  List.replicate ((8 - r) % 8) c0 ++ bits

/-- util.py:258-260 `BytesToBin` -/
def BytesToBin (s : Bytes) : Bytes := (s.map fun b => PadByte (IntToBin b.toNat)).flatten

/-- `int(x, 2)` for a string of 0/1 characters; anything else is treated as `ValueError`
(Python also accepts surrounding blanks and a 0b prefix; those inputs are outside the model). -/
def intBase2 (x : Bytes) : Py Nat :=
  if x = [] then .error .valueError
  else x.foldlM (fun n c => if c = c0 then .ok (2 * n) else if c = c1 then .ok (2 * n + 1)
    else .error .valueError) 0

/-- util.py:252-256 `BinToBytes` -/
def BinToBytes (bits : Bytes) : Py Bytes := do
  let bits := PadByte bits
  let octets := (List.range (bits.length / 8)).map fun i => slice bits (8 * i : Nat) (8 * (i + 1) : Nat)
  octets.mapM fun x => do
    let v ← intBase2 x
    return UInt8.ofNat v

/-! ### Length-prefixed packing -/

/-- `struct.pack(">i", n)` for a non-negative `n` -/
def structPackI (n : Nat) : Py Bytes :=
  if n < 2 ^ 31 then .ok (IntToBytes n) else .error .structError

/-- `struct.unpack(">i", d)[0]`; `struct.error` unless exactly four bytes. -/
def structUnpackI (d : Bytes) : Py Int :=
  match d with
  | [a, b, c, e] =>
    let u : Nat := ((a.toNat * 256 + b.toNat) * 256 + c.toNat) * 256 + e.toNat
    .ok (if u < 2 ^ 31 then (u : Int) else (u : Int) - 2 ^ 32)
  | _ => .error .structError

/-- util.py:400-408 `PackByteArray` (`none` is Python's `None`). -/
def PackByteArray (array : Option Bytes) : Py Bytes :=
  match array with
  | none => .ok []
  | some a => do
    let hdr ← structPackI a.length
    return hdr ++ a

/-- util.py:410-419 `PackMultipleByteArrays` -/
def PackMultipleByteArrays (arrays : List Bytes) : Py Bytes := do
  let hdr ← structPackI arrays.length
  let contents ← arrays.mapM fun a => PackByteArray (some a)
  return hdr ++ contents.flatten

/-- util.py:421-429 `UnpackByteArray`; returns the array and the new offset. -/
def UnpackByteArray (data : Bytes) (offset : Int) : Py (Bytes × Int) := do
  let arrayLen ← structUnpackI (slice data offset (offset + 4))
  let offset := offset + 4
  return (slice data offset (offset + arrayLen), offset + arrayLen)

/-- The `while` loop of util.py:440-442; `diverged` when the fuel runs out. -/
def unpackLoop : (fuel : Nat) → Bytes → Int → List Bytes → Py (List Bytes × Int)
  | 0, _, _, _ => .error .diverged
  | fuel + 1, data, position, result =>
    if position < data.length then do
      let (array, position) ← UnpackByteArray data position
      unpackLoop fuel data position (result ++ [array])
    else .ok (result, position)

/-- util.py:431-444 `UnpackMultipleByteArrays` -/
def UnpackMultipleByteArrays (fuel : Nat) (data : Bytes) : Py (List Bytes) := do
  let (result, position) ← unpackLoop fuel data 4 []
  if position = data.length then return result else .error .assertionError

/-! ### Hashing -/
variable (P : Prims)

/-- util.py:323-328 `Hash` (successive `update`s hash the concatenation). -/
def Hash (inputs : List Bytes) : Bytes := P.sha1 inputs.flatten

/-- util.py:330-336 `PrefixHash` -/
def PrefixHash (inputs : List Bytes) : Bytes :=
  P.sha1 (inputs.map fun i => IntToBytes i.length ++ i).flatten

/-- util.py:482-502 `MGF`.  `math.ceil(mlen / float(HLEN))` is exact for all lengths that pass the
first test (they are below 2^37), so it is `(mlen + 19) / 20`. -/
def MGF (seed : Bytes) (mlen : Nat) : Py Bytes :=
  if mlen > 2 ^ 32 * HLEN then .error .keyczarError
  else
    let output := ((List.range ((mlen + (HLEN - 1)) / HLEN)).map
      fun i => Hash P [seed, IntToBytes i]).flatten
    .ok (output.take mlen)

/-- util.py:246-247 -/
def magicSha1Header : Bytes :=
  [0x30, 0x21, 0x30, 0x9, 0x6, 0x5, 0x2b, 0xe, 0x3, 0x2, 0x1a, 0x5, 0x0, 0x4, 0x14]

/-- util.py:244-250 `MakeEmsaMessage` -/
def MakeEmsaMessage (msg : Bytes) (modulusSize : Nat) : Bytes :=
  let encoded := magicSha1Header ++ Hash P [msg]
  let padString := List.replicate ((modulusSize / 8 : Nat) - (encoded.length : Int) - 3).toNat 0xFF
  [1] ++ padString ++ [0] ++ encoded

end Verif
