import Verif.Model.Keyczart
/-
cpp/src/keyczar/keyczar_tool/convert_keyset.py: the script that rewrites key sets of old versions of the C++
implementation.

Simplifications: as in Model/Json a dict is walked in the order of its text, and the strings in the fields rewritten are
plain (`Json.toBytes`); a key file that parses to something other than an object is outside the model; the exceptions of
the file system are one (`osError`).
-/
namespace Verif.Convert
open Verif

/-- convert_keyset.py:23-39 `FIELDS` -/
def FIELDS : List String :=
  ["crtCoefficient", "primeExponentP", "primeExponentQ", "primeP", "primeQ", "privateExponent", "modulus",
   "publicExponent", "g", "p", "q", "y", "x"]

/-- convert_keyset.py:57-67 `b64_decode`: only spaces are removed, and the exceptions are not translated -/
def b64Decode (s : Bytes) : Py Bytes :=
  let s := s.filter (· ≠ 32)
  let d := s.length % 4
  if d = 1 then .error .valueError
  else urlsafeB64decode (if d = 2 then s ++ [PAD, PAD] else if d = 3 then s ++ [PAD] else s)

/-- convert_keyset.py:69-71 `b64_encode` -/
def b64Encode (s : Bytes) : Bytes := (urlsafeB64encode s).filter (· ≠ PAD)

/-- convert_keyset.py:79 `b64_encode('\x00' + b64_decode(d[field]))` -/
def rewriteField (v : Json) : Py Json := do
  let b ← b64Decode (← v.toBytes)
  return Json.ofBytes (b64Encode (0 :: b))

/-- convert_keyset.py:77-79: fields that are not in the list are left -/
def rewriteListed (k : List Char) (v : Json) : Py Json :=
  if k ∈ FIELDS.map String.toList then rewriteField v else .ok v

mutual
/-- convert_keyset.py:75-76: a value that is a dict is rewritten, others are left -/
def rewriteValue : Json → Py Json
  | .obj l => do return .obj (← rewriteInplaceRec l)
  | .null => .ok .null
  | .bool b => .ok (.bool b)
  | .num n => .ok (.num n)
  | .str s => .ok (.str s)
  | .arr l => .ok (.arr l)
/-- convert_keyset.py:73-79 `rewrite_inplace_rec` -/
def rewriteInplaceRec : List (List Char × Json) → Py (List (List Char × Json))
  | [] => .ok []
  | (k, v) :: t => do
    let v ← rewriteValue v
    let v ← rewriteListed k v
    return (k, v) :: (← rewriteInplaceRec t)
end

/-- convert_keyset.py:82-85: the new text of a key file -/
def newText (text : Bytes) : Py Bytes := do
  match ← loads text with
  | .obj l => return dumps (.obj (← rewriteInplaceRec l))
  | _ => .error .unmodelled

/-- convert_keyset.py:41-48 `read_file(os.path.join(l, f))` -/
def readFile (l : Loc) (f : FileName) : Cmd Bytes := Cmd.look fun fs =>
  match (fs l).bind (· f) with
  | some b => .ok b
  | none => .error .osError

/-- convert_keyset.py:50-55 `write_file(os.path.join(l, f), data)` -/
def writeFile (l : Loc) (f : FileName) (data : Bytes) : Cmd Unit := fun fs =>
  if (fs l).isSome then (.ok (), [.write l f data]) else (.error .osError, [])

/-- convert_keyset.py:81-86 `rewrite_key` -/
def rewriteKey (src dst : Loc) (n : Int) : Cmd Unit :=
  (readFile src (.key n)).andThen fun text =>
  (Cmd.lift (newText text)).andThen fun new =>
  writeFile dst (.key n) new

/-- `version["versionNumber"]`; as in Model/Keyczar, numbers only -/
def versionNumber (v : Json) : Py Int := do
  match ← v.get "versionNumber" with
  | .num n => return n
  | _ => .error .unmodelled

/-- the loop of convert_keyset.py:92-93 -/
def rewriteKeys (src dst : Loc) : List Json → Cmd Unit
  | [] => Cmd.ret ()
  | v :: t =>
    (Cmd.lift (versionNumber v)).andThen fun n =>
    (rewriteKey src dst n).andThen fun _ =>
    rewriteKeys src dst t

/-- convert_keyset.py:90-91 `json.loads(json_string)["versions"]` and its iteration -/
def metaItems (text : Bytes) : Py (List Json) := do jsonItems (← (← loads text).get "versions")

/-- convert_keyset.py:88-94 `iterate_meta` -/
def iterateMeta (src dst : Loc) : Cmd Unit :=
  (readFile src .metaFile).andThen fun text =>
  (Cmd.lift (metaItems text)).andThen fun items =>
  (rewriteKeys src dst items).andThen fun _ =>
  writeFile dst .metaFile text

/-- convert_keyset.py:96-101 `doit`: a message and a normal return when one of the two is not a directory -/
def doit (src dst : Loc) : Cmd Unit := fun fs =>
  if (fs src).isSome ∧ (fs dst).isSome then iterateMeta src dst fs else (.ok (), [])

/-- `l[i]` for a number that is not negative -/
def pyIndex {α : Type} (l : List α) (i : Nat) : Py α :=
  match l[i]? with
  | some a => .ok a
  | none => .error .indexError

/-- convert_keyset.py:103-106, the main program with `sys.argv[1:]`: a wrong number of arguments prints the usage and goes
on; `sys.argv[1]` and `sys.argv[2]` raise `IndexError` when missing -/
def convertMain (args : List Loc) : Cmd Unit :=
  (Cmd.lift (pyIndex args 0)).andThen fun src =>
  (Cmd.lift (pyIndex args 1)).andThen fun dst =>
  doit src dst

end Verif.Convert
