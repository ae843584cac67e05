import Verif.Model.Py
/-
The `json` module as used by the code: `json.dumps(obj)` with default arguments and
`json.loads(text)`, on byte strings in UTF-8.
-/
namespace Verif

/-- JSON values as Python objects: None, bool, int, unicode, list, dict (insertion order).
Floats are outside the model (`unmodelled`). -/
inductive Json where
  | null
  | bool (b : Bool)
  | num (n : Int)
  | str (s : List Char)
  | arr (l : List Json)
  | obj (l : List (List Char × Json))
deriving Repr

/-- dict assignment `d[k] = v` -/
def dictSet {β} (l : List (List Char × β)) (k : List Char) (v : β) : List (List Char × β) :=
  match l with
  | [] => [(k, v)]
  | (k', v') :: t => if k' = k then (k, v) :: t else (k', v') :: dictSet t k v

/-- dict lookup -/
def dictGet {β} (l : List (List Char × β)) (k : List Char) : Option β :=
  match l with
  | [] => none
  | (k', v') :: t => if k' = k then some v' else dictGet t k

/-! ### dumps -/

/-- lower-case hexadecimal digit -/
def hexDigit (n : Nat) : UInt8 := if n < 10 then UInt8.ofNat (48 + n) else UInt8.ofNat (87 + n)

/-- `'\\u{0:04x}'.format(n)` -/
def uEscape (n : Nat) : Bytes :=
  [92, 117, hexDigit (n / 4096 % 16), hexDigit (n / 256 % 16), hexDigit (n / 16 % 16), hexDigit (n % 16)]

/-- json.encoder `py_encode_basestring_ascii`, one character. -/
def escapeChar (c : Char) : Bytes :=
  let n := c.toNat
  if n = 34 then [92, 34]
  else if n = 92 then [92, 92]
  else if n = 10 then [92, 110]
  else if n = 13 then [92, 114]
  else if n = 9 then [92, 116]
  else if n = 12 then [92, 102]
  else if n = 8 then [92, 98]
  else if 32 ≤ n ∧ n ≤ 126 then [UInt8.ofNat n]
  else if n < 0x10000 then uEscape n
  else
    let m := n - 0x10000
    uEscape (0xd800 + m / 1024) ++ uEscape (0xdc00 + m % 1024)

def dumpStr (s : List Char) : Bytes := 34 :: ((s.map escapeChar).flatten ++ [34])

/-- decimal digits of a natural number, `str(n)` -/
def decDigits (n : Nat) : Bytes :=
  if _h : n < 10 then [UInt8.ofNat (48 + n)] else decDigits (n / 10) ++ [UInt8.ofNat (48 + n % 10)]

/-- `str(n)` for an int -/
def dumpInt (n : Int) : Bytes :=
  if n < 0 then 45 :: decDigits (-n).toNat else decDigits n.toNat

mutual
/-- `json.dumps` with the default separators `", "` and `": "`. -/
def dumps : Json → Bytes
  | .null => bstr "null"
  | .bool true => bstr "true"
  | .bool false => bstr "false"
  | .num n => dumpInt n
  | .str s => dumpStr s
  | .arr l => 91 :: (dumpElems l ++ [93])
  | .obj l => 123 :: (dumpMembers l ++ [125])
def dumpElems : List Json → Bytes
  | [] => []
  | [v] => dumps v
  | v :: w :: t => dumps v ++ (44 :: 32 :: dumpElems (w :: t))
def dumpMembers : List (List Char × Json) → Bytes
  | [] => []
  | [(k, v)] => dumpStr k ++ (58 :: 32 :: dumps v)
  | (k, v) :: w :: t => dumpStr k ++ (58 :: 32 :: dumps v) ++ (44 :: 32 :: dumpMembers (w :: t))
end

/-! ### loads -/

def isJsonWs (c : UInt8) : Bool := c = 32 || c = 9 || c = 10 || c = 13
def skipWs (s : Bytes) : Bytes := s.dropWhile isJsonWs

def hexVal (c : UInt8) : Option Nat :=
  let n := c.toNat
  if 48 ≤ n ∧ n ≤ 57 then some (n - 48)
  else if 97 ≤ n ∧ n ≤ 102 then some (n - 87)
  else if 65 ≤ n ∧ n ≤ 70 then some (n - 55)
  else none

def hex4 (a b c d : UInt8) : Option Nat := do
  let a ← hexVal a
  let b ← hexVal b
  let c ← hexVal c
  let d ← hexVal d
  return ((a * 16 + b) * 16 + c) * 16 + d

/-- a continuation byte of UTF-8 -/
def isCont (c : UInt8) : Bool := 128 ≤ c.toNat && c.toNat < 192

/-- the character that two bytes stand for in UTF-8 (CPython 2.7 `PyUnicode_DecodeUTF8`) -/
def utf8Two (c d : UInt8) : Option Char :=
  if 0xc2 ≤ c.toNat ∧ c.toNat ≤ 0xdf ∧ isCont d then some (Char.ofNat ((c.toNat - 0xc0) * 64 + (d.toNat - 128)))
  else none

/-- The character that three bytes stand for in UTF-8; longer forms than necessary are refused.  Python 2 takes the forms of
surrogates for characters: outside the model. -/
def utf8Three (c d e : UInt8) : Py Char :=
  let n := ((c.toNat - 0xe0) * 64 + (d.toNat - 128)) * 64 + (e.toNat - 128)
  if ¬ (0xe0 ≤ c.toNat ∧ c.toNat ≤ 0xef ∧ isCont d ∧ isCont e) ∨ n < 0x800 then .error .valueError
  else if 0xd800 ≤ n ∧ n ≤ 0xdfff then .error .unmodelled
  else .ok (Char.ofNat n)

/-- the character that four bytes stand for in UTF-8, up to 0x10ffff -/
def utf8Four (c d e f : UInt8) : Option Char :=
  let n := (((c.toNat - 0xf0) * 64 + (d.toNat - 128)) * 64 + (e.toNat - 128)) * 64 + (f.toNat - 128)
  if 0xf0 ≤ c.toNat ∧ isCont d ∧ isCont e ∧ isCont f ∧ 0x10000 ≤ n ∧ n < 0x110000 then some (Char.ofNat n)
  else none

/-- Body of a string literal after the opening quote (json.decoder `py_scanstring`, strict).
Returns the characters and the text after the closing quote.  What is not in UTF-8 raises
UnicodeDecodeError, a ValueError.  Lone surrogates are outside the model. -/
def scanStr : Bytes → List Char → Py (List Char × Bytes)
  | [], _ => .error .valueError
  | 34 :: t, acc => .ok (acc.reverse, t)
  | 92 :: 117 :: a :: b :: c :: d :: t, acc =>
    match hex4 a b c d with
    | none => .error .valueError
    | some n =>
      if 0xd800 ≤ n ∧ n ≤ 0xdbff then
        match t with
        | 92 :: 117 :: a' :: b' :: c' :: d' :: t' =>
          match hex4 a' b' c' d' with
          | none => .error .valueError
          | some m =>
            if 0xdc00 ≤ m ∧ m ≤ 0xdfff then
              scanStr t' (Char.ofNat (0x10000 + (n - 0xd800) * 1024 + (m - 0xdc00)) :: acc)
            else .error .unmodelled
        | _ => .error .unmodelled
      else if 0xdc00 ≤ n ∧ n ≤ 0xdfff then .error .unmodelled
      else scanStr t (Char.ofNat n :: acc)
  | 92 :: e :: t, acc =>
    if e = 34 then scanStr t ('"' :: acc)
    else if e = 92 then scanStr t ('\\' :: acc)
    else if e = 47 then scanStr t ('/' :: acc)
    else if e = 98 then scanStr t (Char.ofNat 8 :: acc)
    else if e = 102 then scanStr t (Char.ofNat 12 :: acc)
    else if e = 110 then scanStr t (Char.ofNat 10 :: acc)
    else if e = 114 then scanStr t (Char.ofNat 13 :: acc)
    else if e = 116 then scanStr t (Char.ofNat 9 :: acc)
    else .error .valueError
  | c :: t, acc =>
    if c.toNat < 32 then .error .valueError
    else if c.toNat ≥ 128 then
      match t with
      | [] => .error .valueError
      | d :: t2 =>
        if c.toNat < 0xe0 then
          match utf8Two c d with
          | none => .error .valueError
          | some ch => scanStr t2 (ch :: acc)
        else
          match t2 with
          | [] => .error .valueError
          | e :: t3 =>
            if c.toNat < 0xf0 then
              match utf8Three c d e with
              | .error x => .error x
              | .ok ch => scanStr t3 (ch :: acc)
            else
              match t3 with
              | [] => .error .valueError
              | f :: t4 =>
                match utf8Four c d e f with
                | none => .error .valueError
                | some ch => scanStr t4 (ch :: acc)
    else if c = 92 then .error .valueError
    else scanStr t (Char.ofNat c.toNat :: acc)

/-- `str.decode('utf-8')`, which `json.dumps` applies to a byte string that is not ASCII
(json.encoder `py_encode_basestring_ascii`); UnicodeDecodeError is a ValueError -/
def decodeUtf8 : Bytes → Py (List Char)
  | [] => .ok []
  | c :: t =>
    if c.toNat < 128 then (Char.ofNat c.toNat :: ·) <$> decodeUtf8 t
    else
      match t with
      | [] => .error .valueError
      | d :: t2 =>
        if c.toNat < 0xe0 then
          match utf8Two c d with
          | none => .error .valueError
          | some ch => (ch :: ·) <$> decodeUtf8 t2
        else
          match t2 with
          | [] => .error .valueError
          | e :: t3 =>
            if c.toNat < 0xf0 then
              match utf8Three c d e with
              | .error x => .error x
              | .ok ch => (ch :: ·) <$> decodeUtf8 t3
            else
              match t3 with
              | [] => .error .valueError
              | f :: t4 =>
                match utf8Four c d e f with
                | none => .error .valueError
                | some ch => (ch :: ·) <$> decodeUtf8 t4

def isDigit (c : UInt8) : Bool := 48 ≤ c.toNat && c.toNat ≤ 57

/-- value of a run of decimal digits -/
def digitsVal (s : Bytes) : Nat := s.foldl (fun a c => a * 10 + (c.toNat - 48)) 0

/-- The integer part of a JSON number: `0` or a digit string without leading zero. -/
def scanNat (s : Bytes) : Py (Nat × Bytes) :=
  match s with
  | [] => .error .valueError
  | c :: t =>
    if c = 48 then .ok (0, t)
    else if isDigit c then .ok (digitsVal (s.takeWhile isDigit), s.dropWhile isDigit)
    else .error .valueError

/-- fractions and exponents make a float: outside the model -/
def numEnd (n : Int) (rest : Bytes) : Py (Json × Bytes) :=
  match rest with
  | c :: _ => if c = 46 ∨ c = 101 ∨ c = 69 then .error .unmodelled else .ok (.num n, rest)
  | [] => .ok (.num n, rest)

def isPrefix (p s : Bytes) : Bool := s.take p.length = p

mutual
/-- json.scanner `py_make_scanner`, with leading white space skipped. -/
def parseVal : (fuel : Nat) → Bytes → Py (Json × Bytes)
  | 0, _ => .error .diverged
  | fuel + 1, s =>
    let s := skipWs s
    match s with
    | [] => .error .valueError
    | c :: t =>
      if c = 34 then do
        let (str, rest) ← scanStr t []
        return (.str str, rest)
      else if c = 123 then
        let t' := skipWs t
        match t' with
        | [] => .error .valueError
        | d :: u => if d = 125 then .ok (.obj [], u) else parseMembers fuel t' []
      else if c = 91 then
        let t' := skipWs t
        match t' with
        | [] => .error .valueError
        | d :: u => if d = 93 then .ok (.arr [], u) else parseElems fuel t' []
      else if isPrefix (bstr "null") s then .ok (.null, s.drop 4)
      else if isPrefix (bstr "true") s then .ok (.bool true, s.drop 4)
      else if isPrefix (bstr "false") s then .ok (.bool false, s.drop 5)
      else if isPrefix (bstr "NaN") s ∨ isPrefix (bstr "Infinity") s ∨ isPrefix (bstr "-Infinity") s then
        .error .unmodelled
      else if c = 45 then do
        let (n, rest) ← scanNat t
        numEnd (-(n : Int)) rest
      else do
        let (n, rest) ← scanNat s
        numEnd n rest
def parseElems : (fuel : Nat) → Bytes → List Json → Py (Json × Bytes)
  | 0, _, _ => .error .diverged
  | fuel + 1, s, acc => do
    let (v, rest) ← parseVal fuel s
    match skipWs rest with
    | [] => .error .valueError
    | c :: t =>
      if c = 44 then parseElems fuel t (acc ++ [v])
      else if c = 93 then .ok (.arr (acc ++ [v]), t)
      else .error .valueError
def parseMembers : (fuel : Nat) → Bytes → List (List Char × Json) → Py (Json × Bytes)
  | 0, _, _ => .error .diverged
  | fuel + 1, s, acc =>
    match skipWs s with
    | [] => .error .valueError
    | c :: t =>
      if c = 34 then do
        let (k, rest) ← scanStr t []
        match skipWs rest with
        | [] => .error .valueError
        | d :: u =>
          if d = 58 then do
            let (v, rest) ← parseVal fuel u
            match skipWs rest with
            | [] => .error .valueError
            | e :: w =>
              if e = 44 then parseMembers fuel w (dictSet acc k v)
              else if e = 125 then .ok (.obj (dictSet acc k v), w)
              else .error .valueError
          else .error .valueError
      else .error .valueError
end

/-- `json.loads(text)`; `ValueError` on malformed text or extra data. -/
def loads (s : Bytes) : Py Json := do
  let (v, rest) ← parseVal (2 * s.length + 1) s
  match skipWs rest with
  | [] => return v
  | _ => .error .valueError

/-! ### Python operations on parsed values -/

/-- `j[k]` with a string key: `KeyError` if missing, `TypeError` on non-dicts. -/
def Json.get (j : Json) (k : String) : Py Json :=
  match j with
  | .obj l => match dictGet l k.toList with
    | some v => .ok v
    | none => .error .keyError
  | _ => .error .typeError

/-- ASCII text literal / byte string as JSON text value -/
def Json.ofBytes (b : Bytes) : Json := .str (b.map fun c => Char.ofNat c.toNat)

/-- Text characters on which a unicode string and the byte string with the same codes behave alike
in `splitlines`, `replace`, `str()` and Base64 decoding: printable ASCII, tab, line feed, return. -/
def plainChar (c : Char) : Bool :=
  (32 ≤ c.toNat && c.toNat < 127) || c.toNat = 9 || c.toNat = 10 || c.toNat = 13

/-- A JSON string used as a byte string.  Strings with other characters and values that are not
strings are outside the model. -/
def Json.toBytes (j : Json) : Py Bytes :=
  match j with
  | .str s => if s.all plainChar then .ok (s.map fun c => UInt8.ofNat c.toNat) else .error .unmodelled
  | _ => .error .unmodelled

end Verif
