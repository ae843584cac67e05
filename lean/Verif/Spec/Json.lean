import Verif.Model.Json
import Mathlib.Data.Nat.Digits.Defs
/-
Which texts are JSON documents and what they say: the grammar of RFC 8259, for documents in UTF-8 whose numbers are
integers.  Written without reference to the parser.  `ValText b j`: the text `b`, without white space around it, says
`j`.
-/
namespace Verif.Spec
open Verif

/-- white space: blanks, tabs, line feeds and returns -/
def Blank (w : Bytes) : Prop := ∀ c ∈ w, c = 32 ∨ c = 9 ∨ c = 10 ∨ c = 13

/-- the hexadecimal digit `c`, in either case, stands for `n` -/
def HexDigit (c : UInt8) (n : Nat) : Prop :=
  (bstr "0123456789abcdef")[n]? = some c ∨ (bstr "0123456789ABCDEF")[n]? = some c

/-- four hexadecimal digits -/
def Hex4 (h : Bytes) (n : Nat) : Prop :=
  ∃ a b c d i j k l, h = [a, b, c, d] ∧ HexDigit a i ∧ HexDigit b j ∧ HexDigit c k ∧ HexDigit d l ∧
    n = i * 16 ^ 3 + j * 16 ^ 2 + k * 16 + l

/-- the characters that may follow a backslash, with their meaning (`\u` is treated below) -/
def shortEscapes : List (UInt8 × Char) :=
  [(34, '"'), (92, '\\'), (47, '/'), (98, Char.ofNat 8), (102, Char.ofNat 12), (110, '\n'), (114, '\r'), (116, '\t')]

/-- RFC 3629: the bytes of a character -/
def utf8 (c : Char) : Bytes :=
  let n := c.toNat
  if n < 0x80 then [UInt8.ofNat n]
  else if n < 0x800 then [UInt8.ofNat (0xc0 + n / 2 ^ 6), UInt8.ofNat (0x80 + n % 2 ^ 6)]
  else if n < 0x10000 then
    [UInt8.ofNat (0xe0 + n / 2 ^ 12), UInt8.ofNat (0x80 + n / 2 ^ 6 % 2 ^ 6), UInt8.ofNat (0x80 + n % 2 ^ 6)]
  else [UInt8.ofNat (0xf0 + n / 2 ^ 18), UInt8.ofNat (0x80 + n / 2 ^ 12 % 2 ^ 6), UInt8.ofNat (0x80 + n / 2 ^ 6 % 2 ^ 6),
    UInt8.ofNat (0x80 + n % 2 ^ 6)]

/-- what stands between the quotes of a string -/
inductive StrText : Bytes → List Char → Prop
  | nil : StrText [] []
  | plain {c t s} : ' ' ≤ c → c ≠ '"' → c ≠ '\\' → StrText t s → StrText (utf8 c ++ t) (c :: s)
  | short {e ch t s} : (e, ch) ∈ shortEscapes → StrText t s → StrText (92 :: e :: t) (ch :: s)
  | unicode {h n t s} : Hex4 h n → n < 0xd800 ∨ 0xdfff < n → StrText t s →
      StrText (92 :: 117 :: (h ++ t)) (Char.ofNat n :: s)
  | pair {h l n m t s} : Hex4 h n → Hex4 l m → 0xd800 ≤ n → n ≤ 0xdbff → 0xdc00 ≤ m → m ≤ 0xdfff → StrText t s →
      StrText (92 :: 117 :: (h ++ 92 :: 117 :: (l ++ t)))
        (Char.ofNat (0x10000 + (n - 0xd800) * 0x400 + (m - 0xdc00)) :: s)

/-- a natural number in decimal, without leading zeros -/
def jsonDecimal (n : Nat) : Bytes :=
  if n = 0 then [48] else (Nat.digits 10 n).reverse.map fun d => UInt8.ofNat (48 + d)

/-- an integer; `-0` is allowed -/
def NumText (b : Bytes) (n : Int) : Prop := ∃ m : Nat, b = jsonDecimal m ∧ n = m ∨ b = 45 :: jsonDecimal m ∧ n = -m

/-- the dictionary that a list of members says: each name once, where it occurred first, with the value given last -/
def dictOf : List (List Char × Json) → List (List Char × Json)
  | [] => []
  | (k, v) :: t => (k, ((dictOf t).lookup k).getD v) :: (dictOf t).filter fun p => p.1 ≠ k

mutual
/-- a value -/
inductive ValText : Bytes → Json → Prop
  | null : ValText (bstr "null") .null
  | true : ValText (bstr "true") (.bool .true)
  | false : ValText (bstr "false") (.bool .false)
  | num {b n} : NumText b n → ValText b (.num n)
  | str {b s} : StrText b s → ValText (34 :: (b ++ [34])) (.str s)
  | emptyArr {w} : Blank w → ValText (91 :: (w ++ [93])) (.arr [])
  | arr {b l} : ElemsText b l → ValText (91 :: (b ++ [93])) (.arr l)
  | emptyObj {w} : Blank w → ValText (123 :: (w ++ [125])) (.obj [])
  | obj {b ms} : MembersText b ms → ValText (123 :: (b ++ [125])) (.obj (dictOf ms))
/-- values with commas between them, and white space around each -/
inductive ElemsText : Bytes → List Json → Prop
  | one {w b w' v} : Blank w → ValText b v → Blank w' → ElemsText (w ++ (b ++ w')) [v]
  | more {w b w' v t l} : Blank w → ValText b v → Blank w' → ElemsText t l →
      ElemsText (w ++ (b ++ (w' ++ 44 :: t))) (v :: l)
/-- members of an object: `"name" : value` -/
inductive MembersText : Bytes → List (List Char × Json) → Prop
  | one {w k s w' x b y v} : Blank w → StrText k s → Blank w' → Blank x → ValText b v → Blank y →
      MembersText (w ++ 34 :: (k ++ 34 :: (w' ++ 58 :: (x ++ (b ++ y))))) [(s, v)]
  | more {w k s w' x b y v t ms} : Blank w → StrText k s → Blank w' → Blank x → ValText b v → Blank y →
      MembersText t ms → MembersText (w ++ 34 :: (k ++ 34 :: (w' ++ 58 :: (x ++ (b ++ (y ++ 44 :: t)))))) ((s, v) :: ms)
end

/-- the text is a JSON document that says `j` -/
def Says (text : Bytes) (j : Json) : Prop := ∃ w b w', text = w ++ (b ++ w') ∧ Blank w ∧ ValText b j ∧ Blank w'

/-- the characters written with a backslash and one letter -/
def writtenEscapes : List (Char × UInt8) :=
  [('"', 34), ('\\', 92), ('\n', 110), ('\r', 114), ('\t', 116), (Char.ofNat 12, 102), (Char.ofNat 8, 98)]

/-- the code units of a character in UTF-16 -/
def utf16 (c : Char) : List Nat :=
  if c.toNat < 0x10000 then [c.toNat]
  else [0xd800 + (c.toNat - 0x10000) / 0x400, 0xdc00 + (c.toNat - 0x10000) % 0x400]

/-- a code unit as `\u` and four hexadecimal digits, in lower case -/
def unitText (u : Nat) : Bytes :=
  bstr "\\u" ++ [u / 16 ^ 3, u / 16 ^ 2, u / 16, u].map fun d => (bstr "0123456789abcdef").getD (d % 16) 0

/-- a character as it is written -/
def charText (c : Char) : Bytes :=
  match writtenEscapes.lookup c with
  | some e => [92, e]
  | none => if ' ' ≤ c ∧ c ≤ '~' then [UInt8.ofNat c.toNat] else (utf16 c).flatMap unitText

/-- a string as it is written -/
def strText (s : List Char) : Bytes := bstr "\"" ++ s.flatMap charText ++ bstr "\""

/-- the one text in which a value is written: a blank after each comma and colon and nowhere else -/
inductive Written : Bytes → Json → Prop
  | null : Written (bstr "null") .null
  | true : Written (bstr "true") (.bool .true)
  | false : Written (bstr "false") (.bool .false)
  | nat {n : Nat} : Written (jsonDecimal n) (.num n)
  | neg {n : Nat} : 0 < n → Written (bstr "-" ++ jsonDecimal n) (.num (-n))
  | str {s} : Written (strText s) (.str s)
  | arr {bs l} : List.Forall₂ Written bs l → Written (bstr "[" ++ (bstr ", ").intercalate bs ++ bstr "]") (.arr l)
  | obj {bs : List Bytes} {l : List (List Char × Json)} : List.Forall₂ Written bs (l.map Prod.snd) →
      Written (bstr "{" ++ (bstr ", ").intercalate (List.zipWith (fun k b => strText k ++ bstr ": " ++ b) (l.map Prod.fst) bs) ++
        bstr "}") (.obj l)

/-- the text has something the model leaves out: the UTF-8 form of a surrogate, a number with a fraction or an exponent, one of the
names NaN and Infinity, or the escape of a surrogate -/
def BeyondModel (text : Bytes) : Prop :=
  (∃ c, 160 ≤ c.toNat ∧ [0xed, c] <:+: text) ∨
  (∃ d e, 48 ≤ d.toNat ∧ d.toNat ≤ 57 ∧ (e = 46 ∨ e = 101 ∨ e = 69) ∧ [d, e] <:+: text) ∨
  bstr "NaN" <:+: text ∨ bstr "Infinity" <:+: text ∨
  ∃ h, (h = 100 ∨ h = 68) ∧ [92, 117, h] <:+: text

end Verif.Spec
