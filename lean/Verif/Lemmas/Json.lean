import Verif.Model.Json
import Mathlib.Tactic.IntervalCases
import Mathlib.Tactic.Ring
import Mathlib.Tactic.Linarith
namespace Verif

theorem hexVal_hexDigit : ∀ n, n < 16 → hexVal (hexDigit n) = some n := by decide

theorem hexDigit_ne : ∀ n, n < 16 → hexDigit n ≠ 34 ∧ hexDigit n ≠ 92 := by decide

theorem hex4_uEscape (n : Nat) (h : n < 65536) :
    hex4 (hexDigit (n / 4096 % 16)) (hexDigit (n / 256 % 16)) (hexDigit (n / 16 % 16)) (hexDigit (n % 16))
      = some n := by
  unfold hex4
  rw [hexVal_hexDigit _ (by omega), hexVal_hexDigit _ (by omega), hexVal_hexDigit _ (by omega),
    hexVal_hexDigit _ (by omega)]
  simp only [Option.bind_eq_bind, Option.bind_some, Option.pure_def]
  congr 1
  omega

theorem char_ofNat_toNat (c : Char) : Char.ofNat c.toNat = c := Char.ofNat_toNat c

theorem scanStr_uEscape (n : Nat) (h : n < 65536) (hs : n < 0xd800 ∨ 0xdfff < n) (t : Bytes) (acc : List Char) :
    scanStr (uEscape n ++ t) acc = scanStr t (Char.ofNat n :: acc) := by
  simp only [uEscape, List.cons_append, List.nil_append]
  rw [scanStr]
  rw [hex4_uEscape n h]
  simp only
  rw [if_neg (by omega), if_neg (by omega)]

theorem scanStr_pair (n m : Nat) (h1 : 0xd800 ≤ n) (h2 : n ≤ 0xdbff) (h3 : 0xdc00 ≤ m) (h4 : m ≤ 0xdfff)
    (t : Bytes) (acc : List Char) :
    scanStr (uEscape n ++ (uEscape m ++ t)) acc
      = scanStr t (Char.ofNat (0x10000 + (n - 0xd800) * 1024 + (m - 0xdc00)) :: acc) := by
  simp only [uEscape, List.cons_append, List.nil_append]
  rw [scanStr]
  rw [hex4_uEscape n (by omega)]
  simp only
  rw [if_pos ⟨h1, h2⟩, hex4_uEscape m (by omega)]
  simp only
  rw [if_pos ⟨h3, h4⟩]

theorem scanStr_low (c : UInt8) (t : Bytes) (acc : List Char) (h1 : 32 ≤ c.toNat) (h2 : c.toNat < 128) (h3 : c ≠ 34) (h4 : c ≠ 92) :
    scanStr (c :: t) acc = scanStr t (Char.ofNat c.toNat :: acc) := by
  rw [scanStr.eq_def]
  split
  · cases ‹_ :: _ = []›
  · next h => cases h; exact absurd rfl h3
  · next h => cases h; exact absurd rfl h4
  · next h => cases h; exact absurd rfl h4
  · next h =>
    cases h
    rw [if_neg (by omega), if_neg (by omega), if_neg h4]

theorem scanStr_high (c : UInt8) (t : Bytes) (acc : List Char) (h : 128 ≤ c.toNat) :
    scanStr (c :: t) acc = match t with
      | [] => .error .valueError
      | d :: t2 =>
        if c.toNat < 0xe0 then
          match utf8Two c d with
          | none => .error .valueError
          | some ch => scanStr t2 (ch :: acc)
        else
          match t2 with
          | [] => .error .valueError
          | e :: t3 =>
            if c.toNat < 0xf0 then
              match utf8Three c d e with
              | .error x => .error x
              | .ok ch => scanStr t3 (ch :: acc)
            else
              match t3 with
              | [] => .error .valueError
              | f :: t4 =>
                match utf8Four c d e f with
                | none => .error .valueError
                | some ch => scanStr t4 (ch :: acc) := by
  have h3 : c ≠ 34 := by rintro rfl; revert h; decide
  have h4 : c ≠ 92 := by rintro rfl; revert h; decide
  rw [scanStr.eq_def]
  split
  · cases ‹_ :: _ = []›
  · next h => cases h; exact absurd rfl h3
  · next h => cases h; exact absurd rfl h4
  · next h => cases h; exact absurd rfl h4
  · next h =>
    cases h
    rw [if_neg (by omega), if_pos h]
    rcases t with - | ⟨d, - | ⟨e, - | ⟨f, t⟩⟩⟩ <;> rfl

theorem scanStr_plain (n : Nat) (h1 : 32 ≤ n) (h2 : n ≤ 126) (h3 : n ≠ 34) (h4 : n ≠ 92) (t : Bytes)
    (acc : List Char) : scanStr (UInt8.ofNat n :: t) acc = scanStr t (Char.ofNat n :: acc) := by
  have e : (UInt8.ofNat n).toNat = n := by simp; omega
  have n34 : UInt8.ofNat n ≠ 34 := fun h => h3 (by rw [← e, h]; rfl)
  have n92 : UInt8.ofNat n ≠ 92 := fun h => h4 (by rw [← e, h]; rfl)
  rw [scanStr_low _ t acc (by omega) (by omega) n34 n92, e]

theorem scanStr_escape (c : Char) (t : Bytes) (acc : List Char) :
    scanStr (escapeChar c ++ t) acc = scanStr t (c :: acc) := by
  have hc := c.valid
  have hn : c.toNat < 0xd800 ∨ (0xdfff < c.toNat ∧ c.toNat < 0x110000) := hc
  conv_rhs => rw [← char_ofNat_toNat c]
  unfold escapeChar
  simp only
  generalize c.toNat = n at hn ⊢
  split
  · next h => subst h; simp [scanStr]
  split
  · next h => subst h; simp [scanStr]
  split
  · next h => subst h; simp [scanStr]
  split
  · next h => subst h; simp [scanStr]
  split
  · next h => subst h; simp [scanStr]
  split
  · next h => subst h; simp [scanStr]
  split
  · next h => subst h; simp [scanStr]
  split
  · next h => exact scanStr_plain n h.1 h.2 (by assumption) (by assumption) t acc
  split
  · next h => exact scanStr_uEscape n h (by omega) t acc
  · next h =>
    rw [List.append_assoc, scanStr_pair _ _ (by omega) (by omega) (by omega) (by omega)]
    have e : 0x10000 + (0xd800 + (n - 0x10000) / 1024 - 0xd800) * 1024
        + (0xdc00 + (n - 0x10000) % 1024 - 0xdc00) = n := by omega
    rw [e]

theorem scanStr_dump (s : List Char) (t : Bytes) (acc : List Char) :
    scanStr ((s.map escapeChar).flatten ++ 34 :: t) acc = .ok (acc.reverse ++ s, t) := by
  induction s generalizing acc with
  | nil => simp [scanStr]
  | cons c s ih =>
    simp only [List.map_cons, List.flatten_cons, List.append_assoc]
    rw [scanStr_escape, ih]
    simp

/-! numbers -/

theorem decDigits_all (n : Nat) : ∀ c ∈ decDigits n, isDigit c = true := by
  induction n using Nat.strongRecOn with
  | _ n ih =>
    rw [decDigits]
    split
    · next h =>
      intro c hc
      simp at hc
      subst hc
      interval_cases n <;> decide
    · next h =>
      intro c hc
      rw [List.mem_append] at hc
      rcases hc with hc | hc
      · exact ih (n / 10) (by omega) c hc
      · simp at hc
        have : n % 10 < 10 := Nat.mod_lt _ (by omega)
        generalize n % 10 = k at *
        subst hc
        interval_cases k <;> decide

theorem decDigits_ne_nil (n : Nat) : decDigits n ≠ [] := by
  rw [decDigits]; split <;> simp

theorem digitsVal_decDigits (n : Nat) : digitsVal (decDigits n) = n := by
  induction n using Nat.strongRecOn with
  | _ n ih =>
    rw [decDigits]
    split
    · next h => simp [digitsVal]; omega
    · next h =>
      have := ih (n / 10) (by omega)
      unfold digitsVal at this ⊢
      rw [List.foldl_append, this]
      have h2 : (UInt8.ofNat (48 + n % 10)).toNat = 48 + n % 10 := by simp; omega
      simp only [List.foldl_cons, List.foldl_nil, h2]
      omega

/-- no leading zero unless the number is zero -/
theorem decDigits_head (n : Nat) (h : 0 < n) : ∃ c t, decDigits n = c :: t ∧ c ≠ 48 ∧ isDigit c = true := by
  induction n using Nat.strongRecOn with
  | _ n ih =>
    rw [decDigits]
    split
    · next h10 =>
      refine ⟨_, _, rfl, ?_, ?_⟩ <;> interval_cases n <;> decide
    · next h10 =>
      obtain ⟨c, t, e, h1, h2⟩ := ih (n / 10) (by omega) (by omega)
      exact ⟨c, t ++ [UInt8.ofNat (48 + n % 10)], by rw [e]; rfl, h1, h2⟩

/-- what may follow a value -/
def Term (rest : Bytes) : Prop := rest = [] ∨ ∃ c t, rest = c :: t ∧ (c = 44 ∨ c = 93 ∨ c = 125)

theorem takeWhile_append_term {p : UInt8 → Bool} (l rest : Bytes) (h : ∀ c ∈ l, p c = true)
    (hr : ∀ c t, rest = c :: t → p c = false) :
    (l ++ rest).takeWhile p = l ∧ (l ++ rest).dropWhile p = rest := by
  induction l with
  | nil =>
    cases rest with
    | nil => simp
    | cons c t => simp [hr c t rfl]
  | cons a l ih =>
    have ha := h a (by simp)
    have := ih (fun c hc => h c (by simp [hc]))
    simp [ha, this]

theorem scanNat_decDigits (n : Nat) (rest : Bytes) (hr : Term rest) :
    scanNat (decDigits n ++ rest) = .ok (n, rest) := by
  have hr' : ∀ c t, rest = c :: t → isDigit c = false := by
    intro c t e
    rcases hr with h | ⟨c', t', h, h'⟩
    · rw [h] at e; cases e
    · rw [h] at e; cases e; rcases h' with rfl | rfl | rfl <;> decide
  rcases Nat.eq_zero_or_pos n with rfl | hn
  · rw [decDigits]; simp [scanNat]
  · obtain ⟨c, t, e, h1, h2⟩ := decDigits_head n hn
    obtain ⟨ht, hd⟩ := takeWhile_append_term (decDigits n) rest (decDigits_all n) hr'
    have hv := digitsVal_decDigits n
    rw [e] at ht hd hv ⊢
    simp only [List.cons_append] at ht hd ⊢
    unfold scanNat
    simp only [h1, if_false, h2, if_true, ht, hd, hv]

theorem numEnd_term (n : Int) (rest : Bytes) (hr : Term rest) : numEnd n rest = .ok (.num n, rest) := by
  rcases hr with h | ⟨c, t, h, h'⟩
  · subst h; rfl
  · subst h; rcases h' with rfl | rfl | rfl <;> rfl

theorem skipWs_cons (c : UInt8) (t : Bytes) (h : isJsonWs c = false) : skipWs (c :: t) = c :: t := by
  simp [skipWs, h]

theorem skipWs_term (rest : Bytes) (hr : Term rest) : skipWs rest = rest := by
  rcases hr with h | ⟨c, t, h, h'⟩
  · subst h; rfl
  · subst h; exact skipWs_cons _ _ (by rcases h' with rfl | rfl | rfl <;> decide)

theorem isDigit_cases (c : UInt8) (h : isDigit c = true) : 48 ≤ c.toNat ∧ c.toNat ≤ 57 := by
  simpa [isDigit] using h

/-- a value starting with a digit is parsed as a number -/
theorem parseVal_digit (fuel : Nat) (c : UInt8) (t : Bytes) (h : isDigit c = true) :
    parseVal (fuel + 1) (c :: t) = (do let (n, rest) ← scanNat (c :: t); numEnd n rest) := by
  have hb := isDigit_cases c h
  have aux : ∀ d : UInt8, (d.toNat < 48 ∨ 57 < d.toNat) → c ≠ d := by
    rintro d hd rfl; omega
  have hw : isJsonWs c = false := by
    unfold isJsonWs
    simp [aux 32 (by decide), aux 9 (by decide), aux 10 (by decide), aux 13 (by decide)]
  unfold parseVal
  simp only [skipWs_cons c t hw]
  rw [if_neg (aux 34 (by decide)), if_neg (aux 123 (by decide)), if_neg (aux 91 (by decide))]
  have pre : ∀ (d : UInt8) (p : Bytes), c ≠ d → isPrefix (d :: p) (c :: t) = false := by
    intro d p hd; simp [isPrefix, hd]
  have e1 : isPrefix (bstr "null") (c :: t) = false := pre 110 _ (aux 110 (by decide))
  have e2 : isPrefix (bstr "true") (c :: t) = false := pre 116 _ (aux 116 (by decide))
  have e3 : isPrefix (bstr "false") (c :: t) = false := pre 102 _ (aux 102 (by decide))
  have e4 : isPrefix (bstr "NaN") (c :: t) = false := pre 78 _ (aux 78 (by decide))
  have e5 : isPrefix (bstr "Infinity") (c :: t) = false := pre 73 _ (aux 73 (by decide))
  have e6 : isPrefix (bstr "-Infinity") (c :: t) = false := pre 45 _ (aux 45 (by decide))
  simp only [e1, e2, e3, e4, e5, e6]
  rw [if_neg (by simp), if_neg (by simp), if_neg (by simp), if_neg (by simp), if_neg (aux 45 (by decide))]

theorem parseVal_num (fuel : Nat) (n : Int) (rest : Bytes) (hr : Term rest) :
    parseVal (fuel + 1) (dumpInt n ++ rest) = .ok (.num n, rest) := by
  unfold dumpInt
  split
  · next hn =>
    have hpre : isPrefix (bstr "-Infinity") (45 :: (decDigits (-n).toNat ++ rest)) = false := by
      obtain ⟨c, t, e, h1, h2⟩ := decDigits_head (-n).toNat (by omega)
      rw [e]
      have hb := isDigit_cases c h2
      have : c ≠ 73 := by rintro rfl; revert hb; decide
      have e7 : bstr "-Infinity" = 45 :: 73 :: bstr "nfinity" := by decide +kernel
      rw [e7]
      simp [isPrefix, this]
    have pre : ∀ (d : UInt8) (p t : Bytes), 45 ≠ d → isPrefix (d :: p) (45 :: t) = false := by
      intro d p t hd; simp [isPrefix, hd]
    rw [List.cons_append]
    unfold parseVal
    simp only [skipWs_cons 45 _ (by decide)]
    rw [if_neg (by decide), if_neg (by decide), if_neg (by decide)]
    have e1 := pre 110 [117, 108, 108] (decDigits (-n).toNat ++ rest) (by decide)
    have e2 := pre 116 [114, 117, 101] (decDigits (-n).toNat ++ rest) (by decide)
    have e3 := pre 102 [97, 108, 115, 101] (decDigits (-n).toNat ++ rest) (by decide)
    have e4 := pre 78 [97, 78] (decDigits (-n).toNat ++ rest) (by decide)
    have e5 := pre 73 (bstr "nfinity") (decDigits (-n).toNat ++ rest) (by decide)
    have b1 : bstr "null" = [110, 117, 108, 108] := by decide +kernel
    have b2 : bstr "true" = [116, 114, 117, 101] := by decide +kernel
    have b3 : bstr "false" = [102, 97, 108, 115, 101] := by decide +kernel
    have b4 : bstr "NaN" = [78, 97, 78] := by decide +kernel
    have b5 : bstr "Infinity" = 73 :: bstr "nfinity" := by decide +kernel
    rw [b1, b2, b3, b4, b5]
    simp only [e1, e2, e3, e4, e5, hpre]
    rw [if_neg (by simp), if_neg (by simp), if_neg (by simp), if_neg (by simp), if_pos (by trivial)]
    rw [scanNat_decDigits _ _ hr]
    simp only [bind, Except.bind]
    rw [numEnd_term _ _ hr]
    congr 3
    omega
  · next hn =>
    have hs := scanNat_decDigits n.toNat rest hr
    have ha := decDigits_all n.toNat
    have hne := decDigits_ne_nil n.toNat
    generalize decDigits n.toNat = l at *
    cases l with
    | nil => exact absurd rfl hne
    | cons c t =>
      rw [List.cons_append] at hs ⊢
      rw [parseVal_digit _ _ _ (ha c (by simp)), hs]
      simp only [bind, Except.bind]
      rw [numEnd_term _ _ hr]
      congr 3
      omega

/-! dictionaries with distinct keys -/

mutual
/-- every object has distinct keys (always true of Python dicts) -/
def Json.WF : Json → Prop
  | .null => True
  | .bool _ => True
  | .num _ => True
  | .str _ => True
  | .arr l => WFElems l
  | .obj l => (l.map Prod.fst).Nodup ∧ WFMembers l
def WFElems : List Json → Prop
  | [] => True
  | v :: t => v.WF ∧ WFElems t
def WFMembers : List (List Char × Json) → Prop
  | [] => True
  | (_, v) :: t => v.WF ∧ WFMembers t
end

theorem dictSet_new {β} (l : List (List Char × β)) (k : List Char) (v : β) (h : k ∉ l.map Prod.fst) :
    dictSet l k v = l ++ [(k, v)] := by
  induction l with
  | nil => rfl
  | cons a t ih =>
    obtain ⟨k', v'⟩ := a
    simp at h
    rw [dictSet, if_neg (fun e => h.1 e.symm), ih (by simpa using h.2)]
    rfl

theorem dumps_ne_nil (v : Json) : dumps v ≠ [] := by
  cases v with
  | null => rw [dumps]; decide +kernel
  | bool b => cases b <;> rw [dumps] <;> decide +kernel
  | num n => rw [dumps]; unfold dumpInt; split <;> simp [decDigits_ne_nil]
  | str s => simp [dumps, dumpStr]
  | arr l => simp [dumps]
  | obj l => simp [dumps]

/-- first character of a dumped value: never white space or a closing bracket -/
theorem dumps_head (v : Json) : ∃ c t, dumps v = c :: t ∧ isJsonWs c = false ∧ c ≠ 93 ∧ c ≠ 125 := by
  cases v with
  | null => exact ⟨_, _, by rw [dumps]; rfl, by decide +kernel, by decide +kernel, by decide +kernel⟩
  | bool b => cases b <;> exact ⟨_, _, by rw [dumps]; rfl, by decide +kernel, by decide +kernel, by decide +kernel⟩
  | num n =>
    rw [dumps]; unfold dumpInt
    split
    · exact ⟨_, _, rfl, by decide, by decide, by decide⟩
    · have ha := decDigits_all n.toNat
      have hne := decDigits_ne_nil n.toNat
      generalize decDigits n.toNat = l at *
      cases l with
      | nil => exact absurd rfl hne
      | cons c t =>
        have hb := isDigit_cases c (ha c (by simp))
        have aux : ∀ d : UInt8, (d.toNat < 48 ∨ 57 < d.toNat) → c ≠ d := by
          rintro d hd rfl; omega
        refine ⟨c, t, rfl, ?_, aux _ (by decide), aux _ (by decide)⟩
        unfold isJsonWs
        simp [aux 32 (by decide), aux 9 (by decide), aux 10 (by decide), aux 13 (by decide)]
  | str s => exact ⟨_, _, by rw [dumps]; rfl, by decide, by decide, by decide⟩
  | arr s => exact ⟨_, _, by rw [dumps], by decide, by decide, by decide⟩
  | obj s => exact ⟨_, _, by rw [dumps], by decide, by decide, by decide⟩

theorem skipWs_dumps (v : Json) (t : Bytes) : skipWs (dumps v ++ t) = dumps v ++ t := by
  obtain ⟨c, u, e, h, _⟩ := dumps_head v
  rw [e, List.cons_append, skipWs_cons _ _ h]

theorem parseVal_space (fuel : Nat) (s : Bytes) : parseVal fuel (32 :: s) = parseVal fuel s := by
  cases fuel with
  | zero => rfl
  | succ f => unfold parseVal; rfl

theorem dumpStr_append (k : List Char) (t : Bytes) :
    dumpStr k ++ t = 34 :: ((k.map escapeChar).flatten ++ 34 :: t) := by
  simp [dumpStr]

theorem term_44 (t : Bytes) : Term (44 :: t) := .inr ⟨_, _, rfl, .inl rfl⟩
theorem term_93 (t : Bytes) : Term (93 :: t) := .inr ⟨_, _, rfl, .inr (.inl rfl)⟩
theorem term_125 (t : Bytes) : Term (125 :: t) := .inr ⟨_, _, rfl, .inr (.inr rfl)⟩

mutual
theorem parseVal_dumps (v : Json) (hv : v.WF) (fuel : Nat) (rest : Bytes) (hr : Term rest)
    (hf : (dumps v).length ≤ fuel) : parseVal fuel (dumps v ++ rest) = .ok (v, rest) := by
  have hpos : 0 < (dumps v).length := List.length_pos_iff.mpr (dumps_ne_nil v)
  obtain ⟨f, rfl⟩ : ∃ f, fuel = f + 1 := ⟨fuel - 1, by omega⟩
  cases v with
  | null => rw [dumps]; unfold parseVal; rfl
  | bool b => cases b <;> (rw [dumps]; unfold parseVal; rfl)
  | num n => rw [dumps]; exact parseVal_num f n rest hr
  | str s =>
    rw [dumps, dumpStr_append]
    unfold parseVal
    simp only [skipWs_cons 34 _ (by decide)]
    rw [if_pos (by trivial), scanStr_dump]
    rfl
  | arr l =>
    cases l with
    | nil => rw [dumps, dumpElems]; unfold parseVal; rfl
    | cons v t =>
      have hl : (dumps (.arr (v :: t))).length = (dumpElems (v :: t)).length + 2 := by
        simp [dumps]
      have hw : WFElems (v :: t) := by rw [Json.WF] at hv; exact hv
      have := parseElems_dumps (v :: t) (by simp) hw f [] rest (by omega)
      rw [dumps]
      simp only [List.cons_append, List.append_assoc]
      unfold parseVal
      simp only [skipWs_cons 91 _ (by decide)]
      rw [if_neg (by decide), if_neg (by decide), if_pos (by trivial)]
      obtain ⟨c, u, e, h1, h2, _⟩ := dumps_head v
      obtain ⟨u', e'⟩ : ∃ u', dumpElems (v :: t) = c :: u' := by
        cases t with
        | nil => exact ⟨u, by rw [dumpElems, e]⟩
        | cons w t => exact ⟨_, by rw [dumpElems, e]; rfl⟩
      rw [e'] at this ⊢
      rw [List.cons_append, skipWs_cons _ _ h1]
      simp only [h2, if_false]
      simpa using this
  | obj l =>
    cases l with
    | nil => rw [dumps, dumpMembers]; unfold parseVal; rfl
    | cons kv t =>
      have hl : (dumps (.obj (kv :: t))).length = (dumpMembers (kv :: t)).length + 2 := by
        simp [dumps]
      rw [Json.WF] at hv
      have := parseMembers_dumps (kv :: t) (by simp) hv.2 f [] rest (by simpa using hv.1) (by omega)
      rw [dumps]
      simp only [List.cons_append, List.append_assoc]
      unfold parseVal
      simp only [skipWs_cons 123 _ (by decide)]
      rw [if_neg (by decide), if_pos (by trivial)]
      obtain ⟨k, v⟩ := kv
      obtain ⟨u', e'⟩ : ∃ u', dumpMembers ((k, v) :: t) = 34 :: u' := by
        cases t with
        | nil => exact ⟨_, by rw [dumpMembers, dumpStr_append]⟩
        | cons w t => exact ⟨_, by rw [dumpMembers, List.append_assoc, dumpStr_append]⟩
      rw [e'] at this ⊢
      rw [List.cons_append, skipWs_cons _ _ (by decide)]
      simp only [show (34 : UInt8) ≠ 125 from by decide, if_false]
      simpa using this
theorem parseElems_dumps (l : List Json) (hne : l ≠ []) (hw : WFElems l) (fuel : Nat) (acc : List Json)
    (rest : Bytes) (hf : (dumpElems l).length + 1 ≤ fuel) :
    parseElems fuel (dumpElems l ++ 93 :: rest) acc = .ok (.arr (acc ++ l), rest) := by
  obtain ⟨f, rfl⟩ : ∃ f, fuel = f + 1 := ⟨fuel - 1, by omega⟩
  cases l with
  | nil => exact absurd rfl hne
  | cons v t =>
    rw [WFElems] at hw
    cases t with
    | nil =>
      rw [dumpElems] at hf ⊢
      rw [parseElems, parseVal_dumps v hw.1 f _ (term_93 _) (by omega)]
      simp only [bind, Except.bind, skipWs_cons 93 _ (by decide)]
      rfl
    | cons w t =>
      rw [dumpElems] at hf ⊢
      simp only [List.length_append, List.length_cons] at hf
      have ih := parseElems_dumps (w :: t) (by simp) hw.2 f (acc ++ [v]) rest (by omega)
      rw [List.append_assoc, parseElems, List.cons_append,
        parseVal_dumps v hw.1 f _ (term_44 _) (by omega)]
      simp only [bind, Except.bind, skipWs_cons 44 _ (by decide)]
      rw [if_pos (by trivial), List.cons_append]
      cases f with
      | zero => omega
      | succ f =>
        rw [parseElems, parseVal_space, ← parseElems, ih]
        simp
theorem parseMembers_dumps (l : List (List Char × Json)) (hne : l ≠ []) (hw : WFMembers l) (fuel : Nat)
    (acc : List (List Char × Json)) (rest : Bytes) (hn : ((acc ++ l).map Prod.fst).Nodup)
    (hf : (dumpMembers l).length + 1 ≤ fuel) :
    parseMembers fuel (dumpMembers l ++ 125 :: rest) acc = .ok (.obj (acc ++ l), rest) := by
  obtain ⟨f, rfl⟩ : ∃ f, fuel = f + 1 := ⟨fuel - 1, by omega⟩
  cases l with
  | nil => exact absurd rfl hne
  | cons kv t =>
    obtain ⟨k, v⟩ := kv
    rw [WFMembers] at hw
    have hk : k ∉ acc.map Prod.fst := by
      rw [List.map_append, List.nodup_append] at hn
      intro h
      exact hn.2.2 k h k (by simp) rfl
    cases t with
    | nil =>
      rw [dumpMembers] at hf ⊢
      simp only [List.length_append, List.length_cons] at hf
      rw [List.append_assoc, dumpStr_append, parseMembers, skipWs_cons _ _ (by decide)]
      simp only [if_true, scanStr_dump, bind, Except.bind, List.cons_append]
      rw [skipWs_cons _ _ (by decide)]
      simp only [if_true, parseVal_space]
      rw [parseVal_dumps v hw.1 f _ (term_125 _) (by omega)]
      simp only [skipWs_cons 125 _ (by decide)]
      rw [if_neg (by decide), if_pos (by trivial), dictSet_new _ _ _ (by simpa using hk)]
      simp
    | cons w t =>
      rw [dumpMembers] at hf ⊢
      simp only [List.length_append, List.length_cons] at hf
      have ih := parseMembers_dumps (w :: t) (by simp) hw.2 f (acc ++ [(k, v)]) rest (by simpa using hn) (by omega)
      rw [List.append_assoc, List.append_assoc, dumpStr_append, parseMembers, skipWs_cons _ _ (by decide)]
      simp only [if_true, scanStr_dump, bind, Except.bind, List.cons_append]
      rw [skipWs_cons _ _ (by decide)]
      simp only [if_true, parseVal_space]
      rw [parseVal_dumps v hw.1 f _ (term_44 _) (by omega)]
      simp only [skipWs_cons 44 _ (by decide)]
      rw [if_pos (by trivial), dictSet_new _ _ _ (by simpa using hk)]
      cases f with
      | zero => omega
      | succ f =>
        have e : parseMembers (f + 1) (32 :: (dumpMembers (w :: t) ++ 125 :: rest)) (acc ++ [(k, v)])
            = parseMembers (f + 1) (dumpMembers (w :: t) ++ 125 :: rest) (acc ++ [(k, v)]) := by
          unfold parseMembers; rfl
        simp only [List.reverse_nil, List.nil_append]
        rw [e, ih]
        simp
end

/-- `json.loads(json.dumps(v)) == v` -/
theorem loads_dumps (v : Json) (hv : v.WF) : loads (dumps v) = .ok v := by
  unfold loads
  have := parseVal_dumps v hv (2 * (dumps v).length + 1) [] (.inl rfl) (by omega)
  rw [List.append_nil] at this
  rw [this]
  rfl

/-- a dumped dict followed by a line feed, as `print` leaves it -/
theorem loads_dumps_line (l : List (List Char × Json)) (hv : (Json.obj l).WF) :
    loads (dumps (.obj l) ++ [10]) = .ok (.obj l) := by
  have hp : parseVal (2 * (dumps (.obj l) ++ [10]).length + 1) (dumps (.obj l) ++ [10]) = .ok (.obj l, [10]) := by
    have hf : (dumps (.obj l)).length ≤ 2 * (dumps (.obj l) ++ [10]).length := by
      rw [List.length_append]; omega
    generalize 2 * (dumps (.obj l) ++ [10]).length = f at hf
    cases l with
    | nil => rw [dumps, dumpMembers]; unfold parseVal; rfl
    | cons kv t =>
      have hl : (dumps (.obj (kv :: t))).length = (dumpMembers (kv :: t)).length + 2 := by
        simp [dumps]
      rw [Json.WF] at hv
      have := parseMembers_dumps (kv :: t) (by simp) hv.2 f [] [10] (by simpa using hv.1) (by omega)
      rw [dumps]
      simp only [List.cons_append, List.append_assoc]
      unfold parseVal
      simp only [skipWs_cons 123 _ (by decide)]
      rw [if_neg (by decide), if_pos (by trivial)]
      obtain ⟨k, v⟩ := kv
      obtain ⟨u', e'⟩ : ∃ u', dumpMembers ((k, v) :: t) = 34 :: u' := by
        cases t with
        | nil => exact ⟨_, by rw [dumpMembers, dumpStr_append]⟩
        | cons w t => exact ⟨_, by rw [dumpMembers, List.append_assoc, dumpStr_append]⟩
      rw [e'] at this ⊢
      rw [List.cons_append, skipWs_cons _ _ (by decide)]
      simp only [show (34 : UInt8) ≠ 125 from by decide, if_false]
      simpa using this
  unfold loads
  rw [hp]
  rfl

theorem toBytes_ofBytes (b : Bytes) (h : ∀ c ∈ b, plainChar (Char.ofNat c.toNat) = true) :
    (Json.ofBytes b).toBytes = .ok b := by
  unfold Json.ofBytes Json.toBytes
  simp only
  rw [if_pos (by simpa using h)]
  congr 1
  rw [List.map_map]
  conv_rhs => rw [← List.map_id b]
  apply List.map_congr_left
  intro c hc
  have : c.toNat < 0xd800 := by have := c.toNat_lt; omega
  simp only [Function.comp]
  have e : (Char.ofNat c.toNat).toNat = c.toNat := by
    rw [Char.ofNat, dif_pos (show c.toNat.isValidChar from .inl this)]
    rfl
  rw [e]; simp
end Verif
