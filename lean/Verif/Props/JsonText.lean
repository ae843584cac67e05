import Verif.Lemmas.JsonGrammar
import Verif.Props.MalformedKeys
/-
C78: which texts `json.loads` accepts and what it makes of them, and hence which files are metadata and keys, in terms
of the grammar of Verif/Spec/Json.lean.
-/
namespace Verif.Props
open Verif Spec JsonText


/-- C78: `json.loads` accepts exactly the JSON documents (of the fragment), and returns what they say. -/
theorem C78_accepts (text : Bytes) (j : Json) : loads text = .ok j ↔ Says text j := by
  unfold loads
  constructor
  · intro h
    obtain ⟨⟨v, rest⟩, h1, h2⟩ := bind_ok h
    obtain ⟨w, b, g1, g2, g3⟩ := (parse_sound _).1 _ _ _ h1
    obtain ⟨w', hw', hr⟩ := skipWs_split rest
    dsimp only at h2
    generalize skipWs rest = u at h2 hr
    cases u with
    | nil => cases h2; exact ⟨w, b, w', by rw [g3, hr, List.append_nil], g1, g2, hw'⟩
    | cons c t => cases h2
  · rintro ⟨w, b, w', rfl, h1, h2, h3⟩
    have hl : 2 * b.length + 1 ≤ 2 * (w ++ (b ++ w')).length + 1 := by simp only [List.length_append]; omega
    have ha : After w' := by
      have := After.blank h3 (.inl rfl)
      rwa [List.append_nil] at this
    rw [parseVal_blank h1, parseVal_complete h2 _ w' hl ha]
    have : skipWs w' = [] := by
      have := skipWs_blank h3 []
      rw [List.append_nil] at this
      exact this
    simp only [bind, Except.bind, this]
    rfl


/-- C78: every text is read or refused with ValueError, unless it has one of the things left out of the model. -/
theorem C78_beyond (text : Bytes) (h : loads text = .error .unmodelled) : BeyondModel text := by
  unfold loads at h
  rcases bind_err h with h | ⟨⟨v, rest⟩, h1, h2⟩
  · exact (parse_beyond _).1 _ h
  · dsimp only at h2
    split at h2 <;> cases h2

/-- C78: a text that is not a JSON document is refused with ValueError. -/
theorem C78_value_error (text : Bytes) (hb : ¬ BeyondModel text) :
    loads text = .error .valueError ↔ ¬ ∃ j, Says text j := by
  constructor
  · rintro h ⟨j, hj⟩
    rw [(C78_accepts text j).mpr hj] at h
    cases h
  · intro h
    cases e : loads text with
    | ok j => exact absurd ⟨j, (C78_accepts text j).mp e⟩ h
    | error e' =>
      rcases loads_error e with rfl | rfl
      · rfl
      · exact absurd (C78_beyond text e) hb

/-- C78: a text says one thing at most. -/
theorem C78_unique (text : Bytes) (j j' : Json) (h : Says text j) (h' : Says text j') : j = j' := by
  rw [← C78_accepts] at h h'
  rw [h] at h'
  exact Except.ok.inj h'

/-- C78: what `json.dumps` writes is a JSON document that says the value written. -/
theorem C78_dumps (j : Json) (hj : j.WF) : Says (dumps j) j := (C78_accepts _ _).mp (loads_dumps j hj)

/-- C78: white space, escapes, the order of repeated names: nothing but what a file says has any influence on what is
read from it. -/
theorem C78_layout (a b : Bytes) (j : Json) (ha : Says a j) (hb : Says b j) :
    KeyMetadata.Read a = KeyMetadata.Read b ∧ ∀ t, ReadKey t a = ReadKey t b := by
  have : loads a = loads b := by rw [(C78_accepts a j).mpr ha, (C78_accepts b j).mpr hb]
  refine ⟨?_, fun t => ?_⟩
  · unfold KeyMetadata.Read; rw [this]
  · unfold ReadKey AesKey.Read HmacKey.Read DsaPrivateKey.Read RsaPrivateKey.Read DsaPublicKey.Read RsaPublicKey.Read
    rw [this]

/-- C78: the texts that are read as metadata, and the key set each describes. -/
theorem C78_metadata (text : Bytes) (w : KeySet.View) :
    (∃ kmd h, KeyMetadata.Read text = .ok (kmd, h) ∧ kmd.view h = w) ↔
      ∃ j v, Says text j ∧ MetaAccepts j v ∧ w = { v with versions := firstOfEach v.versions } := by
  simp only [C76_accepts, C78_accepts]

/-- C78: the texts that are read as keys. -/
theorem C78_key (t : KeyType) (text : Bytes) (k : Key) :
    ReadKey t text = .ok k ↔ ∃ j, Says text j ∧ KeySays j t k := by
  constructor
  · intro h
    cases e : loads text with
    | ok j => exact ⟨j, (C78_accepts _ _).mp e, (C76_key_accepts t text j e k).mp h⟩
    | error e' => rw [(C76_not_json text e' e).2.2 t] at h; cases h
  · rintro ⟨j, h1, h2⟩
    exact (C76_key_accepts t text j ((C78_accepts _ _).mpr h1) k).mpr h2

/-- C78: a file that is not a JSON document: ValueError out of the constructor of every class, not KeyczarError. -/
theorem C78_refused (text : Bytes) (hb : ¬ BeyondModel text) (h : ¬ ∃ j, Says text j) :
    KeyMetadata.Read text = .error .valueError ∧ (∀ t, ReadKey t text = .error .valueError) ∧
    ∀ (P : Prims) (cls : CzarClass) (r : Reader), r.GetMetadata = .ok text → Czar.init P cls r = .error .valueError := by
  have := (C76_not_json text _ ((C78_value_error text hb).mpr h)).2
  refine ⟨this.1, this.2, fun P cls r hr => ?_⟩
  unfold Czar.init
  rw [hr]
  show (KeyMetadata.Read text >>= _) = _
  rw [this.1]
  rfl

/-! ### cases -/

/-- `{ "k" :[1, -2],"\u006b":null}`: the second member repeats the name of the first -/
def exText : Bytes := bstr "{ \"k\" :[1, -2],\"\\u006b\":null}\n"

example : Says exText (.obj [(['k'], .null)]) := by
  have e1 : ElemsText (bstr "1, -2") [.num 1, .num (-2)] :=
    .more (w := []) (b := jsonDecimal 1) (w' := []) (t := bstr " -2") (by simp [Blank]) (.num ⟨1, .inl ⟨rfl, rfl⟩⟩)
      (by simp [Blank])
      (.one (w := [32]) (b := 45 :: jsonDecimal 2) (w' := []) (by simp [Blank]) (.num ⟨2, .inr ⟨rfl, rfl⟩⟩) (by simp [Blank]))
  have e2 : MembersText (bstr "\"\\u006b\":null") [(['k'], .null)] :=
    .one (w := []) (k := bstr "\\u006b") (w' := []) (x := []) (b := bstr "null") (y := []) (by simp [Blank])
      (.unicode (h := bstr "006b") (n := 107) (t := [])
        ⟨48, 48, 54, 98, 0, 0, 6, 11, by decide +kernel, .inl (by decide +kernel), .inl (by decide +kernel),
          .inl (by decide +kernel), .inl (by decide +kernel), rfl⟩ (by decide) .nil)
      (by simp [Blank]) (by simp [Blank]) .null (by simp [Blank])
  have e3 : MembersText (bstr " \"k\" :[1, -2],\"\\u006b\":null")
      [(['k'], .arr [.num 1, .num (-2)]), (['k'], .null)] :=
    .more (w := [32]) (k := [107]) (w' := [32]) (x := []) (b := bstr "[1, -2]") (y := []) (by simp [Blank])
      (.plain (c := 'k') (by decide) (by decide) (by decide) .nil) (by simp [Blank]) (by simp [Blank]) (.arr e1)
      (by simp [Blank]) e2
  exact ⟨[], _, [10], by decide +kernel, by simp [Blank], .obj e3, by simp [Blank]⟩

/-- a string with characters of one, two, three and four bytes, as they are and escaped -/
example : Says ([34, 97, 0xc3, 0xbc, 0xe2, 0x82, 0xac, 0xf0, 0x9f, 0x94, 0x91] ++ bstr "\\u00fc" ++ [34])
    (.str ['a', 'ü', '€', '🔑', 'ü']) := by
  have h : StrText (utf8 'a' ++ (utf8 'ü' ++ (utf8 '€' ++ (utf8 '🔑' ++ (92 :: 117 :: (bstr "00fc" ++ []))))))
      ['a', 'ü', '€', '🔑', 'ü'] :=
    .plain (by decide) (by decide) (by decide) <| .plain (by decide) (by decide) (by decide) <|
      .plain (by decide) (by decide) (by decide) <| .plain (by decide) (by decide) (by decide) <|
      .unicode (n := 0xfc) ⟨48, 48, 102, 99, 0, 0, 15, 12, by decide +kernel, .inl (by decide +kernel), .inl (by decide +kernel),
        .inl (by decide +kernel), .inl (by decide +kernel), rfl⟩ (by decide) .nil
  exact ⟨[], _, [], by decide +kernel, by simp [Blank], .str h, by simp [Blank]⟩

/-- Latin-1, a byte that begins nothing, an overlong form of `/`, a character beyond the last one: not JSON -/
example : ∀ t ∈ ([[0xfc, 34], [0x80, 34], [0xc0, 0xaf, 34], [0xe0, 0x80, 0xaf, 34], [0xf4, 0x90, 0x80, 0x80, 34]] : List Bytes),
    ¬ ∃ j, Says (34 :: t) j := by
  intro t ht
  have : ∀ t ∈ ([[0xfc, 34], [0x80, 34], [0xc0, 0xaf, 34], [0xe0, 0x80, 0xaf, 34], [0xf4, 0x90, 0x80, 0x80, 34]] : List Bytes),
      (loads (34 :: t)).toOption.isNone = true := by decide +kernel
  rintro ⟨j, hj⟩
  have h1 := this t ht
  rw [(C78_accepts _ _).mpr hj] at h1
  cases h1

/-- a trailing comma, a single quote, a number with a leading zero, text after the document: not JSON -/
example : ∀ t ∈ ["[1,]", "{'k': 1}", "01", "{} {}", "[1", "{\"k\": }", "\"\\x\"", ""], ¬ ∃ j, Says (bstr t) j := by
  intro t ht
  have : ∀ t ∈ ["[1,]", "{'k': 1}", "01", "{} {}", "[1", "{\"k\": }", "\"\\x\"", ""],
      (loads (bstr t)).toOption.isNone = true := by decide +kernel
  rintro ⟨j, hj⟩
  have h1 := this t ht
  rw [(C78_accepts _ _).mpr hj] at h1
  cases h1

example : ¬ BeyondModel (bstr "[1,]") := by
  have e : bstr "[1,]" = [91, 49, 44, 93] := by decide +kernel
  rw [BeyondModel, e]
  rintro (h | ⟨d, x, h1, h2, h3, h⟩ | h | h | ⟨x, h1, h⟩)
  · obtain ⟨c, -, h⟩ := h
    have := h.subset (List.mem_cons_self)
    simp at this
  · simp only [List.infix_cons_iff, List.cons_prefix_cons, List.infix_nil] at h
    rcases h with ⟨rfl, rfl, -⟩ | ⟨rfl, rfl, -⟩ | ⟨rfl, rfl, -⟩ | ⟨rfl, h⟩ | h
    · simp at h3
    · simp at h3
    · simp at h3
    · simp at h
    · simp at h
  · revert h; decide +kernel
  · revert h; decide +kernel
  · simp [List.infix_cons_iff] at h

theorem hexDigit_printable (n : Nat) : 32 ≤ (hexDigit (n % 16)).toNat ∧ (hexDigit (n % 16)).toNat ≤ 126 := by
  have h : ∀ k, k < 16 → 32 ≤ (hexDigit k).toNat ∧ (hexDigit k).toNat ≤ 126 := by decide
  exact h _ (Nat.mod_lt _ (by decide))

theorem uEscape_printable (n : Nat) : ∀ b ∈ uEscape n, 32 ≤ b.toNat ∧ b.toNat ≤ 126 := by
  intro b hb
  simp only [uEscape, List.mem_cons, List.not_mem_nil, or_false] at hb
  rcases hb with h | h | h | h | h | h <;> subst h <;> first | decide | exact hexDigit_printable _

theorem escapeChar_printable (c : Char) : ∀ b ∈ escapeChar c, 32 ≤ b.toNat ∧ b.toNat ≤ 126 := by
  intro b hb
  unfold escapeChar at hb
  simp only at hb
  repeat' split at hb
  all_goals try (simp only [List.mem_cons, List.not_mem_nil, or_false] at hb; rcases hb with h | h <;> subst h <;> decide)
  · simp only [List.mem_cons, List.not_mem_nil, or_false] at hb
    subst hb
    have : c.toNat % 256 = c.toNat := Nat.mod_eq_of_lt (by omega)
    simp only [UInt8.toNat_ofNat', this, Nat.reducePow]
    omega
  · exact uEscape_printable _ b hb
  · rcases List.mem_append.mp hb with h | h <;> exact uEscape_printable _ b h

theorem dumpStr_printable (s : List Char) : ∀ b ∈ dumpStr s, 32 ≤ b.toNat ∧ b.toNat ≤ 126 := by
  intro b hb
  simp only [dumpStr, List.mem_cons, List.mem_append, List.mem_flatten, List.mem_map, List.not_mem_nil, or_false] at hb
  rcases hb with h | ⟨l, ⟨c, -, rfl⟩, h⟩ | h
  · subst h; decide
  · exact escapeChar_printable c b h
  · subst h; decide

theorem decDigits_printable (n : Nat) : ∀ b ∈ decDigits n, 32 ≤ b.toNat ∧ b.toNat ≤ 126 := by
  have hd : ∀ k, k < 10 → 32 ≤ (UInt8.ofNat (48 + k)).toNat ∧ (UInt8.ofNat (48 + k)).toNat ≤ 126 := by decide
  induction n using Nat.strongRecOn with
  | _ n ih =>
    intro b hb
    unfold decDigits at hb
    split at hb
    · rename_i h
      simp only [List.mem_cons, List.not_mem_nil, or_false] at hb
      subst hb
      exact hd n h
    · rcases List.mem_append.mp hb with h | h
      · exact ih (n / 10) (by omega) b h
      · simp only [List.mem_cons, List.not_mem_nil, or_false] at h
        subst h
        exact hd _ (Nat.mod_lt _ (by decide))

theorem dumpInt_printable (n : Int) : ∀ b ∈ dumpInt n, 32 ≤ b.toNat ∧ b.toNat ≤ 126 := by
  intro b hb
  unfold dumpInt at hb
  split at hb
  · rcases List.mem_cons.mp hb with h | h
    · subst h; decide
    · exact decDigits_printable _ b h
  · exact decDigits_printable _ b hb

mutual
theorem dumps_printable (j : Json) : ∀ b ∈ dumps j, 32 ≤ b.toNat ∧ b.toNat ≤ 126 := by
  match j with
  | .null => decide
  | .bool true => decide
  | .bool false => decide
  | .num n => exact dumpInt_printable n
  | .str s => exact dumpStr_printable s
  | .arr l =>
    intro b hb
    simp only [dumps, List.mem_cons, List.mem_append, List.not_mem_nil, or_false] at hb
    rcases hb with h | h | h
    · subst h; decide
    · exact dumpElems_printable l b h
    · subst h; decide
  | .obj l =>
    intro b hb
    simp only [dumps, List.mem_cons, List.mem_append, List.not_mem_nil, or_false] at hb
    rcases hb with h | h | h
    · subst h; decide
    · exact dumpMembers_printable l b h
    · subst h; decide
theorem dumpElems_printable (l : List Json) : ∀ b ∈ dumpElems l, 32 ≤ b.toNat ∧ b.toNat ≤ 126 := by
  match l with
  | [] => simp [dumpElems]
  | [v] => exact fun b hb => dumps_printable v b (by simpa [dumpElems] using hb)
  | v :: w :: t =>
    intro b hb
    simp only [dumpElems, List.mem_cons, List.mem_append] at hb
    rcases hb with h | h | h | h
    · exact dumps_printable v b h
    · subst h; decide
    · subst h; decide
    · exact dumpElems_printable (w :: t) b h
theorem dumpMembers_printable (l : List (List Char × Json)) : ∀ b ∈ dumpMembers l, 32 ≤ b.toNat ∧ b.toNat ≤ 126 := by
  match l with
  | [] => simp [dumpMembers]
  | [(k, v)] =>
    intro b hb
    simp only [dumpMembers, List.mem_cons, List.mem_append] at hb
    rcases hb with h | h | h | h
    · exact dumpStr_printable k b h
    · subst h; decide
    · subst h; decide
    · exact dumps_printable v b h
  | (k, v) :: w :: t =>
    intro b hb
    simp only [dumpMembers, List.mem_cons, List.mem_append] at hb
    rcases hb with (h | h | h | h) | h | h | h
    · exact dumpStr_printable k b h
    · subst h; decide
    · subst h; decide
    · exact dumps_printable v b h
    · subst h; decide
    · subst h; decide
    · exact dumpMembers_printable (w :: t) b h
end

/-- C78: what `json.dumps` writes is one line of printable ASCII characters, whatever the value. -/
theorem C78_printable (j : Json) : ∀ b ∈ dumps j, 32 ≤ b.toNat ∧ b.toNat ≤ 126 := dumps_printable j

example : dumps (.arr [.str ['\n', 'é', '😀'], .num (-5)]) = bstr "[\"\\n\\u00e9\\ud83d\\ude00\", -5]" := by decide +kernel

theorem hexDigit_text (d : Nat) : (bstr "0123456789abcdef").getD (d % 16) 0 = hexDigit (d % 16) := by
  have h : ∀ k, k < 16 → (bstr "0123456789abcdef").getD k 0 = hexDigit k := by decide +kernel
  exact h _ (Nat.mod_lt _ (by decide))

theorem unitText_eq (u : Nat) : unitText u = uEscape u := by
  have e : bstr "\\u" = [92, 117] := by decide +kernel
  unfold unitText uEscape
  rw [e]
  simp only [List.map_cons, List.map_nil, hexDigit_text]
  rfl

theorem charText_eq (c : Char) : charText c = escapeChar c := by
  have key : ∀ d : Char, c ≠ d → ¬ c.toNat = d.toNat := fun d hd h => hd (by rw [← Char.ofNat_toNat c, h, Char.ofNat_toNat])
  by_cases h1 : c = '"'
  · subst h1; decide
  by_cases h2 : c = '\\'
  · subst h2; decide
  by_cases h3 : c = '\n'
  · subst h3; decide
  by_cases h4 : c = '\r'
  · subst h4; decide
  by_cases h5 : c = '\t'
  · subst h5; decide
  by_cases h6 : c = Char.ofNat 12
  · subst h6; decide
  by_cases h7 : c = Char.ofNat 8
  · subst h7; decide
  have e : writtenEscapes.lookup c = none := by
    simp only [writtenEscapes, List.lookup, beq_eq_false_iff_ne.mpr h1, beq_eq_false_iff_ne.mpr h2,
      beq_eq_false_iff_ne.mpr h3, beq_eq_false_iff_ne.mpr h4, beq_eq_false_iff_ne.mpr h5, beq_eq_false_iff_ne.mpr h6,
      beq_eq_false_iff_ne.mpr h7]
  have r : escapeChar c = if 32 ≤ c.toNat ∧ c.toNat ≤ 126 then [UInt8.ofNat c.toNat]
      else if c.toNat < 0x10000 then uEscape c.toNat
      else uEscape (0xd800 + (c.toNat - 0x10000) / 1024) ++ uEscape (0xdc00 + (c.toNat - 0x10000) % 1024) := by
    have k1 : ¬ c.toNat = 34 := key _ h1
    have k2 : ¬ c.toNat = 92 := key _ h2
    have k3 : ¬ c.toNat = 10 := key _ h3
    have k4 : ¬ c.toNat = 13 := key _ h4
    have k5 : ¬ c.toNat = 9 := key _ h5
    have k6 : ¬ c.toNat = 12 := key _ h6
    have k7 : ¬ c.toNat = 8 := key _ h7
    simp only [escapeChar, k1, k2, k3, k4, k5, k6, k7, if_false]
  have le : (' ' ≤ c ∧ c ≤ '~') = (32 ≤ c.toNat ∧ c.toNat ≤ 126) := rfl
  rw [r, charText, e]
  simp only [le]
  by_cases h8 : 32 ≤ c.toNat ∧ c.toNat ≤ 126
  · rw [if_pos h8, if_pos h8]
  · rw [if_neg h8, if_neg h8, utf16]
    split <;> simp [unitText_eq]

theorem strText_eq (s : List Char) : strText s = dumpStr s := by
  have e : bstr "\"" = [34] := by decide +kernel
  unfold strText dumpStr
  rw [e, List.flatMap_def, List.map_congr_left fun c _ => charText_eq c]
  rfl

theorem intercalate_cons_cons {α} (s a b : List α) (t : List (List α)) :
    s.intercalate (a :: b :: t) = a ++ (s ++ s.intercalate (b :: t)) := by
  simp [List.intercalate]

theorem dumpElems_eq (l : List Json) : dumpElems l = (bstr ", ").intercalate (l.map dumps) := by
  have e : bstr ", " = [44, 32] := by decide +kernel
  induction l with
  | nil => rw [dumpElems]; rfl
  | cons v t ih =>
    cases t with
    | nil => rw [dumpElems]; simp [List.intercalate]
    | cons w t => simp only [dumpElems, ih, List.map_cons, intercalate_cons_cons, e]; rfl

theorem dumpMembers_eq (l : List (List Char × Json)) :
    dumpMembers l = (bstr ", ").intercalate (List.zipWith (fun k b => strText k ++ bstr ": " ++ b) (l.map Prod.fst)
      (l.map fun p => dumps p.2)) := by
  have e : bstr ", " = [44, 32] := by decide +kernel
  have e' : bstr ": " = [58, 32] := by decide +kernel
  induction l with
  | nil => rw [dumpMembers]; rfl
  | cons p t ih =>
    obtain ⟨k, v⟩ := p
    cases t with
    | nil => rw [dumpMembers]; simp [List.intercalate, strText_eq, e']
    | cons w t =>
      rw [dumpMembers, ih]
      simp only [List.map_cons, List.zipWith_cons_cons]
      rw [intercalate_cons_cons, e, e']
      simp [strText_eq]

mutual
theorem written_dumps (j : Json) : Written (dumps j) j := by
  cases j with
  | null => rw [dumps]; exact .null
  | bool b => cases b <;> rw [dumps]; exacts [.false, .true]
  | num n =>
    rw [dumps, dumpInt]
    split
    · rename_i h
      have h1 := Written.neg (n := (-n).toNat) (by omega)
      rw [show (-(((-n).toNat : Nat) : Int)) = n by omega, JsonText.jsonDecimal_eq,
        show bstr "-" = [45] by decide +kernel] at h1
      exact h1
    · rename_i h
      have h1 := Written.nat (n := n.toNat)
      rw [show ((n.toNat : Nat) : Int) = n by omega, JsonText.jsonDecimal_eq] at h1
      exact h1
  | str s => rw [dumps, ← strText_eq]; exact .str
  | arr l =>
    have h1 := Written.arr (written_elems l)
    rw [← dumpElems_eq, show bstr "[" = [91] by decide +kernel, show bstr "]" = [93] by decide +kernel] at h1
    rw [dumps]
    exact h1
  | obj l =>
    have h1 := Written.obj (written_members l)
    rw [← dumpMembers_eq, show bstr "{" = [123] by decide +kernel, show bstr "}" = [125] by decide +kernel] at h1
    rw [dumps]
    exact h1
theorem written_elems (l : List Json) : List.Forall₂ Written (l.map dumps) l := by
  cases l with
  | nil => exact .nil
  | cons v t => exact .cons (written_dumps v) (written_elems t)
theorem written_members (l : List (List Char × Json)) :
    List.Forall₂ Written (l.map fun p => dumps p.2) (l.map Prod.snd) := by
  cases l with
  | nil => exact .nil
  | cons p t =>
    obtain ⟨k, v⟩ := p
    exact .cons (written_dumps v) (written_members t)
end

mutual
theorem written_unique (j : Json) (b : Bytes) (h : Written b j) : b = dumps j := by
  cases j with
  | null => cases h; rw [dumps]
  | bool x => cases h <;> rw [dumps]
  | num n =>
    cases h with
    | nat => rw [dumps, dumpInt, if_neg (by omega), JsonText.jsonDecimal_eq]; rfl
    | neg hn =>
      rw [dumps, dumpInt, if_pos (by omega), JsonText.jsonDecimal_eq, show bstr "-" = [45] by decide +kernel]
      simp
  | str s => cases h; rw [dumps, strText_eq]
  | arr l =>
    cases h with
    | arr h =>
      rw [dumps, dumpElems_eq, written_elems_unique l _ h, show bstr "[" = [91] by decide +kernel,
        show bstr "]" = [93] by decide +kernel]
      rfl
  | obj l =>
    cases h with
    | obj h =>
      rw [dumps, dumpMembers_eq, written_members_unique l _ h, show bstr "{" = [123] by decide +kernel,
        show bstr "}" = [125] by decide +kernel]
      rfl
theorem written_elems_unique (l : List Json) (bs : List Bytes) (h : List.Forall₂ Written bs l) : bs = l.map dumps := by
  cases l with
  | nil => cases h; rfl
  | cons v t =>
    cases h with
    | cons h1 h2 => rw [written_unique v _ h1, written_elems_unique t _ h2]; rfl
theorem written_members_unique (l : List (List Char × Json)) (bs : List Bytes)
    (h : List.Forall₂ Written bs (l.map Prod.snd)) : bs = l.map fun p => dumps p.2 := by
  cases l with
  | nil => cases h; rfl
  | cons p t =>
    obtain ⟨k, v⟩ := p
    cases h with
    | cons h1 h2 => rw [written_unique v _ h1, written_members_unique t _ h2]; rfl
end

/-- C78: the text that `json.dumps` writes, byte for byte: which characters are escaped and how, where blanks stand. -/
theorem C78_text (j : Json) (text : Bytes) : dumps j = text ↔ Written text j :=
  ⟨fun h => h ▸ written_dumps j, fun h => (written_unique j text h).symm⟩

example : Written (bstr "{\"a\": [1, -2], \"\\u007f\": null}") (.obj [(['a'], .arr [.num 1, .num (-2)]), ([Char.ofNat 127], .null)]) :=
  (C78_text _ _).mp (by decide +kernel)

end Verif.Props
