import Verif.Model.Base64
namespace Verif

/-- web-safe alphabet character -/
def wsChar (n : Nat) : UInt8 := trEnc (b64Char n)

theorem wsChar_facts : ∀ n : Fin 64,
    a2bTable (trDec (wsChar n)) = some n.val ∧ trDec (wsChar n) ≠ PAD ∧ wsChar n ≠ PAD ∧
    isSkipped (wsChar n) = false := by decide

theorem wsChar_table {n : Nat} (h : n < 64) : a2bTable (trDec (wsChar n)) = some n :=
  (wsChar_facts ⟨n, h⟩).1
theorem wsChar_dec_ne {n : Nat} (h : n < 64) : trDec (wsChar n) ≠ PAD :=
  (wsChar_facts ⟨n, h⟩).2.1
theorem wsChar_ne {n : Nat} (h : n < 64) : wsChar n ≠ PAD := (wsChar_facts ⟨n, h⟩).2.2.1
theorem wsChar_skip {n : Nat} (h : n < 64) : isSkipped (wsChar n) = false :=
  (wsChar_facts ⟨n, h⟩).2.2.2

theorem trEnc_b64Char (n : Nat) : trEnc (b64Char n) = wsChar n := rfl

theorem trEnc_PAD : trEnc PAD = PAD := by decide

theorem u8lt (a : UInt8) : a.toNat < 256 := UInt8.toNat_lt a

theorem WSE_nil : Base64WSEncode [] = [] := rfl

theorem WSE_one (a : UInt8) :
    Base64WSEncode [a] = [wsChar (a.toNat / 4), wsChar (a.toNat % 4 * 16)] := by
  have h := u8lt a
  simp only [Base64WSEncode, urlsafeB64encode, b64encode, List.map_cons, List.map_nil, trEnc_b64Char,
    trEnc_PAD]
  rw [List.filter_cons_of_pos (by simpa using wsChar_ne (by omega)),
    List.filter_cons_of_pos (by simpa using wsChar_ne (by omega))]
  simp

theorem WSE_two (a b : UInt8) :
    Base64WSEncode [a, b] = [wsChar (a.toNat / 4), wsChar (a.toNat % 4 * 16 + b.toNat / 16),
      wsChar (b.toNat % 16 * 4)] := by
  have h := u8lt a
  have h' := u8lt b
  simp only [Base64WSEncode, urlsafeB64encode, b64encode, List.map_cons, List.map_nil, trEnc_b64Char,
    trEnc_PAD]
  rw [List.filter_cons_of_pos (by simpa using wsChar_ne (by omega)),
    List.filter_cons_of_pos (by simpa using wsChar_ne (by omega)),
    List.filter_cons_of_pos (by simpa using wsChar_ne (by omega))]
  simp

theorem WSE_three (a b c : UInt8) (t : Bytes) :
    Base64WSEncode (a :: b :: c :: t) =
      wsChar (a.toNat / 4) :: wsChar (a.toNat % 4 * 16 + b.toNat / 16)
      :: wsChar (b.toNat % 16 * 4 + c.toNat / 64) :: wsChar (c.toNat % 64) ::
        Base64WSEncode t := by
  have h := u8lt a
  have h' := u8lt b
  have h'' := u8lt c
  simp only [Base64WSEncode, urlsafeB64encode, b64encode, List.map_cons, trEnc_b64Char]
  rw [List.filter_cons_of_pos (by simpa using wsChar_ne (by omega)),
    List.filter_cons_of_pos (by simpa using wsChar_ne (by omega)),
    List.filter_cons_of_pos (by simpa using wsChar_ne (by omega)),
    List.filter_cons_of_pos (by simpa using wsChar_ne (by omega))]

/-- induction in steps of three -/
theorem list_ind3 {α : Type} {P : List α → Prop} (h0 : P []) (h1 : ∀ a, P [a])
    (h2 : ∀ a b, P [a, b]) (h3 : ∀ a b c t, P t → P (a :: b :: c :: t)) : ∀ l, P l
  | [] => h0
  | [a] => h1 a
  | [a, b] => h2 a b
  | a :: b :: c :: t => h3 a b c t (list_ind3 h0 h1 h2 h3 t)

theorem WSE_mem (s : Bytes) : ∀ c ∈ Base64WSEncode s, ∃ n, n < 64 ∧ c = wsChar n := by
  induction s using list_ind3 with
  | h0 => simp [WSE_nil]
  | h1 a =>
    have h := u8lt a
    simp only [WSE_one, List.mem_cons, List.not_mem_nil, or_false]
    rintro c (rfl | rfl)
    · exact ⟨_, by omega, rfl⟩
    · exact ⟨_, by omega, rfl⟩
  | h2 a b =>
    have h := u8lt a
    have h' := u8lt b
    simp only [WSE_two, List.mem_cons, List.not_mem_nil, or_false]
    rintro c (rfl | rfl | rfl)
    · exact ⟨_, by omega, rfl⟩
    · exact ⟨_, by omega, rfl⟩
    · exact ⟨_, by omega, rfl⟩
  | h3 a b c t ih =>
    have h := u8lt a
    have h' := u8lt b
    have h'' := u8lt c
    simp only [WSE_three, List.mem_cons]
    rintro x (rfl | rfl | rfl | rfl | hx)
    · exact ⟨_, by omega, rfl⟩
    · exact ⟨_, by omega, rfl⟩
    · exact ⟨_, by omega, rfl⟩
    · exact ⟨_, by omega, rfl⟩
    · exact ih x hx

theorem WSE_length (s : Bytes) : (Base64WSEncode s).length = (4 * s.length + 2) / 3 := by
  induction s using list_ind3 with
  | h0 => rfl
  | h1 a => simp [WSE_one]
  | h2 a b => simp [WSE_two]
  | h3 a b c t ih => simp only [WSE_three, List.length_cons, ih]; omega

theorem WSE_filter (s : Bytes) :
    (Base64WSEncode s).filter (fun c => !isSkipped c) = Base64WSEncode s := by
  rw [List.filter_eq_self]
  intro c hc
  obtain ⟨n, hn, rfl⟩ := WSE_mem s c hc
  simp [wsChar_skip hn]

/-- one step of the decoder on an alphabet character -/
theorem a2bGo_char {n : Nat} (hn : n < 64) (s : Bytes) (q lc lb : Nat) (out : Bytes) :
    a2bGo (trDec (wsChar n) :: s) q lc lb out =
      if lb + 6 ≥ 8 then
        a2bGo s ((q + 1) % 4) ((lc * 64 + n) % 2 ^ (lb + 6 - 8)) (lb + 6 - 8)
          (out ++ [UInt8.ofNat ((lc * 64 + n) / 2 ^ (lb + 6 - 8))])
      else a2bGo s ((q + 1) % 4) (lc * 64 + n) (lb + 6) out := by
  rw [a2bGo, if_neg (wsChar_dec_ne hn), wsChar_table hn]

theorem ofNat_toNat' (a : UInt8) (n : Nat) (h : n = a.toNat) : UInt8.ofNat n = a := by
  subst h; simp

theorem a2b0 {n : Nat} (hn : n < 64) (s : Bytes) (q : Nat) (out : Bytes) :
    a2bGo (trDec (wsChar n) :: s) q 0 0 out = a2bGo s ((q + 1) % 4) n 6 out := by
  rw [a2bGo_char hn, if_neg (by omega)]; simp
theorem a2b6 {n : Nat} (hn : n < 64) (s : Bytes) (q lc : Nat) (out : Bytes) :
    a2bGo (trDec (wsChar n) :: s) q lc 6 out = a2bGo s ((q + 1) % 4) ((lc * 64 + n) % 16) 4
      (out ++ [UInt8.ofNat ((lc * 64 + n) / 16)]) := by
  rw [a2bGo_char hn, if_pos (by omega)]
theorem a2b4 {n : Nat} (hn : n < 64) (s : Bytes) (q lc : Nat) (out : Bytes) :
    a2bGo (trDec (wsChar n) :: s) q lc 4 out = a2bGo s ((q + 1) % 4) ((lc * 64 + n) % 4) 2
      (out ++ [UInt8.ofNat ((lc * 64 + n) / 4)]) := by
  rw [a2bGo_char hn, if_pos (by omega)]
theorem a2b2 {n : Nat} (hn : n < 64) (s : Bytes) (q lc : Nat) (out : Bytes) :
    a2bGo (trDec (wsChar n) :: s) q lc 2 out = a2bGo s ((q + 1) % 4) 0 0
      (out ++ [UInt8.ofNat (lc * 64 + n)]) := by
  rw [a2bGo_char hn, if_pos (by omega)]; simp [Nat.mod_one]

theorem a2bGo_quad (a b c : UInt8) (s : Bytes) (out : Bytes) :
    a2bGo (trDec (wsChar (a.toNat / 4)) :: trDec (wsChar (a.toNat % 4 * 16 + b.toNat / 16))
      :: trDec (wsChar (b.toNat % 16 * 4 + c.toNat / 64)) :: trDec (wsChar (c.toNat % 64)) :: s)
      0 0 0 out = a2bGo s 0 0 0 (out ++ [a, b, c]) := by
  have h := u8lt a
  have h' := u8lt b
  have h'' := u8lt c
  rw [a2b0 (by omega), a2b6 (by omega), a2b4 (by omega), a2b2 (by omega)]
  rw [ofNat_toNat' a _ (by omega), ofNat_toNat' b _ (by omega), ofNat_toNat' c _ (by omega)]
  simp

theorem a2bGo_two (a b : UInt8) (out : Bytes) :
    a2bGo [trDec (wsChar (a.toNat / 4)), trDec (wsChar (a.toNat % 4 * 16 + b.toNat / 16)),
      trDec (wsChar (b.toNat % 16 * 4)), PAD] 0 0 0 out = some (out ++ [a, b]) := by
  have h := u8lt a
  have h' := u8lt b
  rw [a2b0 (by omega), a2b6 (by omega), a2b4 (by omega)]
  rw [ofNat_toNat' a _ (by omega), ofNat_toNat' b _ (by omega)]
  simp [a2bGo]

theorem a2bGo_one (a : UInt8) (out : Bytes) :
    a2bGo [trDec (wsChar (a.toNat / 4)), trDec (wsChar (a.toNat % 4 * 16)), PAD, PAD]
      0 0 0 out = some (out ++ [a]) := by
  have h := u8lt a
  rw [a2b0 (by omega), a2b6 (by omega)]
  rw [ofNat_toNat' a _ (by omega)]
  have : findValid [PAD, PAD] 1 = some PAD := by decide
  simp [a2bGo, this]

/-- the padded encoding -/
def padB64 (s : Bytes) : Bytes :=
  if s.length % 4 = 2 then s ++ [PAD, PAD] else if s.length % 4 = 3 then s ++ [PAD] else s

theorem a2bGo_WSE (s : Bytes) : ∀ out,
    a2bGo ((padB64 (Base64WSEncode s)).map trDec) 0 0 0 out = some (out ++ s) := by
  have hP : trDec PAD = PAD := by decide
  induction s using list_ind3 with
  | h0 => intro out; simp [WSE_nil, padB64, a2bGo]
  | h1 a =>
    intro out
    simpa [WSE_one, padB64, hP] using a2bGo_one a out
  | h2 a b =>
    intro out
    simpa [WSE_two, padB64, hP] using a2bGo_two a b out
  | h3 a b c t ih =>
    intro out
    have : padB64 (Base64WSEncode (a :: b :: c :: t)) =
      wsChar (a.toNat / 4) :: wsChar (a.toNat % 4 * 16 + b.toNat / 16)
      :: wsChar (b.toNat % 16 * 4 + c.toNat / 64) :: wsChar (c.toNat % 64) ::
        padB64 (Base64WSEncode t) := by
      simp only [WSE_three, padB64, List.length_cons]
      rw [show (Base64WSEncode t).length + 1 + 1 + 1 + 1 = (Base64WSEncode t).length + 4 by rfl,
        Nat.add_mod_right]
      split
      · simp
      · split <;> simp
    rw [this]
    simp only [List.map_cons]
    rw [a2bGo_quad, ih]
    simp

theorem Base64WSDecode_encode (s : Bytes) : Base64WSDecode (Base64WSEncode s) = .ok s := by
  have hl := WSE_length s
  have h1 : (Base64WSEncode s).length % 4 ≠ 1 := by omega
  simp only [Base64WSDecode, WSE_filter, if_neg h1]
  have := a2bGo_WSE s []
  simp only [padB64] at this
  simp only [urlsafeB64decode, this, List.nil_append]

end Verif
