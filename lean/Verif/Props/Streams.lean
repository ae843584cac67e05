import Verif.Lemmas.StreamsDec
import Verif.Lemmas.Session
import Verif.Lemmas.ExampleSets
/-
Streams: C04, C05 (Base64), C56, C57, C58 (encryption and decryption), C59 (closed streams).
-/
namespace Verif.Props
open Verif Spec

/-! ## C04 -/

/-- C04: after any sequence of `write` calls on a fresh Base64 writer, and a `flush`, exactly the one-shot
encoding of all the data has been added to the output, and the writer is as new.  Before the flush, the
encoding of the longest part of the data whose length is a multiple of 3 (that is, only complete
4-character groups) has been written, and at most 2 bytes are kept back. -/
theorem C04_chunks {τ} (S : Sink τ) (text : τ → Bytes) (hS : Collects S text) (o : τ) (chunks : List Bytes) :
    let w := chunks.foldl (b64Sink S).write ⟨[], o⟩
    let w' := (b64Sink S).flush w
    text w'.out = text o ++ Base64WSEncode chunks.flatten ∧ w'.buffer = [] ∧
    text w.out = text o ++ Base64WSEncode (chunks.flatten.take (3 * (chunks.flatten.length / 3))) ∧
    (text w.out).length = (text o).length + 4 * (chunks.flatten.length / 3) ∧ w.buffer.length < 3 := by
  intro w w'
  obtain ⟨done, h1, h2, h3, h4⟩ := b64Writes_spec S text hS (text o) chunks ⟨[], o⟩ [] rfl (by simp [WSE_nil]) (by simp)
  simp only [List.nil_append] at h3
  obtain ⟨f1, f2⟩ := b64Flush_spec S text hS w
  have hdone : chunks.flatten.take (3 * (chunks.flatten.length / 3)) = done := by
    rw [← h3]
    have : 3 * ((done ++ (List.foldl (b64Sink S).write ⟨[], o⟩ chunks).buffer).length / 3) = done.length := by
      rw [List.length_append]; omega
    rw [this, List.take_left]
  refine ⟨?_, f2, ?_, ?_, h4⟩
  · show text (w.flush S).out = _
    rw [f1]
    show text (List.foldl (b64Sink S).write ⟨[], o⟩ chunks).out ++ _ = _
    rw [h2, List.append_assoc, ← WSE_append _ _ h1, h3]
  · rw [hdone]; exact h2
  · show (text (List.foldl (b64Sink S).write ⟨[], o⟩ chunks).out).length = _
    rw [h2, List.length_append, WSE_length]
    have := congrArg List.length hdone
    rw [List.length_take] at this
    omega

/-- C04: `close()` flushes and then raises AttributeError (finding). -/
theorem C04_close {τ} (S : Sink τ) (w : B64Writer τ) : w.close S = (.error .attributeError, w.flush S) := rfl

/-- example: the bytes written so far are a collecting output stream -/
theorem bytesSink_collects : Collects bytesSink id := ⟨fun _ _ => rfl, fun _ => rfl⟩

/-- example: "AB", "", "CDE", "FG" written one after the other and flushed is "QUJDREVGRw" -/
example : ((b64Sink bytesSink).flush ([[65, 66], [], [67, 68, 69], [70, 71]].foldl (b64Sink bytesSink).write ⟨[], []⟩)).out =
    bstr "QUJDREVGRw" := by decide +kernel

/-! ## C05 -/

/-- a program that makes the given `read(size, chars)` calls -/
def b64Reads {σ} (m : Source σ) (fuel : Nat) (r : B64Reader σ) : List (Int × Int) → List (Py (Option Bytes)) × B64Reader σ
  | [] => ([], r)
  | (size, chars) :: calls =>
    let (x, r') := r.read m fuel size chars
    let (xs, r'') := b64Reads m fuel r' calls
    (x :: xs, r'')

theorem b64Reads_mid {σ} {m : Source σ} {good : σ → Prop} {rest : σ → Bytes} {left : σ → Nat} {f : Nat → Nat}
    (hm : Serves m good rest left f) (fuel : Nat) :
    ∀ (calls : List (Int × Int)) (r : B64Reader σ) (b : Bytes), B64Mid good rest r b → left r.src < fuel →
      (∀ c ∈ calls, c.1 ≠ 0 ∧ c.2 ≠ 0) →
      ∃ (outs : List Bytes) (r' : B64Reader σ) (b' : Bytes), b64Reads m fuel r calls = (outs.map fun o => .ok (some o), r') ∧
        b = outs.flatten ++ b' ∧ ([] ∈ outs → b' = []) ∧ (b.length < calls.length → [] ∈ outs) ∧
        (∀ p ∈ calls.zip outs, 0 ≤ p.1.2 → p.2.length ≤ max p.1.2.toNat 2) ∧ outs.length = calls.length
  | [], r, b, _, _, _ => ⟨[], r, b, rfl, rfl, by simp, by simp, by simp, rfl⟩
  | (size, chars) :: calls, r, b, hr, hf, hc => by
    obtain ⟨h1, h2⟩ := hc (size, chars) (by simp)
    obtain ⟨out, r', b', q1, q2, q3, q4, q5, q6, -, -⟩ := b64Read_spec hm h1 h2 fuel r b hr hf
    obtain ⟨outs, r'', b'', p1, p2, p3, p4, p5, p6⟩ := b64Reads_mid hm fuel calls r' b' q2 (by omega) (fun c h => hc c (by simp [h]))
    refine ⟨out :: outs, r'', b'', ?_, ?_, ?_, ?_, ?_, by simp [p6]⟩
    · simp only [b64Reads, q1, p1, List.map_cons]
    · rw [q3, p2, List.flatten_cons, List.append_assoc]
    · intro h
      rcases List.mem_cons.mp h with h | h
      · have := q4 h.symm
        rw [this] at p2
        exact (List.append_eq_nil_iff.mp p2.symm).2
      · exact p3 h
    · intro h
      by_cases ho : out = []
      · simp [ho]
      · have : 0 < out.length := List.length_pos_iff.mpr ho
        rw [q3, List.length_append, List.length_cons] at h
        exact List.mem_cons_of_mem _ (p4 (by omega))
    · intro p hp
      rw [List.zip_cons_cons, List.mem_cons] at hp
      rcases hp with rfl | hp
      · exact q6
      · exact p5 p hp

/-- C05: over every stream that delivers a web-safe Base64 text as `Base64WSEncode` makes it (in
whatever pieces, with whatever "no data yet" answers in between), every sequence of `read(size, chars)`
calls with non-zero arguments returns byte strings that together are an initial part of the data; once
the empty string has been returned they are all of it; and the empty string comes after at most as many
calls as there are bytes.  With `chars > 0` at most `max chars 2` bytes are returned. -/
theorem C05_reads {σ} (m : Source σ) (good : σ → Prop) (rest : σ → Bytes) (left : σ → Nat) (f : Nat → Nat)
    (hm : Serves m good rest left f) (s : σ) (hs : good s) (data : Bytes) (hdata : rest s = Base64WSEncode data)
    (fuel : Nat) (hf : left s < fuel) (calls : List (Int × Int)) (hc : ∀ c ∈ calls, c.1 ≠ 0 ∧ c.2 ≠ 0) :
    ∃ outs : List Bytes, (b64Reads m fuel ⟨[], [], s⟩ calls).1 = outs.map (fun o => .ok (some o)) ∧
      Base64WSDecode (rest s) = .ok data ∧ outs.flatten <+: data ∧ ([] ∈ outs → outs.flatten = data) ∧
      (data.length < calls.length → [] ∈ outs) ∧
      (∀ p ∈ calls.zip outs, 0 ≤ p.1.2 → p.2.length ≤ max p.1.2.toNat 2) := by
  obtain ⟨outs, r', b', p1, p2, p3, p4, p5, -⟩ := b64Reads_mid hm fuel calls ⟨[], [], s⟩ data
    ⟨hs, by simp, data, by simpa using hdata, rfl⟩ hf hc
  refine ⟨outs, by rw [p1], by rw [hdata, Base64WSDecode_encode], ⟨b', p2.symm⟩, fun h => ?_, p4, p5⟩
  rw [p2, p3 h, List.append_nil]

/-- C05: nested under another reader, the Base64 reader is again a stream of the same kind, which
delivers the decoded data. -/
theorem C05_source {σ} (m : Source σ) (good : σ → Prop) (rest : σ → Bytes) (left : σ → Nat) (f : Nat → Nat)
    (hm : Serves m good rest left f) (hf1 : ∀ n, 1 ≤ n → 1 ≤ f n) (s : σ) (hs : good s) (data : Bytes)
    (hdata : rest s = Base64WSEncode data) (fuel : Nat) (hf : left s < fuel) :
    ∃ (good' : B64Reader σ → Prop) (rest' : B64Reader σ → Bytes) (left' : B64Reader σ → Nat),
      Serves (b64Source m fuel) good' rest' left' (fun n => n - 1 + 3 * ((3 + f n) / 4)) ∧
      good' ⟨[], [], s⟩ ∧ rest' ⟨[], [], s⟩ = data ∧ left' ⟨[], [], s⟩ = 2 * left s := by
  refine ⟨_, _, _, b64Source_serves hm hf1 fuel, ⟨hf, rfl, data, hs, by simp, data, by simpa using hdata, rfl⟩, ?_, ?_⟩
  · simp only [List.nil_append, hdata, Base64WSDecode_encode]
  · simp

theorem b64Loop_none {σ} (m : Source σ) (size chars : Int) :
    ∀ (fuel : Nat) (r : B64Reader σ) (nd : Option Bytes) (r' : B64Reader σ), b64Satisfied r.chars size chars = false ∨ nd ≠ none →
      B64Reader.loop m size chars fuel r nd = (.ok none, r') →
      b64Satisfied r'.chars size chars = true ∧ (chars < 0 → r'.chars ≠ []) ∧ (0 ≤ chars → 0 < chars ∧ chars ≤ r'.chars.length)
  | 0, _, _, _, _, h => by simp [B64Reader.loop] at h
  | fuel + 1, r, nd, r', hn, h => by
    unfold B64Reader.loop at h
    by_cases hs : b64Satisfied r.chars size chars = true
    · rw [if_pos hs] at h
      rcases hn with hn | hn
      · rw [hs] at hn; cases hn
      · simp only [Prod.mk.injEq, Except.ok.injEq] at h
        exact absurd h.1 hn
    · have hs' : b64Satisfied r.chars size chars = false := by simpa using hs
      rw [if_neg hs] at h
      have key : ∀ (r2 : B64Reader σ) nd2, B64Reader.loop m size chars fuel r2 nd2 = (.ok none, r') →
          b64Satisfied r'.chars size chars = true ∧ (chars < 0 → r'.chars ≠ []) ∧ (0 ≤ chars → 0 < chars ∧ chars ≤ r'.chars.length) := by
        intro r2 nd2 h2
        by_cases h3 : b64Satisfied r2.chars size chars = true ∧ nd2 = none
        · cases fuel with
          | zero => simp [B64Reader.loop] at h2
          | succ fuel =>
            unfold B64Reader.loop at h2
            rw [if_pos h3.1] at h2
            simp only [Prod.mk.injEq] at h2
            rw [← h2.2]
            refine ⟨h3.1, fun hc h0 => ?_, fun hc => ?_⟩
            · have h31 := h3.1
              simp only [b64Satisfied, hc, if_true] at h31 hs'
              split at h31
              · simp [h0] at h31
              · next hsz =>
                rw [if_neg hsz] at hs'
                simp only [h0, List.length_nil, decide_eq_true_eq, decide_eq_false_iff_not] at h31 hs'
                omega
            · have h31 := h3.1
              simp only [b64Satisfied, if_neg (show ¬ chars < 0 by omega), decide_eq_true_eq, decide_eq_false_iff_not] at h31 hs'
              omega
        · refine b64Loop_none m size chars fuel r2 nd2 r' ?_ h2
          by_cases h4 : nd2 = none
          · left
            have : ¬ b64Satisfied r2.chars size chars = true := fun h5 => h3 ⟨h5, h4⟩
            simpa using this
          · exact .inr h4
      split at h
      · simp at h
      · exact key _ _ h
      · split at h
        · simp at h
        · split at h
          · simp at h
          · exact key _ _ h

/-- C05 (finding): whatever the underlying stream does, `read` never returns None, although its comment
says it does when the underlying stream does. -/
theorem C05_never_none {σ} (m : Source σ) (fuel : Nat) (r r' : B64Reader σ) (size chars : Int) :
    r.read m fuel size chars ≠ (.ok none, r') := by
  intro h
  unfold B64Reader.read at h
  split at h
  · simp at h
  · next nd r2 hl =>
    have hl2 : nd = none → (if chars < 0 then r2.chars else sliceTo r2.chars chars) ≠ [] := by
      rintro rfl hres
      obtain ⟨-, h2, h3⟩ := b64Loop_none m size chars fuel r (some []) r2 (.inr (by simp)) hl
      by_cases hc : chars < 0
      · rw [if_pos hc] at hres; exact h2 hc hres
      · obtain ⟨h4, h5⟩ := h3 (by omega)
        obtain ⟨n, rfl⟩ := Int.eq_ofNat_of_zero_le (show 0 ≤ chars by omega)
        rw [if_neg hc, sliceTo_nat, List.take_eq_nil_iff] at hres
        rcases hres with h6 | h6
        · omega
        · rw [h6, List.length_nil] at h5; omega
    dsimp only at h
    generalize (if chars < 0 then r2.chars else sliceTo r2.chars chars) = res at h hl2
    by_cases h1 : res = [] ∧ nd = none
    · exact hl2 h1.2 h1.1
    · rw [if_neg h1] at h
      split at h
      · split at h <;> simp at h
      · simp at h

/-- C05 (finding): over a non-blocking stream that has no data, `read` does not return at all (it polls the
stream for ever): every bound on the number of iterations is exceeded. -/
theorem C05_spins (fuel : Nat) (size chars : Int) (h1 : size ≠ 0) (h2 : chars ≠ 0) :
    (B64Reader.read (σ := Unit) ⟨fun s _ => (.ok none, s)⟩ fuel ⟨[], [], ()⟩ size chars).1 = .error .diverged := by
  have key : ∀ fuel nd, B64Reader.loop (σ := Unit) ⟨fun s _ => (.ok none, s)⟩ size chars fuel ⟨[], [], ()⟩ nd =
      (.error .diverged, ⟨[], [], ()⟩) := by
    intro fuel
    induction fuel with
    | zero => intro nd; rfl
    | succ fuel ih =>
      intro nd
      unfold B64Reader.loop
      have : b64Satisfied [] size chars = false := by
        cases h : b64Satisfied [] size chars with
        | false => rfl
        | true => exact absurd rfl (b64Satisfied_ne_nil h1 h2 h)
      rw [if_neg (by rw [this]; simp)]
      exact ih none
  unfold B64Reader.read
  rw [key]

/-- C05 (counterexample): a line break inside the text changes what the streaming decoder does: the one-shot
decoder gives "ABC" for "QU\nJD", the streaming decoder raises an exception. -/
theorem C05_whitespace_differs :
    Base64WSDecode [81, 85, 10, 74, 68] = .ok [65, 66, 67] ∧
    (B64Reader.read scheduled 10 ⟨[], [], ([81, 85, 10, 74, 68], [])⟩ (-1) (-1)).1 = .ok (some [65, 66]) ∧
    (b64Reads scheduled 10 ⟨[], [], ([81, 85, 10, 74, 68], [])⟩ [(-1, -1), (-1, -1)]).1 =
      [.ok (some [65, 66]), .error .base64Decoding] := by
  decide +kernel

/-- C05 (counterexample): `read(0)` in the middle of the text decodes the buffered characters on their own and
spoils the data: "QUJDREVG" is "ABCDEF". -/
theorem C05_size_zero_differs :
    Base64WSDecode [81, 85, 74, 68, 82, 69, 86, 71] = .ok [65, 66, 67, 68, 69, 70] ∧
    (b64Reads scheduled 10 ⟨[], [], ([81, 85, 74, 68, 82, 69, 86, 71], [])⟩ [(3, -1), (0, -1), (3, -1), (3, -1)]).1 =
      [.ok (some [65, 66, 67]), .ok (some [68]), .ok (some [84]), .ok (some [])] := by
  decide +kernel

/-- example: the schedule "no data", 1 byte, 2 bytes, "no data", all; sizes 3 and unlimited -/
example : (b64Reads scheduled 20 ⟨[], [], (bstr "QUJDREVGRw", [none, some 0, some 1, none])⟩ [(3, -1), (2, 1), (-1, -1), (5, 2), (-1, -1)]).1 =
    [.ok (some [65, 66, 67]), .ok (some [68]), .ok (some [69, 70]), .ok (some [71]), .ok (some [])] := by decide +kernel

/-! ## C56 -/

variable (P : Prims)

/-- C56: creating an encrypting stream on any output stream, writing data in any sequence of `write` calls
and flushing: nothing raises, and what reaches the output is a sequence of writes that together are
exactly what `AesKey.Encrypt` returns for the concatenated data with the same IV, then a flush. -/
theorem C56_chunks {τ} (S : Sink τ) (out0 : τ) (k : AesKey) (kb hb iv : Bytes) (h : UsableAes k kb hb) (hiv : iv.length = 16)
    (chunks : List Bytes) :
    ∃ (w0 w1 w2 : EncWriter τ) (writes : List Bytes) (c : Bytes),
      EncWriter.new P S (.aes k) iv out0 = .ok w0 ∧ w0.writeAll P S chunks = (.ok (), w1) ∧ w1.flush P S = (.ok (), w2) ∧
      k.Encrypt P iv chunks.flatten = .ok c ∧ writes.flatten = c ∧ w2.out = S.flush (writes.foldl S.write out0) := by
  obtain ⟨w0, h0, hd0, hm0⟩ := EncWriter.new_mid P S out0 h hiv
  obtain ⟨w1, ws1, done, h1, hm1, hf1⟩ := EncMid.writeAll P h hiv chunks hm0
  obtain ⟨w2, ws2, h2, -, -, -, -, ho, hfl⟩ := EncMid.flush P h hiv hm1
  rw [hd0, List.nil_append, List.nil_append] at hf1
  rw [hf1] at hfl
  exact ⟨w0, w1, w2, ws2, _, h0, h1, h2, aesEncrypt_eq P h hiv _, hfl, ho⟩

theorem foldl_text {τ} {S : Sink τ} {text : τ → Bytes} (hS : Collects S text) :
    ∀ (ws : List Bytes) (o : τ), text (ws.foldl S.write o) = text o ++ ws.flatten
  | [], o => by simp
  | w :: ws, o => by rw [List.foldl_cons, foldl_text hS ws, hS.write]; simp

/-- C56 through a Crypter, raw (`encoder=None`): the encrypting stream of a loaded Crypter with an AES PRIMARY
key adds exactly what `Encrypt(data)` returns (with the same random bytes) to the output, however the
data is split. -/
theorem C56_crypter {τ} (S : Sink τ) (text : τ → Bytes) (hS : Collects S text) (out0 : τ) (c : Czar) (hc : Loaded P c) (e : Entry) (k : AesKey)
    (kb hb : Bytes) (hp : c.keySet.primaries = [e]) (hk : e.key = .aes k) (hu : UsableAes k kb hb) (rnd : Rand) (chunks : List Bytes) :
    ∃ (w0 w1 w2 : EncWriter τ) (ct : Bytes), c.CreateEncryptingStreamWriter P S rnd out0 = .ok w0 ∧
      w0.writeAll P S chunks = (.ok (), w1) ∧ w1.flush P S = (.ok (), w2) ∧
      c.Encrypt P rnd chunks.flatten none = .ok ct ∧ text w2.out = text out0 ++ ct := by
  obtain ⟨w0, w1, w2, ws, ct, h0, h1, h2, h3, h4, h5⟩ := C56_chunks P S out0 k kb hb (rnd.bytes 0 16) hu (rnd.bytes_length 0 16) chunks
  refine ⟨w0, w1, w2, ct, ?_, h1, h2, ?_, ?_⟩
  · simp only [Czar.CreateEncryptingStreamWriter, hc.primaryKey hp, hk, bind, Except.bind, h0]
  · rw [Encrypt_raw P hc hp, hk]
    simp only [Key.Encrypt, h3]
    rfl
  · rw [h5, hS.flush, foldl_text hS, h4]

/-- C56 through a Crypter, with the Base64 encoder (the default): the output is exactly what `Encrypt(data)`
returns. -/
theorem C56_crypter_base64 {τ} (S : Sink τ) (text : τ → Bytes) (hS : Collects S text) (out0 : τ) (c : Czar) (hc : Loaded P c) (e : Entry)
    (k : AesKey) (kb hb : Bytes) (hp : c.keySet.primaries = [e]) (hk : e.key = .aes k) (hu : UsableAes k kb hb) (rnd : Rand)
    (chunks : List Bytes) :
    ∃ (w0 w1 w2 : EncWriter (B64Writer τ)) (ct : Bytes), c.CreateEncryptingStreamWriter P (b64Sink S) rnd ⟨[], out0⟩ = .ok w0 ∧
      w0.writeAll P (b64Sink S) chunks = (.ok (), w1) ∧ w1.flush P (b64Sink S) = (.ok (), w2) ∧
      c.Encrypt P rnd chunks.flatten (some Base64WSEncode) = .ok ct ∧ text w2.out.out = text out0 ++ ct := by
  obtain ⟨w0, w1, w2, ws, ct, h0, h1, h2, h3, h4, h5⟩ :=
    C56_chunks P (b64Sink S) ⟨[], out0⟩ k kb hb (rnd.bytes 0 16) hu (rnd.bytes_length 0 16) chunks
  refine ⟨w0, w1, w2, Base64WSEncode ct, ?_, h1, h2, ?_, ?_⟩
  · simp only [Czar.CreateEncryptingStreamWriter, hc.primaryKey hp, hk, bind, Except.bind, h0]
  · rw [Encrypt_raw P hc hp, hk]
    simp only [Key.Encrypt, h3]
    rfl
  · rw [h5, ← h4]
    exact (C04_chunks S text hS out0 ws).1

/-- C56: `Decrypt` of any Crypter that has the key accepts the text on the output and returns the data. -/
theorem C56_decrypts {τ} (S : Sink τ) (text : τ → Bytes) (hS : Collects S text) (out0 : τ) (hout0 : text out0 = []) (c c' : Czar)
    (hc : Loaded P c) (hc' : Loaded P c') (hd : c'.keySet.Distinct P) (e e' : Entry) (k : AesKey) (kb hb : Bytes)
    (hp : c.keySet.primaries = [e]) (hk : e.key = .aes k) (he' : e' ∈ c'.keySet.entries) (hk' : e'.key = .aes k)
    (hu : UsableAes k kb hb) (rnd : Rand) (chunks : List Bytes) :
    ∃ (w0 w1 w2 : EncWriter (B64Writer τ)), c.CreateEncryptingStreamWriter P (b64Sink S) rnd ⟨[], out0⟩ = .ok w0 ∧
      w0.writeAll P (b64Sink S) chunks = (.ok (), w1) ∧ w1.flush P (b64Sink S) = (.ok (), w2) ∧
      c'.Decrypt P (text w2.out.out) (some Base64WSDecode) = .ok chunks.flatten := by
  obtain ⟨w0, w1, w2, ct, h0, h1, h2, h3, h4⟩ := C56_crypter_base64 P S text hS out0 c hc e k kb hb hp hk hu rnd chunks
  refine ⟨w0, w1, w2, h0, h1, h2, ?_⟩
  rw [h4, hout0, List.nil_append]
  exact C22_aes_round_trip P c c' hc hc' hd e e' k hp hk he' hk' _ _ inverse_base64 rnd _ _ h3

/-- C56: a set whose PRIMARY key is not an AES key has no encrypting stream. -/
theorem C56_not_aes {τ} (S : Sink τ) (out0 : τ) (c : Czar) (hc : Loaded P c) (e : Entry) (hp : c.keySet.primaries = [e])
    (hk : ∀ k, e.key ≠ .aes k) (rnd : Rand) : c.CreateEncryptingStreamWriter P S rnd out0 = .error .attributeError := by
  simp only [Czar.CreateEncryptingStreamWriter, hc.primaryKey hp, bind, Except.bind]
  cases h : e.key with
  | aes k => exact absurd h (hk k)
  | _ => rfl

/-- C56 (finding): flush does not clear the buffer, so a second flush adds a second final block and a second tag.
The result is not a ciphertext of the data: if Decrypt accepts it, two different messages have the same HMAC. -/
theorem C56_second_flush (k : AesKey) (kb hb iv : Bytes) (h : UsableAes k kb hb) (hiv : iv.length = 16) (chunks : List Bytes) (m : Bytes) :
    ∃ (w0 w1 w2 w3 : EncWriter Bytes) (c blk tag : Bytes), EncWriter.new P bytesSink (.aes k) iv [] = .ok w0 ∧
      w0.writeAll P bytesSink chunks = (.ok (), w1) ∧ w1.flush P bytesSink = (.ok (), w2) ∧ w2.flush P bytesSink = (.ok (), w3) ∧
      k.Encrypt P iv chunks.flatten = .ok c ∧ w2.out = c ∧ w3.out = c ++ blk ++ tag ∧ blk.length = 16 ∧ tag.length = 20 ∧
      tag = hmacSha1 P hb (c.take (c.length - 20) ++ blk) ∧
      (k.Decrypt P w3.out = .ok m → hmacSha1 P hb (c.take (c.length - 20) ++ blk) = hmacSha1 P hb (c ++ blk)) := by
  obtain ⟨w0, h0, hd0, hm0⟩ := EncWriter.new_mid P bytesSink [] h hiv
  obtain ⟨w1, ws1, done, h1, hm1, hf1⟩ := EncMid.writeAll P h hiv chunks hm0
  obtain ⟨w2, ws2, h2, hda, hcl, hmac, hci, ho, hfl⟩ := EncMid.flush P h hiv hm1
  rw [hd0, List.nil_append, List.nil_append] at hf1
  rw [hf1] at hfl hmac hci
  have hout2 : w2.out = aesHeader P kb hb ++ iv ++ aesBody P kb iv chunks.flatten ++
      hmacSha1 P hb (aesHeader P kb hb ++ iv ++ aesBody P kb iv chunks.flatten) := by
    rw [ho, ← hfl]
    exact (foldl_text bytesSink_collects ws2 []).trans (by simp)
  have hbody : (aesBody P kb iv chunks.flatten).length % 16 = 0 := by rw [aesBody_length P h.len hiv]; omega
  have hch := chainD_length (iv := iv) hiv hbody
  generalize hM : aesHeader P kb hb ++ iv ++ aesBody P kb iv chunks.flatten = M at *
  have hpl : (aesPad w2.data).length % 16 = 0 := by rw [aesPad_length]; omega
  have hblk : (cbcE P kb (chainD iv (aesBody P kb iv chunks.flatten)) (aesPad w2.data)).length = 16 := by
    rw [cbcE_length P h.len hch hpl, aesPad_length, hda]
    have := hm1.data
    omega
  have hw3 : w2.flush P bytesSink = (.ok (), { w2 with
      cipher := ⟨kb, chainD (chainD iv (aesBody P kb iv chunks.flatten)) (cbcE P kb (chainD iv (aesBody P kb iv chunks.flatten)) (aesPad w2.data))⟩,
      hmac := ⟨hb, M ++ cbcE P kb (chainD iv (aesBody P kb iv chunks.flatten)) (aesPad w2.data)⟩,
      out := w2.out ++ cbcE P kb (chainD iv (aesBody P kb iv chunks.flatten)) (aesPad w2.data) ++
        hmacSha1 P hb (M ++ cbcE P kb (chainD iv (aesBody P kb iv chunks.flatten)) (aesPad w2.data)) }) := by
    unfold EncWriter.flush
    rw [if_neg (by rw [hcl]; simp)]
    simp only [EncWriter.writeEncrypted, if_true, hci, CbcObj.encrypt_cbcE P h.len hch hpl, hmac, HmacObj.update, HmacObj.digest, bytesSink]
  refine ⟨w0, w1, w2, _, M ++ hmacSha1 P hb M, _, _, h0, h1, h2, hw3, ?_, hout2, by rw [hout2], hblk, hmacSha1_length P _ _, ?_, ?_⟩
  · rw [aesEncrypt_eq P h hiv, hM]
  · rw [List.length_append, hmacSha1_length, Nat.add_sub_cancel, List.take_left]
  · intro hdec
    have hl : (aesHeader P kb hb).length = 5 := aesHeader_length P kb hb
    rw [List.length_append, hmacSha1_length, Nat.add_sub_cancel, List.take_left]
    simp only [hout2, ← hM] at hdec
    generalize cbcE P kb (chainD iv (aesBody P kb iv chunks.flatten)) (aesPad w2.data) = blk at *
    have e : aesHeader P kb hb ++ iv ++ aesBody P kb iv chunks.flatten ++
        hmacSha1 P hb (aesHeader P kb hb ++ iv ++ aesBody P kb iv chunks.flatten) ++ blk ++
        hmacSha1 P hb (aesHeader P kb hb ++ iv ++ aesBody P kb iv chunks.flatten ++ blk) =
        aesHeader P kb hb ++ iv ++ (aesBody P kb iv chunks.flatten ++
        hmacSha1 P hb (aesHeader P kb hb ++ iv ++ aesBody P kb iv chunks.flatten) ++ blk) ++
        hmacSha1 P hb (aesHeader P kb hb ++ iv ++ aesBody P kb iv chunks.flatten ++ blk) := by
      simp only [List.append_assoc]
    rw [e, aesDecrypt_eq P h _ _ _ _ hl hiv (hmacSha1_length P _ _)] at hdec
    split at hdec
    · next ht =>
      rw [hM] at ht
      rw [ht, ← hM]
      simp only [List.append_assoc]
    · cases hdec

/-! ## C57 -/

/-- a program that makes the given `read(chars)` calls -/
def decReads {σ} (m : Source σ) (c : Czar) (fuel : Nat) (r : DecReader σ) : List Int → List (Py (Option Bytes)) × DecReader σ
  | [] => ([], r)
  | chars :: calls =>
    let (x, r') := r.read P m c fuel chars
    let (xs, r'') := decReads m c fuel r' calls
    (x :: xs, r'')

/-- what a result contributes to the data -/
def delivered : Py (Option Bytes) → Bytes
  | .ok (some o) => o
  | _ => []

section
variable {σ : Type} {m : Source σ} {good : σ → Prop} {rest : σ → Bytes} {left : σ → Nat} {f : Nat → Nat} {c : Czar} {X : Bytes}

/-- a sequence of reads without exception -/
theorem decReads_mid (hm : Serves m good rest left f) (hf : ∀ n, 1 ≤ n → n ≤ 5 → f n ≤ 16) (fuel : Nat)
    (hne : ∀ e, ¬ StreamError P c X e) :
    ∀ (calls : List Int) (r : DecReader σ) (outs : Bytes), DecMid P good rest c X r outs → left r.src < fuel →
      ∃ (res : List (Option Bytes)) (r' : DecReader σ), decReads P m c fuel r calls = (res.map .ok, r') ∧
        res.length = calls.length ∧
        DecMid P good rest c X r' (outs ++ (res.map (·.getD [])).flatten) ∧
        (∀ p ∈ calls.zip res, (p.2 = none → p.1 = 0) ∧ (0 ≤ p.1 → (p.2.getD []).length ≤ p.1.toNat)) ∧
        (∀ (i : Nat) (chars : Int), calls[i]? = some chars → chars ≠ 0 → res[i]? = some (some []) →
          ∃ r'', DecEnd P good rest c X r'' (outs ++ ((res.take i).map (·.getD [])).flatten))
  | [], r, outs, h, _ => ⟨[], r, rfl, rfl, by simpa using h, by simp, by simp⟩
  | chars :: calls, r, outs, h, hl => by
    rcases read_spec P hm hf h hl chars with ⟨e, r', -, h2, -⟩ | ⟨r', x, h1, h2, h3, h4, h5, h6⟩
    · exact absurd h2 (hne e)
    · obtain ⟨res, r'', p1, p0, p2, p3, p4⟩ := decReads_mid hm hf fuel hne calls r' (outs ++ x.getD []) h2 (by omega)
      refine ⟨x :: res, r'', ?_, by simp [p0], ?_, ?_, ?_⟩
      · simp only [decReads, h1, p1, List.map_cons]
      · simpa [List.append_assoc] using p2
      · intro p hp
        rw [List.zip_cons_cons, List.mem_cons] at hp
        rcases hp with rfl | hp
        · exact ⟨h3, h4⟩
        · exact p3 p hp
      · intro i ch hc h0 hr
        cases i with
        | zero =>
          simp only [List.getElem?_cons_zero, Option.some.injEq] at hc hr
          subst hc
          exact ⟨r', by simpa using h5 hr h0⟩
        | succ i =>
          simp only [List.getElem?_cons_succ] at hc hr
          obtain ⟨r3, h7⟩ := p4 i ch hc h0 hr
          exact ⟨r3, by simpa [List.append_assoc] using h7⟩
end

theorem UsableAes.unique {k : AesKey} {kb hb kb' hb' : Bytes} (h : UsableAes k kb hb) (h' : UsableAes k kb' hb') : kb' = kb ∧ hb' = hb := by
  have h1 := h.aes; rw [h'.aes] at h1
  have h2 := h.mac; rw [h'.mac] at h2
  exact ⟨Except.ok.inj h1, Except.ok.inj h2⟩

theorem split_unique {h1 i1 b1 t1 h2 i2 b2 t2 : Bytes} (e : h1 ++ i1 ++ b1 ++ t1 = h2 ++ i2 ++ b2 ++ t2)
    (hh1 : h1.length = 5) (hh2 : h2.length = 5) (hi1 : i1.length = 16) (hi2 : i2.length = 16) (ht1 : t1.length = 20) (ht2 : t2.length = 20) :
    h1 = h2 ∧ i1 = i2 ∧ b1 = b2 ∧ t1 = t2 := by
  have hl := congrArg List.length e
  simp only [List.length_append] at hl
  obtain ⟨e1, e2⟩ := List.append_inj e (by simp only [List.length_append]; omega)
  obtain ⟨e3, e4⟩ := List.append_inj e1 (by simp only [List.length_append]; omega)
  obtain ⟨e5, e6⟩ := List.append_inj e3 (by omega)
  exact ⟨e5, e6, e4, e2⟩

/-- removing the padding from the last part is removing it from the whole, when the padding is not longer
than that part -/
theorem aesUnPad_suffix {a b : Bytes} {v : UInt8} (hv : b.getLast? = some v) (h1 : 1 ≤ v.toNat) (h2 : v.toNat ≤ b.length) :
    ∃ u, aesUnPad b = .ok u ∧ aesUnPad (a ++ b) = .ok (a ++ u) := by
  have hab : (a ++ b).getLast? = some v := by
    rw [List.getLast?_append, hv]; rfl
  refine ⟨b.take (b.length - v.toNat), ?_, ?_⟩
  · simp only [aesUnPad, hv, sliceTo_neg _ _ h1]
  · simp only [aesUnPad, hab, sliceTo_neg _ _ h1, List.length_append]
    rw [List.take_append, List.take_of_length_le (by omega)]
    congr 3; omega

theorem aesPad_last (p : Bytes) : ∃ v, (aesPad p).getLast? = some v ∧ 1 ≤ v.toNat ∧ v.toNat ≤ 16 := by
  refine ⟨UInt8.ofNat (16 - p.length % 16), ?_, ?_, ?_⟩
  · unfold aesPad
    rw [List.getLast?_append, List.getLast?_replicate, if_neg (by omega)]; rfl
  · rw [UInt8.toNat_ofNat']; omega
  · rw [UInt8.toNat_ofNat']; omega

section
variable {σ : Type} {good : σ → Prop} {rest : σ → Bytes} {c : Czar} {k : AesKey} {kb hb iv p : Bytes}

/-- the whole ciphertext -/
def wholeCipher (kb hb iv p : Bytes) : Bytes :=
  aesHeader P kb hb ++ iv ++ aesBody P kb iv p ++ hmacSha1 P hb (aesHeader P kb hb ++ iv ++ aesBody P kb iv p)

theorem valid_no_error (hu : UsableAes k kb hb) (hiv : iv.length = 16) (hp : c.ParseHeader (aesHeader P kb hb) = .ok (.aes k))
    (e : PyErr) : ¬ StreamError P c (wholeCipher P kb hb iv p) e := by
  have hh := aesHeader_length P kb hb
  have hX5 : (wholeCipher P kb hb iv p).take 5 = aesHeader P kb hb := by
    unfold wholeCipher
    rw [List.append_assoc, List.append_assoc, ← hh, List.take_left]
  intro h
  cases h with
  | header e _ h => rw [hX5, hp] at h; cases h
  | key e key _ h hno =>
    rw [hX5, hp] at h
    exact hno ⟨k, kb, hb, (Except.ok.inj h).symm, hu⟩
  | blocks k' kb' hb' hdr iv' body tag h1 h2 h3 h4 h5 h6 h7 =>
    obtain ⟨-, -, rfl, -⟩ := split_unique h3 hh h4 hiv h5 (hmacSha1_length P _ _) h6
    rw [aesBody_length P hu.len hiv] at h7; omega
  | tag k' kb' hb' hdr iv' body tag h1 h2 h3 h4 h5 h6 h7 h8 =>
    obtain ⟨rfl, rfl, rfl, rfl⟩ := split_unique h3 hh h4 hiv h5 (hmacSha1_length P _ _) h6
    rw [hp] at h1
    cases h1
    obtain ⟨rfl, rfl⟩ := hu.unique h2
    exact h8 rfl

theorem wholeCipher_length (hu : UsableAes k kb hb) (hiv : iv.length = 16) :
    (wholeCipher P kb hb iv p).length = 57 + 16 * (p.length / 16) := by
  simp only [wholeCipher, List.length_append, aesHeader_length, hiv, aesBody_length P hu.len hiv, hmacSha1_length]
  omega

theorem cbcD_body (hu : UsableAes k kb hb) (hiv : iv.length = 16) : cbcD P kb iv (aesBody P kb iv p) = aesPad p :=
  cbcD_cbcE P hu.len hiv (by rw [aesPad_length]; omega)

theorem Dec3_valid {r : DecReader σ} {outs : Bytes} {k' : AesKey} {kb' hb' hdr iv' done last tag u : Bytes}
    (hu : UsableAes k kb hb) (hiv : iv.length = 16) (hp : c.ParseHeader (aesHeader P kb hb) = .ok (.aes k))
    (h : Dec3 P good rest c (wholeCipher P kb hb iv p) k' kb' hb' hdr iv' done last tag u r outs) : outs ++ r.dec = p := by
  obtain ⟨rfl, rfl, e3, rfl⟩ := split_unique h.cont (aesHeader_length P kb hb) h.hdr5 hiv h.iv16 (hmacSha1_length P _ _) h.tag20
  have hpp := h.parse
  rw [hp] at hpp
  cases hpp
  obtain ⟨rfl, rfl⟩ := hu.unique h.usable
  have hb := cbcD_body P (p := p) hu hiv
  rw [e3, cbcD_append P h.full] at hb
  rw [h.dec]
  obtain ⟨v, hv, h1, h2⟩ := aesPad_last p
  have hll : (cbcD P kb' (chainD iv done) last).length = last.length :=
    cbcD_length P hu.len (chainD_length hiv h.full) h.full2
  have hne : cbcD P kb' (chainD iv done) last ≠ [] := by
    intro h0; rw [h0] at hll; have := h.last16; simp at hll; omega
  have hv' : (cbcD P kb' (chainD iv done) last).getLast? = some v := by
    rw [← hb, List.getLast?_append] at hv
    cases hg : (cbcD P kb' (chainD iv done) last).getLast? with
    | none => exact absurd (List.getLast?_eq_none_iff.mp hg) hne
    | some w => rw [hg] at hv; exact hv
  obtain ⟨u', hu1, hu2⟩ := aesUnPad_suffix (a := cbcD P kb' iv done) hv' h1 (by have := h.last16; omega)
  rw [h.unpad] at hu1
  rw [hb, aesUnPad_pad] at hu2
  rw [Except.ok.inj hu1, ← Except.ok.inj hu2]

/-- everything delivered is an initial part of the plaintext -/
theorem DecMid_valid {r : DecReader σ} {outs : Bytes}
    (hu : UsableAes k kb hb) (hiv : iv.length = 16) (hp : c.ParseHeader (aesHeader P kb hb) = .ok (.aes k))
    (h : DecMid P good rest c (wholeCipher P kb hb iv p) r outs) : outs <+: p := by
  rcases h with h | ⟨_, _, _, h⟩ | ⟨k', kb', hb', hdr, iv', done, h⟩ | ⟨k', kb', hb', hdr, iv', done, last, tag, u, h⟩
  · rw [h.outs]; exact List.nil_prefix
  · rw [h.outs]; exact List.nil_prefix
  · have hcont := h.cont
    have hlen := congrArg List.length hcont
    rw [wholeCipher_length P hu hiv] at hlen
    simp only [List.length_append, h.hdr5, h.iv16] at hlen
    rcases h.more with rfl | hmore
    · have := h.dec
      simp only [cbcD, blocks16_nil, cbcDecBlocks, List.flatten_nil] at this
      rw [(List.append_eq_nil_iff.mp this).1]; exact List.nil_prefix
    · have e := hcont
      unfold wholeCipher at e
      simp only [List.append_assoc] at e
      obtain ⟨rfl, e2⟩ := List.append_inj e (by rw [aesHeader_length, h.hdr5])
      obtain ⟨rfl, e3⟩ := List.append_inj e2 (by rw [hiv, h.iv16])
      have hpp := h.parse
      rw [hp] at hpp
      cases hpp
      obtain ⟨rfl, rfl⟩ := hu.unique h.usable
      have hbl := aesBody_length P hu.len hiv p
      have hdl : done.length ≤ p.length := by omega
      have hpre : aesBody P kb' iv p = done ++ (aesBody P kb' iv p).drop done.length := by
        have : (aesBody P kb' iv p).take done.length = done := by
          have h1 := congrArg (List.take done.length) e3
          rw [List.take_left, List.take_append_of_le_length (by omega)] at h1
          exact h1
        conv_lhs => rw [← List.take_append_drop done.length (aesBody P kb' iv p), this]
      have hb := cbcD_body P (p := p) hu hiv
      rw [hpre, cbcD_append P h.full, ← h.dec] at hb
      have hol : outs.length ≤ p.length := by
        have := congrArg List.length h.dec
        rw [List.length_append, cbcD_length P hu.len hiv h.full] at this
        omega
      rw [List.prefix_iff_eq_take]
      have h1 : (aesPad p).take outs.length = p.take outs.length := by
        unfold aesPad
        exact List.take_append_of_le_length hol
      have h2 : (aesPad p).take outs.length = outs := by
        rw [← hb, List.append_assoc, List.take_left]
      rw [h2] at h1
      exact h1
  · exact ⟨r.dec, Dec3_valid P hu hiv hp h⟩

theorem DecEnd_valid {r : DecReader σ} {outs : Bytes}
    (hu : UsableAes k kb hb) (hiv : iv.length = 16) (hp : c.ParseHeader (aesHeader P kb hb) = .ok (.aes k))
    (h : DecEnd P good rest c (wholeCipher P kb hb iv p) r outs) : outs = p := by
  obtain ⟨hd, hr, h⟩ := h
  have hl := wholeCipher_length P (p := p) hu hiv
  rcases h with h | ⟨_, _, _, h⟩ | ⟨k', kb', hb', hdr, iv', h, hle⟩ | ⟨k', kb', hb', hdr, iv', done, last, tag, u, h⟩
  · have := h.cont
    rw [hr, List.append_nil] at this
    rw [this] at hl; have := h.enc; omega
  · have := h.cont
    rw [hr, List.append_nil] at this
    rw [this, List.length_append, h.hdr5] at hl; have := h.enc; omega
  · have := h.cont
    rw [hr, List.append_nil] at this
    rw [this] at hl
    simp only [List.length_append, h.hdr5, h.iv16, List.length_nil] at hl; omega
  · have := Dec3_valid P hu hiv hp h
    rw [hd, List.append_nil] at this
    exact this
end

/-- reads with non-zero `chars` that do not return the empty string return at least one byte each -/
theorem reads_length : ∀ (calls : List Int) (res : List (Option Bytes)), calls.length = res.length →
    (∀ p ∈ calls.zip res, p.1 ≠ 0 → p.2.getD [] ≠ []) → (calls.filter (· ≠ 0)).length ≤ (res.map (·.getD [])).flatten.length
  | [], [], _, _ => by simp
  | [], _ :: _, h, _ => by simp at h
  | _ :: _, [], h, _ => by simp at h
  | c :: calls, x :: res, h, hp => by
    have ih := reads_length calls res (by simpa using h) (fun p hm => hp p (by simp [hm]))
    have h1 := hp (c, x) (by simp)
    by_cases hc : c = 0
    · rw [List.filter_cons_of_neg (by simp [hc])]
      simp only [List.map_cons, List.flatten_cons, List.length_append]; omega
    · have := List.length_pos_iff.mpr (h1 hc)
      rw [List.filter_cons_of_pos (by simp [hc])]
      simp only [List.map_cons, List.flatten_cons, List.length_append, List.length_cons] at *; omega

/-- a reader that has read less than a header delivers the data of a ciphertext -/
theorem reads_valid {σ} (m : Source σ) (good : σ → Prop) (rest : σ → Bytes) (left : σ → Nat) (f : Nat → Nat)
    (hm : Serves m good rest left f) (hf : ∀ n, 1 ≤ n → n ≤ 5 → f n ≤ 16)
    (c : Czar) (hc : Loaded P c) (hd : c.keySet.Distinct P) (e : Entry) (he : e ∈ c.keySet.entries) (k : AesKey) (hk : e.key = .aes k)
    (iv p ct : Bytes) (hct : k.Encrypt P iv p = .ok ct) (r : DecReader σ)
    (h0 : Dec0 good rest ct r []) (fuel : Nat) (hfuel : left r.src < fuel) (calls : List Int) :
    ∃ res : List (Option Bytes), (decReads P m c fuel r calls).1 = res.map .ok ∧
      (res.map (·.getD [])).flatten <+: p ∧
      (∀ q ∈ calls.zip res, (q.2 = none → q.1 = 0) ∧ (0 ≤ q.1 → (q.2.getD []).length ≤ q.1.toNat)) ∧
      (∀ (i : Nat) (chars : Int), calls[i]? = some chars → chars ≠ 0 → res[i]? = some (some []) →
        ((res.take i).map (·.getD [])).flatten = p) ∧
      (p.length < (calls.filter (· ≠ 0)).length →
        ∃ (i : Nat) (chars : Int), calls[i]? = some chars ∧ chars ≠ 0 ∧ res[i]? = some (some [])) := by
  obtain ⟨kb, hb, hu, hiv⟩ := aes_usable P hct
  rw [aesEncrypt_eq P hu hiv] at hct
  have hct : wholeCipher P kb hb iv p = ct := Except.ok.inj hct
  subst hct
  have hpar : c.ParseHeader (aesHeader P kb hb) = .ok (.aes k) := by
    have hid : KeyId P.sha1 e.key ((P.sha1 (IntToBytes kb.length ++ kb ++ hb)).take 4) := by
      rw [KeyId_iff, hk]
      refine ⟨by simp [P.sha1_length], ?_⟩
      simp only [Key.hashId, AesKey.hashId, hu.aes, hu.mac, bind, Except.bind, pure, Except.pure]
      simp [Hash, KEY_HASH_SIZE]
    obtain ⟨e', -, -, h1, h2⟩ := C21_lookup P c hc e he _ hid
    rw [h2 hd, hk] at h1
    exact h1
  obtain ⟨res, r', p1, p0, p2, p3, p4⟩ := decReads_mid P hm hf fuel (valid_no_error P hu hiv hpar) calls r [] (.inl h0) hfuel
  simp only [List.nil_append] at p2 p4
  have hpre := DecMid_valid P hu hiv hpar p2
  refine ⟨res, by show (decReads P m c fuel r calls).1 = _; rw [p1], hpre, p3, ?_, ?_⟩
  · intro i chars h1 h2 h3
    obtain ⟨r3, h4⟩ := p4 i chars h1 h2 h3
    exact DecEnd_valid P hu hiv hpar h4
  · intro hlt
    by_contra hno
    have h1 := reads_length calls res p0.symm (fun q hq h0 hq2 => by
      obtain ⟨i, hi, hqi⟩ := List.getElem_of_mem hq
      rw [List.length_zip] at hi
      rw [List.getElem_zip] at hqi
      refine hno ⟨i, q.1, ?_, h0, ?_⟩
      · rw [List.getElem?_eq_getElem (by omega), ← hqi]
      · rw [List.getElem?_eq_getElem (by omega)]
        have : res[i] = q.2 := by rw [← hqi]
        rw [this]
        cases h5 : q.2 with
        | none => exact absurd ((p3 q hq).1 h5) h0
        | some o => rw [h5] at hq2; simp only [Option.getD_some] at hq2; rw [hq2])
    have h2 := hpre.length_le
    omega

/-- C57: over every stream that delivers the ciphertext of `p` under a key `k` of the set (in whatever pieces, with
whatever "no data yet" answers in between), every sequence of `read(chars)` calls raises nothing and returns byte strings
of at most `chars` bytes, or None (only for `chars = 0`), that together are an initial part of `p`; when a read with non-zero
`chars` returns the empty string, what was returned before is all of `p`; and this happens if more such reads are made
than `p` has bytes. -/
theorem C57_reads {σ} (m : Source σ) (good : σ → Prop) (rest : σ → Bytes) (left : σ → Nat) (f : Nat → Nat)
    (hm : Serves m good rest left f) (hf : ∀ n, 1 ≤ n → n ≤ 5 → f n ≤ 16)
    (c : Czar) (hc : Loaded P c) (hd : c.keySet.Distinct P) (e : Entry) (he : e ∈ c.keySet.entries) (k : AesKey) (hk : e.key = .aes k)
    (iv p ct : Bytes) (hct : k.Encrypt P iv p = .ok ct) (s : σ) (hs : good s) (hrest : rest s = ct)
    (fuel : Nat) (hfuel : left s < fuel) (calls : List Int) :
    ∃ res : List (Option Bytes), (decReads P m c fuel (c.CreateDecryptingStreamReader s) calls).1 = res.map .ok ∧
      (res.map (·.getD [])).flatten <+: p ∧
      (∀ q ∈ calls.zip res, (q.2 = none → q.1 = 0) ∧ (0 ≤ q.1 → (q.2.getD []).length ≤ q.1.toNat)) ∧
      (∀ (i : Nat) (chars : Int), calls[i]? = some chars → chars ≠ 0 → res[i]? = some (some []) →
        ((res.take i).map (·.getD [])).flatten = p) ∧
      (p.length < (calls.filter (· ≠ 0)).length →
        ∃ (i : Nat) (chars : Int), calls[i]? = some chars ∧ chars ≠ 0 ∧ res[i]? = some (some [])) :=
  reads_valid P m good rest left f hm hf c hc hd e he k hk iv p ct hct (DecReader.new s)
    ⟨rfl, hs, rfl, rfl, rfl, rfl, rfl, by simp [DecReader.new], by simp [DecReader.new, hrest]⟩ fuel hfuel calls

/-- C57 through the Base64 decoder (the default): the same for a stream that delivers the Base64 text that `Encrypt`
returns. -/
theorem C57_reads_base64 {σ} (m : Source σ) (good : σ → Prop) (rest : σ → Bytes) (left : σ → Nat)
    (hm : Serves m good rest left (fun n => n))
    (c : Czar) (hc : Loaded P c) (hd : c.keySet.Distinct P) (e : Entry) (he : e ∈ c.keySet.entries) (k : AesKey) (hk : e.key = .aes k)
    (iv p ct : Bytes) (hct : k.Encrypt P iv p = .ok ct) (s : σ) (hs : good s) (hrest : rest s = Base64WSEncode ct)
    (fuel : Nat) (hfuel : 2 * left s < fuel) (calls : List Int) :
    ∃ res : List (Option Bytes), (decReads P (b64Source m fuel) c fuel (c.CreateDecryptingStreamReader ⟨[], [], s⟩) calls).1 = res.map .ok ∧
      (res.map (·.getD [])).flatten <+: p ∧
      (∀ q ∈ calls.zip res, (q.2 = none → q.1 = 0) ∧ (0 ≤ q.1 → (q.2.getD []).length ≤ q.1.toNat)) ∧
      (∀ (i : Nat) (chars : Int), calls[i]? = some chars → chars ≠ 0 → res[i]? = some (some []) →
        ((res.take i).map (·.getD [])).flatten = p) ∧
      (p.length < (calls.filter (· ≠ 0)).length →
        ∃ (i : Nat) (chars : Int), calls[i]? = some chars ∧ chars ≠ 0 ∧ res[i]? = some (some [])) := by
  obtain ⟨good', rest', left', h1, h2, h3, h4⟩ := C05_source m good rest left _ hm (fun n h => h) s hs ct hrest fuel (by omega)
  exact C57_reads P (b64Source m fuel) good' rest' left' _ h1 (by intro n h1 h2; omega) c hc hd e he k hk iv p ct hct
    ⟨[], [], s⟩ h2 h3 fuel (by omega) calls

/-- example: the whole way through a Crypter with the Base64 coder: "AB", "", 40 bytes written; the text read back in
small pieces with pauses -/
example : ((Czar.init realPrims .crypter Ex.aes).bind fun c => do
    let w ← c.CreateEncryptingStreamWriter realPrims (b64Sink bytesSink) Ex.rnd ⟨[], []⟩
    let (_, w) := w.writeAll realPrims (b64Sink bytesSink) [[65, 66], [], List.replicate 40 67]
    let (_, w) := w.flush realPrims (b64Sink bytesSink)
    let one ← c.Encrypt realPrims Ex.rnd ([65, 66] ++ List.replicate 40 67) (some Base64WSEncode)
    let r := c.CreateDecryptingStreamReader (σ := B64Reader (Bytes × List (Option Nat)))
      ⟨[], [], (w.out.out, [some 3, none, some 0, some 20, none])⟩
    let (xs, _) := decReads realPrims (b64Source scheduled 500) c 500 r [3, 7, 20, -1, 5, -1, 1]
    return (w.out.out == one, xs.map delivered)) =
    .ok (true, [[65, 66, 67], List.replicate 7 67, List.replicate 20 67, List.replicate 12 67, [], [], []]) := by decide +kernel

/-! ## C58 -/

section
variable {σ : Type} {m : Source σ} {good : σ → Prop} {rest : σ → Bytes} {left : σ → Nat} {f : Nat → Nat} {c : Czar} {X : Bytes}

/-- a sequence of reads, up to the first exception -/
theorem decReads_run (hm : Serves m good rest left f) (hf : ∀ n, 1 ≤ n → n ≤ 5 → f n ≤ 16) (fuel : Nat) :
    ∀ (calls : List Int) (r : DecReader σ) (outs : Bytes), DecMid P good rest c X r outs → left r.src < fuel →
      ∀ (i : Nat) (chars : Int), calls[i]? = some chars → (∀ j < i, ∃ y, (decReads P m c fuel r calls).1[j]? = some (.ok y)) →
      ∃ (before : DecReader σ), before = (decReads P m c fuel r (calls.take i)).2 ∧ left before.src ≤ left r.src ∧
        DecMid P good rest c X before (outs ++ (((decReads P m c fuel r calls).1.take i).map delivered).flatten) ∧
        (decReads P m c fuel r calls).1[i]? = some (before.read P m c fuel chars).1
  | [], r, outs, _, _, i, chars, hi, _ => by simp at hi
  | ch :: calls, r, outs, h, hl, i, chars, hi, hj => by
    cases i with
    | zero =>
      simp only [List.getElem?_cons_zero, Option.some.injEq] at hi
      subst hi
      exact ⟨r, rfl, Nat.le_refl _, by simpa using h, rfl⟩
    | succ i =>
      rcases read_spec P hm hf h hl ch with ⟨e, r', h1, -, -⟩ | ⟨r', x, h1, h2, -, -, -, h6⟩
      · obtain ⟨y, hy⟩ := hj 0 (by omega)
        simp [decReads, h1] at hy
      · obtain ⟨b, p1, p2, p3, p4⟩ := decReads_run hm hf fuel calls r' (outs ++ x.getD []) h2 (by omega) i chars (by simpa using hi) (by
          intro j hji
          obtain ⟨y, hy⟩ := hj (j + 1) (by omega)
          exact ⟨y, by simpa [decReads, h1] using hy⟩)
        have hx : delivered (.ok x) = x.getD [] := by cases x <;> rfl
        refine ⟨b, ?_, by omega, ?_, ?_⟩
        · simp only [List.take_succ_cons, decReads, h1, p1]
        · simp only [decReads, h1, List.take_succ_cons, List.map_cons, List.flatten_cons, hx]
          simpa [List.append_assoc] using p3
        · simp only [decReads, h1, List.getElem?_cons_succ]
          exact p4
end

theorem DecMid_new {σ} {good : σ → Prop} {rest : σ → Bytes} (c : Czar) {s : σ} (hs : good s) : DecMid P good rest c (rest s) (DecReader.new s) [] :=
  .inl ⟨rfl, hs, rfl, rfl, rfl, rfl, rfl, by simp [DecReader.new], by simp [DecReader.new]⟩

/-- C58: when a read with non-zero `chars` returns the empty string, and nothing was raised before, then either the whole
input has at most 41 bytes (finding: nothing was checked), or the input is header, IV, ciphertext and tag for an AES key
of the set, and the tag was right.  The pieces returned together are then what one-shot `Decrypt` returns, when the
padding is well-formed (last byte between 1 and 16). -/
theorem C58_end {σ} (m : Source σ) (good : σ → Prop) (rest : σ → Bytes) (left : σ → Nat) (f : Nat → Nat)
    (hm : Serves m good rest left f) (hf : ∀ n, 1 ≤ n → n ≤ 5 → f n ≤ 16) (c : Czar) (s : σ) (hs : good s)
    (fuel : Nat) (hfuel : left s < fuel) (calls : List Int) (res : List (Py (Option Bytes)))
    (hres : res = (decReads P m c fuel (c.CreateDecryptingStreamReader s) calls).1)
    (i : Nat) (chars : Int) (hi : calls[i]? = some chars) (hch : chars ≠ 0)
    (hok : ∀ j < i, ∃ y, res[j]? = some (.ok y)) (hend : res[i]? = some (.ok (some []))) :
    (rest s).length ≤ 41 ∨
    ∃ k kb hb hdr iv body tag, c.ParseHeader hdr = .ok (.aes k) ∧ UsableAes k kb hb ∧ rest s = hdr ++ iv ++ body ++ tag ∧
      hdr.length = 5 ∧ iv.length = 16 ∧ tag.length = 20 ∧ tag = hmacSha1 P hb (hdr ++ iv ++ body) ∧ body ≠ [] ∧ body.length % 16 = 0 ∧
      ∃ v, (cbcD P kb iv body).getLast? = some v ∧
        (1 ≤ v.toNat → v.toNat ≤ 16 → k.Decrypt P (rest s) = .ok ((res.take i).map delivered).flatten) := by
  subst hres
  obtain ⟨b, -, hl, hmid, hb⟩ := decReads_run P hm hf fuel calls (DecReader.new s) [] (DecMid_new P c hs) hfuel i chars hi hok
  have hend' : (decReads P m c fuel (DecReader.new s) calls).1[i]? = some (.ok (some [])) := hend
  rw [hb] at hend'
  simp only [List.nil_append] at hmid
  rcases read_spec P hm hf hmid (show left b.src < fuel from Nat.lt_of_le_of_lt hl hfuel) chars with ⟨e, r', h1, -, -⟩ | ⟨r', x, h1, -, -, -, h5, -⟩
  · rw [h1] at hend'; simp at hend'
  · rw [h1] at hend'
    simp only [Option.some.injEq, Except.ok.injEq] at hend'
    obtain ⟨hd, hr, h⟩ := h5 hend' hch
    rcases h with h | ⟨_, _, _, h⟩ | ⟨k', kb', hb', hdr, iv', h, hle⟩ | ⟨k, kb, hb, hdr, iv, done, last, tag, u, h⟩
    · left
      have := h.cont
      rw [hr, List.append_nil] at this
      rw [this]; have := h.enc; omega
    · left
      have := h.cont
      rw [hr, List.append_nil] at this
      rw [this, List.length_append, h.hdr5]; have := h.enc; omega
    · left
      have := h.cont
      rw [hr, List.append_nil] at this
      rw [this]
      simp only [List.length_append, h.hdr5, h.iv16, List.length_nil]; omega
    · right
      have hll : (cbcD P kb (chainD iv done) last).length = last.length :=
        cbcD_length P h.usable.len (chainD_length h.iv16 h.full) h.full2
      have hne : cbcD P kb (chainD iv done) last ≠ [] := by
        intro h0; rw [h0] at hll; have := h.last16; simp at hll; omega
      have hbody : done ++ last ≠ [] := by
        intro h0; have := h.last16; rw [(List.append_eq_nil_iff.mp h0).2, List.length_nil] at this; omega
      have hb16 : (done ++ last).length % 16 = 0 := by
        rw [List.length_append]; have := h.full; have := h.full2; omega
      refine ⟨k, kb, hb, hdr, iv, done ++ last, tag, h.parse, h.usable, h.cont, h.hdr5, h.iv16, h.tag20, h.mac, hbody, hb16, ?_⟩
      cases hg : (cbcD P kb (chainD iv done) last).getLast? with
      | none => exact absurd (List.getLast?_eq_none_iff.mp hg) hne
      | some v =>
        refine ⟨v, ?_, fun h1 h2 => ?_⟩
        · rw [cbcD_append P h.full, List.getLast?_append, hg]; rfl
        · obtain ⟨u', hu1, hu2⟩ := aesUnPad_suffix (a := cbcD P kb iv done) hg h1 (by have := h.last16; omega)
          rw [h.unpad] at hu1
          have hdec := h.dec
          rw [hd, List.append_nil] at hdec
          have he := aesDecrypt_eq P h.usable hdr iv (done ++ last) tag h.hdr5 h.iv16 h.tag20
          rw [if_pos h.mac, if_neg (by omega), ← h.cont] at he
          rw [he]
          show aesUnPad (cbcD P kb iv (done ++ last)) = _
          rw [cbcD_append P h.full, hu2]
          exact (congrArg Except.ok (by rw [← Except.ok.inj hu1, ← hdec]; rfl))

/-- C58: an exception, when nothing was raised before, has one of these reasons: the header is wrong, the key named in it is
not a usable AES key, the ciphertext is not a sequence of blocks (ValueError), or the tag is wrong
(InvalidSignature).  In the last two cases one-shot `Decrypt` raises too. -/
theorem C58_error {σ} (m : Source σ) (good : σ → Prop) (rest : σ → Bytes) (left : σ → Nat) (f : Nat → Nat)
    (hm : Serves m good rest left f) (hf : ∀ n, 1 ≤ n → n ≤ 5 → f n ≤ 16) (c : Czar) (s : σ) (hs : good s)
    (fuel : Nat) (hfuel : left s < fuel) (calls : List Int) (res : List (Py (Option Bytes)))
    (hres : res = (decReads P m c fuel (c.CreateDecryptingStreamReader s) calls).1)
    (i : Nat) (hok : ∀ j < i, ∃ y, res[j]? = some (.ok y)) (e : PyErr) (he : res[i]? = some (.error e)) :
    (5 ≤ (rest s).length ∧ c.ParseHeader ((rest s).take 5) = .error e) ∨
    (5 ≤ (rest s).length ∧ ∃ key, c.ParseHeader ((rest s).take 5) = .ok key ∧ ¬ ∃ k kb hb, key = .aes k ∧ UsableAes k kb hb) ∨
    (∃ k kb hb hdr iv body tag, c.ParseHeader hdr = .ok (.aes k) ∧ UsableAes k kb hb ∧ rest s = hdr ++ iv ++ body ++ tag ∧
      hdr.length = 5 ∧ iv.length = 16 ∧ tag.length = 20 ∧ body ≠ [] ∧
      ((e = .valueError ∧ body.length % 16 ≠ 0) ∨ (e = .invalidSignature ∧ tag ≠ hmacSha1 P hb (hdr ++ iv ++ body))) ∧
      ∃ e', k.Decrypt P (rest s) = .error e') := by
  subst hres
  have hlen : ∀ (calls : List Int) (r : DecReader σ), (decReads P m c fuel r calls).1.length = calls.length := by
    intro calls
    induction calls with
    | nil => intro r; rfl
    | cons a l ih => intro r; simp only [decReads, List.length_cons, ih]
  obtain ⟨hil, -⟩ := List.getElem?_eq_some_iff.mp he
  rw [hlen] at hil
  obtain ⟨b, -, hl, hmid, hb⟩ := decReads_run P hm hf fuel calls (DecReader.new s) [] (DecMid_new P c hs) hfuel i calls[i]
    (List.getElem?_eq_getElem hil) hok
  have he' : (decReads P m c fuel (DecReader.new s) calls).1[i]? = some (.error e) := he
  rw [hb] at he'
  rcases read_spec P hm hf hmid (show left b.src < fuel from Nat.lt_of_le_of_lt hl hfuel) calls[i] with ⟨e2, r', h1, h2, -⟩ | ⟨r', x, h1, -⟩
  · rw [h1] at he'
    simp only [Option.some.injEq, Except.error.injEq] at he'
    subst he'
    cases h2 with
    | header e h5 h => exact .inl ⟨h5, h⟩
    | key e key h5 h hno => exact .inr (.inl ⟨h5, key, h, hno⟩)
    | blocks k kb hb hdr iv body tag h0 h2 h3 h4 h5 h6 h7 =>
      refine .inr (.inr ⟨k, kb, hb, hdr, iv, body, tag, h0, h2, h3, h4, h5, h6, ?_, .inl ⟨rfl, h7⟩, ?_⟩)
      · rintro rfl; simp at h7
      · rw [h3, aesDecrypt_eq P h2 _ _ _ _ h4 h5 h6, if_pos h7]
        split
        · exact ⟨_, rfl⟩
        · exact ⟨_, rfl⟩
    | tag k kb hb hdr iv body tag h0 h2 h3 h4 h5 h6 h7 h8 =>
      refine .inr (.inr ⟨k, kb, hb, hdr, iv, body, tag, h0, h2, h3, h4, h5, h6, h7, .inr ⟨rfl, h8⟩, ?_⟩)
      rw [h3, aesDecrypt_eq P h2 _ _ _ _ h4 h5 h6, if_neg h8]
      exact ⟨_, rfl⟩
  · rw [h1] at he'; simp at he'

theorem aesUnPad_length {d u : Bytes} (h : aesUnPad d = .ok u) : u.length ≤ d.length := by
  unfold aesUnPad at h
  split at h
  · cases h
  · next v _ =>
    cases h
    by_cases hv : v.toNat = 0
    · rw [hv]; simp [sliceTo]
    · rw [sliceTo_neg _ _ (by omega), List.length_take]; omega

theorem DecMid_length {σ} {good : σ → Prop} {rest : σ → Bytes} {c : Czar} {X : Bytes} {r : DecReader σ} {outs : Bytes}
    (h : DecMid P good rest c X r outs) : outs.length ≤ X.length ∧ (X.length ≤ 56 → outs = []) := by
  rcases h with h | ⟨_, _, _, h⟩ | ⟨k', kb', hb', hdr, iv', done, h⟩ | ⟨k', kb', hb', hdr, iv', done, last, tag, u, h⟩
  · simp [h.outs]
  · simp [h.outs]
  · have h1 := congrArg List.length h.dec
    rw [List.length_append, cbcD_length P h.usable.len h.iv16 h.full] at h1
    have h2 := congrArg List.length h.cont
    simp only [List.length_append, h.hdr5, h.iv16] at h2
    refine ⟨by omega, fun h3 => ?_⟩
    rcases h.more with h4 | h4
    · rw [h4, List.length_nil] at h1
      exact List.length_eq_zero_iff.mp (by omega)
    · exact List.length_eq_zero_iff.mp (by omega)
  · have h1 := congrArg List.length h.dec
    have h3 := aesUnPad_length h.unpad
    rw [cbcD_length P h.usable.len (chainD_length h.iv16 h.full) h.full2] at h3
    rw [List.length_append, List.length_append, cbcD_length P h.usable.len h.iv16 h.full] at h1
    have h2 := congrArg List.length h.cont
    simp only [List.length_append, h.hdr5, h.iv16, h.tag20] at h2
    have := h.last16
    exact ⟨by omega, fun _ => by omega⟩

/-- C58 (finding): an input of at most 41 bytes, whose header (if it is complete) names a usable AES key of the set, is never
rejected: every read returns the empty string. -/
theorem C58_short {σ} (m : Source σ) (good : σ → Prop) (rest : σ → Bytes) (left : σ → Nat) (f : Nat → Nat)
    (hm : Serves m good rest left f) (hf : ∀ n, 1 ≤ n → n ≤ 5 → f n ≤ 16) (c : Czar) (s : σ) (hs : good s)
    (fuel : Nat) (hfuel : left s < fuel) (hshort : (rest s).length ≤ 41)
    (hkey : 5 ≤ (rest s).length → ∃ k kb hb, c.ParseHeader ((rest s).take 5) = .ok (.aes k) ∧ UsableAes k kb hb)
    (calls : List Int) (hcalls : ∀ n ∈ calls, n ≠ 0) :
    (decReads P m c fuel (c.CreateDecryptingStreamReader s) calls).1 = List.replicate calls.length (.ok (some [])) := by
  have hne : ∀ e, ¬ StreamError P c (rest s) e := by
    intro e h
    cases h with
    | header e h5 h =>
      obtain ⟨k, kb, hb, h1, -⟩ := hkey h5
      rw [h1] at h; cases h
    | key e key h5 h hno =>
      obtain ⟨k, kb, hb, h1, h2⟩ := hkey h5
      rw [h1] at h
      exact hno ⟨k, kb, hb, (Except.ok.inj h).symm, h2⟩
    | blocks k kb hb hdr iv body tag h1 h2 h3 h4 h5 h6 h7 =>
      rw [h3] at hshort; simp only [List.length_append] at hshort; omega
    | tag k kb hb hdr iv body tag h1 h2 h3 h4 h5 h6 h7 h8 =>
      rw [h3] at hshort; simp only [List.length_append] at hshort
      have := List.length_pos_iff.mpr h7; omega
  obtain ⟨res, r', p1, p0, p2, p3, -⟩ := decReads_mid P hm hf fuel hne calls (DecReader.new s) [] (DecMid_new P c hs) hfuel
  show (decReads P m c fuel (DecReader.new s) calls).1 = _
  rw [p1]
  have hnil := (DecMid_length P p2).2 (by omega)
  rw [List.nil_append, List.flatten_eq_nil_iff] at hnil
  rw [List.eq_replicate_iff]
  refine ⟨by simpa using p0, fun x hx => ?_⟩
  obtain ⟨o, ho, rfl⟩ := List.mem_map.mp hx
  have h1 := hnil (o.getD []) (List.mem_map.mpr ⟨o, ho, rfl⟩)
  cases o with
  | some o => simp only [Option.getD_some] at h1; rw [h1]
  | none =>
    exfalso
    obtain ⟨i, hi, hxi⟩ := List.getElem_of_mem ho
    have hi' : i < calls.length := by omega
    have hz : (calls[i], (none : Option Bytes)) ∈ calls.zip res := by
      have : (calls.zip res)[i]'(by rw [List.length_zip]; omega) = (calls[i], none) := by
        rw [List.getElem_zip, hxi]
      rw [← this]; exact List.getElem_mem _
    exact hcalls _ (List.getElem_mem hi') ((p3 _ hz).1 rfl)

/-- C58: reading ends: over any input, more non-zero reads than the input has bytes give an exception or the empty
string. -/
theorem C58_ends {σ} (m : Source σ) (good : σ → Prop) (rest : σ → Bytes) (left : σ → Nat) (f : Nat → Nat)
    (hm : Serves m good rest left f) (hf : ∀ n, 1 ≤ n → n ≤ 5 → f n ≤ 16) (c : Czar) (s : σ) (hs : good s)
    (fuel : Nat) (hfuel : left s < fuel) (calls : List Int) (hcalls : ∀ n ∈ calls, n ≠ 0) (hlen : (rest s).length < calls.length) :
    ∃ x ∈ (decReads P m c fuel (c.CreateDecryptingStreamReader s) calls).1, x = .ok (some []) ∨ ∃ e, x = .error e := by
  by_contra hno
  push Not at hno
  have key : ∀ (calls : List Int) (r : DecReader σ) (outs : Bytes), DecMid P good rest c (rest s) r outs → left r.src < fuel →
      (∀ n ∈ calls, n ≠ 0) → (∀ x ∈ (decReads P m c fuel r calls).1, x ≠ .ok (some []) ∧ ∀ e, x ≠ .error e) →
      outs.length + calls.length ≤ (rest s).length := by
    intro calls
    induction calls with
    | nil => intro r outs h _ _ _; have := (DecMid_length P h).1; simpa using this
    | cons ch calls ih =>
      intro r outs h hl hc hx
      rcases read_spec P hm hf h hl ch with ⟨e, r', h1, -, -⟩ | ⟨r', x, h1, h2, h3, -, -, h6⟩
      · exact absurd rfl ((hx (.error e) (by simp [decReads, h1])).2 e)
      · have h7 := ih r' _ h2 (by omega) (fun n hn => hc n (by simp [hn])) (fun y hy => hx y (by simp only [decReads, h1]; simp [hy]))
        have h8 := (hx (.ok x) (by simp [decReads, h1])).1
        cases x with
        | none => exact absurd (h3 rfl) (hc ch (by simp))
        | some o =>
          have : 0 < o.length := List.length_pos_iff.mpr (fun h0 => h8 (by rw [h0]))
          simp only [List.length_append, Option.getD_some, List.length_cons] at h7 ⊢
          omega
  have := key calls (DecReader.new s) [] (DecMid_new P c hs) hfuel hcalls hno
  simp at this; omega

/-- C58 (finding): after the exception for a wrong tag or a wrong length the stream is still usable: no later read raises,
they return what had been decrypted before (and not been read yet), and then the empty string, as for a normal end. -/
theorem C58_after_failure {σ} (m : Source σ) (good : σ → Prop) (rest : σ → Bytes) (left : σ → Nat) (f : Nat → Nat)
    (hm : Serves m good rest left f) (hf : ∀ n, 1 ≤ n → n ≤ 5 → f n ≤ 16) (c : Czar) (s : σ) (hs : good s)
    (fuel : Nat) (hfuel : left s < fuel)
    (hkey : ∃ k kb hb, c.ParseHeader ((rest s).take 5) = .ok (.aes k) ∧ UsableAes k kb hb)
    (calls : List Int) (i : Nat) (chars : Int) (hi : calls[i]? = some chars) (res : List (Py (Option Bytes)))
    (hres : res = (decReads P m c fuel (c.CreateDecryptingStreamReader s) calls).1)
    (hok : ∀ j < i, ∃ y, res[j]? = some (.ok y)) (e : PyErr) (he : res[i]? = some (.error e))
    (later : List Int) :
    let r := (decReads P m c fuel (c.CreateDecryptingStreamReader s) (calls.take i)).2
    let r' := (r.read P m c fuel chars).2
    ∃ outs : List Bytes, (decReads P m c fuel r' later).1 = outs.map (fun o => .ok (some o)) ∧ outs.flatten <+: r.dec ∧
      ((∀ n ∈ later, n ≠ 0) → r.dec.length < later.length → [] ∈ outs ∧ outs.flatten = r.dec) := by
  subst hres
  obtain ⟨b, hbr, hl, hmid, hb⟩ := decReads_run P hm hf fuel calls (DecReader.new s) [] (DecMid_new P c hs) hfuel i chars hi hok
  intro r r'
  have hr : r = b := by rw [hbr]; rfl
  have he' : (decReads P m c fuel (DecReader.new s) calls).1[i]? = some (.error e) := he
  rw [hb] at he'
  rcases read_spec P hm hf hmid (show left b.src < fuel from Nat.lt_of_le_of_lt hl hfuel) chars with ⟨e2, r2, h1, -, h3⟩ | ⟨r2, x, h1, -⟩
  · have hr' : r' = r2 := by show (r.read P m c fuel chars).2 = r2; rw [hr, h1]
    rcases h3 with h3 | ⟨h3, h4⟩
    · obtain ⟨k, kb, hb, h5, h6⟩ := hkey
      exact absurd ⟨k, kb, hb, h5, h6⟩ h3.2
    · rw [hr', hr]
      have key : ∀ (later : List Int) (r : DecReader σ) (d : Bytes), DecSpent good rest d r → left r.src < fuel →
          ∃ outs : List Bytes, (decReads P m c fuel r later).1 = outs.map (fun o => .ok (some o)) ∧ outs.flatten <+: d ∧
          ((∀ n ∈ later, n ≠ 0) → [] ∈ outs → outs.flatten = d) ∧ ((∀ n ∈ later, n ≠ 0) → d.length < later.length → [] ∈ outs) := by
        intro later
        induction later with
        | nil => intro r d h _; exact ⟨[], rfl, List.nil_prefix, by simp, by simp⟩
        | cons ch later ih =>
          intro r d h hlr
          obtain ⟨out, d', r3, q1, q2, q3, q4, q5⟩ := spent_read P (c := c) hm h hlr ch
          obtain ⟨outs, p1, ⟨t, p2⟩, p3, p4⟩ := ih r3 d' q3 (by omega)
          refine ⟨out :: outs, ?_, ⟨t, ?_⟩, ?_, ?_⟩
          · simp only [decReads, q1, p1, List.map_cons]
          · rw [q2, ← p2]; simp
          · intro hn hmem
            rcases List.mem_cons.mp hmem with h0 | h0
            · have hd := q4 h0.symm (hn ch (by simp))
              rw [hd] at q2
              obtain ⟨-, hd'⟩ := List.append_eq_nil_iff.mp q2.symm
              rw [hd'] at p2
              rw [hd, List.flatten_cons, ← h0, (List.append_eq_nil_iff.mp p2).1]; rfl
            · rw [List.flatten_cons, p3 (fun n hx => hn n (by simp [hx])) h0, q2]
          · intro hn hlt
            by_cases h0 : out = []
            · simp [h0]
            · have : 0 < out.length := List.length_pos_iff.mpr h0
              rw [q2, List.length_append, List.length_cons] at hlt
              exact List.mem_cons_of_mem _ (p4 (fun n hx => hn n (by simp [hx])) (by omega))
      obtain ⟨outs, k1, k2, k3, k4⟩ := key later r2 b.dec h3 (Nat.lt_of_le_of_lt (Nat.le_trans h4 hl) hfuel)
      exact ⟨outs, k1, k2, fun h5 h6 => ⟨k4 h5 h6, k3 h5 (k4 h5 h6)⟩⟩
  · rw [h1] at he'; simp at he'

/-- example: the last byte of the tag changed.  Reading 10 bytes at a time, 20 bytes come before
the exception, and 12 bytes of unauthenticated plaintext and a normal end after it. -/
example : ((Czar.init realPrims .crypter Ex.aes).bind fun c => do
    let ct ← c.Encrypt realPrims Ex.rnd (List.replicate 50 67) none
    let r := c.CreateDecryptingStreamReader (ct.dropLast ++ [1], ([] : List (Option Nat)))
    let (xs, _) := decReads realPrims scheduled c 500 r [10, 10, 10, 10, 10, 10, 10, 10]
    return xs.map fun x => x.toOption.map fun o => (o.getD []).length) =
    .ok [some 10, some 10, none, some 10, some 2, some 0, some 0, some 0] := by decide +kernel

/-- example: 41 bytes of a ciphertext are read as an empty message -/
example : ((Czar.init realPrims .crypter Ex.aes).bind fun c => do
    let ct ← c.Encrypt realPrims Ex.rnd (List.replicate 50 67) none
    let r := c.CreateDecryptingStreamReader (ct.take 41, ([none] : List (Option Nat)))
    return ((decReads realPrims scheduled c 500 r [10, -1]).1, (c.Decrypt realPrims (ct.take 41) none).toOption.isNone)) =
    .ok ([.ok (some []), .ok (some [])], true) := by decide +kernel

/-- C58: if the header names a key that is not an AES key, every read raises AttributeError, the first one and all later
ones. -/
theorem C58_other_key {σ} (m : Source σ) (good : σ → Prop) (rest : σ → Bytes) (left : σ → Nat) (f : Nat → Nat)
    (hm : Serves m good rest left f) (c : Czar) (s : σ) (hs : good s) (fuel : Nat) (hfuel : left s < fuel)
    (hlen : 5 ≤ (rest s).length) (key : Key) (hkey : c.ParseHeader ((rest s).take 5) = .ok key) (hna : ∀ k, key ≠ .aes k)
    (calls : List Int) :
    (decReads P m c fuel (c.CreateDecryptingStreamReader s) calls).1 =
      List.replicate calls.length (.error .attributeError) := by
  have later : ∀ (calls : List Int) (r : DecReader σ), r.closed = false → r.key = some key →
      (decReads P m c fuel r calls).1 = List.replicate calls.length (.error .attributeError) := by
    intro calls
    induction calls with
    | nil => intro r _ _; rfl
    | cons ch calls ih =>
      intro r h1 h2
      have h3 : r.read P m c fuel ch = (.error .attributeError, r) := by
        unfold DecReader.read DecReader.advance
        rw [if_neg (by rw [h1]; simp)]
        simp only [h2, DecReader.withKey]
      simp only [decReads, h3, ih r h1 h2, List.length_cons, List.replicate_succ]
  cases calls with
  | nil => rfl
  | cons ch calls =>
    obtain ⟨bytes, avail, s', p1, p2, p3, p4, p5, p6⟩ :=
      readBytes_block hm (size := 5) (by decide) fuel s [] hs hfuel (by decide)
    rw [List.nil_append] at p1 p5 p6
    have hav : avail = true := by
      cases avail with
      | true => rfl
      | false =>
        obtain ⟨q1, q2⟩ := p6 rfl
        rw [p4, q1, List.append_nil] at hlen
        omega
    obtain ⟨q1, -⟩ := p5 hav
    have hge : 5 ≤ bytes.length := by omega
    have htake : (rest s).take 5 = bytes.take 5 := by rw [p4, List.take_append_of_le_length hge]
    rw [htake] at hkey
    have h3 : (DecReader.new s).read P m c fuel ch = (.error .attributeError,
        { DecReader.new s with src := s', enc := bytes.drop 5, key := some key }) := by
      unfold DecReader.read DecReader.advance DecReader.createKey
      rw [if_neg (by simp [DecReader.new])]
      simp only [DecReader.new]
      rw [show (HEADER_SIZE : Int) - ([] : Bytes).length = 5 from rfl, p1]
      simp only [List.nil_append]
      have hge' : bytes.length ≥ HEADER_SIZE := hge
      simp only [sliceTo_nat, sliceFrom_nat, if_pos hge']
      simp only [show HEADER_SIZE = 5 from rfl, hkey]
    show (decReads P m c fuel (DecReader.new s) (ch :: calls)).1 = _
    simp only [decReads, h3, List.length_cons, List.replicate_succ]
    rw [later calls _ rfl rfl]

/-- C58 (finding): a header that is refused is skipped.  After the exception the next reads take the following bytes for
the beginning of a ciphertext: of a ciphertext with five foreign bytes in front, all data is delivered after one
exception. -/
theorem C58_skips_header {σ} (m : Source σ) (good : σ → Prop) (rest : σ → Bytes) (left : σ → Nat)
    (hm : Serves m good rest left (fun n => n)) (c : Czar) (hc : Loaded P c) (hd : c.keySet.Distinct P) (e : Entry)
    (he : e ∈ c.keySet.entries) (k : AesKey) (hk : e.key = .aes k) (iv p ct : Bytes) (hct : k.Encrypt P iv p = .ok ct)
    (junk : Bytes) (hj : junk.length = 5) (x : PyErr) (hx : c.ParseHeader junk = .error x) (s : σ) (hs : good s)
    (hrest : rest s = junk ++ ct) (fuel : Nat) (hfuel : left s < fuel) (ch : Int) (calls : List Int) :
    ∃ res : List (Option Bytes),
      (decReads P m c fuel (c.CreateDecryptingStreamReader s) (ch :: calls)).1 = .error x :: res.map .ok ∧
      (res.map (·.getD [])).flatten <+: p ∧
      (∀ q ∈ calls.zip res, (q.2 = none → q.1 = 0) ∧ (0 ≤ q.1 → (q.2.getD []).length ≤ q.1.toNat)) ∧
      (∀ (i : Nat) (chars : Int), calls[i]? = some chars → chars ≠ 0 → res[i]? = some (some []) →
        ((res.take i).map (·.getD [])).flatten = p) ∧
      (p.length < (calls.filter (· ≠ 0)).length →
        ∃ (i : Nat) (chars : Int), calls[i]? = some chars ∧ chars ≠ 0 ∧ res[i]? = some (some [])) := by
  obtain ⟨bytes, avail, s', p1, p2, p3, p4, p5, p6⟩ :=
    readBytes_block hm (size := 5) (by decide) fuel s [] hs hfuel (by decide)
  rw [List.nil_append] at p1 p5 p6
  rw [hrest] at p4
  have hav : avail = true := by
    cases avail with
    | true => rfl
    | false =>
      obtain ⟨q1, q2⟩ := p6 rfl
      have := congrArg List.length p4
      rw [q1, List.append_nil, List.length_append] at this
      omega
  obtain ⟨q1, q2⟩ := p5 hav
  have hge : 5 ≤ bytes.length := by omega
  have hle : bytes.length < 10 := by
    have : bytes.length ≤ 5 - 1 + 5 := q2
    omega
  have e1 : bytes.take 5 = junk := by
    have := congrArg (List.take 5) p4
    rw [List.take_append_of_le_length hge, ← hj, List.take_left, hj] at this
    exact this.symm
  have e2 : ct = bytes.drop 5 ++ rest s' := by
    have := congrArg (List.drop 5) p4
    rw [List.drop_append_of_le_length hge, ← hj, List.drop_left, hj] at this
    exact this
  have h3 : (DecReader.new s).read P m c fuel ch = (.error x, { DecReader.new s with src := s', enc := bytes.drop 5 }) := by
    unfold DecReader.read DecReader.advance DecReader.createKey
    rw [if_neg (by simp [DecReader.new])]
    simp only [DecReader.new]
    rw [show (HEADER_SIZE : Int) - ([] : Bytes).length = 5 from rfl, p1]
    simp only [List.nil_append]
    have hge' : bytes.length ≥ HEADER_SIZE := hge
    simp only [sliceTo_nat, sliceFrom_nat, if_pos hge']
    simp only [show HEADER_SIZE = 5 from rfl, e1, hx]
  obtain ⟨res, r1, r2⟩ := reads_valid P m good rest left _ hm (by intro n h1 h2; omega) c hc hd e he k hk iv p ct hct
    { DecReader.new s with src := s', enc := bytes.drop 5 }
    ⟨rfl, p2, rfl, rfl, rfl, rfl, rfl, by simp; omega, e2⟩ fuel (by show left s' < fuel; omega) calls
  refine ⟨res, ?_, r2⟩
  show (decReads P m c fuel (DecReader.new s) (ch :: calls)).1 = _
  simp only [decReads, h3, r1]

/-- example: five foreign bytes, then a ciphertext -/
example : ((Czar.init realPrims .crypter Ex.aes).bind fun c => do
    let ct ← c.Encrypt realPrims Ex.rnd (List.replicate 30 67) none
    let r := c.CreateDecryptingStreamReader ([0, 1, 2, 3, 4] ++ ct, ([some 2] : List (Option Nat)))
    return (decReads realPrims scheduled c 500 r [10, 10, -1, -1, -1]).1) =
    .ok [.error .keyNotFound, .ok (some (List.replicate 10 67)), .ok (some (List.replicate 20 67)),
      .ok (some []), .ok (some [])] := by decide +kernel

/-- example: a signature header in a set of HMAC keys -/
example : ((Czar.init realPrims .signer (Ex.hmac .ACTIVE .PRIMARY)).bind fun c => do
    let sig ← c.Sign realPrims Ex.rnd (bstr "m") none
    let r := c.CreateDecryptingStreamReader (sig, ([some 2] : List (Option Nat)))
    return (decReads realPrims scheduled c 500 r [10, -1, 0]).1) =
    .ok (List.replicate 3 (.error .attributeError)) := by decide +kernel

/-! ## C59 -/

/-- an operation on an encrypting stream -/
inductive WriterOp
  | write (data : Bytes)
  | flush
  | close

def WriterOp.run {τ} (S : Sink τ) (w : EncWriter τ) : WriterOp → Py Unit × EncWriter τ
  | .write d => w.write P S d
  | .flush => w.flush P S
  | .close => w.close

def runOps {τ} (S : Sink τ) (w : EncWriter τ) : List WriterOp → List (Py Unit) × EncWriter τ
  | [] => ([], w)
  | op :: ops =>
    let (x, w') := op.run P S w
    let (xs, w'') := runOps S w' ops
    (x :: xs, w'')

/-- C59: on a closed encrypting stream every operation raises ValueError and changes nothing. -/
theorem C59_writer {τ} (S : Sink τ) (w : EncWriter τ) (h : w.closed = true) (ops : List WriterOp) :
    runOps P S w ops = (List.replicate ops.length (.error .valueError), w) := by
  induction ops with
  | nil => rfl
  | cons op ops ih =>
    have : op.run P S w = (.error .valueError, w) := by
      cases op <;> simp [WriterOp.run, EncWriter.write, EncWriter.flush, EncWriter.close, h]
    simp only [runOps, this, ih, List.length_cons, List.replicate_succ]

/-- C59: `close` writes nothing: data that was written but not flushed is lost.  After any sequence of writes and a close,
whatever is tried afterwards, the output has the header, the IV and the encryption of the complete blocks among
the data; no final block and no tag. -/
theorem C59_close_discards {τ} (S : Sink τ) (text : τ → Bytes) (hS : Collects S text) (out0 : τ) (k : AesKey) (kb hb iv : Bytes)
    (h : UsableAes k kb hb) (hiv : iv.length = 16) (chunks : List Bytes) (ops : List WriterOp) :
    ∃ (w0 w1 w2 : EncWriter τ) (c : Bytes), EncWriter.new P S (.aes k) iv out0 = .ok w0 ∧ w0.writeAll P S chunks = (.ok (), w1) ∧
      w1.close = (.ok (), w2) ∧ runOps P S w2 ops = (List.replicate ops.length (.error .valueError), w2) ∧
      k.Encrypt P iv chunks.flatten = .ok c ∧
      text w2.out = text out0 ++ c.take (21 + 16 * (chunks.flatten.length / 16)) := by
  obtain ⟨w0, h0, hd0, hm0⟩ := EncWriter.new_mid P S out0 h hiv
  obtain ⟨w1, ws1, done, h1, hm1, hf1⟩ := EncMid.writeAll P h hiv chunks hm0
  rw [hd0, List.nil_append, List.nil_append] at hf1
  refine ⟨w0, w1, { w1 with closed := true }, _, h0, h1, ?_, C59_writer P S _ rfl ops, aesEncrypt_eq P h hiv _, ?_⟩
  · simp [EncWriter.close, hm1.closed]
  · show text w1.out = _
    rw [hm1.out, foldl_text hS, hm1.flat]
    have hl := congrArg List.length hf1
    rw [List.length_append] at hl
    have hd := hm1.data
    have hfull := hm1.full
    have e : aesBody P kb iv chunks.flatten = cbcE P kb iv done ++ cbcE P kb (chainD iv (cbcE P kb iv done)) (aesPad w1.data) := by
      show cbcE P kb iv (aesPad chunks.flatten) = _
      rw [← hf1, ← aesPad_append hfull, cbcE_append P h.len hiv hfull]
    have hn : 21 + 16 * (chunks.flatten.length / 16) = (aesHeader P kb hb ++ iv ++ cbcE P kb iv done).length := by
      simp only [List.length_append, aesHeader_length, hiv, cbcE_length P h.len hiv hfull]
      omega
    rw [hn]
    conv_rhs => rw [e]
    congr 1
    rw [← List.append_assoc (aesHeader P kb hb ++ iv), List.append_assoc (aesHeader P kb hb ++ iv ++ cbcE P kb iv done), List.take_left]

/-- C59: on a closed decrypting stream every read raises ValueError and changes nothing; `close` may be repeated. -/
theorem C59_reader {σ} (m : Source σ) (c : Czar) (fuel : Nat) (r : DecReader σ) (calls : List Int) :
    r.close.1 = .ok () ∧ r.close.2.close = r.close ∧
    decReads P m c fuel r.close.2 calls = (List.replicate calls.length (.error .valueError), r.close.2) := by
  refine ⟨rfl, rfl, ?_⟩
  induction calls with
  | nil => rfl
  | cons ch calls ih =>
    have : r.close.2.read P m c fuel ch = (.error .valueError, r.close.2) := by simp [DecReader.read, DecReader.close]
    simp only [decReads, this, ih, List.length_cons, List.replicate_succ]

/-- example: an open stream, "AB" written, closed: only header and IV are on the output, later operations raise -/
example : ((EncWriter.new realPrims bytesSink (.aes exAes) (List.replicate 16 5) []).map fun w =>
    let (xs, w') := runOps realPrims bytesSink w [.write [65, 66], .close, .write [67], .flush, .close]
    (xs, w'.out.length)) =
    .ok ([.ok (), .ok (), .error .valueError, .error .valueError, .error .valueError], 21) := by decide +kernel

end Verif.Props
