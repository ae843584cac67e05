import Verif.Props.Interop
import Verif.Props.MalformedKeys
/-
C77: what it means that `Test` of the interoperability program passes.  Tests that pass are in InteropExample.
-/
namespace Verif.Props
open Verif Spec
variable (P : Prims)

theorem bind_inv {α β} {x : Py α} {f : α → Py β} {b : β} (h : (x >>= f) = .ok b) : ∃ a, x = .ok a ∧ f a = .ok b := by
  cases x with
  | error e => cases h
  | ok a => exact ⟨a, rfl, h⟩

variable {P}

theorem opens_of {fs : FS} {path : Bytes} {alg options pubOptions : Json} {r : Reader} {cls : CzarClass} {c : Czar}
    (hr : readerOf P fs path alg options pubOptions = .ok r) (hc : Czar.init P cls r = .ok c) :
    NamedSet P fs path alg options pubOptions c := by
  have hl : Loads P r c.keySet := by
    obtain ⟨h1, -, h3, h4⟩ := Czar.init_iff.mp ⟨c, hc, rfl⟩
    exact Czar.init_iff.mpr ⟨h1, by cases c.keySet.purpose <;> rfl, h3, h4⟩
  refine ⟨⟨_, _, hc⟩, ?_⟩
  unfold readerOf at hr
  obtain ⟨v, h1, hr⟩ := bind_inv hr
  obtain ⟨w, h2, hr⟩ := bind_inv hr
  obtain ⟨name, h3, hr⟩ := bind_inv hr
  obtain ⟨crypted, h4, hr⟩ := bind_inv hr
  obtain ⟨pub, h5, hr⟩ := bind_inv hr
  refine ⟨name, crypted, pub, h3, ⟨v, h1, h4⟩, ?_, ?_⟩
  · cases pubOptions with
    | obj l =>
      refine ⟨l, rfl, ?_⟩
      simp only [Json.getD, Except.ok.injEq] at h2
      subst h2
      split
      · rename_i h0
        rw [h0, Option.getD_none] at h5
        exact (Except.ok.inj h5).symm
      · rename_i x h0
        rw [h0, Option.getD_some] at h5
        exact h5
    | _ => simp [Json.getD] at h2
  · unfold GetReader CreateReader at hr
    obtain ⟨r0, h6, hr⟩ := bind_inv hr
    cases hd : fs (pathJoin path (name ++ crypted ++ pub)) with
    | none => rw [hd] at h6; cases h6
    | some d =>
      rw [hd] at h6
      obtain rfl := Except.ok.inj h6
      refine ⟨d, hd, ?_⟩
      by_cases hcr : crypted = []
      · rw [if_pos hcr] at hr
        obtain rfl := Except.ok.inj hr
        exact .inl ⟨hcr, hl⟩
      · rw [if_neg hcr] at hr
        obtain ⟨r1, h7, hr⟩ := bind_inv hr
        obtain ⟨cr, h8, hr⟩ := bind_inv hr
        obtain rfl := Except.ok.inj hr
        cases hd' : fs (pathJoin path crypted) with
        | none => rw [hd'] at h7; cases h7
        | some d' =>
          rw [hd'] at h7
          obtain rfl := Except.ok.inj h7
          exact .inr ⟨hcr, d', cr, rfl, h8, hl⟩

theorem decoder_of {o : Json} {dec} (h : decoderOf o = .ok dec) : CodedBy o dec := by
  unfold decoderOf at h
  obtain ⟨v, h1, h⟩ := bind_inv h
  refine ⟨v, h1, ?_⟩
  obtain rfl := Except.ok.inj h
  by_cases hv : v.isText "encoded" = true
  · exact .inl ⟨(isText_iff _ _).mp hv, by rw [if_pos hv]⟩
  · exact .inr ⟨fun e => hv ((isText_iff _ _).mpr e), by rw [if_neg hv]⟩

theorem assert_of {b : Bool} {u : Unit} (h : assert b = .ok u) : b = true := by
  unfold assert at h
  split at h
  · assumption
  · cases h

variable (P)

/-- C77: if the test of a signature passes, the key set named on the disk verifies that signature of the test data. -/
theorem C77_passes_sign (fs : FS) (out keyPath alg go ts data : Json) (r : Bytes)
    (h : interopTest P fs (Json.ofString "sign") out keyPath alg go ts data = .ok r) :
    ∃ m path sig dec c, data.toBytes = .ok m ∧ keyPath.toBytes = .ok path ∧ B64Field out "output" sig ∧ CodedBy go dec ∧
      NamedSet P fs path alg go ts c ∧ c.Verify P m sig dec = .ok true := by
  unfold interopTest at h
  obtain ⟨op, h1, h⟩ := bind_inv h
  obtain ⟨m, h2, h⟩ := bind_inv h
  obtain ⟨path, h3, h⟩ := bind_inv h
  have : operationOf (Json.ofString "sign") = .ok .sign := rfl
  rw [this] at h1
  obtain rfl := Except.ok.inj h1
  obtain ⟨u, h4, -⟩ := bind_inv h
  unfold SignOperation.Test at h4
  obtain ⟨sig, h5, h4⟩ := bind_inv h4
  obtain ⟨dec, h6, h4⟩ := bind_inv h4
  obtain ⟨v, h7, h4⟩ := bind_inv h4
  obtain ⟨rd, h8, h4⟩ := bind_inv h4
  obtain ⟨c, h9, h4⟩ := bind_inv h4
  obtain ⟨b, h10, h4⟩ := bind_inv h4
  obtain rfl := assert_of h4
  exact ⟨m, path, sig, dec, c, h2, h3, (getB64_ok _ _ _).mp h5, decoder_of h6, opens_of h8 h9, h10⟩

/-- C77: the same for signatures without header. -/
theorem C77_passes_unversioned (fs : FS) (out keyPath alg go ts data : Json) (r : Bytes)
    (h : interopTest P fs (Json.ofString "unversioned") out keyPath alg go ts data = .ok r) :
    ∃ m path sig dec c, data.toBytes = .ok m ∧ keyPath.toBytes = .ok path ∧ B64Field out "output" sig ∧ CodedBy go dec ∧
      NamedSet P fs path alg go ts c ∧ c.UnversionedVerify P m sig dec = .ok true := by
  unfold interopTest at h
  obtain ⟨op, h1, h⟩ := bind_inv h
  obtain ⟨m, h2, h⟩ := bind_inv h
  obtain ⟨path, h3, h⟩ := bind_inv h
  have : operationOf (Json.ofString "unversioned") = .ok .unversioned := rfl
  rw [this] at h1
  obtain rfl := Except.ok.inj h1
  obtain ⟨u, h4, -⟩ := bind_inv h
  unfold UnversionedSignOperation.Test at h4
  obtain ⟨sig, h5, h4⟩ := bind_inv h4
  obtain ⟨dec, h6, h4⟩ := bind_inv h4
  obtain ⟨v, h7, h4⟩ := bind_inv h4
  obtain ⟨rd, h8, h4⟩ := bind_inv h4
  obtain ⟨c, h9, h4⟩ := bind_inv h4
  obtain ⟨b, h10, h4⟩ := bind_inv h4
  obtain rfl := assert_of h4
  exact ⟨m, path, sig, dec, c, h2, h3, (getB64_ok _ _ _).mp h5, decoder_of h6, opens_of h8 h9, h10⟩

/-- C77: if the test of an attached signature passes, the key set verifies it for some data, not empty: not
necessarily the test data (C77_attached_any_data). -/
theorem C77_passes_attached (fs : FS) (out keyPath alg go ts data : Json) (r : Bytes)
    (h : interopTest P fs (Json.ofString "attached") out keyPath alg go ts data = .ok r) :
    ∃ path sig dec c d, keyPath.toBytes = .ok path ∧ B64Field out "output" sig ∧ CodedBy go dec ∧
      NamedSet P fs path alg go ts c ∧ c.AttachedVerify P sig [] dec = .ok (some d) ∧ d ≠ [] := by
  unfold interopTest at h
  obtain ⟨op, h1, h⟩ := bind_inv h
  obtain ⟨m, h2, h⟩ := bind_inv h
  obtain ⟨path, h3, h⟩ := bind_inv h
  have : operationOf (Json.ofString "attached") = .ok .attached := rfl
  rw [this] at h1
  obtain rfl := Except.ok.inj h1
  obtain ⟨u, h4, -⟩ := bind_inv h
  unfold AttachedSignOperation.Test at h4
  obtain ⟨sig, h5, h4⟩ := bind_inv h4
  obtain ⟨dec, h6, h4⟩ := bind_inv h4
  obtain ⟨v, h7, h4⟩ := bind_inv h4
  obtain ⟨rd, h8, h4⟩ := bind_inv h4
  obtain ⟨c, h9, h4⟩ := bind_inv h4
  obtain ⟨b, h10, h4⟩ := bind_inv h4
  have h11 := assert_of h4
  cases b with
  | none => cases h11
  | some d => exact ⟨path, sig, dec, c, d, h3, (getB64_ok _ _ _).mp h5, decoder_of h6, opens_of h8 h9, h10,
      by rintro rfl; cases h11⟩

/-- C77: if the test of a ciphertext passes, it decrypts to the test data under the key set named. -/
theorem C77_passes_encrypt (fs : FS) (out keyPath alg go ts data : Json) (r : Bytes)
    (h : interopTest P fs (Json.ofString "encrypt") out keyPath alg go ts data = .ok r) :
    ∃ m path ct dec c, data.toBytes = .ok m ∧ keyPath.toBytes = .ok path ∧ B64Field out "output" ct ∧ CodedBy go dec ∧
      NamedSet P fs path alg go ts c ∧ c.Decrypt P ct dec = .ok m := by
  unfold interopTest at h
  obtain ⟨op, h1, h⟩ := bind_inv h
  obtain ⟨m, h2, h⟩ := bind_inv h
  obtain ⟨path, h3, h⟩ := bind_inv h
  have : operationOf (Json.ofString "encrypt") = .ok .encrypt := rfl
  rw [this] at h1
  obtain rfl := Except.ok.inj h1
  obtain ⟨u, h4, -⟩ := bind_inv h
  unfold EncryptOperation.Test at h4
  obtain ⟨sig, h5, h4⟩ := bind_inv h4
  obtain ⟨dec, h6, h4⟩ := bind_inv h4
  obtain ⟨rd, h8, h4⟩ := bind_inv h4
  obtain ⟨c, h9, h4⟩ := bind_inv h4
  obtain ⟨b, h10, h4⟩ := bind_inv h4
  obtain rfl := of_decide_eq_true (assert_of h4)
  exact ⟨_, path, sig, dec, c, h2, h3, (getB64_ok _ _ _).mp h5, decoder_of h6, opens_of h8 h9, h10⟩

/-- C77: if the test of a signed session passes, the session material and the message are accepted by the two key sets
named, and the message is the test data. -/
theorem C77_passes_session (fs : FS) (out keyPath alg go ts data : Json) (r : Bytes)
    (h : interopTest P fs (Json.ofString "signedSession") out keyPath alg go ts data = .ok r) :
    ∃ m path ct material signer ve c s, data.toBytes = .ok m ∧ keyPath.toBytes = .ok path ∧ HasText out "output" ct ∧
      HasText out "sessionMaterial" material ∧ go.get "signer" = .ok signer ∧
      NamedSet P fs path signer go (.obj []) ve ∧ NamedSet P fs path alg go ts c ∧
      SignedSessionDecrypter.new P c material = .ok s ∧ SignedSessionDecrypter.Decrypt P s ve ct = .ok (some m) := by
  unfold interopTest at h
  obtain ⟨op, h1, h⟩ := bind_inv h
  obtain ⟨m, h2, h⟩ := bind_inv h
  obtain ⟨path, h3, h⟩ := bind_inv h
  have : operationOf (Json.ofString "signedSession") = .ok .signedSession := rfl
  rw [this] at h1
  obtain rfl := Except.ok.inj h1
  obtain ⟨u, h4, -⟩ := bind_inv h
  unfold SignedSessionOperation.Test at h4
  obtain ⟨o, h5, h4⟩ := bind_inv h4
  obtain ⟨sm, h6, h4⟩ := bind_inv h4
  obtain ⟨sg, h7, h4⟩ := bind_inv h4
  obtain ⟨rd, h8, h4⟩ := bind_inv h4
  obtain ⟨ve, h9, h4⟩ := bind_inv h4
  obtain ⟨rd', h10, h4⟩ := bind_inv h4
  obtain ⟨c, h11, h4⟩ := bind_inv h4
  obtain ⟨mat, h12, h4⟩ := bind_inv h4
  obtain ⟨s, h13, h4⟩ := bind_inv h4
  obtain ⟨ct, h14, h4⟩ := bind_inv h4
  obtain ⟨b, h15, h4⟩ := bind_inv h4
  obtain rfl := of_decide_eq_true (assert_of h4)
  exact ⟨_, path, ct, mat, sg, ve, c, s, h2, h3, ⟨_, h5, h14⟩, ⟨_, h6, h12⟩, h7, opens_of h8 h9, opens_of h10 h11, h13, h15⟩

/-- C77: a test of encryption passes for one text at most. -/
theorem C77_encrypt_one_text (fs : FS) (out keyPath alg go ts data data' : Json) (m m' r r' : Bytes)
    (hm : data.toBytes = .ok m) (hm' : data'.toBytes = .ok m')
    (h : interopTest P fs (Json.ofString "encrypt") out keyPath alg go ts data = .ok r)
    (h' : interopTest P fs (Json.ofString "encrypt") out keyPath alg go ts data' = .ok r') : m = m' := by
  unfold interopTest EncryptOperation.Test at h h'
  have : operationOf (Json.ofString "encrypt") = .ok .encrypt := rfl
  simp only [this, hm, hm', bind, Except.bind] at h h'
  cases hp : keyPath.toBytes with
  | error e => simp [hp] at h
  | ok path =>
    simp only [hp] at h h'
    cases hi : JsonInput out with
    | error e => simp [hi] at h
    | ok ct =>
      simp only [hi] at h h'
      cases hd : decoderOf go with
      | error e => simp [hd] at h
      | ok dec =>
        simp only [hd] at h h'
        cases hr : readerOf P fs path alg go ts with
        | error e => simp [hr] at h
        | ok rd =>
          simp only [hr] at h h'
          cases hc : Czar.init P .crypter rd with
          | error e => simp [hc] at h
          | ok c =>
            simp only [hc] at h h'
            cases hx : c.Decrypt P ct dec with
            | error e => simp [hx] at h
            | ok d =>
              simp only [hx, assert] at h h'
              by_cases e1 : d = m
              · by_cases e2 : d = m'
                · rw [← e1, e2]
                · simp [e2] at h'
              · simp [e1] at h


/-- C77 (command line): a run that does not fail was asked, in a JSON object, for one of the three commands. -/
theorem C77_command (env : InteropEnv) (argv : List Bytes) (fs : FS) (out : Bytes) (eff : List Effect)
    (h : interopMain P env argv fs = (.ok out, eff)) :
    ∃ text rest args, argv = text :: rest ∧ rest.length ≤ 1 ∧ loads text = .ok args ∧
      ∃ cmd : String, cmd ∈ ["create", "generate", "test"] ∧ args.get "command" = .ok (.str cmd.toList) ∧
        (cmd ≠ "create" → eff = []) := by
  unfold interopMain at h
  split at h
  · cases h
  rename_i hlen
  split at h
  · cases h
  rename_i text rest
  refine ⟨text, rest, ?_⟩
  simp only [List.length_cons] at hlen
  cases hl : loads text with
  | error e => rw [hl] at h; cases h
  | ok args =>
    refine ⟨args, rfl, by omega, rfl, ?_⟩
    rw [hl] at h
    simp only [Cmd.lift_ok] at h
    cases hc : args.contains "command" with
    | error e => rw [hc] at h; cases h
    | ok b =>
      rw [hc] at h
      simp only [Cmd.lift_ok] at h
      cases b with
      | false => cases h
      | true =>
        rw [if_neg (by decide)] at h
        cases hg : args.get "command" with
        | error e => rw [hg] at h; cases h
        | ok cmd =>
          rw [hg] at h
          simp only [Cmd.lift_ok] at h
          have key : ∀ s : String, cmd.isText s = true → cmd = .str s.toList := by
            intro s hs
            unfold Json.isText at hs
            split at hs
            · simp_all
            · cases hs
          split at h
          · rename_i h1
            exact ⟨"create", by decide, by rw [key _ h1], fun h => absurd rfl h⟩
          split at h
          · rename_i h1
            exact ⟨"generate", by decide, by rw [key _ h1], fun _ => (Prod.mk.inj h).2.symm⟩
          split at h
          · rename_i h1
            exact ⟨"test", by decide, by rw [key _ h1], fun _ => (Prod.mk.inj h).2.symm⟩
          · cases h

/-- C77 (command line): there are five operations; another name is a KeyError and a list or an object a TypeError, before
anything else is looked at. -/
theorem C77_operation (fs : FS) (rnd : Nat → Rand) (op out keyPath alg go ts data : Json)
    (h : ∀ name ∈ ["unversioned", "attached", "sign", "encrypt", "signedSession"], op ≠ .str name.toList) :
    ∃ e, interopGenerate P fs rnd op keyPath alg go data = .error e ∧
      interopTest P fs op out keyPath alg go ts data = .error e ∧
      (((∃ l, op = .arr l) ∨ (∃ l, op = .obj l)) → e = .typeError) ∧
      (¬ ((∃ l, op = .arr l) ∨ (∃ l, op = .obj l)) → e = .keyError) := by
  obtain ⟨e, key, h1, h2⟩ : ∃ e, operationOf op = .error e ∧ (((∃ l, op = .arr l) ∨ (∃ l, op = .obj l)) → e = .typeError) ∧
      (¬ ((∃ l, op = .arr l) ∨ (∃ l, op = .obj l)) → e = .keyError) := by
    have no : ∀ name ∈ ["unversioned", "attached", "sign", "encrypt", "signedSession"], ¬ op.isText name = true :=
      fun name hn ht => h name hn ((isText_iff _ _).mp ht)
    unfold operationOf
    split
    · exact ⟨_, rfl, fun _ => rfl, fun h => absurd (.inl ⟨_, rfl⟩) h⟩
    · exact ⟨_, rfl, fun _ => rfl, fun h => absurd (.inr ⟨_, rfl⟩) h⟩
    · rename_i h1 h2
      rw [if_neg (no _ (by decide)), if_neg (no _ (by decide)), if_neg (no _ (by decide)), if_neg (no _ (by decide)),
        if_neg (no _ (by decide))]
      refine ⟨_, rfl, ?_, fun _ => rfl⟩
      rintro (⟨l, rfl⟩ | ⟨l, rfl⟩)
      · exact absurd rfl (h1 l)
      · exact absurd rfl (h2 l)
  unfold interopGenerate interopTest
  rw [key]
  exact ⟨e, rfl, rfl, h1, h2⟩

/-- C77 (command line): an argument that is no object with a command: the usage, or a TypeError if it is a number, a
truth value or null, or a list or text in which `command` occurs. -/
theorem C77_argument (env : InteropEnv) (fs : FS) (text : Bytes) (args : Json) (hl : loads text = .ok args) :
    (∀ l, args = .obj l → (∀ v, args.get "command" ≠ .ok v) → interopMain P env [text] fs = (.error .keyczarError, [])) ∧
    (∀ l, args = .arr l → .str "command".toList ∈ l → interopMain P env [text] fs = (.error .typeError, [])) ∧
    (∀ l, args = .arr l → .str "command".toList ∉ l → interopMain P env [text] fs = (.error .keyczarError, [])) ∧
    (∀ t, args = .str t → "command".toList <:+: t → interopMain P env [text] fs = (.error .typeError, [])) ∧
    (∀ t, args = .str t → ¬ "command".toList <:+: t → interopMain P env [text] fs = (.error .keyczarError, [])) ∧
    ((∀ l, args ≠ .obj l) → (∀ l, args ≠ .arr l) → (∀ t, args ≠ .str t) →
      interopMain P env [text] fs = (.error .typeError, [])) := by
  have e : ∀ b, args.contains "command" = b → (∀ v, args.get "command" ≠ .ok v) → interopMain P env [text] fs =
      (match b with
      | .error x => (.error x, [])
      | .ok false => (.error .keyczarError, [])
      | .ok true => ((args.get "command").bind fun _ => .ok [], [])) := by
    rintro b rfl hg
    unfold interopMain
    rw [if_neg (by simp)]
    simp only [hl, Cmd.lift_ok]
    cases args.contains "command" with
    | error x => rfl
    | ok b =>
      cases b with
      | false => rfl
      | true =>
        simp only [Cmd.lift_ok]
        rw [if_neg (by decide)]
        cases hx : args.get "command" with
        | error x => rfl
        | ok v => exact absurd hx (hg v)
  refine ⟨?_, ?_, ?_, ?_, ?_, ?_⟩
  · rintro l rfl h
    have hn : dictGet l "command".toList = none := by
      cases hx : dictGet l "command".toList with
      | none => rfl
      | some v => exact absurd (by simp only [Json.get, hx]) (h v)
    exact e (.ok false) (by simp only [Json.contains, hn]; rfl) h
  · rintro l rfl hm
    have : l.any (·.isText "command") = true := List.any_eq_true.mpr ⟨_, hm, (isText_iff _ _).mpr rfl⟩
    exact e (.ok true) (by simp only [Json.contains, this]) (fun v h => by cases h)
  · rintro l rfl hm
    have : l.any (·.isText "command") = false := by
      rw [List.any_eq_false]
      intro j hj ht
      rw [(isText_iff _ _).mp ht] at hj
      exact hm hj
    exact e (.ok false) (by simp only [Json.contains, this]) (fun v h => by cases h)
  · rintro t rfl hm
    exact e (.ok true) (by simp only [Json.contains, hm, decide_true]) (fun v h => by cases h)
  · rintro t rfl hm
    exact e (.ok false) (by simp only [Json.contains, hm, decide_false]) (fun v h => by cases h)
  · intro h1 h2 h3
    cases args with
    | obj l => exact absurd rfl (h1 l)
    | arr l => exact absurd rfl (h2 l)
    | str t => exact absurd rfl (h3 t)
    | _ => exact e (.error .typeError) rfl (fun v h => by cases h)

/-- instances of arguments: a list that has the word, one that has not, a text, a number -/
example : (∀ j ∈ [Json.arr [.str "command".toList], .arr [], .str "a command".toList, .num 17], loads (dumps j) = .ok j) ∧
    Json.str "command".toList ∈ [Json.str "command".toList] ∧ "command".toList <:+: "a command".toList := by
  refine ⟨fun j hj => loads_dumps j ?_, by simp, ⟨"a ".toList, [], rfl⟩⟩
  simp only [List.mem_cons, List.not_mem_nil, or_false] at hj
  rcases hj with rfl | rfl | rfl | rfl <;> simp [Json.WF, WFElems]
/-- an unknown operation -/
example : ∀ name ∈ ["unversioned", "attached", "sign", "encrypt", "signedSession"], Json.str "decrypt".toList ≠ .str name.toList := by
  intro name h e
  have : ∀ name ∈ ["unversioned", "attached", "sign", "encrypt", "signedSession"], "decrypt".toList ≠ name.toList := by decide
  exact this name h (Json.str.inj e)

end Verif.Props
