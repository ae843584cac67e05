import Verif.Model.Keyczar
/-
Streams: the Base64 stream writer and reader (util.py:504-846), the encrypting stream writer and the
decrypting stream reader (keys.py:589-606, 1023-1306), and their creation (keyczar.py:342-367, 537-564).

A file-like object is a record of functions on its state.  Output streams are assumed not to raise.
Methods return their result (or exception) together with the new state.
-/
namespace Verif

/-! ### file-like objects -/

/-- a file-like object open for writing -/
structure Sink (τ : Type) where
  write : τ → Bytes → τ
  flush : τ → τ

/-- a file-like object open for reading: `read(size)`; `none` is Python's None (no data yet), the
empty string is the end of the data.  `read()` is `read(-1)`.  (`BlockingIOError`, util.py:791, is
treated like None by the only code that calls a stream inside `try`.) -/
structure Source (σ : Type) where
  read : σ → Int → Py (Option Bytes) × σ

/-- collects what is written; `flush` does nothing -/
def bytesSink : Sink Bytes := ⟨fun out d => out ++ d, fun out => out⟩

/-! ### Base64 writer -/

/-- util.py:512-537 `_buffer_encode` -/
def b64BufferEncode (input : Bytes) (final : Bool) : Bytes × Nat :=
  let len := if final then input.length else 3 * (input.length / 3)
  (Base64WSEncode (sliceTo input len), len)

/-- util.py:539-557 `encode` over `codecs.BufferedIncrementalEncoder.encode` (CPython 2.7:
`data = self.buffer + input; (result, consumed) = self._buffer_encode(...); self.buffer =
data[consumed:]`); returns text and new buffer.  The second component of Python's result is not used
by any caller. -/
def b64Encode (buffer input : Bytes) : Bytes × Bytes :=
  let data := buffer ++ input
  let (r, n) := b64BufferEncode data false
  (r, sliceFrom data n)

/-- util.py:572-631 `IncrementalBase64WSStreamWriter`: encoder buffer and underlying stream -/
structure B64Writer (τ : Type) where
  buffer : Bytes
  out : τ

/-- `codecs.StreamWriter.write`: `data, consumed = self.encode(object, self.errors);
self.stream.write(data)` -/
def B64Writer.write {τ} (S : Sink τ) (w : B64Writer τ) (d : Bytes) : B64Writer τ :=
  let (r, b) := b64Encode w.buffer d
  ⟨b, S.write w.out r⟩

/-- util.py:610-617 `flush` with util.py:559-570 `encoder.flush` -/
def B64Writer.flush {τ} (S : Sink τ) (w : B64Writer τ) : B64Writer τ :=
  let result := if w.buffer ≠ [] then (b64BufferEncode w.buffer true).1 else []
  if result ≠ [] then ⟨[], S.flush (S.write w.out result)⟩ else ⟨[], w.out⟩

/-- util.py:605-608 `close`: flushes, then `super().close()` raises AttributeError because
`codecs.StreamWriter` has no attribute `close` (its `__getattr__` is not consulted by `super`) -/
def B64Writer.close {τ} (S : Sink τ) (w : B64Writer τ) : Py Unit × B64Writer τ :=
  (.error .attributeError, w.flush S)

/-- the writer as a file-like object -/
def b64Sink {τ} (S : Sink τ) : Sink (B64Writer τ) := ⟨B64Writer.write S, B64Writer.flush S⟩

/-! ### Base64 reader -/

/-- util.py:641-664 `_buffer_decode` -/
def b64BufferDecode (input : Bytes) (final : Bool) : Py (Bytes × Nat) := do
  let len := if final then input.length else 4 * (input.length / 4)
  return (← Base64WSDecode (sliceTo input len), len)

/-- util.py:666-684 `decode` over `codecs.BufferedIncrementalDecoder.decode`; returns the plain bytes
and the new buffer (an exception leaves the buffer as it was) -/
def b64Decode (buffer input : Bytes) : Py (Bytes × Bytes) := do
  let data := buffer ++ input
  let (r, n) ← b64BufferDecode data false
  return (r, sliceFrom data n)

/-- util.py:699-846 `IncrementalBase64WSStreamReader`: decoder buffer, character buffer and underlying
stream.  `bytebuffer` is always empty (`decode` reports all of its input as consumed) and
`linebuffer` is always None (only `readline` sets it). -/
structure B64Reader (σ : Type) where
  buffer : Bytes
  chars : Bytes
  src : σ

/-- util.py:774-783: can the request be satisfied from the character buffer? -/
def b64Satisfied (charbuffer : Bytes) (size chars : Int) : Bool :=
  if chars < 0 then
    if size < 0 then charbuffer ≠ [] else decide ((charbuffer.length : Int) ≥ size)
  else decide ((charbuffer.length : Int) ≥ chars)

/-- util.py:773-813, the loop; `newdata` is the value of the variable of that name -/
def B64Reader.loop {σ} (m : Source σ) (size chars : Int) :
    (fuel : Nat) → B64Reader σ → (newdata : Option Bytes) → Py (Option Bytes) × B64Reader σ
  | 0, r, _ => (.error .diverged, r)
  | fuel + 1, r, newdata =>
    if b64Satisfied r.chars size chars then (.ok newdata, r)
    else
      match m.read r.src (if size < 0 then -1 else size) with
      | (.error e, s) => (.error e, { r with src := s })
      | (.ok none, s) => B64Reader.loop m size chars fuel { r with src := s } none
      | (.ok (some d), s) =>
        match b64Decode r.buffer d with
        | .error e => (.error e, { r with src := s })
        | .ok (new, b) =>
          if d = [] then (.ok (some d), ⟨b, r.chars ++ new, s⟩)
          else B64Reader.loop m size chars fuel ⟨b, r.chars ++ new, s⟩ (some d)

/-- util.py:686-697 `decoder.flush`: an exception leaves the buffer as it was -/
def b64DecoderFlush (buffer : Bytes) : Py Bytes × Bytes :=
  if buffer = [] then (.ok [], [])
  else
    match b64BufferDecode buffer true with
    | .error e => (.error e, buffer)
    | .ok (r, _) => (.ok r, [])

/-- util.py:732-832 `read(size, chars)`; `fuel` bounds the loop -/
def B64Reader.read {σ} (m : Source σ) (fuel : Nat) (r : B64Reader σ) (size chars : Int) :
    Py (Option Bytes) × B64Reader σ :=
  match B64Reader.loop m size chars fuel r (some []) with
  | (.error e, r) => (.error e, r)
  | (.ok newdata, r) =>
    let result := if chars < 0 then r.chars else sliceTo r.chars chars
    let rest := if chars < 0 then [] else sliceFrom r.chars chars
    let r := { r with chars := rest }
    if result = [] ∧ newdata = none then (.ok none, r)
    else if result = [] ∧ newdata = some [] ∧ chars ≠ 0 then
      match b64DecoderFlush r.buffer with
      | (.error e, b) => (.error e, { r with buffer := b })
      | (.ok d, b) => (.ok (some d), { r with buffer := b })
    else (.ok (some result), r)

/-- the reader as a file-like object: `read(size)` leaves `chars` at its default -1 -/
def b64Source {σ} (m : Source σ) (fuel : Nat) : Source (B64Reader σ) :=
  ⟨fun r size => r.read m fuel size (-1)⟩

variable (P : Prims)

/-! ### encrypting writer -/

/-- keys.py:1023-1043 `EncryptingStreamWriter` -/
structure EncWriter (τ : Type) where
  key : AesKey
  data : Bytes
  closed : Bool
  hmac : HmacObj
  cipher : CbcObj
  out : τ

/-- keys.py:1029-1051 `__init__`; `iv` is drawn.  Only AES keys have an `hmac_key`. -/
def EncWriter.new {τ} (S : Sink τ) (key : Key) (iv : Bytes) (out : τ) : Py (EncWriter τ) :=
  match key with
  | .aes k => do
    let hb ← k.hmacKey.keyBytes
    let kb ← k.keyBytes
    let cipher ← CbcObj.new kb iv
    let hdr ← headerOf (← k.hashId P)
    return ⟨k, [], false, (HmacObj.new hb).update (hdr ++ iv), cipher, S.write out (hdr ++ iv)⟩
  | _ => .error .attributeError

/-- keys.py:1091-1110 `__WriteEncrypted` -/
def EncWriter.writeEncrypted {τ} (S : Sink τ) (w : EncWriter τ) (data : Bytes) (pad : Bool) :
    Py Unit × EncWriter τ :=
  let data := if pad then aesPad data else data
  match w.cipher.encrypt P data with
  | .error e => (.error e, w)
  | .ok (enc, cipher) => (.ok (), { w with cipher := cipher, out := S.write w.out enc, hmac := w.hmac.update enc })

/-- keys.py:1053-1069 `write` -/
def EncWriter.write {τ} (S : Sink τ) (w : EncWriter τ) (data : Bytes) : Py Unit × EncWriter τ :=
  if w.closed then (.error .valueError, w)
  else
    let w := { w with data := w.data ++ data }
    let size := noPadBufferSize w.data.length
    if (w.data.length : Int) ≥ size then
      match w.writeEncrypted P S (sliceTo w.data size) false with
      | (.error e, w) => (.error e, w)
      | (.ok (), w) => (.ok (), { w with data := sliceFrom w.data size })
    else (.ok (), { w with data := sliceFrom w.data 0 })

/-- keys.py:1071-1080 `flush` (the buffered data is not cleared) -/
def EncWriter.flush {τ} (S : Sink τ) (w : EncWriter τ) : Py Unit × EncWriter τ :=
  if w.closed then (.error .valueError, w)
  else
    match w.writeEncrypted P S w.data true with
    | (.error e, w) => (.error e, w)
    | (.ok (), w) => (.ok (), { w with out := S.flush (S.write w.out (w.hmac.digest P)) })

/-- keys.py:1082-1089 `close` -/
def EncWriter.close {τ} (w : EncWriter τ) : Py Unit × EncWriter τ :=
  if w.closed then (.error .valueError, w) else (.ok (), { w with closed := true })

/-- keyczar.py:342-367 `CreateEncryptingStreamWriter` on a stream (with `encoder=None`, or on the
encoding stream made by the encoder) -/
def Czar.CreateEncryptingStreamWriter {τ} (c : Czar) (S : Sink τ) (rnd : Rand) (out : τ) : Py (EncWriter τ) := do
  EncWriter.new P S (← c.primaryKey) (rnd.bytes 0 16) out

/-! ### decrypting reader -/

/-- keys.py:1117-1146 `DecryptingStreamReader` with its input stream.  The adjusted buffer size is
never used (keys.py:1141, 1284-1285) and left out. -/
structure DecReader (σ : Type) where
  key : Option Key
  hmac : Option HmacObj
  cipher : Option CbcObj
  enc : Bytes
  dec : Bytes
  closed : Bool
  src : σ

/-- keys.py:1123-1146 `__init__` -/
def DecReader.new {σ} (src : σ) : DecReader σ := ⟨none, none, none, [], [], false, src⟩

/-- keyczar.py:537-564 `CreateDecryptingStreamReader` on a stream (with `decoder=None`, or on the
decoding stream made by the decoder); the key set `c` is passed to `read` instead of being stored -/
def Czar.CreateDecryptingStreamReader {σ} (_c : Czar) (src : σ) : DecReader σ := DecReader.new src

/-- keys.py:1243-1261 `__ReadBytes`; returns the bytes and whether more data is available -/
def readBytes {σ} (m : Source σ) (size : Int) (block : Bool) :
    (fuel : Nat) → σ → (result : Bytes) → Py (Bytes × Bool) × σ
  | 0, s, _ => (.error .diverged, s)
  | fuel + 1, s, result =>
    match m.read s size with
    | (.error e, s) => (.error e, s)
    | (.ok (some []), s) => (.ok (result, false), s)
    | (.ok none, s) =>
      if !block then (.ok (result, true), s)
      else if (result.length : Int) < size then readBytes m size block fuel s result
      else (.ok (result, true), s)
    | (.ok (some (a :: d)), s) =>
      if ((result ++ a :: d).length : Int) < size then readBytes m size block fuel s (result ++ a :: d)
      else (.ok (result ++ a :: d, true), s)

/-- keys.py:1263-1287 `__CreateKey`, called when there is no key yet -/
def DecReader.createKey {σ} (m : Source σ) (c : Czar) (fuel : Nat) (r : DecReader σ) : Py Bool × DecReader σ :=
  match readBytes m ((HEADER_SIZE : Int) - r.enc.length) true fuel r.src [] with
  | (.error e, s) => (.error e, { r with src := s })
  | (.ok (bytes, avail), s) =>
    let r := { r with src := s, enc := r.enc ++ bytes }
    if r.enc.length ≥ HEADER_SIZE then
      let hdr := sliceTo r.enc HEADER_SIZE
      let r := { r with enc := sliceFrom r.enc HEADER_SIZE }
      match c.ParseHeader hdr with
      | .error e => (.error e, r)
      | .ok key =>
        let r := { r with key := some key }
        match key with
        | .aes k =>
          match k.hmacKey.keyBytes with
          | .error e => (.error e, r)
          | .ok hb => (.ok avail, { r with hmac := some ((HmacObj.new hb).update hdr) })
        | _ => (.error .attributeError, r)
    else (.ok avail, r)

/-- keys.py:1289-1306 `__CreateCipher`, called when there is no cipher yet -/
def DecReader.createCipher {σ} (m : Source σ) (k : AesKey) (fuel : Nat) (r : DecReader σ) : Py Bool × DecReader σ :=
  match readBytes m (16 - (r.enc.length : Int)) true fuel r.src [] with
  | (.error e, s) => (.error e, { r with src := s })
  | (.ok (bytes, avail), s) =>
    let r := { r with src := s, enc := r.enc ++ bytes }
    if r.enc.length ≥ 16 then
      let iv := sliceTo r.enc 16
      let r := { r with enc := sliceFrom r.enc 16 }
      match r.hmac with
      | none => (.error .attributeError, r)
      | some h =>
        let r := { r with hmac := some (h.update iv) }
        match (do CbcObj.new (← k.keyBytes) iv : Py CbcObj) with
        | .error e => (.error e, r)
        | .ok ci => (.ok avail, { r with cipher := some ci })
    else (.ok avail, r)

/-- keys.py:1182-1196: the part of the buffer that can be decrypted now -/
def decryptable (enc : Bytes) (avail : Bool) : Bytes :=
  let reserved := if avail then HLEN + 16 else HLEN
  let available := sliceTo enc (-(reserved : Int))
  let no := if avail then available.length % 16 else 0
  if no ≠ 0 then sliceTo available (-(no : Int)) else available

/-- keys.py:1176-1198, the loop: returns `data_to_decrypt` and `is_data_avail` -/
def DecReader.fill {σ} (m : Source σ) (rfuel : Nat) : (fuel : Nat) → DecReader σ → Py (Bytes × Bool) × DecReader σ
  | 0, r => (.error .diverged, r)
  | fuel + 1, r =>
    match readBytes m 16 false rfuel r.src [] with
    | (.error e, s) => (.error e, { r with src := s })
    | (.ok (bytes, avail), s) =>
      let r := { r with src := s, enc := r.enc ++ bytes }
      let data := decryptable r.enc avail
      if avail ∧ data = [] then DecReader.fill m rfuel fuel r else (.ok (data, avail), r)

/-- keys.py:1201-1216: decrypt, and at the end of the input check the signature and remove padding -/
def DecReader.process {σ} (r : DecReader σ) (h : HmacObj) (ci : CbcObj) (data : Bytes) (avail : Bool) :
    Py Unit × DecReader σ :=
  let h := h.update data
  let r := { r with hmac := some h, enc := sliceFrom r.enc data.length }
  match ci.decrypt P data with
  | .error e => (.error e, r)
  | .ok (plain, ci) =>
    let r := { r with cipher := some ci }
    if avail then (.ok (), { r with dec := r.dec ++ plain })
    else if r.enc.length ≠ HLEN then (.error (.shortCiphertext r.enc.length), r)
    else
      let sig := r.enc
      let r := { r with enc := [] }
      if VerifySignedData (h.digest P) sig then
        match aesUnPad plain with
        | .error e => (.error e, r)
        | .ok p => (.ok (), { r with dec := r.dec ++ p })
      else (.error .invalidSignature, r)

/-- keys.py:1173-1216: the body of `read` once key and cipher exist; returns `is_data_avail` -/
def DecReader.body {σ} (m : Source σ) (fuel : Nat) (r : DecReader σ) (h : HmacObj) (ci : CbcObj) : Py Bool × DecReader σ :=
  match r.fill m fuel fuel with
  | (.error e, r) => (.error e, r)
  | (.ok (data, avail), r) =>
    if data = [] then (.ok avail, r)
    else
      match r.process P h ci data avail with
      | (.error e, r) => (.error e, r)
      | (.ok (), r) => (.ok avail, r)

/-- keys.py:1218-1228: the end of `read` -/
def DecReader.take {σ} (r : DecReader σ) (chars : Int) (avail : Bool) : Py (Option Bytes) × DecReader σ :=
  let result := if chars < 0 then r.dec else sliceTo r.dec chars
  let rest := if chars < 0 then [] else sliceFrom r.dec chars
  (.ok (if result = [] ∧ avail then none else some result), { r with dec := rest })

/-- keys.py:1170-1173, second step of `read`: the cipher is created when data is available and there
is a key; then the body runs when data is available and both exist -/
def DecReader.withKey {σ} (m : Source σ) (fuel : Nat) (r : DecReader σ) (avail : Bool) : Py Bool × DecReader σ :=
  match avail, r.key with
  | true, some (.aes k) =>
    match r.cipher, r.hmac with
    | some ci, some h => r.body P m fuel h ci
    | some _, none => (.error .attributeError, r)
    | none, _ =>
      match r.createCipher m k fuel with
      | (.error e, r) => (.error e, r)
      | (.ok avail, r) =>
        match avail, r.cipher, r.hmac with
        | true, some ci, some h => r.body P m fuel h ci
        | true, some _, none => (.error .attributeError, r)
        | _, _, _ => (.ok avail, r)
  | true, some _ => (.error .attributeError, r)
  | _, _ => (.ok avail, r)

/-- keys.py:1166-1216: everything `read` does before it cuts off its result; returns `is_data_avail` -/
def DecReader.advance {σ} (m : Source σ) (c : Czar) (fuel : Nat) (r : DecReader σ) : Py Bool × DecReader σ :=
  match r.key with
  | some _ => r.withKey P m fuel true
  | none =>
    match r.createKey m c fuel with
    | (.error e, r) => (.error e, r)
    | (.ok avail, r) => r.withKey P m fuel avail

/-- keys.py:1148-1228 `read(chars)`; `fuel` bounds each of the loops -/
def DecReader.read {σ} (m : Source σ) (c : Czar) (fuel : Nat) (r : DecReader σ) (chars : Int) :
    Py (Option Bytes) × DecReader σ :=
  if r.closed then (.error .valueError, r)
  else
    match r.advance P m c fuel with
    | (.error e, r) => (.error e, r)
    | (.ok avail, r) => r.take chars avail

/-- keys.py:1230-1236 `close` -/
def DecReader.close {σ} (r : DecReader σ) : Py Unit × DecReader σ := (.ok (), { r with closed := true })

end Verif
