import Verif.Model.Util
/-
The fragment of pyasn1's DER codec that util.py uses: INTEGER and SEQUENCE for DSA signatures,
plus NULL, OBJECT IDENTIFIER (opaque content), OCTET STRING and BIT STRING (opaque content) for the
PKCS8 / X.509 helpers.
-/
namespace Verif

/-- ASN.1 values (pyasn1 `univ.*` objects). -/
inductive Asn1 where
  | integer (n : Int)
  | octets (b : Bytes)
  | bits (b : Bytes)     -- bit string with a whole number of octets (`0` unused bits)
  | null
  | oid (content : Bytes)  -- DER content octets of the OID
  | seq (l : List Asn1)
deriving Repr

/-- Minimal two's complement content octets of a non-negative integer. -/
def derNatBytes (n : Nat) : Bytes :=
  let b := BigIntToBytes n
  match b with
  | [] => [0]
  | c :: t => if c.toNat ≥ 128 then 0 :: c :: t else c :: t

/-- DER INTEGER content octets (pyasn1 `IntegerEncoder`): minimal two's complement.  For `n < 0`
they are the complement of the octets of `-n-1`. -/
def derIntBytes (n : Int) : Bytes :=
  if n ≥ 0 then derNatBytes n.toNat else (derNatBytes (-n - 1).toNat).map (~~~ ·)

/-- Value of INTEGER content octets (pyasn1 `IntegerDecoder`). -/
def derIntValue (b : Bytes) : Int :=
  match b with
  | [] => 0
  | c :: _ => if c.toNat ≥ 128 then -(BytesToLong (b.map (~~~ ·)) : Int) - 1 else (BytesToLong b : Int)

/-- DER length octets (pyasn1 `AbstractItemEncoder.encodeLength`); more than 126 length octets are
refused (`PyAsn1Error`). -/
def derLen (n : Nat) : Py Bytes :=
  if n < 128 then .ok [UInt8.ofNat n]
  else
    let b := BigIntToBytes n
    if b.length > 126 then .error .pyasn1Error else .ok (UInt8.ofNat (128 + b.length) :: b)

/-- tag, length, content -/
def derTLV (tag : UInt8) (content : Bytes) : Py Bytes := do
  let l ← derLen content.length
  return tag :: l ++ content

mutual
/-- pyasn1 `der.encoder.encode` -/
def derEncode : Asn1 → Py Bytes
  | .integer n => derTLV 0x02 (derIntBytes n)
  | .octets b => derTLV 0x04 b
  | .bits b => derTLV 0x03 (0 :: b)
  | .null => derTLV 0x05 []
  | .oid c => derTLV 0x06 c
  | .seq l => do derTLV 0x30 (← derEncodeList l)
/-- the components of a SEQUENCE in order -/
def derEncodeList : List Asn1 → Py Bytes
  | [] => .ok []
  | v :: t => do
    let a ← derEncode v
    let b ← derEncodeList t
    return a ++ b
end

/-- Length octets of the decoder: value and remaining bytes.  Short form; long form with any
number of octets (also non-minimal, as pyasn1 accepts); the indefinite form 0x80 is refused;
truncated input is `SubstrateUnderrunError`. -/
def derReadLen : Bytes → Py (Nat × Bytes)
  | [] => .error .pyasn1Error
  | c :: t =>
    if c.toNat < 128 then .ok (c.toNat, t)
    else
      let k := c.toNat - 128
      if k = 0 then .error .pyasn1Error
      else if t.length < k then .error .pyasn1Error
      else .ok (BytesToLong (t.take k), t.drop k)

mutual
/-- pyasn1 `der.decoder.decode`: value and the bytes that follow it.  Universal tags other than the
modelled ones, empty INTEGERs and bit strings with unused bits are `unmodelled`.  `fuel` bounds the
number of nested calls; `length + 1` always suffices. -/
def derDecode : (fuel : Nat) → Bytes → Py (Asn1 × Bytes)
  | 0, _ => .error .diverged
  | fuel + 1, b =>
    match b with
    | [] => .error .pyasn1Error
    | tag :: t => do
      let (len, rest) ← derReadLen t
      if rest.length < len then .error .pyasn1Error
      else
        let content := rest.take len
        let rest := rest.drop len
        if tag = 0x02 then
          if content = [] then .error .unmodelled else .ok (.integer (derIntValue content), rest)
        else if tag = 0x04 then .ok (.octets content, rest)
        else if tag = 0x03 then
          match content with
          | 0 :: bits => .ok (.bits bits, rest)
          | _ => .error .unmodelled
        else if tag = 0x05 then .ok (.null, rest)
        else if tag = 0x06 then .ok (.oid content, rest)
        else if tag = 0x30 then do
          let l ← derDecodeList fuel content
          return (.seq l, rest)
        else .error .unmodelled
def derDecodeList : (fuel : Nat) → Bytes → Py (List Asn1)
  | 0, _ => .error .diverged
  | fuel + 1, b =>
    if b = [] then .ok []
    else do
      let (v, rest) ← derDecode fuel b
      let l ← derDecodeList fuel rest
      return v :: l
end

/-- enough fuel for `derDecode` -/
def derFuel (b : Bytes) : Nat := 2 * b.length + 2

/-- `decoder.decode(b)[0]` -/
def derDecode0 (b : Bytes) : Py Asn1 := do
  let (v, _) ← derDecode (derFuel b) b
  return v

/-- util.py:209-223 `MakeDsaSig` -/
def MakeDsaSig (r s : Int) : Py Bytes := derEncode (.seq [.integer r, .integer s])

/-- util.py:225-242 `ParseDsaSig`.  `len()` of an INTEGER object is a `TypeError`; `len`/`int` of
the other pyasn1 types are not modelled. -/
def ParseDsaSig (sig : Bytes) : Py (Int × Int) := do
  let seq ← derDecode0 sig
  match seq with
  | .seq l =>
    if l.length ≠ 2 then .error .keyczarError
    else match l with
      | [.integer r, .integer s] => .ok (r, s)
      | _ => .error .unmodelled
  | .integer _ => .error .typeError
  | _ => .error .unmodelled

/-! ### PKCS8 and X.509 helpers -/

/-- util.py:85 DER content of 1.2.840.113549.1.1.1 -/
def RSA_OID : Bytes := [0x2a, 0x86, 0x48, 0x86, 0xf7, 0x0d, 0x01, 0x01, 0x01]
/-- util.py:87 DER content of 1.2.840.10040.4.1 -/
def DSA_OID : Bytes := [0x2a, 0x86, 0x48, 0xce, 0x38, 0x04, 0x01]

/-- The parameter dictionaries of the PKCS8 helpers: util.py:86, 88. -/
inductive Pkcs8Params where
  | rsa (n e d p q dp dq invq : Int)
  | dsa (p q g x : Int)
deriving Repr, DecidableEq

/-- `int(obj)` on a decoded component -/
def asn1Int : Asn1 → Py Int
  | .integer n => .ok n
  | _ => .error .unmodelled

/-- `ParseASN1Sequence` util.py:104-105; on a non-sequence: not modelled. -/
def ParseASN1Sequence : Asn1 → Py (List Asn1)
  | .seq l => .ok l
  | _ => .error .unmodelled

/-- util.py:121-146 `ParsePkcs8` -/
def ParsePkcs8 (pkcs8 : Bytes) : Py Pkcs8Params := do
  let raw ← Base64WSDecode pkcs8
  let seq ← ParseASN1Sequence (← derDecode0 raw)
  match seq with
  | [v, alg, oct] => do
    let version ← asn1Int v
    if version ≠ 0 then .error .keyczarError
    else
      match ← ParseASN1Sequence alg with
      | [oid, algParams] => do
        let octs ← (match oct with | .octets b => .ok b | _ => .error .unmodelled : Py Bytes)
        let key ← derDecode0 octs
        match oid with
        | .oid c =>
          if c = RSA_OID then do
            let key ← ParseASN1Sequence key
            match key with
            | ver :: n :: e :: d :: p :: q :: dp :: dq :: invq :: _ => do
              if (← asn1Int ver) ≠ 0 then .error .keyczarError
              else
                return .rsa (← asn1Int n) (← asn1Int e) (← asn1Int d) (← asn1Int p) (← asn1Int q)
                  (← asn1Int dp) (← asn1Int dq) (← asn1Int invq)
            | [] => .error .indexError
            | ver :: _ => do
              if (← asn1Int ver) ≠ 0 then .error .keyczarError else .error .indexError
          else if c = DSA_OID then do
            match ← ParseASN1Sequence algParams with
            | p :: q :: g :: _ => do
              return .dsa (← asn1Int p) (← asn1Int q) (← asn1Int g) (← asn1Int key)
            | _ => .error .indexError
          else .error .keyczarError
        | _ => .error .unmodelled
      | _ => .error .valueError
  | _ => .error .keyczarError

/-- util.py:148-155 `ExportRsaPkcs8`, :157-164 `ExportDsaPkcs8` -/
def ExportPkcs8 : Pkcs8Params → Py Bytes
  | .rsa n e d p q dp dq invq => do
    let octkey ← derEncode (.seq ([0, n, e, d, p, q, dp, dq, invq].map Asn1.integer))
    let b ← derEncode (.seq [.integer 0, .seq [.oid RSA_OID, .null], .octets octkey])
    return Base64WSEncode b
  | .dsa p q g x => do
    let octkey ← derEncode (.integer x)
    let b ← derEncode (.seq [.integer 0, .seq [.oid DSA_OID, .seq [.integer p, .integer q, .integer g]],
      .octets octkey])
    return Base64WSEncode b

/-- The parameter dictionaries of the X.509 helpers. -/
inductive X509Params where
  | rsa (n e : Int)
  | dsa (p q g y : Int)
deriving Repr, DecidableEq

/-- `"'%s'B" % binkey` followed by `univ.BitString`: the bit string object; its length is a
multiple of 8 here, so it is determined by the octets. -/
def bitStringOfBin (bin : Bytes) : Py Asn1 := do return .bits (← BinToBytes bin)

/-- `seq[1].prettyPrint()[2:-3]`: `prettyPrint` of a BIT STRING is the text `"'…bits…'B"` with the
outer double quotes, so `[2:-3]` leaves the bits (pyasn1 up to 0.1.x). -/
def binOfBitString : Asn1 → Py Bytes
  | .bits b => .ok (BytesToBin b)
  | _ => .error .unmodelled

/-- util.py:170-189 `ParseX509` -/
def ParseX509 (x509 : Bytes) : Py X509Params := do
  let raw ← Base64WSDecode x509
  let seq ← ParseASN1Sequence (← derDecode0 raw)
  match seq with
  | [alg, pk] => do
    match ← ParseASN1Sequence alg with
    | [oid, algParams] => do
      let pubkey ← derDecode0 (← BinToBytes (← binOfBitString pk))
      match oid with
      | .oid c =>
        if c = RSA_OID then do
          match ← ParseASN1Sequence pubkey with
          | [n, e] => return .rsa (← asn1Int n) (← asn1Int e)
          | _ => .error .valueError
        else if c = DSA_OID then do
          let vals ← (← ParseASN1Sequence algParams).mapM asn1Int
          match vals with
          | p :: q :: g :: _ => return .dsa p q g (← asn1Int pubkey)
          | _ => .error .indexError
        else .error .keyczarError
      | _ => .error .unmodelled
    | _ => .error .valueError
  | _ => .error .keyczarError

/-- util.py:191-197 `ExportRsaX509`, :199-207 `ExportDsaX509` -/
def ExportX509 : X509Params → Py Bytes
  | .rsa n e => do
    let binkey := BytesToBin (← derEncode (.seq [.integer n, .integer e]))
    let pubkey ← bitStringOfBin binkey
    let b ← derEncode (.seq [.seq [.oid RSA_OID, .null], pubkey])
    return Base64WSEncode b
  | .dsa p q g y => do
    let binkey := BytesToBin (← derEncode (.integer y))
    let pubkey ← bitStringOfBin binkey
    let b ← derEncode (.seq [.seq [.oid DSA_OID, .seq [.integer p, .integer q, .integer g]], pubkey])
    return Base64WSEncode b

end Verif
