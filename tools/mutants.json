[
 {
  "id": "m01",
  "file": "Verif/Model/Base64.lean",
  "def": "Base64WSDecode",
  "old": "if d = 2 then s ++ [PAD, PAD] else if d = 3 then s ++ [PAD]",
  "new": "if d = 2 then s ++ [PAD] else if d = 3 then s ++ [PAD]",
  "edit": "one pad character instead of two when len%4==2",
  "claim": "C01"
 },
 {
  "id": "m02",
  "file": "Verif/Model/Base64.lean",
  "def": "isSkipped",
  "old": "c = 10 || c = 13 || c = 32",
  "new": "c = 10 || c = 13",
  "edit": "spaces no longer stripped",
  "claim": "C03"
 },
 {
  "id": "m03",
  "file": "Verif/Model/Base64.lean",
  "def": "trEnc",
  "old": "if c = 43 then 45 else if c = 47 then 95 else c",
  "new": "if c = 43 then 45 else c",
  "edit": "slash not translated to underscore",
  "claim": "C02"
 },
 {
  "id": "m04",
  "file": "Verif/Model/Util.lean",
  "def": "UnpackByteArray",
  "old": "return (slice data offset (offset + arrayLen), offset + arrayLen)",
  "new": "return (slice data offset arrayLen, offset + arrayLen)",
  "edit": "slice end forgets the offset",
  "claim": "C06"
 },
 {
  "id": "m05",
  "file": "Verif/Model/Util.lean",
  "def": "structUnpackI",
  "old": ".ok (if u < 2 ^ 31 then (u : Int) else (u : Int) - 2 ^ 32)",
  "new": ".ok u",
  "edit": "length read as unsigned",
  "claim": "C06"
 },
 {
  "id": "m06",
  "file": "Verif/Model/Util.lean",
  "def": "TrimBytes",
  "old": "if trimmed = [] then [0] else trimmed",
  "new": "trimmed",
  "edit": "all-zero string trimmed to empty",
  "claim": "C09"
 },
 {
  "id": "m07",
  "file": "Verif/Model/Util.lean",
  "def": "Xor",
  "old": "else if m > b.length then PadBytes b (m - b.length : Nat) else b",
  "new": "else if m > b.length then b ++ List.replicate (m - b.length) 0 else b",
  "edit": "shorter second operand padded on the right",
  "claim": "C10"
 },
 {
  "id": "m08",
  "file": "Verif/Model/Util.lean",
  "def": "MakeEmsaMessage",
  "old": "- (encoded.length : Int) - 3",
  "new": "- (encoded.length : Int) - 2",
  "edit": "one 0xFF too many",
  "claim": "C50"
 },
 {
  "id": "m09",
  "file": "Verif/Model/Util.lean",
  "def": "MGF",
  "old": ".ok (output.take mlen)",
  "new": ".ok output",
  "edit": "mask not cut to the requested length",
  "claim": "C52"
 },
 {
  "id": "m10",
  "file": "Verif/Model/Keys.lean",
  "def": "VerifySignedData",
  "old": "if sig.length ≠ mac.length then false",
  "new": "if sig.length < mac.length then false",
  "edit": "longer signatures accepted",
  "claim": "C13"
 },
 {
  "id": "m11",
  "file": "Verif/Model/Keys.lean",
  "def": "VerifySignedData",
  "old": "r ||| (p.1 ^^^ p.2)",
  "new": "r ^^^ (p.1 ^^^ p.2)",
  "edit": "differences xored instead of ored",
  "claim": "C13"
 },
 {
  "id": "m12",
  "file": "Verif/Model/Keys.lean",
  "def": "aesPad",
  "old": "let pad := 16 - data.length % 16",
  "new": "let pad := (16 - data.length % 16) % 16",
  "edit": "no padding when already a multiple of 16",
  "claim": "C14"
 },
 {
  "id": "m13",
  "file": "Verif/Model/Keys.lean",
  "def": "AesKey.Encrypt",
  "old": "let msg := header ++ iv ++ ciph\n  let sig ← k.hmacKey.Sign P msg",
  "new": "let msg := header ++ iv ++ ciph\n  let sig ← k.hmacKey.Sign P (header ++ ciph)",
  "edit": "tag does not cover the IV",
  "claim": "C15"
 },
 {
  "id": "m14",
  "file": "Verif/Model/Keys.lean",
  "def": "AesKey.Decrypt",
  "old": "if (← k.hmacKey.Verify P (sliceTo input (-(HLEN : Int))) sig) then do",
  "new": "if (← k.hmacKey.Verify P (sliceTo input (-(HLEN : Int))) sig) || true then do",
  "edit": "result of the tag check ignored",
  "claim": "C16"
 },
 {
  "id": "m15",
  "file": "Verif/Model/Keys.lean",
  "def": "AesKey.Decrypt",
  "old": "if data.length < 16 + HLEN then",
  "new": "if data.length < 16 then",
  "edit": "ciphertext without room for a tag accepted by the length check",
  "claim": "C17"
 },
 {
  "id": "m16",
  "file": "Verif/Model/Keys.lean",
  "def": "AesKey.hashId",
  "old": "Hash P [IntToBytes kb.length, kb, hb]",
  "new": "Hash P [kb, hb]",
  "edit": "identifier without length prefix",
  "claim": "C21"
 },
 {
  "id": "m17",
  "file": "Verif/Model/Keys.lean",
  "def": "RsaPublicKey.hashId",
  "old": "[TrimBytes k.modulus, TrimBytes k.publicExponent]",
  "new": "[k.modulus, k.publicExponent]",
  "edit": "identifier of untrimmed values",
  "claim": "C09"
 },
 {
  "id": "m18",
  "file": "Verif/Model/Keys.lean",
  "def": "RsaPublicKey.Encode",
  "old": "> (k : Int) - 2 * HLEN - 2 then",
  "new": "> (k : Int) - 2 * HLEN then",
  "edit": "OAEP message bound two bytes too large",
  "claim": "C48"
 },
 {
  "id": "m19",
  "file": "Verif/Model/Keys.lean",
  "def": "RsaPrivateKey.Decode",
  "old": "if diffLen > 1 then List.replicate (diffLen - 1).toNat 0 ++ encoded",
  "new": "if diffLen > 2 then List.replicate (diffLen - 1).toNat 0 ++ encoded",
  "edit": "leading zeros not restored when exactly one is missing",
  "claim": "C48"
 },
 {
  "id": "m20",
  "file": "Verif/Model/Keys.lean",
  "def": "RsaPrivateKey.Sign",
  "old": "return PadBytes b ((key.size / 8 : Nat) - (b.length : Int))",
  "new": "return b",
  "edit": "RSA signature not padded to the modulus length",
  "claim": "C50"
 },
 {
  "id": "m21",
  "file": "Verif/Model/Keys.lean",
  "def": "RsaPublicKey.Verify",
  "old": "| .error .valueError => .ok false\n",
  "new": "",
  "edit": "ValueError of a malformed signature escapes",
  "claim": "C47"
 },
 {
  "id": "m22",
  "file": "Verif/Model/Keys.lean",
  "def": "setSize",
  "old": "if t.IsValidSize new then new.toNat else t.defaultSize",
  "new": "new.toNat",
  "edit": "size not checked",
  "claim": "C34"
 },
 {
  "id": "m23",
  "file": "Verif/Model/Keys.lean",
  "def": "RsaPrivateKey.ofObj",
  "old": "primeP := padInt key.q\n    primeQ := padInt key.p",
  "new": "primeP := padInt key.p\n    primeQ := padInt key.q",
  "edit": "generated primes not swapped",
  "claim": "C34"
 },
 {
  "id": "m24",
  "file": "Verif/Model/Keys.lean",
  "def": "AesKey.Read",
  "old": "if mode ≠ .CBC then .error .assertionError\n  else return",
  "new": "return",
  "edit": "mode not checked",
  "claim": "C34"
 },
 {
  "id": "m25",
  "file": "Verif/Model/Keyczar.lean",
  "def": "CzarClass.IsAcceptablePurpose",
  "old": "| .crypter, p => p = .DECRYPT_AND_ENCRYPT",
  "new": "| .crypter, p => p = .DECRYPT_AND_ENCRYPT || p = .ENCRYPT",
  "edit": "Crypter accepts ENCRYPT sets",
  "claim": "C19"
 },
 {
  "id": "m26",
  "file": "Verif/Model/Keyczar.lean",
  "def": "loadKeys",
  "old": "(if c.primary.isSome then .error .keyczarError else .ok (some o))",
  "new": "(.ok (some o))",
  "edit": "second PRIMARY silently accepted",
  "claim": "C18"
 },
 {
  "id": "m27",
  "file": "Verif/Model/Keyczar.lean",
  "def": "Czar.init",
  "old": "else if metadata.encrypted.truthy ∧ ¬ r.isEncryptedReader then .error .keyczarError\n  else loadKeys",
  "new": "else loadKeys",
  "edit": "encrypted sets opened with a plain reader",
  "claim": "C20"
 },
 {
  "id": "m28",
  "file": "Verif/Model/Keyczar.lean",
  "def": "Czar.ParseHeader",
  "old": "if v.toNat ≠ VERSION then .error (.badVersion v.toNat)\n    else c.GetKeyByHash",
  "new": "c.GetKeyByHash",
  "edit": "version byte not checked",
  "claim": "C23"
 },
 {
  "id": "m29",
  "file": "Verif/Model/Keyczar.lean",
  "def": "Czar.maxVersion",
  "old": "c.versions.foldl (fun m o => if m < (c.heap.obj o).num then (c.heap.obj o).num else m) 0",
  "new": "c.versions.length",
  "edit": "next number is the number of versions plus one",
  "claim": "C27"
 },
 {
  "id": "m30",
  "file": "Verif/Model/Keyczar.lean",
  "def": "genLoop",
  "old": "| some _ => genLoop c size rnd fuel (i + 1)",
  "new": "| some _ => return (key, hash)",
  "edit": "identifier collision not retried",
  "claim": "C28"
 },
 {
  "id": "m31",
  "file": "Verif/Model/Keyczar.lean",
  "def": "Czar.AddVersion",
  "old": "| some p => heap.setStatus p .ACTIVE\n                          | none => heap)",
  "new": "| some _ => heap\n                          | none => heap)",
  "edit": "old primary not demoted by AddVersion",
  "claim": "C26"
 },
 {
  "id": "m32",
  "file": "Verif/Model/Keyczar.lean",
  "def": "Czar.Promote",
  "old": "      let heap := match c.primary with\n        | some p => heap.setStatus p .ACTIVE\n        | none => heap\n",
  "new": "",
  "edit": "old primary not demoted by Promote",
  "claim": "C25"
 },
 {
  "id": "m33",
  "file": "Verif/Model/Keyczar.lean",
  "def": "Czar.Demote",
  "old": "{ c with heap := c.heap.setStatus o .ACTIVE, primary := none }",
  "new": "{ c with heap := c.heap.setStatus o .ACTIVE }",
  "edit": "Demote keeps primary_version",
  "claim": "C25"
 },
 {
  "id": "m34",
  "file": "Verif/Model/Keyczar.lean",
  "def": "Czar.Revoke",
  "old": "| _ => (.error .keyczarError, c)\n\n/-- `decoder",
  "new": "| .ACTIVE => (match c.metadata.RemoveVersion num with\n      | .error e => (.error e, c)\n      | .ok m => (.ok (), { c with metadata := m }))\n    | _ => (.error .keyczarError, c)\n\n/-- `decoder",
  "edit": "active versions can be revoked",
  "claim": "C26"
 },
 {
  "id": "m35",
  "file": "Verif/Model/Keyczar.lean",
  "def": "Czar.Decrypt",
  "old": "if data.length < HEADER_SIZE then .error (.shortCiphertext data.length)\n  else do\n    let key ← c.ParseHeader",
  "new": "if data.length < HEADER_SIZE - 1 then .error (.shortCiphertext data.length)\n  else do\n    let key ← c.ParseHeader",
  "edit": "short header check off by one",
  "claim": "C23"
 },
 {
  "id": "m36",
  "file": "Verif/Model/Keyczar.lean",
  "def": "Czar.InternalSign",
  "old": "key.Sign P rnd (data ++ n ++ VERSION_BYTE)",
  "new": "key.Sign P rnd (data ++ n)",
  "edit": "signature without version byte",
  "claim": "C42"
 },
 {
  "id": "m37",
  "file": "Verif/Model/Keyczar.lean",
  "def": "Czar.AttachedSign",
  "old": "(← c.InternalSign P rnd data (some nonce))",
  "new": "(← c.InternalSign P rnd data none)",
  "edit": "nonce not signed",
  "claim": "C44"
 },
 {
  "id": "m38",
  "file": "Verif/Model/Keyczar.lean",
  "def": "verifyAny",
  "old": "| k :: t => do\n    if (← k.Verify P msg sig) then return true else verifyAny msg sig t",
  "new": "| k :: _ => do\n    if (← k.Verify P msg sig) then return true else return false",
  "edit": "only the first key tried",
  "claim": "C46"
 },
 {
  "id": "m39",
  "file": "Verif/Model/Keyczar.lean",
  "def": "Czar.Encrypt",
  "old": "let key ← c.primaryKey\n  let ciphertext",
  "new": "let key ← (match c.vkeys with | [] => .error .keyNotFound | p :: _ => .ok p.2)\n  let ciphertext",
  "edit": "first key instead of the primary used",
  "claim": "C24"
 },
 {
  "id": "m40",
  "file": "Verif/Model/Keyczar.lean",
  "def": "KeyMetadata.RemoveVersion",
  "old": "kmd.versions.filter fun p => p.1 ≠ num",
  "new": "kmd.versions.filter fun p => p.1 = num",
  "edit": "keeps the revoked version and drops the others",
  "claim": "C31"
 },
 {
  "id": "m41",
  "file": "Verif/Model/Keyczart.lean",
  "def": "WriteMetadata",
  "old": "if ¬ overwrite ∧ ((fs l).bind fun d => d .metaFile).isSome then (.error .keyczarError, [])\n  else ",
  "new": "",
  "edit": "existing metadata overwritten",
  "claim": "C37"
 },
 {
  "id": "m42",
  "file": "Verif/Model/Keyczart.lean",
  "def": "Czar.Write",
  "old": "  let c := c.markEncrypted encrypter\n",
  "new": "",
  "edit": "metadata not marked encrypted",
  "claim": "C37"
 },
 {
  "id": "m43",
  "file": "Verif/Model/Keyczart.lean",
  "def": "publicMetadata",
  "old": ".ok ⟨kmd.name, .ENCRYPT, .RSA_PUB, .bool false, []⟩",
  "new": ".ok ⟨kmd.name, .DECRYPT_AND_ENCRYPT, .RSA_PUB, .bool false, []⟩",
  "edit": "exported set keeps the private purpose",
  "claim": "C41"
 },
 {
  "id": "m44",
  "file": "Verif/Model/Keyczart.lean",
  "def": "exportKeys",
  "old": "let text ← Cmd.lift pub.str",
  "new": "let text ← Cmd.lift key.str",
  "edit": "private key text exported",
  "claim": "C41"
 },
 {
  "id": "m45",
  "file": "Verif/Model/Keyczart.lean",
  "def": "Revoke",
  "old": "let w ← Cmd.look (CreateWriter (loc.getD []))\n  RemoveFile w (.key num)",
  "new": "pure ()",
  "edit": "key file not removed",
  "claim": "C31"
 },
 {
  "id": "m46",
  "file": "Verif/Model/Keyczart.lean",
  "def": "AddKey",
  "old": "UpdateGenericKeyczar P env c (loc.getD []) crypter",
  "new": "UpdateGenericKeyczar P env c (loc.getD []) none",
  "edit": "addkey writes the keys unencrypted",
  "claim": "C37"
 },
 {
  "id": "m47",
  "file": "Verif/Model/Keyczart.lean",
  "def": "ChangeStatus",
  "old": "if num < 0 then Cmd.lift (.error .keyczarError)\n  else\n    let (r, c) := op c num\n    Cmd.lift r",
  "new": "if num < 0 then Cmd.lift (.error .keyczarError)\n  else\n    let (_, c) := op c num",
  "edit": "failure of Promote/Demote ignored, set rewritten",
  "claim": "C38"
 },
 {
  "id": "m48",
  "file": "Verif/Model/Keyczart.lean",
  "def": "parseFlags",
  "old": "parseFlags t (assocSet fl f val)",
  "new": "parseFlags t (if (assocGet fl f).isSome then fl else assocSet fl f val)",
  "edit": "first occurrence of a flag wins",
  "claim": "C60",
  "extra_failed": [
   "Props/CommandLine.lean:parseFlags_cons"
  ],
  "note": "Lean runs out of memory in the proof of parseFlags_cons instead of reporting an error; evaluating the changed parseFlags on --version=1 --version=2 gives version 1, against parseFlags_spec (the last occurrence counts)."
 },
 {
  "id": "m49",
  "file": "Verif/Model/Keyczart.lean",
  "def": "purposeFlag",
  "old": "else if b = some (bstr \"sign\") then some .SIGN_AND_VERIFY",
  "new": "else if b = some (bstr \"sign\") then some .VERIFY",
  "edit": "sign means VERIFY",
  "claim": "C60"
 },
 {
  "id": "m50",
  "file": "Verif/Model/PyCrypto.lean",
  "def": "RsaObj.decryptInt",
  "old": ".ok (h * k.p + m1).toNat",
  "new": ".ok (h * k.q + m1).toNat",
  "edit": "CRT recombination with the wrong prime",
  "claim": "C49"
 },
 {
  "id": "m51",
  "file": "Verif/Model/PyCrypto.lean",
  "def": "DsaPubObj.verify",
  "old": "if ¬ (0 < r ∧ r < key.q) ∨ ¬ (0 < s ∧ s < key.q) then .ok false\n  else ",
  "new": "",
  "edit": "range of r and s not checked",
  "claim": "C51"
 },
 {
  "id": "m52",
  "file": "Verif/Model/Keys.lean",
  "def": "Key.Verify",
  "old": "| .hmac k => k.Verify P msg sig",
  "new": "| .hmac k => k.Verify P sig msg",
  "edit": "arguments swapped",
  "claim": "C42"
 },
 {
  "id": "m53",
  "file": "Verif/Model/Keys.lean",
  "def": "AesKey.Encrypt, AesKey.Decrypt",
  "old": "let sig ← k.hmacKey.Sign P msg\n",
  "new": "let sig ← k.hmacKey.Sign P (iv ++ ciph)\n",
  "edit": "tag does not cover the header, in both directions",
  "claim": "C16",
  "more": [
   [
    "(← k.hmacKey.Verify P (sliceTo input (-(HLEN : Int))) sig)",
    "(← k.hmacKey.Verify P (sliceTo data (-(HLEN : Int))) sig)"
   ]
  ]
 },
 {
  "id": "m54",
  "file": "Verif/Model/Keyczar.lean",
  "def": "Czar.InternalSign, Czar.InternalVerify",
  "old": "key.Sign P rnd (data ++ n ++ VERSION_BYTE)",
  "new": "key.Sign P rnd (data ++ n)",
  "edit": "version byte neither signed nor verified",
  "claim": "C42",
  "more": [
   [
    "key.Verify P (data ++ n ++ VERSION_BYTE) signature",
    "key.Verify P (data ++ n) signature"
   ]
  ]
 },
 {
  "id": "m55",
  "file": "Verif/Model/Keys.lean",
  "def": "aesPad, aesUnPad",
  "old": "let pad := 16 - data.length % 16\n  data ++ List.replicate pad (UInt8.ofNat pad)",
  "new": "let pad := 16 - data.length % 16\n  data ++ List.replicate (pad - 1) 0 ++ [UInt8.ofNat pad]",
  "edit": "padding bytes are zero except the last",
  "claim": "C14"
 },
 {
  "id": "m56",
  "file": "Verif/Model/Prims.lean",
  "def": "hmacSha1",
  "old": "P.sha1 (k.map (· ^^^ 0x5c) ++ P.sha1 (k.map (· ^^^ 0x36) ++ msg))",
  "new": "P.sha1 (k.map (· ^^^ 0x36) ++ P.sha1 (k.map (· ^^^ 0x5c) ++ msg))",
  "edit": "inner and outer pad swapped",
  "claim": "C13"
 },
 {
  "id": "m57",
  "file": "Verif/Model/Prims.lean",
  "def": "hmacSha1",
  "old": "if key.length > 64 then P.sha1 key else key",
  "new": "if key.length ≥ 64 then P.sha1 key else key",
  "edit": "key of exactly one block is hashed",
  "claim": "C13"
 },
 {
  "id": "m58",
  "file": "Verif/Model/Prims.lean",
  "def": "cbcEncBlocks, cbcDecBlocks",
  "old": "c :: cbcEncBlocks key c bs",
  "new": "c :: cbcEncBlocks key iv bs",
  "edit": "no chaining between blocks, in both directions",
  "claim": "C15",
  "more": [
   [
    "xorBytes (P.aesDec key c) iv :: cbcDecBlocks key c cs",
    "xorBytes (P.aesDec key c) iv :: cbcDecBlocks key iv cs"
   ]
  ]
 },
 {
  "id": "m59",
  "file": "Verif/Model/Util.lean",
  "def": "MGF",
  "old": "fun i => Hash P [seed, IntToBytes i]",
  "new": "fun i => Hash P [seed, IntToBytes (i + 1)]",
  "edit": "counter starts at one",
  "claim": "C52"
 },
 {
  "id": "m60",
  "file": "Verif/Model/Util.lean",
  "def": "IntToBytes, structUnpackI",
  "old": "[n / 2 ^ 24, n / 2 ^ 16, n / 2 ^ 8, n].map",
  "new": "[n, n / 2 ^ 8, n / 2 ^ 16, n / 2 ^ 24].map",
  "edit": "little endian lengths, in both directions",
  "claim": "C08",
  "more": [
   [
    "((a.toNat * 256 + b.toNat) * 256 + c.toNat) * 256 + e.toNat",
    "((e.toNat * 256 + c.toNat) * 256 + b.toNat) * 256 + a.toNat"
   ]
  ]
 },
 {
  "id": "m61",
  "file": "Verif/Model/Session.lean",
  "def": "Session.packedKey, Session.LoadPackedKey",
  "old": "PackMultipleByteArrays [kb, hb]",
  "new": "PackMultipleByteArrays [hb, kb]",
  "edit": "order of the packed keys swapped, in both directions",
  "claim": "C53",
  "more": [
   [
    "| [kb, hb] =>",
    "| [hb, kb] =>"
   ]
  ]
 },
 {
  "id": "m62",
  "file": "Verif/Model/Prims.lean",
  "def": "KEY_HASH_SIZE",
  "old": "def KEY_HASH_SIZE : Nat := 4",
  "new": "def KEY_HASH_SIZE : Nat := 3",
  "edit": "identifiers of three bytes",
  "claim": "C48"
 },
 {
  "id": "m63",
  "file": "Verif/Model/Prims.lean",
  "def": "VERSION, VERSION_BYTE",
  "old": "def VERSION : Nat := 0",
  "new": "def VERSION : Nat := 1",
  "edit": "version byte of headers changed",
  "claim": "C15"
 },
 {
  "id": "m64",
  "file": "Verif/Model/Base64.lean",
  "def": "b64Char, a2bTable",
  "old": "else if n = 62 then 43                          -- +\n  else 47",
  "new": "else if n = 62 then 47                          -- +\n  else 43",
  "edit": "last two characters of the alphabet swapped, in both directions",
  "claim": "C02",
  "more": [
   [
    "else if n = 43 then some 62\n  else if n = 47 then some 63",
    "else if n = 43 then some 63\n  else if n = 47 then some 62"
   ]
  ]
 },
 {
  "id": "m65",
  "file": "Verif/Model/Util.lean",
  "def": "magicSha1Header",
  "old": "[0x30, 0x21, 0x30, 0x9, 0x6, 0x5, 0x2b, 0xe, 0x3, 0x2, 0x1a, 0x5, 0x0, 0x4, 0x14]",
  "new": "[0x30, 0x20, 0x30, 0x9, 0x6, 0x5, 0x2b, 0xe, 0x3, 0x2, 0x1a, 0x5, 0x0, 0x4, 0x14]",
  "edit": "wrong length in the DigestInfo",
  "claim": "C50",
  "tightened": [
   "C50_emsa (new), C50_accepts_iff: what is signed is compared with the DigestInfo of PKCS#1, written out separately"
  ]
 },
 {
  "id": "m66",
  "file": "Verif/Model/Der.lean",
  "def": "MakeDsaSig, ParseDsaSig",
  "old": "derEncode (.seq [.integer r, .integer s])",
  "new": "derEncode (.seq [.integer s, .integer r])",
  "edit": "s before r, in both directions",
  "claim": "C12",
  "more": [
   [
    "| [.integer r, .integer s] => .ok (r, s)",
    "| [.integer s, .integer r] => .ok (r, s)"
   ]
  ]
 },
 {
  "id": "m67",
  "file": "Verif/Model/Keys.lean",
  "def": "AesKey.str, AesKey.Read",
  "old": "(\"aesKeyString\", Json.ofBytes k.keyString)",
  "new": "(\"aesKey\", Json.ofBytes k.keyString)",
  "edit": "field renamed, in both directions",
  "claim": "C34",
  "more": [
   [
    "(← aes.get \"aesKeyString\").toBytes",
    "(← aes.get \"aesKey\").toBytes"
   ]
  ]
 },
 {
  "id": "m68",
  "file": "Verif/Model/KeyInfo.lean",
  "def": "KeyStatus.name, GetStatus",
  "old": "| .PRIMARY => \"PRIMARY\" | .ACTIVE => \"ACTIVE\" | .INACTIVE => \"INACTIVE\"",
  "new": "| .PRIMARY => \"PRIMARY\" | .ACTIVE => \"INACTIVE\" | .INACTIVE => \"ACTIVE\"",
  "edit": "names of two statuses swapped, in both directions",
  "claim": "C35",
  "more": [
   [
    "(\"ACTIVE\", .ACTIVE), (\"INACTIVE\", .INACTIVE)]",
    "(\"ACTIVE\", .INACTIVE), (\"INACTIVE\", .ACTIVE)]"
   ]
  ],
  "tightened": [
   "C76_names",
   "C76_accepts"
  ]
 },
 {
  "id": "m69",
  "file": "Verif/Model/Keys.lean",
  "def": "Key.Encrypt",
  "old": "| .aes k => k.Encrypt P (rnd.bytes 0 16) data",
  "new": "| .aes k => k.Encrypt P (List.replicate 16 0) data",
  "edit": "constant IV",
  "claim": "C22"
 },
 {
  "id": "m70",
  "file": "Verif/Model/Keys.lean",
  "def": "AesKey.Generate",
  "old": "HmacKey.Generate (rnd.bytes 1 (KeyType.HMAC_SHA1.defaultSize / 8))",
  "new": "HmacKey.Generate (rnd.bytes 0 (KeyType.HMAC_SHA1.defaultSize / 8))",
  "edit": "AES and HMAC key from the same draw",
  "claim": "C53"
 },
 {
  "id": "m71",
  "file": "Verif/Model/Keys.lean",
  "def": "AesKey.Generate",
  "old": "⟨Base64WSEncode (rnd.bytes 0 (size / 8)),\n   HmacKey",
  "new": "⟨Base64WSEncode (rnd.bytes 0 16),\n   HmacKey",
  "edit": "key of 128 bits whatever the size",
  "claim": "C53"
 },
 {
  "id": "m72",
  "file": "Verif/Model/Session.lean",
  "def": "SESSION_NONCE_SIZE",
  "old": "def SESSION_NONCE_SIZE : Nat := 16",
  "new": "def SESSION_NONCE_SIZE : Nat := 0",
  "edit": "empty nonce",
  "claim": "C54"
 },
 {
  "id": "m73",
  "file": "Verif/Model/Session.lean",
  "def": "Session.New",
  "old": "some (rnd.bytes 2 SESSION_NONCE_SIZE)",
  "new": "some (rnd.bytes 0 SESSION_NONCE_SIZE)",
  "edit": "nonce is the start of the key",
  "claim": "C54"
 },
 {
  "id": "m74",
  "file": "Verif/Model/Keys.lean",
  "def": "Key.Sign",
  "old": "| .dsaPriv k => k.Sign P (rnd.dsaK k.key.q) msg",
  "new": "| .dsaPriv k => k.Sign P 2 msg",
  "edit": "constant DSA k",
  "claim": "C42"
 },
 {
  "id": "m75",
  "file": "Verif/Model/Keys.lean",
  "def": "Key.Encrypt",
  "old": "| .rsaPub k => k.Encrypt P (rnd.bytes 0 HLEN) data",
  "new": "| .rsaPub k => k.Encrypt P (List.replicate HLEN 0) data",
  "edit": "constant OAEP seed",
  "claim": "C22"
 },
 {
  "id": "m76",
  "file": "Verif/Model/Keys.lean",
  "def": "VerifySignedData",
  "old": "(List.zip mac sig).foldl",
  "new": "(List.zip (mac.take 19) sig).foldl",
  "edit": "last byte of the tag not compared",
  "claim": "C13"
 },
 {
  "id": "m77",
  "file": "Verif/Model/Session.lean",
  "def": "SignedSessionDecrypter.Decrypt",
  "old": "verifier.AttachedVerify P signed (← s.nonceBytes) (some Base64WSDecode)",
  "new": "verifier.AttachedVerify P signed [] (some Base64WSDecode)",
  "edit": "nonce of the session not used when verifying",
  "claim": "C54"
 },
 {
  "id": "m78",
  "file": "Verif/Model/Session.lean",
  "def": "SignedSessionEncrypter.Encrypt",
  "old": "signer.AttachedSign P rnd' ciphertext (← s.session.nonceBytes)",
  "new": "signer.AttachedSign P rnd' plaintext (← s.session.nonceBytes)",
  "edit": "plaintext instead of ciphertext signed and sent",
  "claim": "C54"
 },
 {
  "id": "m79",
  "file": "Verif/Model/Session.lean",
  "def": "Session.LoadPackedKey",
  "old": "setSize .AES (kb.length * 8 : Nat)",
  "new": "setSize .AES (kb.length : Nat)",
  "edit": "size in bytes instead of bits",
  "claim": "C53",
  "tightened": [
   "C53_loaded_key (new)"
  ]
 },
 {
  "id": "m80",
  "file": "Verif/Model/Session.lean",
  "def": "SessionDecrypter.Decrypt",
  "old": "(← s.crypter P).Decrypt P ciphertext decoder",
  "new": "(← s.crypter P).Decrypt P ciphertext none",
  "edit": "decoder ignored",
  "claim": "C53"
 },
 {
  "id": "m81",
  "file": "Verif/Model/Session.lean",
  "def": "Session.crypter",
  "old": "(.aes s.key) .DECRYPT_AND_ENCRYPT",
  "new": "(.aes s.key) .ENCRYPT",
  "edit": "wrong purpose for the session key set",
  "claim": "C53"
 },
 {
  "id": "m82",
  "file": "Verif/Model/Keyczar.lean",
  "def": "KeyMetadata.str",
  "old": "(\"encrypted\", kmd.encrypted)",
  "new": "(\"encrypted\", .bool false)",
  "edit": "encrypted flag not written",
  "claim": "C35"
 },
 {
  "id": "m83",
  "file": "Verif/Model/Keyczar.lean",
  "def": "KeyMetadata.AddVersion",
  "old": "| some _ => kmd\n\n/-- keydata.py:67",
  "new": "| some _ => { kmd with versions := assocSet kmd.versions num o }\n\n/-- keydata.py:67",
  "edit": "later version with the same number wins",
  "claim": "C35"
 },
 {
  "id": "m84",
  "file": "Verif/Model/Keyczar.lean",
  "def": "loadKeys",
  "old": "hkeys := assocSet c.hkeys hash key }",
  "new": "hkeys := c.hkeys ++ [(hash, key)] }",
  "edit": "first key with an identifier wins when loading",
  "claim": "C21"
 },
 {
  "id": "m85",
  "file": "Verif/Model/Keyczar.lean",
  "def": "Json.truthy",
  "old": "| .str s => s ≠ []",
  "new": "| .str _ => false",
  "edit": "a non-empty string does not mark the set encrypted",
  "claim": "C20",
  "tightened": [
   "C20_rejected_before_keys: truth of the flag is spelled out separately (truthy_iff)"
  ]
 },
 {
  "id": "m86",
  "file": "Verif/Model/Keyczar.lean",
  "def": "Czar.AddVersion",
  "old": "⟨c.maxVersion + 1, status, .bool false⟩",
  "new": "⟨c.maxVersion + 1, status, .bool true⟩",
  "edit": "new versions exportable",
  "claim": "C26"
 },
 {
  "id": "m87",
  "file": "Verif/Model/Keyczar.lean",
  "def": "Czar.Promote",
  "old": "| .INACTIVE => (.ok (), { c with heap := c.heap.setStatus o .ACTIVE })\n\n/-- keyczar.py:217",
  "new": "| .INACTIVE => (.ok (), { c with heap := c.heap.setStatus o .PRIMARY, primary := some o })\n\n/-- keyczar.py:217",
  "edit": "inactive promoted to primary",
  "claim": "C26"
 },
 {
  "id": "m88",
  "file": "Verif/Model/Keyczar.lean",
  "def": "Czar.Demote",
  "old": "| .INACTIVE => (.error .keyczarError, c)",
  "new": "| .INACTIVE => (.ok (), c)",
  "edit": "demoting an inactive version succeeds",
  "claim": "C26"
 },
 {
  "id": "m89",
  "file": "Verif/Model/Keyczar.lean",
  "def": "Czar.Revoke",
  "old": "| .ok m => (.ok (), { c with metadata := m })",
  "new": "| .ok m => (.ok (), { c with metadata := m, vkeys := [] })",
  "edit": "revoking forgets all keys",
  "claim": "C31"
 },
 {
  "id": "m90",
  "file": "Verif/Model/Keyczar.lean",
  "def": "StaticKeyReader",
  "old": "⟨1, .PRIMARY, .bool false⟩",
  "new": "⟨1, .ACTIVE, .bool false⟩",
  "edit": "session key set without primary",
  "claim": "C53"
 },
 {
  "id": "m91",
  "file": "Verif/Model/Keyczar.lean",
  "def": "EncryptedReader",
  "old": "crypter.Decrypt P (← r.GetKey n) (some Base64WSDecode)",
  "new": "crypter.Decrypt P (← r.GetKey n) none",
  "edit": "key files not Base64 decoded",
  "claim": "C33"
 },
 {
  "id": "m92",
  "file": "Verif/Model/Keyczar.lean",
  "def": "Czar.AttachedVerify",
  "old": "UnpackByteArray decoded HEADER_SIZE",
  "new": "UnpackByteArray decoded (HEADER_SIZE - 1 : Int)",
  "edit": "data read from the wrong offset",
  "claim": "C44"
 },
 {
  "id": "m93",
  "file": "Verif/Model/Keyczar.lean",
  "def": "Czar.Verify",
  "old": "if sigBytes.length < HEADER_SIZE then .error (.shortSignature sigBytes.length)",
  "new": "if sigBytes.length < HEADER_SIZE then .ok false",
  "edit": "short signatures reported as invalid instead of raising",
  "claim": "C23"
 },
 {
  "id": "m94",
  "file": "Verif/Model/KeyInfo.lean",
  "def": "KeyType.sizes",
  "old": "| .RSA_PRIV | .RSA_PUB => [2048, 4096, 1024, 768, 512]",
  "new": "| .RSA_PRIV | .RSA_PUB => [2048, 4096, 1024, 768, 512, 256]",
  "edit": "256 bit RSA keys allowed",
  "claim": "C42"
 },
 {
  "id": "m95",
  "file": "Verif/Model/KeyInfo.lean",
  "def": "KeyType.sizes",
  "old": "| .AES => [128, 192, 256]",
  "new": "| .AES => [256, 192, 128]",
  "edit": "default AES size 256",
  "claim": "C53"
 },
 {
  "id": "m96",
  "file": "Verif/Model/Keyczart.lean",
  "def": "Czar.Write",
  "old": "  WriteMetadata l c.heap c.metadata true\n  writeKeys P l c encrypter env.enc (env.order c.versions)",
  "new": "  writeKeys P l c encrypter env.enc (env.order c.versions)\n  WriteMetadata l c.heap c.metadata true",
  "edit": "keys written before the metadata",
  "claim": "C39"
 },
 {
  "id": "m97",
  "file": "Verif/Model/Keyczart.lean",
  "def": "Revoke",
  "old": "  ChangeStatus P env Czar.Revoke loc num\n  let w ← Cmd.look (CreateWriter (loc.getD []))\n  RemoveFile w (.key num)",
  "new": "  let w ← Cmd.look (CreateWriter (loc.getD []))\n  RemoveFile w (.key num)\n  ChangeStatus P env Czar.Revoke loc num",
  "edit": "key file removed before the checks",
  "claim": "C38"
 },
 {
  "id": "m98",
  "file": "Verif/Model/Keyczart.lean",
  "def": "Czar.PublicKeyExport",
  "old": "  let pubkmd ← exportKeys dest c (env.order c.versions) pubkmd\n  let text ← Cmd.lift (pubkmd.str c.heap)\n  WriteFile text dest .metaFile",
  "new": "  let _ ← exportKeys dest c (env.order c.versions) pubkmd\n  let text ← Cmd.lift (pubkmd.str c.heap)\n  WriteFile text dest .metaFile",
  "edit": "exported metadata lists no versions",
  "claim": "C41"
 },
 {
  "id": "m99",
  "file": "Verif/Model/Keyczart.lean",
  "def": "exportKeys",
  "old": "WriteFile text dest (.key (c.heap.obj o).num)",
  "new": "WriteFile text dest (.key 1)",
  "edit": "all public keys written to file 1",
  "claim": "C41"
 },
 {
  "id": "m100",
  "file": "Verif/Model/Keyczart.lean",
  "def": "createType",
  "old": "if lowerBytes a = bstr \"rsa\" then .ok (.SIGN_AND_VERIFY, .RSA_PRIV)\n        else .ok (.SIGN_AND_VERIFY, .DSA_PRIV)",
  "new": "if lowerBytes a = bstr \"dsa\" then .ok (.SIGN_AND_VERIFY, .DSA_PRIV)\n        else .ok (.SIGN_AND_VERIFY, .RSA_PRIV)",
  "edit": "unknown asymmetric algorithms mean RSA",
  "claim": "C36"
 },
 {
  "id": "m101",
  "file": "Verif/Model/Keyczart.lean",
  "def": "AddKey",
  "old": "(if size = -1 then none else some size)",
  "new": "(if size ≤ 0 then none else some size)",
  "edit": "size 0 means the default",
  "claim": "C37"
 },
 {
  "id": "m102",
  "file": "Verif/Model/Keyczart.lean",
  "def": "lowerBytes",
  "old": "if 65 ≤ c ∧ c ≤ 90 then c + 32 else c",
  "new": "if 65 ≤ c ∧ c < 90 then c + 32 else c",
  "edit": "Z not lowered",
  "claim": "C36"
 },
 {
  "id": "m103",
  "file": "Verif/Model/Keyczart.lean",
  "def": "ChangeStatus",
  "old": "  if num < 0 then Cmd.lift (.error .keyczarError)",
  "new": "  if num ≤ 0 then Cmd.lift (.error .keyczarError)",
  "edit": "version 0 refused",
  "claim": "C38"
 },
 {
  "id": "m104",
  "file": "Verif/Model/Keyczart.lean",
  "def": "pyInt",
  "old": "if c = 45 then -(n : Int) else n",
  "new": "(n : Int)",
  "edit": "sign of numbers ignored",
  "claim": "C60"
 },
 {
  "id": "m105",
  "file": "Verif/Model/Keyczart.lean",
  "def": "stripSpace",
  "old": "((b.dropWhile isSpaceByte).reverse.dropWhile isSpaceByte).reverse",
  "new": "b.dropWhile isSpaceByte",
  "edit": "trailing blanks not stripped",
  "claim": "C60"
 },
 {
  "id": "m106",
  "file": "Verif/Model/Streams.lean",
  "def": "B64Writer.flush",
  "old": "if result ≠ [] then ⟨[], S.flush (S.write w.out result)⟩ else ⟨[], w.out⟩",
  "new": "if result ≠ [] then ⟨w.buffer, S.flush (S.write w.out result)⟩ else ⟨[], w.out⟩",
  "edit": "buffer kept by flush",
  "claim": "C04"
 },
 {
  "id": "m107",
  "file": "Verif/Model/Streams.lean",
  "def": "b64BufferEncode",
  "old": "let len := if final then input.length else 3 * (input.length / 3)",
  "new": "let len := if final then input.length else 2 * (input.length / 2)",
  "edit": "encodes in groups of two bytes",
  "claim": "C04"
 },
 {
  "id": "m108",
  "file": "Verif/Model/Streams.lean",
  "def": "b64BufferDecode",
  "old": "let len := if final then input.length else 4 * (input.length / 4)",
  "new": "let len := if final then input.length else 2 * (input.length / 2)",
  "edit": "decodes in groups of two characters",
  "claim": "C05"
 },
 {
  "id": "m109",
  "file": "Verif/Model/Streams.lean",
  "def": "B64Reader.read",
  "old": "∧ newdata = some [] ∧ chars ≠ 0 then",
  "new": "∧ newdata = some [] then",
  "edit": "flushes although nothing was asked for",
  "claim": "C05"
 },
 {
  "id": "m110",
  "file": "Verif/Model/Streams.lean",
  "def": "EncWriter.write",
  "old": "{ w with data := sliceFrom w.data size }",
  "new": "{ w with data := [] }",
  "edit": "rest of the buffer dropped",
  "claim": "C56"
 },
 {
  "id": "m111",
  "file": "Verif/Model/Streams.lean",
  "def": "EncWriter.writeEncrypted",
  "old": "hmac := w.hmac.update enc",
  "new": "hmac := w.hmac.update data",
  "edit": "plaintext authenticated",
  "claim": "C56"
 },
 {
  "id": "m112",
  "file": "Verif/Model/Streams.lean",
  "def": "EncWriter.new",
  "old": "(HmacObj.new hb).update (hdr ++ iv)",
  "new": "(HmacObj.new hb).update hdr",
  "edit": "IV not authenticated by streams",
  "claim": "C56"
 },
 {
  "id": "m113",
  "file": "Verif/Model/Streams.lean",
  "def": "decryptable",
  "old": "let reserved := if avail then HLEN + 16 else HLEN",
  "new": "let reserved := HLEN",
  "edit": "last block decrypted too early",
  "claim": "C57"
 },
 {
  "id": "m114",
  "file": "Verif/Model/Streams.lean",
  "def": "DecReader.process",
  "old": "if VerifySignedData (h.digest P) sig then",
  "new": "if VerifySignedData (h.digest P) sig || sig.length = 0 then",
  "edit": "empty tag accepted",
  "claim": "C58"
 },
 {
  "id": "m115",
  "file": "Verif/Model/Streams.lean",
  "def": "DecReader.process",
  "old": "else if r.enc.length ≠ HLEN then",
  "new": "else if r.enc.length > HLEN then",
  "edit": "short tag not reported",
  "claim": "C58",
  "note": "Equivalent: a tag that is too short differs from the MAC, so the comparison after the removed check reports the same error."
 },
 {
  "id": "m116",
  "file": "Verif/Model/Streams.lean",
  "def": "DecReader.take",
  "old": "(.ok (if result = [] ∧ avail then none else some result)",
  "new": "(.ok (if result = [] then none else some result)",
  "edit": "end of data reported as no data yet",
  "claim": "C58"
 },
 {
  "id": "m117",
  "file": "Verif/Model/Streams.lean",
  "def": "DecReader.take",
  "old": "let rest := if chars < 0 then [] else sliceFrom r.dec chars",
  "new": "let rest := if chars < 0 then [] else sliceFrom r.dec (chars + 1)",
  "edit": "one byte lost between reads",
  "claim": "C57"
 },
 {
  "id": "m118",
  "file": "Verif/Model/Streams.lean",
  "def": "DecReader.createKey",
  "old": "if r.enc.length ≥ HEADER_SIZE then\n      let hdr",
  "new": "if r.enc.length > HEADER_SIZE then\n      let hdr",
  "edit": "header needs one more byte",
  "claim": "C57"
 },
 {
  "id": "m119",
  "file": "Verif/Model/Streams.lean",
  "def": "DecReader.read",
  "old": "if r.closed then (.error .valueError, r)\n  else\n    match r.advance",
  "new": "if r.closed then (.ok (some []), r)\n  else\n    match r.advance",
  "edit": "reading a closed stream reports the end",
  "claim": "C59"
 },
 {
  "id": "m120",
  "file": "Verif/Model/Streams.lean",
  "def": "readBytes",
  "old": "if !block then (.ok (result, true), s)",
  "new": "if block then (.ok (result, true), s)",
  "edit": "blocks where it should not",
  "claim": "C57"
 },
 {
  "id": "m121",
  "file": "Verif/Model/Der.lean",
  "def": "derLen",
  "old": "if n < 128 then .ok [UInt8.ofNat n]",
  "new": "if n < 256 then .ok [UInt8.ofNat n]",
  "edit": "lengths 128 to 255 in one byte",
  "claim": "C12"
 },
 {
  "id": "m122",
  "file": "Verif/Model/Der.lean",
  "def": "derNatBytes",
  "old": "if c.toNat ≥ 128 then 0 :: c :: t else c :: t",
  "new": "c :: t",
  "edit": "sign byte missing",
  "claim": "C12"
 },
 {
  "id": "m123",
  "file": "Verif/Model/Der.lean",
  "def": "ParseX509",
  "old": "| p :: q :: g :: _ => return .dsa p q g (← asn1Int pubkey)",
  "new": "| p :: q :: g :: _ => return .dsa p g q (← asn1Int pubkey)",
  "edit": "q and g swapped",
  "claim": "C63"
 },
 {
  "id": "m124",
  "file": "Verif/Model/Der.lean",
  "def": "RSA_OID",
  "old": "def RSA_OID : Bytes := [0x2a, 0x86, 0x48, 0x86, 0xf7, 0x0d, 0x01, 0x01, 0x01]",
  "new": "def RSA_OID : Bytes := [0x2a, 0x86, 0x48, 0x86, 0xf7, 0x0d, 0x01, 0x01, 0x02]",
  "edit": "wrong object identifier",
  "claim": "C63"
 },
 {
  "id": "m125",
  "file": "Verif/Model/Der.lean",
  "def": "ExportPkcs8",
  "old": "[0, n, e, d, p, q, dp, dq, invq].map Asn1.integer",
  "new": "[0, n, e, d, q, p, dp, dq, invq].map Asn1.integer",
  "edit": "p and q swapped on export",
  "claim": "C63"
 },
 {
  "id": "m126",
  "file": "Verif/Model/Json.lean",
  "def": "escapeChar",
  "old": "else if n = 13 then [92, 114]",
  "new": "else if n = 13 then [13]",
  "edit": "carriage return not escaped",
  "claim": "C34"
 },
 {
  "id": "m127",
  "file": "Verif/Model/Json.lean",
  "def": "dictSet",
  "old": "if k' = k then (k, v) :: t else (k', v') :: dictSet t k v\n\n/-- dict lookup",
  "new": "if k' = k then (k', v') :: t else (k', v') :: dictSet t k v\n\n/-- dict lookup",
  "edit": "first of two equal keys wins",
  "claim": "C78",
  "tightened": [
   "C78_accepts"
  ]
 },
 {
  "id": "m128",
  "file": "Verif/Model/Json.lean",
  "def": "loads",
  "old": "  | [] => return v\n  | _ => .error .valueError\n\n/-! ### Python operations",
  "new": "  | _ => return v\n\n/-! ### Python operations",
  "edit": "extra data ignored",
  "claim": "C18"
 },
 {
  "id": "m129",
  "file": "Verif/Model/Json.lean",
  "def": "dumpInt",
  "old": "if n < 0 then 45 :: decDigits (-n).toNat else decDigits n.toNat",
  "new": "decDigits n.natAbs",
  "edit": "sign of integers lost",
  "claim": "C35"
 },
 {
  "id": "m130",
  "file": "Verif/Model/PyCrypto.lean",
  "def": "inverse",
  "old": "if u1 < 0 then (u1 % v).toNat else u1.toNat",
  "new": "u1.toNat",
  "edit": "negative inverses clipped",
  "claim": "C51"
 },
 {
  "id": "m131",
  "file": "Verif/Model/PyCrypto.lean",
  "def": "DsaObj.sign",
  "old": "let s := invK * (m + key.x * r) % key.q",
  "new": "let s := invK * (m + key.x + r) % key.q",
  "edit": "wrong DSA equation",
  "claim": "C51"
 },
 {
  "id": "m132",
  "file": "Verif/Model/PyCrypto.lean",
  "def": "longToBytes",
  "old": "if n = 0 then [0] else BigIntToBytes n",
  "new": "0 :: BigIntToBytes n",
  "edit": "leading zero byte",
  "claim": "C48"
 },
 {
  "id": "m133",
  "file": "Verif/Model/Memoize.lean",
  "def": "Memo.call",
  "old": "(.error e, { s with world := w, runs := s.runs ++ [(args, .error e)] })",
  "new": "(.error e, { s with runs := s.runs ++ [(args, .error e)] })",
  "edit": "effects of a failing call undone",
  "claim": "C61",
  "tightened": [
   "C61_effects (new)"
  ]
 },
 {
  "id": "m134",
  "file": "Verif/Model/Memoize.lean",
  "def": "Memo.call",
  "old": "⟨(k, v) :: s.memory, w, s.runs ++ [(args, .ok v)]⟩",
  "new": "⟨[(k, v)], w, s.runs ++ [(args, .ok v)]⟩",
  "edit": "only the last result remembered",
  "claim": "C61"
 },
 {
  "id": "m135",
  "file": "Verif/Model/Py3.lean",
  "def": "strOf",
  "old": "| v => .str (E.render v)",
  "new": "| v => v",
  "edit": "str() leaves bytes alone",
  "claim": "C62",
  "note": "The claim is still true of the changed program: bytes are then refused by replace(\"=\", \"\") instead of by urlsafe_b64encode, with the same TypeError."
 },
 {
  "id": "m136",
  "file": "Verif/Model/Keys.lean",
  "def": "RsaPublicKey.Encode",
  "old": "let padOctets : Nat := k - msg.length - 2 * HLEN - 2",
  "new": "let padOctets : Nat := 0",
  "edit": "datablock not padded",
  "claim": "C48"
 },
 {
  "id": "m137",
  "file": "Verif/Model/Keys.lean",
  "def": "RsaPrivateKey.Decode",
  "old": "if labelHash ≠ Hash P [[]] then .error .keyczarError",
  "new": "if false then .error .keyczarError",
  "edit": "label hash not checked",
  "claim": "C48"
 },
 {
  "id": "m138",
  "file": "Verif/Model/Keys.lean",
  "def": "DsaPrivateKey.Sign",
  "old": "key.key.sign (Hash P [msg]) k",
  "new": "key.key.sign (Hash P [msg, msg]) k",
  "edit": "message hashed twice",
  "claim": "C51"
 },
 {
  "id": "m139",
  "file": "Verif/Model/Keys.lean",
  "def": "DsaPublicKey.hashId",
  "old": "[TrimBytes k.p, TrimBytes k.q, TrimBytes k.g, TrimBytes k.y]",
  "new": "[TrimBytes k.p, TrimBytes k.q, TrimBytes k.g]",
  "edit": "y not part of the identifier",
  "claim": "C21"
 },
 {
  "id": "m140",
  "file": "Verif/Model/Keys.lean",
  "def": "Key.hashId",
  "old": "| .rsaPriv k => .ok (k.pub.hashId P)",
  "new": "| .rsaPriv k => .ok (Base64WSEncode ((Hash P [k.primeP]).take KEY_HASH_SIZE))",
  "edit": "private keys have their own identifier",
  "claim": "C41"
 },
 {
  "id": "m141",
  "file": "Verif/Model/Keys.lean",
  "def": "headerOf",
  "old": "return [UInt8.ofNat VERSION] ++ (← Base64WSDecode hashId)",
  "new": "return (← Base64WSDecode hashId) ++ [UInt8.ofNat VERSION]",
  "edit": "version byte last",
  "claim": "C15"
 },
 {
  "id": "m142",
  "file": "Verif/Model/M2Crypto.lean",
  "def": "EvpCtx.update",
  "old": "(cs.flatten, { c with iv := lastBlock c.iv cs, buf := all.drop n })",
  "new": "(cs.flatten, { c with buf := all.drop n })",
  "edit": "chaining value not carried to the next update",
  "claim": "C66"
 },
 {
  "id": "m143",
  "file": "Verif/Model/M2Crypto.lean",
  "def": "EvpAdaptor.final",
  "old": "  | none, some c => c.final",
  "new": "  | none, some _ => .error .assertionError",
  "edit": "final works only after decrypting",
  "claim": "C66"
 },
 {
  "id": "m144",
  "file": "Verif/Model/M2Crypto.lean",
  "def": "EvpCtx.new",
  "old": "else if validAesKeyLen key.length then .ok ⟨op, key, iv, []⟩ else .error .valueError",
  "new": "else .ok ⟨op, key, iv, []⟩",
  "edit": "key length not checked",
  "claim": "C66"
 },
 {
  "id": "m145",
  "file": "Verif/Model/M2Crypto.lean",
  "def": "EvpCtx.update",
  "old": "let n := 16 * (all.length / 16)",
  "new": "let n := 16 * ((all.length - 1) / 16)",
  "edit": "last complete block held back",
  "claim": "C66"
 },
 {
  "id": "m146",
  "file": "Verif/Model/KeyEq.lean",
  "def": "Key.eq",
  "old": "self.type = other.type ∧ self.size",
  "new": "self.size",
  "edit": "type not compared",
  "claim": "C67"
 },
 {
  "id": "m147",
  "file": "Verif/Model/KeyEq.lean",
  "def": "Key.keyString",
  "old": "| .hmac k => some k.keyString\n",
  "new": "",
  "edit": "key string of HMAC keys missing",
  "claim": "C67"
 },
 {
  "id": "m148",
  "file": "Verif/Model/KeyEq.lean",
  "def": "MockReader.HasPubKey",
  "old": "(← priv.publicKey).eq pub",
  "new": "priv.eq pub",
  "edit": "private key compared",
  "claim": "C67"
 },
 {
  "id": "m149",
  "file": "Verif/Model/KeyEq.lean",
  "def": "CipherMode.GetOutputSize",
  "old": "| .CBC => (i / b + 2) * b",
  "new": "| .CBC => (i / b + 1) * b",
  "edit": "no room for the IV",
  "claim": "C68"
 },
 {
  "id": "m150",
  "file": "Verif/Model/KeyEq.lean",
  "def": "CipherMode.useIv",
  "old": "  | .CBC | .CTR => true\n  | .ECB | .DET_CBC => false",
  "new": "  | .CBC | .CTR | .DET_CBC => true\n  | .ECB => false",
  "edit": "deterministic mode with IV",
  "claim": "C68",
  "tightened": [
   "C68_iv (new)"
  ]
 },
 {
  "id": "m151",
  "file": "Verif/Model/GenKey.lean",
  "def": "pathJoin",
  "old": "else a ++ 47 :: b",
  "new": "else a ++ b",
  "edit": "no slash",
  "claim": "C70"
 },
 {
  "id": "m152",
  "file": "Verif/Model/GenKey.lean",
  "def": "KEYSETS",
  "old": "⟨bstr \"rsa\", .DECRYPT_AND_ENCRYPT, some (bstr \"rsa\"), none⟩",
  "new": "⟨bstr \"rsa\", .SIGN_AND_VERIFY, some (bstr \"rsa\"), none⟩",
  "edit": "wrong purpose in the table",
  "claim": "C70"
 },
 {
  "id": "m153",
  "file": "Verif/Model/GenKey.lean",
  "def": "KEYSETS",
  "old": "none, some (bstr \"aes\")⟩",
  "new": "none, none⟩",
  "edit": "crypter missing in the table",
  "claim": "C70"
 },
 {
  "id": "m154",
  "file": "Verif/Model/GenKey.lean",
  "def": "genRow",
  "old": "  Clean env.ls dir\n",
  "new": "",
  "edit": "old files not removed",
  "claim": "C70"
 },
 {
  "id": "m155",
  "file": "Verif/Model/GenKey.lean",
  "def": "genRow",
  "old": "  AddKey P (env.add row.name 1) (some dir) .PRIMARY crypter (-1)\n",
  "new": "",
  "edit": "second key not added",
  "claim": "C70"
 },
 {
  "id": "m156",
  "file": "Verif/Model/GenKey.lean",
  "def": "genRow",
  "old": "(.other (bstr \"2.out\"))",
  "new": "(.other (bstr \"1.out\"))",
  "edit": "second output overwrites the first",
  "claim": "C70"
 },
 {
  "id": "m157",
  "file": "Verif/Model/GenKey.lean",
  "def": "genRow",
  "old": "AddKey P (env.add row.name 0) (some dir) .PRIMARY crypter (-1)",
  "new": "AddKey P (env.add row.name 0) (some dir) .PRIMARY none (-1)",
  "edit": "first key written in the clear",
  "claim": "C70"
 },
 {
  "id": "m158",
  "file": "Verif/Model/GenKey.lean",
  "def": "genRow",
  "old": "AddKey P (env.add row.name 0) (some dir) .PRIMARY crypter (-1)",
  "new": "AddKey P (env.add row.name 0) (some dir) .ACTIVE crypter (-1)",
  "edit": "first key not primary",
  "claim": "C70"
 },
 {
  "id": "m159",
  "file": "Verif/Model/GenKey.lean",
  "def": "genExports",
  "old": "(some (pathJoin loc (name ++ bstr \".public\")))",
  "new": "(some (pathJoin loc name))",
  "edit": "export over the private set",
  "claim": "C70"
 },
 {
  "id": "m160",
  "file": "Verif/Model/GenKey.lean",
  "def": "GenKeySet",
  "old": "[bstr \"dsa\", bstr \"rsa-sign\"]",
  "new": "[bstr \"dsa\", bstr \"rsa\"]",
  "edit": "wrong set exported",
  "claim": "C70"
 },
 {
  "id": "m161",
  "file": "Verif/Model/GenKey.lean",
  "def": "useAnswer",
  "old": "Czar.init P .signer r).Sign",
  "new": "Czar.init P .verifier r).Sign",
  "edit": "signing with a Verifier",
  "claim": "C70"
 },
 {
  "id": "m162",
  "file": "Verif/Model/GenKey.lean",
  "def": "removeFiles",
  "old": "    RemoveFile l f\n    removeFiles l t",
  "new": "    RemoveFile l f",
  "edit": "only the first file removed",
  "claim": "C70"
 },
 {
  "id": "m163",
  "file": "Verif/Model/GenKey.lean",
  "def": "testMsg",
  "old": "\"This is some test data\"",
  "new": "\"This is some data\"",
  "edit": "other message",
  "claim": "C70"
 },
 {
  "id": "m164",
  "file": "Verif/Model/GenKey.lean",
  "def": "UseKey",
  "old": "let r ← Cmd.look (CreateReader loc)\n  let answer ← Cmd.lift (useAnswer P rnd purpose (readerFor P crypter r))",
  "new": "let r ← Cmd.look (CreateReader loc)\n  let answer ← Cmd.lift (useAnswer P rnd purpose (readerFor P none r))",
  "edit": "crypter not used for reading",
  "claim": "C70"
 },
 {
  "id": "m165",
  "file": "Verif/Model/Keys.lean",
  "def": "HmacKey.Verify",
  "old": "return VerifySignedData mac sig",
  "new": "return VerifySignedData sig mac",
  "edit": "arguments of the comparison swapped",
  "claim": "C13"
 },
 {
  "id": "m166",
  "file": "Verif/Model/Keys.lean",
  "def": "noPadBufferSize",
  "old": "max (16 * (bufferSize / 16)) 16",
  "new": "16 * (bufferSize / 16)",
  "edit": "no minimum",
  "claim": "C56"
 },
 {
  "id": "m167",
  "file": "Verif/Model/Keys.lean",
  "def": "RsaPrivateKey.Decrypt",
  "old": "let ciph := sliceFrom input HEADER_SIZE\n  let decrypted",
  "new": "let ciph := input\n  let decrypted",
  "edit": "header decrypted too",
  "claim": "C22"
 },
 {
  "id": "m168",
  "file": "Verif/Model/Keys.lean",
  "def": "DsaPublicKey.Verify",
  "old": "if e.isKeyczarError then .ok false else .error e",
  "new": ".error e",
  "edit": "parse errors not caught",
  "claim": "C47",
  "tightened": [
   "C47_dsa_wrong_number (new)"
  ]
 },
 {
  "id": "m169",
  "file": "Verif/Model/Keys.lean",
  "def": "Key.Decrypt",
  "old": "  | .rsaPriv k => k.Decrypt P input\n  | _ => .error .attributeError\n\ndef Key.Sign",
  "new": "  | _ => .error .attributeError\n\ndef Key.Sign",
  "edit": "no RSA decryption",
  "claim": "C22"
 },
 {
  "id": "m170",
  "file": "Verif/Model/Keys.lean",
  "def": "HmacKey.Generate",
  "old": "⟨Base64WSEncode kb, setSize",
  "new": "⟨kb, setSize",
  "edit": "key stored without encoding",
  "claim": "C34"
 },
 {
  "id": "m171",
  "file": "Verif/Model/Keys.lean",
  "def": "padInt",
  "old": "def padInt (n : Nat) : Bytes := PadBytes (BigIntToBytes n) 1",
  "new": "def padInt (n : Nat) : Bytes := BigIntToBytes n",
  "edit": "no leading zero byte",
  "claim": "C26"
 },
 {
  "id": "m172",
  "file": "Verif/Model/Keys.lean",
  "def": "DsaPrivateKey.ofObj",
  "old": "q := padInt key.q, y := padInt key.y",
  "new": "q := padInt key.p, y := padInt key.y",
  "edit": "p stored as q",
  "claim": "C34"
 },
 {
  "id": "m173",
  "file": "Verif/Model/Keys.lean",
  "def": "GenKey",
  "old": "| .HMAC_SHA1 => .ok (.hmac (HmacKey.Generate (rnd.bytes 0 (size / 8)) size))",
  "new": "| .HMAC_SHA1 => .ok (.hmac (HmacKey.Generate (rnd.bytes 0 (size / 16)) size))",
  "edit": "half the key bytes",
  "claim": "C29"
 },
 {
  "id": "m174",
  "file": "Verif/Model/Keys.lean",
  "def": "DsaPublicKey.str",
  "old": "(\"g\", jb64 k.g), (\"y\", jb64 k.y)",
  "new": "(\"g\", jb64 k.y), (\"y\", jb64 k.g)",
  "edit": "g and y swapped when written",
  "claim": "C34"
 },
 {
  "id": "m175",
  "file": "Verif/Model/Keys.lean",
  "def": "RsaPrivateKey.str",
  "old": "(\"primeExponentP\", jb64 k.primeExponentP)",
  "new": "(\"primeExponentP\", jb64 k.primeExponentQ)",
  "edit": "wrong exponent written",
  "claim": "C34"
 },
 {
  "id": "m176",
  "file": "Verif/Model/Keys.lean",
  "def": "DsaPrivateKey.Read",
  "old": "key := ⟨BytesToLong pub.y, BytesToLong pub.g, BytesToLong pub.p, BytesToLong pub.q, BytesToLong x⟩",
  "new": "key := ⟨BytesToLong pub.y, BytesToLong pub.g, BytesToLong pub.q, BytesToLong pub.p, BytesToLong x⟩",
  "edit": "p and q swapped on reading",
  "claim": "C34"
 },
 {
  "id": "m177",
  "file": "Verif/Model/Keys.lean",
  "def": "RsaPrivateKey.Read",
  "old": "BytesToLong primeQ, BytesToLong primeP, BytesToLong crtCoefficient",
  "new": "BytesToLong primeP, BytesToLong primeQ, BytesToLong crtCoefficient",
  "edit": "primes not swapped back on reading",
  "claim": "C18"
 },
 {
  "id": "m178",
  "file": "Verif/Model/Keys.lean",
  "def": "ReadKey",
  "old": "r.mapErr fun e => if e = .keyError then .keyczarError else e",
  "new": "r",
  "edit": "missing fields reported as KeyError",
  "claim": "C34"
 },
 {
  "id": "m179",
  "file": "Verif/Model/Keyczar.lean",
  "def": "KeyMetadata.Read",
  "old": "readVersions items Heap.empty ⟨name, purpose, type, encrypted, []⟩",
  "new": "readVersions items Heap.empty ⟨name, purpose, type, .bool false, []⟩",
  "edit": "encrypted flag lost",
  "claim": "C35"
 },
 {
  "id": "m180",
  "file": "Verif/Model/Keyczar.lean",
  "def": "readVersions",
  "old": "readVersions t h' (kmd.AddVersion h' h.next)",
  "new": "readVersions t h' (kmd.AddVersion h' 0)",
  "edit": "all entries refer to the first object",
  "claim": "C35"
 },
 {
  "id": "m181",
  "file": "Verif/Model/Keyczar.lean",
  "def": "Czar.AddKeyObj",
  "old": "{ c with vkeys := assocSet c.vkeys o key\n           hkeys := assocSet c.hkeys hash key\n           metadata := c.metadata.AddVersion c.heap o }",
  "new": "{ c with vkeys := assocSet c.vkeys o key\n           hkeys := assocSet c.hkeys hash key }",
  "edit": "metadata not extended",
  "claim": "C27"
 },
 {
  "id": "m182",
  "file": "Verif/Model/Keyczar.lean",
  "def": "Czar.primaryKey",
  "old": "c.GetKeyByVersion c.primary",
  "new": "c.GetKeyByVersion (c.versions.getLast?)",
  "edit": "newest key taken as primary",
  "claim": "C24"
 },
 {
  "id": "m183",
  "file": "Verif/Model/Keyczar.lean",
  "def": "Czar.Sign",
  "old": "let signature := header ++ (← c.InternalSign P rnd data none)",
  "new": "let signature := header ++ (← c.InternalSign P rnd data (some []))",
  "edit": "empty nonce instead of none",
  "claim": "C42"
 },
 {
  "id": "m184",
  "file": "Verif/Model/Keyczar.lean",
  "def": "Czar.UnversionedVerify",
  "old": "verifyAny P data sigBytes (c.vkeys.map Prod.snd)",
  "new": "verifyAny P data sigBytes ((c.vkeys.map Prod.snd).take 1)",
  "edit": "only the first key tried",
  "claim": "C46"
 },
 {
  "id": "m185",
  "file": "Verif/Model/Keyczar.lean",
  "def": "Czar.UnversionedSign",
  "old": "let signature ← key.Sign P rnd data\n",
  "new": "let signature ← key.Sign P rnd (data ++ VERSION_BYTE)\n",
  "edit": "version byte signed",
  "claim": "C46"
 },
 {
  "id": "m186",
  "file": "Verif/Model/Keyczar.lean",
  "def": "Heap.setStatus",
  "old": "if o' = o then { h.obj o with status := s } else h.obj o'",
  "new": "if o' ≤ o then { h.obj o' with status := s } else h.obj o'",
  "edit": "status of other versions changed",
  "claim": "C26"
 },
 {
  "id": "m187",
  "file": "Verif/Model/Keyczar.lean",
  "def": "decodeWith",
  "old": "  | some f => f input\n  | none => .ok input",
  "new": "  | some f => f input\n  | none => Base64WSDecode input",
  "edit": "decoder None decodes",
  "claim": "C22"
 },
 {
  "id": "m188",
  "file": "Verif/Model/Keyczart.lean",
  "def": "writeKeys",
  "old": "    WriteKey P l key (c.heap.obj o).num encrypter (rnd o)",
  "new": "    WriteKey P l key (c.heap.obj o).num none (rnd o)",
  "edit": "keys written in the clear",
  "claim": "C37"
 },
 {
  "id": "m189",
  "file": "Verif/Model/Keyczart.lean",
  "def": "Czar.markEncrypted",
  "old": "encrypted := .bool encrypter.isSome",
  "new": "encrypted := .bool true",
  "edit": "every set marked encrypted",
  "claim": "C33"
 },
 {
  "id": "m190",
  "file": "Verif/Model/Keyczart.lean",
  "def": "CreateGenericKeyczar",
  "old": "Czar.init P .generic (readerFor P crypter r)",
  "new": "Czar.init P .crypter (readerFor P crypter r)",
  "edit": "only crypting sets can be managed",
  "claim": "C38"
 },
 {
  "id": "m191",
  "file": "Verif/Model/Keyczart.lean",
  "def": "PubKey",
  "old": "let c ← CreateGenericKeyczar P loc none\n    c.PublicKeyExport env dest",
  "new": "let c ← CreateGenericKeyczar P loc none\n    c.PublicKeyExport env (loc.getD dest)",
  "edit": "export into the private set",
  "claim": "C37"
 },
 {
  "id": "m192",
  "file": "Verif/Model/Keyczart.lean",
  "def": "Promote",
  "old": "ChangeStatus P env Czar.Promote loc num",
  "new": "ChangeStatus P env Czar.Demote loc num",
  "edit": "promote demotes",
  "claim": "C38"
 },
 {
  "id": "m193",
  "file": "Verif/Model/Keyczart.lean",
  "def": "CreateCrypter",
  "old": "Czar.init P .crypter (← CreateReader l fs)",
  "new": "Czar.init P .encrypter (← CreateReader l fs)",
  "edit": "crypter need not decrypt",
  "claim": "C60"
 },
 {
  "id": "m194",
  "file": "Verif/Model/Keyczart.lean",
  "def": "GetCommand",
  "old": "(\"promote\", .promote),\n    (\"demote\", .demote)",
  "new": "(\"promote\", .demote),\n    (\"demote\", .promote)",
  "edit": "commands swapped",
  "claim": "C60"
 },
 {
  "id": "m195",
  "file": "Verif/Model/Keyczart.lean",
  "def": "parseNumbers",
  "old": "  | none => return (none, none)\n  | some v => do",
  "new": "  | none => return (some (-1), none)\n  | some v => do",
  "edit": "default kept after a bad version",
  "claim": "C60"
 },
 {
  "id": "m196",
  "file": "Verif/Model/Keyczart.lean",
  "def": "dispatch",
  "old": "(bstr \"ACTIVE\")",
  "new": "(bstr \"PRIMARY\")",
  "edit": "new keys primary by default",
  "claim": "C60"
 },
 {
  "id": "m197",
  "file": "Verif/Model/Keyczart.lean",
  "def": "dispatch",
  "old": "(nameOf ((assocGet fl .name).getD (bstr \"Test\")))",
  "new": "(nameOf ((assocGet fl .name).getD (bstr \"\")))",
  "edit": "other default name",
  "claim": "C60"
 },
 {
  "id": "m198",
  "file": "Verif/Model/Keyczart.lean",
  "def": "upperBytes",
  "old": "if 97 ≤ c ∧ c ≤ 122 then c - 32 else c",
  "new": "if 97 ≤ c ∧ c < 122 then c - 32 else c",
  "edit": "z not converted",
  "claim": "C60"
 },
 {
  "id": "m199",
  "file": "Verif/Model/Keyczart.lean",
  "def": "splitOn",
  "old": "| x :: t => if x = c then [] :: splitOn c t",
  "new": "| x :: t => if x = c then [[], t]",
  "edit": "split only at the first separator",
  "claim": "C60"
 },
 {
  "id": "m200",
  "file": "Verif/Model/Keyczart.lean",
  "def": "WriteFile",
  "old": "if (fs l).isSome then (.ok (), [.write l f data]) else (.error .keyczarError, [])",
  "new": "if (fs l).isSome then (.ok (), [.write l f data]) else (.ok (), [])",
  "edit": "writing to a missing directory succeeds",
  "claim": "C41"
 },
 {
  "id": "m201",
  "file": "Verif/Model/Util.lean",
  "def": "UnpackMultipleByteArrays",
  "old": "if position = data.length then return result else .error .assertionError",
  "new": "return result",
  "edit": "leftover not rejected",
  "claim": "C07"
 },
 {
  "id": "m202",
  "file": "Verif/Model/Util.lean",
  "def": "unpackLoop",
  "old": "if position < data.length then do",
  "new": "if position ≤ data.length then do",
  "edit": "reads at the end",
  "claim": "C06"
 },
 {
  "id": "m203",
  "file": "Verif/Model/Util.lean",
  "def": "PrefixHash",
  "old": "IntToBytes i.length ++ i",
  "new": "i",
  "edit": "lengths not hashed",
  "claim": "C21"
 },
 {
  "id": "m204",
  "file": "Verif/Model/Util.lean",
  "def": "PadByte",
  "old": "List.replicate ((8 - r) % 8) c0 ++ bits",
  "new": "bits ++ List.replicate ((8 - r) % 8) c0",
  "edit": "padding at the end",
  "claim": "C11"
 },
 {
  "id": "m205",
  "file": "Verif/Model/Util.lean",
  "def": "structPackI",
  "old": "if n < 2 ^ 31 then .ok (IntToBytes n) else .error .structError",
  "new": ".ok (IntToBytes n)",
  "edit": "length overflow ignored",
  "claim": "C06"
 },
 {
  "id": "m206",
  "file": "Verif/Model/Session.lean",
  "def": "Session.LoadJsonSession",
  "old": "return ⟨key, some nonce⟩",
  "new": "return ⟨key, none⟩",
  "edit": "nonce dropped",
  "claim": "C54"
 },
 {
  "id": "m207",
  "file": "Verif/Model/Session.lean",
  "def": "Session.json",
  "old": "(\"nonce\", jb64 n)",
  "new": "(\"nonce\", Json.ofBytes n)",
  "edit": "nonce not encoded",
  "claim": "C54"
 },
 {
  "id": "m208",
  "file": "Verif/Model/Session.lean",
  "def": "SessionEncrypter.Encrypt",
  "old": "(← s.session.crypter P).Encrypt P rnd plaintext encoder",
  "new": "(← s.session.crypter P).Encrypt P rnd plaintext none",
  "edit": "encoder ignored",
  "claim": "C53"
 },
 {
  "id": "m209",
  "file": "Verif/Model/Streams.lean",
  "def": "DecReader.createCipher",
  "old": "let r := { r with hmac := some (h.update iv) }\n        match (do CbcObj.new",
  "new": "let r := { r with hmac := some h }\n        match (do CbcObj.new",
  "edit": "IV not authenticated",
  "claim": "C57"
 },
 {
  "id": "m210",
  "file": "Verif/Model/Streams.lean",
  "def": "DecReader.close",
  "old": "{ r with closed := true }",
  "new": "{ r with closed := r.closed }",
  "edit": "close does nothing",
  "claim": "C59"
 },
 {
  "id": "m211",
  "file": "Verif/Model/Streams.lean",
  "def": "EncWriter.flush",
  "old": "S.flush (S.write w.out (w.hmac.digest P))",
  "new": "S.flush w.out",
  "edit": "tag not written",
  "claim": "C56"
 },
 {
  "id": "m212",
  "file": "Verif/Model/Streams.lean",
  "def": "EncWriter.close",
  "old": "(.ok (), { w with closed := true })",
  "new": "(.ok (), w)",
  "edit": "close does nothing",
  "claim": "C59"
 },
 {
  "id": "m213",
  "file": "Verif/Model/Streams.lean",
  "def": "EncWriter.new",
  "old": "(HmacObj.new hb).update (hdr ++ iv), cipher",
  "new": "(HmacObj.new hb).update hdr, cipher",
  "edit": "IV not authenticated",
  "claim": "C56"
 },
 {
  "id": "m214",
  "file": "Verif/Model/PyCrypto.lean",
  "def": "RsaPubObj.verify",
  "old": "return v == BytesToLong data",
  "new": "return true",
  "edit": "every signature accepted",
  "claim": "C50"
 },
 {
  "id": "m215",
  "file": "Verif/Model/PyCrypto.lean",
  "def": "RsaObj.sign",
  "old": ": Py Nat := k.decryptInt P (BytesToLong data)",
  "new": ": Py Nat := k.pub.encryptInt P (BytesToLong data)",
  "edit": "signing with the public exponent",
  "claim": "C50"
 },
 {
  "id": "m217",
  "file": "Verif/Model/PyCrypto.lean",
  "def": "DsaObj.sign, DsaPubObj.verify",
  "old": "let s := invK * (m + key.x * r) % key.q",
  "new": "let s := invK * (key.x * r) % key.q",
  "edit": "message not signed, and not used in verification",
  "claim": "C51",
  "more": [
   [
    "let u1 := m * w % key.q",
    "let u1 := 0 * w % key.q"
   ]
  ]
 },
 {
  "id": "m218",
  "file": "Verif/Model/Der.lean",
  "def": "derIntBytes",
  "old": "if n ≥ 0 then derNatBytes n.toNat else (derNatBytes (-n - 1).toNat).map (~~~ ·)",
  "new": "derNatBytes n.toNat",
  "edit": "negative numbers encoded as 0",
  "claim": "C12"
 },
 {
  "id": "m219",
  "file": "Verif/Model/Der.lean",
  "def": "derReadLen",
  "old": "else if t.length < k then .error .pyasn1Error\n      else",
  "new": "else",
  "edit": "truncated length accepted",
  "claim": "C12"
 },
 {
  "id": "m220",
  "file": "Verif/Model/Der.lean",
  "def": "ParseDsaSig",
  "old": "if l.length ≠ 2 then .error .keyczarError\n",
  "new": "if l.length > 2 then .error .keyczarError\n",
  "edit": "short sequences not rejected with KeyczarError",
  "claim": "C47",
  "tightened": [
   "C47_dsa_wrong_number (new)"
  ]
 },
 {
  "id": "m221",
  "file": "Verif/Model/Keys.lean",
  "def": "HmacKey.Sign, HmacKey.Verify",
  "old": "return hmacSha1 P kb msg",
  "new": "return hmacSha1 P kb (msg.take 64)",
  "edit": "only the first block is authenticated, in both directions",
  "claim": "C13"
 },
 {
  "id": "m222",
  "file": "Verif/Model/Keyczar.lean",
  "def": "Czar.InternalVerify, Czar.InternalSign",
  "old": "let n ← PackByteArray nonce\n  key.Verify P (data ++ n ++ VERSION_BYTE) signature",
  "new": "let n ← PackByteArray nonce\n  key.Verify P (n ++ data ++ VERSION_BYTE) signature",
  "edit": "nonce before data on both sides",
  "claim": "C42",
  "more": [
   [
    "let n ← PackByteArray nonce\n  key.Sign P rnd (data ++ n ++ VERSION_BYTE)",
    "let n ← PackByteArray nonce\n  key.Sign P rnd (n ++ data ++ VERSION_BYTE)"
   ]
  ]
 },
 {
  "id": "m223",
  "file": "Verif/Model/Keys.lean",
  "def": "DsaPublicKey.str, DsaPublicKey.Read",
  "old": "(\"g\", jb64 k.g), (\"y\", jb64 k.y)",
  "new": "(\"y\", jb64 k.g), (\"g\", jb64 k.y)",
  "edit": "g and y exchanged in the file format",
  "claim": "C34",
  "more": [
   [
    "  let y ← getB64 dsa \"y\"\n  let p",
    "  let y ← getB64 dsa \"g\"\n  let p"
   ],
   [
    "  let g ← getB64 dsa \"g\"\n  let q",
    "  let g ← getB64 dsa \"y\"\n  let q"
   ]
  ]
 },
 {
  "id": "m224",
  "file": "Verif/Model/Keyczar.lean",
  "def": "KeyVersion.json, KeyVersion.Read",
  "old": "(\"versionNumber\", .num v.num)",
  "new": "(\"version\", .num v.num)",
  "edit": "other field name in the metadata",
  "claim": "C76",
  "more": [
   [
    "let n ← j.get \"versionNumber\"",
    "let n ← j.get \"version\""
   ]
  ],
  "tightened": [
   "C76_accepts"
  ]
 },
 {
  "id": "m225",
  "file": "Verif/Model/Session.lean",
  "def": "Session.json, Session.LoadJsonSession",
  "old": "(\"nonce\", jb64 n)",
  "new": "(\"nonce\", jb64 (n.take 8))",
  "edit": "half the nonce sent",
  "claim": "C54"
 },
 {
  "id": "m226",
  "file": "Verif/Model/Keyczart.lean",
  "def": "Revoke",
  "old": "  let w ← Cmd.look (CreateWriter (loc.getD []))\n  RemoveFile w (.key num)",
  "new": "  let w ← Cmd.look (CreateWriter (loc.getD []))\n  RemoveFile w .metaFile",
  "edit": "wrong file removed",
  "claim": "C31"
 },
 {
  "id": "m227",
  "file": "Verif/Model/Keyczart.lean",
  "def": "Czar.Write",
  "old": "  WriteMetadata l c.heap c.metadata true\n  writeKeys P l c encrypter env.enc (env.order c.versions)",
  "new": "  writeKeys P l c encrypter env.enc (env.order c.versions)\n  WriteMetadata l c.heap c.metadata true",
  "edit": "metadata written last",
  "claim": "C39"
 },
 {
  "id": "m228",
  "file": "Verif/Model/Backends.lean",
  "def": "firstBackend",
  "old": "    | .ok none => firstBackend t l fs",
  "new": "    | .ok none => .error .keyczarError",
  "edit": "only the first class is asked",
  "claim": "C71"
 },
 {
  "id": "m229",
  "file": "Verif/Model/Backends.lean",
  "def": "firstBackend",
  "old": "    | .error e => .error e\n    | .ok (some r) => .ok r",
  "new": "    | .error _ => firstBackend t l fs\n    | .ok (some r) => .ok r",
  "edit": "exceptions of a backend swallowed",
  "claim": "C71"
 },
 {
  "id": "m230",
  "file": "Verif/Model/Backends.lean",
  "def": "importModule",
  "old": "  else if name ∈ s.modules then (.ok (), s)\n",
  "new": "",
  "edit": "modules run again at each call",
  "claim": "C71"
 },
 {
  "id": "m231",
  "file": "Verif/Model/Backends.lean",
  "def": "importModule",
  "old": "readers := s.readers ++ m.readers",
  "new": "readers := m.readers ++ s.readers",
  "edit": "later plugins first",
  "claim": "C71"
 },
 {
  "id": "m232",
  "file": "Verif/Model/Backends.lean",
  "def": "importModule",
  "old": "match s.path.find? fun d",
  "new": "match s.path.reverse.find? fun d",
  "edit": "last directory of sys.path wins",
  "claim": "C71"
 },
 {
  "id": "m233",
  "file": "Verif/Model/Backends.lean",
  "def": "importModule",
  "old": "      | .error e => (.error e, s)\n      | .ok m => (.ok (), {",
  "new": "      | .error _ => (.ok (), s)\n      | .ok m => (.ok (), {",
  "edit": "failing imports ignored",
  "claim": "C71"
 },
 {
  "id": "m234",
  "file": "Verif/Model/Backends.lean",
  "def": "ImportAll",
  "old": "(if dir ∈ s.path then s else { s with path := s.path ++ [dir] })",
  "new": "{ s with path := dir :: s.path }",
  "edit": "plugin directory put first",
  "claim": "C71"
 },
 {
  "id": "m235",
  "file": "Verif/Model/Backends.lean",
  "def": "ImportAll",
  "old": "(if dir ∈ s.path then s else { s with path := s.path ++ [dir] })",
  "new": "s",
  "edit": "sys.path not extended",
  "claim": "C71"
 },
 {
  "id": "m236",
  "file": "Verif/Model/Backends.lean",
  "def": "pluginNames",
  "old": "(names.filter fun f => f.drop (f.length - 3) = dotPy)",
  "new": "names",
  "edit": "any file taken for a module",
  "claim": "C71"
 },
 {
  "id": "m237",
  "file": "Verif/Model/Backends.lean",
  "def": "importDirs",
  "old": "    | (.ok (), s) => importDirs t s",
  "new": "    | (.ok (), s) => (.ok (), s)",
  "edit": "only the first directory of the variable",
  "claim": "C71"
 },
 {
  "id": "m238",
  "file": "Verif/Model/Backends.lean",
  "def": "ImportBackends",
  "old": "if env.getD [] = [] then (.ok (), s) else importDirs",
  "new": "if env.isNone then (.ok (), s) else importDirs",
  "edit": "empty variable split",
  "claim": "C71"
 },
 {
  "id": "m239",
  "file": "Verif/Model/Backends.lean",
  "def": "builtinReaders",
  "old": "[FileReader.backend, silentBackend, silentBackend, silentBackend]",
  "new": "[silentBackend, silentBackend, silentBackend]",
  "edit": "files not served",
  "claim": "C71"
 },
 {
  "id": "m240",
  "file": "Verif/Model/Backends.lean",
  "def": "CreateWriterAny",
  "old": "(firstBackend s.writers l fs, s)",
  "new": "(firstBackend s.writers.reverse l fs, s)",
  "edit": "last writer first",
  "claim": "C71"
 },
 {
  "id": "m241",
  "file": "Verif/Model/Backends.lean",
  "def": "CreateReaderAny",
  "old": "  | (.error e, s) => (.error e, s)\n  | (.ok (), s) => (firstBackend s.readers l fs, s)",
  "new": "  | (_, s) => (firstBackend s.readers l fs, s)",
  "edit": "import errors ignored",
  "claim": "C71"
 },
 {
  "id": "m242",
  "file": "Verif/Model/FloatLen.lean",
  "def": "numBytesFloat",
  "old": ".ok (⌊pyLog256 F n⌋ + 1).toNat",
  "new": ".ok ⌈pyLog256 F n⌉.toNat",
  "edit": "ceiling instead of floor plus one",
  "claim": "C72"
 },
 {
  "id": "m243",
  "file": "Verif/Model/FloatLen.lean",
  "def": "numBytesFloat",
  "old": ".ok (⌊pyLog256 F n⌋ + 1).toNat",
  "new": ".ok ⌊pyLog256 F n⌋.toNat",
  "edit": "not plus one",
  "claim": "C72"
 },
 {
  "id": "m244",
  "file": "Verif/Model/FloatLen.lean",
  "def": "mgfBlocksFloat",
  "old": "⌈F.fl (F.fl mlen / F.fl (HLEN : ℕ))⌉.toNat",
  "new": "⌊F.fl (F.fl mlen / F.fl (HLEN : ℕ))⌋.toNat",
  "edit": "floor instead of ceiling",
  "claim": "C72"
 },
 {
  "id": "m245",
  "file": "Verif/Model/FloatLen.lean",
  "def": "pyFrexp",
  "old": "if x = 1 then (1 / 2, e + 1) else (x, e)",
  "new": "(x, e + 1)",
  "edit": "exponent off by one",
  "claim": "C72"
 },
 {
  "id": "m246",
  "file": "Verif/Model/FloatLen.lean",
  "def": "pyLog",
  "old": "F.fl (F.log (pyFrexp F n).1 + F.fl (F.log 2 * F.fl (pyFrexp F n).2))",
  "new": "F.fl (F.fl (F.log 2 * F.fl (pyFrexp F n).2))",
  "edit": "mantissa dropped for large integers",
  "claim": "C72"
 },
 {
  "id": "m247",
  "file": "Verif/Model/FloatLen.lean",
  "def": "MGFFloat",
  "old": ".ok (output.take mlen)",
  "new": ".ok output",
  "edit": "not truncated",
  "claim": "C72"
 },
 {
  "id": "m248",
  "file": "Verif/Model/FloatLen.lean",
  "def": "RsaPrivateKey.DecodeFloat",
  "old": "oaepDecode P (numBytesFloat F key.key.n) encoded",
  "new": "oaepDecode P (numBytesFloat F (key.key.n + 1)) encoded",
  "edit": "length of another number",
  "claim": "C72"
 },
 {
  "id": "m249",
  "file": "Verif/Model/Mock.lean",
  "def": "MockReader",
  "old": "| none => .error .keyczarError\n    isEnc",
  "new": "| none => .error .keyError\n    isEnc",
  "edit": "missing key is another exception",
  "claim": "C73"
 },
 {
  "id": "m250",
  "file": "Verif/Model/Mock.lean",
  "def": "Mock.SetKey",
  "old": "{ m with keys := assocSet m.keys n key }",
  "new": "{ m with keys := (n, key) :: m.keys.filter fun p => p.1 < n }",
  "edit": "newer keys dropped",
  "claim": "C73"
 },
 {
  "id": "m251",
  "file": "Verif/Model/Mock.lean",
  "def": "Mock.RemoveKey",
  "old": "{ m with keys := m.keys.filter fun p => p.1 ≠ n }",
  "new": "m",
  "edit": "key kept",
  "claim": "C73"
 },
 {
  "id": "m252",
  "file": "Verif/Model/Mock.lean",
  "def": "mockRevoke",
  "old": "  | (.ok _, m') => m'.RemoveKey n",
  "new": "  | (.ok _, m') => (.ok (), m')",
  "edit": "key not removed",
  "claim": "C73"
 },
 {
  "id": "m253",
  "file": "Verif/Model/Mock.lean",
  "def": "mockUpdate",
  "old": "{ m with heap := c.heap, kmd := c.metadata }",
  "new": "m",
  "edit": "metadata not updated",
  "claim": "C73"
 },
 {
  "id": "m254",
  "file": "Verif/Model/Mock.lean",
  "def": "mockSetKeys",
  "old": "mockSetKeys c t (m.SetKey (c.heap.obj o).num key)",
  "new": "(.ok (), m.SetKey (c.heap.obj o).num key)",
  "edit": "only the first key stored",
  "claim": "C73"
 },
 {
  "id": "m255",
  "file": "Verif/Model/Mock.lean",
  "def": "mockPromote",
  "old": "mockManage P env (decide (n < 0)) fun c => c.Promote n",
  "new": "mockManage P env false fun c => c.Promote n",
  "edit": "version not checked",
  "claim": "C73"
 },
 {
  "id": "m256",
  "file": "Verif/Model/Mock.lean",
  "def": "mockDemote",
  "old": "fun c => c.Demote n",
  "new": "fun c => c.Promote n",
  "edit": "promotes",
  "claim": "C73"
 },
 {
  "id": "m257",
  "file": "Verif/Model/Mock.lean",
  "def": "mockAddKey",
  "old": "(if size = -1 then none else some size)",
  "new": "(some size)",
  "edit": "default size not used",
  "claim": "C73"
 },
 {
  "id": "m258",
  "file": "Verif/Model/Mock.lean",
  "def": "mockExport",
  "old": "mockExport c t (pubkmd.AddVersion c.heap o)",
  "new": "mockExport c t pubkmd",
  "edit": "versions not listed",
  "claim": "C73"
 },
 {
  "id": "m259",
  "file": "Verif/Model/Mock.lean",
  "def": "mockExport",
  "old": "(m.SetPubKey (c.heap.obj o).num pub)",
  "new": "(m.SetKey (c.heap.obj o).num pub)",
  "edit": "private keys overwritten",
  "claim": "C73"
 },
 {
  "id": "m260",
  "file": "Verif/Model/Mock.lean",
  "def": "mockPubKey",
  "old": "{ m' with pubkmd := some (c.heap, kmd) }",
  "new": "{ m' with kmd := kmd }",
  "edit": "metadata overwritten",
  "claim": "C73"
 },
 {
  "id": "m261",
  "file": "Verif/Model/Mock.lean",
  "def": "mockCreate",
  "old": "kmd := ⟨name, type.1, type.2, .bool false, []⟩",
  "new": "kmd := ⟨name, type.1, type.2, .bool true, []⟩",
  "edit": "marked as encrypted",
  "claim": "C73"
 },
 {
  "id": "m262",
  "file": "Verif/Model/Mock.lean",
  "def": "mockCreate",
  "old": "kmd := ⟨name, type.1, type.2, .bool false, []⟩ })",
  "new": "kmd := ⟨name, type.1, type.2, .bool false, m.kmd.versions⟩ })",
  "edit": "versions kept",
  "claim": "C73"
 },
 {
  "id": "m263",
  "file": "Verif/Model/Mock.lean",
  "def": "Mock.AddKey",
  "old": "⟨n, status, .bool false⟩",
  "new": "⟨n, .ACTIVE, .bool false⟩",
  "edit": "status ignored",
  "claim": "C73"
 },
 {
  "id": "m264",
  "file": "Verif/Model/Mock.lean",
  "def": "Mock.ExistsVersion",
  "old": "(assocGet m.keys n).isSome",
  "new": "m.kmd.versions.any fun p => p.1 = n",
  "edit": "looks at the metadata",
  "claim": "C73"
 },
 {
  "id": "m265",
  "file": "Verif/Model/Mock.lean",
  "def": "Mock.GetStatus",
  "old": "(← m.kmd.GetVersion n)",
  "new": "(← m.kmd.GetVersion (n + 1))",
  "edit": "status of the next version",
  "claim": "C73"
 },
 {
  "id": "m266",
  "file": "Verif/Model/PyCrypto.lean",
  "def": "RsaPubObj.encryptInt",
  "old": "else if P.rsaRangeCheck ∧ k.n ≤ m then",
  "new": "else if P.rsaRangeCheck ∧ k.n < m then",
  "edit": "range off by one",
  "claim": "C46"
 },
 {
  "id": "m267",
  "file": "Verif/Model/PyCrypto.lean",
  "def": "RsaPubObj.encryptInt",
  "old": "else if P.rsaRangeCheck ∧ k.n ≤ m then",
  "new": "else if P.rsaRangeCheck ∧ k.n < 2 * m then",
  "edit": "half of the range refused",
  "claim": "C48"
 },
 {
  "id": "m268",
  "file": "Verif/Model/Der.lean",
  "def": "ParseDsaSig",
  "old": "if l.length ≠ 2 then .error .keyczarError",
  "new": "if l.length < 2 then .error .keyczarError",
  "edit": "long sequences not refused",
  "claim": "C47"
 },
 {
  "id": "m269",
  "file": "Verif/Model/PyCrypto.lean",
  "def": "DsaPubObj.verify",
  "old": "if ¬ (0 < r ∧ r < key.q) ∨ ¬ (0 < s ∧ s < key.q) then",
  "new": "if ¬ (0 < r ∧ r < key.q) then",
  "edit": "range of s not checked",
  "claim": "C42"
 },
 {
  "id": "m270",
  "file": "Verif/Model/KeyInfo.lean",
  "def": "KeyType.defaultSize",
  "old": "t.sizes.headD 0",
  "new": "t.sizes.getLastD 0",
  "edit": "the default size is the last one of the list",
  "claim": "C34",
  "breaks": "generated keys have the default size of their type"
 },
 {
  "id": "m271",
  "file": "Verif/Model/KeyInfo.lean",
  "def": "KeyType.IsValidSize",
  "old": "(t.sizes.map Int.ofNat).contains size",
  "new": "decide (0 < size) && (t.sizes.map Int.ofNat).any (fun x => size ≤ x)",
  "edit": "any positive size up to the largest is valid",
  "claim": "C34",
  "breaks": "sizes outside the table are refused"
 },
 {
  "id": "m272",
  "file": "Verif/Model/KeyInfo.lean",
  "def": "GetStatus",
  "old": "(\"INACTIVE\", .INACTIVE)]",
  "new": "(\"INACTIVE\", .ACTIVE)]",
  "edit": "INACTIVE is read as ACTIVE",
  "claim": "C35",
  "breaks": "metadata round trip"
 },
 {
  "id": "m273",
  "file": "Verif/Model/KeyInfo.lean",
  "def": "GetType",
  "old": "(\"DSA_PUB\", .DSA_PUB)",
  "new": "(\"DSA_PUB\", .DSA_PRIV)",
  "edit": "DSA_PUB is read as DSA_PRIV",
  "claim": "C35",
  "breaks": "metadata round trip"
 },
 {
  "id": "m274",
  "file": "Verif/Model/KeyInfo.lean",
  "def": "KeyPurpose.name",
  "old": "| .SIGN_AND_VERIFY => \"SIGN_AND_VERIFY\" | .VERIFY => \"VERIFY\"",
  "new": "| .SIGN_AND_VERIFY => \"SIGN_AND_VERIFY\" | .VERIFY => \"SIGN_AND_VERIFY\"",
  "edit": "VERIFY is written as SIGN_AND_VERIFY",
  "claim": "C41",
  "breaks": "an exported public set cannot sign"
 },
 {
  "id": "m275",
  "file": "Verif/Model/KeyInfo.lean",
  "def": "lookupName",
  "old": "| .arr _ | .obj _ => .error .typeError",
  "new": "| .arr _ | .obj _ => .error .keyczarError",
  "edit": "an unhashable name gives a KeyczarError",
  "claim": "C76",
  "breaks": "what loading raises",
  "tightened": [
   "C76_names",
   "C76_first_fault"
  ],
  "note": "survived at first; the theorems named under theorems_tightened were added"
 },
 {
  "id": "m276",
  "file": "Verif/Model/Json.lean",
  "def": "uEscape",
  "old": "hexDigit (n / 256 % 16), hexDigit (n / 16 % 16)",
  "new": "hexDigit (n / 16 % 16), hexDigit (n / 256 % 16)",
  "edit": "two digits of an escape are exchanged",
  "claim": "C35",
  "breaks": "JSON round trip"
 },
 {
  "id": "m277",
  "file": "Verif/Model/Json.lean",
  "def": "scanStr",
  "old": "(0x10000 + (n - 0xd800) * 1024 + (m - 0xdc00))",
  "new": "((n - 0xd800) * 1024 + (m - 0xdc00))",
  "edit": "the offset of surrogate pairs is forgotten",
  "claim": "C35",
  "breaks": "JSON round trip of names"
 },
 {
  "id": "m278",
  "file": "Verif/Model/Json.lean",
  "def": "scanStr",
  "old": "else if e = 110 then scanStr t (Char.ofNat 10 :: acc)",
  "new": "else if e = 110 then scanStr t ('n' :: acc)",
  "edit": "the escape for newline gives the letter n",
  "claim": "C35",
  "breaks": "JSON round trip of names"
 },
 {
  "id": "m279",
  "file": "Verif/Model/Json.lean",
  "def": "scanNat",
  "old": "if c = 48 then .ok (0, t)\n    else if isDigit c",
  "new": "if isDigit c",
  "edit": "leading zeros are accepted",
  "claim": "C35",
  "breaks": "numbers that JSON does not allow"
 },
 {
  "id": "m280",
  "file": "Verif/Model/Json.lean",
  "def": "parseVal",
  "old": "numEnd (-(n : Int)) rest",
  "new": "numEnd n rest",
  "edit": "the minus sign is dropped",
  "claim": "C35",
  "breaks": "JSON round trip of version numbers"
 },
 {
  "id": "m281",
  "file": "Verif/Model/Json.lean",
  "def": "parseElems",
  "old": "if c = 44 then parseElems fuel t (acc ++ [v])",
  "new": "if c = 44 then parseElems fuel t (v :: acc)",
  "edit": "elements of arrays come in another order",
  "claim": "C35",
  "breaks": "versions of the metadata keep their order",
  "extra_failed": [
   "Lemmas/Json.lean:parseVal_dumps"
  ]
 },
 {
  "id": "m282",
  "file": "Verif/Model/Json.lean",
  "def": "parseMembers",
  "old": "if e = 44 then parseMembers fuel w (dictSet acc k v)",
  "new": "if e = 44 then parseMembers fuel w (if (dictGet acc k).isSome then acc else dictSet acc k v)",
  "edit": "the first of two equal names wins",
  "claim": "C34",
  "breaks": "duplicate names",
  "extra_failed": [
   "Lemmas/Json.lean:parseVal_dumps"
  ]
 },
 {
  "id": "m283",
  "file": "Verif/Model/Json.lean",
  "def": "dumpMembers",
  "old": "(k, v) :: w :: t => dumpStr k ++ (58 :: 32 :: dumps v) ++ (44 :: 32 :: dumpMembers (w :: t))",
  "new": "(k, v) :: w :: t => dumpStr k ++ (58 :: 32 :: dumps v) ++ (44 :: dumpMembers (w :: t))",
  "edit": "no blank after the comma between members",
  "claim": "C34",
  "breaks": "text of written files",
  "extra_failed": [
   "Lemmas/Json.lean:parseVal_dumps"
  ]
 },
 {
  "id": "m284",
  "file": "Verif/Model/Base64.lean",
  "def": "trDec",
  "old": "if c = 45 then 43 else if c = 95 then 47 else c",
  "new": "if c = 45 then 47 else if c = 95 then 43 else c",
  "edit": "the two special characters are exchanged",
  "claim": "C01",
  "breaks": "Base64 round trip"
 },
 {
  "id": "m285",
  "file": "Verif/Model/Base64.lean",
  "def": "Base64WSEncode",
  "old": "(urlsafeB64encode s).filter (· ≠ PAD)",
  "new": "urlsafeB64encode s",
  "edit": "the padding is kept",
  "claim": "C02",
  "breaks": "encoded texts have no padding"
 },
 {
  "id": "m286",
  "file": "Verif/Model/Base64.lean",
  "def": "a2bGo",
  "old": "if leftbits ≠ 0 then none else some out",
  "new": "some out",
  "edit": "incomplete groups are accepted",
  "claim": "C03",
  "breaks": "Base64 decoding rejects bad input"
 },
 {
  "id": "m287",
  "file": "Verif/Model/Base64.lean",
  "def": "b64encode",
  "old": "[b64Char (a.toNat / 4), b64Char (a.toNat % 4 * 16), PAD, PAD]",
  "new": "[b64Char (a.toNat / 4), b64Char (a.toNat % 4), PAD, PAD]",
  "edit": "the last bits are not shifted",
  "claim": "C01",
  "breaks": "Base64 round trip"
 },
 {
  "id": "m288",
  "file": "Verif/Model/Keyczar.lean",
  "def": "Czar.GetKeyByHash",
  "old": "match assocGet c.hkeys hash with\n  | some k => .ok k\n  | none => .error .keyNotFound",
  "new": "match assocGet c.hkeys hash with\n  | some k => .ok k\n  | none => match c.vkeys with | (_, k) :: _ => .ok k | [] => .error .keyNotFound",
  "edit": "an unknown identifier falls back to the first key",
  "claim": "C23",
  "breaks": "unknown identifiers raise KeyNotFoundError"
 },
 {
  "id": "m289",
  "file": "Verif/Model/Keyczar.lean",
  "def": "KeyMetadata.GetVersion",
  "old": "| none => .error .keyczarError\n  | some o => .ok o",
  "new": "| none => .error .keyError\n  | some o => .ok o",
  "edit": "the KeyError is not converted",
  "claim": "C26",
  "breaks": "what status commands raise"
 },
 {
  "id": "m290",
  "file": "Verif/Model/Keyczar.lean",
  "def": "jsonItems",
  "old": "| .obj l => if l.isEmpty then .ok [] else .error .typeError",
  "new": "| .obj l => .ok (l.map Prod.snd)",
  "edit": "the values of an object are taken as versions",
  "claim": "C18",
  "breaks": "which metadata can be read"
 },
 {
  "id": "m291",
  "file": "Verif/Model/Keyczart.lean",
  "def": "RemoveFile",
  "old": "(.ok (), [.remove l f]) else (.error .osError, [])",
  "new": "(.ok (), [.remove l f]) else (.ok (), [])",
  "edit": "removing a missing file succeeds",
  "claim": "C38",
  "breaks": "revoke without a key file",
  "tightened": [
   "C38_remove"
  ],
  "note": "survived at first; the theorems named under theorems_tightened were added"
 },
 {
  "id": "m292",
  "file": "Verif/Model/Keyczart.lean",
  "def": "WriteKey",
  "old": "let out ← Cmd.lift (c.Encrypt P rnd text (some Base64WSEncode))\n    WriteFile out l (.key n)",
  "new": "let _ ← Cmd.lift (c.Encrypt P rnd text (some Base64WSEncode))\n    WriteFile text l (.key n)",
  "edit": "the key is written in clear",
  "claim": "C33",
  "breaks": "keys written with a crypter are encrypted"
 },
 {
  "id": "m293",
  "file": "Verif/Model/Keyczart.lean",
  "def": "Key.publicKey",
  "old": "| .dsaPriv k => .ok (.dsaPub k.pub)",
  "new": "| .dsaPriv _ => .error .attributeError",
  "edit": "DSA keys have no public part",
  "claim": "C41",
  "breaks": "export of DSA sets"
 },
 {
  "id": "m294",
  "file": "Verif/Model/Keyczart.lean",
  "def": "readerFor",
  "old": "| some cr => EncryptedReader P r cr",
  "new": "| some cr => { EncryptedReader P r cr with GetKey := r.GetKey }",
  "edit": "keys are not decrypted on reading",
  "claim": "C33",
  "breaks": "an encrypted set loads with its crypter"
 },
 {
  "id": "m295",
  "file": "Verif/Model/Keyczart.lean",
  "def": "Create",
  "old": "⟨name, type.1, type.2, .bool false, []⟩ false",
  "new": "⟨name, type.1, type.2, .bool false, []⟩ true",
  "edit": "create overwrites existing metadata",
  "claim": "C36",
  "breaks": "create leaves an existing set alone"
 },
 {
  "id": "m296",
  "file": "Verif/Model/Keyczart.lean",
  "def": "Demote",
  "old": "ChangeStatus P env Czar.Demote loc num",
  "new": "ChangeStatus P env Czar.Promote loc num",
  "edit": "demote promotes",
  "claim": "C38",
  "breaks": "what demote does"
 },
 {
  "id": "m297",
  "file": "Verif/Model/Keyczart.lean",
  "def": "decimalVal",
  "old": "if b ≠ [] ∧ b.all",
  "new": "if b.all",
  "edit": "the empty text is 0",
  "claim": "C60",
  "breaks": "numbers on the command line"
 },
 {
  "id": "m298",
  "file": "Verif/Model/Keyczart.lean",
  "def": "GetFlag",
  "old": "(\"destination\", .destination), (\"version\", .version)",
  "new": "(\"destination\", .version), (\"version\", .destination)",
  "edit": "two flags are exchanged",
  "claim": "C60",
  "breaks": "what the command line means"
 },
 {
  "id": "m299",
  "file": "Verif/Model/Keyczart.lean",
  "def": "useVar",
  "old": "| none => .error .unboundLocal",
  "new": "| none => .ok 0",
  "edit": "a missing number is 0",
  "claim": "C60",
  "breaks": "commands without a version number"
 },
 {
  "id": "m300",
  "file": "Verif/Model/Keys.lean",
  "def": "setSizeJson",
  "old": "| _ => t.defaultSize",
  "new": "| _ => 0",
  "edit": "a size that is no number gives 0",
  "claim": "C34",
  "breaks": "sizes after reading"
 },
 {
  "id": "m301",
  "file": "Verif/Model/Keys.lean",
  "def": "aesUnPad",
  "old": "sliceTo padded (-(c.toNat : Int))",
  "new": "sliceTo padded ((padded.length : Int) - c.toNat)",
  "edit": "the length is computed before slicing",
  "claim": "C14",
  "breaks": "paddings longer than the data"
 },
 {
  "id": "m302",
  "file": "Verif/Model/Keys.lean",
  "def": "HmacKey.ofJson",
  "old": "return ⟨ks, setSizeJson .HMAC_SHA1 (← mac.get \"size\")⟩",
  "new": "return ⟨ks, KeyType.defaultSize .HMAC_SHA1⟩",
  "edit": "the size is not read",
  "claim": "C34",
  "breaks": "HMAC key files without a size"
 },
 {
  "id": "m303",
  "file": "Verif/Model/M2Crypto.lean",
  "def": "EvpAdaptor.encrypt",
  "old": "{ a with enc := some (c.update P s).2 }",
  "new": "{ a with dec := some (c.update P s).2 }",
  "edit": "the context is stored in the wrong attribute",
  "claim": "C66",
  "breaks": "both libraries encrypt alike"
 },
 {
  "id": "m304",
  "file": "Verif/Model/Prims.lean",
  "def": "CbcObj.encrypt",
  "old": ".ok (cs.flatten, { c with iv := lastBlock c.iv cs })",
  "new": ".ok (cs.flatten, c)",
  "edit": "the chaining value is not kept between calls",
  "claim": "C56",
  "breaks": "streams agree with one-shot encryption"
 },
 {
  "id": "m305",
  "file": "Verif/Model/Prims.lean",
  "def": "CbcObj.decrypt",
  "old": "{ c with iv := lastBlock c.iv bs })",
  "new": "c)",
  "edit": "the chaining value is not kept between calls",
  "claim": "C57",
  "breaks": "stream decryption"
 },
 {
  "id": "m306",
  "file": "Verif/Model/Der.lean",
  "def": "ParsePkcs8",
  "old": "| p :: q :: g :: _ => do\n              return .dsa (← asn1Int p) (← asn1Int q) (← asn1Int g) (← asn1Int key)",
  "new": "| p :: g :: q :: _ => do\n              return .dsa (← asn1Int p) (← asn1Int q) (← asn1Int g) (← asn1Int key)",
  "edit": "q and g are exchanged",
  "claim": "C63",
  "breaks": "parameters of DSA keys"
 },
 {
  "id": "m307",
  "file": "Verif/Model/Der.lean",
  "def": "ParsePkcs8",
  "old": "if version ≠ 0 then .error .keyczarError",
  "new": "if version < 0 then .error .keyczarError",
  "edit": "later versions of the format are accepted",
  "claim": "C63",
  "breaks": "unknown versions are refused"
 },
 {
  "id": "m308",
  "file": "Verif/Model/Der.lean",
  "def": "ExportX509",
  "old": ".seq [.integer p, .integer q, .integer g]], pubkey]",
  "new": ".seq [.integer p, .integer g, .integer q]], pubkey]",
  "edit": "q and g are exchanged",
  "claim": "C63",
  "breaks": "X.509 export of DSA keys"
 },
 {
  "id": "m309",
  "file": "Verif/Model/Der.lean",
  "def": "derTLV",
  "old": "let l ← derLen content.length",
  "new": "let l ← derLen (content.length + 1)",
  "edit": "the length counts the tag",
  "claim": "C12",
  "breaks": "DER round trip"
 },
 {
  "id": "m310",
  "file": "Verif/Model/Streams.lean",
  "def": "Czar.CreateEncryptingStreamWriter",
  "old": "(rnd.bytes 0 16)",
  "new": "(List.replicate 16 0)",
  "edit": "the initialization vector is zero",
  "claim": "C56",
  "breaks": "each stream has its own initialization vector"
 },
 {
  "id": "m311",
  "file": "Verif/Model/Streams.lean",
  "def": "DecReader.fill",
  "old": "if avail ∧ data = [] then",
  "new": "if avail ∧ data = [] ∧ bytes ≠ [] then",
  "edit": "stops at the first empty read",
  "claim": "C57",
  "breaks": "streams with empty reads"
 },
 {
  "id": "m312",
  "file": "Verif/Model/Streams.lean",
  "def": "DecReader.withKey",
  "old": "| true, some _ => (.error .attributeError, r)",
  "new": "| true, some _ => (.ok avail, r)",
  "edit": "keys of other types are passed over",
  "claim": "C58",
  "breaks": "streams under other keys",
  "tightened": [
   "C58_other_key"
  ],
  "note": "survived at first; the theorems named under theorems_tightened were added"
 },
 {
  "id": "m313",
  "file": "Verif/Model/Streams.lean",
  "def": "B64Reader.loop",
  "old": "if d = [] then (.ok (some d), ⟨b, r.chars ++ new, s⟩)",
  "new": "if d = [] then (.ok (some d), ⟨b, r.chars, s⟩)",
  "edit": "the last characters are dropped at the end",
  "claim": "C05",
  "breaks": "Base64 stream round trip"
 },
 {
  "id": "m314",
  "file": "Verif/Model/Session.lean",
  "def": "SignedSessionEncrypter.new",
  "old": "(← session.json)",
  "new": "(← session.packedKey)",
  "edit": "the packed form is sent",
  "claim": "C54",
  "breaks": "signed sessions agree"
 },
 {
  "id": "m315",
  "file": "Verif/Model/Session.lean",
  "def": "SessionDecrypter.new",
  "old": "Session.LoadPackedKey fuel (← crypter.Decrypt P material (some Base64WSDecode))",
  "new": "Session.LoadPackedKey fuel (← crypter.Decrypt P material none)",
  "edit": "the material is not decoded",
  "claim": "C53",
  "breaks": "session round trip"
 },
 {
  "id": "m316",
  "file": "Verif/Model/Util.lean",
  "def": "BytesToLong",
  "old": "256 ^ (b.length - 1 - i)",
  "new": "256 ^ i",
  "edit": "little endian",
  "claim": "C08",
  "breaks": "integers round trip"
 },
 {
  "id": "m317",
  "file": "Verif/Model/Util.lean",
  "def": "PackByteArray",
  "old": "| none => .ok []",
  "new": "| none => do structPackI 0",
  "edit": "a missing array has a length field",
  "claim": "C23",
  "breaks": "packing of None"
 },
 {
  "id": "m318",
  "file": "Verif/Model/Util.lean",
  "def": "Hash",
  "old": "P.sha1 inputs.flatten",
  "new": "P.sha1 inputs.reverse.flatten",
  "edit": "inputs in reverse order",
  "claim": "C21",
  "breaks": "identifiers of AES keys"
 },
 {
  "id": "m319",
  "file": "Verif/Model/Util.lean",
  "def": "PadBytes",
  "old": "List.replicate n.toNat 0 ++ b",
  "new": "b ++ List.replicate n.toNat 0",
  "edit": "zeros at the end",
  "claim": "C10",
  "breaks": "leading zeros do not change identifiers"
 },
 {
  "id": "m320",
  "file": "Verif/Model/Backends.lean",
  "def": "importNames",
  "old": "| (.error e, s) => (.error e, s)\n    | (.ok (), s) => importNames t s",
  "new": "| (.error _, s) => importNames t s\n    | (.ok (), s) => importNames t s",
  "edit": "failing modules are skipped",
  "claim": "C71",
  "breaks": "an import error reaches the program"
 },
 {
  "id": "m321",
  "file": "Verif/Model/Mock.lean",
  "def": "mockManage",
  "old": "if bad then (.error .keyczarError, m)",
  "new": "if bad then (.ok (), m)",
  "edit": "a missing version number is no error",
  "claim": "C73",
  "breaks": "mock agrees with the disk"
 },
 {
  "id": "m322",
  "file": "Verif/Model/Py3.lean",
  "def": "replaceStr",
  "old": "| .bytes _ => .error .typeError\n  | _ => .error .attributeError\n\n/-- util.py:343",
  "new": "| .bytes b => .ok (.str ((b.map UInt8.toNat).filter (· ≠ old)))\n  | _ => .error .attributeError\n\n/-- util.py:343",
  "edit": "replace works on bytes",
  "claim": "C62",
  "breaks": "nothing loads under Python 3",
  "tightened": [
   "C62_str_is_text",
   "C62_padding"
  ],
  "note": "survived at first; the theorems named under theorems_tightened were added"
 },
 {
  "id": "m323",
  "file": "Verif/Model/Py3.lean",
  "def": "strOf",
  "old": "| v => .str (E.render v)",
  "new": "| v => v",
  "edit": "str() leaves bytes alone",
  "claim": "C62",
  "breaks": "nothing loads under Python 3",
  "tightened": [
   "C62_str_is_text"
  ],
  "note": "survived at first; the theorems named under theorems_tightened were added"
 },
 {
  "id": "m324",
  "file": "Verif/Model/Py3.lean",
  "def": "div",
  "old": "def div (_a _b : Int) : Val := .float",
  "new": "def div (a b : Int) : Val := .int (a / b)",
  "edit": "floor division",
  "claim": "C62",
  "breaks": "no key is generated under Python 3",
  "tightened": [
   "C62_padding",
   "C62_random"
  ],
  "note": "survived at first; the theorems named under theorems_tightened were added"
 },
 {
  "id": "m325",
  "file": "Verif/Model/Py3.lean",
  "def": "joinLines",
  "old": "| .bytes [] => .ok []\n  | .bytes _ => .error .typeError",
  "new": "| .bytes b => .ok (b.map UInt8.toNat)",
  "edit": "bytes are joined",
  "claim": "C62",
  "breaks": "Python 3 decoding of bytes",
  "tightened": [
   "C62_decode_bytes",
   "C62_decode_type"
  ],
  "note": "survived at first; the theorems named under theorems_tightened were added"
 },
 {
  "id": "m326",
  "file": "Verif/Model/Py3.lean",
  "def": "update",
  "old": "| _ => .error .typeError\n\n/-- util.py:323",
  "new": "| .str s => .ok (md ++ s.map UInt8.ofNat)\n  | _ => .error .typeError\n\n/-- util.py:323",
  "edit": "the hash takes text",
  "claim": "C62",
  "breaks": "nothing loads under Python 3"
 },
 {
  "id": "m327",
  "file": "Verif/Model/Py3.lean",
  "def": "loadLoop",
  "old": "| .error e => .error e\n        | .ok h =>\n          loadLoop",
  "new": "| .error _ => loadLoop E read vs c\n        | .ok h =>\n          loadLoop",
  "edit": "keys without identifier are skipped",
  "claim": "C62",
  "breaks": "nothing loads under Python 3"
 },
 {
  "id": "m328",
  "file": "Verif/Model/Py3.lean",
  "def": "urlsafe_b64encode",
  "old": "| _ => .error .typeError\n\n/-- `v.replace",
  "new": "| .str s => .ok (.str s)\n  | _ => .error .typeError\n\n/-- `v.replace",
  "edit": "text is accepted",
  "claim": "C62",
  "breaks": "nothing loads under Python 3"
 },
 {
  "id": "m329",
  "file": "Verif/Model/Keyczart.lean",
  "def": "Czar.Write",
  "old": "  WriteMetadata l c.heap c.metadata true\n  writeKeys P l c encrypter env.enc (env.order c.versions)",
  "new": "  writeKeys P l c encrypter env.enc (env.order c.versions)\n  WriteMetadata l c.heap c.metadata true",
  "edit": "the metadata is written last",
  "claim": "C75",
  "breaks": "during addkey the set cannot be loaded"
 },
 {
  "id": "m330",
  "file": "Verif/Model/Keyczart.lean",
  "def": "Revoke",
  "old": "  ChangeStatus P env Czar.Revoke loc num\n  let w ← Cmd.look (CreateWriter (loc.getD []))\n  RemoveFile w (.key num)",
  "new": "  let w ← Cmd.look (CreateWriter (loc.getD []))\n  RemoveFile w (.key num)\n  ChangeStatus P env Czar.Revoke loc num",
  "edit": "the key file is removed first",
  "claim": "C38",
  "breaks": "the set loads after a failing revoke"
 },
 {
  "id": "m331",
  "file": "Verif/Model/Keyczart.lean",
  "def": "Revoke",
  "old": "  let w ← Cmd.look (CreateWriter (loc.getD []))\n  RemoveFile w (.key num)\n",
  "new": "",
  "edit": "the key file stays",
  "claim": "C38",
  "breaks": "revoke removes the key"
 },
 {
  "id": "m332",
  "file": "Verif/Model/Interop.lean",
  "def": "Json.getD",
  "old": ".ok ((dictGet l k.toList).getD d)",
  "new": ".ok d",
  "edit": "options.get ignores the options",
  "claim": "C77",
  "breaks": "the test reads the set named by pubKey"
 },
 {
  "id": "m333",
  "file": "Verif/Model/Interop.lean",
  "def": "Json.contains",
  "old": "| .arr l => .ok (l.any (·.isText s))",
  "new": "| .arr _ => .error .typeError",
  "edit": "a list of arguments raises TypeError",
  "claim": "C77",
  "breaks": "what the harness does with its argument",
  "tightened": [
   "C77_argument"
  ]
 },
 {
  "id": "m334",
  "file": "Verif/Model/Interop.lean",
  "def": "GetReader",
  "old": "if crypter = [] then return reader",
  "new": "if crypter = [] ∨ pubKey ≠ [] then return reader",
  "edit": "an encrypted public set is read without its crypter",
  "claim": "C77",
  "breaks": "interop with encrypted sets"
 },
 {
  "id": "m335",
  "file": "Verif/Model/Interop.lean",
  "def": "GetReader",
  "old": "(algorithm ++ crypter ++ pubKey)",
  "new": "(algorithm ++ pubKey ++ crypter)",
  "edit": "name parts in the wrong order",
  "claim": "C77",
  "breaks": "interop reads the set that create made"
 },
 {
  "id": "m336",
  "file": "Verif/Model/Interop.lean",
  "def": "readerOf",
  "old": "pubOptions.getD \"pubKey\"",
  "new": "options.getD \"pubKey\"",
  "edit": "the public set is looked up in the wrong options",
  "claim": "C77",
  "breaks": "test options decide which set is read"
 },
 {
  "id": "m337",
  "file": "Verif/Model/Interop.lean",
  "def": "JsonOutput",
  "old": "Json.ofBytes (Base64WSEncode output)",
  "new": "Json.ofBytes output",
  "edit": "output is not encoded",
  "claim": "C77",
  "breaks": "outputs can be read by test"
 },
 {
  "id": "m338",
  "file": "Verif/Model/Interop.lean",
  "def": "decoderOf",
  "old": "isText \"encoded\" then some Base64WSDecode",
  "new": "isText \"unencoded\" then some Base64WSDecode",
  "edit": "decoder chosen for the wrong option",
  "claim": "C77",
  "breaks": "encoded outputs verify"
 },
 {
  "id": "m339",
  "file": "Verif/Model/Interop.lean",
  "def": "UnversionedSignOperation.Test",
  "old": "if (← testOptions.get \"class\").isText \"verifier\" then .unversionedVerifier",
  "new": "if (← testOptions.get \"class\").isText \"signer\" then .unversionedVerifier",
  "edit": "classes exchanged",
  "claim": "C77",
  "breaks": "class of the test"
 },
 {
  "id": "m340",
  "file": "Verif/Model/Interop.lean",
  "def": "UnversionedSignOperation.Test",
  "old": "assert (← verifier.UnversionedVerify P data signature decoder)",
  "new": "let _ ← verifier.UnversionedVerify P data signature decoder",
  "edit": "result not asserted",
  "claim": "C77",
  "breaks": "test passes iff the signature verifies",
  "tightened": [
   "C77_passes_unversioned"
  ]
 },
 {
  "id": "m341",
  "file": "Verif/Model/Interop.lean",
  "def": "SignedSessionOperation.Generate",
  "old": "(\"sessionMaterial\".toList, Json.ofBytes crypter.material)",
  "new": "(\"sessionMaterial\".toList, Json.ofBytes encryptedData)",
  "edit": "wrong material is printed",
  "claim": "C77",
  "breaks": "signed session round trip"
 },
 {
  "id": "m342",
  "file": "Verif/Model/Interop.lean",
  "def": "SignedSessionOperation.Test",
  "old": "assert (decryptedData = some data)",
  "new": "assert (decryptedData.isSome)",
  "edit": "any plaintext passes",
  "claim": "C77",
  "breaks": "test passes iff the plaintext is the data",
  "tightened": [
   "C77_passes_session"
  ]
 },
 {
  "id": "m343",
  "file": "Verif/Model/Interop.lean",
  "def": "SignedSessionOperation.Test",
  "old": "← readerOf P fs keyPath signerAlgorithm generateOptions (.obj [])",
  "new": "← readerOf P fs keyPath signerAlgorithm generateOptions testOptions",
  "edit": "the verifier is read with pubKey",
  "claim": "C77",
  "breaks": "signed session test"
 },
 {
  "id": "m344",
  "file": "Verif/Model/Interop.lean",
  "def": "AttachedSignOperation.Test",
  "old": "| some d => !d.isEmpty)",
  "new": "| some _ => true)",
  "edit": "empty message passes",
  "claim": "C77",
  "breaks": "attached test on the empty message"
 },
 {
  "id": "m345",
  "file": "Verif/Model/Interop.lean",
  "def": "AttachedSignOperation.Test",
  "old": "verifier.AttachedVerify P signature [] decoder with",
  "new": "verifier.AttachedVerify P signature [0] decoder with",
  "edit": "other nonce",
  "claim": "C77",
  "breaks": "attached test"
 },
 {
  "id": "m346",
  "file": "Verif/Model/Interop.lean",
  "def": "EncryptOperation.Generate",
  "old": "isText \"crypter\" then .crypter else .encrypter",
  "new": "isText \"crypter\" then .encrypter else .encrypter",
  "edit": "class option ignored",
  "claim": "C77",
  "breaks": "which class encrypts"
 },
 {
  "id": "m347",
  "file": "Verif/Model/Interop.lean",
  "def": "EncryptOperation.Test",
  "old": "assert ((← crypter.Decrypt P ciphertext decoder) = data)",
  "new": "assert ((← crypter.Decrypt P ciphertext decoder).length = data.length)",
  "edit": "only the length is compared",
  "claim": "C77",
  "breaks": "encrypt test passes iff the plaintext is the data",
  "tightened": [
   "C77_passes_encrypt"
  ]
 },
 {
  "id": "m348",
  "file": "Verif/Model/Interop.lean",
  "def": "operationOf",
  "old": "if name.isText \"unversioned\" then .ok .unversioned",
  "new": "if name.isText \"unversioned\" then .ok .sign",
  "edit": "unversioned runs the versioned operation",
  "claim": "C77",
  "breaks": "dispatch"
 },
 {
  "id": "m349",
  "file": "Verif/Model/Interop.lean",
  "def": "operationOf",
  "old": "else .error .keyError",
  "new": "else .ok .encrypt",
  "edit": "unknown operations encrypt",
  "claim": "C77",
  "breaks": "dispatch of unknown names",
  "tightened": [
   "C77_operation"
  ]
 },
 {
  "id": "m350",
  "file": "Verif/Model/Interop.lean",
  "def": "interopGenerate",
  "old": "return output ++ [10]",
  "new": "return output",
  "edit": "no line end",
  "claim": "C77",
  "breaks": "text printed"
 },
 {
  "id": "m351",
  "file": "Verif/Model/Interop.lean",
  "def": "interopTest",
  "old": "return bstr \"Test passes\\n\"",
  "new": "return bstr \"Test fails\\n\"",
  "edit": "wrong text",
  "claim": "C77",
  "breaks": "text printed"
 },
 {
  "id": "m352",
  "file": "Verif/Model/Interop.lean",
  "def": "interopCommands",
  "old": "mainAll P env.gen (env.cmd i) argv\n    interopCommands env (i + 1) t",
  "new": "mainAll P env.gen (env.cmd i) argv",
  "edit": "only the first command is run",
  "claim": "C77",
  "breaks": "create runs all commands"
 },
 {
  "id": "m353",
  "file": "Verif/Model/Interop.lean",
  "def": "interopMain",
  "old": "if 2 < argv.length then",
  "new": "if 1 < argv.length then",
  "edit": "two arguments refused",
  "claim": "C77",
  "breaks": "arguments of the harness"
 },
 {
  "id": "m354",
  "file": "Verif/Model/Interop.lean",
  "def": "interopMain",
  "old": "if !(← Cmd.lift (args.contains \"command\")) then Cmd.lift (.error .keyczarError)",
  "new": "if !(← Cmd.lift (args.contains \"command\")) then return []",
  "edit": "missing command is silently accepted",
  "claim": "C77",
  "breaks": "arguments of the harness",
  "tightened": [
   "C77_command"
  ]
 },
 {
  "id": "m355",
  "file": "Verif/Model/Interop.lean",
  "def": "interopMain",
  "old": "(← args.get \"generateOptions\") (← args.get \"testOptions\") (← args.get \"testData\")",
  "new": "(← args.get \"testOptions\") (← args.get \"testOptions\") (← args.get \"testData\")",
  "edit": "generate options taken from test options",
  "claim": "C77",
  "breaks": "dispatch of test"
 },
 {
  "id": "m356",
  "file": "Verif/Model/Json.lean",
  "def": "hexDigit",
  "old": "UInt8.ofNat (87 + n)",
  "new": "UInt8.ofNat (55 + n)",
  "edit": "upper case hex digits",
  "claim": "C78",
  "breaks": "text of dumps",
  "tightened": [
   "C78_text"
  ]
 },
 {
  "id": "m357",
  "file": "Verif/Model/Json.lean",
  "def": "dumpElems",
  "old": "dumps v ++ (44 :: 32 :: dumpElems (w :: t))",
  "new": "dumps v ++ (44 :: dumpElems (w :: t))",
  "edit": "no space after the comma",
  "claim": "C78",
  "breaks": "text of dumps",
  "extra_failed": [
   "Lemmas/Json.lean:parseVal_dumps"
  ]
 },
 {
  "id": "m358",
  "file": "Verif/Model/Json.lean",
  "def": "dumpStr",
  "old": "34 :: ((s.map escapeChar).flatten ++ [34])",
  "new": "39 :: ((s.map escapeChar).flatten ++ [39])",
  "edit": "single quotes",
  "claim": "C78",
  "breaks": "dumps then loads"
 },
 {
  "id": "m359",
  "file": "Verif/Model/Json.lean",
  "def": "isJsonWs",
  "old": "c = 32 || c = 9 || c = 10 || c = 13",
  "new": "c = 32 || c = 9 || c = 10",
  "edit": "carriage return is no white space",
  "claim": "C78",
  "breaks": "JSON texts in any layout"
 },
 {
  "id": "m360",
  "file": "Verif/Model/Json.lean",
  "def": "hexVal",
  "old": "else if 65 ≤ n ∧ n ≤ 70 then some (n - 55)\n",
  "new": "",
  "edit": "upper case hex digits are refused",
  "claim": "C78",
  "breaks": "JSON texts in any layout"
 },
 {
  "id": "m361",
  "file": "Verif/Model/Json.lean",
  "def": "scanStr",
  "old": "else if e = 47 then scanStr t ('/' :: acc)\n",
  "new": "",
  "edit": "escaped slash refused",
  "claim": "C78",
  "breaks": "JSON texts in any layout"
 },
 {
  "id": "m362",
  "file": "Verif/Model/Json.lean",
  "def": "numEnd",
  "old": ".error .unmodelled else .ok (.num n, rest)",
  "new": ".ok (.num n, rest) else .ok (.num n, rest)",
  "edit": "a fraction is extra data",
  "claim": "C78",
  "breaks": "floats"
 },
 {
  "id": "m363",
  "file": "Verif/Model/Json.lean",
  "def": "parseVal",
  "old": "if d = 125 then .ok (.obj [], u) else",
  "new": "",
  "edit": "empty object refused",
  "claim": "C78",
  "breaks": "JSON texts in any layout"
 },
 {
  "id": "m364",
  "file": "Verif/Model/Json.lean",
  "def": "parseElems",
  "old": "else if c = 93 then .ok (.arr (acc ++ [v]), t)",
  "new": "else if c = 93 ∨ c = 125 then .ok (.arr (acc ++ [v]), t)",
  "edit": "a list may end with a brace",
  "claim": "C78",
  "breaks": "texts that are no JSON are refused"
 },
 {
  "id": "m365",
  "file": "Verif/Model/Json.lean",
  "def": "parseMembers",
  "old": "if e = 44 then parseMembers fuel w (dictSet acc k v)",
  "new": "if e = 44 then parseMembers fuel w (if (dictGet acc k).isSome then acc else dictSet acc k v)",
  "edit": "the first of two equal names wins",
  "claim": "C78",
  "breaks": "repeated names in a JSON object"
 },
 {
  "id": "m366",
  "file": "Verif/Model/Json.lean",
  "def": "loads",
  "old": "| _ => .error .valueError",
  "new": "| _ => return v",
  "edit": "extra data is ignored",
  "claim": "C78",
  "breaks": "texts that are no JSON are refused"
 },
 {
  "id": "m367",
  "file": "Verif/Model/Json.lean",
  "def": "scanNat",
  "old": "if c = 48 then .ok (0, t)",
  "new": "if c = 48 then .ok (digitsVal (s.takeWhile isDigit), s.dropWhile isDigit)",
  "edit": "leading zeros allowed",
  "claim": "C78",
  "breaks": "texts that are no JSON are refused"
 },
 {
  "id": "m368",
  "file": "Verif/Model/Json.lean",
  "def": "scanStr",
  "old": "if c.toNat < 32 then .error .valueError\n    else",
  "new": "if false then .error .valueError\n    else",
  "edit": "control characters allowed in strings",
  "claim": "C78",
  "breaks": "texts that are no JSON are refused"
 },
 {
  "id": "m369",
  "file": "Verif/Model/Py.lean",
  "def": "PyErr.isKeyczarError",
  "old": "| .keyczarError | .badVersion _ | .base64Decoding",
  "new": "| .keyczarError | .indexError | .badVersion _ | .base64Decoding",
  "edit": "IndexError counted as KeyczarError",
  "claim": "C47",
  "breaks": "classification of exceptions",
  "tightened": [
   "C47_classes"
  ]
 },
 {
  "id": "m370",
  "file": "Verif/Model/Py.lean",
  "def": "PyErr.isKeyNotFoundError",
  "old": "| .keyNotFound | .noPrimaryKey => true\n",
  "new": "| .keyNotFound => true\n",
  "edit": "NoPrimaryKeyError is no KeyNotFoundError",
  "claim": "C47",
  "breaks": "classification of exceptions",
  "tightened": [
   "C47_classes"
  ]
 },
 {
  "id": "m371",
  "file": "Verif/Model/Py.lean",
  "def": "clampIdx",
  "old": "if i < 0 then (i + n).toNat else min i.toNat n",
  "new": "if i < 0 then 0 else min i.toNat n",
  "edit": "negative slice bounds are taken as 0",
  "claim": "C14",
  "breaks": "slices"
 },
 {
  "id": "m372",
  "file": "Verif/Model/Keyczar.lean",
  "def": "KeyVersion.json",
  "old": "Json.ofString v.status.name",
  "new": "Json.ofString KeyStatus.PRIMARY.name",
  "edit": "every status written as PRIMARY",
  "claim": "C35",
  "breaks": "metadata round trip"
 },
 {
  "id": "m373",
  "file": "Verif/Model/Keyczar.lean",
  "def": "KeyVersion.Read",
  "old": "| .num n => return ⟨n, s, e⟩",
  "new": "| .num n => return ⟨n, s, .bool false⟩",
  "edit": "exportable is dropped",
  "claim": "C35",
  "breaks": "metadata round trip"
 },
 {
  "id": "m374",
  "file": "Verif/Model/Keyczar.lean",
  "def": "Czar.InternalVerify",
  "old": "key.Verify P (data ++ n ++ VERSION_BYTE) signature",
  "new": "key.Verify P (data ++ n) signature",
  "edit": "version byte left out when verifying",
  "claim": "C42",
  "breaks": "sign then verify"
 },
 {
  "id": "m375",
  "file": "Verif/Model/Keyczar.lean",
  "def": "Czar.GetKeyByVersion",
  "old": "| none => .error .keyNotFound\n  | some o => match",
  "new": "| none => .error .noPrimaryKey\n  | some o => match",
  "edit": "missing primary raises NoPrimaryKeyError",
  "claim": "C24",
  "breaks": "no primary key"
 },
 {
  "id": "m376",
  "file": "Verif/Model/Keyczart.lean",
  "def": "ReadFile",
  "old": "| some b => .ok b\n  | none => .error .keyczarError",
  "new": "| some b => .ok b\n  | none => .ok []",
  "edit": "a missing file reads as empty",
  "claim": "C32",
  "breaks": "sets with missing key files do not load",
  "extra_failed": [
   "Props/History.lean:Holds.meta_exists"
  ]
 },
 {
  "id": "m377",
  "file": "Verif/Model/Keyczart.lean",
  "def": "CreateReader",
  "old": "| some d => .ok (FileReader d)\n  | none => .error .keyczarError",
  "new": "| some d => .ok (FileReader d)\n  | none => .ok (FileReader fun _ => none)",
  "edit": "a missing directory is an empty set",
  "claim": "C71",
  "breaks": "missing location"
 },
 {
  "id": "m378",
  "file": "Verif/Model/Keyczart.lean",
  "def": "CreateWriter",
  "old": "if (fs l).isSome then .ok l else .error .keyczarError",
  "new": ".ok l",
  "edit": "a missing directory is accepted for writing",
  "claim": "C71",
  "breaks": "missing location"
 },
 {
  "id": "m379",
  "file": "Verif/Model/Keyczart.lean",
  "def": "nameOf",
  "old": ".ok (Json.ofBytes b)",
  "new": ".ok (Json.ofBytes (b.filter (· ≠ 32)))",
  "edit": "spaces dropped from names",
  "claim": "C60",
  "breaks": "create stores the name"
 },
 {
  "id": "m380",
  "file": "Verif/Model/Keyczart.lean",
  "def": "isSpaceByte",
  "old": "c = 32 || (9 ≤ c && c ≤ 13)",
  "new": "c = 32",
  "edit": "only blanks are stripped from numbers",
  "claim": "C60",
  "breaks": "number flags"
 },
 {
  "id": "m381",
  "file": "Verif/Model/GenKey.lean",
  "def": "Clean",
  "old": "removeFiles l (ls d)",
  "new": "removeFiles l ((ls d).drop 1)",
  "edit": "the first file is left",
  "claim": "C70",
  "breaks": "genkey starts from empty directories"
 },
 {
  "id": "m382",
  "file": "Verif/Model/GenKey.lean",
  "def": "rowCrypter",
  "old": "return some cr",
  "new": "return none",
  "edit": "crypter not used",
  "claim": "C70",
  "breaks": "genkey encrypts the sets it should"
 },
 {
  "id": "m383",
  "file": "Verif/Model/GenKey.lean",
  "def": "genRows",
  "old": "genRow P env loc row\n    genRows env loc t",
  "new": "genRow P env loc row",
  "edit": "only the first row",
  "claim": "C70",
  "breaks": "genkey makes all sets"
 },
 {
  "id": "m384",
  "file": "Verif/Model/GenKey.lean",
  "def": "mainAll",
  "old": "| .genkey => GenKeySet P genEnv (assocGet fl .location)",
  "new": "| .genkey => GenKeySet P genEnv (assocGet fl .destination)",
  "edit": "wrong flag",
  "claim": "C70",
  "breaks": "genkey on the command line"
 },
 {
  "id": "m385",
  "file": "Verif/Model/Keys.lean",
  "def": "HmacKey.str",
  "old": "[(\"size\", .num k.size), (\"hmacKeyString\"",
  "new": "[(\"size\", .num 256), (\"hmacKeyString\"",
  "edit": "size always 256",
  "claim": "C34",
  "breaks": "key serialisation"
 },
 {
  "id": "m386",
  "file": "Verif/Model/Keys.lean",
  "def": "AesKey.str",
  "old": "CipherMode.CBC.name",
  "new": "CipherMode.CTR.name",
  "edit": "mode written as CTR",
  "claim": "C34",
  "breaks": "key serialisation"
 },
 {
  "id": "m387",
  "file": "Verif/Model/Keys.lean",
  "def": "DsaPrivateKey.str",
  "old": "(\"x\", jb64 k.x)",
  "new": "(\"x\", jb64 k.pub.y)",
  "edit": "x replaced by y",
  "claim": "C34",
  "breaks": "key serialisation"
 },
 {
  "id": "m388",
  "file": "Verif/Model/Keys.lean",
  "def": "Key.Header",
  "old": "Py Bytes := do headerOf (← k.hashId P)",
  "new": "Py Bytes := do return (← headerOf (← k.hashId P)).reverse",
  "edit": "header reversed",
  "claim": "C21",
  "breaks": "header layout"
 },
 {
  "id": "m389",
  "file": "Verif/Model/Keys.lean",
  "def": "HmacKey.hashId",
  "old": "Base64WSEncode ((Hash P [kb]).take KEY_HASH_SIZE)",
  "new": "Base64WSEncode ((PrefixHash P [kb]).take KEY_HASH_SIZE)",
  "edit": "length prefixed hash",
  "claim": "C21",
  "breaks": "identifier of HMAC keys"
 },
 {
  "id": "m390",
  "file": "Verif/Model/Keys.lean",
  "def": "oaepEncode",
  "old": "if (msg.length : Int) > (k : Int) - 2 * HLEN - 2 then",
  "new": "if (msg.length : Int) > (k : Int) - 2 * HLEN - 1 then",
  "edit": "one byte too many allowed",
  "claim": "C48",
  "breaks": "limit of RSA plaintexts"
 },
 {
  "id": "m391",
  "file": "Verif/Model/Keys.lean",
  "def": "oaepDecode",
  "old": "| [] => .error .indexError",
  "new": "| [] => .error .keyczarError",
  "edit": "an empty data block is a KeyczarError",
  "claim": "C74",
  "breaks": "what RSA decryption raises"
 },
 {
  "id": "m392",
  "file": "Verif/Model/Keys.lean",
  "def": "oaepDecode",
  "old": "if diffLen > 1 then List.replicate (diffLen - 1).toNat 0 ++ encoded else encoded",
  "new": "encoded",
  "edit": "lost leading zeros are not restored",
  "claim": "C48",
  "breaks": "OAEP round trip"
 },
 {
  "id": "m393",
  "file": "Verif/Model/M2Crypto.lean",
  "def": "EvpCtx.final",
  "old": "if c.buf = [] then .ok [] else .error .valueError",
  "new": ".ok c.buf",
  "edit": "an incomplete block is passed through",
  "claim": "C66",
  "breaks": "M2Crypto adaptor"
 },
 {
  "id": "m394",
  "file": "Verif/Model/M2Crypto.lean",
  "def": "EvpAdaptor.cipher",
  "old": "| .encrypt, _, some c => .ok c",
  "new": "| .encrypt, some c, _ => .ok c",
  "edit": "the decrypting context is used for encryption",
  "claim": "C66",
  "breaks": "M2Crypto adaptor"
 },
 {
  "id": "m395",
  "file": "Verif/Model/M2Crypto.lean",
  "def": "EvpAdaptor.decrypt",
  "old": "{ a with dec := some (c.update P s).2 }",
  "new": "{ a with enc := some (c.update P s).2 }",
  "edit": "context kept in the wrong field",
  "claim": "C66",
  "breaks": "M2Crypto adaptor"
 },
 {
  "id": "m396",
  "file": "Verif/Model/PyCrypto.lean",
  "def": "powMod",
  "old": "if e % 2 = 1 then a * h % n else h",
  "new": "if e % 2 = 1 then h else h",
  "edit": "odd exponents",
  "claim": "C49",
  "breaks": "RSA arithmetic"
 },
 {
  "id": "m397",
  "file": "Verif/Model/PyCrypto.lean",
  "def": "RsaObj.decrypt",
  "old": "longToBytes (← k.decryptInt P (BytesToLong data))",
  "new": "PadBytes (longToBytes (← k.decryptInt P (BytesToLong data))) 1",
  "edit": "padded result",
  "claim": "C48",
  "breaks": "RSA round trip"
 },
 {
  "id": "m398",
  "file": "Verif/Model/Session.lean",
  "def": "SignedSessionDecrypter.new",
  "old": "Session.LoadJsonSession (← crypter.Decrypt P material (some Base64WSDecode))",
  "new": "Session.LoadJsonSession (← crypter.Decrypt P material none)",
  "edit": "material not decoded",
  "claim": "C54",
  "breaks": "signed session round trip"
 },
 {
  "id": "m399",
  "file": "Verif/Model/Session.lean",
  "def": "Session.packedKey",
  "old": "PackMultipleByteArrays [kb, hb]",
  "new": "PackMultipleByteArrays [hb, kb]",
  "edit": "keys exchanged",
  "claim": "C53",
  "breaks": "session round trip"
 },
 {
  "id": "m400",
  "file": "Verif/Model/Streams.lean",
  "def": "b64Satisfied",
  "old": "if size < 0 then charbuffer ≠ [] else",
  "new": "if size < 0 then true else",
  "edit": "a read without size may return nothing",
  "claim": "C05",
  "breaks": "Base64 reader"
 },
 {
  "id": "m401",
  "file": "Verif/Model/Streams.lean",
  "def": "B64Writer.close",
  "old": "(.error .attributeError, w.flush S)",
  "new": "(.ok (), w.flush S)",
  "edit": "close succeeds",
  "claim": "C04",
  "breaks": "closing the Base64 writer"
 },
 {
  "id": "m402",
  "file": "Verif/Model/Streams.lean",
  "def": "b64DecoderFlush",
  "old": "| .error e => (.error e, buffer)",
  "new": "| .error e => (.error e, [])",
  "edit": "the buffer is dropped on an error",
  "claim": "C05",
  "breaks": "Base64 reader after an error",
  "tightened": [
   "C05_truncated"
  ]
 },
 {
  "id": "m403",
  "file": "Verif/Model/Streams.lean",
  "def": "DecReader.body",
  "old": "if data = [] then (.ok avail, r)",
  "new": "if data = [] then (.ok true, r)",
  "edit": "end not reported",
  "claim": "C57",
  "breaks": "decrypting stream ends"
 },
 {
  "id": "m404",
  "file": "Verif/Model/Der.lean",
  "def": "derIntValue",
  "old": "if c.toNat ≥ 128 then -(BytesToLong (b.map (~~~ ·)) : Int) - 1 else (BytesToLong b : Int)",
  "new": "(BytesToLong b : Int)",
  "edit": "integers unsigned",
  "claim": "C12",
  "breaks": "DER integers"
 },
 {
  "id": "m405",
  "file": "Verif/Model/Der.lean",
  "def": "derDecode",
  "old": "if rest.length < len then .error .pyasn1Error",
  "new": "if rest.length < len then .ok (.null, [])",
  "edit": "truncated content accepted",
  "claim": "C80",
  "breaks": "malformed DSA signatures"
 },
 {
  "id": "m406",
  "file": "Verif/Model/Der.lean",
  "def": "DSA_OID",
  "old": "0x38, 0x04, 0x01]",
  "new": "0x38, 0x04, 0x03]",
  "edit": "OID of DSA with SHA-1",
  "claim": "C63",
  "breaks": "PKCS8 text"
 },
 {
  "id": "m407",
  "file": "Verif/Model/Der.lean",
  "def": "derEncode",
  "old": "| .bits b => derTLV 0x03 (0 :: b)",
  "new": "| .bits b => derTLV 0x03 b",
  "edit": "unused bits octet left out",
  "claim": "C63",
  "breaks": "X.509 text"
 },
 {
  "id": "m408",
  "file": "Verif/Model/Backends.lean",
  "def": "FileReader.backend",
  "old": ".ok ((fs l).map FileReader)",
  "new": ".ok (some (FileReader ((fs l).getD fun _ => none)))",
  "edit": "the file backend serves every location",
  "claim": "C71",
  "breaks": "which backend serves a location"
 },
 {
  "id": "m409",
  "file": "Verif/Model/Backends.lean",
  "def": "silentBackend",
  "old": "fun _ _ => .ok none",
  "new": "fun _ _ => .error .keyczarError",
  "edit": "the abstract reader refuses",
  "claim": "C71",
  "breaks": "which backend serves a location"
 },
 {
  "id": "m410",
  "file": "Verif/Model/Backends.lean",
  "def": "dotPy",
  "old": "[46, 112, 121]",
  "new": "[46, 112]",
  "edit": "wrong suffix",
  "claim": "C71",
  "breaks": "which modules are plugins"
 },
 {
  "id": "m411",
  "file": "Verif/Model/Backends.lean",
  "def": "PathEntry.has",
  "old": "| _ => false",
  "new": "| _ => true",
  "edit": "every module found",
  "claim": "C71",
  "breaks": "plugin search",
  "tightened": [
   "C71_from_directory"
  ]
 },
 {
  "id": "m412",
  "file": "Verif/Model/Util.lean",
  "def": "BytesToBin",
  "old": "(s.map fun b => PadByte (IntToBin b.toNat)).flatten",
  "new": "(s.map fun b => IntToBin b.toNat).flatten",
  "edit": "bits not padded",
  "claim": "C11",
  "breaks": "bit strings"
 },
 {
  "id": "m414",
  "file": "Verif/Model/Base64.lean",
  "def": "findValid",
  "old": "| none => findValid s num",
  "new": "| none => findValid s (num - 1)",
  "edit": "foreign characters are counted",
  "claim": "C03",
  "breaks": "Base64 padding",
  "tightened": [
   "C03_foreign"
  ]
 },
 {
  "id": "m415",
  "file": "Verif/Model/KeyInfo.lean",
  "def": "KeyType.sizes",
  "old": "[128, 192, 256]",
  "new": "[256, 192, 128]",
  "edit": "default AES size 256",
  "claim": "C53",
  "breaks": "default sizes",
  "more": []
 },
 {
  "id": "m416",
  "file": "Verif/Model/KeyInfo.lean",
  "def": "KeyType.sizes",
  "old": "[2048, 4096, 1024, 768, 512]",
  "new": "[4096, 2048, 1024, 768, 512]",
  "edit": "default RSA size 4096",
  "claim": "C70",
  "breaks": "default sizes",
  "more": []
 },
 {
  "id": "m417",
  "file": "Verif/Model/Util.lean",
  "def": "structPackI, structUnpackI",
  "old": ".ok (IntToBytes n) else",
  "new": ".ok (IntToBytes n).reverse else",
  "edit": "lengths little-endian in both directions",
  "claim": "C06",
  "breaks": "layout of packed arrays",
  "more": [
   [
    "| [a, b, c, e] =>",
    "| [e, c, b, a] =>"
   ]
  ],
  "tightened": [
   "C06_format"
  ]
 },
 {
  "id": "m418",
  "file": "Verif/Model/Keyczar.lean",
  "def": "InternalSign, InternalVerify",
  "old": "key.Verify P (data ++ n ++ VERSION_BYTE) signature",
  "new": "key.Verify P (data ++ n) signature",
  "edit": "no version byte in the signed text, on both sides",
  "claim": "C42",
  "breaks": "what is signed",
  "more": [
   [
    "key.Sign P rnd (data ++ n ++ VERSION_BYTE)",
    "key.Sign P rnd (data ++ n)"
   ]
  ]
 },
 {
  "id": "m419",
  "file": "Verif/Model/Keyczar.lean",
  "def": "InternalSign, InternalVerify",
  "old": "key.Verify P (data ++ n ++ VERSION_BYTE) signature",
  "new": "key.Verify P (n ++ data ++ VERSION_BYTE) signature",
  "edit": "nonce before the data, on both sides",
  "claim": "C44",
  "breaks": "what is signed",
  "more": [
   [
    "key.Sign P rnd (data ++ n ++ VERSION_BYTE)",
    "key.Sign P rnd (n ++ data ++ VERSION_BYTE)"
   ]
  ]
 },
 {
  "id": "m420",
  "file": "Verif/Model/Prims.lean",
  "def": "VERSION",
  "old": "def VERSION : Nat := 0",
  "new": "def VERSION : Nat := 1",
  "edit": "format version 1",
  "claim": "C22",
  "breaks": "header layout",
  "more": []
 },
 {
  "id": "m421",
  "file": "Verif/Model/Prims.lean",
  "def": "VERSION_BYTE",
  "old": "def VERSION_BYTE : Bytes := [0]",
  "new": "def VERSION_BYTE : Bytes := [1]",
  "edit": "version byte 1 in signed text",
  "claim": "C42",
  "breaks": "what is signed",
  "more": []
 },
 {
  "id": "m422",
  "file": "Verif/Model/Prims.lean",
  "def": "KEY_HASH_SIZE",
  "old": "def KEY_HASH_SIZE : Nat := 4",
  "new": "def KEY_HASH_SIZE : Nat := 5",
  "edit": "identifiers of five bytes",
  "claim": "C22",
  "breaks": "header layout",
  "more": []
 },
 {
  "id": "m423",
  "file": "Verif/Model/Keys.lean",
  "def": "AesKey.hashId",
  "old": "Hash P [IntToBytes kb.length, kb, hb]",
  "new": "Hash P [kb, hb]",
  "edit": "length left out of the identifier",
  "claim": "C21",
  "breaks": "identifier of AES keys",
  "more": []
 },
 {
  "id": "m424",
  "file": "Verif/Model/Util.lean",
  "def": "PrefixHash",
  "old": "(inputs.map fun i => IntToBytes i.length ++ i).flatten",
  "new": "inputs.flatten",
  "edit": "lengths left out of the identifier",
  "claim": "C21",
  "breaks": "identifier of RSA and DSA keys",
  "more": []
 },
 {
  "id": "m425",
  "file": "Verif/Model/Keys.lean",
  "def": "AesKey.Encrypt, Decrypt",
  "old": "let sig ← k.hmacKey.Sign P msg",
  "new": "let sig ← k.hmacKey.Sign P (iv ++ ciph)",
  "edit": "header not authenticated, on both sides",
  "claim": "C15",
  "breaks": "layout of ciphertexts",
  "more": [
   [
    "k.hmacKey.Verify P (sliceTo input (-(HLEN : Int))) sig",
    "k.hmacKey.Verify P (sliceTo data (-(HLEN : Int))) sig"
   ]
  ]
 },
 {
  "id": "m426",
  "file": "Verif/Model/Keys.lean",
  "def": "aesPad, aesUnPad",
  "old": "data ++ List.replicate pad (UInt8.ofNat pad)",
  "new": "data ++ List.replicate pad (UInt8.ofNat (pad - 1))",
  "edit": "padding bytes one less, on both sides",
  "claim": "C14",
  "breaks": "PKCS5",
  "more": [
   [
    ".ok (sliceTo padded (-(c.toNat : Int)))",
    ".ok (sliceTo padded (-(c.toNat + 1 : Int)))"
   ]
  ]
 },
 {
  "id": "m427",
  "file": "Verif/Model/Util.lean",
  "def": "MGF",
  "old": "fun i => Hash P [seed, IntToBytes i]",
  "new": "fun i => Hash P [seed, IntToBytes (i + 1)]",
  "edit": "counter starts at 1",
  "claim": "C52",
  "breaks": "MGF1",
  "more": []
 },
 {
  "id": "m428",
  "file": "Verif/Model/Util.lean",
  "def": "MGF",
  "old": "fun i => Hash P [seed, IntToBytes i]",
  "new": "fun i => Hash P [IntToBytes i, seed]",
  "edit": "counter before the seed",
  "claim": "C52",
  "breaks": "MGF1",
  "more": []
 },
 {
  "id": "m429",
  "file": "Verif/Model/Keys.lean",
  "def": "oaepEncode, oaepDecode",
  "old": "let labelHash := Hash P [[]]",
  "new": "let labelHash := Hash P [[0]]",
  "edit": "hash of another label, on both sides",
  "claim": "C48",
  "breaks": "OAEP",
  "more": [
   [
    "if labelHash ≠ Hash P [[]] then",
    "if labelHash ≠ Hash P [[0]] then"
   ]
  ]
 },
 {
  "id": "m430",
  "file": "Verif/Model/Keys.lean",
  "def": "oaepEncode, oaepDecode",
  "old": "List.replicate padOctets 0 ++ [1] ++ msg",
  "new": "List.replicate padOctets 0 ++ [2] ++ msg",
  "edit": "separator 2, on both sides",
  "claim": "C48",
  "breaks": "OAEP",
  "more": [
   [
    "if c ≠ 1 then .error .keyczarError else .ok msg",
    "if c ≠ 2 then .error .keyczarError else .ok msg"
   ]
  ]
 },
 {
  "id": "m431",
  "file": "Verif/Model/Util.lean",
  "def": "MakeEmsaMessage",
  "old": ".toNat 0xFF",
  "new": ".toNat 0xFE",
  "edit": "padding FE",
  "claim": "C50",
  "breaks": "EMSA-PKCS1",
  "more": []
 },
 {
  "id": "m432",
  "file": "Verif/Model/Util.lean",
  "def": "MakeEmsaMessage",
  "old": "[1] ++ padString ++ [0] ++ encoded",
  "new": "[2] ++ padString ++ [0] ++ encoded",
  "edit": "block type 2",
  "claim": "C50",
  "breaks": "EMSA-PKCS1",
  "more": []
 },
 {
  "id": "m433",
  "file": "Verif/Model/Util.lean",
  "def": "magicSha1Header",
  "old": "0x2b, 0xe, 0x3, 0x2, 0x1a",
  "new": "0x2b, 0xe, 0x3, 0x2, 0x1b",
  "edit": "another digest identifier",
  "claim": "C50",
  "breaks": "EMSA-PKCS1",
  "more": []
 },
 {
  "id": "m434",
  "file": "Verif/Model/Keys.lean",
  "def": "DsaPrivateKey.Sign, DsaPublicKey.Verify",
  "old": "key.key.sign (Hash P [msg]) k",
  "new": "key.key.sign (Hash P [Hash P [msg]]) k",
  "edit": "message hashed twice, on both sides",
  "claim": "C51",
  "breaks": "DSA with SHA-1",
  "more": [
   [
    "key.key.verify (Hash P [msg]) r s",
    "key.key.verify (Hash P [Hash P [msg]]) r s"
   ]
  ],
  "tightened": [
   "C80_key_accepts",
   "C80_accepts"
  ]
 },
 {
  "id": "m435",
  "file": "Verif/Model/Der.lean",
  "def": "MakeDsaSig, ParseDsaSig",
  "old": "derEncode (.seq [.integer r, .integer s])",
  "new": "derEncode (.seq [.integer s, .integer r])",
  "edit": "components exchanged, on both sides",
  "claim": "C12",
  "breaks": "DSA signature encoding",
  "more": [
   [
    "| [.integer r, .integer s] => .ok (r, s)",
    "| [.integer s, .integer r] => .ok (r, s)"
   ]
  ],
  "tightened": [
   "C80_parses",
   "C80_makes"
  ]
 },
 {
  "id": "m436",
  "file": "Verif/Model/Session.lean",
  "def": "Session.packedKey, LoadPackedKey",
  "old": "PackMultipleByteArrays [kb, hb]",
  "new": "PackMultipleByteArrays [hb, kb]",
  "edit": "HMAC key first, on both sides",
  "claim": "C53",
  "breaks": "layout of session material",
  "more": [
   [
    "| [kb, hb] =>",
    "| [hb, kb] =>"
   ]
  ]
 },
 {
  "id": "m437",
  "file": "Verif/Model/Session.lean",
  "def": "Session.json, LoadJsonSession",
  "old": "(\"nonce\", jb64 n)",
  "new": "(\"Nonce\", jb64 n)",
  "edit": "another field name, on both sides",
  "claim": "C54",
  "breaks": "layout of session material",
  "more": [
   [
    "getB64 d \"nonce\"",
    "getB64 d \"Nonce\""
   ]
  ]
 },
 {
  "id": "m438",
  "file": "Verif/Model/Session.lean",
  "def": "SESSION_NONCE_SIZE",
  "old": "def SESSION_NONCE_SIZE : Nat := 16",
  "new": "def SESSION_NONCE_SIZE : Nat := 1",
  "edit": "nonce of one byte",
  "claim": "C54",
  "breaks": "length of the nonce",
  "more": []
 },
 {
  "id": "m439",
  "file": "Verif/Model/Keyczar.lean",
  "def": "KeyVersion.json, Read",
  "old": "(\"versionNumber\", .num v.num)",
  "new": "(\"version\", .num v.num)",
  "edit": "another field name, on both sides",
  "claim": "C35",
  "breaks": "metadata format",
  "more": [
   [
    "j.get \"versionNumber\"",
    "j.get \"version\""
   ]
  ]
 },
 {
  "id": "m440",
  "file": "Verif/Model/Keyczar.lean",
  "def": "KeyVersion.json, Read",
  "old": "(\"exportable\", v.exportable)",
  "new": "(\"export\", v.exportable)",
  "edit": "another field name, on both sides",
  "claim": "C35",
  "breaks": "metadata format",
  "more": [
   [
    "j.get \"exportable\"",
    "j.get \"export\""
   ]
  ]
 },
 {
  "id": "m441",
  "file": "Verif/Model/Keyczar.lean",
  "def": "KeyMetadata.str, Read",
  "old": "(\"encrypted\", kmd.encrypted)",
  "new": "(\"crypted\", kmd.encrypted)",
  "edit": "another field name, on both sides",
  "claim": "C35",
  "breaks": "metadata format",
  "more": [
   [
    "m.get \"encrypted\"",
    "m.get \"crypted\""
   ]
  ]
 },
 {
  "id": "m442",
  "file": "Verif/Model/Keys.lean",
  "def": "AesKey.str, Read",
  "old": "(\"aesKeyString\", Json.ofBytes k.keyString)",
  "new": "(\"keyString\", Json.ofBytes k.keyString)",
  "edit": "another field name, on both sides",
  "claim": "C34",
  "breaks": "key file format",
  "more": [
   [
    "aes.get \"aesKeyString\"",
    "aes.get \"keyString\""
   ]
  ]
 },
 {
  "id": "m443",
  "file": "Verif/Model/Keys.lean",
  "def": "HmacKey.str, Read",
  "old": "(\"hmacKeyString\", Json.ofBytes k.keyString)",
  "new": "(\"keyString\", Json.ofBytes k.keyString)",
  "edit": "another field name, on both sides",
  "claim": "C34",
  "breaks": "key file format",
  "more": [
   [
    "mac.get \"hmacKeyString\"",
    "mac.get \"keyString\""
   ]
  ]
 },
 {
  "id": "m444",
  "file": "Verif/Model/Keys.lean",
  "def": "RsaPrivateKey.str, Read",
  "old": "(\"primeP\", jb64 k.primeP), (\"primeQ\", jb64 k.primeQ)",
  "new": "(\"primeQ\", jb64 k.primeP), (\"primeP\", jb64 k.primeQ)",
  "edit": "field names exchanged, on both sides",
  "claim": "C34",
  "breaks": "key file format",
  "more": [
   [
    "getB64 rsa \"primeP\"",
    "getB64 rsa \"primeX\""
   ],
   [
    "getB64 rsa \"primeQ\"",
    "getB64 rsa \"primeP\""
   ],
   [
    "getB64 rsa \"primeX\"",
    "getB64 rsa \"primeQ\""
   ]
  ]
 },
 {
  "id": "m445",
  "file": "Verif/Model/Keys.lean",
  "def": "DsaPublicKey.str, Read",
  "old": "(\"p\", jb64 k.p), (\"q\", jb64 k.q)",
  "new": "(\"q\", jb64 k.p), (\"p\", jb64 k.q)",
  "edit": "field names exchanged, on both sides",
  "claim": "C34",
  "breaks": "key file format",
  "more": [
   [
    "getB64 dsa \"p\"",
    "getB64 dsa \"X\""
   ],
   [
    "getB64 dsa \"q\"",
    "getB64 dsa \"p\""
   ],
   [
    "getB64 dsa \"X\"",
    "getB64 dsa \"q\""
   ]
  ]
 },
 {
  "id": "m446",
  "file": "Verif/Model/Base64.lean",
  "def": "trEnc, trDec",
  "old": "if c = 43 then 45 else if c = 47 then 95 else c",
  "new": "if c = 43 then 95 else if c = 47 then 45 else c",
  "edit": "the two web safe characters exchanged, on both sides",
  "claim": "C02",
  "breaks": "alphabet",
  "more": [
   [
    "if c = 45 then 43 else if c = 95 then 47 else c",
    "if c = 45 then 47 else if c = 95 then 43 else c"
   ]
  ]
 },
 {
  "id": "m447",
  "file": "Verif/Model/Base64.lean",
  "def": "trEnc, trDec",
  "old": "if c = 43 then 45 else if c = 47 then 95 else c",
  "new": "if c = 43 then 45 else if c = 47 then 46 else c",
  "edit": "dot for slash, on both sides",
  "claim": "C02",
  "breaks": "alphabet",
  "more": [
   [
    "if c = 45 then 43 else if c = 95 then 47 else c",
    "if c = 45 then 43 else if c = 46 then 47 else c"
   ]
  ]
 },
 {
  "id": "m448",
  "file": "Verif/Model/Keyczar.lean",
  "def": "AttachedSign, AttachedVerify",
  "old": "signature data (some nonce)) then return some data",
  "new": "signature data none) then return some data",
  "edit": "nonce not signed, on both sides",
  "claim": "C44",
  "breaks": "nonce is bound",
  "more": [
   [
    "c.InternalSign P rnd data (some nonce)",
    "c.InternalSign P rnd data none"
   ]
  ]
 },
 {
  "id": "m449",
  "file": "Verif/Model/Keyczar.lean",
  "def": "UnversionedSign, UnversionedVerify",
  "old": "verifyAny P data sigBytes",
  "new": "verifyAny P (data ++ VERSION_BYTE) sigBytes",
  "edit": "version byte signed, on both sides",
  "claim": "C46",
  "breaks": "what is signed",
  "more": [
   [
    "let signature ← key.Sign P rnd data\n",
    "let signature ← key.Sign P rnd (data ++ VERSION_BYTE)\n"
   ]
  ]
 },
 {
  "id": "m450",
  "file": "Verif/Model/Keyczart.lean",
  "def": "FileReader, writeKeys",
  "old": "GetKey := fun n => ReadFile d (.key n)",
  "new": "GetKey := fun n => ReadFile d (.key (n + 1))",
  "edit": "key files numbered from two, in reader and writer",
  "claim": "C33",
  "breaks": "file names",
  "more": [
   [
    "WriteKey P l key (c.heap.obj o).num encrypter",
    "WriteKey P l key ((c.heap.obj o).num + 1) encrypter"
   ],
   [
    "RemoveFile w (.key num)",
    "RemoveFile w (.key (num + 1))"
   ],
   [
    "WriteFile text dest (.key (c.heap.obj o).num)",
    "WriteFile text dest (.key ((c.heap.obj o).num + 1))"
   ]
  ]
 },
 {
  "id": "m451",
  "file": "Verif/Model/Keyczart.lean",
  "def": "FileReader, WriteMetadata",
  "old": "GetMetadata := ReadFile d .metaFile",
  "new": "GetMetadata := ReadFile d (.key 0)",
  "edit": "metadata in the file 0, in reader and writer",
  "claim": "C33",
  "breaks": "file names",
  "more": [
   [
    "((fs l).bind fun d => d .metaFile).isSome",
    "((fs l).bind fun d => d (.key 0)).isSome"
   ],
   [
    "WriteFile (← Cmd.lift (kmd.str h)) l .metaFile",
    "WriteFile (← Cmd.lift (kmd.str h)) l (.key 0)"
   ],
   [
    "WriteFile text dest .metaFile",
    "WriteFile text dest (.key 0)"
   ]
  ]
 },
 {
  "id": "m452",
  "file": "Verif/Model/Keyczart.lean",
  "def": "WriteKey",
  "old": "(c.Encrypt P rnd text (some Base64WSEncode))",
  "new": "(c.Encrypt P rnd text none)",
  "edit": "key files not encoded, in reader and writer",
  "claim": "C37",
  "breaks": "encrypted key files",
  "more": [
   [
    "Verif/Model/Keyczar.lean",
    "crypter.Decrypt P (← r.GetKey n) (some Base64WSDecode)",
    "crypter.Decrypt P (← r.GetKey n) none"
   ]
  ]
 },
 {
  "id": "m453",
  "file": "Verif/Model/Keys.lean",
  "def": "DsaPublicKey.hashId",
  "old": "TrimBytes k.p, TrimBytes k.q, TrimBytes k.g",
  "new": "TrimBytes k.q, TrimBytes k.p, TrimBytes k.g",
  "edit": "order of the parameters in the identifier",
  "claim": "C21",
  "breaks": "identifier of DSA keys",
  "more": []
 },
 {
  "id": "m454",
  "file": "Verif/Model/Util.lean",
  "def": "TrimBytes",
  "old": "if trimmed = [] then [0] else trimmed",
  "new": "if trimmed = [] then [] else trimmed",
  "edit": "zero is the empty string",
  "claim": "C09",
  "breaks": "canonical form",
  "more": []
 },
 {
  "id": "m455",
  "file": "Verif/Model/Prims.lean",
  "def": "hmacSha1",
  "old": "P.sha1 (k.map (· ^^^ 0x5c) ++ P.sha1 (k.map (· ^^^ 0x36) ++ msg))",
  "new": "P.sha1 (k.map (· ^^^ 0x36) ++ P.sha1 (k.map (· ^^^ 0x5c) ++ msg))",
  "edit": "pads exchanged",
  "claim": "C13",
  "breaks": "HMAC of RFC 2104",
  "more": []
 },
 {
  "id": "m456",
  "file": "Verif/Model/Prims.lean",
  "def": "hmacSha1",
  "old": "let k := if key.length > 64 then P.sha1 key else key",
  "new": "let k := if key.length > 64 then key.take 64 else key",
  "edit": "long keys are cut instead of hashed",
  "claim": "C13",
  "breaks": "HMAC of RFC 2104",
  "more": []
 },
 {
  "id": "m457",
  "file": "Verif/Model/Prims.lean",
  "def": "cbcEncBlocks, cbcDecBlocks",
  "old": "let c := P.aesEnc key (xorBytes b iv)\n    c :: cbcEncBlocks key c bs",
  "new": "let c := P.aesEnc key (xorBytes b iv)\n    c :: cbcEncBlocks key iv bs",
  "edit": "no chaining, on both sides",
  "claim": "C15",
  "breaks": "CBC",
  "more": [
   [
    "xorBytes (P.aesDec key c) iv :: cbcDecBlocks key c cs",
    "xorBytes (P.aesDec key c) iv :: cbcDecBlocks key iv cs"
   ]
  ]
 },
 {
  "id": "m458",
  "file": "Verif/Model/Sha1.lean",
  "def": "fk",
  "old": "0x8f1bbcdc",
  "new": "0x8f1bbcdd",
  "edit": "one bit of a constant",
  "claim": "C87",
  "breaks": "SHA-1",
  "more": []
 },
 {
  "id": "m459",
  "file": "Verif/Model/Aes.lean",
  "def": "sbox, invSbox",
  "old": "[99, 124, 119, 123,",
  "new": "[124, 99, 119, 123,",
  "edit": "two entries exchanged, in both tables",
  "claim": "C87",
  "breaks": "AES",
  "more": [
   [
    "144, 216, 171, 0,",
    "144, 216, 171, 1,"
   ],
   [
    "175, 189, 3, 1, 19,",
    "175, 189, 3, 0, 19,"
   ]
  ],
  "tightened": [
   "C87_sbox",
   "C87_aes"
  ]
 },
 {
  "id": "m460",
  "file": "Verif/Model/Aes.lean",
  "def": "expand",
  "old": "(rcon, 0, 0, 0)",
  "new": "(0, 0, 0, 0)",
  "edit": "round constants left out",
  "claim": "C87",
  "breaks": "AES",
  "more": [],
  "tightened": [
   "C87_sbox",
   "C87_aes"
  ]
 },
 {
  "id": "m461",
  "file": "Verif/Model/Der.lean",
  "def": "ExportPkcs8, ParsePkcs8",
  "old": "[0x2a, 0x86, 0x48, 0x86, 0xf7, 0x0d, 0x01, 0x01, 0x01]",
  "new": "[0x2a, 0x86, 0x48, 0x86, 0xf7, 0x0d, 0x01, 0x01, 0x02]",
  "edit": "another object identifier",
  "claim": "C63",
  "breaks": "PKCS8 format",
  "more": []
 },
 {
  "id": "m462",
  "file": "Verif/Model/Der.lean",
  "def": "ExportPkcs8, ParsePkcs8",
  "old": "[0, n, e, d, p, q, dp, dq, invq].map",
  "new": "[0, n, e, d, q, p, dp, dq, invq].map",
  "edit": "primes exchanged, on both sides",
  "claim": "C63",
  "breaks": "PKCS8 format",
  "more": [
   [
    "ver :: n :: e :: d :: p :: q :: dp",
    "ver :: n :: e :: d :: q :: p :: dp"
   ]
  ]
 },
 {
  "id": "m463",
  "file": "Verif/Model/Der.lean",
  "def": "derEncode, derDecode",
  "old": "| .octets b => derTLV 0x04 b",
  "new": "| .octets b => derTLV 0x0c b",
  "edit": "another tag for octet strings, on both sides",
  "claim": "C63",
  "breaks": "DER",
  "more": [
   [
    "else if tag = 0x04 then",
    "else if tag = 0x0c then"
   ]
  ]
 },
 {
  "id": "m464",
  "file": "Verif/Model/Der.lean",
  "def": "derEncode, derDecode",
  "old": "| .seq l => do derTLV 0x30",
  "new": "| .seq l => do derTLV 0x31",
  "edit": "SET instead of SEQUENCE, on both sides",
  "claim": "C12",
  "breaks": "DER",
  "more": [
   [
    "else if tag = 0x30 then",
    "else if tag = 0x31 then"
   ]
  ],
  "tightened": [
   "C80_parses",
   "C80_makes"
  ]
 },
 {
  "id": "m465",
  "file": "Verif/Model/Keys.lean",
  "def": "RsaPrivateKey.ofObj",
  "old": "primeP := padInt key.q\n    primeQ := padInt key.p",
  "new": "primeP := padInt key.p\n    primeQ := padInt key.q",
  "edit": "primes stored in order, and read in order",
  "claim": "C34",
  "breaks": "key file format",
  "more": [
   [
    "BytesToLong primeQ, BytesToLong primeP",
    "BytesToLong primeP, BytesToLong primeQ"
   ]
  ]
 },
 {
  "id": "m466",
  "file": "Verif/Model/Util.lean",
  "def": "IntToBytes",
  "old": "[n / 2 ^ 24, n / 2 ^ 16, n / 2 ^ 8, n].map",
  "new": "[n, n / 2 ^ 8, n / 2 ^ 16, n / 2 ^ 24].map",
  "edit": "little-endian lengths everywhere",
  "claim": "C08",
  "breaks": "layout",
  "more": [
   [
    "| [a, b, c, e] =>",
    "| [e, c, b, a] =>"
   ]
  ],
  "tightened": [
   "C06_format"
  ]
 },
 {
  "id": "m467",
  "file": "Verif/Model/Util.lean",
  "def": "BigIntToBytes, BytesToLong",
  "old": "BigIntToBytes (n / 256) ++ [UInt8.ofNat (n % 256)]",
  "new": "UInt8.ofNat (n % 256) :: BigIntToBytes (n / 256)",
  "edit": "little-endian, on both sides",
  "claim": "C08",
  "breaks": "layout",
  "more": [
   [
    "256 ^ (b.length - 1 - i)",
    "256 ^ i"
   ]
  ]
 },
 {
  "id": "m468",
  "file": "Verif/Model/Keyczar.lean",
  "def": "StaticKeyReader",
  "old": "Heap.empty.alloc ⟨1, .PRIMARY, .bool false⟩",
  "new": "Heap.empty.alloc ⟨1, .PRIMARY, .bool true⟩",
  "edit": "imported key exportable",
  "claim": "C53",
  "breaks": "static reader",
  "more": []
 },
 {
  "id": "m469",
  "file": "Verif/Model/Keyczar.lean",
  "def": "AddVersion",
  "old": "heap.setStatus p .ACTIVE\n                          | none => heap)",
  "new": "heap.setStatus p .INACTIVE\n                          | none => heap)",
  "edit": "old primary becomes inactive",
  "claim": "C26",
  "breaks": "status automaton",
  "more": []
 },
 {
  "id": "m470",
  "file": "Verif/Model/Keyczart.lean",
  "def": "createType",
  "old": "| none => .ok (.DECRYPT_AND_ENCRYPT, .AES)",
  "new": "| none => .ok (.DECRYPT_AND_ENCRYPT, .HMAC_SHA1)",
  "edit": "wrong type",
  "claim": "C36",
  "breaks": "types of new key sets",
  "more": []
 },
 {
  "id": "m471",
  "file": "Verif/Model/Keyczart.lean",
  "def": "publicMetadata",
  "old": ".ok ⟨kmd.name, .VERIFY, .DSA_PUB, .bool false, []⟩",
  "new": ".ok ⟨.null, .VERIFY, .DSA_PUB, .bool false, []⟩",
  "edit": "name lost",
  "claim": "C41",
  "breaks": "exported metadata",
  "more": []
 },
 {
  "id": "m472",
  "file": "Verif/Model/Told.lean",
  "def": "BadVersionError",
  "old": "some (bstr \"Received a bad version number: \" ++ decDigits version)",
  "new": "some (bstr \"Received a bad version number: \" ++ decDigits (version + 1))",
  "edit": "another number in the text",
  "claim": "C88",
  "breaks": "texts",
  "more": []
 },
 {
  "id": "m473",
  "file": "Verif/Model/Told.lean",
  "def": "InvalidSignatureError",
  "old": "some (bstr \"Invalid ciphertext signature\")",
  "new": "some (bstr \"Invalid signature\")",
  "edit": "another text",
  "claim": "C88",
  "breaks": "texts",
  "more": []
 },
 {
  "id": "m474",
  "file": "Verif/Model/Told.lean",
  "def": "KeyNotFoundError",
  "old": "++ hash ++ bstr \" not found.\"",
  "new": "++ bstr \" not found.\"",
  "edit": "the identifier is left out",
  "claim": "C88",
  "breaks": "texts",
  "more": []
 },
 {
  "id": "m475",
  "file": "Verif/Model/Told.lean",
  "def": "ShortCiphertextError",
  "old": "bstr \"Input of length \" ++ decDigits length",
  "new": "bstr \"Input of length \" ++ decDigits (length + 5)",
  "edit": "the length with the header",
  "claim": "C88",
  "breaks": "texts",
  "more": []
 },
 {
  "id": "m476",
  "file": "Verif/Model/Told.lean",
  "def": "AesKey.DecryptTold",
  "old": "else .error InvalidSignatureError",
  "new": "else .error ⟨.invalidSignature, some (bstr \"Invalid ciphertext signature\" ++ sig)⟩",
  "edit": "the text repeats the tag",
  "claim": "C88",
  "breaks": "the same text for all wrong tags",
  "more": []
 },
 {
  "id": "m477",
  "file": "Verif/Model/Told.lean",
  "def": "AesKey.DecryptTold",
  "old": "else .error InvalidSignatureError",
  "new": "else (do let p ← ((do let kb ← k.keyBytes; let c ← CbcObj.new kb iv; let (plain, _) ← c.decrypt P ciph; aesUnPad plain : Py Bytes)).told; .error ⟨.invalidSignature, some (bstr \"Invalid ciphertext signature\")⟩)",
  "edit": "the ciphertext is decrypted before the tag is rejected: a padding oracle",
  "claim": "C88",
  "breaks": "the same exception for all wrong tags",
  "more": []
 },
 {
  "id": "m478",
  "file": "Verif/Model/Told.lean",
  "def": "oaepDecodeTold",
  "old": "if encoded.length < 2 * HLEN + 2 then\n    .error",
  "new": "if encoded.length < 2 * HLEN then\n    .error",
  "edit": "the length test is weaker",
  "claim": "C88",
  "breaks": "what RSA decryption says",
  "more": []
 },
 {
  "id": "m479",
  "file": "Verif/Model/Told.lean",
  "def": "oaepDecodeTold",
  "old": "too small: \" ++ decDigits encoded.length)",
  "new": "too small: \" ++ decDigits 41)",
  "edit": "the text does not depend on the length",
  "claim": "C88",
  "breaks": "what RSA decryption says",
  "more": []
 },
 {
  "id": "m480",
  "file": "Verif/Model/Told.lean",
  "def": "oaepDecodeTold",
  "old": "some (bstr \"OAEP Decoding Error - expected a 1 value\")",
  "new": "some (bstr \"OAEP Decoding Error - hash_id is invalid\")",
  "edit": "one text for two reasons",
  "claim": "C88",
  "breaks": "what RSA decryption says",
  "more": []
 },
 {
  "id": "m481",
  "file": "Verif/Model/Told.lean",
  "def": "oaepDecodeTold",
  "old": "      | [] => .error ⟨.indexError, none⟩",
  "new": "      | [] => .error ⟨.keyczarError, some (bstr \"OAEP Decoding Error - expected a 1 value\")⟩",
  "edit": "an empty rest is reported like a wrong separator",
  "claim": "C88",
  "breaks": "what RSA decryption says",
  "more": []
 },
 {
  "id": "m482",
  "file": "Verif/Model/Told.lean",
  "def": "Czar.GetKeyTold",
  "old": "| .error .keyNotFound => .error (KeyNotFoundError hash)",
  "new": "| .error .keyNotFound => .error (KeyNotFoundError [])",
  "edit": "the identifier is not passed on",
  "claim": "C88",
  "breaks": "texts",
  "more": []
 },
 {
  "id": "m483",
  "file": "Verif/Model/Told.lean",
  "def": "Czar.ParseHeaderTold",
  "old": ".error (BadVersionError v.toNat)",
  "new": ".error (BadVersionError VERSION)",
  "edit": "the expected version is named",
  "claim": "C88",
  "breaks": "texts",
  "more": []
 },
 {
  "id": "m484",
  "file": "Verif/Model/Told.lean",
  "def": "Czar.DecryptTold",
  "old": "if data.length < HEADER_SIZE then .error (ShortCiphertextError data.length)",
  "new": "if data.length < HEADER_SIZE then .error (ShortCiphertextError HEADER_SIZE)",
  "edit": "the least length is named",
  "claim": "C88",
  "breaks": "texts",
  "more": []
 },
 {
  "id": "m485",
  "file": "Verif/Model/Told.lean",
  "def": "VerifySignedDataSteps",
  "old": "(st.1 ||| (p.1 ^^^ p.2), st.2 ++ [.bytes])) (0, [.lengths])",
  "new": "if st.1 = 0 then (st.1 ||| (p.1 ^^^ p.2), st.2 ++ [.bytes]) else st) (0, [.lengths])",
  "edit": "the loop ends at the first difference",
  "claim": "C88",
  "breaks": "the steps do not depend on the bytes",
  "more": []
 },
 {
  "id": "m486",
  "file": "Verif/Model/Told.lean",
  "def": "VerifySignedDataSteps",
  "old": "if sig.length ≠ mac.length then (false, [.lengths])\n  else",
  "new": "if sig = mac then (true, [.lengths, .result]) else if sig.length ≠ mac.length then (false, [.lengths])\n  else",
  "edit": "a shortcut for equal strings",
  "claim": "C88",
  "breaks": "the steps do not depend on the bytes",
  "more": []
 },
 {
  "id": "m487",
  "file": "Verif/Model/Open.lean",
  "def": "FileReader.at",
  "old": "| none => { GetMetadata := .error .keyczarError",
  "new": "| none => { GetMetadata := .error .osError",
  "edit": "a missing directory is an OSError",
  "claim": "C79",
  "breaks": "opening by location",
  "more": []
 },
 {
  "id": "m488",
  "file": "Verif/Model/Open.lean",
  "def": "CzarClass.Read",
  "old": "| .unversionedVerifier | .unversionedSigner => (Czar.init P cls (FileReader.at l fs), s)",
  "new": "| .unversionedSigner => (Czar.init P cls (FileReader.at l fs), s)",
  "edit": "UnversionedVerifier goes through CreateReader",
  "claim": "C79",
  "breaks": "opening by location",
  "more": []
 },
 {
  "id": "m489",
  "file": "Verif/Model/Open.lean",
  "def": "CzarClass.Read",
  "old": "| (.ok r, s) => (Czar.init P cls r, s)",
  "new": "| (.ok r, s) => (Czar.init P .generic r, s)",
  "edit": "the purpose is not checked",
  "claim": "C79",
  "breaks": "opening by location",
  "more": []
 },
 {
  "id": "m490",
  "file": "Verif/Model/Open.lean",
  "def": "Czar.str",
  "old": "c.metadata.str c.heap",
  "new": "({ c.metadata with encrypted := .bool false }).str c.heap",
  "edit": "encrypted is not shown",
  "claim": "C79",
  "breaks": "str of a Keyczar",
  "more": []
 },
 {
  "id": "m492",
  "file": "Verif/Model/Aes.lean",
  "def": "shiftRows, invShiftRows",
  "old": "[a0, b1, c2, d3, b0, c1, d2, a3, c0, d1, a2, b3, d0, a1, b2, c3]\n  | s => s\n\ndef",
  "new": "[a0, d1, c2, b3, b0, a1, d2, c3, c0, b1, a2, d3, d0, c1, b2, a3]\n  | s => s\n\ndef",
  "edit": "rows shifted to the right, in both directions",
  "claim": "C87",
  "breaks": "FIPS 197",
  "more": [
   [
    "| [a0, b1, c2, d3, b0, c1, d2, a3, c0, d1, a2, b3, d0, a1, b2, c3] =>",
    "| [a0, d1, c2, b3, b0, a1, d2, c3, c0, b1, a2, d3, d0, c1, b2, a3] =>"
   ]
  ]
 },
 {
  "id": "m493",
  "file": "Verif/Model/Aes.lean",
  "def": "rotW",
  "old": "(a.2.1, a.2.2.1, a.2.2.2, a.1)",
  "new": "(a.2.2.2, a.1, a.2.1, a.2.2.1)",
  "edit": "words rotated the other way",
  "claim": "C87",
  "breaks": "FIPS 197",
  "more": []
 },
 {
  "id": "m494",
  "file": "Verif/Model/Aes.lean",
  "def": "expand",
  "old": "else if nk > 6 ∧ i % nk = 4 then",
  "new": "else if nk > 8 ∧ i % nk = 4 then",
  "edit": "no additional substitution for 256 bits",
  "claim": "C87",
  "breaks": "FIPS 197",
  "more": []
 },
 {
  "id": "m495",
  "file": "Verif/Model/Aes.lean",
  "def": "roundKeys",
  "old": "(expand nk (4 * (nk + 7) - nk) nk 1",
  "new": "(expand nk (4 * (nk + 6) - nk) nk 1",
  "edit": "one round less",
  "claim": "C87",
  "breaks": "FIPS 197",
  "more": []
 },
 {
  "id": "m498",
  "file": "Verif/Model/Sha1.lean",
  "def": "extend",
  "old": "w.getD 15 0) 1 :: w)",
  "new": "w.getD 15 0) 0 :: w)",
  "edit": "no rotation: SHA-0",
  "claim": "C87",
  "breaks": "FIPS 180-4",
  "more": []
 },
 {
  "id": "m499",
  "file": "Verif/Model/Sha1.lean",
  "def": "fk",
  "old": "else if t < 60 then ((b &&& c) ||| (b &&& d) ||| (c &&& d)) + 0x8f1bbcdc",
  "new": "else if t < 60 then ((b &&& c) ||| (b &&& d)) + 0x8f1bbcdc",
  "edit": "the majority is wrong",
  "claim": "C87",
  "breaks": "FIPS 180-4",
  "more": []
 },
 {
  "id": "m500",
  "file": "Verif/Model/Sha1.lean",
  "def": "fk",
  "old": "if t < 20 then",
  "new": "if t < 21 then",
  "edit": "twenty-one steps of the first kind",
  "claim": "C87",
  "breaks": "FIPS 180-4",
  "more": []
 },
 {
  "id": "m501",
  "file": "Verif/Model/Sha1.lean",
  "def": "pad",
  "old": "let z := (119 - m.length % 64) % 64",
  "new": "let z := (119 - m.length % 64) % 64 + 64",
  "edit": "a block of zeros more",
  "claim": "C87",
  "breaks": "FIPS 180-4",
  "more": []
 },
 {
  "id": "m502",
  "file": "Verif/Model/Sha1.lean",
  "def": "pad",
  "old": "word4 (m.length * 8)",
  "new": "word4 m.length",
  "edit": "length in bytes",
  "claim": "C87",
  "breaks": "FIPS 180-4",
  "more": []
 },
 {
  "id": "m503",
  "file": "Verif/Model/Sha1.lean",
  "def": "hash",
  "old": "0xc3d2e1f0⟩",
  "new": "0xc3d2e1f1⟩",
  "edit": "another initial value",
  "claim": "C87",
  "breaks": "FIPS 180-4",
  "more": []
 },
 {
  "id": "m504",
  "file": "Verif/Model/Sha1.lean",
  "def": "word4",
  "old": "[UInt8.ofNat (n / 16777216), UInt8.ofNat (n / 65536), UInt8.ofNat (n / 256), UInt8.ofNat n]",
  "new": "[UInt8.ofNat n, UInt8.ofNat (n / 256), UInt8.ofNat (n / 65536), UInt8.ofNat (n / 16777216)]",
  "edit": "little-endian",
  "claim": "C87",
  "breaks": "FIPS 180-4",
  "more": []
 },
 {
  "id": "m505",
  "file": "Verif/Model/Py3Tool.lean",
  "def": "add",
  "old": "| _, _ => .error .typeError",
  "new": "| .str a, .bytes b => .ok (.str (a ++ b.map UInt8.toNat))\n  | _, _ => .error .typeError",
  "edit": "text and bytes can be added",
  "claim": "C85",
  "breaks": "nothing is signed",
  "more": [],
  "tightened": [
   "C85_payload"
  ]
 },
 {
  "id": "m506",
  "file": "Verif/Model/Py3Tool.lean",
  "def": "ordHead",
  "old": "| .bytes [] => .error .indexError",
  "new": "| .bytes (c :: _) => .ok c.toNat\n  | .bytes [] => .error .indexError",
  "edit": "ord of an element of bytes",
  "claim": "C85",
  "breaks": "nothing is accepted",
  "more": [],
  "tightened": [
   "C85_header_why"
  ]
 },
 {
  "id": "m507",
  "file": "Verif/Model/Py3Tool.lean",
  "def": "Czar.primaryKey",
  "old": "    | none => .error .keyNotFound\n\n/-- keyczar.py:77-93",
  "new": "    | none => (c.versions.head?.map Prod.snd).elim (.error .keyNotFound) .ok\n\n/-- keyczar.py:77-93",
  "edit": "the first key if the primary one is missing",
  "claim": "C85",
  "breaks": "nothing is encrypted",
  "more": [],
  "tightened": [
   "C85_primary"
  ]
 },
 {
  "id": "m508",
  "file": "Verif/Model/Py3Tool.lean",
  "def": "Czar.primaryKey",
  "old": "  match c.primary with\n  | none => .error .keyNotFound",
  "new": "  match c.primary with\n  | none => .ok (Key.hmac (.bytes []))",
  "edit": "a default key",
  "claim": "C85",
  "breaks": "nothing is encrypted",
  "more": []
 },
 {
  "id": "m509",
  "file": "Verif/Model/Py3Tool.lean",
  "def": "verifyAny",
  "old": "| [] => .ok false",
  "new": "| [] => .ok true",
  "edit": "no key is enough to accept",
  "claim": "C85",
  "breaks": "nothing is accepted",
  "more": []
 },
 {
  "id": "m510",
  "file": "Verif/Model/Py3Tool.lean",
  "def": "Open",
  "old": "if accepts m.purpose = false then .error .keyczarError\n    else if",
  "new": "if",
  "edit": "the purpose is not checked",
  "claim": "C85",
  "breaks": "which sets can be opened",
  "more": []
 },
 {
  "id": "m511",
  "file": "Verif/Model/Py3Tool.lean",
  "def": "Open",
  "old": "else if m.encrypted && crypter.isNone then .error .keyczarError\n",
  "new": "",
  "edit": "encrypted sets can be opened without a crypter",
  "claim": "C85",
  "breaks": "which sets can be opened",
  "more": []
 },
 {
  "id": "m512",
  "file": "Verif/Model/Py3Tool.lean",
  "def": "ReadFile",
  "old": "    | none => .error .keyczarError\n    | some t => .ok t",
  "new": "    | none => .ok []\n    | some t => .ok t",
  "edit": "a missing file is empty",
  "claim": "C85",
  "breaks": "which sets can be opened",
  "more": []
 },
 {
  "id": "m513",
  "file": "Verif/Model/Py3Tool.lean",
  "def": "WriteFile",
  "old": "| _ => (.error .typeError, fs.put loc (d.put n (some [])))",
  "new": "| _ => (.ok (), fs.put loc (d.put n (some [])))",
  "edit": "bytes are written as nothing",
  "claim": "C85",
  "breaks": "commands that raise",
  "more": [],
  "tightened": [
   "C85_write"
  ]
 },
 {
  "id": "m514",
  "file": "Verif/Model/Py3Tool.lean",
  "def": "Meta.Promote",
  "old": "| .PRIMARY => .error .keyczarError",
  "new": "| .PRIMARY => .ok m",
  "edit": "promoting the primary version does nothing",
  "claim": "C85",
  "breaks": "commands that raise",
  "more": [],
  "tightened": [
   "C85_transitions"
  ]
 },
 {
  "id": "m515",
  "file": "Verif/Model/Py3Tool.lean",
  "def": "change",
  "old": "if n < 0 then fail .keyczarError\n  else do\n    let m' ← look fun _ => f m n",
  "new": "if n < 0 then pure loc\n  else do\n    let m' ← look fun _ => f m n",
  "edit": "no version given: nothing is done",
  "claim": "C85",
  "breaks": "commands that raise",
  "more": []
 },
 {
  "id": "m516",
  "file": "Verif/Model/Py3Tool.lean",
  "def": "absent",
  "old": "| some _ => .error .keyczarError\n  | none => .ok ()",
  "new": "| some _ => .ok ()\n  | none => .ok ()",
  "edit": "create overwrites metadata",
  "claim": "C85",
  "breaks": "what create does",
  "more": []
 },
 {
  "id": "m517",
  "file": "Verif/Model/Py3Tool.lean",
  "def": "Create",
  "old": "look fun fs => absent fs loc .metadata\n    WriteFile (.str (W.dump m)) loc .metadata",
  "new": "look fun fs => absent fs loc .metadata\n    WriteFile (.str (W.dump m)) loc (.number 1)",
  "edit": "create writes a key file",
  "claim": "C85",
  "breaks": "no key file is written",
  "more": []
 },
 {
  "id": "m518",
  "file": "Verif/Model/Py3Tool.lean",
  "def": "newMeta",
  "old": "| _ => .error .keyczarError\n\n/-- `d` has",
  "new": "| _ => .ok ⟨name, .VERIFY, .HMAC_SHA1, false, []⟩\n\n/-- `d` has",
  "edit": "create without a purpose",
  "claim": "C85",
  "breaks": "what create does",
  "more": [],
  "tightened": [
   "C85_no_purpose"
  ]
 },
 {
  "id": "m519",
  "file": "Verif/Model/Py3Tool.lean",
  "def": "PubKey",
  "old": "    let p ← look fun _ => publicMeta m\n",
  "new": "    let p ← look fun _ => .ok { m with versions := [] }\n",
  "edit": "sets of every kind are exported",
  "claim": "C85",
  "breaks": "what pubkey does",
  "more": []
 },
 {
  "id": "m520",
  "file": "Verif/Model/Py3Tool.lean",
  "def": "publicMeta",
  "old": "⟨m.name, .VERIFY, .DSA_PUB, false, []⟩",
  "new": "⟨m.name, .SIGN_AND_VERIFY, .DSA_PRIV, false, []⟩",
  "edit": "exported metadata keeps its type",
  "claim": "C85",
  "breaks": "what pubkey does",
  "more": [],
  "tightened": [
   "C85_public"
  ]
 },
 {
  "id": "m521",
  "file": "Verif/Model/Py3Tool.lean",
  "def": "Clean",
  "old": "| some _ => (.ok (), fs.put loc fun _ => none)",
  "new": "| some _ => (.ok (), fs)",
  "edit": "nothing is deleted",
  "claim": "C85",
  "breaks": "genkey deletes the files of a set",
  "more": []
 },
 {
  "id": "m522",
  "file": "Verif/Model/Py3Tool.lean",
  "def": "genSet",
  "old": "  Clean dir\n  Create",
  "new": "  Create",
  "edit": "the directory is not cleaned",
  "claim": "C85",
  "breaks": "genkey deletes the files of a set",
  "more": []
 },
 {
  "id": "m523",
  "file": "Verif/Model/Py3Tool.lean",
  "def": "KEYSETS",
  "old": "[(txt \"aes\", .DECRYPT_AND_ENCRYPT, none, none), (txt \"aes-crypted\"",
  "new": "[(txt \"hmac2\", .DECRYPT_AND_ENCRYPT, none, none), (txt \"aes-crypted\"",
  "edit": "another first set",
  "claim": "C85",
  "breaks": "genkey deletes the files of a set",
  "more": []
 },
 {
  "id": "m524",
  "file": "Verif/Model/Py3Tool.lean",
  "def": "GenKeySet",
  "old": "| none => fail .typeError",
  "new": "| none => pure ()",
  "edit": "genkey without a location does nothing",
  "claim": "C85",
  "breaks": "commands that raise",
  "more": []
 },
 {
  "id": "m525",
  "file": "Verif/Model/Py3Tool.lean",
  "def": "AddKey",
  "old": "let c' ← look fun _ => AddVersion W.env m.type c v.toVersion (if size = -1 then none else some size.toNat) W.fuel",
  "new": "let c' := c",
  "edit": "addkey adds no key",
  "claim": "C85",
  "breaks": "commands that raise",
  "more": []
 },
 {
  "id": "m528",
  "file": "Verif/Model/Py3Tool.lean",
  "def": "history",
  "old": "| c :: rest, fs => history rest (c.run W fs).2",
  "new": "| c :: rest, fs => history rest (match c.run W fs with | (.ok _, fs') => fs' | (.error _, _) => fs)",
  "edit": "failed commands are undone",
  "claim": "C85",
  "breaks": "genkey deletes the files of a set",
  "more": []
 },
 {
  "id": "m529",
  "file": "Verif/Model/Interop.lean",
  "def": "Json.isText",
  "old": "| .str t => t = s.toList",
  "new": "| .str t => decide (t <+: s.toList)",
  "edit": "prefixes of a name are enough",
  "claim": "C77",
  "breaks": "names of operations",
  "more": []
 },
 {
  "id": "m530",
  "file": "Verif/Model/Interop.lean",
  "def": "interopMain",
  "old": "if 2 < argv.length then",
  "new": "if 1 < argv.length then",
  "edit": "two arguments are refused",
  "claim": "C77",
  "breaks": "the command line",
  "more": []
 },
 {
  "id": "m531",
  "file": "Verif/Model/Interop.lean",
  "def": "Json.contains",
  "old": "| .str t => .ok (decide (s.toList <:+: t))",
  "new": "| .str _ => .ok false",
  "edit": "a text never contains a command",
  "claim": "C77",
  "breaks": "the command line",
  "more": []
 },
 {
  "id": "m532",
  "file": "Verif/Model/Harness.lean",
  "def": "Listing.has",
  "old": "| .text t => decide (x <:+: t)",
  "new": "| .text t => decide (x = t)",
  "edit": "a text is compared instead of searched",
  "claim": "C97",
  "breaks": "when an ignored test applies",
  "more": []
 },
 {
  "id": "m533",
  "file": "Verif/Model/Harness.lean",
  "def": "Listing.has",
  "old": "| .list l => decide (x ∈ l)",
  "new": "| .list l => decide (l.head? = some x)",
  "edit": "only the first listed value is looked at",
  "claim": "C97",
  "breaks": "when an ignored test applies",
  "more": []
 },
 {
  "id": "m534",
  "file": "Verif/Model/Harness.lean",
  "def": "Keyset.name",
  "old": "k.algorithm ++ Nat.toDigits 10 k.size",
  "new": "k.algorithm ++ ['-'] ++ Nat.toDigits 10 k.size",
  "edit": "a dash in the name",
  "claim": "C97",
  "breaks": "directories read and made agree",
  "more": []
 },
 {
  "id": "m535",
  "file": "Verif/Model/Harness.lean",
  "def": "GetGenerateKeysets",
  "old": "(if purpose = crypt ∧ a.2.asymmetric = true then [⟨a.1, size, encrypt⟩] else []) ++ [⟨a.1, size, purpose⟩]",
  "new": "[⟨a.1, size, purpose⟩]",
  "edit": "no key sets for encryption with the public part",
  "claim": "C97",
  "breaks": "calls planned",
  "more": []
 },
 {
  "id": "m536",
  "file": "Verif/Model/Harness.lean",
  "def": "GetGenerateKeysets",
  "old": "(if purpose = crypt ∧ a.2.asymmetric = true then",
  "new": "(if a.2.asymmetric = true then",
  "edit": "encryption key sets also for signing",
  "claim": "C97",
  "breaks": "calls planned",
  "more": []
 },
 {
  "id": "m537",
  "file": "Verif/Model/Harness.lean",
  "def": "GetGenerateKeysets",
  "old": "if a.2.purpose = purpose then\n      a.2.keySizes.flatMap",
  "new": "if a.2.purpose = purpose then\n      (a.2.keySizes.take 1).flatMap",
  "edit": "only the first size",
  "claim": "C97",
  "breaks": "calls planned",
  "more": []
 },
 {
  "id": "m538",
  "file": "Verif/Model/Harness.lean",
  "def": "GetTestKeysets",
  "old": "[g, { g with purpose := verify }] else [g]",
  "new": "[{ g with purpose := verify }] else [g]",
  "edit": "asymmetric signatures are only verified with the public part",
  "claim": "C97",
  "breaks": "tests planned",
  "more": []
 },
 {
  "id": "m539",
  "file": "Verif/Model/Harness.lean",
  "def": "GetTestKeysets",
  "old": "if a.asymmetric then [g, { g with purpose := verify }] else [g]",
  "new": "[g, { g with purpose := verify }]",
  "edit": "symmetric key sets are tested as public ones",
  "claim": "C97",
  "breaks": "tests planned",
  "more": []
 },
 {
  "id": "m540",
  "file": "Verif/Model/Harness.lean",
  "def": "GetTestKeysets",
  "old": "else if g.purpose = encrypt then .ok [{ g with purpose := crypt }]",
  "new": "else if g.purpose = encrypt then .ok [g]",
  "edit": "an encryption key set is used for decryption",
  "claim": "C97",
  "breaks": "tests planned",
  "more": []
 },
 {
  "id": "m541",
  "file": "Verif/Model/Harness.lean",
  "def": "KeySetOptions.get",
  "old": "def KeySetOptions.get (o : KeySetOptions) : Which → OptionTable\n  | .generateOptions => o.generateOptions\n  | .testOptions => o.testOptions",
  "new": "def KeySetOptions.get (o : KeySetOptions) : Which → OptionTable\n  | .generateOptions => o.generateOptions\n  | .testOptions => o.generateOptions",
  "edit": "the options of the call are used for the test",
  "claim": "C97",
  "breaks": "tests planned",
  "more": []
 },
 {
  "id": "m542",
  "file": "Verif/Model/Harness.lean",
  "def": "Operation.get",
  "old": "def Operation.get (o : Operation) : Which → OptionTable\n  | .generateOptions => o.generateOptions\n  | .testOptions => o.testOptions",
  "new": "def Operation.get (o : Operation) : Which → OptionTable\n  | .generateOptions => o.testOptions\n  | .testOptions => o.testOptions",
  "edit": "the operation's options of the test are used for the call",
  "claim": "C97",
  "breaks": "calls planned",
  "more": []
 },
 {
  "id": "m543",
  "file": "Verif/Model/Harness.lean",
  "def": "macros",
  "old": "GetGenerateKeysets cfg sign).map",
  "new": "GetGenerateKeysets cfg crypt).map",
  "edit": "the macro stands for the encrypting key sets",
  "claim": "C97",
  "breaks": "values of options",
  "more": []
 },
 {
  "id": "m544",
  "file": "Verif/Model/Harness.lean",
  "def": "optionValues",
  "old": "if cfg.isStr then macros cfg t else .ok (t.map fun c => [c])",
  "new": "macros cfg t",
  "edit": "the macro is replaced in Python 2 as well",
  "claim": "C97",
  "breaks": "Python 2",
  "more": []
 },
 {
  "id": "m545",
  "file": "Verif/Model/Harness.lean",
  "def": "product",
  "old": "vs.flatMap fun v => (product rest).map",
  "new": "(vs.take 1).flatMap fun v => (product rest).map",
  "edit": "only the first value of each option",
  "claim": "C97",
  "breaks": "calls planned",
  "more": []
 },
 {
  "id": "m546",
  "file": "Verif/Model/Harness.lean",
  "def": "product",
  "old": "| [] => [[]]\n  | (n, vs)",
  "new": "| [] => []\n  | (n, vs)",
  "edit": "the empty product is empty",
  "claim": "C97",
  "breaks": "calls planned",
  "more": []
 },
 {
  "id": "m547",
  "file": "Verif/Model/Harness.lean",
  "def": "OptionsOf",
  "old": "dictOf (keySetOptions ++ operation.get w)",
  "new": "dictOf (operation.get w ++ keySetOptions)",
  "edit": "the options of the key set win",
  "claim": "C97",
  "breaks": "values of options",
  "more": []
 },
 {
  "id": "m548",
  "file": "Verif/Model/Harness.lean",
  "def": "OptionsOf",
  "old": "if optionDict = [] then return [[]]",
  "new": "if optionDict = [] then return []",
  "edit": "no options, no test",
  "claim": "C97",
  "breaks": "tests planned",
  "more": []
 },
 {
  "id": "m549",
  "file": "Verif/Model/Harness.lean",
  "def": "containsOrStar",
  "old": "l.has v || l.has ['*']",
  "new": "l.has v",
  "edit": "no wildcard",
  "claim": "C97",
  "breaks": "when an ignored test applies",
  "more": []
 },
 {
  "id": "m550",
  "file": "Verif/Model/Harness.lean",
  "def": "optionsMatch",
  "old": "    | none => true\n    | some v => !o.2.has v",
  "new": "    | none => false\n    | some v => !o.2.has v",
  "edit": "options that are not there count as equal",
  "claim": "C97",
  "breaks": "when an ignored test applies",
  "more": []
 },
 {
  "id": "m551",
  "file": "Verif/Model/Harness.lean",
  "def": "optionsMatch",
  "old": "!(ignored.any fun o => decide (o.1 ≠ ['*']) &&",
  "new": "!(ignored.all fun o => decide (o.1 ≠ ['*']) &&",
  "edit": "one option that agrees is enough",
  "claim": "C97",
  "breaks": "when an ignored test applies",
  "more": []
 },
 {
  "id": "m552",
  "file": "Verif/Model/Harness.lean",
  "def": "optionsMatch",
  "old": "decide (o.1 ≠ ['*']) &&",
  "new": "true &&",
  "edit": "the wildcard is an option",
  "claim": "C97",
  "breaks": "when an ignored test applies",
  "more": []
 },
 {
  "id": "m553",
  "file": "Verif/Model/Harness.lean",
  "def": "IsException",
  "old": "      containsOrStar operation t.operation && optionsMatch",
  "new": "      optionsMatch",
  "edit": "the operation is not looked at",
  "claim": "C97",
  "breaks": "when an ignored test applies",
  "more": []
 },
 {
  "id": "m554",
  "file": "Verif/Model/Harness.lean",
  "def": "IsException",
  "old": "cfg.ignored.any fun t =>",
  "new": "(cfg.ignored.take 1).any fun t =>",
  "edit": "only the first entry counts",
  "claim": "C97",
  "breaks": "when an ignored test applies",
  "more": []
 },
 {
  "id": "m555",
  "file": "Verif/Model/Harness.lean",
  "def": "TestAll",
  "old": "(dictOf (options ++ generateOptions))).map",
  "new": "options).map",
  "edit": "ignored tests see only the options of the test",
  "claim": "C97",
  "breaks": "tests planned",
  "more": []
 },
 {
  "id": "m556",
  "file": "Verif/Model/Harness.lean",
  "def": "TestAll",
  "old": "(dictOf (options ++ generateOptions))).map",
  "new": "(dictOf (generateOptions ++ options))).map",
  "edit": "the options of the test win over those of the call",
  "claim": "C97",
  "breaks": "tests planned",
  "more": []
 },
 {
  "id": "m557",
  "file": "Verif/Model/Harness.lean",
  "def": "TestAll",
  "old": "!IsException cfg implementation opName keyset.name (dictOf",
  "new": "!IsException cfg implementation opName keyset.algorithm (dictOf",
  "edit": "entries name algorithms without sizes",
  "claim": "C97",
  "breaks": "tests planned",
  "more": []
 },
 {
  "id": "m558",
  "file": "Verif/Model/Harness.lean",
  "def": "GenerateAll",
  "old": "          !IsException cfg implementation operation.1 keyset.name options).map",
  "new": "          !IsException cfg implementation operation.1 keyset.purpose options).map",
  "edit": "entries name purposes",
  "claim": "C97",
  "breaks": "calls planned",
  "more": []
 },
 {
  "id": "m559",
  "file": "Verif/Model/Harness.lean",
  "def": "GenerateAll",
  "old": "(GetGenerateKeysets cfg operation.2.keytype)) cfg.operations) cfg.implementations",
  "new": "(GetGenerateKeysets cfg operation.1)) cfg.operations) cfg.implementations",
  "edit": "key sets by the name of the operation",
  "claim": "C97",
  "breaks": "calls planned",
  "more": []
 },
 {
  "id": "m560",
  "file": "Verif/Model/Harness.lean",
  "def": "Test.name",
  "old": "t.algorithm ++\n    ['_'] ++ join (t.generateOptions.map Prod.snd) ++ ['_'] ++ join (t.testOptions.map Prod.snd)",
  "new": "t.algorithm ++\n    ['_'] ++ join (t.generateOptions.map Prod.snd)",
  "edit": "the options of the test are not in the name",
  "claim": "C97",
  "breaks": "no test is lost",
  "more": []
 },
 {
  "id": "m561",
  "file": "Verif/Model/Harness.lean",
  "def": "Test.name",
  "old": "\"_generated_by_\".toList ++ t.generator ++ ['_'] ++ t.operation ++ ['_'] ++ t.algorithm ++\n    ['_'] ++ join (t.generateOptions.map Prod.snd)",
  "new": "\"_generated_by_\".toList ++ t.operation ++ ['_'] ++ t.algorithm ++\n    ['_'] ++ join (t.generateOptions.map Prod.snd)",
  "edit": "the generator is not in the name",
  "claim": "C97",
  "breaks": "no test is lost",
  "more": []
 },
 {
  "id": "m562",
  "file": "Verif/Model/Harness.lean",
  "def": "join",
  "old": "List.intercalate ['_'] l",
  "new": "l.flatten",
  "edit": "values are joined without anything between them",
  "claim": "C97",
  "breaks": "no test is lost",
  "more": []
 },
 {
  "id": "m563",
  "file": "Verif/Model/Harness.lean",
  "def": "Test.display",
  "old": "join (t.generateOptions.map fun o => o.1 ++ ['='] ++ o.2) ++ ['_'] ++\n    join (t.testOptions.map fun o => o.1 ++ ['='] ++ o.2)",
  "new": "join (t.generateOptions.map fun o => o.1 ++ ['='] ++ o.2)",
  "edit": "the options of the test are not displayed",
  "claim": "C97",
  "breaks": "lines displayed",
  "more": [],
  "tightened": [
   "C97_line"
  ]
 },
 {
  "id": "m564",
  "file": "Verif/Model/Harness.lean",
  "def": "Planned.test",
  "old": "⟨output, r.1, g.implementation, g.operation.1, g.keyset.name, g.options, r.2⟩",
  "new": "⟨output, g.implementation, r.1, g.operation.1, g.keyset.name, g.options, r.2⟩",
  "edit": "tester and generator exchanged",
  "claim": "C97",
  "breaks": "tests run",
  "more": []
 },
 {
  "id": "m565",
  "file": "Verif/Model/Harness.lean",
  "def": "setupFrom",
  "old": "(runs.foldl (fun d r => assocSet d (g.test output r).name (g.test output r)) tests)",
  "new": "(runs.foldl (fun d r => d ++ [((g.test output r).name, g.test output r)]) tests)",
  "edit": "tests with one name are all kept",
  "claim": "C97",
  "breaks": "tests run",
  "more": []
 },
 {
  "id": "m566",
  "file": "Verif/Model/Harness.lean",
  "def": "setupFrom",
  "old": "    let output ← generate n g\n",
  "new": "    let output := match generate n g with | .ok o => o | .error _ => []\n",
  "edit": "a failing call is passed over",
  "claim": "C97",
  "breaks": "one failing call ends the run",
  "more": []
 },
 {
  "id": "m567",
  "file": "Verif/Model/Harness.lean",
  "def": "Harness.Create",
  "old": "dirs := [location] ++ if a.asymmetric then [location ++ \"public\".toList] else []",
  "new": "dirs := [location]",
  "edit": "no directory for the public part",
  "claim": "C97",
  "breaks": "key sets read are made",
  "more": []
 },
 {
  "id": "m568",
  "file": "Verif/Model/Harness.lean",
  "def": "CreateEncrypted",
  "old": "let location := GetKeyDir implementation (algorithm ++ Nat.toDigits 10 size ++ crypter)",
  "new": "let location := GetKeyDir implementation (algorithm ++ Nat.toDigits 10 size)",
  "edit": "encrypted key sets overwrite the others",
  "claim": "C97",
  "breaks": "key sets read are made",
  "more": []
 },
 {
  "id": "m569",
  "file": "Verif/Model/Harness.lean",
  "def": "CreateKeys",
  "old": "cfg.implementations.flatMap fun i => cfg.algorithms.flatMap fun a => a.2.keySizes.map fun s =>\n      CreateEncrypted i a.1 a.2 s \"aes128\".toList",
  "new": "[]",
  "edit": "no encrypted key sets",
  "claim": "C97",
  "breaks": "key sets read are made",
  "more": []
 },
 {
  "id": "m570",
  "file": "Verif/Model/Harness.lean",
  "def": "GetKeyDir",
  "old": "GetKeyPath implementation ++ ['/'] ++ name",
  "new": "\"keys/\".toList ++ name",
  "edit": "one directory for all implementations",
  "claim": "C97",
  "breaks": "key sets read are made",
  "more": []
 },
 {
  "id": "m571",
  "file": "Verif/Model/Harness.lean",
  "def": "GetCreateFlags",
  "old": "\"--location=\".toList ++ location] ++\n    a.createFlags",
  "new": "\"--location=\".toList ++ location]",
  "edit": "the purpose is not passed on",
  "claim": "C97",
  "breaks": "commands of a creation",
  "more": [],
  "tightened": [
   "C97_commands"
  ]
 },
 {
  "id": "m572",
  "file": "Verif/Model/Harness.lean",
  "def": "GetAddKeyFlags",
  "old": "\"--status=primary\".toList",
  "new": "\"--status=active\".toList",
  "edit": "keys are added as active",
  "claim": "C97",
  "breaks": "commands of a creation",
  "more": [],
  "tightened": [
   "C97_commands"
  ]
 },
 {
  "id": "m573",
  "file": "Verif/Model/Harness.lean",
  "def": "GetPubKeyFlags",
  "old": "\"--destination=\".toList ++ location ++ \"public\".toList",
  "new": "\"--destination=\".toList ++ location",
  "edit": "the public part is written over the key set",
  "claim": "C97",
  "breaks": "commands of a creation",
  "more": [],
  "tightened": [
   "C97_commands"
  ]
 },
 {
  "id": "m574",
  "file": "Verif/Model/Harness.lean",
  "def": "CreateEncrypted",
  "old": "[\"--crypter=\".toList ++ crypterLocation]",
  "new": "[]",
  "edit": "encrypted key sets are not encrypted",
  "claim": "C97",
  "breaks": "commands of a creation",
  "more": [],
  "tightened": [
   "C97_commands"
  ]
 },
 {
  "id": "m575",
  "file": "Verif/Model/Harness.lean",
  "def": "Harness.Create",
  "old": "addKey, addKey] ++",
  "new": "addKey] ++",
  "edit": "one key only",
  "claim": "C97",
  "breaks": "commands of a creation",
  "more": [],
  "tightened": [
   "C97_commands"
  ]
 },
 {
  "id": "m576",
  "file": "Verif/Model/Json.lean",
  "def": "utf8Two",
  "old": "if 0xc2 ≤ c.toNat ∧",
  "new": "if 0xc0 ≤ c.toNat ∧",
  "edit": "accepts overlong two-byte forms",
  "claim": "C78",
  "breaks": "bytes that are not UTF-8 are read as characters"
 },
 {
  "id": "m577",
  "file": "Verif/Model/Json.lean",
  "def": "utf8Three",
  "old": "∨ n < 0x800 then",
  "new": "∨ n < 0x80 then",
  "edit": "accepts overlong three-byte forms",
  "claim": "C78",
  "breaks": "bytes that are not UTF-8 are read as characters"
 },
 {
  "id": "m578",
  "file": "Verif/Model/Json.lean",
  "def": "utf8Four",
  "old": "0x10000 ≤ n ∧ n < 0x110000",
  "new": "0x10000 ≤ n ∧ n < 0x200000",
  "edit": "accepts four-byte forms above 0x10ffff",
  "claim": "C78",
  "breaks": "bytes that are not UTF-8 are read as characters"
 },
 {
  "id": "m579",
  "file": "Verif/Model/Json.lean",
  "def": "isCont",
  "old": "128 ≤ c.toNat && c.toNat < 192",
  "new": "128 ≤ c.toNat && c.toNat < 224",
  "edit": "takes 0xc0-0xdf for continuation bytes",
  "claim": "C78",
  "breaks": "bytes that are not UTF-8 are read as characters"
 },
 {
  "id": "m580",
  "file": "Verif/Model/Json.lean",
  "def": "decodeUtf8",
  "old": "if c.toNat < 128 then (Char.ofNat c.toNat :: ·) <$> decodeUtf8 t",
  "new": "if c.toNat < 128 then decodeUtf8 t",
  "edit": "drops ASCII characters",
  "claim": "C60",
  "breaks": "names are not stored as given"
 },
 {
  "id": "m581",
  "file": "Verif/Model/Json.lean",
  "def": "dictGet",
  "old": "if k' = k then some v' else dictGet t k",
  "new": "if k' = k then (dictGet t k).or (some v') else dictGet t k",
  "edit": "finds the last entry of a name instead of the first",
  "claim": "C34",
  "breaks": "harmless on dictionaries, which hold a name once"
 },
 {
  "id": "m582",
  "file": "Verif/Model/Json.lean",
  "def": "decDigits",
  "old": "++ [UInt8.ofNat (48 + n % 10)]",
  "new": "++ [UInt8.ofNat (48 + n % 8)]",
  "edit": "last digit modulo 8",
  "claim": "C78",
  "breaks": "numbers are not written as they are read"
 },
 {
  "id": "m583",
  "file": "Verif/Model/Json.lean",
  "def": "isJsonWs",
  "old": "c = 32 || c = 9 || c = 10 || c = 13",
  "new": "c = 32 || c = 9 || c = 10",
  "edit": "carriage return is not white space",
  "claim": "C78",
  "breaks": "texts with carriage returns are refused"
 },
 {
  "id": "m584",
  "file": "Verif/Model/Json.lean",
  "def": "hex4",
  "old": "((a * 16 + b) * 16 + c) * 16 + d",
  "new": "((a * 16 + b) * 16 + d) * 16 + c",
  "edit": "swaps the last two hexadecimal digits",
  "claim": "C78",
  "breaks": "escaped characters are read wrongly"
 },
 {
  "id": "m585",
  "file": "Verif/Model/Json.lean",
  "def": "digitsVal",
  "old": "a * 10 + (c.toNat - 48)",
  "new": "a * 8 + (c.toNat - 48)",
  "edit": "reads decimal numbers as octal",
  "claim": "C78",
  "breaks": "numbers are not read as written"
 },
 {
  "id": "m617",
  "file": "Verif/Model/Harness.lean",
  "def": "Harness.CreateKeys",
  "old": "  (cfg.implementations.flatMap fun i => cfg.algorithms.flatMap fun a => a.2.keySizes.map fun s => Create i a.1 a.2 s) ++\n    cfg.implementations.flatMap fun i => cfg.algorithms.flatMap fun a => a.2.keySizes.map fun s =>\n      CreateEncrypted i a.1 a.2 s \"aes128\".toList",
  "new": "  (cfg.implementations.flatMap fun i => cfg.algorithms.flatMap fun a => a.2.keySizes.map fun s =>\n      CreateEncrypted i a.1 a.2 s \"aes128\".toList) ++\n    cfg.implementations.flatMap fun i => cfg.algorithms.flatMap fun a => a.2.keySizes.map fun s => Create i a.1 a.2 s",
  "edit": "encrypted key sets are created first",
  "claim": "C97",
  "breaks": "the crypter of an encrypted key set is there when it is created",
  "more": []
 },
 {
  "id": "m618",
  "file": "Verif/Model/Harness.lean",
  "def": "Harness.Create",
  "old": "dirs := [location] ++ if a.asymmetric then [location ++ \"public\".toList] else []",
  "new": "dirs := [location]",
  "edit": "no directory is made for the public key set",
  "claim": "C97",
  "breaks": "the public key set is on the disk",
  "more": []
 },
 {
  "id": "m619",
  "file": "Verif/Model/Harness.lean",
  "def": "Harness.CreateEncrypted",
  "old": "    dirs := [location]\n    commands := [GetCreateFlags algorithm a size location,",
  "new": "    dirs := [GetKeyDir implementation (algorithm ++ Nat.toDigits 10 size)]\n    commands := [GetCreateFlags algorithm a size location,",
  "edit": "the directory of the plain key set is emptied before the encrypted one is created",
  "claim": "C97",
  "breaks": "the plain key set stays on the disk",
  "more": []
 },
 {
  "id": "m620",
  "file": "Verif/Model/Harness.lean",
  "def": "Harness.shipped",
  "old": "    [⟨.list [['*']], .list [\"signedSession\".toList], .list [\"rsa-crypt1024\".toList], [(['*'], .text ['*'])]⟩,\n     ⟨.list [\"java\".toList], .list [\"attached\".toList]",
  "new": "    [⟨.list [\"java\".toList], .list [\"attached\".toList]",
  "edit": "sessions with rsa-crypt1024 are not excluded",
  "claim": "C98",
  "breaks": "session material fits the key",
  "more": []
 },
 {
  "id": "m621",
  "file": "Verif/Model/Harness.lean",
  "def": "Harness.shipped",
  "old": "[(['*'], .text ['*'])]⟩,\n     ⟨.list [['*']], .list [['*']], .list [['*']],\n       [(\"cryptedKeySet\".toList, .list [\"aes128\".toList]), (\"pubKey\".toList, .list [\"public\".toList])]⟩]",
  "new": "[(['*'], .text ['*'])]⟩]",
  "edit": "public parts of encrypted key sets are not excluded",
  "claim": "C97",
  "breaks": "the key sets that tests read are created",
  "more": []
 },
 {
  "id": "m622",
  "file": "Verif/Model/Harness.lean",
  "def": "Harness.CreateKeys",
  "old": "    cfg.implementations.flatMap fun i => cfg.algorithms.flatMap fun a => a.2.keySizes.map fun s =>\n      CreateEncrypted i a.1 a.2 s \"aes128\".toList",
  "new": "    (cfg.implementations.take 1).flatMap fun i => cfg.algorithms.flatMap fun a => a.2.keySizes.map fun s =>\n      CreateEncrypted i a.1 a.2 s \"aes128\".toList",
  "edit": "encrypted key sets for the first implementation only",
  "claim": "C97",
  "breaks": "all key sets are created for each implementation",
  "more": []
 },
 {
  "id": "m623",
  "file": "Verif/Model/Harness.lean",
  "def": "Harness.shipped",
  "old": "(\"aes\".toList, ⟨crypt, false, [128, 192, 256]",
  "new": "(\"aes\".toList, ⟨crypt, false, [192, 256]",
  "edit": "no AES keys of 128 bits",
  "claim": "C97",
  "breaks": "the crypter aes128 exists",
  "more": []
 },
 {
  "id": "m624",
  "file": "Verif/Model/Harness.lean",
  "def": "Harness.shipped",
  "old": "[(\"class\".toList, .list [\"verifier\".toList]), (\"pubKey\".toList, .list [\"public\".toList])]⟩)",
  "new": "[(\"class\".toList, .list [\"verifier\".toList, \"signer\".toList]), (\"pubKey\".toList, .list [\"public\".toList])]⟩)",
  "edit": "public key sets are tested with the class Signer too",
  "claim": "C98",
  "breaks": "planned tests pass",
  "more": []
 },
 {
  "id": "m625",
  "file": "Verif/Model/Harness.lean",
  "def": "Harness.shipped",
  "old": "(encrypt, ⟨[(\"class\".toList, .list [\"encrypter\".toList])",
  "new": "(encrypt, ⟨[(\"class\".toList, .list [\"crypter\".toList, \"encrypter\".toList])",
  "edit": "public key sets encrypt with the class Crypter too",
  "claim": "C98",
  "breaks": "planned calls succeed",
  "more": []
 },
 {
  "id": "m626",
  "file": "Verif/Model/Harness.lean",
  "def": "Harness.shipped",
  "old": "(\"rsa-crypt\".toList, ⟨crypt, true, [1024, 2048, 4096]",
  "new": "(\"rsa-crypt\".toList, ⟨crypt, true, [512, 1024, 2048, 4096]",
  "edit": "RSA keys of 512 bits for encryption",
  "claim": "C98",
  "breaks": "test data fit the key",
  "more": []
 },
 {
  "id": "m627",
  "file": "Verif/Model/Harness.lean",
  "def": "Harness.GetTestKeysets",
  "old": "else if g.purpose = encrypt then .ok [{ g with purpose := crypt }]",
  "new": "else if g.purpose = encrypt then .ok [g]",
  "edit": "what was encrypted with a public key set is decrypted with the public key set",
  "claim": "C97",
  "breaks": "the tests use the private key set",
  "more": []
 },
 {
  "id": "m628",
  "file": "Verif/Model/HarnessMain.lean",
  "def": "Harness.splitEq",
  "old": "if c = '=' then [] :: splitEq t",
  "new": "if c = '=' then [[], t]",
  "edit": "split at the first equals sign only",
  "claim": "C99",
  "breaks": "a value with an equals sign is refused",
  "more": []
 },
 {
  "id": "m629",
  "file": "Verif/Model/HarnessMain.lean",
  "def": "Harness.mainFrom",
  "old": "if create ∉ [\"y\".toList, \"n\".toList] ∨ verbose ∉ [\"y\".toList, \"n\".toList] then",
  "new": "if create ∉ [\"y\".toList, \"n\".toList] ∧ verbose ∉ [\"y\".toList, \"n\".toList] then",
  "edit": "one valid flag is enough",
  "claim": "C99",
  "breaks": "values are y or n",
  "more": []
 },
 {
  "id": "m630",
  "file": "Verif/Model/HarnessMain.lean",
  "def": "Harness.mainFrom",
  "old": "if flag = \"create\".toList then mainFrom val verbose rest",
  "new": "if flag = \"create\".toList then mainFrom (if create = \"y\".toList then val else create) verbose rest",
  "edit": "the first value other than the default stays",
  "claim": "C99",
  "breaks": "the last value counts",
  "more": []
 },
 {
  "id": "m631",
  "file": "Verif/Model/HarnessMain.lean",
  "def": "Harness.mainFrom",
  "old": "if arg = \"help\".toList ∨ arg = \"h\".toList then .usage",
  "new": "if arg = \"help\".toList ∨ arg = \"h\".toList then mainFrom create verbose rest",
  "edit": "--help is skipped",
  "claim": "C99",
  "breaks": "only flags with values run the tests",
  "more": []
 },
 {
  "id": "m632",
  "file": "Verif/Model/HarnessMain.lean",
  "def": "Harness.parseArgs",
  "old": "mainFrom \"y\".toList \"n\".toList argv",
  "new": "mainFrom \"n\".toList \"n\".toList argv",
  "edit": "keys are not created by default",
  "claim": "C99",
  "breaks": "defaults",
  "more": []
 },
 {
  "id": "m633",
  "file": "Verif/Model/HarnessMain.lean",
  "def": "Harness.mainFrom",
  "old": "    if arg = \"display\".toList then .display\n",
  "new": "    if arg = \"display\".toList ∧ rest = [] then .display\n",
  "edit": "display only as the last argument",
  "claim": "C99",
  "breaks": "arguments after display do not count",
  "more": []
 },
 {
  "id": "m634",
  "file": "Verif/Model/HarnessMain.lean",
  "def": "Harness.addValue",
  "old": "(((d.lookup o.1).getD []).insert o.2)",
  "new": "[o.2]",
  "edit": "only the last value is kept",
  "claim": "C99",
  "breaks": "all values are shown",
  "more": []
 },
 {
  "id": "m635",
  "file": "Verif/Model/HarnessMain.lean",
  "def": "Harness.DisplayOptions",
  "old": "(← GetTestKeysets cfg keyset)\n",
  "new": "[keyset]\n",
  "edit": "test options of the key set that made the output",
  "claim": "C99",
  "breaks": "test options are those of the tests",
  "more": []
 },
 {
  "id": "m636",
  "file": "Verif/Model/HarnessMain.lean",
  "def": "Harness.DisplayOptions",
  "old": "let generate ← OptionsOf cfg operation.2 keyset .generateOptions",
  "new": "let generate := (← OptionsOf cfg operation.2 keyset .generateOptions).filter fun o => !cfg.implementations.all fun i => IsException cfg i operation.1 keyset.name o",
  "edit": "ignored choices are not shown",
  "claim": "C99",
  "breaks": "all choices are shown",
  "more": []
 },
 {
  "id": "m637",
  "file": "Verif/Model/HarnessMain.lean",
  "def": "Harness.callAll",
  "old": "let _ ← create n c\n    callAll",
  "new": "callAll",
  "edit": "failed creations are passed over",
  "claim": "C99",
  "breaks": "a failed creation ends the run",
  "more": []
 },
 {
  "id": "m638",
  "file": "Verif/Model/HarnessMain.lean",
  "def": "Harness.program",
  "old": "| .ok ts => ⟨0, ts.map fun t => (t.1, test t.2)⟩",
  "new": "| .ok ts => ⟨if ts.all fun t => test t.2 then 0 else 1, ts.map fun t => (t.1, test t.2)⟩",
  "edit": "the status tells of failed tests (the program as it should be)",
  "claim": "C99",
  "breaks": "the status does not depend on the results",
  "more": []
 },
 {
  "id": "m639",
  "file": "Verif/Model/HarnessMain.lean",
  "def": "Harness.program",
  "old": "(if doCreate then callAll create 0 (CreateKeys cfg) else .ok ())",
  "new": "(if doCreate then .ok () else callAll create 0 (CreateKeys cfg))",
  "edit": "create=n creates keys",
  "claim": "C99",
  "breaks": "keys are created if asked for",
  "more": []
 },
 {
  "id": "m640",
  "file": "Verif/Model/HarnessMain.lean",
  "def": "Harness.program",
  "old": "| .ok ts => ⟨0, ts.map fun t => (t.1, test t.2)⟩",
  "new": "| .ok ts => ⟨0, (ts.takeWhile fun t => test t.2).map fun t => (t.1, test t.2)⟩",
  "edit": "the run stops at the first failure",
  "claim": "C99",
  "breaks": "all tests are run",
  "more": []
 },
 {
  "id": "m641",
  "file": "Verif/Model/HarnessMain.lean",
  "def": "Harness.mainFrom",
  "old": "    else if \"--\".toList.isPrefixOf arg then\n      let arg := arg.drop 2\n",
  "new": "    else if \"-\".toList.isPrefixOf arg then\n      let arg := arg.dropWhile (· = '-')\n",
  "edit": "one dash is enough",
  "claim": "C99",
  "breaks": "flags begin with two dashes",
  "more": []
 },
 {
  "id": "m642",
  "file": "Verif/Model/Convert.lean",
  "def": "Convert.FIELDS",
  "old": "\"privateExponent\", \"modulus\",\n   \"publicExponent\"",
  "new": "\"privateExponent\", \"modulus\"",
  "edit": "publicExponent is not in the list",
  "claim": "C100",
  "breaks": "every number gets a zero byte",
  "more": []
 },
 {
  "id": "m643",
  "file": "Verif/Model/Convert.lean",
  "def": "Convert.FIELDS",
  "old": "\"y\", \"x\"]",
  "new": "\"y\"]",
  "edit": "x is not in the list",
  "claim": "C100",
  "breaks": "every number gets a zero byte",
  "more": []
 },
 {
  "id": "m644",
  "file": "Verif/Model/Convert.lean",
  "def": "Convert.FIELDS",
  "old": "\"y\", \"x\"]",
  "new": "\"y\", \"x\", \"size\"]",
  "edit": "the size is rewritten too",
  "claim": "C100",
  "breaks": "the size stays",
  "more": []
 },
 {
  "id": "m645",
  "file": "Verif/Model/Convert.lean",
  "def": "Convert.FIELDS",
  "old": "\"y\", \"x\"]",
  "new": "\"y\", \"x\", \"hmacKeyString\", \"aesKeyString\"]",
  "edit": "AES and HMAC key strings are rewritten too",
  "claim": "C100",
  "breaks": "symmetric keys stay",
  "more": []
 },
 {
  "id": "m646",
  "file": "Verif/Model/Convert.lean",
  "def": "Convert.b64Encode",
  "old": "(urlsafeB64encode s).filter (· ≠ PAD)",
  "new": "(b64encode s).filter (· ≠ PAD)",
  "edit": "standard alphabet",
  "claim": "C100",
  "breaks": "the new text encodes the same number",
  "more": []
 },
 {
  "id": "m647",
  "file": "Verif/Model/Convert.lean",
  "def": "Convert.rewriteField",
  "old": "b64Encode (0 :: b)",
  "new": "b64Encode (1 :: b)",
  "edit": "a byte 1 is put in front",
  "claim": "C100",
  "breaks": "the numbers stay",
  "more": []
 },
 {
  "id": "m648",
  "file": "Verif/Model/Convert.lean",
  "def": "Convert.rewriteField",
  "old": "b64Encode (0 :: b)",
  "new": "b64Encode (b ++ [0])",
  "edit": "the zero byte is put at the end",
  "claim": "C100",
  "breaks": "the numbers stay",
  "more": []
 },
 {
  "id": "m649",
  "file": "Verif/Model/Convert.lean",
  "def": "Convert.rewriteField",
  "old": "b64Encode (0 :: b)",
  "new": "b64Encode (if b.head?.elim false (· < 128) then b else 0 :: b)",
  "edit": "a zero byte only where the number would be negative",
  "claim": "C100",
  "breaks": "one zero byte before each number",
  "more": []
 },
 {
  "id": "m650",
  "file": "Verif/Model/Convert.lean",
  "def": "Convert.rewriteValue",
  "old": "  | .obj l => do return .obj (← rewriteInplaceRec l)\n",
  "new": "  | .obj l => .ok (.obj l)\n",
  "edit": "nested dicts are left",
  "claim": "C100",
  "breaks": "the public part of a private key is rewritten",
  "more": []
 },
 {
  "id": "m651",
  "file": "Verif/Model/Convert.lean",
  "def": "Convert.rewriteListed",
  "old": "if k ∈ FIELDS.map String.toList then",
  "new": "if k ∉ FIELDS.map String.toList then",
  "edit": "the test is negated",
  "claim": "C100",
  "breaks": "only the listed fields change",
  "more": []
 },
 {
  "id": "m652",
  "file": "Verif/Model/Convert.lean",
  "def": "Convert.newText",
  "old": "return dumps (.obj (← rewriteInplaceRec l))",
  "new": "return dumps (.obj ((← rewriteInplaceRec l).drop 1))",
  "edit": "the first field is lost",
  "claim": "C100",
  "breaks": "all fields are kept",
  "more": []
 },
 {
  "id": "m653",
  "file": "Verif/Model/Convert.lean",
  "def": "Convert.rewriteKey",
  "old": "writeFile dst (.key n) new",
  "new": "writeFile src (.key n) new",
  "edit": "keys are written to the source",
  "claim": "C100",
  "breaks": "the source stays",
  "more": []
 },
 {
  "id": "m654",
  "file": "Verif/Model/Convert.lean",
  "def": "Convert.rewriteKey",
  "old": "writeFile dst (.key n) new",
  "new": "writeFile dst (.key n) text",
  "edit": "the old text is written",
  "claim": "C100",
  "breaks": "the destination holds the new text",
  "more": []
 },
 {
  "id": "m655",
  "file": "Verif/Model/Convert.lean",
  "def": "Convert.rewriteKey",
  "old": "writeFile dst (.key n) new",
  "new": "writeFile dst (.key (n + 1)) new",
  "edit": "keys are written under the next number",
  "claim": "C100",
  "breaks": "same version numbers",
  "more": []
 },
 {
  "id": "m656",
  "file": "Verif/Model/Convert.lean",
  "def": "Convert.rewriteKeys",
  "old": "  | v :: t =>\n    (Cmd.lift (versionNumber v)).andThen fun n =>\n    (rewriteKey src dst n).andThen fun _ =>\n    rewriteKeys src dst t",
  "new": "  | v :: _ =>\n    (Cmd.lift (versionNumber v)).andThen fun n =>\n    rewriteKey src dst n",
  "edit": "only the first version is converted",
  "claim": "C100",
  "breaks": "every listed version",
  "more": []
 },
 {
  "id": "m657",
  "file": "Verif/Model/Convert.lean",
  "def": "Convert.iterateMeta",
  "old": "  (rewriteKeys src dst items).andThen fun _ =>\n  writeFile dst .metaFile text",
  "new": "  (writeFile dst .metaFile text).andThen fun _ =>\n  rewriteKeys src dst items",
  "edit": "the metadata is written first",
  "claim": "C100",
  "breaks": "the metadata is written last",
  "more": []
 },
 {
  "id": "m658",
  "file": "Verif/Model/Convert.lean",
  "def": "Convert.iterateMeta",
  "old": "  writeFile dst .metaFile text",
  "new": "  writeFile src .metaFile text",
  "edit": "the metadata is written to the source",
  "claim": "C100",
  "breaks": "the destination gets the metadata",
  "more": []
 },
 {
  "id": "m659",
  "file": "Verif/Model/Convert.lean",
  "def": "Convert.b64Decode",
  "old": "(if d = 2 then s ++ [PAD, PAD] else if d = 3 then s ++ [PAD] else s)",
  "new": "((if d = 2 then s ++ [PAD, PAD] else if d = 3 then s ++ [PAD] else s).drop 4)",
  "edit": "the first quad is dropped",
  "claim": "C100",
  "breaks": "the numbers stay",
  "more": []
 },
 {
  "id": "m660",
  "file": "Verif/Model/Convert.lean",
  "def": "Convert.newText",
  "old": "  | _ => .error .unmodelled\n\n/-- convert_keyset.py:41",
  "new": "  | _ => .ok text\n\n/-- convert_keyset.py:41",
  "edit": "texts that are not objects are copied",
  "claim": "C100",
  "breaks": "(outside the model)",
  "more": []
 },
 {
  "id": "m661",
  "file": "Verif/Model/Convert.lean",
  "def": "Convert.newText",
  "old": "  match ← loads text with",
  "new": "  match ← (match loads text with | .error _ => .ok (.obj []) | r => r) with",
  "edit": "texts that are not JSON count as empty objects",
  "claim": "C100",
  "breaks": "key files of encrypted sets are refused",
  "more": []
 },
 {
  "id": "m662",
  "file": "Verif/Model/Convert.lean",
  "def": "Convert.b64Decode",
  "old": "  if d = 1 then .error .valueError",
  "new": "  if d ≠ 0 then .error .valueError",
  "edit": "only whole quads are decoded",
  "claim": "C100",
  "breaks": "the texts of the library can be rewritten",
  "more": []
 },
 {
  "id": "m663",
  "file": "Verif/Model/Convert.lean",
  "def": "Convert.doit",
  "old": "if (fs src).isSome ∧ (fs dst).isSome then iterateMeta src dst fs else",
  "new": "if (fs src).isSome ∧ (fs dst).isSome then (.error .osError, []) else",
  "edit": "the script always fails",
  "claim": "C100",
  "breaks": "the script succeeds on readable sets",
  "more": []
 },
 {
  "id": "m664",
  "file": "Verif/Model/Convert.lean",
  "def": "Convert.writeFile",
  "old": "if (fs l).isSome then (.ok (), [.write l f data])",
  "new": "if ((fs l).bind (· f)).isSome then (.ok (), [.write l f data])",
  "edit": "only existing files are written",
  "claim": "C100",
  "breaks": "the script succeeds on an empty destination",
  "more": []
 },
 {
  "id": "m665",
  "file": "Verif/Model/Convert.lean",
  "def": "Convert.convertMain",
  "old": "(pyIndex args 0)).andThen fun src",
  "new": "(pyIndex args 2)).andThen fun src",
  "edit": "the main program takes the source from the third argument",
  "claim": "C100",
  "breaks": "the first argument is the source"
 },
 {
  "id": "m666",
  "file": "Verif/Model/Convert.lean",
  "def": "Convert.convertMain",
  "old": "  doit src dst\n\nend",
  "new": "  doit dst src\n\nend",
  "edit": "the main program swaps source and destination",
  "claim": "C100",
  "breaks": "the first argument is the source and the second the destination"
 },
 {
  "id": "m667",
  "file": "Verif/Model/Convert.lean",
  "def": "Convert.convertMain",
  "old": "  | none => .error .indexError",
  "new": "  | none => .error .keyError",
  "edit": "a missing argument raises another exception",
  "claim": "C100",
  "breaks": "a missing argument raises IndexError"
 },
 {
  "id": "m668",
  "file": "Verif/Model/Convert.lean",
  "def": "Convert.doit",
  "old": "if (fs src).isSome ∧ (fs dst).isSome then",
  "new": "if (fs src).isSome then",
  "edit": "the destination is not tested",
  "claim": "C100",
  "breaks": "ends without an exception when the destination is not a directory",
  "more": []
 },
 {
  "id": "m669",
  "file": "Verif/Model/Convert.lean",
  "def": "Convert.b64Decode",
  "old": "if d = 1 then .error .valueError",
  "new": "if d = 1 then .ok []",
  "edit": "strings of a wrong length count as empty",
  "claim": "C100",
  "breaks": "keys with the same numbers",
  "more": [],
  "note": "Four characters and a line break have length 5 for the script, which removes only spaces, and decode in the library; the changed script answers an empty string."
 },
 {
  "id": "m670",
  "file": "Verif/Model/Convert.lean",
  "def": "Convert.b64Decode",
  "old": "let s := s.filter (· ≠ 32)",
  "new": "let s := s.takeWhile (· ≠ 32)",
  "edit": "the string ends at the first space",
  "claim": "C100",
  "breaks": "keys with the same numbers",
  "more": []
 },
 {
  "id": "m671",
  "file": "Verif/Model/Convert.lean",
  "def": "Convert.rewriteKeys",
  "old": "    (rewriteKey src dst n).andThen fun _ =>\n    rewriteKeys src dst t",
  "new": "    fun fs => let r := rewriteKey src dst n fs\n      let q := rewriteKeys src dst t (applyAll fs r.2)\n      (q.1, r.2 ++ q.2)",
  "edit": "a key that cannot be converted is skipped",
  "claim": "C100",
  "breaks": "a rewritten file for every listed version",
  "more": []
 },
 {
  "id": "m672",
  "file": "Verif/Model/Convert.lean",
  "def": "Convert.versionNumber",
  "old": "v.get \"versionNumber\"",
  "new": "v.get \"versionnumber\"",
  "edit": "another name for the number",
  "claim": "C100",
  "breaks": "succeeds on the texts the library writes",
  "more": []
 },
 {
  "id": "m673",
  "file": "Verif/Model/Convert.lean",
  "def": "Convert.iterateMeta",
  "old": "  writeFile dst .metaFile text",
  "new": "  (Cmd.lift (loads text)).andThen fun j => writeFile dst .metaFile (dumps j)",
  "edit": "the metadata is written anew",
  "claim": "C100",
  "breaks": "metadata byte for byte",
  "more": []
 }
]