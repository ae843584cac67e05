import json
P=[]
K='python/src/keyczar/'
ELSEWHERE={'convert_keyset.py':'cpp/src/keyczar/keyczar_tool/','interop.py':'interop/','interop_test.py':'python/tests/keyczar_tests/'}
def p(title, statement, quantifier, why, *anchors):
    P.append(dict(id='C%02d'%(len(P)+1), title=title, statement=statement, quantifier=quantifier,
                  why_tests_cant=why, anchors=[ELSEWHERE.get(a.split(':')[0],K)+a for a in anchors]))

# ---- A. encodings
p('Base64WS round trip',
  'Base64WSDecode(Base64WSEncode(s)) returns exactly s.',
  'every byte string s, of any length',
  'Tests sample a few strings; the three residues mod 3 times all byte values times all lengths are unbounded.',
  'util.py:Base64WSEncode','util.py:Base64WSDecode')
p('Base64WS output is web safe',
  'Base64WSEncode(s) consists only of characters A-Z a-z 0-9 - _, contains no padding, has length ceil(4*len(s)/3), and two different inputs never give the same output.',
  'every byte string s (and every pair of byte strings)',
  'URL-safety and injectivity are claims about all inputs.',
  'util.py:Base64WSEncode')
p('Base64WS decoding ignores spaces and line breaks and has one failure mode',
  'Inserting any number of space, CR or LF characters anywhere into a string does not change what Base64WSDecode does with it. For every input, Base64WSDecode either returns bytes or raises Base64DecodingError, and it raises whenever the length without those characters is one more than a multiple of four. (Tabs are NOT ignored: there is a string whose decoding changes from success to an error when a tab is inserted.)',
  'every input string and every way of inserting spaces and line breaks',
  'Reflowed input can be broken at any position; tests try one or two reflow patterns.',
  'util.py:Base64WSDecode')
p('Streaming Base64 encoder agrees with the one-shot encoder',
  'Writing data to IncrementalBase64WSStreamWriter in any sequence of write() calls and then calling flush() puts exactly Base64WSEncode(all the data) on the output stream, and before the flush only complete 4-character groups have been written.',
  'every sequence of chunks, including empty chunks, of any number and size',
  'The set of chunkings is unbounded and the buffer state depends on the history.',
  'util.py:IncrementalBase64WSStreamWriter','util.py:BufferedIncrementalBase64WSEncoder')
p('Streaming Base64 decoder agrees with the one-shot decoder',
  'Reading a canonical web-safe Base64 text through IncrementalBase64WSStreamReader until it returns the empty string yields exactly Base64WSDecode(text), whatever non-zero sizes are requested and however the underlying stream splits its data or reports that no data is available yet. It never returns None (contrary to its documentation it polls a stream without data until there is some), and read(0) can spoil the data. (With line breaks or spaces inside the text this fails: there is a text that the one-shot decoder accepts and the streaming decoder decodes differently.)',
  'every byte string, every read-size sequence, every schedule of short reads and would-block results',
  'Schedules and sizes are unbounded; tests use five fixed sizes.',
  'util.py:IncrementalBase64WSStreamReader','util.py:BufferedIncrementalBase64WSDecoder')
p('Packed byte arrays round trip',
  'UnpackMultipleByteArrays(PackMultipleByteArrays(a1,...,an)) returns [a1,...,an]; UnpackByteArray(prefix + PackByteArray(a) + rest, len(prefix)) returns a and the offset of rest. A packed list is the number of arrays and then each array after its length, all numbers big-endian in four bytes. So packing is unambiguous.',
  'every list of byte strings whose lengths fit a signed 32-bit integer, every prefix and rest',
  'All lengths and contents, including contents that look like length headers.',
  'util.py:PackByteArray','util.py:PackMultipleByteArrays','util.py:UnpackByteArray','util.py:UnpackMultipleByteArrays')
p('Unpacking byte arrays terminates',
  'Claimed: UnpackMultipleByteArrays terminates on every input. This is false of the code: a negative length field of -4 makes it loop for ever. It runs for ever exactly when it comes back to a position where it has read a length field before; otherwise it ends, with a list or an exception, within 2*len(data) turns, in particular on every input in which no length field that is read is smaller than -3.',
  'every byte string',
  'Non-termination is a statement about an infinite execution; a test would just hang.',
  'util.py:UnpackMultipleByteArrays','util.py:UnpackByteArray')
p('Big integers and byte strings convert faithfully',
  'BytesToLong(BigIntToBytes(n)) == n; BytesToLong(PadBytes(b, k)) == BytesToLong(b); BigIntToBytes has no leading zero byte and the minimal length; IntToBytes(n) is the 4-byte big-endian representation of n mod 2**32.',
  'every non-negative integer n of any size, every byte string b and every k',
  'Cryptographic integers have thousands of bits.',
  'util.py:BigIntToBytes','util.py:BytesToLong','util.py:IntToBytes','util.py:PadBytes')
p('TrimBytes is a canonical form for padded integers',
  'TrimBytes(a) == TrimBytes(b) exactly when a and b represent the same non-negative integer (for non-empty a, b); hence the identifier (hash) of an RSA or DSA public key does not depend on how many leading zero bytes its stored parameters carry.',
  'every pair of byte strings; every public key and every amount of zero padding of each parameter',
  'Different implementations pad differently; all paddings must agree.',
  'util.py:TrimBytes','util.py:PrefixHash','keys.py:RsaPublicKey._Hash','keys.py:DsaPublicKey._Hash')
p('Xor is an involution with left zero padding',
  'Xor(Xor(a,b),b) == a when len(a) >= len(b); Xor is commutative; the result has the length of the longer operand.',
  'every pair of byte strings',
  'All lengths and contents.',
  'util.py:Xor','util.py:PadBytes')
p('Bit string conversion round trips',
  'BinToBytes(BytesToBin(s)) == s, and BytesToBin(s) is 8*len(s) characters 0/1.',
  'every byte string s',
  'All lengths and contents.',
  'util.py:BytesToBin','util.py:BinToBytes','util.py:IntToBin','util.py:_PadByte')
p('DSA signature encoding round trips',
  'ParseDsaSig(MakeDsaSig(r, s)) == (r, s), also when arbitrary bytes follow the encoding; so distinct (r, s) have distinct encodings, and trailing bytes are not detected.',
  'every pair of non-negative integers r, s of any size, every trailing byte string',
  'Length-of-length and sign-byte cases of DER occur at unboundedly many sizes.',
  'util.py:MakeDsaSig','util.py:ParseDsaSig')
# ---- B. symmetric
p('HMAC verification accepts exactly the MAC',
  'HmacKey.Verify(msg, sig) is True if and only if sig equals the HMAC-SHA1 of msg under the key; in particular every signature of a different length is rejected.',
  'every key, message and candidate signature',
  'The compare loop accumulates a bitwise OR over all positions; all pairs of strings matter.',
  'keys.py:HmacKey.Verify','keys.py:HmacKey.VerifySignedData')
p('PKCS5 padding round trips',
  'Unpadding the padded data returns the data; padding adds between 1 and 16 bytes and gives a multiple of 16.',
  'every byte string',
  'All lengths modulo the block size and all final bytes.',
  'keys.py:AesKey._Pad','keys.py:AesKey._UnPad')
p('AES key encrypt/decrypt round trip and layout',
  'AesKey.Decrypt(AesKey.Encrypt(m)) returns m for whichever IV is drawn; the ciphertext is Header(5) | IV(16) | CBC blocks | HMAC(20) and its length is 57 + 16*(len(m)//16).',
  'every AES key of a supported size, every HMAC key, every message, every IV',
  'All messages, keys and IVs.',
  'keys.py:AesKey.Encrypt','keys.py:AesKey.Decrypt')
p('AES ciphertexts are authenticated in full',
  'If AesKey.Decrypt(c) returns any plaintext then the last 20 bytes of c are the HMAC of all preceding bytes (header, IV and ciphertext). Consequently two accepted ciphertexts with the same body are identical, and altering only the tag of a valid ciphertext always raises InvalidSignatureError.',
  'every key and every input byte string',
  'Rejection must hold for all forged inputs.',
  'keys.py:AesKey.Decrypt')
p('No padding oracle',
  'When the HMAC tag of the input is wrong, AesKey.Decrypt raises InvalidSignatureError (or ShortCiphertextError for short input) and that outcome does not depend on the AES key at all, hence not on the decrypted padding.',
  'every pair of keys sharing the HMAC key, every input whose tag is invalid',
  'Two-run (non-interference) property over all inputs.',
  'keys.py:AesKey.Decrypt','keys.py:AesKey._UnPad')
# ---- C. key sets
p('At most one primary key is loaded',
  'Constructing any Keyczar from a reader fails with KeyczarError if two versions are PRIMARY; otherwise the object knows exactly the PRIMARY version, if there is one.',
  'every metadata document with any number of versions',
  'Any number and order of versions.',
  'keyczar.py:Keyczar.__init__')
p('Purpose matrix',
  'Encrypter accepts exactly key sets with purpose ENCRYPT or DECRYPT_AND_ENCRYPT, Crypter exactly DECRYPT_AND_ENCRYPT, Verifier and UnversionedVerifier exactly VERIFY or SIGN_AND_VERIFY, Signer and UnversionedSigner exactly SIGN_AND_VERIFY; any other purpose raises KeyczarError before any key file is read.',
  'every key set and every class',
  'Whole matrix for all key sets, and that no key is touched before the check.',
  'keyczar.py:Encrypter.IsAcceptablePurpose','keyczar.py:Crypter.IsAcceptablePurpose','keyczar.py:Verifier.IsAcceptablePurpose','keyczar.py:Signer.IsAcceptablePurpose')
p('Encrypted key sets need a decrypting reader',
  'Loading a key set whose metadata says encrypted raises KeyczarError unless the reader is an EncryptedReader, before any key file is read.',
  'every key set and reader',
  'For all key sets.',
  'keyczar.py:Keyczar.__init__','readers.py:EncryptedReader')
p('Outputs carry the identifier of the key that made them',
  'Every ciphertext and every (versioned) signature starts with the byte 0 followed by the 4-byte identifier of the primary key, and looking that header up in a key set that contains the key returns a key with that identifier.',
  'every key, message and key set',
  'For all keys; the identifier goes through Base64 twice.',
  'keys.py:Key.Header','keyczar.py:Keyczar._ParseHeader')
p('Crypter round trip',
  'For a key set loaded with a primary key and pairwise distinct key identifiers, Crypter.Decrypt(Crypter.Encrypt(m)) returns m, with or without Base64 encoding, for AES key sets; for RSA key sets the same holds for messages up to the OAEP limit.',
  'every key set, message, IV or OAEP seed',
  'All key sets with any number of versions.',
  'keyczar.py:Encrypter.Encrypt','keyczar.py:Crypter.Decrypt')
p('Header dispatch errors',
  'Crypter.Decrypt raises ShortCiphertextError on fewer than 5 bytes, BadVersionError if the first byte is not 0, KeyNotFoundError if no key has the given identifier; Verifier.Verify does the same with ShortSignatureError.',
  'every input and key set',
  'All malformed inputs.',
  'keyczar.py:Crypter.Decrypt','keyczar.py:Verifier.Verify','keyczar.py:Keyczar._ParseHeader')
p('No primary key means no output',
  'If the key set has no PRIMARY version then Encrypt, CreateEncryptingStreamWriter, Sign, AttachedSign and UnversionedSigner.Sign all raise KeyNotFoundError and produce no output. (The documented NoPrimaryKeyError is never raised.)',
  'every key set without primary, every message',
  'All key sets; the claim that the documented exception never occurs is universal.',
  'keyczar.py:Encrypter.Encrypt','keyczar.py:Signer.Sign','keyczar.py:Keyczar.GetKey')
p('Single primary invariant under key management',
  'Starting from any loaded key set, after any sequence of AddVersion, Promote, Demote and Revoke calls (some of which may fail), at most one version in the metadata is PRIMARY and the primary key used for new output is exactly that version.',
  'every initial key set, every operation sequence, every outcome of key generation for private/symmetric key types',
  'Unbounded histories.',
  'keyczar.py:GenericKeyczar.AddVersion','keyczar.py:GenericKeyczar.Promote','keyczar.py:GenericKeyczar.Demote','keyczar.py:GenericKeyczar.Revoke')
p('Key management follows the status automaton',
  'Each operation changes the version-number-to-status map exactly as documented: Promote takes INACTIVE to ACTIVE and ACTIVE to PRIMARY (turning the old primary ACTIVE) and fails on PRIMARY; Demote takes PRIMARY to ACTIVE and ACTIVE to INACTIVE and fails on INACTIVE; Revoke removes an INACTIVE version and fails otherwise; unknown versions fail; nothing else changes. A failed operation changes nothing.',
  'every reachable key set, version number and operation sequence',
  'Refinement over all histories to a simple map.',
  'keyczar.py:GenericKeyczar','keydata.py:KeyMetadata')
p('New versions get a fresh number',
  'AddVersion gives the new key the number max+1 over all versions of the object, so it never overwrites an existing version; version numbers within a key set are pairwise distinct. (Across processes a number can be reused: revoke the highest version, reload, add a key.)',
  'every reachable key set and operation sequence',
  'Unbounded histories.',
  'keyczar.py:GenericKeyczar.AddVersion','keydata.py:KeyMetadata.AddVersion')
p('Key identifiers stay pairwise distinct',
  'In a key set created empty and changed only through AddVersion, Promote, Demote and Revoke with reloads in between, no two versions have the same key identifier, however often key generation collides.',
  'every operation history and every sequence of generated keys',
  'Collisions are too rare to occur in tests and histories are unbounded.',
  'keyczar.py:GenericKeyczar.AddVersion')
p('Invalid size requests are rejected without effect',
  'AddVersion with a size not in the type\'s list raises KeyczarError and leaves the key set unchanged; a successful AddVersion generates a key of the requested size, or of the default size if none was given.',
  'every key set, status and size',
  'All integers as sizes.',
  'keyczar.py:GenericKeyczar.AddVersion','keyinfo.py:KeyType.IsValidSize','keys.py:GenKey')
p('A failed AddVersion leaves the key set unchanged',
  'Claimed for all failures; false of the code for public key sets (DSA_PUB/RSA_PUB): AddVersion(PRIMARY) raises KeyczarError after it has already demoted the old primary in memory. It holds for AES, HMAC, DSA_PRIV and RSA_PRIV sets.',
  'every key set and request',
  'Needs the state after each failure point.',
  'keyczar.py:GenericKeyczar.AddVersion','keys.py:GenKey')
p('Revoked keys are gone',
  'After keyczart revoke of a version, its key file no longer exists, the metadata does not list it, every newly loaded Keyczar raises KeyNotFoundError for ciphertexts and signatures made only by that key, and all other versions work as before. (Within one GenericKeyczar object Revoke alone does not do this: Write still writes, and PublicKeyExport still exports, the revoked key.)',
  'every key set directory and version',
  'All key sets; absence of a key is a universal statement.',
  'keyczart.py:Revoke','keyczar.py:GenericKeyczar.Revoke','keyczar.py:GenericKeyczar.Write','keyczar.py:GenericKeyczar.PublicKeyExport')
p('Old ciphertexts and signatures survive rotation',
  'A ciphertext (or signature) made with the primary key of a key set at some point still decrypts (verifies) after any later sequence of keyczart addkey, promote, demote and revoke commands, successful or not, as long as its own version has not been revoked.',
  'every command history, message, IV',
  'Unbounded histories with reload from disk at each step.',
  'keyczart.py:AddKey','keyczart.py:Promote','keyczart.py:Demote','keyczart.py:Revoke')
p('Write then load is the identity',
  'Writing a key set with Write(writer, encrypter) and loading it back (through an EncryptedReader with the same key set when an encrypter was given) yields the same name, purpose, type, versions, statuses and keys.',
  'every consistent key set of any type with any number of versions, with or without encrypter',
  'All key sets; goes through JSON text, Base64 and possibly encryption.',
  'keyczar.py:GenericKeyczar.Write','writers.py:FileWriter','readers.py:FileReader','keydata.py:KeyMetadata.Read')
p('Key serialisation round trips',
  'Reading the JSON text of an AES, HMAC, RSA or DSA key (private or public) gives a key with the same identifier that encrypts, decrypts, signs and verifies identically; in particular the swapped RSA primes and CRT coefficient come back in the right order.',
  'every key',
  'All key values.',
  'keys.py:AesKey.Read','keys.py:HmacKey.Read','keys.py:RsaPrivateKey.Read','keys.py:DsaPrivateKey.Read')
p('Metadata serialisation round trips',
  'KeyMetadata.Read(str(kmd)) has the same name, purpose, type, encrypted flag and versions in the same order; duplicate version numbers in a document keep the first.',
  'every metadata object, with any name string and any number of versions',
  'All documents.',
  'keydata.py:KeyMetadata.Read','keydata.py:KeyMetadata.__str__','keydata.py:KeyVersion.Read')
p('Create never overwrites a key set',
  'keyczart create fails with KeyczarError and changes nothing if the location already has metadata; otherwise it writes exactly an empty, unencrypted key set of the documented type for the purpose and asymmetric flag.',
  'every location state and flag combination',
  'All prior directory contents.',
  'keyczart.py:Create','writers.py:FileWriter.WriteMetadata')
p('Encrypted key sets are never rewritten in the clear',
  'No keyczart command (other than the genkey test-data generator) whose --location is a directory with metadata that says encrypted writes an unencrypted key file to it or changes the flag: commands without a crypter fail without touching the directory.',
  'every directory and every command sequence',
  'Unbounded histories.',
  'keyczart.py:CreateGenericKeyczar','keyczart.py:UpdateGenericKeyczar','keyczar.py:Keyczar.__init__')
p('Failed management commands have no effect on disk',
  'promote, demote and revoke with a missing, negative or unknown version number or a version in the wrong state raise KeyczarError and leave every file as it was; so does addkey with an unsupported size.',
  'every directory and argument',
  'All states and arguments.',
  'keyczart.py:Promote','keyczart.py:Demote','keyczart.py:Revoke','keyczart.py:AddKey')
p('Crash safety of key management commands',
  'Claimed: a crash at any point of a keyczart command leaves a loadable key set. False of the code: a crash in addkey after the metadata write leaves metadata naming a key file that does not exist, and a crash while promote rewrites a key file destroys that key. With atomic single-file writes, promote, demote and revoke are crash safe at every point: the directory loads as either the old or the new key set.',
  'every directory, command and crash point, including partially written files',
  'Crash points are not reachable from unit tests.',
  'keyczar.py:GenericKeyczar.Write','writers.py:FileWriter','keyczart.py:Revoke','util.py:WriteFile')
p('Concurrent addkey loses a key',
  'Two addkey commands that both read the directory before either writes end, in every interleaving of their file writes, with one new version number only, so one generated key is lost.',
  'every directory, pair of generated keys and interleaving of the file writes',
  'Interleavings are not controllable in tests.',
  'keyczart.py:AddKey','keyczar.py:GenericKeyczar.AddVersion','keyczar.py:GenericKeyczar.Write')
p('Public export works with the private set and leaks nothing',
  'The key set written by pubkey has the same version numbers, statuses and key identifiers, public type and purpose; it verifies signatures of, and encrypts for, the private set; and its files are the same for any two private key sets with the same public parts.',
  'every DSA or RSA private key set',
  'All key sets; independence of the private part is a two-run property.',
  'keyczar.py:GenericKeyczar.PublicKeyExport','keys.py:PrivateKey')
# ---- D. signatures, RSA, DSA
p('Signer round trip',
  'Verifier.Verify(m, Signer.Sign(m)) is True with the same key set, with or without encoding, for HMAC, RSA and DSA key sets.',
  'every key set, message and nonce k (for DSA: whenever r and s are non-zero)',
  'All messages and keys.',
  'keyczar.py:Signer.Sign','keyczar.py:Verifier.Verify')
p('HMAC signatures are unique',
  'For an HMAC key set, Verify(m, sig) is True only if the decoded sig is exactly header | HMAC(m | 0) for a key in the set; so two accepted signatures of m that name the same key are equal once decoded, and a signature for m is accepted for m2 only if the MACs of m|0 and m2|0 coincide. (The Base64 text itself is not unique: an appended newline is ignored.)',
  'every key set, message and candidate signature',
  'All forgeries.',
  'keyczar.py:Verifier.Verify')
p('Attached signatures round trip',
  'AttachedVerify(AttachedSign(m, nonce), nonce) returns m, for every nonce including the empty one, and whatever AttachedVerify returns was verified by the key named in the header against m, the nonce and the version byte.',
  'every message and nonce, every input blob including ones with negative or oversized length fields',
  'All blobs, including adversarial length fields.',
  'keyczar.py:Signer.AttachedSign','keyczar.py:Verifier.AttachedVerify')
p('Attached signatures bind the nonce',
  'The signed byte string determines message and nonce when the nonce length is fixed (as in signed sessions). Claimed without that restriction it is false: two different (message, nonce) pairs share one signed byte string, and an attached signature is also a valid plain signature of a longer message.',
  'every pair of messages and nonces',
  'Injectivity over all pairs.',
  'keyczar.py:Signer.AttachedSign','keyczar.py:Verifier.AttachedVerify','util.py:PackByteArray')
p('Unversioned verification tries every key',
  'UnversionedVerifier.Verify(m, sig) is True if and only if some key of the set, whatever its status, verifies the raw signature over m without version byte; UnversionedSigner.Sign output always verifies.',
  'every key set, message and signature',
  'All key set sizes and orders.',
  'keyczar.py:UnversionedVerifier.Verify','keyczar.py:UnversionedSigner.Sign')
p('Malformed signatures are reported as invalid',
  'Claimed: Verify returns False or raises KeyczarError for every malformed signature. True for HMAC and RSA; false for DSA, where bytes that are not DER raise a pyasn1 error, and for AttachedVerify, where a blob shorter than 9 bytes raises struct.error. A DER sequence with other than two elements is False for DSA, and one of two integers is never an error.',
  'every signature string',
  'All malformed inputs.',
  'keys.py:DsaPublicKey.Verify','util.py:ParseDsaSig','keyczar.py:Verifier.AttachedVerify')
p('OAEP round trip',
  'RsaPrivateKey.Decrypt(RsaPublicKey.Encrypt(m)) returns m for every message of at most k-42 bytes (k = bytes of the modulus) and every seed, except exactly when the encoded block starts with so many zero bytes that fewer than 42 remain; longer messages raise KeyczarError.',
  'every RSA key, message and seed',
  'Leading zero bytes after masking occur with probability 1/256 and less per message.',
  'keys.py:RsaPublicKey.Encrypt','keys.py:RsaPrivateKey.Decrypt')
p('RSA arithmetic is correct',
  'For primes p != q and e*d = 1 mod (p-1)(q-1), decryption by the Chinese remainder formula inverts encryption for every residue, using the stored primes and coefficient in the order they are read back.',
  'all primes p, q, exponents and residues',
  'All key sizes.',
  'keys.py:RsaPrivateKey.Generate','keys.py:RsaPrivateKey.Read')
p('RSA signatures: fixed length and round trip',
  'RSA signatures are exactly size/8 bytes and verify; a signature is accepted exactly when its e-th power is the EMSA-PKCS1-v1_5 encoding of the SHA-1 hash; verification does not depend on leading zero bytes of the signature, so an accepted signature is not unique.',
  'every RSA key and message',
  'Short signatures appear with probability 1/256.',
  'keys.py:RsaPrivateKey.Sign','keys.py:RsaPublicKey.Verify','util.py:MakeEmsaMessage')
p('DSA round trip',
  'For valid domain parameters, DsaPublicKey.Verify accepts DsaPrivateKey.Sign(m) for every m and every per-message k for which r and s are non-zero; when r or s is 0, which the code does not check, the produced signature is rejected.',
  'all parameters, messages and k',
  'The failing k are too rare to be hit.',
  'keys.py:DsaPrivateKey.Sign','keys.py:DsaPublicKey.Verify')
p('Mask generation length',
  'MGF(seed, n) returns exactly n bytes, is a prefix-monotone function of n, and raises KeyczarError only above 2**32 * 20.',
  'every seed and length',
  'All lengths.',
  'util.py:MGF')
# ---- E. sessions
p('Session round trip',
  'A SessionDecrypter built from the session material of a SessionEncrypter decrypts every ciphertext of that encrypter to the original plaintext (with an RSA outer key set, except when the OAEP block of the material has too many leading zero bytes, see C48; then construction raises KeyczarError).',
  'every session key, RSA or AES outer key set, message, IVs',
  'All keys and messages.',
  'keyczar.py:SessionEncrypter','keyczar.py:SessionDecrypter','keyczar.py:_Session.LoadPackedKey')
p('Signed session round trip and authenticity',
  'SignedSessionDecrypter.Decrypt returns the original plaintext for every output of the matching SignedSessionEncrypter; if it returns a plaintext at all, the verifier accepted a signature over the ciphertext and the session nonce; if the signature does not verify it returns None.',
  'every session, message, signer and input blob',
  'All inputs.',
  'keyczar.py:SignedSessionEncrypter','keyczar.py:SignedSessionDecrypter')
p('Session material needs a large enough RSA key',
  'With an RSA encrypter, SessionEncrypter construction succeeds exactly when the modulus has at least 102 bytes, so 512- and 768-bit sets always fail and 1024-bit and larger sets never do. SignedSessionEncrypter encrypts 204 bytes of JSON and needs 246 bytes, so 1024-bit sets fail too and 2048-bit and larger sets never do.',
  'every RSA key set and generated session key',
  'All keys.',
  'keyczar.py:SessionEncrypter','keys.py:RsaPublicKey.Encrypt')
# ---- F. streams
p('Encrypting stream output does not depend on chunking',
  'Writing data to an encrypting stream in any sequence of write() calls followed by flush() puts exactly the ciphertext on the output stream that Encrypt would return for the concatenated data with the same IV; Crypter.Decrypt accepts it.',
  'every sequence of chunks, key and IV',
  'Unbounded chunkings; buffer state depends on history.',
  'keys.py:EncryptingStreamWriter','keyczar.py:Encrypter.CreateEncryptingStreamWriter')
p('Decrypting stream returns the plaintext under every schedule',
  'Reading a valid ciphertext through a decrypting stream until it returns the empty string yields exactly the plaintext, whatever read sizes the caller uses and however the input stream splits its data or reports no data yet; results never exceed the requested number of characters.',
  'every message, key, IV, read-size sequence and input schedule',
  'Schedules are unbounded.',
  'keys.py:DecryptingStreamReader','keyczar.py:Crypter.CreateDecryptingStreamReader')
p('Decrypting stream authenticates before reporting the end',
  'Claimed: a decrypting stream never reports a normal end (empty string) unless the tag was verified. False for truncated input: when at most 20 bytes follow header and IV (or header/IV are incomplete) the stream ends normally without any check. It holds whenever more than 20 bytes follow the IV and nothing was raised before; after the exception for a bad tag, later reads return the remaining unauthenticated plaintext and then a normal end. A refused header is not final either: the next read takes the bytes behind it as a fresh stream, so five foreign bytes before a ciphertext cost one exception and nothing else. A header that names a key other than an AES key raises AttributeError on every read.',
  'every input byte string and schedule',
  'All truncations and forgeries.',
  'keys.py:DecryptingStreamReader.read')
p('Closed streams refuse all operations',
  'After close(), write, flush and close on an encrypting stream and read on a decrypting stream raise ValueError and write nothing; close discards data buffered but not flushed.',
  'every operation sequence',
  'All histories.',
  'keys.py:EncryptingStreamWriter','keys.py:DecryptingStreamReader')
# ---- G. CLI, util
p('Command line parsing',
  'keyczart dispatches to exactly one command with the values of the last well-formed occurrence of each flag; a value containing "=" is dropped with a usage message, unknown flags and commands raise KeyczarError before anything is changed. create with a name that is not in UTF-8 fails like any other create, and where that would succeed raises ValueError and writes nothing.',
  'every argument vector',
  'All argument vectors.',
  'keyczart.py:main')
p('Memoize is transparent',
  'A memoized deterministic function returns the same results as the original on every call sequence exactly when arguments that pickle alike have equal results, and the original succeeds at most once per distinct pickled argument. Arguments that cannot be pickled raise, and exceptions are not remembered.',
  'every function and call sequence',
  'Unbounded call histories.',
  'util.py:Memoize')
# ---- H. Python 3 literal reading
p('Under Python 3 no non-empty key set can be loaded',
  'The source only parses under Python 3, but it mixes str and bytes: under Python 3 typing rules Base64WSEncode raises TypeError on every value, every key identifier computation raises (TypeError on well-formed key material), hence loading any key set with at least one version raises, and AddVersion never succeeds. Everything above is stated for the byte-string semantics the code and its tests assume.',
  'every key set and input',
  'A universal failure statement.',
  'util.py:Base64WSEncode','util.py:IntToBytes','util.py:Hash','keys.py:Key._Hash','keyczar.py:Keyczar.__init__')
# ---- I. found while proving
p('PKCS#8 and X.509 text round trips',
  'For all key parameters that Export*Pkcs8 and Export*X509 accept, ParsePkcs8 and ParseX509 return exactly the exported parameters, and what is exported is the DER of the PKCS#8 or X.509 structure. Data after the structure is ignored by the parsers.',
  'every parameter set',
  'Unbounded integers; DER lengths and sign bytes have many edge cases.',
  'util.py:ParsePkcs8','util.py:ExportRsaPkcs8','util.py:ExportDsaPkcs8','util.py:ParseX509','util.py:ExportRsaX509','util.py:ExportDsaX509')
p('pubkey overwrites its destination',
  'Unlike create, pubkey does not look at what its destination holds: the metadata there is replaced. With the destination equal to the location the private key files are replaced by public ones and the private keys are lost.',
  'every private key set, destination and disk',
  'A statement about every prior content of the destination.',
  'keyczart.py:PubKey','keyczar.py:GenericKeyczar.PublicKeyExport')
p('addkey with a crypter that cannot encrypt breaks the set',
  'Claimed: a failing addkey leaves the directory as it was. False: addkey with a crypter set that has no primary key fails after the metadata naming the new version has been written, and the directory can then no longer be loaded.',
  'every encrypted key set and crypter set without primary',
  'Needs the order of the writes for every key set.',
  'keyczart.py:AddKey','keyczar.py:GenericKeyczar.Write')
p('Both cipher libraries give the same ciphertexts',
  'AesKey.Encrypt gives the same ciphertext or exception through the M2Crypto adaptor as through PyCrypto, and either decrypts. The adaptor encrypts and decrypts block data in CBC mode however it is cut into pieces, raises in final() when the data is not whole blocks, and its assertion that only one direction was used fails when both or none were.',
  'every key, IV, message and division of the data into pieces',
  'All keys, messages and divisions; only one of the two libraries is installed at a time.',
  'keys.py:AesKey.EVPAdaptor','keys.py:AesKey.Encrypt')
p('Equality of keys',
  'Key equality is an equivalence relation and keys of different types differ. Equal HMAC keys are identical. Claimed: equal keys are interchangeable. False: AES keys with different HMAC keys compare equal, and any two DSA or RSA keys of the same type and size compare equal whatever their numbers.',
  'every pair of keys',
  'All pairs of keys.',
  'keys.py:Key.__eq__','keys.py:SymmetricKey','readers.py:MockReader.HasPubKey')
p('Output sizes of cipher modes',
  'CipherMode.GetOutputSize for CBC is the length of initialization vector and ciphertext that AesKey.Encrypt produces; for DET_CBC it is the smallest number of whole blocks larger than the input, and CBC takes one block more. Exactly the modes with an initialization vector make room for one.',
  'every block size, input length and AES key',
  'All lengths.',
  'keyinfo.py:CipherMode.__init__','keys.py:AesKey.Encrypt')
p('Any number of keyczart processes at the same time',
  'Any number of create, addkey (with the crypter of the set), promote, demote and pubkey (to other directories) processes running at the same time on one directory, with file reads and writes interleaved in any way, leave a directory that loads, with the same purpose and type, in which every earlier version is still present with its key. Claimed also for revoke. False: revoke together with any other change can leave a directory that does not load, or leave the revoked key in the set, although both commands succeed.',
  'every key set, crypter, number of processes and interleaving',
  'Interleavings of any number of processes cannot be enumerated by tests.',
  'keyczart.py:AddKey','keyczart.py:Promote','keyczart.py:Demote','keyczart.py:Revoke','keyczar.py:GenericKeyczar.Write')
p('Test key sets made by genkey',
  'When keyczart genkey succeeds, each of the directories aes, aes-crypted, hmac, rsa, rsa-sign and dsa holds exactly a key set named Test with an active version 1 and a primary version 2 of the default size and different identifiers, and the files 1.out and 2.out with what each key, while primary, made of the test message; the keys of aes-crypted are encrypted under those of aes; dsa.public and rsa-sign.public hold the public key sets. Everything loaded from a directory decrypts or verifies both outputs. Nothing else on the disk changes, also when the command fails. It succeeds when the directories exist and valid keys are generated, and raises without a location or if the first directory is missing.',
  'every disk, random choice and order of listing files',
  'All disk contents and all random choices of keys and nonces.',
  'keyczart.py:GenKeySet','keyczart.py:Clean','keyczart.py:UseKey','keyczart.py:KEYSETS')
p('Which backend serves a location',
  'A location that exists is always read and written as files, whatever backend plugins are installed. Any other location goes to the first plugin class, in the order of loading, that does not decline; if all decline, KeyczarError is raised. Each plugin name is run at most once per process, never if Python already has a module of this name, and always from the first directory of sys.path that has it, so that of two plugins with the same file name one is never loaded. A plugin that raises when imported makes every CreateReader and CreateWriter raise, also for key sets in files.',
  'every set of plugins, environment variable, location, disk and history of calls',
  'Plugins are third party code; tests run with none.',
  'readers.py:CreateReader','writers.py:CreateWriter','util.py:ImportAll','util.py:ImportBackends')
p('Lengths computed in floating point',
  'The number of bytes of the RSA modulus is computed with a floating point logarithm. It is right for every number below 2^65536 that is not within a factor 1 +- 2^-26 of a power of 256, in particular for every usable RSA key whose 26 leading bits are not all ones; then OAEP encoding and decoding are those of the exact length. A 512-bit modulus with 54 leading ones gets one byte too many. The round trip survives any length both sides agree on if the block stays below the modulus. The number of hash blocks in MGF1, also computed in floating point, is always right.',
  'every modulus, every rounding and logarithm within the IEEE and C library error bounds',
  'The wrong moduli are too rare to be generated by a test, and error bounds speak about all numbers.',
  'keys.py:RsaPublicKey.__Encode','keys.py:RsaPrivateKey.__Decode','util.py:MGF')
p('Tests through the mock key set see what happens on disk',
  'The unit tests of keyczart run the commands on a mock key set in memory. Every unencrypted mock has a directory that mirrors it. Any sequence of addkey (without crypter), promote, demote, revoke and pubkey has the same outcomes, error for error, on the mock and on the directories that mirror it, which still mirror it afterwards; so has create when there is no metadata yet. Both are read alike, and the statuses and keys that tests look at are those on disk. Not so with a crypter, which the mock ignores, and for a second create, which is refused on disk and throws the metadata away on the mock.',
  'every mock, directory, sequence of commands, order of versions and random choice',
  'This is about what tests can conclude: tests on the mock do not touch the code that writes files.',
  'readers.py:MockReader','keyczart.py:mock','keyczart.py:UpdateGenericKeyczar','keyczar.py:GenericKeyczar.PublicKeyExport')
p('What RSA decryption accepts',
  'For a valid RSA key, Decrypt returns a message exactly when the ciphertext is the encryption of a block with as many bytes as the modulus and at least 42 after its leading zeros, hiding the hash of the empty label, zeros, a one and the message. Claimed: the block then is an OAEP encoding of PKCS#1. False: only blocks that begin with a zero byte are; the decoder also takes blocks with no zero byte and the hidden part one byte longer, so messages one byte longer than Encrypt allows decrypt. Claimed: everything else raises KeyczarError. False: blocks with the label hash and only zeros after it raise IndexError, and anyone can make them with the public key. There is no other outcome below the modulus. Numbers not below the modulus raise ValueError or are reduced, depending on the library. Zero bytes after the header change nothing, so no accepted ciphertext is the only one for its message.',
  'every valid RSA key, ciphertext, seed and message',
  'The blocks in question never come out of Encrypt; a test has to search for them.',
  'keys.py:RsaPrivateKey.__Decode','keys.py:RsaPrivateKey.Decrypt','keyczar.py:Crypter.Decrypt')
p('Using a key set while it is changed',
  'An application that loads a key set while keyczart processes work on it, reading each file at some moment: (1) as long as no command adds or revokes a version in the directory, loading always succeeds and gives exactly the versions and keys there were; with distinct identifiers every object so loaded decrypts what any other one encrypts, whichever was loaded first; (2) with addkey among the commands, an object that does load has all old versions with their keys and statuses that were on disk at one time, and what is encrypted or signed under an old key is decrypted or verified by every other such object with distinct identifiers; (3) during each successful addkey there is a moment at which the set cannot be loaded at all, and a reader whose reads fall before and after a successful revoke fails; (4) with two addkeys from the same directory a message encrypted in between can be lost for good.',
  'for all disks, key sets, purposes and classes, numbers of processes, commands, interleavings and moments of reading',
  'The outcome depends on the moment of every read and write; a test sees a few schedules.',
  'keyczart.py:AddKey','keyczart.py:Promote','keyczart.py:Demote','keyczart.py:Revoke','keyczar.py:Keyczar.__init__','keyczar.py:GenericKeyczar.Write','readers.py:FileReader.GetKey')
p('Malformed key set files',
  'KeyMetadata.Read accepts exactly the documents with the items name, purpose, type, encrypted and versions, known names, and version records each with number, known status and exportable (an empty string or dictionary also counts as no versions), and gives what they say, the first record of each number counting. ReadKey accepts exactly the documents of a key of the type, with no relation between their items checked and any size that is not allowed replaced by the default. Claimed: everything else is reported as KeyczarError. False: a text that is not JSON raises ValueError; metadata raise KeyError for a missing item and TypeError for a value of the wrong kind, the first fault in reading order counting; keys raise TypeError if not a dictionary and AssertionError for an AES mode that is not CBC. The constructors of all classes let these through. Nothing else is ever raised, and parsing always ends.',
  'all byte strings, all JSON documents, all key types and classes',
  'Tests try a few broken files; the order of faults and the absence of other exceptions concern all of them.',
  'keydata.py:KeyMetadata.Read','keydata.py:KeyVersion.Read','keyinfo.py:GetStatus','keyinfo.py:GetType','keys.py:ReadKey','keyczar.py:Keyczar.__init__')
p('Interoperability tests',
  'interop_test.py: whatever generate prints for an operation (sign, attached, unversioned, encrypt, signedSession) with a key set of good keys, test accepts with the same key set, or with its public counterpart (encryption: generated with the counterpart), for plain and encrypted key sets, encoded or not; RSA encryption if the message fits and its padding has enough nonzero bytes, DSA if the signature has two nonzero numbers. The command lists of interop.py, if they succeed on empty directories, create such key sets: two keys of the size asked for, the newer one primary, the public set the counterpart of the private one; encrypted sets one key, readable with the crypter. Conversely a test that passes has opened the key set named by algorithm and options and verified the signature of the test data with it, or decrypted to exactly the test data; one ciphertext passes for one text only. A second argument is ignored, generate and test change no file. Claimed: the test of attached signatures checks the message. False: its result does not depend on the test data, and for empty data it fails although the signature is good.',
  'all key sets, disks, texts, options, random choices and key sizes',
  'Interop runs cover a fixed list of data and options; that the attached test checks nothing about the message cannot be seen in passing runs.',
  'interop_test.py:main','interop_test.py:SignOperation.Test','interop_test.py:AttachedSignOperation.Test','interop_test.py:EncryptOperation.Generate','interop_test.py:SignedSessionOperation.Generate','interop_test.py:UnversionedSignOperation.Test','interop_test.py:BaseOperation._GetReader','interop.py:InteropTestRunner._Create','interop.py:InteropTestRunner._CreateEncrypted')
p('JSON texts',
  'Reading a text as JSON succeeds exactly for the documents of the JSON grammar (in UTF-8, numbers integers) and gives the value the grammar assigns: white space anywhere between tokens, all escapes, surrogate pairs, a name repeated in an object keeping its first place and its last value. The value is unique, and what the code writes with json.dumps is such a document, on one line of printable ASCII characters, and known byte for byte (which characters are escaped and how, where blanks stand). So two files that say the same, however laid out, are read as the same metadata or the same key; metadata and keys are read exactly from the documents that say one. Every other text raises ValueError (not KeyczarError), in the constructor of every class too, unless it contains a non-ASCII byte, a fraction or exponent, NaN, Infinity or the escape of a surrogate.',
  'all byte strings, all JSON values, key types and classes',
  'Tests read files that the code itself wrote, in one layout; the set of texts accepted is infinite.',
  'keydata.py:KeyMetadata.Read','keys.py:ReadKey','keys.py:AesKey.Read','keys.py:RsaPrivateKey.Read','keyczar.py:Keyczar.__init__')
p('Opening key sets by location',
  'The static methods Read of the eight classes: for an existing directory they all open the key set in its files, whatever backends have been imported, if the imports succeed; two classes that accept the purpose hold the same key set. Keyczar.Read never returns. str() of an object is a metadata text saying what the metadata file said, independent of the key files. Claimed: a location served by a backend can be opened by every class. False: UnversionedVerifier.Read and UnversionedSigner.Read make a FileReader, ask no backend, import nothing and raise KeyczarError for such a location; conversely a failing import disables the other six classes for all locations, and not these two.',
  'all classes, locations, disks, plugin directories, earlier calls and interpreter states',
  'Tests open directories only; the backend tests call CreateReader directly, not the classes.',
  'keyczar.py:Keyczar.Read','keyczar.py:UnversionedVerifier.Read','keyczar.py:UnversionedSigner.Read','keyczar.py:Crypter.Read','keyczar.py:Keyczar.__str__','readers.py:CreateReader')
p('Which strings are accepted as DSA signatures',
  'ParseDsaSig returns (r, s) for exactly the strings that begin with a definite-length BER encoding of a sequence of these two integers; MakeDsaSig makes the DER encoding. A loaded set of DSA keys with prime q accepts exactly the header of one of its keys, such an encoding of a pair that FIPS 186-2 accepts for the SHA-1 digest of the message and a zero byte, and then anything. Claimed: an accepted signature cannot be changed into another one without the key. False: anything can be appended, and lengths can be written in more octets.',
  'all byte strings, pairs of integers, loaded DSA key sets and messages',
  'The strings accepted besides those that Sign makes are infinitely many, and tests only try those that Sign makes.',
  'util.py:ParseDsaSig','util.py:MakeDsaSig','keys.py:DsaPublicKey.Verify','keyczar.py:Verifier.Verify')
p('Which blobs are accepted as attached signatures',
  'AttachedVerify returns data exactly for the blobs that name a key of the set, are cut into data and a signature in one of five ways according to the length field, and whose signature that key verifies over the data, the nonce with its length and a zero byte. The field is signed and negative offsets count from the end. Claimed: for one key, data, nonce and signature there is one blob. False: the length field can be replaced by minus nine minus the length of the signature.',
  'all loaded key sets with distinct identifiers, byte strings, nonces below 2^31 bytes and decoders',
  'Tests try blobs that AttachedSign made, some with a flipped byte; the negative length field is one value of 2^32.',
  'keyczar.py:Verifier.AttachedVerify','util.py:UnpackByteArray')
p('Which strings are accepted as signatures',
  'A key accepts exactly the signatures of FIPS 198 (HMAC), PKCS#1 v1.5 with SHA-1 (RSA; as a number, below the modulus if the library checks this), FIPS 186-2 (DSA). Verify accepts exactly the header of a key of the set followed by a signature of the message and a zero byte under that key; AttachedVerify the same with the cut of the blob and the nonce; the unversioned Verify exactly the signatures of the message under some key. Claimed: signatures of one kind are never accepted as another kind. False: a plain signature without its header is an unversioned signature of the message and a zero byte.',
  'all loaded key sets of HMAC, RSA (at least 368 bits) and DSA (prime q) keys, byte strings, nonces and decoders',
  'Equivalence of the code with the standards for all strings, not only for those that Sign makes.',
  'keyczar.py:Verifier.Verify','keyczar.py:Verifier.AttachedVerify','keyczar.py:UnversionedVerifier.Verify','keys.py:HmacKey.Verify','keys.py:RsaPublicKey.Verify','keys.py:DsaPublicKey.Verify','util.py:MakeEmsaMessage')
p('What AES decryption accepts and returns',
  'Decrypt with AES keys returns a message exactly for the strings made of the header of a key of the set, an initialization vector, the CBC encryption of at least one block, and the HMAC of all this; the message is what is left when as many bytes are dropped as the last byte says. Encrypt produces exactly such a string, of the message with PKCS#5 padding. Claimed: only what Encrypt can produce is accepted. False: the padding is not checked. Claimed: the other strings raise a KeyczarError. False: with the right HMAC, a body that is not made of blocks is a ValueError and an empty body an IndexError.',
  'all loaded sets of AES keys with distinct identifiers, byte strings and decoders',
  'Strings with a right HMAC and wrong padding are not made by Encrypt, so no round trip test sees them.',
  'keyczar.py:Crypter.Decrypt','keys.py:AesKey.Decrypt','keys.py:AesKey.Encrypt','keys.py:AesKey._UnPad')
p('What is signed and encrypted, byte for byte',
  'Sign produces exactly the header of the primary key followed by the signature of the message and a zero byte that the standard prescribes: FIPS 198 (HMAC), PKCS#1 v1.5 with SHA-1 in as many octets as the modulus has (RSA), the DER encoding of r and s of FIPS 186-2 for the drawn number (DSA). AttachedSign and the unversioned Sign likewise with their layouts. Encrypt with an RSA key produces the header followed by the RSA encryption of the OAEP encoding with the drawn seed. Claimed: this ciphertext has the length of the modulus. False: leading zero octets are left out.',
  'all loaded key sets with a usable primary key, messages, nonces below 2^31 bytes and random choices',
  'Round trips do not show that another implementation of the standards agrees; test vectors show it for one key and message.',
  'keyczar.py:Signer.Sign','keyczar.py:Signer.AttachedSign','keyczar.py:UnversionedSigner.Sign','keyczar.py:Encrypter.Encrypt','keys.py:HmacKey.Sign','keys.py:RsaPrivateKey.Sign','keys.py:DsaPrivateKey.Sign','keys.py:RsaPublicKey.Encrypt','util.py:MakeDsaSig')
p('Under Python 3 the library and the tool fail closed',
  'Run by Python 3, exactly the key sets without versions can be opened. Nothing is ever encrypted, decrypted, signed or accepted, whatever files, keys and inputs there are; no session is begun or taken up. addkey, promote, demote, revoke and genkey always raise; no history of commands writes a key file. Claimed: a command that fails leaves the files as they were. False: genkey deletes all files of an existing set aes before it raises.',
  'all files, metadata and key readings, inputs, coders, crypters and histories of commands',
  'That nothing works is a statement about all files and inputs; the test suite cannot be run in this reading at all.',
  'keyczar.py:Keyczar._ParseHeader','keyczar.py:Keyczar.__init__','keyczar.py:Encrypter.Encrypt','keyczar.py:Signer.Sign','keyczar.py:_Session.New','keyczart.py:AddKey','keyczart.py:GenKeySet','keyczart.py:Clean','keyczart.py:PubKey')
p('What session material is accepted, byte for byte',
  'LoadPackedKey makes a session of exactly the byte strings in which a signed length field leads, forwards or counted from the end, to a second one that ends the string; it holds the two keys found there. LoadJsonSession accepts exactly the JSON texts with an AES key under key and Base64 under nonce. SessionDecrypter and SignedSessionDecrypter are made of exactly the materials the Crypter decrypts to these, and they accept exactly the AES messages under the session key, for signed sessions with an attached signature over the nonce of the session. Claimed: keys have one packed form, and a session that is accepted can be used. False: the count is not looked at, lengths may be negative, and AES keys of any length are accepted, with which nothing can be decrypted.',
  'all byte strings as material, all Crypters, verifiers, messages and decoders',
  'Which strings are accepted is a statement about all strings; the tests unpack only what was packed.',
  'keyczar.py:_Session.LoadPackedKey','keyczar.py:_Session.LoadJsonSession','keyczar.py:SessionDecrypter.__init__','keyczar.py:SessionDecrypter.Decrypt','keyczar.py:SignedSessionDecrypter.__init__','keyczar.py:SignedSessionDecrypter.Decrypt','util.py:UnpackMultipleByteArrays','util.py:UnpackByteArray')
p('The primitives of the model are those of the standards',
  'The block function with which the model is instantiated is the cipher of FIPS 197: substitution by inversion in the field of 256 elements and an affine map, shifted rows, columns multiplied by a polynomial, the key schedule by its recurrence, in 10, 12 or 14 rounds; decryption is its inverse. The hash function, hence Hash, is SHA-1 of FIPS 180-4 on messages of fewer than 2^64 bits: padding, message schedule, 80 steps on 32-bit words.',
  'all keys of 16, 24 and 32 bytes, all blocks, all messages below 2^64 bits',
  'Test vectors check a few keys, blocks and messages; a wrong entry of a table need not show in them.',
  'util.py:Hash','keys.py:AesKey.Encrypt','keys.py:AesKey.Decrypt')
p('What a failed decryption says',
  'A ciphertext for an AES key whose tag is wrong gives one exception with one text, whatever else is wrong with it; too short ciphertexts, another version and an unknown identifier give texts that only repeat a length, the first byte or the identifier. The comparison of MACs goes through all bytes of strings of equal length, wherever they differ. Claimed: RSA decryption does not say why it failed. False: the text says whether the decrypted number is below 256^41 and then how many bytes it has, also for every multiple of the number that a holder of the public key and the ciphertext chooses, and otherwise which test of the data block failed first.',
  'all loaded sets with distinct identifiers, valid RSA keys, byte strings, pairs of MACs',
  'That nothing more is said is a statement about all ciphertexts; the tests look at the class of an exception, not at what its text depends on.',
  'keyczar.py:Crypter.Decrypt','keyczar.py:Keyczar._ParseHeader','keys.py:AesKey.Decrypt','keys.py:RsaPrivateKey.__Decode','keys.py:RsaPrivateKey.Decrypt','keys.py:HmacKey.VerifySignedData','errors.py:ShortCiphertextError')
p('Whatever is accepted was made by the library, or a primitive is broken',
  'After any sequence of signatures and encryptions, requested in any order from key sets in any state: an AES ciphertext that Decrypt accepts is one of the outputs of Encrypt, or ends with a new text and its right MAC under the HMAC key of a key of the set; a signature that Verify, AttachedVerify, the unversioned Verify or a signed session accepts holds a signature of a text that no equal key was asked to sign, or was asked for. Outputs are made of one signature of one text and of public data. Claimed: what Verify accepts, if it is no forgery, was signed with Sign. False if the keys are also used otherwise: an attached signature is a plain and an unversioned signature of other messages. True if the key set is used for plain signatures only, or for attached signatures with nonces of one length only, as by signed sessions.',
  'all finite histories of calls, all key sets, all byte strings submitted',
  'Tests submit altered signatures and ciphertexts; that no other string is accepted after any history is a statement about all strings and histories.',
  'keyczar.py:Signer.Sign','keyczar.py:Signer.AttachedSign','keyczar.py:UnversionedSigner.Sign','keyczar.py:Verifier.Verify','keyczar.py:Verifier.AttachedVerify','keyczar.py:UnversionedVerifier.Verify','keyczar.py:Crypter.Decrypt','keyczar.py:Encrypter.Encrypt','keyczar.py:SignedSessionDecrypter.Decrypt')
p('What AES ciphertexts reveal',
  'The length of a ciphertext says how many blocks the padded message has and no more, the header depends on the key only. Two blocks of ciphertexts under one AES key are equal exactly if the exclusive or of the two blocks of the messages is that of the ciphertext blocks before them, which everybody sees. If an initialization vector were used twice, the ciphertexts would show how many blocks the messages have in common; if the next one were known beforehand, any guess of the first block of a message could be tested with one request. So all rests on the random bytes of AesKey.Encrypt.',
  'all pairs of encryptions with loaded key sets with an AES key as primary, all messages, random bytes and positions of blocks',
  'A test encrypts a few messages; what can be learned from ciphertexts is a statement about all pairs of messages and all positions.',
  'keys.py:AesKey.Encrypt','keys.py:AesKey._Pad','keyczar.py:Encrypter.Encrypt','keys.py:Key.Header')
p('What the numbers drawn for signatures protect',
  'Signatures of HMAC and RSA keys are determined by the key and the signed text, whatever the random number generator returns. A DSA signature and the number drawn for it give the private number of the key modulo q. When a number is drawn twice with a key, both signatures show the same r, and the two signatures alone give the private number if the digests differ modulo q. A number congruent to the private number modulo q makes the same signatures. So all rests on the random integer in DsaPrivateKey.Sign.',
  'all pairs of successful calls of Sign, AttachedSign and the unversioned Sign, all keys, messages and drawn numbers',
  'A test signs a few messages and verifies them; that the private key follows from outputs is a statement about all keys, messages and numbers.',
  'keys.py:DsaPrivateKey.Sign','keys.py:HmacKey.Sign','keys.py:RsaPrivateKey.Sign','keyczar.py:Signer.Sign','keyczar.py:Signer.AttachedSign','keyczar.py:UnversionedSigner.Sign','util.py:MakeDsaSig')
p('What writing to the directory of an encrypted key set allows',
  'Exactly which key sets open through an EncryptedReader: the metadata counts as it stands, and each file is whatever the crypter decrypts to a key of the type. Claimed: the key files and the metadata of an encrypted set cannot be changed unnoticed by someone without the crypter. With an AES crypter each key that is loaded is one from a text that was encrypted with a key of the crypter, or its file holds the forgery of a MAC. Otherwise false: replacing the metadata makes any version primary, brings back any version whose file is still there and changes name, purpose and flags; key files can be exchanged and taken over from other sets of the same type; with an RSA crypter everybody with the public key makes files for keys of their own choice; without an EncryptedReader any unencrypted set put in place opens.',
  'all readers, directories, metadata and key files, all crypters that load',
  'That nothing ties a key file to its number, status and set is a statement about all ways of putting files together; the tests open the sets as they were written.',
  'readers.py:EncryptedReader.GetMetadata','readers.py:EncryptedReader.GetKey','keyczar.py:Keyczar.__init__','keyczar.py:Crypter.Decrypt','keydata.py:KeyMetadata.Read')
p('Keys with the same identifier in one set',
  'Identifiers are 4 bytes of a digest. A set in which several keys have the same identifier loads without an error and reads ciphertexts and signatures exactly as a set that has only one version for each identifier. So whatever it accepts is still a signature under one of its keys, and AES ciphertexts were made by the library or hold a forged MAC. Claimed: a Signer or Crypter accepts what it made itself. False here: of two keys with one identifier one is shadowed, and its signatures are refused except where both MACs agree; if it is the primary key, so are the own signatures. Unversioned signatures are not affected.',
  'all loaded key sets, whatever their identifiers, all inputs, encodings and orders of dictionaries',
  'No test set has two keys with one identifier; two such keys are found with some 80000 digests.',
  'keyczar.py:Keyczar.__init__','keyczar.py:Keyczar._ParseHeader','keyczar.py:Keyczar.GetKey','keyczar.py:Crypter.Decrypt','keyczar.py:Verifier.Verify','keyczar.py:Verifier.AttachedVerify')
p('What a decrypting stream hands out before the authentication code is checked',
  'Claimed: a program that reads a DecryptingStreamReader gets no data that was not authenticated. False, as the documentation of read says (the signature is validated on the final read); how much is at stake: whatever the input is, if its header names an AES key of the set, then all that reads return, before and after exceptions, is the beginning of the CBC decryption of its blocks without the last twenty bytes, and reads that ask for all there is return all of it but blocks within the last 67 bytes before anything is checked or raised. In an input put together from ciphertext blocks, the block handed out in a place where a genuine block stands is the block of the message, changed by what is before it now; with a change to the initialization vector of any output of Encrypt the reads return the message with the same change to its first block, except at most the last 31 bytes. One-shot Decrypt returns nothing in these cases.',
  'all inputs, input streams and schedules, all key sets, keys, messages and changes, any number of reads',
  'The tests read whole genuine ciphertexts; what is returned for every changed input before the check is a statement about all inputs and all sequences of reads.',
  'keys.py:DecryptingStreamReader.read','keyczar.py:Crypter.CreateDecryptingStreamReader','keyczar.py:Crypter.Decrypt')
p('Recovering from interrupted commands',
  'A directory that has a metadata file but does not load, as an interrupted write of the metadata leaves it, stays so: every keyczart command on it, create included, fails and changes nothing, so no sequence of commands gets it out, unless a public key set is exported to it. By hand: after an interruption between two effects of addkey, promote, demote or revoke, before a removal, putting the old metadata file back gives the old key set back; after any interruption, all versions but at most one, whose key file was being written or removed, load again with metadata for them. That one version is lost: no metadata makes a set load with it. Starting over with create and addkey does not help, as the first new key overwrites the file of the old version 1.',
  'all key sets held unencrypted, all addkey, promote, demote and revoke commands, all points of interruption, all sequences of commands afterwards, all texts put in place of the metadata',
  'The tests interrupt nothing; what can be recovered is a statement about every point of interruption of every command.',
  'keyczart.py:Create','keyczart.py:AddKey','keyczart.py:Promote','keyczart.py:Demote','keyczart.py:Revoke','keyczar.py:GenericKeyczar.Write','writers.py:FileWriter.WriteMetadata','writers.py:FileWriter.WriteKey')
p('Signatures made in one way and verified in another',
  'Claimed: a signature is accepted only for the use it was made for: plain, attached with its nonce, or unversioned. False: what a key signs is the message followed by the nonce with its length, if any, and a zero byte, if versioned, and nothing says which; so two requests with the same signed bytes get the same signature, and what is accepted for one is accepted for the other. All confusions are determined: between plain and unversioned, plain and attached, unversioned and attached requests, and between attached requests with nonces of different lengths. In particular, plain signatures of chosen messages are attached signatures for any nonce. A program whose nonces have one length, whose plain messages do not end like such a nonce and whose unversioned messages do not end with a zero byte has no confusions.',
  'all loaded key sets of all types, all messages and nonces, all signatures',
  'The tests verify signatures in the way they were made; that all the rest is refused is a statement about all pairs of requests.',
  'keyczar.py:Signer.Sign','keyczar.py:Signer.AttachedSign','keyczar.py:UnversionedSigner.Sign','keyczar.py:Verifier.Verify','keyczar.py:Verifier.AttachedVerify','keyczar.py:UnversionedVerifier.Verify','util.py:PackByteArray')
p('Which interoperability tests are run',
  'Claimed: interop.py runs every combination of implementations, operation, key set and options that ignoredTests.json does not exclude. Proved for every configuration: the calls and tests planned are exactly those combinations, with the exclusions as documented, and display prints one line for each of them. False in general: a test is stored under a name made of option values joined with underscores, so of several planned tests with one name only the last is run, without a message; and if a single call of an implementation fails, no test at all is run. Without underscores in names and values, and with options that do not depend on the purpose of the key set, no test is lost; the shipped configuration is such, every key set its tests read is made by CreateKeys, and the commands passed on for this create it in the directory read, with the purpose, type, sizes, encrypting key set and public part that the algorithm asks for. Under Python 2 the macro ALL_SIGNING_KEYS is not replaced, its characters are taken for key sets that do not exist, and no test is run.',
  'all configurations of the shape of the shipped files, all answers of the implementations; the shipped configuration in both readings',
  'The unit tests of the harness check a few small configurations; a test that is silently replaced by another one of the same name is not seen by running the tests.',
  'interop.py:Keyset.GetGenerateKeysets','interop.py:Keyset.GetTestKeysets','interop.py:InteropTestRunner._IsException','interop.py:InteropTestRunner._Options','interop.py:InteropTestRunner._TestAll','interop.py:InteropTestRunner._GenerateAll','interop.py:InteropTestRunner.SetupInteropTests','interop.py:InteropTestRunner.CreateKeys','interop.py:InteropTestRunner._Create','interop.py:InteropTestRunner._CreateEncrypted')
p('Every planned interoperability test of the Python implementation with itself passes',
  'With the shipped configuration: after CreateKeys, whatever was on the disk before, all key sets of an implementation that does what the one in Python does are on the disk as the tests read them, plain, public and encrypted with aes128, if its commands raised no exception, its generator gave valid keys of the size asked for, and the other implementations kept to their own directories. Then for every call of the plan an output is made, it is a JSON text, and every test of the plan on it, made in the same way, prints that it passes, for all five operations, all key sets, classes, encodings, encryption of keys, public key sets and signers. Exceptions by chance are a zero in a DSA signature and an RSA padding that begins with too many zeros. That no message is too long for its key is due to the entry of ignoredTests.json for rsa-crypt1024. It is needed: with an RSA key of at most 1024 bits no signed session is made, the call raises KeyczarError, and such calls are not planned.',
  'all calls and tests of the shipped plan, all keys of the shipped types and sizes, all random choices, all initial disks',
  'Running the harness tries one choice of keys and randomness for each test; that none of the planned tests fails for other keys, but for the named exceptions, is a statement about all of them.',
  'interop.py:InteropTestRunner.CreateKeys','interop.py:InteropTestRunner._Create','interop.py:InteropTestRunner._CreateEncrypted','interop.py:InteropTestRunner._MakeDirs','interop.py:InteropTestRunner._Generate','interop.py:InteropTestRunner._Test','interop_test.py:Create','interop_test.py:Generate','interop_test.py:Test')
p('What the exit status of the interoperability tests says',
  'Claimed: interop.py ends with status 0 only if the tests passed. False: the result of the test runner is not looked at, so the status is the same whatever the tests say; it is 0 exactly if the command line is accepted, every creation of keys (unless switched off) and every call for an output is answered and planning raises no exception, else 1. With the shipped configuration and all calls answered, every planned test is run and the status is 0 even if each of them fails. The command line: tests are run exactly if all arguments are flags --create= and --verbose= whose last values are y or n; display and options count if only such flags, with any values, come before them, whatever comes after. The tables printed by options show, for each operation, exactly the values that occur in a choice of options for one of its key sets, so those of all planned calls and tests, also values whose tests are all ignored.',
  'all command lines, all configurations of the shape of the shipped files, all answers of the implementations, all results of the tests',
  'The unit tests of the harness do not run its main function; which command lines are accepted and on what the exit status depends are statements about all of them.',
  'interop.py:main','interop.py:InteropTestRunner.RunTests','interop.py:InteropTestRunner.DisplayOptions','interop.py:InteropTestRunner._Options','interop.py:Usage')
p('Converted key sets are the same key sets',
  'convert_keyset.py rewrites RSA and DSA key files of old versions of the C++ implementation. It ends without an exception whenever the metadata lists numbers and every listed key file can be rewritten; the texts the library writes can, and become the texts it writes for the keys with a zero byte before each number. When it ends without an exception, the destination holds the metadata of the source byte for byte and a rewritten file for every listed version; nothing else changes. Every class of the Python library that opens the source opens the destination, with the same metadata, primary key, version numbers and key identifiers, and with keys that differ only by one leading zero byte in the strings holding their numbers; encryption, decryption, signing and verification compute the same results. The metadata is written last, so a run that stops early leaves the metadata of the destination as it was. Key files of encrypted key sets are refused. With fewer than two arguments the script raises IndexError and touches nothing; arguments after the second are ignored; when one of the first two is not a directory it does nothing and ends without an exception.',
  'all key sets, all contents of both directories, all key types, all texts of key files, all uses of the keys',
  'The script has no tests; that identifiers and results stay the same is a statement about all keys, texts and messages, including texts which its own Base64 decoder and that of the library treat differently.',
  'convert_keyset.py:doit','convert_keyset.py:iterate_meta','convert_keyset.py:rewrite_key','convert_keyset.py:rewrite_inplace_rec','convert_keyset.py:b64_decode','keys.py:RsaPrivateKey.Read','keys.py:DsaPrivateKey.Read','util.py:TrimBytes')
open('/verif/properties.jsonl','w').write(''.join(json.dumps(x)+'\n' for x in P))
print(len(P))
