# A Lean 4 model of blag/keyczar (python/src/keyczar)

## 1. Which program is modelled

`/repo/python/src/keyczar` is a 2to3-converted copy of Keyczar 0.715.  Its syntax is Python 3
(`metaclass=`, `print()`), its string handling is Python 2 (one byte-string type `str`, `/` on
integers is floor division).  Two readings exist and both are modelled:

* **byte-string reading** (main model).  `str` values that carry data are byte strings
  (`List UInt8`), `chr`/`ord` map bytes to integers, `/` between ints is floor division, indexing
  and slicing are Python's.  This is the semantics that the docstrings, the unit tests
  (`base64.urlsafe_b64encode('Some inspired test datum')`) and the data files assume.
* **Python 3 reading** (modules `Verif/Model/Py3.lean`, `Verif/Model/Py3Tool.lean`).  `str` and `bytes` are different types, `/` gives a
  float.  There the properties are negative: C62 proves that no key set with a readable version
  loads, and that no key can be generated; C85 that nothing can be done with the sets that load.

All properties except C62 and C85 are about the byte-string reading.

## 2. Trusted base

* **Lean 4.33.0's kernel.**  No `sorry`, no `admit`, no added axiom, no `native_decide`, no
  `bv_decide`.  `decide +kernel` (used only in the concrete examples next to theorems, for finite
  tables such as "all 256 bytes", and for counterexamples) is evaluated by the kernel and adds no axiom.
* **Axioms.**  Every theorem depends only on a subset of `propext`, `Classical.choice`, `Quot.sound`.
  `AXIOMS.txt` lists the exact set for each of the property theorems; it is regenerated by
  `tools/axioms.lean.txt` (usage in its first lines).
* **The reading of the source.**  That the definitions in `Verif/Model` say what the cited lines of
  /repo say.  Each definition cites file and lines.  Evidence besides reading: the model is run on the
  key sets, ciphertexts, signatures and sessions that the real programs left under /repo (tests, not
  proofs).  `tools/conformance.sh` does this for all of them, also those of the Java and C++ versions;
  `tools/golden.out` is its output: every recorded output of the current format decrypts or verifies to
  the recorded message.  It fails only on the
  old Java format with X.509/PKCS8 keys (java/code/pytestdata) and on the later C++ format (HMAC-SHA256,
  cpp/src/keyczar/data), which the Python program does not read either.  `Props/Golden.lean`
  repeats the AES, HMAC and DSA part of python/testdata in the kernel.  See also section 8.
* **The libraries**, as described in section 4.

## 3. Architecture

Model files (`Verif/Model/*`): shallow, total, computable functions; exceptions are values
(`Py α := Except PyErr α`).  Specification files (`Verif/Spec/*`): small, independent definitions
used in theorem statements.  Property files (`Verif/Props/*`): the property theorems `Cnn_...`, with
a concrete case next to them.  Helper lemmas and example data in `Verif/Lemmas/*`.

* *Randomness* is an argument: `Rand` gives the bytes of the i-th draw of `os.urandom`, the DSA
  `k`, and the outcome of RSA and DSA key generation.  Theorems quantify over all of them.
* *Loops that need not terminate* take fuel; running out of fuel is the distinguished outcome
  `diverged`.  Theorems either give enough fuel explicitly or say for which inputs no fuel suffices.
* *Inputs outside the modelled fragment* give `unmodelled`.  No theorem claims success from it;
  theorems about errors treat it as an error of unknown kind.
* *Mutable objects*: `KeyVersion` objects live in a heap, because metadata, key dict and
  `primary_version` alias them (keyczar.py); failure of an operation half way keeps the partial
  changes, as Python does.
* *Dicts* are association lists in insertion order.  Python 2.7 orders dicts by hash; order only
  decides which of several errors comes first, the order of file writes, and which of several keys
  with the same identifier is found (C93, whose theorems hold for any of them).
* *Disk*: `FS := location -> Option Dir`; commands return their list of effects (write file, remove
  file).  A crash is a prefix of the effects, possibly with the last write torn; concurrency is an
  interleaving (two commands: C40; any number of processes whose reads interleave as well: C69).
* *Streams*: a file-like object is a record of functions on an arbitrary state type.

## 4. What is modelled

| source | modelled in | remarks |
|---|---|---|
| util.py 98-242 (ASN.1, PKCS8, X.509, DSA signatures) | Model/Der | the part of pyasn1's DER codec used: INTEGER, SEQUENCE, NULL, OID, OCTET STRING, BIT STRING without unused bits; other tags are `unmodelled` |
| util.py 244-337 (EMSA, conversions, hashing) | Model/Util | byte-string reading |
| util.py 339-394 (Base64) | Model/Base64, Model/Deprecated | includes CPython 2.7's `binascii.a2b_base64` state machine |
| util.py 396-440 (packing) | Model/Util | `struct` `>i`, Python slices with negative indices |
| util.py 446-480 (files) | Model/Keyczart | see disk assumptions below |
| util.py 482-502 (MGF1) | Model/Util | `math.ceil(mlen / float(HLEN))` is the exact ceiling; the computed one is in Model/FloatLen (C72) |
| util.py 504-846 (Base64 streams) | Model/Streams | with codecs' buffered incremental encoder and decoder |
| util.py 849-867 (Memoize) | Model/Memoize | pickling is a parameter |
| util.py 869-895, readers.py/writers.py CreateReader, CreateWriter (plugin backends) | Model/Backends | a plugin module is a list of classes or a failing import; directory listings are a parameter |
| keyczar.py `Read` of the classes, `Keyczar.__str__` | Model/Open | C79 |
| keyinfo.py | Model/KeyInfo, Model/KeyEq | |
| keydata.py | Model/Keyczar | |
| keys.py 60-1021 | Model/Keys, Model/KeyEq, Model/M2Crypto | all key classes, both crypto library adaptors; `floor(log(n, 256)) + 1` is the exact number of bytes of n; the computed one is in Model/FloatLen (C72) |
| keys.py 1023-1306 (streams) | Model/Streams | |
| keyczar.py 40-672 | Model/Keyczar, Model/Keyczart (Write, PublicKeyExport), Model/Streams | |
| keyczar.py 674-843 (sessions) | Model/Session | |
| readers.py FileReader, EncryptedReader, StaticKeyReader | Model/Keyczar, Model/Keyczart | readers are values |
| writers.py FileWriter, EncryptedWriter | Model/Keyczart | |
| keyczart.py (create, addkey, pubkey, promote, demote, revoke, main) | Model/Keyczart | |
| readers.py MockReader, the `mock` paths of keyczart.py and PublicKeyExport | Model/Mock, Model/KeyEq | C73, C67 only |
| keyczart.py (genkey) | Model/GenKey | directories hold plain files only; printing left out |
| tests/keyczar_tests/interop_test.py, and the command lists of interop/interop.py 306-372 | Model/Interop, Spec/Interop | C77 only; texts are ASCII; a nested list that is no list of texts is `unmodelled`; the key path and names do not begin with a slash |
| interop/interop.py 101-471, 520-522 (plan, ignored tests, options, names, creation of keys); the shipped interop/config files as a value | Model/Harness, Spec/Harness | C97, C98; configurations have the shape of the shipped files; in C97 implementations are arbitrary functions, in C98 they are Model/Interop; logging and the order of the run are left out; `_MakeDirs` is `emptied` in Spec/EndToEnd |
| interop/interop.py 473-514 (`options`), 520-522, 538-581 (command line, exit status) | Model/HarnessMain, Spec/HarnessMain | C99; printing is left out except the tables of `options`; sets are lists without repetitions |
| cpp/src/keyczar/keyczar_tool/convert_keyset.py 23-106 (conversion of key sets of old versions of the C++ implementation) | Model/Convert, Spec/Convert | C100; key files are objects, rewritten fields are plain strings; exceptions of the file system are one; the usage message on the error output is left out |
| JSON text (`json.dumps`, `json.loads`) | Model/Json, Spec/Json | text in UTF-8, no floats, no lone surrogates, neither escaped nor encoded (`unmodelled`; C78_beyond lists them); no limit on nesting, where Python has one |
| SHA-1, AES | Model/Sha1, Model/Aes | `realPrims`, see below |
| the functions on the way to a key identifier, Python 3 typing | Model/Py3 | C62 only |
| texts of the exceptions of `Decrypt` (errors.py, keys.py, keyczar.py), steps of `VerifySignedData`; texts of exceptions of the interpreter, of decoders and of other libraries are left out; a step is a pass of the loop, not a time | Model/Told | C88 only; C88_same ties it to the other modules |
| keyczar.py operations and keyczart.py commands, Python 3 typing; JSON, key files and the methods of keys are arbitrary functions; every location is a directory, no backends; streams are not covered | Model/Py3Tool | C85 only |

Assumptions about libraries and the operating system:

* **SHA-1 and AES** are a parameter `Prims` with laws (20-byte digests, 16-byte blocks, block decryption
  inverts block encryption).  Theorems hold for all such primitives; nothing cryptographic (collision
  resistance, pseudo-randomness) is assumed or proved, hence properties are stated as "accepted only if
  the tag equals the HMAC", never as "cannot be forged".  `realPrims` (proved in C87 to follow the standards) instantiates the parameter with
  FIPS 180-4 and FIPS 197, with the laws proved; examples are evaluated with it.
* **PyCrypto**: CBC mode, RSA (CRT as in `_slowmath.py`, without blinding), DSA, following the library
  source.  `rsaRangeCheck` covers both behaviours for operands above the modulus.
* **M2Crypto's EVP cipher**: EVP_CipherUpdate/Final with padding off.
* **pyasn1**: definite lengths, the types above.  What it does with malformed input beyond "raises" is
  not used.
* **Floating point** (C72 only): IEEE rounding to within half a unit in the last place, the C library's `log` to
  within one, CPython's `loghelper` for long integers.
* **Disk**: different location strings are different directories (no links); opening, reading and
  writing in an existing directory succeed; a directory holds plain files named `meta`, by version
  number, or anything else (`.other` names, never equal to a version number's file name).
* **Streams**: output streams do not raise; a non-blocking input stream may return None, fewer or
  (theorems say where) more characters than asked.
* **Sessions**: the memoized `crypter` property is rebuilt at each use; C61_session_crypter shows that
  this cannot be observed.

Not modelled: the texts of exceptions other than those of
`Decrypt` (Model/Told), the C++ and Java code (of the directory cpp, only the Python script
convert_keyset.py is modelled).

## 5. Plan per property

| id | modelled | proof |
|---|---|---|
| C01-C03 | `base64.urlsafe_b64encode`, CPython's `binascii.a2b_base64` state machine, the two wrappers | induction on 3-byte groups; state machine invariant |
| C04-C05 | the codecs buffered incremental encoder/decoder, stream writer and reader over an arbitrary non-blocking stream | invariant over the write history; stream contract (simulation) |
| C06-C07 | struct `>i` pack/unpack, Python slices, the unpack loop with fuel | induction; measure; exact condition for divergence (repeated position) |
| C08-C11 | integer/byte/bit conversions | induction |
| C12 | DER INTEGER/SEQUENCE encoder and a decoder | round trip by induction on lengths |
| C13-C17 | HMAC compare loop, PKCS5, CBC over the block function, AesKey.Encrypt/Decrypt | induction on blocks, case analysis |
| C18-C24 | Keyczar.__init__, header parsing, Encrypter/Crypter/Signer/Verifier | loop invariants over the version list |
| C25-C30 | GenericKeyczar as a state machine over a heap of KeyVersion objects (aliasing kept) | invariant and refinement to `Int -> Option Status` |
| C31-C41 | keyczart commands over a directory model, effects as traces, crash = trace prefix with a torn write, concurrency = interleavings of traces | invariants over command histories |
| C42-C47 | Signer/Verifier/Unversioned*, attached signatures | equational, case analysis |
| C48-C52 | OAEP, EMSA, MGF, RSA and DSA arithmetic | Mathlib number theory |
| C53-C55 | _Session and the four session classes | composition |
| C56-C59 | EncryptingStreamWriter, DecryptingStreamReader as state machines over arbitrary streams | invariants over histories and schedules |
| C60-C61 | keyczart.main, Memoize | case analysis, invariant |
| C62 | the Python 3 typed values of the functions on the path from reader to key identifier | case analysis |
| C63 | PKCS8 and X.509 export and parsing | DER round trip |
| C64-C65 | pubkey and addkey over the directory model | equation for the resulting directory; counterexample |
| C66 | the M2Crypto adaptor over an EVP cipher object | invariant over update calls; equality with the PyCrypto path |
| C67-C68 | `Key.__eq__`, CipherMode.GetOutputSize | case analysis, counterexamples, arithmetic |
| C69 | transition system of processes reading and writing single files | invariant on the directory ("every version the metadata names has its key file") kept by each step |
| C70 | keyczart genkey as a sequence of directory commands | composition of the theorems about create, addkey, pubkey; instance with proved 2048-bit keys |
| C71 | the plugin search path, module import and the chain of backends asked | induction on the directories and names; run of any sequence of calls |
| C72 | doubles as reals with error bounds | real analysis (log bounds), concrete rounding for the counterexample |
| C73 | the mock key set and the commands on it | lockstep simulation between mock and directory, induction over command sequences |
| C74 | OAEP decoding, RSA decryption | masking is a bijection on blocks, RSA a bijection on residues; case analysis on the data block |
| C75 | loading next to any number of keyczart processes | invariant of C69 with a bound on the version numbers; a reader sees each file as of some reachable disk |
| C76 | reading of metadata and keys from any JSON value | exact correspondence with independent descriptions of acceptable documents and of the first fault; fuel bound for the parser |
| C77 | the interoperability program: creating key sets, generating and testing outputs | composition of the theorems about the commands, the command line, readers, JSON and each operation |
| C78 | the JSON reader accepts exactly the JSON grammar; the text written is the one of `Written` (Spec/Json) | soundness by induction on the fuel of the parser, completeness by induction on derivations in a grammar written as inductive predicates |
| C79 | `Read` of the eight classes | composition of C71 and the constructor theorems |
| C80 | DSA signatures as byte strings | inversion of the DER decoder against a description of BER written separately; modular inverse is unique modulo a prime |
| C81 | attached signatures as byte strings | case analysis on the length field and on Python's slices |
| C82 | signatures of all kinds as byte strings | C13, C50, C80, C81 and the dispatch theorems, against one predicate `SignatureFor` |
| C83 | AES ciphertexts as byte strings | CBC is a bijection on lists of blocks (encryption is onto because decryption is a left inverse on a finite set); removal of padding characterised |
| C84 | outputs of Sign and RSA Encrypt as byte strings | RSA is a bijection (C49), the DER encoding is unique, multiplication modulo a prime is invertible |
| C85 | the files before and after a history of commands; what the operations of an opened set return, Python 3 typing | case analysis on C62, induction on the history |
| C86 | packed session keys as byte strings with signed length fields (Spec/SessionText); JSON texts as in C78, AES messages as in C83, signatures as in C82 | two turns of the unpacking loop, cases on the sign of the position |
| C87 | SHA-1 on 32-bit vectors and AES on states, as FIPS 180-4 and FIPS 197 define them (Spec/Fips) | the byte tables checked for all 256 bytes; linearity of multiplication; inductions on words, steps, rounds and blocks |
| C88 | texts with a number in decimal digits, the number of bytes of a number, the reasons RSA decryption gives (Spec/Told) | the OAEP block analysis of C74 with texts; one decimal writing per number; RSA is multiplicative |
| C89 | requests and the text signed for each, forgeries relative to a list of requests, keys with the same signatures (Spec/Forgery) | composition of C82, C83, C84; which texts of different requests coincide |
| C90 | blocks of a ciphertext and of a padded message by position (Spec/Leak) | the recurrence of CBC by position; the block function is injective; exclusive or by bytes |
| C91 | candidates for the private number, with integers modulo q; the bytes of an output that are the signature (Spec/Nonce) | the equation of FIPS 186 between r, s, the digest and the drawn number, solved for the private number |
| C92 | texts that are metadata and key documents; files that a crypter decrypts to a key (Spec/Tamper) | exact condition for opening (C18), with C76 and C78; composition of C22, C83 and C89 |
| C93 | a choice of one version for each identifier (Spec/Shadow) | everything that reads headers depends on the table of identifiers only; a set with the seen versions alone has the same table |
| C94 | block by block CBC decryption as one formula (Spec/Early) | invariant of the reader (C57/C58) with a bound on what is buffered; reads succeed while 68 bytes are left; CBC block formula (C90) |
| C95 | a key set without one version (Spec/Recover), crashes as in C39 | effects of the management commands write the old keys to the files of old versions, removals come last; metadata for the remaining versions reads back (C31) |
| C96 | requests and the texts signed for them (Spec/Forgery, Spec/Uses) | exact outputs (C84) and exact acceptance (C82) depend on the signed text only; comparison of texts as lists |
| C97 | calls and tests of the plan, ignored tests, last test of a name (Spec/Harness) | loops yield what their parts yield; dict merge by keys and lookup; names without underscores split uniquely; the shipped configuration by evaluation; the commands passed on are those C77 is about (C97_commands), by checkers proved sound and evaluated on the finitely many shipped cases |
| C98 | key sets stored as the tests read them (`Stored`), a run of the creations (`Ran`), exceptions by chance (Spec/EndToEnd) | C97_commands and the creation theorems of C77, with directories that do not change (the shipped directories differ, by evaluation); every planned test satisfies a checker that is proved to give the hypotheses of the operation theorems of C77 |
| C99 | the documented command line (flags, last values), the options that occur in a choice, answered calls (Spec/HarnessMain) | induction on the arguments; loops of `DisplayOptions` as in C97; cases of the program |
| C100 | the key with a zero byte before each number (Spec/Convert) | two Base64 decoders agree where both answer (padding and skipped characters); recursion over JSON values; simulation of the loading loop |

## 6. Properties that are false of the code

They are kept as claimed, the negation is proved with a concrete witness, and the strongest positive
statement found is proved beside it.

| id | what goes wrong | theorems |
|---|---|---|
| C03 | tabs are not ignored by the decoder | C03_tab_not_ignored |
| C05 | the stream reader never returns None; `read(0)` can spoil the data | C05_never_none, C05_spins, C05_size_zero_differs |
| C07 | a length field of -4 makes unpacking loop for ever | C07_diverges, C07_diverges_iff |
| C24 | NoPrimaryKeyError is never raised | C24_never_no_primary_error |
| C27 | a version number can be reused after revoke and reload | C27_reused_after_reload |
| C30 | AddVersion(PRIMARY) on a public set demotes the old primary, then fails | C30_public_set_loses_primary |
| C31 | Revoke alone leaves the key in the object; Write writes it again | C31_object_still_writes, C31_object_still_exports |
| C39 | a crash in addkey or while a key file is rewritten leaves a set that does not load | C39_addkey, C39_torn_metadata, C39_torn_key |
| C40 | two addkey at the same time lose a key | C40_lost_key |
| C45 | attached signatures do not separate message and nonce | C45_not_binding, C45_attached_is_plain |
| C47 | malformed DSA signatures and short attached signatures raise non-Keyczar errors | C47_dsa_raises, C47_attached_short |
| C48 | leading zero bytes in the OAEP block are lost | C48_round_trip (the exact condition) |
| C50 | leading zero bytes of RSA signatures are ignored | C50_leading_zeros, C50_not_unique |
| C51 | r = 0 or s = 0 is not checked when signing | C51_pair |
| C58 | truncated streams end normally without a check of the tag | C58_short, C58_after_failure |
| C58 | after a refused header, a decrypting stream goes on with the bytes behind it as a new ciphertext | C58_skips_header |
| C58 | a header naming a key that is no AES key is an AttributeError | C58_other_key |
| C60 | values containing "=" are dropped | C60_ignored_argument |
| C60 | a name that is not in UTF-8 raises ValueError, not KeyczarError | C60_create_undecodable |
| C62 | nothing loads under Python 3 | C62_load, C62_add |
| C64 | pubkey into its own location destroys the private keys | C64_pubkey_overwrites |
| C65 | addkey with a crypter without primary key breaks the directory | C65_addkey_without_primary |
| C67 | keys that differ compare equal | C67_aes_other_hmac, C67_asymmetric |
| C69 | revoke beside another command leaves a set that does not load | C69_revoke_breaks, C69_revoke_undone |
| C72 | a modulus with 54 leading ones is taken to be one byte longer | C72_wrong_count, C72_round_trip_any_length |
| C73 | tests on the mock cannot see encryption of key sets, nor that create refuses to overwrite | C73_crypter_unused, C73_never_encrypted, C73_create_again |
| C74 | decryption takes blocks that are not OAEP encodings; an empty data block raises IndexError | C74_not_oaep, C74_conforming_iff, C74_raises_index_error, C74_index_error_iff |
| C75 | a key set that is being changed cannot always be loaded; a message can be lost | C75_addkey_window, C75_revoke_window, C75_lost_output |
| C76 | malformed key set files raise ValueError, KeyError, TypeError or AssertionError | C76_not_json, C76_first_fault, C76_constructor, C76_key_exceptions, C76_aes_mode |
| C77 | the test of attached signatures does not look at the message, and fails on the empty one | C77_attached, C77_attached_any_data |
| C79 | the unversioned classes cannot open what a backend serves | C79_unversioned, C79_backend |
| C80 | anything can be appended to a DSA signature | C80_append, C80_other_encoding |
| C81 | the length field of an attached signature can be replaced | C81_other_length |
| C82 | plain signatures are unversioned signatures of a longer message | C82_plain_is_unversioned |
| C83 | padding is not checked; ValueError and IndexError with the right HMAC | C83_not_padded, C83_outcomes |
| C84 | RSA ciphertexts can be shorter than the modulus | C84_rsa_length |
| C85 | under Python 3 genkey destroys keys and then fails | C85_genkey, C85_destroys |
| C86 | packed keys with a wrong count, with negative lengths, or with an AES key of impossible length are accepted | C86_many, C86_useless |
| C88 | the text of a failed RSA decryption tells whether the decrypted number, or any chosen multiple of it, is below 256^41, and its length | C88_rsa_length, C88_rsa_multiples |
| C89 | a key used for several kinds of signatures: an attached signature is accepted as a plain and as an unversioned signature of messages that were never signed | C89_confused |
| C92 | encrypted key sets: the metadata is not authenticated and key files are not bound to number, status or set, so whoever can write to the directory reactivates revoked or demoted versions and exchanges keys unnoticed; with an RSA crypter they bring in keys of their own | C92_statuses, C92_renumbered, C92_regrouped, C92_public |
| C93 | a set with two keys of the same 4-byte identifier loads, and refuses the signatures and ciphertexts of one of them, possibly its own | C93_shadowed and its examples |
| C94 | a decrypting stream returns plaintext before the tag is checked: for a changed ciphertext it returns the changed message, all but its last bytes, and only then raises (the documentation of `read` says that the check comes last, not that the data so far can be chosen) | C94_released, C94_changed, C94_spliced |
| C95 | keyczart has no way back: with a torn metadata file every command fails, create too; promote and demote rewrite key files they need not touch, and a torn one is a lost key; create after deleting the metadata leads to the old key file 1 being overwritten | C95_stuck, C95_stuck_forever, C95_lost, C95_overwritten |
| C96 | the three ways of signing are not separated: a plain signature of a chosen message is an attached one for any chosen nonce, and all versioned signatures are unversioned ones of longer messages; attached signatures with nonces of different lengths can be the same | C96_forged_nonce, C96_transfers, C96_attached_attached and examples |
| C97 | interop.py stores tests under names that do not determine them, and a later test replaces an earlier one of the same name; one failing call ends the whole run; under Python 2 the macro ALL_SIGNING_KEYS is taken apart into characters and nothing is run | C97_lost, C97_one_failure, C97_python2 and examples |

## 7. Files

* `properties.jsonl`, `MANIFEST.json`: generated by `tools/gen_properties.py`, `tools/gen_manifest.py`
  (notes in `tools/notes.json`).
* `lean/Verif.lean` imports every module; `cd lean && lake build` checks everything.
* `AXIOMS.txt`: axioms per theorem.

## 8. Wrong programs

`tools/mutants.json` lists edits of the model that look like realistic bugs.  `tools/mutate.py` applies
each to a scratch copy and rebuilds.  `tools/deps.lean.txt` dumps the dependencies between theorems, with
which `tools/mutlog.py` computes from the first failing lemmas which property theorems are lost, and
writes `seeded/LOG.jsonl`.  Theorems that survived a wrong program were tightened; the log says which.
