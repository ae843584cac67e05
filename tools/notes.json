{
 "C07": {
  "note": "'Terminates on every input' is false of the code: C07_diverges. C07_diverges_iff says exactly on which inputs."
 },
 "C09": {
  "note": "Key identifier part: C09 theorems in Props/Asymmetric.lean."
 },
 "C30": {
  "note": "The full claim is false of the code for public key sets: C30_public_set_loses_primary. C30_unchanged proves it for all other types."
 },
 "C45": {
  "note": "Without fixing the nonce length the claim is false of the code: C45_not_binding, C45_attached_is_plain. C45_binding proves it for nonces of equal length."
 },
 "C47": {
  "note": "The full claim is false of the code for DSA sets (C47_dsa_raises) and for AttachedVerify (C47_attached_short). C47_hmac_rsa proves it for HMAC and RSA sets."
 },
 "C43": {
  "note": "The statement is about the decoded signature; Base64 text itself is malleable (C43_text_not_unique)."
 },
 "C67": {
  "note": "The claim that equal keys are interchangeable is false of the code: C67_aes_other_hmac, C67_asymmetric, C67_generated_asymmetric."
 },
 "C69": {
  "note": "The claim is false of the code for revoke: C69_revoke_breaks, C69_revoke_undone. C69_survives proves it for the other commands."
 },
 "C74": {
  "note": "The claims that only PKCS#1 encodings are accepted and that only KeyczarError is raised are false of the code: C74_not_oaep, C74_raises_index_error. C74_accepts_iff, C74_index_error_iff and C74_outcomes say exactly what happens."
 },
 "C75": {
  "note": "Parts (3) and (4) say that the code does not protect readers: proved as existence of executions (C75_addkey_window, C75_revoke_window, C75_lost_output). C75_addkey_window needs that no stray file has the name of the new version."
 },
 "C76": {
  "note": "'Everything else is reported as KeyczarError' is false of the code: C76_constructor, C76_exceptions, C76_key_exceptions, C76_not_json. Version numbers that are not integers, floats, non-ASCII bytes and lone surrogates in JSON are outside the model (unmodelled)."
 },
 "C77": {
  "note": "That the test of attached signatures checks the message is false of the code: C77_attached (empty data), C77_attached_any_data. C77_create, C77_create_public and C77_create_encrypted suppose that the commands succeed; that RSA and DSA keys from the library are valid is a hypothesis."
 },
 "C78": {
  "note": "The library json is modelled, not its source proved: C78 relates the model of json.loads to a grammar written separately. Python's limit on nesting (recursion) is not modelled."
 },
 "C79": {
  "note": "That every class opens what a backend serves is false of the code: C79_unversioned, C79_backend."
 },
 "C80": {
  "note": "That signatures cannot be changed without the key is false of the code: C80_append, C80_other_encoding."
 },
 "C81": {
  "note": "That there is one blob for one signature is false of the code: C81_other_length."
 },
 "C82": {
  "note": "That kinds of signatures are separated is false of the code: C82_plain_is_unversioned (see also C45)."
 },
 "C83": {
  "note": "That only outputs of Encrypt are accepted, and that the others raise a KeyczarError, are false of the code: C83_not_padded, C83_outcomes."
 },
 "C84": {
  "note": "That RSA ciphertexts have the length of the modulus is false of the code: C84_rsa_length."
 },
 "C85": {
  "note": "That a command that fails leaves the files as they were is false of the code: C85_genkey, C85_destroys."
 },
 "C86": {
  "note": "That keys have one packed form, and that an accepted session can be used, are false of the code: C86_many, C86_useless."
 },
 "C88": {
  "note": "That RSA decryption does not say why it failed is false of the code: C88_rsa, C88_rsa_length, C88_rsa_multiples."
 },
 "C89": {
  "note": "That whatever Verify accepts without a forgery was signed with Sign is false of keys used for several kinds of signatures: C89_confused; C89_only_plain and C89_only_attached say when it is true."
 },
 "C92": {
  "note": "That the files of an encrypted set cannot be changed unnoticed is false: C92_statuses, C92_regrouped, C92_renumbered, C92_public, C92_plain; C92_made says what is true with an AES crypter."
 },
 "C93": {
  "note": "That a loaded set accepts what it made itself is false without distinct identifiers: C93_shadowed and its examples."
 },
 "C94": {
  "note": "That nothing unauthenticated is returned is false: C94_released, C94_changed, C94_spliced; C94_blind bounds what is returned for every input."
 },
 "C95": {
  "note": "Without crypter, as in C39. C95_restored is about interruptions between effects, C95_salvaged about all; C95_stuck and C95_overwritten are what the commands themselves do."
 },
 "C96": {
  "note": "That uses are separated is false: C96_same_signature, C96_transfers, C96_forged_nonce; C96_disciplined is what is true instead."
 },
 "C97": {
  "note": "That every planned test is run is false in general: C97_lost, C97_one_failure, C97_python2; C97_complete and C97_shipped are what is true instead."
 },
 "C98": {
  "note": "The program interop.py is read with Python 3 (under Python 2 no test is run, C97_python2), the implementation with Python 2, as everywhere but in C62 and C85. The cases shown are parts of the run (three creations, tests of three operations); the whole run is not evaluated, as it generates RSA keys of 4096 bits."
 },
 "C99": {
  "note": "That a failed test does not change the exit status is how Model/HarnessMain reads RunTests (interop.py:520-522), where the value of run() is dropped; the theorems say what follows for the program. Logging and the texts printed are left out, except the tables of options. What os._exit(1) in _MakeDirs does counts as a creation that is not answered."
 },
 "C100": {
  "note": "The two directories are different. Key files that parse to something other than an object, and rewritten fields that are not plain strings, are outside the model. Texts with line breaks that the library reads and the script refuses exist (example beside the theorems); the claim is about runs that end without an exception."
 }
}