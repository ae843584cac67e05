{
 "claims": [
  {
   "property": "C01",
   "status": "proved",
   "theorems": [
    "Verif.Props.C01_deprecated",
    "Verif.Props.C01_round_trip"
   ],
   "note": ""
  },
  {
   "property": "C02",
   "status": "proved",
   "theorems": [
    "Verif.Props.C02_rfc4648",
    "Verif.Props.C02_alphabet",
    "Verif.Props.C02_length",
    "Verif.Props.C02_injective"
   ],
   "note": ""
  },
  {
   "property": "C03",
   "status": "proved",
   "theorems": [
    "Verif.Props.C03_deprecated",
    "Verif.Props.C03_blanks_ignored",
    "Verif.Props.C03_only_failure",
    "Verif.Props.C03_length_error",
    "Verif.Props.C03_tab_not_ignored",
    "Verif.Props.C03_decode_not_injective",
    "Verif.Props.C03_foreign",
    "Verif.Props.C03_foreign_four"
   ],
   "note": ""
  },
  {
   "property": "C04",
   "status": "proved",
   "theorems": [
    "Verif.Props.C04_chunks",
    "Verif.Props.C04_close"
   ],
   "note": ""
  },
  {
   "property": "C05",
   "status": "proved",
   "theorems": [
    "Verif.Props.C05_reads",
    "Verif.Props.C05_source",
    "Verif.Props.C05_never_none",
    "Verif.Props.C05_spins",
    "Verif.Props.C05_whitespace_differs",
    "Verif.Props.C05_size_zero_differs",
    "Verif.Props.C05_truncated"
   ],
   "note": ""
  },
  {
   "property": "C06",
   "status": "proved",
   "theorems": [
    "Verif.Props.C06_pack_unpack",
    "Verif.Props.C06_pack_ok",
    "Verif.Props.C06_unpack_at_offset",
    "Verif.Props.C06_unambiguous",
    "Verif.Props.C06_format"
   ],
   "note": ""
  },
  {
   "property": "C07",
   "status": "proved",
   "theorems": [
    "Verif.Props.C07_diverges",
    "Verif.Props.C07_terminates",
    "Verif.Props.C07_diverges_iff",
    "Verif.Props.C07_bound"
   ],
   "note": "'Terminates on every input' is false of the code: C07_diverges. C07_diverges_iff says exactly on which inputs."
  },
  {
   "property": "C08",
   "status": "proved",
   "theorems": [
    "Verif.Props.C08_value",
    "Verif.Props.C08_round_trip",
    "Verif.Props.C08_pad",
    "Verif.Props.C08_no_leading_zero",
    "Verif.Props.C08_minimal",
    "Verif.Props.C08_int_to_bytes"
   ],
   "note": ""
  },
  {
   "property": "C09",
   "status": "proved",
   "theorems": [
    "Verif.Props.C09_rsa_identifier",
    "Verif.Props.C09_dsa_identifier",
    "Verif.Props.C09_trim_canonical",
    "Verif.Props.C09_trim_value"
   ],
   "note": "Key identifier part: C09 theorems in Props/Asymmetric.lean."
  },
  {
   "property": "C10",
   "status": "proved",
   "theorems": [
    "Verif.Props.C10_pointwise",
    "Verif.Props.C10_involution",
    "Verif.Props.C10_comm"
   ],
   "note": ""
  },
  {
   "property": "C11",
   "status": "proved",
   "theorems": [
    "Verif.Props.C11_round_trip",
    "Verif.Props.C11_shape",
    "Verif.Props.C11_length"
   ],
   "note": ""
  },
  {
   "property": "C12",
   "status": "proved",
   "theorems": [
    "Verif.Props.C12_round_trip",
    "Verif.Props.C12_make_ok",
    "Verif.Props.C12_injective"
   ],
   "note": ""
  },
  {
   "property": "C13",
   "status": "proved",
   "theorems": [
    "Verif.Props.C13_accepts_exactly_mac",
    "Verif.Props.C13_rejects_other_lengths",
    "Verif.Props.C13_sign_verify"
   ],
   "note": ""
  },
  {
   "property": "C14",
   "status": "proved",
   "theorems": [
    "Verif.Props.C14_pad_is_pkcs5",
    "Verif.Props.C14_unpad",
    "Verif.Props.C14_round_trip",
    "Verif.Props.C14_length"
   ],
   "note": ""
  },
  {
   "property": "C15",
   "status": "proved",
   "theorems": [
    "Verif.Props.C15_round_trip_layout"
   ],
   "note": ""
  },
  {
   "property": "C16",
   "status": "proved",
   "theorems": [
    "Verif.Props.C16_accepted_is_authenticated",
    "Verif.Props.C16_tag_unique",
    "Verif.Props.C16_altered_tag"
   ],
   "note": ""
  },
  {
   "property": "C17",
   "status": "proved",
   "theorems": [
    "Verif.Props.C17_wrong_tag_outcome",
    "Verif.Props.C17_short_outcome",
    "Verif.Props.C17_independent_of_aes_key"
   ],
   "note": ""
  },
  {
   "property": "C18",
   "status": "proved",
   "theorems": [
    "Verif.Props.C18_loaded_primary",
    "Verif.Props.C18_two_primaries_fail",
    "Verif.Props.C18_two_primaries_error"
   ],
   "note": ""
  },
  {
   "property": "C19",
   "status": "proved",
   "theorems": [
    "Verif.Props.C19_only_accepted",
    "Verif.Props.C19_rejected_before_keys",
    "Verif.Props.C19_accepted_loads"
   ],
   "note": ""
  },
  {
   "property": "C20",
   "status": "proved",
   "theorems": [
    "Verif.Props.C20_rejected_before_keys",
    "Verif.Props.C20_loaded_plain",
    "Verif.Props.C20_encrypted_reader"
   ],
   "note": ""
  },
  {
   "property": "C21",
   "status": "proved",
   "theorems": [
    "Verif.Props.C21_encrypt_header",
    "Verif.Props.C21_sign_header",
    "Verif.Props.C21_attached_header",
    "Verif.Props.C21_lookup"
   ],
   "note": ""
  },
  {
   "property": "C22",
   "status": "proved",
   "theorems": [
    "Verif.Props.C22_aes_round_trip",
    "Verif.Props.C22_aes_encrypts",
    "Verif.Props.C22_rsa_round_trip"
   ],
   "note": ""
  },
  {
   "property": "C23",
   "status": "proved",
   "theorems": [
    "Verif.Props.C23_short",
    "Verif.Props.C23_bad_version",
    "Verif.Props.C23_unknown_key",
    "Verif.Props.C23_dispatch"
   ],
   "note": ""
  },
  {
   "property": "C24",
   "status": "proved",
   "theorems": [
    "Verif.Props.C24_no_primary",
    "Verif.Props.C24_never_no_primary_error"
   ],
   "note": ""
  },
  {
   "property": "C25",
   "status": "proved",
   "theorems": [
    "Verif.Props.C25_single_primary"
   ],
   "note": ""
  },
  {
   "property": "C26",
   "status": "proved",
   "theorems": [
    "Verif.Props.C26_promote",
    "Verif.Props.C26_demote",
    "Verif.Props.C26_revoke",
    "Verif.Props.C26_add"
   ],
   "note": ""
  },
  {
   "property": "C27",
   "status": "proved",
   "theorems": [
    "Verif.Props.C27_nodup",
    "Verif.Props.C27_fresh_number",
    "Verif.Props.C27_reused_after_reload"
   ],
   "note": ""
  },
  {
   "property": "C28",
   "status": "proved",
   "theorems": [
    "Verif.Props.C28_distinct",
    "Verif.Props.C28_identifiers"
   ],
   "note": ""
  },
  {
   "property": "C29",
   "status": "proved",
   "theorems": [
    "Verif.Props.C29_bad_size",
    "Verif.Props.C29_size"
   ],
   "note": ""
  },
  {
   "property": "C30",
   "status": "proved",
   "theorems": [
    "Verif.Props.C30_unchanged",
    "Verif.Props.C30_terminates",
    "Verif.Props.C30_public_set_loses_primary",
    "Verif.Props.C30_public_set_other"
   ],
   "note": "The full claim is false of the code for public key sets: C30_public_set_loses_primary. C30_unchanged proves it for all other types."
  },
  {
   "property": "C31",
   "status": "proved",
   "theorems": [
    "Verif.Props.C31_object_still_exports",
    "Verif.Props.C31_revoked",
    "Verif.Props.C31_unknown_afterwards",
    "Verif.Props.C31_outputs_rejected",
    "Verif.Props.C31_object_still_writes"
   ],
   "note": ""
  },
  {
   "property": "C32",
   "status": "proved",
   "theorems": [
    "Verif.Props.C32_versions_survive",
    "Verif.Props.C32_aes",
    "Verif.Props.C32_signatures",
    "Verif.Props.C32_good_crypter"
   ],
   "note": ""
  },
  {
   "property": "C33",
   "status": "proved",
   "theorems": [
    "Verif.Props.C33_write_load",
    "Verif.Props.C33_plain_succeeds",
    "Verif.Props.C33_aes_opens",
    "Verif.Props.C33_aes_succeeds"
   ],
   "note": ""
  },
  {
   "property": "C34",
   "status": "proved",
   "theorems": [
    "Verif.Props.C34_round_trip",
    "Verif.Props.C34_text_determines_key",
    "Verif.Props.C34_rsa_primes"
   ],
   "note": ""
  },
  {
   "property": "C35",
   "status": "proved",
   "theorems": [
    "Verif.Props.C35_round_trip",
    "Verif.Props.C35_read_objects",
    "Verif.Props.C35_read_document"
   ],
   "note": ""
  },
  {
   "property": "C36",
   "status": "proved",
   "theorems": [
    "Verif.Props.C36_never_overwrites",
    "Verif.Props.C36_creates_empty",
    "Verif.Props.C36_refuses"
   ],
   "note": ""
  },
  {
   "property": "C37",
   "status": "proved",
   "theorems": [
    "Verif.Props.C37_refused_without_crypter",
    "Verif.Props.C37_with_crypter",
    "Verif.Props.C37_history"
   ],
   "note": ""
  },
  {
   "property": "C38",
   "status": "proved",
   "theorems": [
    "Verif.Props.C38_promote",
    "Verif.Props.C38_demote",
    "Verif.Props.C38_remove",
    "Verif.Props.C38_revoke",
    "Verif.Props.C38_failure_has_no_effect",
    "Verif.Props.C38_addkey_bad_size",
    "Verif.Props.C38_no_location"
   ],
   "note": ""
  },
  {
   "property": "C39",
   "status": "proved",
   "theorems": [
    "Verif.Props.C39_promote",
    "Verif.Props.C39_demote",
    "Verif.Props.C39_revoke",
    "Verif.Props.C39_torn_metadata",
    "Verif.Props.C39_torn_key",
    "Verif.Props.C39_addkey"
   ],
   "note": ""
  },
  {
   "property": "C40",
   "status": "proved",
   "theorems": [
    "Verif.Props.C40_lost_key"
   ],
   "note": ""
  },
  {
   "property": "C41",
   "status": "proved",
   "theorems": [
    "Verif.Props.C41_export",
    "Verif.Props.C41_refuses",
    "Verif.Props.C41_identifiers",
    "Verif.Props.C41_rsa_verifies",
    "Verif.Props.C41_dsa_verifies",
    "Verif.Props.C41_rsa_encrypts",
    "Verif.Props.C41_no_private_data"
   ],
   "note": ""
  },
  {
   "property": "C42",
   "status": "proved",
   "theorems": [
    "Verif.Props.C42_hmac",
    "Verif.Props.C42_rsa",
    "Verif.Props.C42_dsa"
   ],
   "note": ""
  },
  {
   "property": "C43",
   "status": "proved",
   "theorems": [
    "Verif.Props.C43_accepted_form",
    "Verif.Props.C43_unique",
    "Verif.Props.C43_two_messages",
    "Verif.Props.C43_text_not_unique"
   ],
   "note": "The statement is about the decoded signature; Base64 text itself is malleable (C43_text_not_unique)."
  },
  {
   "property": "C44",
   "status": "proved",
   "theorems": [
    "Verif.Props.C44_hmac",
    "Verif.Props.C44_rsa",
    "Verif.Props.C44_dsa",
    "Verif.Props.C44_sound"
   ],
   "note": ""
  },
  {
   "property": "C45",
   "status": "proved",
   "theorems": [
    "Verif.Props.C45_binding",
    "Verif.Props.C45_not_binding",
    "Verif.Props.C45_attached_is_plain"
   ],
   "note": "Without fixing the nonce length the claim is false of the code: C45_not_binding, C45_attached_is_plain. C45_binding proves it for nonces of equal length."
  },
  {
   "property": "C46",
   "status": "proved",
   "theorems": [
    "Verif.Props.C46_sound",
    "Verif.Props.C46_iff",
    "Verif.Props.C46_hmac_rsa",
    "Verif.Props.C46_hmac_round_trip",
    "Verif.Props.C46_rsa_round_trip",
    "Verif.Props.C46_dsa_round_trip"
   ],
   "note": ""
  },
  {
   "property": "C47",
   "status": "proved",
   "theorems": [
    "Verif.Props.C47_classes",
    "Verif.Props.C47_hmac_rsa",
    "Verif.Props.C47_dsa_raises",
    "Verif.Props.C47_dsa_wrong_number",
    "Verif.Props.C47_dsa_integers",
    "Verif.Props.C47_attached_short"
   ],
   "note": "The full claim is false of the code for DSA sets (C47_dsa_raises) and for AttachedVerify (C47_attached_short). C47_hmac_rsa proves it for HMAC and RSA sets."
  },
  {
   "property": "C48",
   "status": "proved",
   "theorems": [
    "Verif.Props.C48_encode_is_oaep",
    "Verif.Props.C48_round_trip",
    "Verif.Props.C48_too_long",
    "Verif.Props.C48_encrypts"
   ],
   "note": ""
  },
  {
   "property": "C49",
   "status": "proved",
   "theorems": [
    "Verif.Props.C49_decrypt_encrypt",
    "Verif.Props.C49_encrypt_decrypt",
    "Verif.Props.C49_textbook",
    "Verif.Props.C49_stored_order"
   ],
   "note": ""
  },
  {
   "property": "C50",
   "status": "proved",
   "theorems": [
    "Verif.Props.C50_sign_verify",
    "Verif.Props.C50_leading_zeros",
    "Verif.Props.C50_not_unique",
    "Verif.Props.C50_emsa",
    "Verif.Props.C50_accepts_iff"
   ],
   "note": ""
  },
  {
   "property": "C51",
   "status": "proved",
   "theorems": [
    "Verif.Props.C51_pair",
    "Verif.Props.C51_sign_verify"
   ],
   "note": ""
  },
  {
   "property": "C52",
   "status": "proved",
   "theorems": [
    "Verif.Props.C52_mgf_is_mgf1",
    "Verif.Props.C52_error_iff",
    "Verif.Props.C52_error_kind",
    "Verif.Props.C52_prefix"
   ],
   "note": ""
  },
  {
   "property": "C53",
   "status": "proved",
   "theorems": [
    "Verif.Props.C53_material_layout",
    "Verif.Props.C53_loaded_key",
    "Verif.Props.C53_aes",
    "Verif.Props.C53_rsa",
    "Verif.Props.C53_authentic"
   ],
   "note": ""
  },
  {
   "property": "C54",
   "status": "proved",
   "theorems": [
    "Verif.Props.C54_json_round_trip",
    "Verif.Props.C54_aes_material",
    "Verif.Props.C54_rsa_material",
    "Verif.Props.C54_hmac",
    "Verif.Props.C54_rsa",
    "Verif.Props.C54_dsa",
    "Verif.Props.C54_exact",
    "Verif.Props.C54_sound",
    "Verif.Props.C54_other_session"
   ],
   "note": ""
  },
  {
   "property": "C55",
   "status": "proved",
   "theorems": [
    "Verif.Props.C55_session",
    "Verif.Props.C55_sizes",
    "Verif.Props.C55_signed",
    "Verif.Props.C55_signed_sizes"
   ],
   "note": ""
  },
  {
   "property": "C56",
   "status": "proved",
   "theorems": [
    "Verif.Props.C56_chunks",
    "Verif.Props.C56_crypter",
    "Verif.Props.C56_crypter_base64",
    "Verif.Props.C56_decrypts",
    "Verif.Props.C56_not_aes",
    "Verif.Props.C56_second_flush"
   ],
   "note": ""
  },
  {
   "property": "C57",
   "status": "proved",
   "theorems": [
    "Verif.Props.C57_reads",
    "Verif.Props.C57_reads_base64"
   ],
   "note": ""
  },
  {
   "property": "C58",
   "status": "proved",
   "theorems": [
    "Verif.Props.C58_end",
    "Verif.Props.C58_error",
    "Verif.Props.C58_short",
    "Verif.Props.C58_ends",
    "Verif.Props.C58_after_failure",
    "Verif.Props.C58_other_key",
    "Verif.Props.C58_skips_header"
   ],
   "note": ""
  },
  {
   "property": "C59",
   "status": "proved",
   "theorems": [
    "Verif.Props.C59_writer",
    "Verif.Props.C59_close_discards",
    "Verif.Props.C59_reader"
   ],
   "note": ""
  },
  {
   "property": "C60",
   "status": "proved",
   "theorems": [
    "Verif.Props.C60_unknown_command",
    "Verif.Props.C60_no_arguments",
    "Verif.Props.C60_unknown_flag",
    "Verif.Props.C60_ignored_argument",
    "Verif.Props.C60_create",
    "Verif.Props.C60_create_undecodable",
    "Verif.Props.C60_addkey",
    "Verif.Props.C60_addkey_crypter",
    "Verif.Props.C60_addkey_bad_status",
    "Verif.Props.C60_addkey_bad_number",
    "Verif.Props.C60_pubkey",
    "Verif.Props.C60_promote",
    "Verif.Props.C60_demote",
    "Verif.Props.C60_revoke",
    "Verif.Props.C60_bad_version",
    "Verif.Props.C60_missing_version"
   ],
   "note": ""
  },
  {
   "property": "C61",
   "status": "proved",
   "theorems": [
    "Verif.Props.C61_effects",
    "Verif.Props.C61_once",
    "Verif.Props.C61_sticky",
    "Verif.Props.C61_kept",
    "Verif.Props.C61_unpicklable",
    "Verif.Props.C61_transparent",
    "Verif.Props.C61_errors_not_kept",
    "Verif.Props.C61_session_crypter"
   ],
   "note": ""
  },
  {
   "property": "C62",
   "status": "proved",
   "theorems": [
    "Verif.Props.C62_encode",
    "Verif.Props.C62_hash_text",
    "Verif.Props.C62_prefix_hash",
    "Verif.Props.C62_bytes_to_long",
    "Verif.Props.C62_str_is_text",
    "Verif.Props.C62_padding",
    "Verif.Props.C62_random",
    "Verif.Props.C62_decode_bytes",
    "Verif.Props.C62_decode_type",
    "Verif.Props.C62_identifier",
    "Verif.Props.C62_identifier_type_error",
    "Verif.Props.C62_load",
    "Verif.Props.C62_load_type_error",
    "Verif.Props.C62_generate_symmetric",
    "Verif.Props.C62_generate_asymmetric",
    "Verif.Props.C62_add",
    "Verif.Props.C62_add_type_error",
    "Verif.Props.C62_add_asymmetric"
   ],
   "note": ""
  },
  {
   "property": "C63",
   "status": "proved",
   "theorems": [
    "Verif.Props.C63_rsa_pkcs8_format",
    "Verif.Props.C63_dsa_pkcs8_format",
    "Verif.Props.C63_rsa_x509_format",
    "Verif.Props.C63_dsa_x509_format",
    "Verif.Props.C63_pkcs8",
    "Verif.Props.C63_x509",
    "Verif.Props.C63_other_algorithm",
    "Verif.Props.C63_malformed",
    "Verif.Props.C63_trailing_data",
    "Verif.Props.C63_pkcs8_ok",
    "Verif.Props.C63_x509_ok"
   ],
   "note": ""
  },
  {
   "property": "C64",
   "status": "proved",
   "theorems": [
    "Verif.Props.C64_pubkey_overwrites"
   ],
   "note": ""
  },
  {
   "property": "C65",
   "status": "proved",
   "theorems": [
    "Verif.Props.C65_addkey_without_primary"
   ],
   "note": ""
  },
  {
   "property": "C66",
   "status": "proved",
   "theorems": [
    "Verif.Props.C66_pieces",
    "Verif.Props.C66_pieces_decrypt",
    "Verif.Props.C66_incomplete",
    "Verif.Props.C66_pycrypto_pieces",
    "Verif.Props.C66_final_assertion",
    "Verif.Props.C66_directions",
    "Verif.Props.C66_same_ciphertext",
    "Verif.Props.C66_round_trip"
   ],
   "note": ""
  },
  {
   "property": "C67",
   "status": "proved",
   "theorems": [
    "Verif.Props.C67_equivalence",
    "Verif.Props.C67_hmac",
    "Verif.Props.C67_aes",
    "Verif.Props.C67_aes_other_hmac",
    "Verif.Props.C67_types",
    "Verif.Props.C67_asymmetric",
    "Verif.Props.C67_generated_asymmetric",
    "Verif.Props.C67_generated_symmetric",
    "Verif.Props.C67_has_pub_key"
   ],
   "note": "The claim that equal keys are interchangeable is false of the code: C67_aes_other_hmac, C67_asymmetric, C67_generated_asymmetric."
  },
  {
   "property": "C68",
   "status": "proved",
   "theorems": [
    "Verif.Props.C68_aes",
    "Verif.Props.C68_iv",
    "Verif.Props.C68_blocks"
   ],
   "note": ""
  },
  {
   "property": "C69",
   "status": "proved",
   "theorems": [
    "Verif.Props.C69_survives",
    "Verif.Props.C69_revoke_breaks",
    "Verif.Props.C69_revoke_undone"
   ],
   "note": "The claim is false of the code for revoke: C69_revoke_breaks, C69_revoke_undone. C69_survives proves it for the other commands."
  },
  {
   "property": "C70",
   "status": "proved",
   "theorems": [
    "Verif.Props.C70_generates",
    "Verif.Props.C70_succeeds",
    "Verif.Props.C70_path",
    "Verif.Props.C70_others",
    "Verif.Props.C70_no_location",
    "Verif.Props.C70_missing",
    "Verif.Props.C70_main",
    "Verif.Props.C70_sizes",
    "Verif.Props.C70_aes_outputs",
    "Verif.Props.C70_hmac_outputs",
    "Verif.Props.C70_rsa_outputs",
    "Verif.Props.C70_rsa_sign_outputs",
    "Verif.Props.C70_dsa_outputs"
   ],
   "note": ""
  },
  {
   "property": "C71",
   "status": "proved",
   "theorems": [
    "Verif.Props.C71_once",
    "Verif.Props.C71_existing",
    "Verif.Props.C71_missing",
    "Verif.Props.C71_missing_error",
    "Verif.Props.C71_broken",
    "Verif.Props.C71_no_plugins",
    "Verif.Props.C71_loaded",
    "Verif.Props.C71_repeat",
    "Verif.Props.C71_first_directory",
    "Verif.Props.C71_found",
    "Verif.Props.C71_from_directory"
   ],
   "note": ""
  },
  {
   "property": "C72",
   "status": "proved",
   "theorems": [
    "Verif.Props.C72_count",
    "Verif.Props.C72_rsa_count",
    "Verif.Props.C72_rsa_oaep",
    "Verif.Props.C72_wrong_count",
    "Verif.Props.C72_round_trip_any_length",
    "Verif.Props.C72_mgf"
   ],
   "note": ""
  },
  {
   "property": "C73",
   "status": "proved",
   "theorems": [
    "Verif.Props.C73_addkey",
    "Verif.Props.C73_promote",
    "Verif.Props.C73_demote",
    "Verif.Props.C73_revoke",
    "Verif.Props.C73_pubkey",
    "Verif.Props.C73_create",
    "Verif.Props.C73_step",
    "Verif.Props.C73_history",
    "Verif.Props.C73_reads",
    "Verif.Props.C73_reads_public",
    "Verif.Props.C73_create_again",
    "Verif.Props.C73_crypter_unused",
    "Verif.Props.C73_never_encrypted",
    "Verif.Props.C73_image",
    "Verif.Props.C73_new",
    "Verif.Props.C73_add",
    "Verif.Props.C73_exists",
    "Verif.Props.C73_status"
   ],
   "note": ""
  },
  {
   "property": "C74",
   "status": "proved",
   "theorems": [
    "Verif.Props.C74_accepts_iff",
    "Verif.Props.C74_index_error_iff",
    "Verif.Props.C74_outcomes",
    "Verif.Props.C74_too_large",
    "Verif.Props.C74_reduced",
    "Verif.Props.C74_leading_zeros",
    "Verif.Props.C74_not_unique",
    "Verif.Props.C74_conforming_iff",
    "Verif.Props.C74_not_oaep",
    "Verif.Props.C74_raises_index_error",
    "Verif.Props.C74_crypter"
   ],
   "note": "The claims that only PKCS#1 encodings are accepted and that only KeyczarError is raised are false of the code: C74_not_oaep, C74_raises_index_error. C74_accepts_iff, C74_index_error_iff and C74_outcomes say exactly what happens."
  },
  {
   "property": "C75",
   "status": "proved",
   "theorems": [
    "Verif.Props.C75_loads",
    "Verif.Props.C75_old_keys",
    "Verif.Props.C75_aes",
    "Verif.Props.C75_signatures",
    "Verif.Props.C75_rotation",
    "Verif.Props.C75_addkey_window",
    "Verif.Props.C75_revoke_window",
    "Verif.Props.C75_lost_output"
   ],
   "note": "Parts (3) and (4) say that the code does not protect readers: proved as existence of executions (C75_addkey_window, C75_revoke_window, C75_lost_output). C75_addkey_window needs that no stray file has the name of the new version."
  },
  {
   "property": "C76",
   "status": "proved",
   "theorems": [
    "Verif.Props.C76_names",
    "Verif.Props.C76_accepts",
    "Verif.Props.C76_first_fault",
    "Verif.Props.C76_constructor",
    "Verif.Props.C76_exceptions",
    "Verif.Props.C76_not_json",
    "Verif.Props.C76_key_accepts",
    "Verif.Props.C76_key_exceptions",
    "Verif.Props.C76_aes_mode",
    "Verif.Props.C76_key_not_dict",
    "Verif.Props.C76_key_unchecked"
   ],
   "note": "'Everything else is reported as KeyczarError' is false of the code: C76_constructor, C76_exceptions, C76_key_exceptions, C76_not_json. Version numbers that are not integers, floats, non-ASCII bytes and lone surrogates in JSON are outside the model (unmodelled)."
  },
  {
   "property": "C77",
   "status": "proved",
   "theorems": [
    "Verif.Props.C77_sign",
    "Verif.Props.C77_unversioned",
    "Verif.Props.C77_attached",
    "Verif.Props.C77_attached_any_data",
    "Verif.Props.C77_encrypt",
    "Verif.Props.C77_signed_session",
    "Verif.Props.C77_main",
    "Verif.Props.C77_create",
    "Verif.Props.C77_create_public",
    "Verif.Props.C77_create_encrypted",
    "Verif.Props.C77_passes_sign",
    "Verif.Props.C77_passes_unversioned",
    "Verif.Props.C77_passes_attached",
    "Verif.Props.C77_passes_encrypt",
    "Verif.Props.C77_passes_session",
    "Verif.Props.C77_encrypt_one_text",
    "Verif.Props.C77_command",
    "Verif.Props.C77_operation",
    "Verif.Props.C77_argument"
   ],
   "note": "That the test of attached signatures checks the message is false of the code: C77_attached (empty data), C77_attached_any_data. C77_create, C77_create_public and C77_create_encrypted suppose that the commands succeed; that RSA and DSA keys from the library are valid is a hypothesis."
  },
  {
   "property": "C78",
   "status": "proved",
   "theorems": [
    "Verif.Props.C78_accepts",
    "Verif.Props.C78_beyond",
    "Verif.Props.C78_value_error",
    "Verif.Props.C78_unique",
    "Verif.Props.C78_dumps",
    "Verif.Props.C78_layout",
    "Verif.Props.C78_metadata",
    "Verif.Props.C78_key",
    "Verif.Props.C78_refused",
    "Verif.Props.C78_printable",
    "Verif.Props.C78_text"
   ],
   "note": "The library json is modelled, not its source proved: C78 relates the model of json.loads to a grammar written separately. Python's limit on nesting (recursion) is not modelled."
  },
  {
   "property": "C79",
   "status": "proved",
   "theorems": [
    "Verif.Props.C79_files",
    "Verif.Props.C79_same_set",
    "Verif.Props.C79_unversioned",
    "Verif.Props.C79_backend",
    "Verif.Props.C79_broken",
    "Verif.Props.C79_base",
    "Verif.Props.C79_str"
   ],
   "note": "That every class opens what a backend serves is false of the code: C79_unversioned, C79_backend."
  },
  {
   "property": "C80",
   "status": "proved",
   "theorems": [
    "Verif.Props.C80_parses",
    "Verif.Props.C80_makes",
    "Verif.Props.C80_key_accepts",
    "Verif.Props.C80_accepts",
    "Verif.Props.C80_append",
    "Verif.Props.C80_other_encoding"
   ],
   "note": "That signatures cannot be changed without the key is false of the code: C80_append, C80_other_encoding."
  },
  {
   "property": "C81",
   "status": "proved",
   "theorems": [
    "Verif.Props.C81_accepts",
    "Verif.Props.C81_other_length"
   ],
   "note": "That there is one blob for one signature is false of the code: C81_other_length."
  },
  {
   "property": "C82",
   "status": "proved",
   "theorems": [
    "Verif.Props.C82_key",
    "Verif.Props.C82_accepts",
    "Verif.Props.C82_attached",
    "Verif.Props.C82_unversioned",
    "Verif.Props.C82_plain_is_unversioned",
    "Verif.Props.C82_rsa_plus_modulus"
   ],
   "note": "That kinds of signatures are separated is false of the code: C82_plain_is_unversioned (see also C45)."
  },
  {
   "property": "C83",
   "status": "proved",
   "theorems": [
    "Verif.Props.C83_accepts",
    "Verif.Props.C83_encrypts",
    "Verif.Props.C83_outcomes",
    "Verif.Props.C83_not_padded"
   ],
   "note": "That only outputs of Encrypt are accepted, and that the others raise a KeyczarError, are false of the code: C83_not_padded, C83_outcomes."
  },
  {
   "property": "C84",
   "status": "proved",
   "theorems": [
    "Verif.Props.C84_key",
    "Verif.Props.C84_one",
    "Verif.Props.C84_sign",
    "Verif.Props.C84_attached",
    "Verif.Props.C84_unversioned",
    "Verif.Props.C84_rsa_encrypt",
    "Verif.Props.C84_rsa_length"
   ],
   "note": "That RSA ciphertexts have the length of the modulus is false of the code: C84_rsa_length."
  },
  {
   "property": "C85",
   "status": "proved",
   "theorems": [
    "Verif.Props.C85_header_why",
    "Verif.Props.C85_payload",
    "Verif.Props.C85_primary",
    "Verif.Props.C85_write",
    "Verif.Props.C85_transitions",
    "Verif.Props.C85_no_purpose",
    "Verif.Props.C85_public",
    "Verif.Props.C85_open",
    "Verif.Props.C85_header",
    "Verif.Props.C85_decrypt",
    "Verif.Props.C85_verify",
    "Verif.Props.C85_attached_verify",
    "Verif.Props.C85_sign_any",
    "Verif.Props.C85_use",
    "Verif.Props.C85_sessions",
    "Verif.Props.C85_addkey",
    "Verif.Props.C85_status",
    "Verif.Props.C85_create",
    "Verif.Props.C85_pubkey",
    "Verif.Props.C85_genkey",
    "Verif.Props.C85_creates",
    "Verif.Props.C85_exports",
    "Verif.Props.C85_destroys",
    "Verif.Props.C85_command",
    "Verif.Props.C85_history",
    "Verif.Props.C85_no_keys"
   ],
   "note": "That a command that fails leaves the files as they were is false of the code: C85_genkey, C85_destroys."
  },
  {
   "property": "C86",
   "status": "proved",
   "theorems": [
    "Verif.Props.C86_packed",
    "Verif.Props.C86_unique",
    "Verif.Props.C86_many",
    "Verif.Props.C86_material",
    "Verif.Props.C86_use",
    "Verif.Props.C86_useless",
    "Verif.Props.C86_json",
    "Verif.Props.C86_signed_material",
    "Verif.Props.C86_signed"
   ],
   "note": "That keys have one packed form, and that an accepted session can be used, are false of the code: C86_many, C86_useless."
  },
  {
   "property": "C87",
   "status": "proved",
   "theorems": [
    "Verif.Props.C87_sbox",
    "Verif.Props.C87_aes",
    "Verif.Props.C87_aes_inverse",
    "Verif.Props.C87_sha1",
    "Verif.Props.C87_hash"
   ],
   "note": ""
  },
  {
   "property": "C88",
   "status": "proved",
   "theorems": [
    "Verif.Props.C88_same",
    "Verif.Props.C88_rsa",
    "Verif.Props.C88_rsa_covers",
    "Verif.Props.C88_rsa_length",
    "Verif.Props.C88_rsa_multiples",
    "Verif.Props.C88_aes",
    "Verif.Props.C88_aes_short",
    "Verif.Props.C88_short",
    "Verif.Props.C88_version",
    "Verif.Props.C88_unknown",
    "Verif.Props.C88_compare",
    "Verif.Props.C88_same_steps"
   ],
   "note": "That RSA decryption does not say why it failed is false of the code: C88_rsa, C88_rsa_length, C88_rsa_multiples."
  },
  {
   "property": "C89",
   "status": "proved",
   "theorems": [
    "Verif.Props.C89_answers",
    "Verif.Props.C89_verify",
    "Verif.Props.C89_attached",
    "Verif.Props.C89_unversioned",
    "Verif.Props.C89_only_plain",
    "Verif.Props.C89_only_attached",
    "Verif.Props.C89_session",
    "Verif.Props.C89_confused",
    "Verif.Props.C89_encrypt_answers",
    "Verif.Props.C89_decrypt"
   ],
   "note": "That whatever Verify accepts without a forgery was signed with Sign is false of keys used for several kinds of signatures: C89_confused; C89_only_plain and C89_only_attached say when it is true."
  },
  {
   "property": "C90",
   "status": "proved",
   "theorems": [
    "Verif.Props.C90_length",
    "Verif.Props.C90_header",
    "Verif.Props.C90_collision",
    "Verif.Props.C90_same_iv",
    "Verif.Props.C90_known_iv"
   ],
   "note": ""
  },
  {
   "property": "C91",
   "status": "proved",
   "theorems": [
    "Verif.Props.C91_determined",
    "Verif.Props.C91_known_draw",
    "Verif.Props.C91_repeat_shows",
    "Verif.Props.C91_repeated_draw",
    "Verif.Props.C91_congruent_secret",
    "Verif.Props.C91_inverse"
   ],
   "note": ""
  },
  {
   "property": "C92",
   "status": "proved",
   "theorems": [
    "Verif.Props.C92_opened",
    "Verif.Props.C92_plain",
    "Verif.Props.C92_metadata",
    "Verif.Props.C92_regrouped",
    "Verif.Props.C92_statuses",
    "Verif.Props.C92_renumbered",
    "Verif.Props.C92_made",
    "Verif.Props.C92_public",
    "Verif.Props.C92_seals"
   ],
   "note": "That the files of an encrypted set cannot be changed unnoticed is false: C92_statuses, C92_regrouped, C92_renumbered, C92_public, C92_plain; C92_made says what is true with an AES crypter."
  },
  {
   "property": "C93",
   "status": "proved",
   "theorems": [
    "Verif.Props.C93_seen",
    "Verif.Props.C93_dispatch",
    "Verif.Props.C93_verify",
    "Verif.Props.C93_decrypt",
    "Verif.Props.C93_shadowed"
   ],
   "note": "That a loaded set accepts what it made itself is false without distinct identifiers: C93_shadowed and its examples."
  },
  {
   "property": "C94",
   "status": "proved",
   "theorems": [
    "Verif.Props.C94_blind",
    "Verif.Props.C94_released",
    "Verif.Props.C94_spliced",
    "Verif.Props.C94_changed"
   ],
   "note": "That nothing unauthenticated is returned is false: C94_released, C94_changed, C94_spliced; C94_blind bounds what is returned for every input."
  },
  {
   "property": "C95",
   "status": "proved",
   "theorems": [
    "Verif.Props.C95_stuck",
    "Verif.Props.C95_stuck_forever",
    "Verif.Props.C95_empty_metadata",
    "Verif.Props.C95_restored",
    "Verif.Props.C95_salvaged",
    "Verif.Props.C95_lost",
    "Verif.Props.C95_overwritten"
   ],
   "note": "Without crypter, as in C39. C95_restored is about interruptions between effects, C95_salvaged about all; C95_stuck and C95_overwritten are what the commands themselves do."
  },
  {
   "property": "C96",
   "status": "proved",
   "theorems": [
    "Verif.Props.C96_makes",
    "Verif.Props.C96_same_signature",
    "Verif.Props.C96_takes",
    "Verif.Props.C96_transfers",
    "Verif.Props.C96_plain_distinct",
    "Verif.Props.C96_plain_unversioned",
    "Verif.Props.C96_plain_attached",
    "Verif.Props.C96_unversioned_attached",
    "Verif.Props.C96_attached_attached",
    "Verif.Props.C96_forged_nonce",
    "Verif.Props.C96_disciplined",
    "Verif.Props.C96_safe"
   ],
   "note": "That uses are separated is false: C96_same_signature, C96_transfers, C96_forged_nonce; C96_disciplined is what is true instead."
  },
  {
   "property": "C97",
   "status": "proved",
   "theorems": [
    "Verif.Props.C97_calls",
    "Verif.Props.C97_tests",
    "Verif.Props.C97_runs",
    "Verif.Props.C97_last",
    "Verif.Props.C97_lost",
    "Verif.Props.C97_one_failure",
    "Verif.Props.C97_names",
    "Verif.Props.C97_complete",
    "Verif.Props.C97_sound",
    "Verif.Props.C97_display",
    "Verif.Props.C97_shipped",
    "Verif.Props.C97_filled",
    "Verif.Props.C97_keys",
    "Verif.Props.C97_python2",
    "Verif.Props.C97_commands",
    "Verif.Props.C97_line"
   ],
   "note": "That every planned test is run is false in general: C97_lost, C97_one_failure, C97_python2; C97_complete and C97_shipped are what is true instead."
  },
  {
   "property": "C98",
   "status": "proved",
   "theorems": [
    "Verif.Props.C98_signatures",
    "Verif.Props.C98_encryption",
    "Verif.Props.C98_sessions",
    "Verif.Props.C98_operations",
    "Verif.Props.C98_created",
    "Verif.Props.C98_created_encrypted",
    "Verif.Props.C98_ran_plain",
    "Verif.Props.C98_ran_encrypted",
    "Verif.Props.C98_all_created",
    "Verif.Props.C98_read",
    "Verif.Props.C98_too_long",
    "Verif.Props.C98_excluded"
   ],
   "note": "The program interop.py is read with Python 3 (under Python 2 no test is run, C97_python2), the implementation with Python 2, as everywhere but in C62 and C85. The cases shown are parts of the run (three creations, tests of three operations); the whole run is not evaluated, as it generates RSA keys of 4096 bits."
  },
  {
   "property": "C99",
   "status": "proved",
   "theorems": [
    "Verif.Props.C99_run",
    "Verif.Props.C99_display",
    "Verif.Props.C99_options",
    "Verif.Props.C99_shown",
    "Verif.Props.C99_blind",
    "Verif.Props.C99_status",
    "Verif.Props.C99_unreported"
   ],
   "note": "That a failed test does not change the exit status is how Model/HarnessMain reads RunTests (interop.py:520-522), where the value of run() is dropped; the theorems say what follows for the program. Logging and the texts printed are left out, except the tables of options. What os._exit(1) in _MakeDirs does counts as a creation that is not answered."
  },
  {
   "property": "C100",
   "status": "proved",
   "theorems": [
    "Verif.Props.C100_key",
    "Verif.Props.C100_text",
    "Verif.Props.C100_identifier",
    "Verif.Props.C100_use",
    "Verif.Props.C100_disk",
    "Verif.Props.C100_meta_last",
    "Verif.Props.C100_succeeds",
    "Verif.Props.C100_load",
    "Verif.Props.C100_encrypted",
    "Verif.Props.C100_main"
   ],
   "note": "The two directories are different. Key files that parse to something other than an object, and rewritten fields that are not plain strings, are outside the model. Texts with line breaks that the library reads and the script refuses exist (example beside the theorems); the claim is about runs that end without an exception."
  }
 ]
}