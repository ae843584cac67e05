C01_deprecated: Quot.sound, propext
C01_round_trip: Quot.sound, propext
C02_alphabet: Classical.choice, Quot.sound, propext
C02_injective: Quot.sound, propext
C02_length: Classical.choice, Quot.sound, propext
C02_rfc4648: Classical.choice, Quot.sound, propext
C03_blanks_ignored: propext
C03_decode_not_injective: Classical.choice, Quot.sound, propext
C03_deprecated: Quot.sound, propext
C03_foreign: Quot.sound, propext
C03_foreign_four: Classical.choice, Quot.sound, propext
C03_length_error: propext
C03_only_failure: Quot.sound, propext
C03_tab_not_ignored: Classical.choice, Quot.sound, propext
C04_chunks: Classical.choice, Quot.sound, propext
C04_close: 
C05_never_none: Classical.choice, Quot.sound, propext
C05_reads: Classical.choice, Quot.sound, propext
C05_size_zero_differs: propext
C05_source: Classical.choice, Quot.sound, propext
C05_spins: Quot.sound, propext
C05_truncated: Classical.choice, Quot.sound, propext
C05_whitespace_differs: propext
C06_format: Quot.sound, propext
C06_pack_ok: Quot.sound, propext
C06_pack_unpack: Quot.sound, propext
C06_unambiguous: Quot.sound, propext
C06_unpack_at_offset: Quot.sound, propext
C07_bound: Classical.choice, Quot.sound, propext
C07_diverges: propext
C07_diverges_iff: Classical.choice, Quot.sound, propext
C07_terminates: Quot.sound, propext
C08_int_to_bytes: Quot.sound, propext
C08_minimal: Classical.choice, Quot.sound, propext
C08_no_leading_zero: Quot.sound, propext
C08_pad: Quot.sound, propext
C08_round_trip: Quot.sound, propext
C08_value: Quot.sound, propext
C09_dsa_identifier: Classical.choice, Quot.sound, propext
C09_rsa_identifier: Classical.choice, Quot.sound, propext
C09_trim_canonical: Classical.choice, Quot.sound, propext
C09_trim_value: Quot.sound, propext
C100_disk: Classical.choice, Quot.sound, propext
C100_encrypted: Classical.choice, Quot.sound, propext
C100_identifier: Classical.choice, Quot.sound, propext
C100_key: Classical.choice, Quot.sound, propext
C100_load: Classical.choice, Quot.sound, propext
C100_main: Classical.choice, Quot.sound, propext
C100_meta_last: Classical.choice, Quot.sound, propext
C100_succeeds: Classical.choice, Quot.sound, propext
C100_text: Classical.choice, Quot.sound, propext
C100_use: Quot.sound, propext
C10_comm: Quot.sound, propext
C10_involution: Quot.sound, propext
C10_pointwise: Quot.sound, propext
C11_length: Quot.sound, propext
C11_round_trip: Quot.sound, propext
C11_shape: Quot.sound, propext
C12_injective: Classical.choice, Quot.sound, propext
C12_make_ok: Classical.choice, Quot.sound, propext
C12_round_trip: Classical.choice, Quot.sound, propext
C13_accepts_exactly_mac: Classical.choice, Quot.sound, propext
C13_rejects_other_lengths: Classical.choice, Quot.sound, propext
C13_sign_verify: Classical.choice, Quot.sound, propext
C14_length: Quot.sound, propext
C14_pad_is_pkcs5: Quot.sound, propext
C14_round_trip: Quot.sound, propext
C14_unpad: Quot.sound, propext
C15_round_trip_layout: Classical.choice, Quot.sound, propext
C16_accepted_is_authenticated: Classical.choice, Quot.sound, propext
C16_altered_tag: Classical.choice, Quot.sound, propext
C16_tag_unique: Classical.choice, Quot.sound, propext
C17_independent_of_aes_key: Classical.choice, Quot.sound, propext
C17_short_outcome: Quot.sound, propext
C17_wrong_tag_outcome: Classical.choice, Quot.sound, propext
C18_loaded_primary: Classical.choice, Quot.sound, propext
C18_two_primaries_error: Classical.choice, Quot.sound, propext
C18_two_primaries_fail: Classical.choice, Quot.sound, propext
C19_accepted_loads: Classical.choice, Quot.sound, propext
C19_only_accepted: Classical.choice, Quot.sound, propext
C19_rejected_before_keys: Classical.choice, Quot.sound, propext
C20_encrypted_reader: Classical.choice, Quot.sound, propext
C20_loaded_plain: Classical.choice, Quot.sound, propext
C20_rejected_before_keys: Classical.choice, Quot.sound, propext
C21_attached_header: Classical.choice, Quot.sound, propext
C21_encrypt_header: Classical.choice, Quot.sound, propext
C21_lookup: Classical.choice, Quot.sound, propext
C21_sign_header: Classical.choice, Quot.sound, propext
C22_aes_encrypts: Classical.choice, Quot.sound, propext
C22_aes_round_trip: Classical.choice, Quot.sound, propext
C22_rsa_round_trip: Classical.choice, Quot.sound, propext
C23_bad_version: Quot.sound, propext
C23_dispatch: Classical.choice, Quot.sound, propext
C23_short: Quot.sound, propext
C23_unknown_key: Classical.choice, Quot.sound, propext
C24_never_no_primary_error: propext
C24_no_primary: Classical.choice, Quot.sound, propext
C25_single_primary: Classical.choice, Quot.sound, propext
C26_add: Classical.choice, Quot.sound, propext
C26_demote: Classical.choice, Quot.sound, propext
C26_promote: Classical.choice, Quot.sound, propext
C26_revoke: Classical.choice, Quot.sound, propext
C27_fresh_number: Classical.choice, Quot.sound, propext
C27_nodup: Classical.choice, Quot.sound, propext
C27_reused_after_reload: Classical.choice, Quot.sound, propext
C28_distinct: Classical.choice, Quot.sound, propext
C28_identifiers: Classical.choice, Quot.sound, propext
C29_bad_size: Quot.sound, propext
C29_size: Classical.choice, Quot.sound, propext
C30_public_set_loses_primary: Classical.choice, Quot.sound, propext
C30_public_set_other: Classical.choice, Quot.sound, propext
C30_terminates: Classical.choice, Quot.sound, propext
C30_unchanged: Classical.choice, Quot.sound, propext
C31_object_still_exports: Classical.choice, Quot.sound, propext
C31_object_still_writes: Classical.choice, Quot.sound, propext
C31_outputs_rejected: Classical.choice, Quot.sound, propext
C31_revoked: Classical.choice, Quot.sound, propext
C31_unknown_afterwards: Classical.choice, Quot.sound, propext
C32_aes: Classical.choice, Quot.sound, propext
C32_good_crypter: Classical.choice, Quot.sound, propext
C32_signatures: Classical.choice, Quot.sound, propext
C32_versions_survive: Classical.choice, Quot.sound, propext
C33_aes_opens: Classical.choice, Quot.sound, propext
C33_aes_succeeds: Classical.choice, Quot.sound, propext
C33_plain_succeeds: Classical.choice, Quot.sound, propext
C33_write_load: Classical.choice, Quot.sound, propext
C34_round_trip: Classical.choice, Quot.sound, propext
C34_rsa_primes: Classical.choice, Quot.sound, propext
C34_text_determines_key: Classical.choice, Quot.sound, propext
C35_read_document: Classical.choice, Quot.sound, propext
C35_read_objects: Classical.choice, Quot.sound, propext
C35_round_trip: Classical.choice, Quot.sound, propext
C36_creates_empty: Classical.choice, Quot.sound, propext
C36_never_overwrites: Classical.choice, Quot.sound, propext
C36_refuses: Classical.choice, Quot.sound, propext
C37_history: Classical.choice, Quot.sound, propext
C37_refused_without_crypter: Classical.choice, Quot.sound, propext
C37_with_crypter: Classical.choice, Quot.sound, propext
C38_addkey_bad_size: Classical.choice, Quot.sound, propext
C38_demote: Classical.choice, Quot.sound, propext
C38_failure_has_no_effect: Classical.choice, Quot.sound, propext
C38_no_location: Classical.choice, Quot.sound, propext
C38_promote: Classical.choice, Quot.sound, propext
C38_remove: Quot.sound, propext
C38_revoke: Classical.choice, Quot.sound, propext
C39_addkey: Classical.choice, Quot.sound, propext
C39_demote: Classical.choice, Quot.sound, propext
C39_promote: Classical.choice, Quot.sound, propext
C39_revoke: Classical.choice, Quot.sound, propext
C39_torn_key: Classical.choice, Quot.sound, propext
C39_torn_metadata: Classical.choice, Quot.sound, propext
C40_lost_key: Classical.choice, Quot.sound, propext
C41_dsa_verifies: Classical.choice, Quot.sound, propext
C41_export: Classical.choice, Quot.sound, propext
C41_identifiers: propext
C41_no_private_data: Classical.choice, Quot.sound, propext
C41_refuses: Classical.choice, Quot.sound, propext
C41_rsa_encrypts: Classical.choice, Quot.sound, propext
C41_rsa_verifies: Classical.choice, Quot.sound, propext
C42_dsa: Classical.choice, Quot.sound, propext
C42_hmac: Classical.choice, Quot.sound, propext
C42_rsa: Classical.choice, Quot.sound, propext
C43_accepted_form: Classical.choice, Quot.sound, propext
C43_text_not_unique: Quot.sound, propext
C43_two_messages: Classical.choice, Quot.sound, propext
C43_unique: Classical.choice, Quot.sound, propext
C44_dsa: Classical.choice, Quot.sound, propext
C44_hmac: Classical.choice, Quot.sound, propext
C44_rsa: Classical.choice, Quot.sound, propext
C44_sound: Classical.choice, Quot.sound, propext
C45_attached_is_plain: Classical.choice, Quot.sound, propext
C45_binding: Quot.sound, propext
C45_not_binding: 
C46_dsa_round_trip: Classical.choice, Quot.sound, propext
C46_hmac_round_trip: Classical.choice, Quot.sound, propext
C46_hmac_rsa: Classical.choice, Quot.sound, propext
C46_iff: Classical.choice, Quot.sound, propext
C46_rsa_round_trip: Classical.choice, Quot.sound, propext
C46_sound: Classical.choice, Quot.sound, propext
C47_attached_short: Quot.sound, propext
C47_classes: Quot.sound, propext
C47_dsa_integers: Classical.choice, Quot.sound, propext
C47_dsa_raises: Classical.choice, Quot.sound, propext
C47_dsa_wrong_number: Classical.choice, Quot.sound, propext
C47_hmac_rsa: Classical.choice, Quot.sound, propext
C48_encode_is_oaep: Quot.sound, propext
C48_encrypts: Classical.choice, Quot.sound, propext
C48_round_trip: Classical.choice, Quot.sound, propext
C48_too_long: Quot.sound, propext
C49_decrypt_encrypt: Classical.choice, Quot.sound, propext
C49_encrypt_decrypt: Classical.choice, Quot.sound, propext
C49_stored_order: Quot.sound, propext
C49_textbook: Classical.choice, Quot.sound, propext
C50_accepts_iff: Quot.sound, propext
C50_emsa: Quot.sound, propext
C50_leading_zeros: Quot.sound, propext
C50_not_unique: Classical.choice, Quot.sound, propext
C50_sign_verify: Classical.choice, Quot.sound, propext
C51_pair: Classical.choice, Quot.sound, propext
C51_sign_verify: Classical.choice, Quot.sound, propext
C52_error_iff: Quot.sound, propext
C52_error_kind: 
C52_mgf_is_mgf1: Quot.sound, propext
C52_prefix: Classical.choice, Quot.sound, propext
C53_aes: Classical.choice, Quot.sound, propext
C53_authentic: Classical.choice, Quot.sound, propext
C53_loaded_key: Quot.sound, propext
C53_material_layout: Quot.sound, propext
C53_rsa: Classical.choice, Quot.sound, propext
C54_aes_material: Classical.choice, Quot.sound, propext
C54_dsa: Classical.choice, Quot.sound, propext
C54_exact: Classical.choice, Quot.sound, propext
C54_hmac: Classical.choice, Quot.sound, propext
C54_json_round_trip: Classical.choice, Quot.sound, propext
C54_other_session: Classical.choice, Quot.sound, propext
C54_rsa: Classical.choice, Quot.sound, propext
C54_rsa_material: Classical.choice, Quot.sound, propext
C54_sound: Classical.choice, Quot.sound, propext
C55_session: Classical.choice, Quot.sound, propext
C55_signed: Classical.choice, Quot.sound, propext
C55_signed_sizes: Classical.choice, Quot.sound, propext
C55_sizes: Classical.choice, Quot.sound, propext
C56_chunks: Classical.choice, Quot.sound, propext
C56_crypter: Classical.choice, Quot.sound, propext
C56_crypter_base64: Classical.choice, Quot.sound, propext
C56_decrypts: Classical.choice, Quot.sound, propext
C56_not_aes: Classical.choice, Quot.sound, propext
C56_second_flush: Classical.choice, Quot.sound, propext
C57_reads: Classical.choice, Quot.sound, propext
C57_reads_base64: Classical.choice, Quot.sound, propext
C58_after_failure: Classical.choice, Quot.sound, propext
C58_end: Classical.choice, Quot.sound, propext
C58_ends: Classical.choice, Quot.sound, propext
C58_error: Classical.choice, Quot.sound, propext
C58_other_key: Quot.sound, propext
C58_short: Classical.choice, Quot.sound, propext
C58_skips_header: Classical.choice, Quot.sound, propext
C59_close_discards: Classical.choice, Quot.sound, propext
C59_reader: Quot.sound, propext
C59_writer: Quot.sound, propext
C60_addkey: Classical.choice, Quot.sound, propext
C60_addkey_bad_number: Classical.choice, Quot.sound, propext
C60_addkey_bad_status: Classical.choice, Quot.sound, propext
C60_addkey_crypter: Classical.choice, Quot.sound, propext
C60_bad_version: Classical.choice, Quot.sound, propext
C60_create: Classical.choice, Quot.sound, propext
C60_create_undecodable: Classical.choice, Quot.sound, propext
C60_demote: Classical.choice, Quot.sound, propext
C60_ignored_argument: Classical.choice, Quot.sound, propext
C60_missing_version: Classical.choice, Quot.sound, propext
C60_no_arguments: Classical.choice, Quot.sound, propext
C60_promote: Classical.choice, Quot.sound, propext
C60_pubkey: Classical.choice, Quot.sound, propext
C60_revoke: Classical.choice, Quot.sound, propext
C60_unknown_command: Classical.choice, Quot.sound, propext
C60_unknown_flag: Classical.choice, Quot.sound, propext
C61_effects: propext
C61_errors_not_kept: propext
C61_kept: Classical.choice, Quot.sound, propext
C61_once: Classical.choice, Quot.sound, propext
C61_session_crypter: Classical.choice, Quot.sound, propext
C61_sticky: Classical.choice, Quot.sound, propext
C61_transparent: Quot.sound, propext
C61_unpicklable: propext
C62_add: Quot.sound, propext
C62_add_asymmetric: Classical.choice, Quot.sound, propext
C62_add_type_error: Quot.sound, propext
C62_bytes_to_long: propext
C62_decode_bytes: propext
C62_decode_type: Quot.sound, propext
C62_encode: propext
C62_generate_asymmetric: Classical.choice, Quot.sound, propext
C62_generate_symmetric: Quot.sound, propext
C62_hash_text: propext
C62_identifier: Quot.sound, propext
C62_identifier_type_error: Classical.choice, Quot.sound, propext
C62_load: Quot.sound, propext
C62_load_type_error: Classical.choice, Quot.sound, propext
C62_padding: propext
C62_prefix_hash: propext
C62_random: propext
C62_str_is_text: propext
C63_dsa_pkcs8_format: Classical.choice, Quot.sound, propext
C63_dsa_x509_format: Classical.choice, Quot.sound, propext
C63_malformed: Classical.choice, Quot.sound, propext
C63_other_algorithm: Classical.choice, Quot.sound, propext
C63_pkcs8: Classical.choice, Quot.sound, propext
C63_pkcs8_ok: Classical.choice, Quot.sound, propext
C63_rsa_pkcs8_format: Classical.choice, Quot.sound, propext
C63_rsa_x509_format: Classical.choice, Quot.sound, propext
C63_trailing_data: Classical.choice, Quot.sound, propext
C63_x509: Classical.choice, Quot.sound, propext
C63_x509_ok: Classical.choice, Quot.sound, propext
C64_pubkey_overwrites: Classical.choice, Quot.sound, propext
C65_addkey_without_primary: Classical.choice, Quot.sound, propext
C66_directions: Quot.sound, propext
C66_final_assertion: Quot.sound, propext
C66_incomplete: Quot.sound, propext
C66_pieces: Quot.sound, propext
C66_pieces_decrypt: Quot.sound, propext
C66_pycrypto_pieces: Quot.sound, propext
C66_round_trip: Classical.choice, Quot.sound, propext
C66_same_ciphertext: Quot.sound, propext
C67_aes: propext
C67_aes_other_hmac: Classical.choice, Quot.sound, propext
C67_asymmetric: propext
C67_equivalence: propext
C67_generated_asymmetric: Quot.sound, propext
C67_generated_symmetric: Quot.sound, propext
C67_has_pub_key: propext
C67_hmac: propext
C67_types: propext
C68_aes: Classical.choice, Quot.sound, propext
C68_blocks: Quot.sound, propext
C68_iv: Classical.choice, Quot.sound, propext
C69_revoke_breaks: Classical.choice, Quot.sound, propext
C69_revoke_undone: Classical.choice, Quot.sound, propext
C69_survives: Classical.choice, Quot.sound, propext
C70_aes_outputs: Classical.choice, Quot.sound, propext
C70_dsa_outputs: Classical.choice, Quot.sound, propext
C70_generates: Classical.choice, Quot.sound, propext
C70_hmac_outputs: Classical.choice, Quot.sound, propext
C70_main: Classical.choice, Quot.sound, propext
C70_missing: Classical.choice, Quot.sound, propext
C70_no_location: Classical.choice, Quot.sound, propext
C70_others: Classical.choice, Quot.sound, propext
C70_path: Classical.choice, Quot.sound, propext
C70_rsa_outputs: Classical.choice, Quot.sound, propext
C70_rsa_sign_outputs: Classical.choice, Quot.sound, propext
C70_sizes: Classical.choice, Quot.sound, propext
C70_succeeds: Classical.choice, Quot.sound, propext
C71_broken: propext
C71_existing: Quot.sound, propext
C71_first_directory: Quot.sound, propext
C71_found: Quot.sound, propext
C71_from_directory: Quot.sound, propext
C71_loaded: Quot.sound, propext
C71_missing: Classical.choice, Quot.sound, propext
C71_missing_error: Classical.choice, Quot.sound, propext
C71_no_plugins: propext
C71_once: Quot.sound, propext
C71_repeat: Quot.sound, propext
C72_count: Classical.choice, Quot.sound, propext
C72_mgf: Classical.choice, Quot.sound, propext
C72_round_trip_any_length: Classical.choice, Quot.sound, propext
C72_rsa_count: Classical.choice, Quot.sound, propext
C72_rsa_oaep: Classical.choice, Quot.sound, propext
C72_wrong_count: Classical.choice, Quot.sound, propext
C73_add: Classical.choice, Quot.sound, propext
C73_addkey: Classical.choice, Quot.sound, propext
C73_create: Classical.choice, Quot.sound, propext
C73_create_again: Classical.choice, Quot.sound, propext
C73_crypter_unused: Classical.choice, Quot.sound, propext
C73_demote: Classical.choice, Quot.sound, propext
C73_exists: Classical.choice, Quot.sound, propext
C73_history: Classical.choice, Quot.sound, propext
C73_image: Classical.choice, Quot.sound, propext
C73_never_encrypted: Classical.choice, Quot.sound, propext
C73_new: 
C73_promote: Classical.choice, Quot.sound, propext
C73_pubkey: Classical.choice, Quot.sound, propext
C73_reads: Classical.choice, Quot.sound, propext
C73_reads_public: Classical.choice, Quot.sound, propext
C73_revoke: Classical.choice, Quot.sound, propext
C73_status: Classical.choice, Quot.sound, propext
C73_step: Classical.choice, Quot.sound, propext
C74_accepts_iff: Classical.choice, Quot.sound, propext
C74_conforming_iff: Quot.sound, propext
C74_crypter: Quot.sound, propext
C74_index_error_iff: Classical.choice, Quot.sound, propext
C74_leading_zeros: Quot.sound, propext
C74_not_oaep: Classical.choice, Quot.sound, propext
C74_not_unique: Quot.sound, propext
C74_outcomes: Classical.choice, Quot.sound, propext
C74_raises_index_error: Classical.choice, Quot.sound, propext
C74_reduced: Classical.choice, Quot.sound, propext
C74_too_large: Quot.sound, propext
C75_addkey_window: Classical.choice, Quot.sound, propext
C75_aes: Classical.choice, Quot.sound, propext
C75_loads: Classical.choice, Quot.sound, propext
C75_lost_output: Classical.choice, Quot.sound, propext
C75_old_keys: Classical.choice, Quot.sound, propext
C75_revoke_window: Classical.choice, Quot.sound, propext
C75_rotation: Classical.choice, Quot.sound, propext
C75_signatures: Classical.choice, Quot.sound, propext
C76_accepts: Classical.choice, Quot.sound, propext
C76_aes_mode: Classical.choice, Quot.sound, propext
C76_constructor: Classical.choice, Quot.sound, propext
C76_exceptions: Classical.choice, Quot.sound, propext
C76_first_fault: Classical.choice, Quot.sound, propext
C76_key_accepts: Classical.choice, Quot.sound, propext
C76_key_exceptions: Classical.choice, Quot.sound, propext
C76_key_not_dict: Classical.choice, Quot.sound, propext
C76_key_unchecked: Classical.choice, Quot.sound, propext
C76_names: Classical.choice, Quot.sound, propext
C76_not_json: Classical.choice, Quot.sound, propext
C77_argument: Classical.choice, Quot.sound, propext
C77_attached: Classical.choice, Quot.sound, propext
C77_attached_any_data: Classical.choice, Quot.sound, propext
C77_command: Classical.choice, Quot.sound, propext
C77_create: Classical.choice, Quot.sound, propext
C77_create_encrypted: Classical.choice, Quot.sound, propext
C77_create_public: Classical.choice, Quot.sound, propext
C77_encrypt: Classical.choice, Quot.sound, propext
C77_encrypt_one_text: Classical.choice, Quot.sound, propext
C77_main: Classical.choice, Quot.sound, propext
C77_operation: Classical.choice, Quot.sound, propext
C77_passes_attached: Classical.choice, Quot.sound, propext
C77_passes_encrypt: Classical.choice, Quot.sound, propext
C77_passes_session: Classical.choice, Quot.sound, propext
C77_passes_sign: Classical.choice, Quot.sound, propext
C77_passes_unversioned: Classical.choice, Quot.sound, propext
C77_sign: Classical.choice, Quot.sound, propext
C77_signed_session: Classical.choice, Quot.sound, propext
C77_unversioned: Classical.choice, Quot.sound, propext
C78_accepts: Classical.choice, Quot.sound, propext
C78_beyond: Classical.choice, Quot.sound, propext
C78_dumps: Classical.choice, Quot.sound, propext
C78_key: Classical.choice, Quot.sound, propext
C78_layout: Classical.choice, Quot.sound, propext
C78_metadata: Classical.choice, Quot.sound, propext
C78_printable: Classical.choice, Quot.sound, propext
C78_refused: Classical.choice, Quot.sound, propext
C78_text: Classical.choice, Quot.sound, propext
C78_unique: Classical.choice, Quot.sound, propext
C78_value_error: Classical.choice, Quot.sound, propext
C79_backend: Classical.choice, Quot.sound, propext
C79_base: Classical.choice, Quot.sound, propext
C79_broken: Classical.choice, Quot.sound, propext
C79_files: Classical.choice, Quot.sound, propext
C79_same_set: Classical.choice, Quot.sound, propext
C79_str: Classical.choice, Quot.sound, propext
C79_unversioned: Classical.choice, Quot.sound, propext
C80_accepts: Classical.choice, Quot.sound, propext
C80_append: Classical.choice, Quot.sound, propext
C80_key_accepts: Classical.choice, Quot.sound, propext
C80_makes: Classical.choice, Quot.sound, propext
C80_other_encoding: Quot.sound, propext
C80_parses: Classical.choice, Quot.sound, propext
C81_accepts: Classical.choice, Quot.sound, propext
C81_other_length: Classical.choice, Quot.sound, propext
C82_accepts: Classical.choice, Quot.sound, propext
C82_attached: Classical.choice, Quot.sound, propext
C82_key: Classical.choice, Quot.sound, propext
C82_plain_is_unversioned: Classical.choice, Quot.sound, propext
C82_rsa_plus_modulus: Quot.sound, propext
C82_unversioned: Classical.choice, Quot.sound, propext
C83_accepts: Classical.choice, Quot.sound, propext
C83_encrypts: Classical.choice, Quot.sound, propext
C83_not_padded: Classical.choice, Quot.sound, propext
C83_outcomes: Classical.choice, Quot.sound, propext
C84_attached: Classical.choice, Quot.sound, propext
C84_key: Classical.choice, Quot.sound, propext
C84_one: Classical.choice, Quot.sound, propext
C84_rsa_encrypt: Classical.choice, Quot.sound, propext
C84_rsa_length: Classical.choice, Quot.sound, propext
C84_sign: Classical.choice, Quot.sound, propext
C84_unversioned: Classical.choice, Quot.sound, propext
C85_addkey: Classical.choice, Quot.sound, propext
C85_attached_verify: Quot.sound, propext
C85_command: Classical.choice, Quot.sound, propext
C85_create: Classical.choice, Quot.sound, propext
C85_creates: Classical.choice, Quot.sound, propext
C85_decrypt: Quot.sound, propext
C85_destroys: Classical.choice, Quot.sound, propext
C85_exports: Classical.choice, Quot.sound, propext
C85_genkey: Classical.choice, Quot.sound, propext
C85_header: Quot.sound, propext
C85_header_why: propext
C85_history: Classical.choice, Quot.sound, propext
C85_no_keys: Classical.choice, Quot.sound, propext
C85_no_purpose: Classical.choice, Quot.sound, propext
C85_open: Classical.choice, Quot.sound, propext
C85_payload: propext
C85_primary: Quot.sound, propext
C85_pubkey: Classical.choice, Quot.sound, propext
C85_public: propext
C85_sessions: Quot.sound, propext
C85_sign_any: Quot.sound, propext
C85_status: Classical.choice, Quot.sound, propext
C85_transitions: propext
C85_use: Classical.choice, Quot.sound, propext
C85_verify: Quot.sound, propext
C85_write: propext
C86_json: Classical.choice, Quot.sound, propext
C86_many: Quot.sound, propext
C86_material: Classical.choice, Quot.sound, propext
C86_packed: Classical.choice, Quot.sound, propext
C86_signed: Classical.choice, Quot.sound, propext
C86_signed_material: Classical.choice, Quot.sound, propext
C86_unique: Classical.choice, Quot.sound, propext
C86_use: Classical.choice, Quot.sound, propext
C86_useless: Classical.choice, Quot.sound, propext
C87_aes: Classical.choice, Quot.sound, propext
C87_aes_inverse: Classical.choice, Quot.sound, propext
C87_hash: Classical.choice, Quot.sound, propext
C87_sbox: Quot.sound, propext
C87_sha1: Classical.choice, Quot.sound, propext
C88_aes: Classical.choice, Quot.sound, propext
C88_aes_short: Classical.choice, Quot.sound, propext
C88_compare: Classical.choice, Quot.sound, propext
C88_rsa: Classical.choice, Quot.sound, propext
C88_rsa_covers: Classical.choice, Quot.sound, propext
C88_rsa_length: Classical.choice, Quot.sound, propext
C88_rsa_multiples: Classical.choice, Quot.sound, propext
C88_same: Classical.choice, Quot.sound, propext
C88_same_steps: Classical.choice, Quot.sound, propext
C88_short: Classical.choice, Quot.sound, propext
C88_unknown: Classical.choice, Quot.sound, propext
C88_version: Classical.choice, Quot.sound, propext
C89_answers: Classical.choice, Quot.sound, propext
C89_attached: Classical.choice, Quot.sound, propext
C89_confused: Classical.choice, Quot.sound, propext
C89_decrypt: Classical.choice, Quot.sound, propext
C89_encrypt_answers: Classical.choice, Quot.sound, propext
C89_only_attached: Classical.choice, Quot.sound, propext
C89_only_plain: Classical.choice, Quot.sound, propext
C89_session: Classical.choice, Quot.sound, propext
C89_unversioned: Classical.choice, Quot.sound, propext
C89_verify: Classical.choice, Quot.sound, propext
C90_collision: Classical.choice, Quot.sound, propext
C90_header: Classical.choice, Quot.sound, propext
C90_known_iv: Classical.choice, Quot.sound, propext
C90_length: Classical.choice, Quot.sound, propext
C90_same_iv: Classical.choice, Quot.sound, propext
C91_congruent_secret: Quot.sound, propext
C91_determined: Classical.choice, Quot.sound, propext
C91_inverse: Classical.choice, Quot.sound, propext
C91_known_draw: Classical.choice, Quot.sound, propext
C91_repeat_shows: Classical.choice, Quot.sound, propext
C91_repeated_draw: Classical.choice, Quot.sound, propext
C92_made: Classical.choice, Quot.sound, propext
C92_metadata: Classical.choice, Quot.sound, propext
C92_opened: Classical.choice, Quot.sound, propext
C92_plain: Classical.choice, Quot.sound, propext
C92_public: Classical.choice, Quot.sound, propext
C92_regrouped: Classical.choice, Quot.sound, propext
C92_renumbered: Classical.choice, Quot.sound, propext
C92_seals: Classical.choice, Quot.sound, propext
C92_statuses: Classical.choice, Quot.sound, propext
C93_decrypt: Classical.choice, Quot.sound, propext
C93_dispatch: Classical.choice, Quot.sound, propext
C93_seen: Classical.choice, Quot.sound, propext
C93_shadowed: Classical.choice, Quot.sound, propext
C93_verify: Classical.choice, Quot.sound, propext
C94_blind: Classical.choice, Quot.sound, propext
C94_changed: Classical.choice, Quot.sound, propext
C94_released: Classical.choice, Quot.sound, propext
C94_spliced: Classical.choice, Quot.sound, propext
C95_empty_metadata: Classical.choice, Quot.sound, propext
C95_lost: Classical.choice, Quot.sound, propext
C95_overwritten: Classical.choice, Quot.sound, propext
C95_restored: Classical.choice, Quot.sound, propext
C95_salvaged: Classical.choice, Quot.sound, propext
C95_stuck: Classical.choice, Quot.sound, propext
C95_stuck_forever: Classical.choice, Quot.sound, propext
C96_attached_attached: Classical.choice, Quot.sound, propext
C96_disciplined: Quot.sound, propext
C96_forged_nonce: Classical.choice, Quot.sound, propext
C96_makes: Classical.choice, Quot.sound, propext
C96_plain_attached: Quot.sound, propext
C96_plain_distinct: Quot.sound, propext
C96_plain_unversioned: 
C96_safe: Classical.choice, Quot.sound, propext
C96_same_signature: Classical.choice, Quot.sound, propext
C96_takes: Classical.choice, Quot.sound, propext
C96_transfers: Classical.choice, Quot.sound, propext
C96_unversioned_attached: 
C97_calls: Classical.choice, Quot.sound, propext
C97_commands: Classical.choice, Quot.sound, propext
C97_complete: Classical.choice, Quot.sound, propext
C97_display: Classical.choice, Quot.sound, propext
C97_filled: Classical.choice, Quot.sound, propext
C97_keys: Classical.choice, Quot.sound, propext
C97_last: Classical.choice, Quot.sound, propext
C97_line: Classical.choice, Quot.sound, propext
C97_lost: Classical.choice, Quot.sound, propext
C97_names: Classical.choice, Quot.sound, propext
C97_one_failure: Classical.choice, Quot.sound, propext
C97_python2: Classical.choice, Quot.sound, propext
C97_runs: Classical.choice, Quot.sound, propext
C97_shipped: Classical.choice, Quot.sound, propext
C97_sound: Classical.choice, Quot.sound, propext
C97_tests: Classical.choice, Quot.sound, propext
C98_all_created: Classical.choice, Quot.sound, propext
C98_created: Classical.choice, Quot.sound, propext
C98_created_encrypted: Classical.choice, Quot.sound, propext
C98_encryption: Classical.choice, Quot.sound, propext
C98_excluded: Classical.choice, Quot.sound, propext
C98_operations: Classical.choice, Quot.sound, propext
C98_ran_encrypted: Classical.choice, Quot.sound, propext
C98_ran_plain: Classical.choice, Quot.sound, propext
C98_read: Classical.choice, Quot.sound, propext
C98_sessions: Classical.choice, Quot.sound, propext
C98_signatures: Classical.choice, Quot.sound, propext
C98_too_long: Classical.choice, Quot.sound, propext
C99_blind: Classical.choice, Quot.sound, propext
C99_display: Classical.choice, Quot.sound, propext
C99_options: Classical.choice, Quot.sound, propext
C99_run: Classical.choice, Quot.sound, propext
C99_shown: Classical.choice, Quot.sound, propext
C99_status: Classical.choice, Quot.sound, propext
C99_unreported: Classical.choice, Quot.sound, propext
