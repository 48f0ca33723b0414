Secp.C01_parse_accepts_iff: propext, Classical.choice, Quot.sound
Secp.C01_parse_value: propext, Classical.choice, Quot.sound
Secp.C01_parse_sound: propext, Classical.choice, Quot.sound
Secp.C01_parse_failure: propext, Classical.choice, Quot.sound
Secp.C02_serialize_compressed: propext, Classical.choice, Quot.sound
Secp.C02_serialize_uncompressed: propext, Classical.choice, Quot.sound
Secp.C02_parse_serialize: propext, Classical.choice, Quot.sound
Secp.C02_serialize_parse: propext, Classical.choice, Quot.sound
Secp.C02_serialize_small: propext, Classical.choice, Quot.sound
Secp.C03_cmp_lex: propext, Classical.choice, Quot.sound
Secp.C03_cmp_eq_zero: propext, Classical.choice, Quot.sound
Secp.C03_cmp_antisymm: propext, Classical.choice, Quot.sound
Secp.C03_cmp_trans: propext, Classical.choice, Quot.sound
Secp.C03_cmp_invalid: propext, Classical.choice, Quot.sound
Secp.C04_sort: propext, Classical.choice, Quot.sound
Secp.C04_sort_valid: propext, Classical.choice, Quot.sound
Secp.C04_null: propext, Classical.choice, Quot.sound
Secp.C05_parse_der_accepts: propext, Classical.choice, Quot.sound
Secp.C05_parse_der_rejects: propext, Classical.choice, Quot.sound
Secp.C05_parse_der_no_overread: propext, Classical.choice, Quot.sound
Secp.C06_serialize_der: propext, Classical.choice, Quot.sound
Secp.C06_roundtrip: propext, Classical.choice, Quot.sound
Secp.C06_canonical: propext, Classical.choice, Quot.sound
Secp.C07_parse_compact: propext, Classical.choice, Quot.sound
Secp.C07_serialize_compact: propext, Classical.choice, Quot.sound
Secp.C07_parse_serialize: propext, Classical.choice, Quot.sound
Secp.C07_serialize_parse: propext, Classical.choice, Quot.sound
Secp.C08_normalize: propext, Classical.choice, Quot.sound
Secp.C08_normalize_null: propext, Classical.choice, Quot.sound
Secp.C08_low: propext, Classical.choice, Quot.sound
Secp.C08_idempotent: propext, Classical.choice, Quot.sound
Secp.C09_verify_accepts: propext, Classical.choice, Quot.sound
Secp.C09_verify_rejects: propext, Classical.choice, Quot.sound
Secp.C09_zero_key: propext, Classical.choice, Quot.sound
Secp.C10_sign_verifies: propext, Classical.choice, Quot.sound
Secp.C10_sign_succeeds: propext, Classical.choice, Quot.sound
Secp.C11_calls: none
Secp.C11_invalid_key: propext, Classical.choice, Quot.sound
Secp.C11_sign_result: propext, Classical.choice, Quot.sound
Secp.C11_sign_ends: propext, Classical.choice, Quot.sound
Secp.C12_rfc6979: propext, Classical.choice, Quot.sound
Secp.C12_default: propext, Classical.choice, Quot.sound
Secp.C12_seed_injective: propext, Classical.choice, Quot.sound
Secp.C13_recover_signed: propext, Classical.choice, Quot.sound
Secp.C13_same_signature: propext, Classical.choice, Quot.sound
Secp.C13_succeeds: propext, Classical.choice, Quot.sound
Secp.C13_invalid_key: propext, Classical.choice, Quot.sound
Secp.C14_recover_iff: propext, Classical.choice, Quot.sound
Secp.C14_recover_fails: propext, Classical.choice, Quot.sound
Secp.C14_sound: propext, Classical.choice, Quot.sound
Secp.C14_point_unique: propext, Classical.choice, Quot.sound
Secp.C14_overflow_bound: propext, Classical.choice, Quot.sound
Secp.C15_parse: propext, Classical.choice, Quot.sound
Secp.C15_illegal_recid: propext, Classical.choice, Quot.sound
Secp.C15_serialize: propext, Classical.choice, Quot.sound
Secp.C15_parse_serialize: propext, Classical.choice, Quot.sound
Secp.C15_serialize_parse: propext, Classical.choice, Quot.sound
Secp.C15_convert: propext, Classical.choice, Quot.sound
Secp.C16_seckey_verify: propext, Classical.choice, Quot.sound
Secp.C16_pubkey_create: propext, Classical.choice, Quot.sound
Secp.C16_pubkey_create_invalid: propext, Classical.choice, Quot.sound
Secp.C16_pubkey_create_nonzero: propext, Classical.choice, Quot.sound
Secp.C16_pubkey_create_injective: propext, Classical.choice, Quot.sound
Secp.C17_seckey_negate: propext, Classical.choice, Quot.sound
Secp.C17_seckey_negate_invalid: propext, Classical.choice, Quot.sound
Secp.C17_pubkey_negate: propext, Classical.choice, Quot.sound
Secp.C17_pubkey_negate_invalid: propext, Classical.choice, Quot.sound
Secp.C17_negate_agree: propext, Classical.choice, Quot.sound
Secp.C17_negate_involutive: propext, Classical.choice, Quot.sound
Secp.C18_seckey_tweak_add: propext, Classical.choice, Quot.sound
Secp.C18_seckey_tweak_add_fail: propext, Classical.choice, Quot.sound
Secp.C18_pubkey_tweak_add: propext, Classical.choice, Quot.sound
Secp.C18_pubkey_tweak_add_fail: propext, Classical.choice, Quot.sound
Secp.C18_tweak_add_agree: propext, Classical.choice, Quot.sound
Secp.C19_seckey_tweak_mul: propext, Classical.choice, Quot.sound
Secp.C19_seckey_tweak_mul_fail: propext, Classical.choice, Quot.sound
Secp.C19_pubkey_tweak_mul: propext, Classical.choice, Quot.sound
Secp.C19_pubkey_tweak_mul_fail: propext, Classical.choice, Quot.sound
Secp.C19_tweak_mul_agree: propext, Classical.choice, Quot.sound
Secp.C20_combine: propext, Classical.choice, Quot.sound
Secp.C20_combine_infinity: propext, Classical.choice, Quot.sound
Secp.C20_combine_perm: propext, Classical.choice, Quot.sound
Secp.C21_agreement: propext, Classical.choice, Quot.sound
Secp.C21_default_hash: propext, Classical.choice, Quot.sound
Secp.C22_invalid_seckey: propext, Classical.choice, Quot.sound
Secp.C22_valid_seckey: propext, Classical.choice, Quot.sound
Secp.C23_verify_iff: propext, Classical.choice, Quot.sound
Secp.C23_verify_null_message: propext, Classical.choice, Quot.sound
Secp.C23_verify_invalid_key: propext, Classical.choice, Quot.sound
Secp.C24_sign_internal_verify: propext, Classical.choice, Quot.sound
Secp.C24_sign32_verify: propext, Classical.choice, Quot.sound
Secp.C24_sign_custom_verify: propext, Classical.choice, Quot.sound
Secp.C24_sign_succeeds: propext, Classical.choice, Quot.sound
Secp.C25_zero_signature: propext, Classical.choice, Quot.sound
Secp.C25_invalid_keypair: propext, Classical.choice, Quot.sound
Secp.C25_nonce_failure: propext, Classical.choice, Quot.sound
Secp.C25_wrong_magic: propext, Classical.choice, Quot.sound
Secp.C25_custom_eq: propext, Classical.choice, Quot.sound
Secp.C25_null_arguments: propext, Classical.choice, Quot.sound
Secp.C26_xonlyValid_iff: propext, Classical.choice, Quot.sound
Secp.C26_parse_accepts_iff: propext, Classical.choice, Quot.sound
Secp.C26_parse_value: propext, Classical.choice, Quot.sound
Secp.C26_parse_failure: propext, Classical.choice, Quot.sound
Secp.C26_serialize: propext, Classical.choice, Quot.sound
Secp.C26_serialize_parse: propext, Classical.choice, Quot.sound
Secp.C26_parse_serialize: propext, Classical.choice, Quot.sound
Secp.C26_from_pubkey: propext, Classical.choice, Quot.sound
Secp.C26_from_pubkey_injective: propext, Classical.choice, Quot.sound
Secp.C26_cmp_lex: propext, Classical.choice, Quot.sound
Secp.C26_cmp_invalid: propext, Classical.choice, Quot.sound
Secp.C27_tweak_add: propext, Classical.choice, Quot.sound
Secp.C27_tweak_add_fail: propext, Classical.choice, Quot.sound
Secp.C27_check_iff: propext, Classical.choice, Quot.sound
Secp.C27_check_matches_add: propext, Classical.choice, Quot.sound
Secp.C28_create: propext, Classical.choice, Quot.sound
Secp.C28_create_invalid: propext, Classical.choice, Quot.sound
Secp.C28_tweak: propext, Classical.choice, Quot.sound
Secp.C28_made: propext, Classical.choice, Quot.sound
Secp.C28_consistent: propext, Classical.choice, Quot.sound
Secp.C28_tweak_agrees: propext, Classical.choice, Quot.sound
Secp.C28_failed_dead: propext, Classical.choice, Quot.sound
Secp.C29_aggregate: propext, Classical.choice, Quot.sound
Secp.C29_aggregate_invalid_key: propext, Classical.choice, Quot.sound
Secp.C29_tweak: propext, Classical.choice, Quot.sound
Secp.C29_get: propext, Classical.choice, Quot.sound
Secp.C29_tweak_sequence: propext, Classical.choice, Quot.sound
Secp.C29_tweak_invariant: propext, Classical.choice, Quot.sound
Secp.C29_flow: propext, Classical.choice, Quot.sound
Secp.C30_sign: propext, Classical.choice, Quot.sound
Secp.C30_verify_iff: propext, Classical.choice, Quot.sound
Secp.C30_sign_verify: propext, Classical.choice, Quot.sound
Secp.C30_sign_wrong_key: propext, Classical.choice, Quot.sound
Secp.C31_flow_any_order: propext, Classical.choice, Quot.sound
Secp.C31_flow: propext, Classical.choice, Quot.sound
Secp.C32_signs_once: propext, Classical.choice, Quot.sound
Secp.C32_sign_zeroes: propext, Classical.choice, Quot.sound
Secp.C32_zero_rejected: propext, Classical.choice, Quot.sound
Secp.C33_nonce_gen: propext, Classical.choice, Quot.sound
Secp.C33_zero_randomness: propext, Classical.choice, Quot.sound
Secp.C33_invalid_seckey: propext, Classical.choice, Quot.sound
Secp.C33_failure: propext, Classical.choice, Quot.sound
Secp.C33_nonce_gen_counter: propext, Classical.choice, Quot.sound
Secp.C33_input_injective: propext, Classical.choice, Quot.sound
Secp.C33_counter_distinct: propext, Classical.choice, Quot.sound
Secp.C34_pubnonce_parse: propext, Classical.choice, Quot.sound
Secp.C34_pubnonce_serialize: propext, Classical.choice, Quot.sound
Secp.C34_pubnonce_round_trip: propext, Classical.choice, Quot.sound
Secp.C34_aggnonce_parse: propext, Classical.choice, Quot.sound
Secp.C34_aggnonce_serialize: propext, Classical.choice, Quot.sound
Secp.C34_aggnonce_round_trip: propext, Classical.choice, Quot.sound
Secp.C34_partial_sig_parse: propext, Classical.choice, Quot.sound
Secp.C34_partial_sig_serialize: propext, Classical.choice, Quot.sound
Secp.C34_partial_sig_round_trip: propext, Classical.choice, Quot.sound
Secp.C34_wrong_kind: propext, Classical.choice, Quot.sound
Secp.C35_nonce_agg: propext, Classical.choice, Quot.sound
Secp.C35_order: propext, Classical.choice, Quot.sound
Secp.C35_illegal: propext, Classical.choice, Quot.sound
Secp.C36_streaming: propext, Classical.choice, Quot.sound
Secp.C36_split_irrelevant: propext, Classical.choice, Quot.sound
Secp.C36_reuse: propext, Classical.choice, Quot.sound
Secp.C36_tagged: propext, Classical.choice, Quot.sound
Secp.C36_tagged_null: propext, Quot.sound
Secp.C37_hmac: propext, Classical.choice, Quot.sound
Secp.C37_rfc6979: propext, Classical.choice, Quot.sound
Secp.C37_length: propext, Classical.choice, Quot.sound
Secp.C38_randomize_succeeds: propext, Classical.choice, Quot.sound
Secp.C38_pubkey_create_same: propext, Classical.choice, Quot.sound
Secp.C38_generator_multiplication_same: propext, Classical.choice, Quot.sound
Secp.C38_ecdsa_sign_same: propext, Classical.choice, Quot.sound
Secp.C38_musig_nonce_gen_same: propext, Classical.choice, Quot.sound
Secp.C38_create_same: propext, Classical.choice, Quot.sound
Secp.C38_schnorr_sign_any_same: propext, Classical.choice, Quot.sound
Secp.C38_musig_nonce_same: propext, Classical.choice, Quot.sound
Secp.C38_schnorr_sign_same: propext, Classical.choice, Quot.sound
Secp.C38_keypair_create_same: propext, Classical.choice, Quot.sound
Secp.C39_history: propext, Classical.choice, Quot.sound
Secp.C39_live_supports: propext, Classical.choice, Quot.sound
Secp.C39_static_rejects: propext, Classical.choice, Quot.sound
Secp.C39_create: propext, Classical.choice, Quot.sound
Secp.C39_new_context: propext, Classical.choice, Quot.sound
Secp.C39_destroy_wipes: propext, Classical.choice, Quot.sound
Secp.C39_set_callbacks: none
Secp.C39_selftest: propext, Classical.choice, Quot.sound
Secp.C40_ec_pubkey_parse: propext, Classical.choice, Quot.sound
Secp.C40_ec_pubkey_serialize: propext, Classical.choice, Quot.sound
Secp.C40_ec_seckey_verify: propext, Classical.choice, Quot.sound
Secp.C40_ec_pubkey_create: propext, Classical.choice, Quot.sound
Secp.C40_ec_seckey_negate: propext, Classical.choice, Quot.sound
Secp.C40_ec_pubkey_negate: propext, Classical.choice, Quot.sound
Secp.C40_ec_seckey_tweak_add: propext, Classical.choice, Quot.sound
Secp.C40_ec_seckey_tweak_mul: propext, Classical.choice, Quot.sound
Secp.C40_ec_pubkey_tweak_add: propext, Classical.choice, Quot.sound
Secp.C40_ec_pubkey_tweak_null: propext, Classical.choice, Quot.sound
Secp.C40_ec_pubkey_tweak_mul: propext, Classical.choice, Quot.sound
Secp.C40_ec_pubkey_combine: propext, Classical.choice, Quot.sound
Secp.C40_context_randomize: propext, Classical.choice, Quot.sound
Secp.C40_context_clone: propext
Secp.C40_context_preallocated_clone: propext
Secp.C40_context_preallocated_create: propext, Classical.choice, Quot.sound
Secp.C40_context_create: propext, Classical.choice, Quot.sound
Secp.C40_context_destroy: propext, Classical.choice, Quot.sound
Secp.C40_context_set_callbacks: propext
Secp.C40_tagged_sha256: propext, Quot.sound
Secp.C40_ecdsa_signature_parse_der: propext, Classical.choice, Quot.sound
Secp.C40_ecdsa_signature_parse_compact: propext, Classical.choice, Quot.sound
Secp.C40_ecdsa_signature_serialize_der: propext, Classical.choice, Quot.sound
Secp.C40_ecdsa_signature_serialize_compact: propext, Classical.choice, Quot.sound
Secp.C40_ecdsa_signature_normalize: propext, Classical.choice, Quot.sound
Secp.C40_ecdsa_verify: propext, Classical.choice, Quot.sound
Secp.C40_ecdsa_sign: propext, Classical.choice, Quot.sound
Secp.C40_ecdsa_recoverable_signature_parse_compact: propext, Classical.choice, Quot.sound
Secp.C40_ecdsa_recoverable_signature_serialize_compact: propext, Classical.choice, Quot.sound
Secp.C40_ecdsa_recoverable_signature_convert: propext, Classical.choice, Quot.sound
Secp.C40_ecdsa_sign_recoverable: propext, Classical.choice, Quot.sound
Secp.C40_ecdsa_recover: propext, Classical.choice, Quot.sound
Secp.C40_ecdh: propext, Classical.choice, Quot.sound
Secp.C40_ellswift_encode: propext, Classical.choice, Quot.sound
Secp.C40_ellswift_create: propext, Classical.choice, Quot.sound
Secp.C40_ellswift_decode: propext, Classical.choice, Quot.sound
Secp.C40_ellswift_xdh: propext, Classical.choice, Quot.sound
Secp.C40_ec_pubkey_cmp: propext, Classical.choice, Quot.sound
Secp.C40_ec_pubkey_combine_unreadable: propext, Classical.choice, Quot.sound
Secp.C40_ecdh_unreadable: propext, Classical.choice, Quot.sound
Secp.C40_ecdh_exception: propext, Classical.choice, Quot.sound
Secp.C40_xonly_pubkey_parse: propext, Classical.choice, Quot.sound
Secp.C40_xonly_pubkey_serialize: propext, Classical.choice, Quot.sound
Secp.C40_xonly_pubkey_from_pubkey: propext, Classical.choice, Quot.sound
Secp.C40_xonly_pubkey_tweak_add: propext, Classical.choice, Quot.sound
Secp.C40_xonly_pubkey_tweak_add_check: propext, Classical.choice, Quot.sound
Secp.C40_xonly_pubkey_cmp: propext, Classical.choice, Quot.sound
Secp.C40_keypair_create: propext, Classical.choice, Quot.sound
Secp.C40_keypair_sec: propext, Quot.sound
Secp.C40_keypair_pub: propext
Secp.C40_keypair_xonly_pub: propext, Classical.choice, Quot.sound
Secp.C40_keypair_xonly_tweak_add: propext, Classical.choice, Quot.sound
Secp.C40_schnorrsig_sign_internal: propext, Classical.choice, Quot.sound
Secp.C40_schnorrsig_sign32: propext, Classical.choice, Quot.sound
Secp.C40_schnorrsig_sign_custom: propext, Classical.choice, Quot.sound
Secp.C40_schnorrsig_verify: propext, Classical.choice, Quot.sound
Secp.C40_musig_pubkey_agg: propext, Classical.choice, Quot.sound
Secp.C40_musig_pubkey_get: propext, Classical.choice, Quot.sound
Secp.C40_musig_pubkey_tweak_add: propext, Classical.choice, Quot.sound
Secp.C40_musig_tweaks: propext, Classical.choice, Quot.sound
Secp.C40_musig_pubnonce_parse: propext, Classical.choice, Quot.sound
Secp.C40_musig_pubnonce_serialize: propext, Classical.choice, Quot.sound
Secp.C40_musig_aggnonce_parse: propext, Classical.choice, Quot.sound
Secp.C40_musig_aggnonce_serialize: propext, Classical.choice, Quot.sound
Secp.C40_musig_partial_sig_parse: propext, Classical.choice, Quot.sound
Secp.C40_musig_partial_sig_serialize: propext, Classical.choice, Quot.sound
Secp.C40_musig_nonce_gen: propext, Classical.choice, Quot.sound
Secp.C40_musig_nonce_gen_counter: propext, Classical.choice, Quot.sound
Secp.C40_musig_nonce_agg: propext, Classical.choice, Quot.sound
Secp.C40_musig_nonce_process: propext, Classical.choice, Quot.sound
Secp.C40_musig_partial_sign: propext, Classical.choice, Quot.sound
Secp.C40_musig_partial_sig_verify: propext, Classical.choice, Quot.sound
Secp.C40_musig_partial_sig_agg: propext, Classical.choice, Quot.sound
Secp.C40_ec_pubkey_sort: propext, Classical.choice, Quot.sound
Secp.C41_gej_add_var: propext, Classical.choice, Quot.sound
Secp.C41_gej_add_ge_var: propext, Classical.choice, Quot.sound
Secp.C41_gej_add_ge: propext, Classical.choice, Quot.sound
Secp.C41_gej_add_zinv_var: propext, Classical.choice, Quot.sound
Secp.C41_gej_double: propext, Classical.choice, Quot.sound
Secp.C41_gej_double_var: propext, Classical.choice, Quot.sound
Secp.C41_neg: propext, Classical.choice, Quot.sound
Secp.C41_convert: propext, Classical.choice, Quot.sound
Secp.C41_eq: propext, Classical.choice, Quot.sound
Secp.C41_eq_x: propext, Classical.choice, Quot.sound
Secp.C41_is_valid: propext, Classical.choice, Quot.sound
Secp.C41_set_all_gej: propext, Classical.choice, Quot.sound
Secp.C41_set_all_gej_var: propext, Classical.choice, Quot.sound
Secp.C42_ecmult: propext, Classical.choice, Quot.sound
Secp.C42_ecmult_no_g: propext, Classical.choice, Quot.sound
Secp.C42_strauss: propext, Classical.choice, Quot.sound
Secp.C42_tables: propext, Classical.choice, Quot.sound
Secp.C42_split_lambda: propext, Classical.choice, Quot.sound
Secp.C42_wnaf: propext, Classical.choice, Quot.sound
Secp.C43_ecmult_const: propext, Classical.choice, Quot.sound
Secp.C43_xonly_some: propext, Classical.choice, Quot.sound
Secp.C43_xonly_none: propext, Classical.choice, Quot.sound
Secp.C44_unique: propext, Classical.choice, Quot.sound
Secp.C44_add: propext, Classical.choice, Quot.sound
Secp.C44_mul: propext, Classical.choice, Quot.sound
Secp.C44_mul_512: propext, Classical.choice, Quot.sound
Secp.C44_negate: propext, Classical.choice, Quot.sound
Secp.C44_cond_negate: propext, Classical.choice, Quot.sound
Secp.C44_half: propext, Classical.choice, Quot.sound
Secp.C44_set_int: propext, Classical.choice, Quot.sound
Secp.C44_tests: propext, Classical.choice, Quot.sound
Secp.C44_cmov: propext, Classical.choice, Quot.sound
Secp.C44_cadd_bit: propext, Classical.choice, Quot.sound
Secp.C44_get_bits: propext, Classical.choice, Quot.sound
Secp.C44_set_b32: propext, Classical.choice, Quot.sound
Secp.C44_get_b32: propext, Classical.choice, Quot.sound
Secp.C44_split_128: propext, Quot.sound
Secp.C44_mul_shift: propext, Classical.choice, Quot.sound
Secp.C44_split_lambda: propext, Classical.choice, Quot.sound
Secp.C44_program: propext, Classical.choice, Quot.sound
Secp.C45_mul: propext, Classical.choice, Quot.sound
Secp.C45_sqr: propext, Classical.choice, Quot.sound
Secp.C45_add: propext, Classical.choice, Quot.sound
Secp.C45_negate: propext, Classical.choice, Quot.sound
Secp.C45_mul_int: propext, Classical.choice, Quot.sound
Secp.C45_add_int: propext, Classical.choice, Quot.sound
Secp.C45_half: propext, Classical.choice, Quot.sound
Secp.C45_set_int: propext, Classical.choice, Quot.sound
Secp.C45_normalize: propext, Classical.choice, Quot.sound
Secp.C45_norm_unique: propext, Classical.choice, Quot.sound
Secp.C45_normalize_weak: propext, Classical.choice, Quot.sound
Secp.C45_normalizes_to_zero: propext, Classical.choice, Quot.sound
Secp.C45_cmov: propext, Classical.choice, Quot.sound
Secp.C45_is_zero_odd_cmp: propext, Classical.choice, Quot.sound
Secp.C45_set_b32_mod: propext, Classical.choice, Quot.sound
Secp.C45_set_b32_limit: propext, Classical.choice, Quot.sound
Secp.C45_get_b32: propext, Classical.choice, Quot.sound
Secp.C45_storage: propext, Classical.choice, Quot.sound
Secp.C46_modinv64: propext, Classical.choice, Quot.sound
Secp.C46_modinv64_var: propext, Classical.choice, Quot.sound
Secp.C46_modinfo: propext
Secp.C46_fe_inv: propext, Classical.choice, Quot.sound
Secp.C46_fe_inv_var: propext, Classical.choice, Quot.sound
Secp.C46_scalar_inverse: propext, Classical.choice, Quot.sound
Secp.C46_scalar_inverse_var: propext, Classical.choice, Quot.sound
Secp.C46_ge_set_gej: propext, Classical.choice, Quot.sound
Secp.C47_order: propext, Classical.choice, Quot.sound
Secp.C47_accepted_key_generates: propext, Classical.choice, Quot.sound
Secp.C48_decode: propext, Classical.choice, Quot.sound
Secp.C48_unique: propext, Classical.choice, Quot.sound
Secp.C48_map_total: propext, Classical.choice, Quot.sound
Secp.C48_fraction: propext, Classical.choice, Quot.sound
Secp.C48_neg: propext, Classical.choice, Quot.sound
Secp.C49_encode: propext, Classical.choice, Quot.sound
Secp.C49_create: propext, Classical.choice, Quot.sound
Secp.C49_create_invalid: propext, Classical.choice, Quot.sound
Secp.C49_encode_invalid: propext, Classical.choice, Quot.sound
Secp.C49_encode_fuel: propext, Classical.choice, Quot.sound
Secp.C49_create_fuel: propext, Classical.choice, Quot.sound
Secp.C49_inverse: propext, Classical.choice, Quot.sound
Secp.C49_inverse_u_zero: propext, Classical.choice, Quot.sound
Secp.C50_xdh: propext, Classical.choice, Quot.sound
Secp.C50_agreement: propext, Classical.choice, Quot.sound
Secp.C50_bip324_hash: propext, Classical.choice, Quot.sound
Secp.C50_prefix_hash: propext, Classical.choice, Quot.sound
Secp.C50_bip324_flow: propext, Classical.choice, Quot.sound
Secp.C51_reduced: propext, Classical.choice, Quot.sound
Secp.C51_false: propext, Classical.choice, Quot.sound
Secp.C51_xdh_partial: propext, Classical.choice, Quot.sound
Secp.C52_not_malleable: propext, Classical.choice, Quot.sound
Secp.C52_normalized_accepted: propext, Classical.choice, Quot.sound
Secp.C52_unique_sign: propext, Classical.choice, Quot.sound
Secp.C53_multi: propext, Classical.choice, Quot.sound
Secp.C53_no_scratch: propext, Classical.choice, Quot.sound
Secp.C53_callback_failure: propext, Classical.choice, Quot.sound
Secp.C53_scratch_unchanged: propext, Classical.choice, Quot.sound
Secp.C53_batch_restores: propext, Classical.choice, Quot.sound
Secp.C53_pippenger: propext, Classical.choice, Quot.sound
Secp.C53_strauss: propext, Classical.choice, Quot.sound
Secp.C53_pippenger_wnaf: propext, Classical.choice, Quot.sound
Secp.C53_wnaf_fixed: propext, Classical.choice, Quot.sound
Secp.C54_restore: propext, Quot.sound
Secp.C54_create: propext, Classical.choice, Quot.sound
Secp.C54_live: propext, Classical.choice, Quot.sound
Secp.C54_alloc: propext, Classical.choice, Quot.sound
Secp.C54_max_allocation: propext, Classical.choice, Quot.sound
Secp.C54_magic: propext, Quot.sound
Secp.C55_invariant: propext, Classical.choice, Quot.sound
Secp.C55_read: propext, Classical.choice, Quot.sound
Secp.C55_injective: propext, Classical.choice, Quot.sound
Secp.C55_zero_not_made: propext, Classical.choice, Quot.sound
Secp.C55_zero_pubkey: propext, Classical.choice, Quot.sound
Secp.C55_zero_pubkey_exceptions: propext, Classical.choice, Quot.sound
Secp.C55_zero_keypair: propext, Classical.choice, Quot.sound
Secp.C55_zero_sig: propext, Classical.choice, Quot.sound
Secp.C55_zero_copied: propext, Classical.choice, Quot.sound
Secp.C56_nonce_function: propext, Classical.choice, Quot.sound
Secp.C56_nonce_function_null: propext, Quot.sound
Secp.C56_sign32: propext, Classical.choice, Quot.sound
Secp.C56_null_aux: propext, Classical.choice, Quot.sound
Secp.C57_refuted: propext, Classical.choice, Quot.sound
Secp.C57_overrun: propext
Secp.C57_create_partial: propext, Classical.choice, Quot.sound
Secp.C58_gej_double: propext, Classical.choice, Quot.sound
Secp.C58_gej_double_var: propext, Classical.choice, Quot.sound
Secp.C58_gej_add_var: propext, Classical.choice, Quot.sound
Secp.C58_gej_add_ge_var: propext, Classical.choice, Quot.sound
Secp.C58_gej_add_ge: propext, Classical.choice, Quot.sound
Secp.C58_gej_add_zinv_var: propext, Classical.choice, Quot.sound
Secp.C58_neg: propext, Classical.choice, Quot.sound
Secp.C58_set_ge: propext, Classical.choice, Quot.sound
Secp.C58_rescale: propext, Classical.choice, Quot.sound
Secp.C58_cmov: propext, Classical.choice, Quot.sound
Secp.C58_ge_set_gej: propext, Classical.choice, Quot.sound
Secp.C58_eq: propext, Classical.choice, Quot.sound
Secp.C58_is_valid: propext, Classical.choice, Quot.sound
Secp.C58_sqrt: propext, Classical.choice, Quot.sound
Secp.C58_program: propext, Classical.choice, Quot.sound
Secp.C59_jacobi: propext, Classical.choice, Quot.sound
Secp.C59_is_square: propext, Classical.choice, Quot.sound
Secp.C59_is_square_value: propext, Classical.choice, Quot.sound
Secp.C60_u128_mul: propext, Classical.choice, Quot.sound
Secp.C60_u128_accum_mul: propext, Classical.choice, Quot.sound
Secp.C60_u128_accum_u64: propext, Quot.sound
Secp.C60_u128_rshift: propext, Classical.choice, Quot.sound
Secp.C60_u128_words: propext, Classical.choice, Quot.sound
Secp.C60_i128_mul: propext, Classical.choice, Quot.sound
Secp.C60_i128_accum_mul: propext, Classical.choice, Quot.sound
Secp.C60_i128_det: propext, Classical.choice, Quot.sound
Secp.C60_i128_rshift: propext, Classical.choice, Quot.sound
Secp.C60_i128_words: propext, Classical.choice, Quot.sound
Secp.C60_i128_eq: propext, Classical.choice, Quot.sound
Secp.C61_ctz32: propext, Classical.choice, Quot.sound
Secp.C61_ctz64: propext, Classical.choice, Quot.sound
Secp.C61_agree: propext, Classical.choice, Quot.sound
Secp.C62_model_keys: propext, Classical.choice, Quot.sound
Secp.C62_model_sign: propext, Classical.choice, Quot.sound
Secp.C62_model_exchange: propext, Classical.choice, Quot.sound
Secp.C62_model_musig: propext, Classical.choice, Quot.sound
Secp.C62_model_defaults: propext, Classical.choice, Quot.sound
Secp.C62_context_randomize: propext, Classical.choice, Quot.sound
Secp.C62_seckey: propext, Classical.choice, Quot.sound
Secp.C62_pubkey_create: propext, Classical.choice, Quot.sound
Secp.C62_defaults_constant_time: propext, Classical.choice, Quot.sound
Secp.C62_ecdh: propext, Classical.choice, Quot.sound
Secp.C62_ellswift_xdh: propext, Classical.choice, Quot.sound
Secp.C62_ecdsa_sign: propext, Classical.choice, Quot.sound
Secp.C62_ecdsa_declassifies_bits: propext, Classical.choice, Quot.sound
Secp.C62_ecdsa_first_nonce: propext, Classical.choice, Quot.sound
Secp.C62_schnorr_sign: propext, Classical.choice, Quot.sound
Secp.C62_schnorr_sign_custom: propext, Classical.choice, Quot.sound
Secp.C62_schnorr_declassifies_public: propext, Classical.choice, Quot.sound
Secp.C62_keypair_tweak: propext, Classical.choice, Quot.sound
Secp.C62_ellswift_create: propext, Classical.choice, Quot.sound
Secp.C62_ellswift_search_public: propext, Classical.choice, Quot.sound
Secp.C62_musig_nonce_gen: propext, Classical.choice, Quot.sound
Secp.C62_musig_nonce_gen_counter: propext, Classical.choice, Quot.sound
Secp.C62_musig_partial_sign: propext, Classical.choice, Quot.sound
Secp.C63_exactly_one: propext, Classical.choice, Quot.sound
Secp.C63_count: propext, Classical.choice, Quot.sound
Secp.C63_inverse_is_bip324: propext, Classical.choice, Quot.sound
Secp.C63_encode: propext, Classical.choice, Quot.sound
Secp.C63_create: propext, Classical.choice, Quot.sound
Secp.C64_mul: propext, Classical.choice, Quot.sound
Secp.C64_sqr: propext, Classical.choice, Quot.sound
Secp.C64_add: propext, Classical.choice, Quot.sound
Secp.C64_negate: propext, Classical.choice, Quot.sound
Secp.C64_mul_int: propext, Classical.choice, Quot.sound
Secp.C64_add_int: propext, Classical.choice, Quot.sound
Secp.C64_half: propext, Classical.choice, Quot.sound
Secp.C64_set_int: propext, Classical.choice, Quot.sound
Secp.C64_built_mag: propext, Classical.choice, Quot.sound
Secp.C64_normalize: propext, Classical.choice, Quot.sound
Secp.C64_norm_unique: propext, Classical.choice, Quot.sound
Secp.C64_normalize_weak: propext, Classical.choice, Quot.sound
Secp.C64_normalizes_to_zero: propext, Classical.choice, Quot.sound
Secp.C64_bounds_insufficient: propext, Classical.choice, Quot.sound
Secp.C64_cmov: propext, Classical.choice, Quot.sound
Secp.C64_is_zero_odd_cmp: propext, Classical.choice, Quot.sound
Secp.C64_set_b32_mod: propext, Classical.choice, Quot.sound
Secp.C64_set_b32_limit: propext, Classical.choice, Quot.sound
Secp.C64_get_b32: propext, Classical.choice, Quot.sound
Secp.C64_storage: propext, Classical.choice, Quot.sound
Secp.C64_storage_cmov: propext, Classical.choice, Quot.sound
Secp.C65_unique: propext, Classical.choice, Quot.sound
Secp.C65_add: propext, Classical.choice, Quot.sound
Secp.C65_mul_512: propext, Classical.choice, Quot.sound
Secp.C65_mul: propext, Classical.choice, Quot.sound
Secp.C65_negate: propext, Classical.choice, Quot.sound
Secp.C65_cond_negate: propext, Classical.choice, Quot.sound
Secp.C65_half: propext, Classical.choice, Quot.sound
Secp.C65_set_int: propext, Classical.choice, Quot.sound
Secp.C65_tests: propext, Classical.choice, Quot.sound
Secp.C65_cmov: propext, Classical.choice, Quot.sound
Secp.C65_cadd_bit: propext, Classical.choice, Quot.sound
Secp.C65_get_bits: propext, Classical.choice, Quot.sound
Secp.C65_set_b32: propext, Classical.choice, Quot.sound
Secp.C65_get_b32: propext, Classical.choice, Quot.sound
Secp.C65_split_128: propext, Quot.sound
Secp.C65_mul_shift: propext, Classical.choice, Quot.sound
Secp.C65_split_lambda: propext, Classical.choice, Quot.sound
Secp.C65_program: propext, Classical.choice, Quot.sound
Secp.C65_backends: propext, Classical.choice, Quot.sound
Secp.C66_modinv32: propext, Classical.choice, Quot.sound
Secp.C66_modinv32_var: propext, Classical.choice, Quot.sound
Secp.C66_modinfo: propext
Secp.C66_fe_inv: propext, Classical.choice, Quot.sound
Secp.C66_fe_inv_var: propext, Classical.choice, Quot.sound
Secp.C66_fe_inv_agree: propext, Classical.choice, Quot.sound
Secp.C66_scalar_inverse: propext, Classical.choice, Quot.sound
Secp.C66_scalar_inverse_var: propext, Classical.choice, Quot.sound
Secp.C66_jacobi: propext, Classical.choice, Quot.sound
Secp.C66_is_square: propext, Classical.choice, Quot.sound
Secp.C66_is_square_value: propext, Classical.choice, Quot.sound
Secp.C67_gej_double: propext, Classical.choice, Quot.sound
Secp.C67_gej_double_var: propext, Classical.choice, Quot.sound
Secp.C67_gej_add_var: propext, Classical.choice, Quot.sound
Secp.C67_gej_add_ge_var: propext, Classical.choice, Quot.sound
Secp.C67_gej_add_ge: propext, Classical.choice, Quot.sound
Secp.C67_gej_add_zinv_var: propext, Classical.choice, Quot.sound
Secp.C67_neg: propext, Classical.choice, Quot.sound
Secp.C67_set_ge: propext, Classical.choice, Quot.sound
Secp.C67_rescale: propext, Classical.choice, Quot.sound
Secp.C67_cmov: propext, Classical.choice, Quot.sound
Secp.C67_ge_set_gej_of: propext, Classical.choice, Quot.sound
Secp.C67_eq: propext, Classical.choice, Quot.sound
Secp.C67_is_valid: propext, Classical.choice, Quot.sound
Secp.C67_sqrt: propext, Classical.choice, Quot.sound
Secp.C67_program: propext, Classical.choice, Quot.sound
Secp.C67_ge_set_gej: propext, Classical.choice, Quot.sound
Secp.C68_ecmult: propext, Classical.choice, Quot.sound
Secp.C68_ecmult_no_g: propext, Classical.choice, Quot.sound
Secp.C68_strauss: propext, Classical.choice, Quot.sound
Secp.C68_ecmult_const: propext, Classical.choice, Quot.sound
Secp.C68_ecmult_32: propext, Classical.choice, Quot.sound
Secp.C68_ecmult_no_g_32: propext, Classical.choice, Quot.sound
Secp.C68_strauss_32: propext, Classical.choice, Quot.sound
Secp.C68_ecmult_const_32: propext, Classical.choice, Quot.sound
Secp.C68_ecmult_gen: propext, Classical.choice, Quot.sound
Secp.C68_ecmult_gen_32: propext, Classical.choice, Quot.sound
Secp.C69_objects: propext, Classical.choice, Quot.sound
Secp.C69_ec_pubkey_parse: propext, Classical.choice, Quot.sound
Secp.C69_ec_pubkey_serialize: propext, Classical.choice, Quot.sound
Secp.C69_ec_pubkey_cmp: propext, Classical.choice, Quot.sound
Secp.C69_ec_pubkey_negate: propext, Classical.choice, Quot.sound
Secp.C69_ec_pubkey_tweak: propext, Classical.choice, Quot.sound
Secp.C69_ec_pubkey_combine: propext, Classical.choice, Quot.sound
Secp.C69_context_randomize: propext, Classical.choice, Quot.sound
Secp.C69_ec_pubkey_create: propext, Classical.choice, Quot.sound
Secp.C69_keypair_create: propext, Classical.choice, Quot.sound
Secp.C69_ecdsa_sign: propext, Classical.choice, Quot.sound
Secp.C69_schnorrsig_sign: propext, Classical.choice, Quot.sound
Secp.C69_ecdsa_verify: propext, Classical.choice, Quot.sound
Secp.C69_ecdsa_recover: propext, Classical.choice, Quot.sound
Secp.C69_ecdh: propext, Classical.choice, Quot.sound
Secp.C69_schnorrsig_verify: propext, Classical.choice, Quot.sound
Secp.C69_xonly_pubkey_parse: propext, Classical.choice, Quot.sound
Secp.C69_xonly_pubkey_serialize: propext, Classical.choice, Quot.sound
Secp.C69_xonly_pubkey_cmp: propext, Classical.choice, Quot.sound
Secp.C69_xonly_pubkey_from_pubkey: propext, Classical.choice, Quot.sound
Secp.C69_xonly_pubkey_tweak_add: propext, Classical.choice, Quot.sound
Secp.C69_xonly_pubkey_tweak_add_check: propext, Classical.choice, Quot.sound
Secp.C69_keypair_xonly_pub: propext, Classical.choice, Quot.sound
Secp.C69_keypair_xonly_tweak_add: propext, Classical.choice, Quot.sound
Secp.C69_parse: propext, Classical.choice, Quot.sound
Secp.C69_verify: propext, Classical.choice, Quot.sound
Secp.C69_sign_verifies: propext, Classical.choice, Quot.sound
Secp.C69_recover: propext, Classical.choice, Quot.sound
Secp.C69_shared_secret: propext, Classical.choice, Quot.sound
Secp.C69_schnorr_verify: propext, Classical.choice, Quot.sound
Secp.C69_schnorr_sign: propext, Classical.choice, Quot.sound
Secp.C70_caches: propext, Classical.choice, Quot.sound
Secp.C70_pubkey_agg: propext, Classical.choice, Quot.sound
Secp.C70_pubkey_get: propext, Classical.choice, Quot.sound
Secp.C70_ec_tweak_add: propext, Classical.choice, Quot.sound
Secp.C70_xonly_tweak_add: propext, Classical.choice, Quot.sound
Secp.C70_pubnonce_parse: propext, Classical.choice, Quot.sound
Secp.C70_pubnonce_serialize: propext, Classical.choice, Quot.sound
Secp.C70_aggnonce_parse: propext, Classical.choice, Quot.sound
Secp.C70_aggnonce_serialize: propext, Classical.choice, Quot.sound
Secp.C70_nonce_gen: propext, Classical.choice, Quot.sound
Secp.C70_nonce_agg: propext, Classical.choice, Quot.sound
Secp.C70_nonce_process: propext, Classical.choice, Quot.sound
Secp.C70_partial_sign: propext, Classical.choice, Quot.sound
Secp.C70_partial_sig_verify: propext, Classical.choice, Quot.sound
Secp.C70_aggregate: propext, Classical.choice, Quot.sound
Secp.C70_verify_iff: propext, Classical.choice, Quot.sound
Secp.C70_flow: propext, Classical.choice, Quot.sound
Secp.C71_ellswift_encode: propext, Classical.choice, Quot.sound
Secp.C71_ellswift_create: propext, Classical.choice, Quot.sound
Secp.C71_ellswift_decode: propext, Classical.choice, Quot.sound
Secp.C71_ellswift_xdh: propext, Classical.choice, Quot.sound
Secp.C71_decode: propext, Classical.choice, Quot.sound
Secp.C71_encode: propext, Classical.choice, Quot.sound
Secp.C71_round_trip: propext, Classical.choice, Quot.sound
Secp.C71_bip324_flow: propext, Classical.choice, Quot.sound
Secp.C72_mul_512: propext, Classical.choice, Quot.sound
Secp.C72_reduce_512: propext, Classical.choice, Quot.sound
Secp.C72_mul: propext, Classical.choice, Quot.sound
Secp.C72_mul_shift: propext, Classical.choice, Quot.sound
Secp.C72_total: propext, Classical.choice, Quot.sound
Secp.C72_mul_iff: propext, Classical.choice, Quot.sound
Secp.C73_mul: propext, Classical.choice, Quot.sound
Secp.C73_sqr: propext, Classical.choice, Quot.sound
Secp.C73_mul_bits: propext, Classical.choice, Quot.sound
Secp.C74_mul: propext, Classical.choice, Quot.sound
Secp.C74_keys: propext, Classical.choice, Quot.sound
Secp.C74_xonly: propext, Classical.choice, Quot.sound
Secp.C74_verify_functions: propext, Classical.choice, Quot.sound
Secp.C74_ellswift: propext, Classical.choice, Quot.sound
Secp.C74_create: propext, Classical.choice, Quot.sound
Secp.C74_sign: propext, Classical.choice, Quot.sound
Secp.C74_musig_nonce_gen: propext, Classical.choice, Quot.sound
Secp.C74_musig: propext, Classical.choice, Quot.sound
Secp.C74_parse: propext, Classical.choice, Quot.sound
Secp.C74_verify: propext, Classical.choice, Quot.sound
Secp.C74_sign_verifies: propext, Classical.choice, Quot.sound
Secp.C74_schnorr_verify: propext, Classical.choice, Quot.sound
Secp.C74_shared_secret: propext, Classical.choice, Quot.sound
Secp.C75_odd_multiples: propext, Classical.choice, Quot.sound
Secp.C75_two_tables: propext, Classical.choice, Quot.sound
Secp.C75_shipped_odd_multiples: propext, Classical.choice, Quot.sound
Secp.C75_ecmult: propext, Classical.choice, Quot.sound
Secp.C75_strauss: propext, Classical.choice, Quot.sound
Secp.C75_ecmult_limbs: propext, Classical.choice, Quot.sound
Secp.C75_ecmult_limbs32: propext, Classical.choice, Quot.sound
Secp.C75_comb: propext, Classical.choice, Quot.sound
Secp.C75_shipped_combs: propext, Classical.choice, Quot.sound
Secp.C75_generator: propext, Classical.choice, Quot.sound
Secp.C75_pubkey_create: propext, Classical.choice, Quot.sound
Secp.C76_lax_accepts: propext, Classical.choice, Quot.sound
Secp.C76_lax_rejects: propext, Classical.choice, Quot.sound
Secp.C76_lax_no_overread: propext, Classical.choice, Quot.sound
Secp.C76_lax_fails_closed: propext, Classical.choice, Quot.sound
Secp.C76_lax_extends_der: propext, Classical.choice, Quot.sound
Secp.C76_import_accepts: propext, Classical.choice, Quot.sound
Secp.C76_import_rejects: propext, Classical.choice, Quot.sound
Secp.C76_import_no_overread: propext, Classical.choice, Quot.sound
Secp.C76_export_compressed: propext, Classical.choice, Quot.sound
Secp.C76_export_uncompressed: propext, Classical.choice, Quot.sound
Secp.C76_export_invalid: propext, Classical.choice, Quot.sound
Secp.C76_export_import: propext, Classical.choice, Quot.sound
Secp.C77_multi: propext, Classical.choice, Quot.sound
Secp.C77_no_scratch: propext, Classical.choice, Quot.sound
Secp.C77_callback_failure: propext, Classical.choice, Quot.sound
Secp.C77_pippenger_wnaf: propext, Classical.choice, Quot.sound
Secp.C77_multi_32: propext, Classical.choice, Quot.sound
Secp.C77_no_scratch_32: propext, Classical.choice, Quot.sound
Secp.C77_callback_failure_32: propext, Classical.choice, Quot.sound
Secp.C77_pippenger_wnaf_32: propext, Classical.choice, Quot.sound
Secp.C78_gej_double: propext, Classical.choice, Quot.sound
Secp.C78_gej_double_var: propext, Classical.choice, Quot.sound
Secp.C78_gej_add_var: propext, Classical.choice, Quot.sound
Secp.C78_gej_add_ge_var: propext, Classical.choice, Quot.sound
Secp.C78_gej_add_zinv_var: propext, Classical.choice, Quot.sound
Secp.C78_gej_add_ge: propext, Classical.choice, Quot.sound
Secp.C78_neg: propext, Classical.choice, Quot.sound
Secp.C78_moves: propext, Classical.choice, Quot.sound
Secp.C78_rescale: propext, Quot.sound
Secp.C78_rescale_needs: propext, Quot.sound
Secp.C78_ge_set_zinv: propext, Classical.choice, Quot.sound
Secp.C78_ge_set_gej: propext, Quot.sound
Secp.C78_set_all: propext, Classical.choice, Quot.sound
Secp.C78_table_set_globalz: propext, Classical.choice, Quot.sound
Secp.C78_program: propext, Classical.choice, Quot.sound
Secp.C78_program_32: propext, Classical.choice, Quot.sound
Secp.C78_odd_multiples: propext, Classical.choice, Quot.sound
Secp.C78_odd_multiples_32: propext, Classical.choice, Quot.sound
Secp.C78_set_all_points: propext, Classical.choice, Quot.sound
Secp.C78_set_all_points_32: propext, Classical.choice, Quot.sound
Secp.C79_ecdsa: propext, Classical.choice, Quot.sound
Secp.C79_ecdh: propext, Classical.choice, Quot.sound
Secp.C79_ellswift: propext, Classical.choice, Quot.sound
Secp.C79_musig: propext, Classical.choice, Quot.sound
Secp.C79_musig_no_key: propext, Classical.choice, Quot.sound
Secp.C79_schnorr: propext, Classical.choice, Quot.sound
Secp.C80_field_64: propext, Classical.choice, Quot.sound
Secp.C80_points_64: propext, Classical.choice, Quot.sound
Secp.C80_programs_64: propext, Classical.choice, Quot.sound
Secp.C80_field_32: propext, Classical.choice, Quot.sound
Secp.C80_points_32: propext, Classical.choice, Quot.sound
Secp.C80_programs_32: propext, Classical.choice, Quot.sound
Secp.C80_verify_64: propext, Classical.choice, Quot.sound
Secp.C80_verify_32: propext, Classical.choice, Quot.sound
Secp.C81_multiplication_64: propext, Classical.choice, Quot.sound
Secp.C81_multiplication_32: propext, Classical.choice, Quot.sound
Secp.C81_digit: propext, Classical.choice, Quot.sound
Secp.C81_xonly_scalar: propext, Classical.choice, Quot.sound
Secp.C81_table_infinity: none
Secp.C82_hsort: propext, Classical.choice, Quot.sound
Secp.C82_pubkey_sort: propext, Classical.choice, Quot.sound
Secp.C82_pubkey_sort_valid: propext, Classical.choice, Quot.sound
Secp.C82_swap: propext, Classical.choice, Quot.sound
Secp.C83_hash: propext, Classical.choice, Quot.sound
Secp.C83_hash_too_long: propext, Quot.sound
Secp.C83_ellswift_decode: propext, Classical.choice, Quot.sound
Secp.C83_ellswift_encode: propext, Classical.choice, Quot.sound
Secp.C83_ellswift_create: propext, Classical.choice, Quot.sound
Secp.C83_recover: propext, Classical.choice, Quot.sound
Secp.C83_extrakeys: propext, Classical.choice, Quot.sound
Secp.C83_musig_pubkey_agg: propext, Classical.choice, Quot.sound
Secp.C83_musig_pubkey_agg_abort: propext, Classical.choice, Quot.sound
Secp.C83_musig_tweak_add: propext, Classical.choice, Quot.sound
Secp.C83_musig_nonce_gen: propext, Classical.choice, Quot.sound
Secp.C83_musig_nonce_gen_counter: propext, Classical.choice, Quot.sound
Secp.C83_refused: propext, Classical.choice, Quot.sound
Secp.C83_musig_zero_rand: propext, Classical.choice, Quot.sound
Secp.C84_add: propext, Classical.choice, Quot.sound
Secp.C84_mul: propext, Classical.choice, Quot.sound
Secp.C84_mul_512: propext, Classical.choice, Quot.sound
Secp.C84_negate_half: propext, Classical.choice, Quot.sound
Secp.C84_cadd_bit: propext, Classical.choice, Quot.sound
Secp.C84_convert: propext, Classical.choice, Quot.sound
Secp.C84_tests: propext, Classical.choice, Quot.sound
Secp.C84_get_bits: propext, Classical.choice, Quot.sound
Secp.C84_mul_shift: propext, Classical.choice, Quot.sound
Secp.C84_split: propext, Classical.choice, Quot.sound
Secp.C84_inverse: propext, Classical.choice, Quot.sound
Secp.C84_noncanonical: propext, Classical.choice, Quot.sound
Secp.C84_parameters: propext, Classical.choice, Quot.sound
Secp.C85_modinv64: propext, Classical.choice, Quot.sound
Secp.C85_no_inverse: propext, Classical.choice, Quot.sound
Secp.C85_divsteps: propext, Classical.choice, Quot.sound
Secp.C85_divsteps_even: propext, Quot.sound
Secp.C85_mul_cmp: propext, Classical.choice, Quot.sound
Secp.C85_scalar_inverse: propext, Classical.choice, Quot.sound
Secp.C85_fe_inv: propext, Classical.choice, Quot.sound
Secp.C86_modinv64_var: propext, Classical.choice, Quot.sound
Secp.C86_no_inverse: propext, Classical.choice, Quot.sound
Secp.C86_divsteps: propext, Classical.choice, Quot.sound
Secp.C86_divsteps_even: propext, Classical.choice, Quot.sound
Secp.C86_mul_cmp: propext, Classical.choice, Quot.sound
Secp.C86_scalar_inverse_var: propext, Classical.choice, Quot.sound
Secp.C86_fe_inv_var: propext, Classical.choice, Quot.sound
Secp.C87_jacobi: propext, Classical.choice, Quot.sound
Secp.C87_zero: propext, Quot.sound
Secp.C87_posdivsteps: propext, Classical.choice, Quot.sound
Secp.C87_posdivsteps_even: propext, Classical.choice, Quot.sound
Secp.C87_is_square: propext, Classical.choice, Quot.sound
Secp.C88_mul: propext, Classical.choice, Quot.sound
Secp.C88_sqr: propext, Classical.choice, Quot.sound
Secp.C88_mul_magnitude: propext, Classical.choice, Quot.sound
Secp.C88_normalize: propext, Classical.choice, Quot.sound
Secp.C88_half: propext, Classical.choice, Quot.sound
Secp.C88_negate: propext, Quot.sound
Secp.C89_mul: propext, Classical.choice, Quot.sound
Secp.C89_sqr: propext, Classical.choice, Quot.sound
Secp.C89_mul_magnitude: propext, Classical.choice, Quot.sound
Secp.C89_normalize: propext, Classical.choice, Quot.sound
Secp.C89_half: propext, Classical.choice, Quot.sound
Secp.C89_negate: propext, Quot.sound
