# id -> (status, theorem names, note)
S = {}
def st(id, status, theorems, note=""):
    S[id] = (status, ["Torsion." + t for t in theorems.split()], note)

st("C01", "proved", "base16_encode_spec base16le_encode_spec base16_roundtrip base16le_roundtrip base16_decode_iff base16le_decode_eq")
st("C02", "proved", "base16_decode_iff base16_accepts_iff base16_test_eq_decode base16le_decode_eq")
st("C03", "proved", "base32_encode_spec base32_roundtrip")
st("C04", "proved", "base32_decode_iff base32_canonical base32_test_eq_decode")
st("C05", "proved", "base64_encode_spec base64_roundtrip")
st("C06", "proved", "base64_canonical base64_test_eq_decode")
st("C07", "proved", "base16_sizes base32_sizes base64_sizes")
st("C08", "proved", "base58_encode_spec base58_decode_iff base58_roundtrip base58_canonical base58_sizes base58_test_eq_decode base58_leading base58_encode_limit base58_decode_limit",
   "base58_test has no length limit, so it agrees with base58_decode only up to 0xffffffff characters. malloc is assumed to succeed.")
st("C09", "proved", "bech32_serialize_iff bech32_serialize_total bech32_roundtrip bech32_encode_iff bech32_address_roundtrip",
   "The round trip needs checksum < 2^30; bech32_const_limit shows that larger constants serialise but never deserialise.")
st("C10", "proved", "bech32_deserialize_iff bech32_canonical bech32_unique bech32_decode_iff bech32_address_canonical bech32_is_iff bech32_const_limit")
st("C11", "proved", "bech32_detects_four bech32_detects_burst",
   "Guarantee for substitutions that leave the separator in place; replacing a data character by '1' moves it.")
st("C12", "proved", "cash32_serialize_iff cash32_serialize_total cash32_deserialize_iff cash32_roundtrip cash32_roundtrip_bare cash32_canonical cash32_encode_iff cash32_decode_iff cash32_address_roundtrip cash32_address_canonical cash32_is_iff")
st("C13", "proved", "bech32_serialize_total bech32_deserialize_bounds bech32_decode_bounds bech32_encode_bounds cash32_serialize_total cash32_deserialize_bounds cash32_decode_bounds cash32_encode_bounds")
st("C14", "proved", "torsion_memcmp_spec torsion_memcmp_var_sign torsion_memcmp_zero_iff torsion_memequal_spec")
st("C15", "proved", "read16_val read32_val read64_val write16_val write32_val write64_val read_write write_read bswap16_spec bswap32_spec bswap64_spec increment_le_spec increment_le_var_eq increment_be_spec increment_be_var_eq")
st("C16", "proved", "asn1_write_size_spec asn1_write_int_spec asn1_write_mpz_spec asn1_write_seq_spec asn1_write_version_spec asn1_write_dumb_spec asn1_sizes asn1_size_roundtrip asn1_seq_roundtrip asn1_int_roundtrip asn1_int_roundtrip_same asn1_mpz_roundtrip asn1_mpz_limit asn1_version_roundtrip asn1_dumb_roundtrip",
   "Multi-precision integers above 2048 bytes are written but not read back (asn1_mpz_limit).")
st("C17", "proved", "asn1_read_size_iff asn1_read_int_strict_iff asn1_read_int_lax_iff asn1_read_mpz_strict_iff asn1_read_mpz_lax_iff asn1_read_seq_strict_iff asn1_read_seq_lax_iff asn1_read_version_strict_iff asn1_read_dumb_iff asn1_int_unique asn1_mpz_unique asn1_int_canonical asn1_mpz_canonical")
st("C18", "proved", "asn1_readers_safe asn1_size_no_wrap")
st("C19", "proved", "chacha20_init_spec salsa20_init_spec chacha20_calls salsa20_calls chacha20_involution salsa20_involution chacha20_counter_carry",
   "chacha20_counter_carry: with a 12-byte nonce the counter carries into the nonce (64-bit carry), unlike RFC 7539 past 2^32 blocks.")
st("C20", "proved", "arc4_init_iff arc4_calls arc4_involution")
st("C21", "proved", "poly1305_spec poly1305_chunks poly_accumulator",
   "Both back ends, any interleaving of update and pad calls.")
st("C22", "proved", "chachapoly_spec chachapoly_init_abort chachapoly_encrypt_spec chachapoly_decrypt_inverts aead_injective")
st("C23", "proved", "secretbox_seal_spec secretbox_open_spec secretbox_roundtrip secretbox_unique secretbox_derive_spec",
   "The decryption is written to the output also when the tag is wrong (secretbox_open_spec).")
st("C53", "proved", "siphash_sum_spec siphash_word_spec siphash_mod_spec sip_mulhi_onto")
st("C24", "proved", "hash_stream hash_split hash_length hash_other blake2b_stream blake2s_stream blake2_init_abort keccak_stream keccak_init_abort keccak_final_abort",
   "Every member of the enumeration, keyed BLAKE2 and raw Keccak. For outputs longer than the rate the library returns raw state bytes instead of squeezing again (Spec.keccak says so).")
st("C25", "proved", "md_padding md2_padding sponge_padding md4_collision md5_collision ripemd160_collision sha1_collision sha256_collision sha512_collision whirlpool_collision blake2b_collision blake2s_collision gost94_collision",
   "sponge_padding shows exactly which domain bytes make the sponge padding ambiguous (0x00 and 0x80 modulo 256).")
st("C26", "proved", "hmac_stream")
st("C27", "proved", "hkdf_extract_spec hkdf_expand_spec hkdf_block_length hkdf_expand_length hkdf_expand_prefix pbkdf2_derive_spec pbkdf2_derive_length pbkdf2_derive_prefix")
st("C28", "proved", "hmac_drbg_history hash_drbg_history ctr_drbg_history hmac_drbg_unknown hash_drbg_unknown ctr_drbg_bits accumulate_spec hmac_drbg_length hmac_drbg_prefix hash_drbg_length hash_drbg_prefix hash_drbg_inputs ctr_drbg_prefix ctr_drbg_blocks ctr_drbg_truncates",
   "CTR-DRBG for an arbitrary block cipher with 16-byte blocks. Inputs longer than 512 bytes are silently cut (ctr_drbg_truncates).")
st("C54", "proved", "eb2k_derive_spec pgpdf_salted_spec pgpdf_simple_spec pgpdf_iterated_spec pgpdf_iterated_empty scrypt_derive_spec",
   "pgpdf_iterated_empty: with empty salt and passphrase the loop does not end.")
st("C29", "proved", "uniform_unbiased uniform_draw uniform_range uniform_accept_half uniform_fuel")
st("C30", "proved", "rng_history rng_erased rng_queue rng_fork rng_fork_history rng_success rng_pid_reuse",
   "The process id is the only freshness test: rng_pid_reuse shows that a process with the recorded id does not reseed.")
st("C31", "proved", "mpn_add_1_exact mpn_add_n_exact mpn_add_exact mpn_sec_add_agrees mpn_sub_1_exact mpn_sub_n_exact mpn_sub_exact mpn_sec_sub_agrees mpn_sub_mod_exact mpn_cmp_exact mpn_cmp2_exact mpn_cmp_1_exact mpn_strip_zero_exact mpn_sec_compare_exact mpn_cnd_exact mpn_sec_tabselect_exact mpn_neg_exact mpn_reduce_weak_exact mp_wide_agrees",
   "64-bit limbs; the portable and the 128-bit versions of the limb steps. The inline assembly versions are not modelled.")
st("C32", "proved", "mpn_mul_1_exact mpn_addmul_1_exact mpn_submul_1_exact mpn_mul_exact mpn_sqr_exact mpn_mulshift_exact")
st("C33", "proved", "mp_div_exact mp_div_2by1_exact mpn_divmod_1_exact mpn_divmod_exact mpn_divexact_exact mpz_quorem_exact mpz_divmod_exact mpz_quo_rem_div_mod_exact mpz_quo_ui_exact mpz_div_ui_exact mpz_quo_si_exact mpz_quo_word_zero mpz_divexact_exact mpz_divexact_word_exact mpz_divexact_short mpz_divround_word_exact divRound_nearest mpz_divisible_exact",
   "mpz_divexact_short: an inexact mpz_divexact whose numerator has fewer limbs returns 0 instead of aborting.")
st("C34", "proved", "mpz_rep_bijective mpz_add_sub_exact mpz_add_sub_word_exact mpz_neg_abs_set_exact mpz_set_get_word_exact mpz_cmp_exact mpz_mul_exact mpz_sqr_exact mpz_mul_word_exact mpz_addmul_exact mpz_addmul_word_exact mpz_pow_ui_exact mpz_fits_exact")
st("C35", "partial", "bit_determines mpz_logic_exact mpz_logic_word_exact mpn_logic_exact mpz_2exp_exact mpz_2exp_predicates_exact mpz_rounded_exact mpz_tstbit_exact mpz_setbit_partial mpz_setbit_wrong mpz_clrbit_partial mpz_clrbit_wrong mpz_combit_partial mpz_combit_wrong mpz_scan_exact mpn_scan_exact mpz_counts_exact mpn_counts_exact mpz_length_exact mpn_lshift_exact mpn_rshift_exact mpn_bits_exact mpn_window_exact mpn_length_exact",
 "Everything holds except mpz_setbit, mpz_clrbit and mpz_combit on negative multiples of 2^pos: there the code adds where it should subtract and vice versa. The _partial theorems say exactly when and what happens, the _wrong theorems give witnesses, so the full claim is false for these three functions.")
st("C55", "proved", "mpz_set_compact_exact mpz_get_compact_exact mpz_compact_roundtrip")
st("C36", "proved", "mpn_import_exact mpn_export_exact mpz_import_exact mpz_export_exact mpz_export_import mpz_import_export mpn_sizeinbase_exact mpn_sizeinbase_abort mpn_get_str_exact mpn_get_str_abort mpz_get_str_exact mpz_set_str_exact mpz_set_str_bad_base mpn_set_str_exact parseInt_numeral mpz_str_round_trip mpz_set_str_empty",
   "Strings without any digit are accepted as zero (mpz_set_str_empty).")
st("C37", "proved", "mpn_gcd_exact mpn_gcd_1_exact mpz_gcd_lcm_exact mpz_gcd_lcm_ui_exact mpz_gcdext_exact mpn_gcdext_exact mpn_gcdext_abort mpn_invert_exact mpz_invert_exact mpz_invert_mod_one",
 "mpz_invert_mod_one: modulo one the inverse zero exists but the function reports failure.")
st("C39", "proved", "mpz_jacobi_exact mpz_legendre_exact mpz_kronecker_exact")
st("C38", "proved", "mpn_barrett_reduce_exact mpn_barrett_power_abort mpn_montmul_exact mpn_powm_exact mpn_sec_powm_exact mpn_sec_invert_exact mpz_powm_exact mpz_powm_negative mpz_powm_ui_exact mpz_powm_sec_exact",
 "Agreement is about values; timing is not modelled. mpn_barrett_power_abort: a modulus B^(n-1) is refused.")
st("C40", "proved", "mpz_sqrtrem_exact mpn_sqrtrem_exact mpz_perfect_square_exact mpz_rootrem_exact mpz_root_exact mpz_perfect_power_exact mpn_sieve_exact mpz_primorial_exact")

st("C41", "proved", "pkcs7_pad_exact pkcs7_unpad_iff pkcs7_unpad_reject pkcs7_round_trip pkcs7_injective")
st("C42", "proved", "ecb_encrypt_exact ecb_decrypt_exact ecb_round_trip cbc_encrypt_exact cbc_decrypt_exact cbc_encrypt_split cbc_decrypt_split cbc_round_trip xts_shift_exact xts_encrypt_exact xts_decrypt_exact xts_encrypt_split xts_decrypt_split xts_round_trip ctr_exact ctr_round_trip ofb_exact ofb_round_trip cfb_encrypt_exact cfb_round_trip cipher_stream_encrypt_exact cipher_stream_decrypt_exact cipher_stream_round_trip",
   "Over an arbitrary block cipher with 8- or 16-byte blocks.")
st("C43", "proved", "cipher_stream_init_iff cipher_stream_encrypt_exact cipher_stream_decrypt_exact cipher_stream_round_trip cipher_stream_split cipher_stream_sizes cipher_static_encrypt_exact cipher_static_decrypt_exact padding_kept_within padding_switch padding_switch_only",
   "Over an arbitrary block cipher (instantiated with each of the library's ciphers by concrete_exact and concrete_round_trip of C45); the authenticated modes are the subject of C44.")
st("C44", "proved", "aead_init_iff gcm_encrypt_exact gcm_decrypt_exact gcm_decrypt_untagged eax_encrypt_exact eax_decrypt_exact eax_decrypt_untagged ccm_set_iff ccm_encrypt_exact ccm_decrypt_exact ccm_decrypt_untagged ccm_nonce_alias aead_round_trip",
   "Over an arbitrary block cipher. CCM for at most the announced number of bytes (the library does not enforce equality); ccm_nonce_alias: nonces agreeing up to trailing zeros are the same nonce for short messages.")
st("C45", "proved", "cipher_init_exact cipher_sizes_exact cipher_round_trip cipher_injective concrete_exact concrete_round_trip")
st("C56", "proved", "aes_fips197 aes_inverse_sbox")
st("C57", "proved", "serpent_sboxes_exact idea_mul_exact")
st("C46", "proved", "rsa_private_op_exact rsa_private_op_checked rsa_encrypt_decrypt rsa_oaep_roundtrip rsa_sign_verify rsa_sign_verify_pss",
   "With the Chinese remainders (which is what every caller uses) the result is checked for any accepted key; without them the check is absent from the code, and the theorem needs prime factors.")
st("C47", "proved", "rsa_decrypt_exact rsa_decrypt_key_exact rsa_decrypt_oaep_exact rsa_verify_iff")
st("C58", "proved", "rsa_sign_exact rsa_verify_iff rsa_sign_verify rsa_verify_pss_iff rsa_sign_verify_pss")
st("C59", "proved", "rsa_pubkey_verify_iff rsa_privkey_verify_iff rsa_keys_unique rsa_pubkey_create_exact rsa_key_roundtrip rsa_privkey_import_sound rsa_privkey_import_factors")
st("C60", "proved", "rsa_veil_unveil")
st("C61", "proved", "mpz_urandomm_exact mpz_urandomm_unbiased mpz_urandomb_exact")
st("C48", "proved", "dsa_sign_verify dsa_sign_ends dsa_sign_example",
   "For an order which is prime (the library does not check primality).")
st("C62", "proved", "dsa_sign_exact dsa_sign_deterministic dsa_sign_refuses dsa_verify_iff")
st("C63", "proved", "dsa_params_verify_iff dsa_pubkey_verify_iff dsa_privkey_verify_iff dsa_keys_unique dsa_key_parts dsa_pub_parts dsa_key_roundtrip dsa_key_of_secret dsa_privkey_create_exact dsa_privkey_import_recovers dsa_derive_exact dsa_derive_agree dsa_derive_refuses dsa_sig_export_exact dsa_sig_import_sound")
st("C51", "proved", "wge_dbl_exact wge_add_exact wge_sub_exact wge_neg_exact jge_dbl_exact jge_add_exact jge_sub_exact jge_mixed_add_exact jge_mixed_sub_exact jge_neg_exact jge_convert_exact wge_set_jge_all_exact jge_equal_exact jge_equal_x_exact jge_select_exact wge_validate_exact wge_set_xy_exact jge_validate_exact wge_fixed_points_exact naf_points_exact jsf_points_exact endo_beta_exact",
   "Over any field of characteristic other than two (the limb-level field arithmetic in src/fields/ is not modelled).")
st("C52", "proved", "sc_naf_exact sc_naf_abort sc_jsf_exact sc_jsf_abort sc_minimize_exact",
   "Scalars are numbers; the limb code below is C65.")
st("C64", "proved", "wei_init_exact wei_randomize_exact wei_mul_g_exact wei_mul_exact wei_mul_double_exact wei_mul_multi_exact",
   "Over any field of characteristic other than two; scalars are numbers below the order.")
st("C65", "proved", "scDefs_ok scalar_field_init_exact sc_add_sub_neg_exact sc_mul_exact sc_mulshift_exact sc_predicates_exact sc_minimize_limbs_exact sc_import_exact sc_import_weak_exact sc_export_exact sc_set_fe_exact sc_pow_exact sc_chains_exact sc_invert_exact sc_invert_var_exact sc_random_exact scDefs_prime")
st("C66", "proved", "fe_invert_exact fe_sqrt_exact p224_fe_sqrt_var_exact fe_is_square_exact fe_isqrt_exact p25519_fe_isqrt_nonsquare fieldCodes_prime fe_roots_exact",
   "The multiplication of the field is the mathematical one (the limb code in src/fields/ is not modelled).")
st("C67", "proved", "weiDefs_prime weiDefs_curve endo_secp256k1_exact wei_create_exact wei_named_mul_exact",
   "The multiplication of the field is the mathematical one (the limb code in src/fields/ is not modelled).")
st("C68", "proved", "wei_curve_exact wge_import_exact sec1_unique wge_roundtrip ecdsa_privkey_exact ecdsa_privkey_ops_exact ecdsa_pubkey_create_exact ecdsa_pubkey_convert_exact ecdsa_pubkey_import_exact ecdsa_pubkey_tweak_exact ecdsa_pubkey_sum_exact ecdsa_derive_exact ecdsa_derive_agree ecdsa_tweak_commutes",
   "Scalars are numbers (limbs: C65), field elements residues (limb code not modelled).")
st("C49", "proved", "ecdsa_verify_exact ecdsa_sign_exact ecdsa_sign_deterministic ecdsa_sign_verify ecdsa_sign_zero ecdsa_sign_zero_happens ecdsa_recover_exact ecdsa_recover_verifies ecdsa_recover_complete",
   "The generator of the nonces is arbitrary (in the code HMAC-DRBG, C28). The code returns s = 0 instead of retrying.")
st("C69", "proved", "ecdsa_malleable ecdsa_normalize_exact ecdsa_normalize_verify ecdsa_sig_export_exact ecdsa_sig_import_exact ecdsa_der_roundtrip")
st("C50", "proved", "wei_xofs_ok bip340_hash_exact bip340_sign_exact bip340_verify_exact bip340_sign_verify bipschnorr_support_exact bipschnorr_sign_exact bipschnorr_verify_exact bipschnorr_sign_verify")
st("C70", "proved", "xonly_import_exact xonly_iff bip340_pubkey_create_exact bip340_privkey_export_exact bip340_privkey_tweak_add_exact bip340_pubkey_export_exact bip340_pubkey_import_exact bip340_pubkey_tweak_exact bip340_tweak_check_exact bip340_pubkey_sum_exact bip340_derive_exact bip340_derive_agree bip340_tweak_commutes")
st("C71", "proved", "coeffs_deterministic bip340_batch_exact bip340_batch_complete bip340_batch_single bip340_batch_one_bad batch_coefficient_unique bipschnorr_batch_exact bipschnorr_batch_complete bipschnorr_batch_one_bad",
   "The generator of the coefficients is arbitrary.")
st("C72", "proved", "mont_field_prime mont_constants mont_init_succeeds mont_curve_exact mont_twist_exact mont_torsion_exact",
   "The multiplication of the field is the mathematical one (the limb code in src/fields/ is not modelled).")
st("C73", "proved", "ecdh_pubkey_point ecdh_derive_exact ecdh_pubkey_create_exact ecdh_agreement ecdh_privkey_generate_exact ecdh_privkey_export_exact ecdh_privkey_import_exact x25519_create_succeeds x448_create_aborts_iff x448_create_aborts",
   "X448: the scalar 4n makes ecdh_pubkey_create abort.")
st("C74", "proved", "ecdh_derive_zero x25519_small_numbers x25519_derive_fails_iff x448_derive_fails_iff")
st("C75", "proved", "ecdh_pubkey_verify_exact ecdh_pubkey_is_small_exact ecdh_pubkey_has_torsion_exact ecdh_pubkey_export_exact ecdh_pubkey_import_exact")
st("C76", "proved", "elligator_nonsquare mont_from_uniform_exact mont_to_uniform_sound mont_to_uniform_complete mont_from_hash_exact mont_to_hash_sound mont_to_hash_undefined mont_to_hash_undefined_happens ecdh_from_uniform_exact ecdh_to_uniform_sound ecdh_from_hash_exact ecdh_to_hash_sound",
   "The generator is arbitrary. The `continue` in mont_point_to_hash reads an uninitialised variable when the first point has the ordinate zero.")
st("C77", "proved", "xge_validate_exact xge_arith_exact xge_normalize_exact edwards_init_exact edwards_randomize_exact edwards_mul_g_exact edwards_mul_exact edwards_mul_scalar_exact edwards_mul_double_exact edwards_mul_multi_exact xge_torsion_exact",
   "The multiplication of the field is the mathematical one (the limb code in src/fields/ is not modelled).")
st("C78", "proved", "xge_export_exact xge_import_exact eddsa_privkey_exact eddsa_pubkey_from_scalar_exact eddsa_privkey_grind_exact eddsa_scalar_ops_exact eddsa_pubkey_tests_exact eddsa_pubkey_add_exact eddsa_pubkey_combine_exact eddsa_pubkey_tweak_exact eddsa_tweak_agree eddsa_pubkey_export_exact eddsa_pubkey_import_exact eddsa_tweak_mul_ed1174_differs")
st("C79", "proved", "eddsa_sign_exact eddsa_sign_tweak_exact eddsa_verify_exact eddsa_verify_single_exact eddsa_signed_valid eddsa_sign_verify eddsa_verify_agree eddsa_signature_unique")
st("C80", "proved", "eddsa_batch_exact eddsa_batch_complete eddsa_batch_one_bad coeffs_deterministic", "The generator of the coefficients is arbitrary.")
st("C81", "proved", "eddsa_derive_with_scalar_exact eddsa_derive_exact eddsa_derive_agree")
st("C82", "proved", "edwards_elligator_setting edwards_from_uniform_exact edwards_to_uniform_sound edwards_to_uniform_complete edwards_from_hash_exact edwards_to_hash_sound edwards_to_hash_undefined edwards_to_hash_undefined_happens eddsa_from_uniform_exact eddsa_to_uniform_sound eddsa_from_hash_exact eddsa_to_hash_sound eddsa_to_uniform_wrong_ed1174",
   "The generator is arbitrary. On Ed1174 -A is a square, so that to_uniform reports success for points without that preimage.")
st("C83", "proved", "md2_compression md4_compression md5_compression ripemd160_compression sha1_compression sha256_compression sha512_compression blake2b_compression blake2s_compression keccak_permutation whirlpool_compression gost94_compression sha512_constants sha512_initial root_constants",
   "The table T of MD5 (sines), the digits of pi behind the MD2 table and the boxes of Whirlpool and GOST are literals of the specification.")
st("C84", "proved", "eddsa_pubkey_convert_exact ed448_convert_torsion x25519_converted x25519_derive_agrees x25519_keys_convert x25519_pubkey_convert_exact x25519_create_convert x25519_convert_round_trip x448_converted x448_derive_agrees x448_keys_convert x448_pubkey_convert_exact x448_create_convert x448_convert_round_trip",
   "The isogeny of degree four is proved compatible with multiplication by a differential argument, without its ordinate.")
st("C85", "proved", "ristretto_init_exact ristretto_group_exact rge_export_exact rge_import_exact rge_equal_exact ristretto_privkey_exact ristretto_privkey_import_exact ristretto_pubkey_create_exact ristretto_pubkey_verify_exact ristretto_pubkey_add_exact ristretto_pubkey_combine_exact ristretto_pubkey_tweak_exact ristretto_derive_agree ristretto_pubkey_grind_undefined rge_export_batch_exact rge_export_batch_wrong_ed448",
   "The code is that of RFC 9496 on Ed25519 (its generator is an example). The functions that generate random keys are in C99. rge_export_batch_exact is about ed25519 and ed1174; rge_export_batch_wrong_ed448 says that the function, which nothing calls, is wrong on ed448.")
st("C86", "proved", "ristretto_elligator_setting ristretto_from_uniform_exact ristretto_to_uniform_sound ristretto_to_uniform_complete ristretto_from_hash_exact ristretto_to_hash_sound ristretto_pubkey_from_uniform_exact ristretto_pubkey_to_uniform_sound ristretto_pubkey_to_uniform_complete ristretto_pubkey_to_hash_sound ristretto_from_uniform_wrong_ed448 ristretto_from_uniform_wrong_ed448_happens ristretto_to_uniform_wrong_ed1174",
   "Stated as the code is: the two exceptions (zero on Ed1174, everything on Ed448) are theorems of their own. That to_hash ends is a matter of its random bytes; the model has fuel.")
st("C87", "proved", "wei_map_setting wei_mapped_total wei_from_uniform_exact wei_to_uniform_sound wei_to_uniform_complete wei_from_hash_exact wei_to_hash_sound ecdsa_from_uniform_exact ecdsa_to_uniform_exact ecdsa_from_hash_exact ecdsa_to_hash_sound bip340_from_uniform_exact bip340_to_uniform_exact bip340_from_hash_exact bip340_to_hash_sound wei_to_uniform_p224_p256_p521 wei_to_uniform_zero_wrong wei_to_uniform_p192_p384_wrong wei_to_uniform_root_wrong",
   "The exceptions at zero are theorems of their own. That to_hash ends is a matter of its random bytes; the model has fuel.")
st("C88", "proved", "mpz_factorials_exact mpz_binomials_exact mpz_fibonacci_exact mpz_fibonacci_predecessor_of_zero mpz_remove_exact",
   "The predecessors at index zero are a theorem of their own.")
st("C89", "proved", "mpz_sqrtm_exact mpz_sqrtm_sound mpz_sqrtm_refuses mpz_sqrtm_wrong_root mpz_sqrtm_never_ends mpz_sqrtpq_exact",
   "The loops have fuel; p rounds suffice for a prime p, and no fuel does for a square.")
st("C90", "proved", "mpz_mr_prime_p_exact mpz_mr_prime_p_small mpz_mr_prime_p_prime strong_liars_lt_half mpz_lucas_prime_p_exact mpz_lucas_prime_p_small mpz_lucas_prime_p_prime mpz_probab_prime_p_small mpz_probab_prime_p_exact mpz_probab_prime_p_passed mpz_probab_prime_p_prime mpz_probab_prime_p_wrong",
   "The bound for composites is one half for each round, not the best one of a quarter. Rejected primes exist by Dirichlet's theorem and quadratic reciprocity.")
st("C91", "proved", "mpz_nextprime_exact mpz_nextprime_small mpz_findprime_odd mpz_findprime_wrong mpz_randprime_exact randprime_product",
   "Stated as the code is: mpz_findprime looks at odd numbers only, which mpz_findprime_wrong shows for 2. That the searches end depends on the generator; the model has fuel.")
st("C92", "proved", "rsa_privkey_generate_fail rsa_privkey_generate_exact",
   "That the search ends depends on the generator; the model has fuel. Passing the test for primes is BailliePSW of C90.")
st("C93", "proved", "dsa_generate_fail dsa_generated_ok dsa_params_generate_exact dsa_privkey_generate_exact",
   "That the search ends depends on the generator; the model has fuel. Passing the test for primes is BailliePSW of C90.")
st("C94", "proved", "blowfish_init_exact blowfish_encrypt_exact blowfish_key_prefix blowfish_key_repeat",
   "Decryption as the inverse is in C45. The digits of pi are proved over the reals (BlowfishPi.lean).")
st("C95", "proved", "bcrypt_hash192_exact bcrypt_derive_taken bcrypt_derive_exact bcrypt_generate_exact bcrypt_decode_exact bcrypt_verify_exact bcrypt_roundtrip bcrypt_a_wrap_empty bcrypt_a_wrap bcrypt_72 bcrypt_check_exact bcrypt_check_long_empty",
   "Stated as the code is for version a.")
st("C96", "proved", "bcrypt_pbkdf_exact", "")
st("C97", "proved", "limb_add limb_sub limb_neg limb_carry limb_mul limb_sqr limb_mul_small limb_mul_curve limb_set_word limb_from_bytes limb_to_bytes limb_select limb_is_zero limb_equal limb_is_odd limb_neg_cond limb_set_odd",
   "The programs are written from the text of the code by tools/fiat.py. The fields in Montgomery representation (P-224, P-256, P-384) are not covered; the 32-bit code is in C101.")
st("C98", "proved", "limbs_jge_dbl_var limbs_jge_addsub_var limbs_jge_mixed_addsub_var limbs_jge_add limbs_jge_mixed_add limbs_pge_dbl limbs_pge_ladder limbs_xge_dbl limbs_xge_add_a limbs_xge_sub_a limbs_xge_add_m1 limbs_xge_sub_m1 limbs_tables",
   "The statements are written from the text of the code by tools/formula.py. Coincidences of arguments are given by layouts: one representative for each way in which arguments may be the same variable.")
st("C99", "proved", "ecdsa_privkey_generate_exact ecdsa_pubkey_grind_exact ecdsa_pubkey_grind_ends ecdsa_privkey_grind_exact bip340_pubkey_grind_exact bip340_privkey_grind_exact ecdh_privkey_grind_exact x25519_privkey_grind_safe ristretto_privkey_generate_exact ristretto_privkey_grind_undefined",
   "Rounds of the loops are counted by fuel; running out of it is the outcome spin, and the theorems say when this happens.")
st("C100", "proved", "murmur3_sum_exact murmur3_tweak_exact murmur3_seed_inj murmur3_tweak_inj murmur3_word_inj murmur3_reads_len", "")
st("C101", "proved", "limb32_add limb32_sub limb32_neg limb32_carry limb32_mul limb32_sqr limb32_mul_small limb32_mul_curve limb32_set_word limb32_from_bytes limb32_to_bytes limb32_select limb32_is_zero limb32_equal limb32_is_odd limb32_neg_cond limb32_set_odd limb32_same_fields limb32_bounds",
   "The programs are written from the text of the code by tools/fiat.py. The fields p448 and p521 in 32-bit code are not covered.")
st("C102", "proved", "limbs32_jge_dbl_var limbs32_jge_addsub_var limbs32_jge_mixed_addsub_var limbs32_jge_add limbs32_jge_mixed_add limbs32_pge_dbl limbs32_pge_ladder limbs32_xge_dbl limbs32_xge_add_a limbs32_xge_sub_a limbs32_xge_add_m1 limbs32_xge_sub_m1 limbs32_tables",
   "The statements are those of C98. The fields p448 and p521 in 32-bit code are not covered.")
