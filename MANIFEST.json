{
 "claims": [
  {
   "property": "C01",
   "status": "proved",
   "theorems": [
    "Torsion.base16_encode_spec",
    "Torsion.base16le_encode_spec",
    "Torsion.base16_roundtrip",
    "Torsion.base16le_roundtrip",
    "Torsion.base16_decode_iff",
    "Torsion.base16le_decode_eq"
   ],
   "note": ""
  },
  {
   "property": "C02",
   "status": "proved",
   "theorems": [
    "Torsion.base16_decode_iff",
    "Torsion.base16_accepts_iff",
    "Torsion.base16_test_eq_decode",
    "Torsion.base16le_decode_eq"
   ],
   "note": ""
  },
  {
   "property": "C03",
   "status": "proved",
   "theorems": [
    "Torsion.base32_encode_spec",
    "Torsion.base32_roundtrip"
   ],
   "note": ""
  },
  {
   "property": "C04",
   "status": "proved",
   "theorems": [
    "Torsion.base32_decode_iff",
    "Torsion.base32_canonical",
    "Torsion.base32_test_eq_decode"
   ],
   "note": ""
  },
  {
   "property": "C05",
   "status": "proved",
   "theorems": [
    "Torsion.base64_encode_spec",
    "Torsion.base64_roundtrip"
   ],
   "note": ""
  },
  {
   "property": "C06",
   "status": "proved",
   "theorems": [
    "Torsion.base64_canonical",
    "Torsion.base64_test_eq_decode"
   ],
   "note": ""
  },
  {
   "property": "C07",
   "status": "proved",
   "theorems": [
    "Torsion.base16_sizes",
    "Torsion.base32_sizes",
    "Torsion.base64_sizes"
   ],
   "note": ""
  },
  {
   "property": "C08",
   "status": "proved",
   "theorems": [
    "Torsion.base58_encode_spec",
    "Torsion.base58_decode_iff",
    "Torsion.base58_roundtrip",
    "Torsion.base58_canonical",
    "Torsion.base58_sizes",
    "Torsion.base58_test_eq_decode",
    "Torsion.base58_leading",
    "Torsion.base58_encode_limit",
    "Torsion.base58_decode_limit"
   ],
   "note": "base58_test has no length limit, so it agrees with base58_decode only up to 0xffffffff characters. malloc is assumed to succeed."
  },
  {
   "property": "C09",
   "status": "proved",
   "theorems": [
    "Torsion.bech32_serialize_iff",
    "Torsion.bech32_serialize_total",
    "Torsion.bech32_roundtrip",
    "Torsion.bech32_encode_iff",
    "Torsion.bech32_address_roundtrip"
   ],
   "note": "The round trip needs checksum < 2^30; bech32_const_limit shows that larger constants serialise but never deserialise."
  },
  {
   "property": "C10",
   "status": "proved",
   "theorems": [
    "Torsion.bech32_deserialize_iff",
    "Torsion.bech32_canonical",
    "Torsion.bech32_unique",
    "Torsion.bech32_decode_iff",
    "Torsion.bech32_address_canonical",
    "Torsion.bech32_is_iff",
    "Torsion.bech32_const_limit"
   ],
   "note": ""
  },
  {
   "property": "C11",
   "status": "proved",
   "theorems": [
    "Torsion.bech32_detects_four",
    "Torsion.bech32_detects_burst"
   ],
   "note": "Guarantee for substitutions that leave the separator in place; replacing a data character by '1' moves it."
  },
  {
   "property": "C12",
   "status": "proved",
   "theorems": [
    "Torsion.cash32_serialize_iff",
    "Torsion.cash32_serialize_total",
    "Torsion.cash32_deserialize_iff",
    "Torsion.cash32_roundtrip",
    "Torsion.cash32_roundtrip_bare",
    "Torsion.cash32_canonical",
    "Torsion.cash32_encode_iff",
    "Torsion.cash32_decode_iff",
    "Torsion.cash32_address_roundtrip",
    "Torsion.cash32_address_canonical",
    "Torsion.cash32_is_iff"
   ],
   "note": ""
  },
  {
   "property": "C13",
   "status": "proved",
   "theorems": [
    "Torsion.bech32_serialize_total",
    "Torsion.bech32_deserialize_bounds",
    "Torsion.bech32_decode_bounds",
    "Torsion.bech32_encode_bounds",
    "Torsion.cash32_serialize_total",
    "Torsion.cash32_deserialize_bounds",
    "Torsion.cash32_decode_bounds",
    "Torsion.cash32_encode_bounds"
   ],
   "note": ""
  },
  {
   "property": "C14",
   "status": "proved",
   "theorems": [
    "Torsion.torsion_memcmp_spec",
    "Torsion.torsion_memcmp_var_sign",
    "Torsion.torsion_memcmp_zero_iff",
    "Torsion.torsion_memequal_spec"
   ],
   "note": ""
  },
  {
   "property": "C15",
   "status": "proved",
   "theorems": [
    "Torsion.read16_val",
    "Torsion.read32_val",
    "Torsion.read64_val",
    "Torsion.write16_val",
    "Torsion.write32_val",
    "Torsion.write64_val",
    "Torsion.read_write",
    "Torsion.write_read",
    "Torsion.bswap16_spec",
    "Torsion.bswap32_spec",
    "Torsion.bswap64_spec",
    "Torsion.increment_le_spec",
    "Torsion.increment_le_var_eq",
    "Torsion.increment_be_spec",
    "Torsion.increment_be_var_eq"
   ],
   "note": ""
  },
  {
   "property": "C16",
   "status": "proved",
   "theorems": [
    "Torsion.asn1_write_size_spec",
    "Torsion.asn1_write_int_spec",
    "Torsion.asn1_write_mpz_spec",
    "Torsion.asn1_write_seq_spec",
    "Torsion.asn1_write_version_spec",
    "Torsion.asn1_write_dumb_spec",
    "Torsion.asn1_sizes",
    "Torsion.asn1_size_roundtrip",
    "Torsion.asn1_seq_roundtrip",
    "Torsion.asn1_int_roundtrip",
    "Torsion.asn1_int_roundtrip_same",
    "Torsion.asn1_mpz_roundtrip",
    "Torsion.asn1_mpz_limit",
    "Torsion.asn1_version_roundtrip",
    "Torsion.asn1_dumb_roundtrip"
   ],
   "note": "Multi-precision integers above 2048 bytes are written but not read back (asn1_mpz_limit)."
  },
  {
   "property": "C17",
   "status": "proved",
   "theorems": [
    "Torsion.asn1_read_size_iff",
    "Torsion.asn1_read_int_strict_iff",
    "Torsion.asn1_read_int_lax_iff",
    "Torsion.asn1_read_mpz_strict_iff",
    "Torsion.asn1_read_mpz_lax_iff",
    "Torsion.asn1_read_seq_strict_iff",
    "Torsion.asn1_read_seq_lax_iff",
    "Torsion.asn1_read_version_strict_iff",
    "Torsion.asn1_read_dumb_iff",
    "Torsion.asn1_int_unique",
    "Torsion.asn1_mpz_unique",
    "Torsion.asn1_int_canonical",
    "Torsion.asn1_mpz_canonical"
   ],
   "note": ""
  },
  {
   "property": "C18",
   "status": "proved",
   "theorems": [
    "Torsion.asn1_readers_safe",
    "Torsion.asn1_size_no_wrap"
   ],
   "note": ""
  },
  {
   "property": "C19",
   "status": "proved",
   "theorems": [
    "Torsion.chacha20_init_spec",
    "Torsion.salsa20_init_spec",
    "Torsion.chacha20_calls",
    "Torsion.salsa20_calls",
    "Torsion.chacha20_involution",
    "Torsion.salsa20_involution",
    "Torsion.chacha20_counter_carry"
   ],
   "note": "chacha20_counter_carry: with a 12-byte nonce the counter carries into the nonce (64-bit carry), unlike RFC 7539 past 2^32 blocks."
  },
  {
   "property": "C20",
   "status": "proved",
   "theorems": [
    "Torsion.arc4_init_iff",
    "Torsion.arc4_calls",
    "Torsion.arc4_involution"
   ],
   "note": ""
  },
  {
   "property": "C21",
   "status": "proved",
   "theorems": [
    "Torsion.poly1305_spec",
    "Torsion.poly1305_chunks",
    "Torsion.poly_accumulator"
   ],
   "note": "Both back ends, any interleaving of update and pad calls."
  },
  {
   "property": "C22",
   "status": "proved",
   "theorems": [
    "Torsion.chachapoly_spec",
    "Torsion.chachapoly_init_abort",
    "Torsion.chachapoly_encrypt_spec",
    "Torsion.chachapoly_decrypt_inverts",
    "Torsion.aead_injective"
   ],
   "note": ""
  },
  {
   "property": "C23",
   "status": "proved",
   "theorems": [
    "Torsion.secretbox_seal_spec",
    "Torsion.secretbox_open_spec",
    "Torsion.secretbox_roundtrip",
    "Torsion.secretbox_unique",
    "Torsion.secretbox_derive_spec"
   ],
   "note": "The decryption is written to the output also when the tag is wrong (secretbox_open_spec)."
  },
  {
   "property": "C24",
   "status": "proved",
   "theorems": [
    "Torsion.hash_stream",
    "Torsion.hash_split",
    "Torsion.hash_length",
    "Torsion.hash_other",
    "Torsion.blake2b_stream",
    "Torsion.blake2s_stream",
    "Torsion.blake2_init_abort",
    "Torsion.keccak_stream",
    "Torsion.keccak_init_abort",
    "Torsion.keccak_final_abort"
   ],
   "note": "Every member of the enumeration, keyed BLAKE2 and raw Keccak. For outputs longer than the rate the library returns raw state bytes instead of squeezing again (Spec.keccak says so)."
  },
  {
   "property": "C25",
   "status": "proved",
   "theorems": [
    "Torsion.md_padding",
    "Torsion.md2_padding",
    "Torsion.sponge_padding",
    "Torsion.md4_collision",
    "Torsion.md5_collision",
    "Torsion.ripemd160_collision",
    "Torsion.sha1_collision",
    "Torsion.sha256_collision",
    "Torsion.sha512_collision",
    "Torsion.whirlpool_collision",
    "Torsion.blake2b_collision",
    "Torsion.blake2s_collision",
    "Torsion.gost94_collision"
   ],
   "note": "sponge_padding shows exactly which domain bytes make the sponge padding ambiguous (0x00 and 0x80 modulo 256)."
  },
  {
   "property": "C26",
   "status": "proved",
   "theorems": [
    "Torsion.hmac_stream"
   ],
   "note": ""
  },
  {
   "property": "C27",
   "status": "proved",
   "theorems": [
    "Torsion.hkdf_extract_spec",
    "Torsion.hkdf_expand_spec",
    "Torsion.hkdf_block_length",
    "Torsion.hkdf_expand_length",
    "Torsion.hkdf_expand_prefix",
    "Torsion.pbkdf2_derive_spec",
    "Torsion.pbkdf2_derive_length",
    "Torsion.pbkdf2_derive_prefix"
   ],
   "note": ""
  },
  {
   "property": "C28",
   "status": "proved",
   "theorems": [
    "Torsion.hmac_drbg_history",
    "Torsion.hash_drbg_history",
    "Torsion.ctr_drbg_history",
    "Torsion.hmac_drbg_unknown",
    "Torsion.hash_drbg_unknown",
    "Torsion.ctr_drbg_bits",
    "Torsion.accumulate_spec",
    "Torsion.hmac_drbg_length",
    "Torsion.hmac_drbg_prefix",
    "Torsion.hash_drbg_length",
    "Torsion.hash_drbg_prefix",
    "Torsion.hash_drbg_inputs",
    "Torsion.ctr_drbg_prefix",
    "Torsion.ctr_drbg_blocks",
    "Torsion.ctr_drbg_truncates"
   ],
   "note": "CTR-DRBG for an arbitrary block cipher with 16-byte blocks. Inputs longer than 512 bytes are silently cut (ctr_drbg_truncates)."
  },
  {
   "property": "C29",
   "status": "proved",
   "theorems": [
    "Torsion.uniform_unbiased",
    "Torsion.uniform_draw",
    "Torsion.uniform_range",
    "Torsion.uniform_accept_half",
    "Torsion.uniform_fuel"
   ],
   "note": ""
  },
  {
   "property": "C30",
   "status": "proved",
   "theorems": [
    "Torsion.rng_history",
    "Torsion.rng_erased",
    "Torsion.rng_queue",
    "Torsion.rng_fork",
    "Torsion.rng_fork_history",
    "Torsion.rng_success",
    "Torsion.rng_pid_reuse"
   ],
   "note": "The process id is the only freshness test: rng_pid_reuse shows that a process with the recorded id does not reseed."
  },
  {
   "property": "C31",
   "status": "proved",
   "theorems": [
    "Torsion.mpn_add_1_exact",
    "Torsion.mpn_add_n_exact",
    "Torsion.mpn_add_exact",
    "Torsion.mpn_sec_add_agrees",
    "Torsion.mpn_sub_1_exact",
    "Torsion.mpn_sub_n_exact",
    "Torsion.mpn_sub_exact",
    "Torsion.mpn_sec_sub_agrees",
    "Torsion.mpn_sub_mod_exact",
    "Torsion.mpn_cmp_exact",
    "Torsion.mpn_cmp2_exact",
    "Torsion.mpn_cmp_1_exact",
    "Torsion.mpn_strip_zero_exact",
    "Torsion.mpn_sec_compare_exact",
    "Torsion.mpn_cnd_exact",
    "Torsion.mpn_sec_tabselect_exact",
    "Torsion.mpn_neg_exact",
    "Torsion.mpn_reduce_weak_exact",
    "Torsion.mp_wide_agrees"
   ],
   "note": "64-bit limbs; the portable and the 128-bit versions of the limb steps. The inline assembly versions are not modelled."
  },
  {
   "property": "C32",
   "status": "proved",
   "theorems": [
    "Torsion.mpn_mul_1_exact",
    "Torsion.mpn_addmul_1_exact",
    "Torsion.mpn_submul_1_exact",
    "Torsion.mpn_mul_exact",
    "Torsion.mpn_sqr_exact",
    "Torsion.mpn_mulshift_exact"
   ],
   "note": ""
  },
  {
   "property": "C33",
   "status": "proved",
   "theorems": [
    "Torsion.mp_div_exact",
    "Torsion.mp_div_2by1_exact",
    "Torsion.mpn_divmod_1_exact",
    "Torsion.mpn_divmod_exact",
    "Torsion.mpn_divexact_exact",
    "Torsion.mpz_quorem_exact",
    "Torsion.mpz_divmod_exact",
    "Torsion.mpz_quo_rem_div_mod_exact",
    "Torsion.mpz_quo_ui_exact",
    "Torsion.mpz_div_ui_exact",
    "Torsion.mpz_quo_si_exact",
    "Torsion.mpz_quo_word_zero",
    "Torsion.mpz_divexact_exact",
    "Torsion.mpz_divexact_word_exact",
    "Torsion.mpz_divexact_short",
    "Torsion.mpz_divround_word_exact",
    "Torsion.divRound_nearest",
    "Torsion.mpz_divisible_exact"
   ],
   "note": "mpz_divexact_short: an inexact mpz_divexact whose numerator has fewer limbs returns 0 instead of aborting."
  },
  {
   "property": "C34",
   "status": "proved",
   "theorems": [
    "Torsion.mpz_rep_bijective",
    "Torsion.mpz_add_sub_exact",
    "Torsion.mpz_add_sub_word_exact",
    "Torsion.mpz_neg_abs_set_exact",
    "Torsion.mpz_set_get_word_exact",
    "Torsion.mpz_cmp_exact",
    "Torsion.mpz_mul_exact",
    "Torsion.mpz_sqr_exact",
    "Torsion.mpz_mul_word_exact",
    "Torsion.mpz_addmul_exact",
    "Torsion.mpz_addmul_word_exact",
    "Torsion.mpz_pow_ui_exact",
    "Torsion.mpz_fits_exact"
   ],
   "note": ""
  },
  {
   "property": "C35",
   "status": "partial",
   "theorems": [
    "Torsion.bit_determines",
    "Torsion.mpz_logic_exact",
    "Torsion.mpz_logic_word_exact",
    "Torsion.mpn_logic_exact",
    "Torsion.mpz_2exp_exact",
    "Torsion.mpz_2exp_predicates_exact",
    "Torsion.mpz_rounded_exact",
    "Torsion.mpz_tstbit_exact",
    "Torsion.mpz_setbit_partial",
    "Torsion.mpz_setbit_wrong",
    "Torsion.mpz_clrbit_partial",
    "Torsion.mpz_clrbit_wrong",
    "Torsion.mpz_combit_partial",
    "Torsion.mpz_combit_wrong",
    "Torsion.mpz_scan_exact",
    "Torsion.mpn_scan_exact",
    "Torsion.mpz_counts_exact",
    "Torsion.mpn_counts_exact",
    "Torsion.mpz_length_exact",
    "Torsion.mpn_lshift_exact",
    "Torsion.mpn_rshift_exact",
    "Torsion.mpn_bits_exact",
    "Torsion.mpn_window_exact",
    "Torsion.mpn_length_exact"
   ],
   "note": "Everything holds except mpz_setbit, mpz_clrbit and mpz_combit on negative multiples of 2^pos: there the code adds where it should subtract and vice versa. The _partial theorems say exactly when and what happens, the _wrong theorems give witnesses, so the full claim is false for these three functions."
  },
  {
   "property": "C36",
   "status": "proved",
   "theorems": [
    "Torsion.mpn_import_exact",
    "Torsion.mpn_export_exact",
    "Torsion.mpz_import_exact",
    "Torsion.mpz_export_exact",
    "Torsion.mpz_export_import",
    "Torsion.mpz_import_export",
    "Torsion.mpn_sizeinbase_exact",
    "Torsion.mpn_sizeinbase_abort",
    "Torsion.mpn_get_str_exact",
    "Torsion.mpn_get_str_abort",
    "Torsion.mpz_get_str_exact",
    "Torsion.mpz_set_str_exact",
    "Torsion.mpz_set_str_bad_base",
    "Torsion.mpn_set_str_exact",
    "Torsion.parseInt_numeral",
    "Torsion.mpz_str_round_trip",
    "Torsion.mpz_set_str_empty"
   ],
   "note": "Strings without any digit are accepted as zero (mpz_set_str_empty)."
  },
  {
   "property": "C37",
   "status": "proved",
   "theorems": [
    "Torsion.mpn_gcd_exact",
    "Torsion.mpn_gcd_1_exact",
    "Torsion.mpz_gcd_lcm_exact",
    "Torsion.mpz_gcd_lcm_ui_exact",
    "Torsion.mpz_gcdext_exact",
    "Torsion.mpn_gcdext_exact",
    "Torsion.mpn_gcdext_abort",
    "Torsion.mpn_invert_exact",
    "Torsion.mpz_invert_exact",
    "Torsion.mpz_invert_mod_one"
   ],
   "note": "mpz_invert_mod_one: modulo one the inverse zero exists but the function reports failure."
  },
  {
   "property": "C38",
   "status": "proved",
   "theorems": [
    "Torsion.mpn_barrett_reduce_exact",
    "Torsion.mpn_barrett_power_abort",
    "Torsion.mpn_montmul_exact",
    "Torsion.mpn_powm_exact",
    "Torsion.mpn_sec_powm_exact",
    "Torsion.mpn_sec_invert_exact",
    "Torsion.mpz_powm_exact",
    "Torsion.mpz_powm_negative",
    "Torsion.mpz_powm_ui_exact",
    "Torsion.mpz_powm_sec_exact"
   ],
   "note": "Agreement is about values; timing is not modelled. mpn_barrett_power_abort: a modulus B^(n-1) is refused."
  },
  {
   "property": "C39",
   "status": "proved",
   "theorems": [
    "Torsion.mpz_jacobi_exact",
    "Torsion.mpz_legendre_exact",
    "Torsion.mpz_kronecker_exact"
   ],
   "note": ""
  },
  {
   "property": "C40",
   "status": "proved",
   "theorems": [
    "Torsion.mpz_sqrtrem_exact",
    "Torsion.mpn_sqrtrem_exact",
    "Torsion.mpz_perfect_square_exact",
    "Torsion.mpz_rootrem_exact",
    "Torsion.mpz_root_exact",
    "Torsion.mpz_perfect_power_exact",
    "Torsion.mpn_sieve_exact",
    "Torsion.mpz_primorial_exact"
   ],
   "note": ""
  },
  {
   "property": "C41",
   "status": "proved",
   "theorems": [
    "Torsion.pkcs7_pad_exact",
    "Torsion.pkcs7_unpad_iff",
    "Torsion.pkcs7_unpad_reject",
    "Torsion.pkcs7_round_trip",
    "Torsion.pkcs7_injective"
   ],
   "note": ""
  },
  {
   "property": "C42",
   "status": "proved",
   "theorems": [
    "Torsion.ecb_encrypt_exact",
    "Torsion.ecb_decrypt_exact",
    "Torsion.ecb_round_trip",
    "Torsion.cbc_encrypt_exact",
    "Torsion.cbc_decrypt_exact",
    "Torsion.cbc_encrypt_split",
    "Torsion.cbc_decrypt_split",
    "Torsion.cbc_round_trip",
    "Torsion.xts_shift_exact",
    "Torsion.xts_encrypt_exact",
    "Torsion.xts_decrypt_exact",
    "Torsion.xts_encrypt_split",
    "Torsion.xts_decrypt_split",
    "Torsion.xts_round_trip",
    "Torsion.ctr_exact",
    "Torsion.ctr_round_trip",
    "Torsion.ofb_exact",
    "Torsion.ofb_round_trip",
    "Torsion.cfb_encrypt_exact",
    "Torsion.cfb_round_trip",
    "Torsion.cipher_stream_encrypt_exact",
    "Torsion.cipher_stream_decrypt_exact",
    "Torsion.cipher_stream_round_trip"
   ],
   "note": "Over an arbitrary block cipher with 8- or 16-byte blocks."
  },
  {
   "property": "C43",
   "status": "proved",
   "theorems": [
    "Torsion.cipher_stream_init_iff",
    "Torsion.cipher_stream_encrypt_exact",
    "Torsion.cipher_stream_decrypt_exact",
    "Torsion.cipher_stream_round_trip",
    "Torsion.cipher_stream_split",
    "Torsion.cipher_stream_sizes",
    "Torsion.cipher_static_encrypt_exact",
    "Torsion.cipher_static_decrypt_exact",
    "Torsion.padding_kept_within",
    "Torsion.padding_switch",
    "Torsion.padding_switch_only"
   ],
   "note": "Over an arbitrary block cipher (instantiated with each of the library's ciphers by concrete_exact and concrete_round_trip of C45); the authenticated modes are the subject of C44."
  },
  {
   "property": "C44",
   "status": "proved",
   "theorems": [
    "Torsion.aead_init_iff",
    "Torsion.gcm_encrypt_exact",
    "Torsion.gcm_decrypt_exact",
    "Torsion.gcm_decrypt_untagged",
    "Torsion.eax_encrypt_exact",
    "Torsion.eax_decrypt_exact",
    "Torsion.eax_decrypt_untagged",
    "Torsion.ccm_set_iff",
    "Torsion.ccm_encrypt_exact",
    "Torsion.ccm_decrypt_exact",
    "Torsion.ccm_decrypt_untagged",
    "Torsion.ccm_nonce_alias",
    "Torsion.aead_round_trip"
   ],
   "note": "Over an arbitrary block cipher. CCM for at most the announced number of bytes (the library does not enforce equality); ccm_nonce_alias: nonces agreeing up to trailing zeros are the same nonce for short messages."
  },
  {
   "property": "C45",
   "status": "proved",
   "theorems": [
    "Torsion.cipher_init_exact",
    "Torsion.cipher_sizes_exact",
    "Torsion.cipher_round_trip",
    "Torsion.cipher_injective",
    "Torsion.concrete_exact",
    "Torsion.concrete_round_trip"
   ],
   "note": ""
  },
  {
   "property": "C46",
   "status": "proved",
   "theorems": [
    "Torsion.rsa_private_op_exact",
    "Torsion.rsa_private_op_checked",
    "Torsion.rsa_encrypt_decrypt",
    "Torsion.rsa_oaep_roundtrip",
    "Torsion.rsa_sign_verify",
    "Torsion.rsa_sign_verify_pss"
   ],
   "note": "With the Chinese remainders (which is what every caller uses) the result is checked for any accepted key; without them the check is absent from the code, and the theorem needs prime factors."
  },
  {
   "property": "C47",
   "status": "proved",
   "theorems": [
    "Torsion.rsa_decrypt_exact",
    "Torsion.rsa_decrypt_key_exact",
    "Torsion.rsa_decrypt_oaep_exact",
    "Torsion.rsa_verify_iff"
   ],
   "note": ""
  },
  {
   "property": "C48",
   "status": "proved",
   "theorems": [
    "Torsion.dsa_sign_verify",
    "Torsion.dsa_sign_ends",
    "Torsion.dsa_sign_example"
   ],
   "note": "For an order which is prime (the library does not check primality)."
  },
  {
   "property": "C49",
   "status": "proved",
   "theorems": [
    "Torsion.ecdsa_verify_exact",
    "Torsion.ecdsa_sign_exact",
    "Torsion.ecdsa_sign_deterministic",
    "Torsion.ecdsa_sign_verify",
    "Torsion.ecdsa_sign_zero",
    "Torsion.ecdsa_sign_zero_happens",
    "Torsion.ecdsa_recover_exact",
    "Torsion.ecdsa_recover_verifies",
    "Torsion.ecdsa_recover_complete"
   ],
   "note": "The generator of the nonces is arbitrary (in the code HMAC-DRBG, C28). The code returns s = 0 instead of retrying."
  },
  {
   "property": "C50",
   "status": "proved",
   "theorems": [
    "Torsion.wei_xofs_ok",
    "Torsion.bip340_hash_exact",
    "Torsion.bip340_sign_exact",
    "Torsion.bip340_verify_exact",
    "Torsion.bip340_sign_verify",
    "Torsion.bipschnorr_support_exact",
    "Torsion.bipschnorr_sign_exact",
    "Torsion.bipschnorr_verify_exact",
    "Torsion.bipschnorr_sign_verify"
   ],
   "note": ""
  },
  {
   "property": "C51",
   "status": "proved",
   "theorems": [
    "Torsion.wge_dbl_exact",
    "Torsion.wge_add_exact",
    "Torsion.wge_sub_exact",
    "Torsion.wge_neg_exact",
    "Torsion.jge_dbl_exact",
    "Torsion.jge_add_exact",
    "Torsion.jge_sub_exact",
    "Torsion.jge_mixed_add_exact",
    "Torsion.jge_mixed_sub_exact",
    "Torsion.jge_neg_exact",
    "Torsion.jge_convert_exact",
    "Torsion.wge_set_jge_all_exact",
    "Torsion.jge_equal_exact",
    "Torsion.jge_equal_x_exact",
    "Torsion.jge_select_exact",
    "Torsion.wge_validate_exact",
    "Torsion.wge_set_xy_exact",
    "Torsion.jge_validate_exact",
    "Torsion.wge_fixed_points_exact",
    "Torsion.naf_points_exact",
    "Torsion.jsf_points_exact",
    "Torsion.endo_beta_exact"
   ],
   "note": "Over any field of characteristic other than two (the limb-level field arithmetic in src/fields/ is not modelled)."
  },
  {
   "property": "C52",
   "status": "proved",
   "theorems": [
    "Torsion.sc_naf_exact",
    "Torsion.sc_naf_abort",
    "Torsion.sc_jsf_exact",
    "Torsion.sc_jsf_abort",
    "Torsion.sc_minimize_exact"
   ],
   "note": "Scalars are numbers; the limb code below is C65."
  },
  {
   "property": "C53",
   "status": "proved",
   "theorems": [
    "Torsion.siphash_sum_spec",
    "Torsion.siphash_word_spec",
    "Torsion.siphash_mod_spec",
    "Torsion.sip_mulhi_onto"
   ],
   "note": ""
  },
  {
   "property": "C54",
   "status": "proved",
   "theorems": [
    "Torsion.eb2k_derive_spec",
    "Torsion.pgpdf_salted_spec",
    "Torsion.pgpdf_simple_spec",
    "Torsion.pgpdf_iterated_spec",
    "Torsion.pgpdf_iterated_empty",
    "Torsion.scrypt_derive_spec"
   ],
   "note": "pgpdf_iterated_empty: with empty salt and passphrase the loop does not end."
  },
  {
   "property": "C55",
   "status": "proved",
   "theorems": [
    "Torsion.mpz_set_compact_exact",
    "Torsion.mpz_get_compact_exact",
    "Torsion.mpz_compact_roundtrip"
   ],
   "note": ""
  },
  {
   "property": "C56",
   "status": "proved",
   "theorems": [
    "Torsion.aes_fips197",
    "Torsion.aes_inverse_sbox"
   ],
   "note": ""
  },
  {
   "property": "C57",
   "status": "proved",
   "theorems": [
    "Torsion.serpent_sboxes_exact",
    "Torsion.idea_mul_exact"
   ],
   "note": ""
  },
  {
   "property": "C58",
   "status": "proved",
   "theorems": [
    "Torsion.rsa_sign_exact",
    "Torsion.rsa_verify_iff",
    "Torsion.rsa_sign_verify",
    "Torsion.rsa_verify_pss_iff",
    "Torsion.rsa_sign_verify_pss"
   ],
   "note": ""
  },
  {
   "property": "C59",
   "status": "proved",
   "theorems": [
    "Torsion.rsa_pubkey_verify_iff",
    "Torsion.rsa_privkey_verify_iff",
    "Torsion.rsa_keys_unique",
    "Torsion.rsa_pubkey_create_exact",
    "Torsion.rsa_key_roundtrip",
    "Torsion.rsa_privkey_import_sound",
    "Torsion.rsa_privkey_import_factors"
   ],
   "note": ""
  },
  {
   "property": "C60",
   "status": "proved",
   "theorems": [
    "Torsion.rsa_veil_unveil"
   ],
   "note": ""
  },
  {
   "property": "C61",
   "status": "proved",
   "theorems": [
    "Torsion.mpz_urandomm_exact",
    "Torsion.mpz_urandomm_unbiased",
    "Torsion.mpz_urandomb_exact"
   ],
   "note": ""
  },
  {
   "property": "C62",
   "status": "proved",
   "theorems": [
    "Torsion.dsa_sign_exact",
    "Torsion.dsa_sign_deterministic",
    "Torsion.dsa_sign_refuses",
    "Torsion.dsa_verify_iff"
   ],
   "note": ""
  },
  {
   "property": "C63",
   "status": "proved",
   "theorems": [
    "Torsion.dsa_params_verify_iff",
    "Torsion.dsa_pubkey_verify_iff",
    "Torsion.dsa_privkey_verify_iff",
    "Torsion.dsa_keys_unique",
    "Torsion.dsa_key_parts",
    "Torsion.dsa_pub_parts",
    "Torsion.dsa_key_roundtrip",
    "Torsion.dsa_key_of_secret",
    "Torsion.dsa_privkey_create_exact",
    "Torsion.dsa_privkey_import_recovers",
    "Torsion.dsa_derive_exact",
    "Torsion.dsa_derive_agree",
    "Torsion.dsa_derive_refuses",
    "Torsion.dsa_sig_export_exact",
    "Torsion.dsa_sig_import_sound"
   ],
   "note": ""
  },
  {
   "property": "C64",
   "status": "proved",
   "theorems": [
    "Torsion.wei_init_exact",
    "Torsion.wei_randomize_exact",
    "Torsion.wei_mul_g_exact",
    "Torsion.wei_mul_exact",
    "Torsion.wei_mul_double_exact",
    "Torsion.wei_mul_multi_exact"
   ],
   "note": "Over any field of characteristic other than two; scalars are numbers below the order."
  },
  {
   "property": "C65",
   "status": "proved",
   "theorems": [
    "Torsion.scDefs_ok",
    "Torsion.scalar_field_init_exact",
    "Torsion.sc_add_sub_neg_exact",
    "Torsion.sc_mul_exact",
    "Torsion.sc_mulshift_exact",
    "Torsion.sc_predicates_exact",
    "Torsion.sc_minimize_limbs_exact",
    "Torsion.sc_import_exact",
    "Torsion.sc_import_weak_exact",
    "Torsion.sc_export_exact",
    "Torsion.sc_set_fe_exact",
    "Torsion.sc_pow_exact",
    "Torsion.sc_chains_exact",
    "Torsion.sc_invert_exact",
    "Torsion.sc_invert_var_exact",
    "Torsion.sc_random_exact",
    "Torsion.scDefs_prime"
   ],
   "note": ""
  },
  {
   "property": "C66",
   "status": "proved",
   "theorems": [
    "Torsion.fe_invert_exact",
    "Torsion.fe_sqrt_exact",
    "Torsion.p224_fe_sqrt_var_exact",
    "Torsion.fe_is_square_exact",
    "Torsion.fe_isqrt_exact",
    "Torsion.p25519_fe_isqrt_nonsquare",
    "Torsion.fieldCodes_prime",
    "Torsion.fe_roots_exact"
   ],
   "note": "The multiplication of the field is the mathematical one (the limb code in src/fields/ is not modelled)."
  },
  {
   "property": "C67",
   "status": "proved",
   "theorems": [
    "Torsion.weiDefs_prime",
    "Torsion.weiDefs_curve",
    "Torsion.endo_secp256k1_exact",
    "Torsion.wei_create_exact",
    "Torsion.wei_named_mul_exact"
   ],
   "note": "The multiplication of the field is the mathematical one (the limb code in src/fields/ is not modelled)."
  },
  {
   "property": "C68",
   "status": "proved",
   "theorems": [
    "Torsion.wei_curve_exact",
    "Torsion.wge_import_exact",
    "Torsion.sec1_unique",
    "Torsion.wge_roundtrip",
    "Torsion.ecdsa_privkey_exact",
    "Torsion.ecdsa_privkey_ops_exact",
    "Torsion.ecdsa_pubkey_create_exact",
    "Torsion.ecdsa_pubkey_convert_exact",
    "Torsion.ecdsa_pubkey_import_exact",
    "Torsion.ecdsa_pubkey_tweak_exact",
    "Torsion.ecdsa_pubkey_sum_exact",
    "Torsion.ecdsa_derive_exact",
    "Torsion.ecdsa_derive_agree",
    "Torsion.ecdsa_tweak_commutes"
   ],
   "note": "Scalars are numbers (limbs: C65), field elements residues (limb code not modelled)."
  },
  {
   "property": "C69",
   "status": "proved",
   "theorems": [
    "Torsion.ecdsa_malleable",
    "Torsion.ecdsa_normalize_exact",
    "Torsion.ecdsa_normalize_verify",
    "Torsion.ecdsa_sig_export_exact",
    "Torsion.ecdsa_sig_import_exact",
    "Torsion.ecdsa_der_roundtrip"
   ],
   "note": ""
  },
  {
   "property": "C70",
   "status": "proved",
   "theorems": [
    "Torsion.xonly_import_exact",
    "Torsion.xonly_iff",
    "Torsion.bip340_pubkey_create_exact",
    "Torsion.bip340_privkey_export_exact",
    "Torsion.bip340_privkey_tweak_add_exact",
    "Torsion.bip340_pubkey_export_exact",
    "Torsion.bip340_pubkey_import_exact",
    "Torsion.bip340_pubkey_tweak_exact",
    "Torsion.bip340_tweak_check_exact",
    "Torsion.bip340_pubkey_sum_exact",
    "Torsion.bip340_derive_exact",
    "Torsion.bip340_derive_agree",
    "Torsion.bip340_tweak_commutes"
   ],
   "note": ""
  },
  {
   "property": "C71",
   "status": "proved",
   "theorems": [
    "Torsion.coeffs_deterministic",
    "Torsion.bip340_batch_exact",
    "Torsion.bip340_batch_complete",
    "Torsion.bip340_batch_single",
    "Torsion.bip340_batch_one_bad",
    "Torsion.batch_coefficient_unique",
    "Torsion.bipschnorr_batch_exact",
    "Torsion.bipschnorr_batch_complete",
    "Torsion.bipschnorr_batch_one_bad"
   ],
   "note": "The generator of the coefficients is arbitrary."
  },
  {
   "property": "C72",
   "status": "proved",
   "theorems": [
    "Torsion.mont_field_prime",
    "Torsion.mont_constants",
    "Torsion.mont_init_succeeds",
    "Torsion.mont_curve_exact",
    "Torsion.mont_twist_exact",
    "Torsion.mont_torsion_exact"
   ],
   "note": "The multiplication of the field is the mathematical one (the limb code in src/fields/ is not modelled)."
  },
  {
   "property": "C73",
   "status": "proved",
   "theorems": [
    "Torsion.ecdh_pubkey_point",
    "Torsion.ecdh_derive_exact",
    "Torsion.ecdh_pubkey_create_exact",
    "Torsion.ecdh_agreement",
    "Torsion.ecdh_privkey_generate_exact",
    "Torsion.ecdh_privkey_export_exact",
    "Torsion.ecdh_privkey_import_exact",
    "Torsion.x25519_create_succeeds",
    "Torsion.x448_create_aborts_iff",
    "Torsion.x448_create_aborts"
   ],
   "note": "X448: the scalar 4n makes ecdh_pubkey_create abort."
  },
  {
   "property": "C74",
   "status": "proved",
   "theorems": [
    "Torsion.ecdh_derive_zero",
    "Torsion.x25519_small_numbers",
    "Torsion.x25519_derive_fails_iff",
    "Torsion.x448_derive_fails_iff"
   ],
   "note": ""
  },
  {
   "property": "C75",
   "status": "proved",
   "theorems": [
    "Torsion.ecdh_pubkey_verify_exact",
    "Torsion.ecdh_pubkey_is_small_exact",
    "Torsion.ecdh_pubkey_has_torsion_exact",
    "Torsion.ecdh_pubkey_export_exact",
    "Torsion.ecdh_pubkey_import_exact"
   ],
   "note": ""
  },
  {
   "property": "C76",
   "status": "proved",
   "theorems": [
    "Torsion.elligator_nonsquare",
    "Torsion.mont_from_uniform_exact",
    "Torsion.mont_to_uniform_sound",
    "Torsion.mont_to_uniform_complete",
    "Torsion.mont_from_hash_exact",
    "Torsion.mont_to_hash_sound",
    "Torsion.mont_to_hash_undefined",
    "Torsion.mont_to_hash_undefined_happens",
    "Torsion.ecdh_from_uniform_exact",
    "Torsion.ecdh_to_uniform_sound",
    "Torsion.ecdh_from_hash_exact",
    "Torsion.ecdh_to_hash_sound"
   ],
   "note": "The generator is arbitrary. The `continue` in mont_point_to_hash reads an uninitialised variable when the first point has the ordinate zero."
  },
  {
   "property": "C77",
   "status": "proved",
   "theorems": [
    "Torsion.xge_validate_exact",
    "Torsion.xge_arith_exact",
    "Torsion.xge_normalize_exact",
    "Torsion.edwards_init_exact",
    "Torsion.edwards_randomize_exact",
    "Torsion.edwards_mul_g_exact",
    "Torsion.edwards_mul_exact",
    "Torsion.edwards_mul_scalar_exact",
    "Torsion.edwards_mul_double_exact",
    "Torsion.edwards_mul_multi_exact",
    "Torsion.xge_torsion_exact"
   ],
   "note": "The multiplication of the field is the mathematical one (the limb code in src/fields/ is not modelled)."
  },
  {
   "property": "C78",
   "status": "proved",
   "theorems": [
    "Torsion.xge_export_exact",
    "Torsion.xge_import_exact",
    "Torsion.eddsa_privkey_exact",
    "Torsion.eddsa_pubkey_from_scalar_exact",
    "Torsion.eddsa_privkey_grind_exact",
    "Torsion.eddsa_scalar_ops_exact",
    "Torsion.eddsa_pubkey_tests_exact",
    "Torsion.eddsa_pubkey_add_exact",
    "Torsion.eddsa_pubkey_combine_exact",
    "Torsion.eddsa_pubkey_tweak_exact",
    "Torsion.eddsa_tweak_agree",
    "Torsion.eddsa_pubkey_export_exact",
    "Torsion.eddsa_pubkey_import_exact",
    "Torsion.eddsa_tweak_mul_ed1174_differs"
   ],
   "note": ""
  },
  {
   "property": "C79",
   "status": "proved",
   "theorems": [
    "Torsion.eddsa_sign_exact",
    "Torsion.eddsa_sign_tweak_exact",
    "Torsion.eddsa_verify_exact",
    "Torsion.eddsa_verify_single_exact",
    "Torsion.eddsa_signed_valid",
    "Torsion.eddsa_sign_verify",
    "Torsion.eddsa_verify_agree",
    "Torsion.eddsa_signature_unique"
   ],
   "note": ""
  },
  {
   "property": "C80",
   "status": "proved",
   "theorems": [
    "Torsion.eddsa_batch_exact",
    "Torsion.eddsa_batch_complete",
    "Torsion.eddsa_batch_one_bad",
    "Torsion.coeffs_deterministic"
   ],
   "note": "The generator of the coefficients is arbitrary."
  },
  {
   "property": "C81",
   "status": "proved",
   "theorems": [
    "Torsion.eddsa_derive_with_scalar_exact",
    "Torsion.eddsa_derive_exact",
    "Torsion.eddsa_derive_agree"
   ],
   "note": ""
  },
  {
   "property": "C82",
   "status": "proved",
   "theorems": [
    "Torsion.edwards_elligator_setting",
    "Torsion.edwards_from_uniform_exact",
    "Torsion.edwards_to_uniform_sound",
    "Torsion.edwards_to_uniform_complete",
    "Torsion.edwards_from_hash_exact",
    "Torsion.edwards_to_hash_sound",
    "Torsion.edwards_to_hash_undefined",
    "Torsion.edwards_to_hash_undefined_happens",
    "Torsion.eddsa_from_uniform_exact",
    "Torsion.eddsa_to_uniform_sound",
    "Torsion.eddsa_from_hash_exact",
    "Torsion.eddsa_to_hash_sound",
    "Torsion.eddsa_to_uniform_wrong_ed1174"
   ],
   "note": "The generator is arbitrary. On Ed1174 -A is a square, so that to_uniform reports success for points without that preimage."
  },
  {
   "property": "C83",
   "status": "proved",
   "theorems": [
    "Torsion.md2_compression",
    "Torsion.md4_compression",
    "Torsion.md5_compression",
    "Torsion.ripemd160_compression",
    "Torsion.sha1_compression",
    "Torsion.sha256_compression",
    "Torsion.sha512_compression",
    "Torsion.blake2b_compression",
    "Torsion.blake2s_compression",
    "Torsion.keccak_permutation",
    "Torsion.whirlpool_compression",
    "Torsion.gost94_compression",
    "Torsion.sha512_constants",
    "Torsion.sha512_initial",
    "Torsion.root_constants"
   ],
   "note": "The table T of MD5 (sines), the digits of pi behind the MD2 table and the boxes of Whirlpool and GOST are literals of the specification."
  },
  {
   "property": "C84",
   "status": "proved",
   "theorems": [
    "Torsion.eddsa_pubkey_convert_exact",
    "Torsion.ed448_convert_torsion",
    "Torsion.x25519_converted",
    "Torsion.x25519_derive_agrees",
    "Torsion.x25519_keys_convert",
    "Torsion.x25519_pubkey_convert_exact",
    "Torsion.x25519_create_convert",
    "Torsion.x25519_convert_round_trip",
    "Torsion.x448_converted",
    "Torsion.x448_derive_agrees",
    "Torsion.x448_keys_convert",
    "Torsion.x448_pubkey_convert_exact",
    "Torsion.x448_create_convert",
    "Torsion.x448_convert_round_trip"
   ],
   "note": "The isogeny of degree four is proved compatible with multiplication by a differential argument, without its ordinate."
  },
  {
   "property": "C85",
   "status": "proved",
   "theorems": [
    "Torsion.ristretto_init_exact",
    "Torsion.ristretto_group_exact",
    "Torsion.rge_export_exact",
    "Torsion.rge_import_exact",
    "Torsion.rge_equal_exact",
    "Torsion.ristretto_privkey_exact",
    "Torsion.ristretto_privkey_import_exact",
    "Torsion.ristretto_pubkey_create_exact",
    "Torsion.ristretto_pubkey_verify_exact",
    "Torsion.ristretto_pubkey_add_exact",
    "Torsion.ristretto_pubkey_combine_exact",
    "Torsion.ristretto_pubkey_tweak_exact",
    "Torsion.ristretto_derive_agree",
    "Torsion.ristretto_pubkey_grind_undefined",
    "Torsion.rge_export_batch_exact",
    "Torsion.rge_export_batch_wrong_ed448"
   ],
   "note": "The code is that of RFC 9496 on Ed25519 (its generator is an example). The functions that generate random keys are in C99. rge_export_batch_exact is about ed25519 and ed1174; rge_export_batch_wrong_ed448 says that the function, which nothing calls, is wrong on ed448."
  },
  {
   "property": "C86",
   "status": "proved",
   "theorems": [
    "Torsion.ristretto_elligator_setting",
    "Torsion.ristretto_from_uniform_exact",
    "Torsion.ristretto_to_uniform_sound",
    "Torsion.ristretto_to_uniform_complete",
    "Torsion.ristretto_from_hash_exact",
    "Torsion.ristretto_to_hash_sound",
    "Torsion.ristretto_pubkey_from_uniform_exact",
    "Torsion.ristretto_pubkey_to_uniform_sound",
    "Torsion.ristretto_pubkey_to_uniform_complete",
    "Torsion.ristretto_pubkey_to_hash_sound",
    "Torsion.ristretto_from_uniform_wrong_ed448",
    "Torsion.ristretto_from_uniform_wrong_ed448_happens",
    "Torsion.ristretto_to_uniform_wrong_ed1174"
   ],
   "note": "Stated as the code is: the two exceptions (zero on Ed1174, everything on Ed448) are theorems of their own. That to_hash ends is a matter of its random bytes; the model has fuel."
  },
  {
   "property": "C87",
   "status": "proved",
   "theorems": [
    "Torsion.wei_map_setting",
    "Torsion.wei_mapped_total",
    "Torsion.wei_from_uniform_exact",
    "Torsion.wei_to_uniform_sound",
    "Torsion.wei_to_uniform_complete",
    "Torsion.wei_from_hash_exact",
    "Torsion.wei_to_hash_sound",
    "Torsion.ecdsa_from_uniform_exact",
    "Torsion.ecdsa_to_uniform_exact",
    "Torsion.ecdsa_from_hash_exact",
    "Torsion.ecdsa_to_hash_sound",
    "Torsion.bip340_from_uniform_exact",
    "Torsion.bip340_to_uniform_exact",
    "Torsion.bip340_from_hash_exact",
    "Torsion.bip340_to_hash_sound",
    "Torsion.wei_to_uniform_p224_p256_p521",
    "Torsion.wei_to_uniform_zero_wrong",
    "Torsion.wei_to_uniform_p192_p384_wrong",
    "Torsion.wei_to_uniform_root_wrong"
   ],
   "note": "The exceptions at zero are theorems of their own. That to_hash ends is a matter of its random bytes; the model has fuel."
  },
  {
   "property": "C88",
   "status": "proved",
   "theorems": [
    "Torsion.mpz_factorials_exact",
    "Torsion.mpz_binomials_exact",
    "Torsion.mpz_fibonacci_exact",
    "Torsion.mpz_fibonacci_predecessor_of_zero",
    "Torsion.mpz_remove_exact"
   ],
   "note": "The predecessors at index zero are a theorem of their own."
  },
  {
   "property": "C89",
   "status": "proved",
   "theorems": [
    "Torsion.mpz_sqrtm_exact",
    "Torsion.mpz_sqrtm_sound",
    "Torsion.mpz_sqrtm_refuses",
    "Torsion.mpz_sqrtm_wrong_root",
    "Torsion.mpz_sqrtm_never_ends",
    "Torsion.mpz_sqrtpq_exact"
   ],
   "note": "The loops have fuel; p rounds suffice for a prime p, and no fuel does for a square."
  },
  {
   "property": "C90",
   "status": "proved",
   "theorems": [
    "Torsion.mpz_mr_prime_p_exact",
    "Torsion.mpz_mr_prime_p_small",
    "Torsion.mpz_mr_prime_p_prime",
    "Torsion.strong_liars_lt_half",
    "Torsion.mpz_lucas_prime_p_exact",
    "Torsion.mpz_lucas_prime_p_small",
    "Torsion.mpz_lucas_prime_p_prime",
    "Torsion.mpz_probab_prime_p_small",
    "Torsion.mpz_probab_prime_p_exact",
    "Torsion.mpz_probab_prime_p_passed",
    "Torsion.mpz_probab_prime_p_prime",
    "Torsion.mpz_probab_prime_p_wrong"
   ],
   "note": "The bound for composites is one half for each round, not the best one of a quarter. Rejected primes exist by Dirichlet's theorem and quadratic reciprocity."
  },
  {
   "property": "C91",
   "status": "proved",
   "theorems": [
    "Torsion.mpz_nextprime_exact",
    "Torsion.mpz_nextprime_small",
    "Torsion.mpz_findprime_odd",
    "Torsion.mpz_findprime_wrong",
    "Torsion.mpz_randprime_exact",
    "Torsion.randprime_product"
   ],
   "note": "Stated as the code is: mpz_findprime looks at odd numbers only, which mpz_findprime_wrong shows for 2. That the searches end depends on the generator; the model has fuel."
  },
  {
   "property": "C92",
   "status": "proved",
   "theorems": [
    "Torsion.rsa_privkey_generate_fail",
    "Torsion.rsa_privkey_generate_exact"
   ],
   "note": "That the search ends depends on the generator; the model has fuel. Passing the test for primes is BailliePSW of C90."
  },
  {
   "property": "C93",
   "status": "proved",
   "theorems": [
    "Torsion.dsa_generate_fail",
    "Torsion.dsa_generated_ok",
    "Torsion.dsa_params_generate_exact",
    "Torsion.dsa_privkey_generate_exact"
   ],
   "note": "That the search ends depends on the generator; the model has fuel. Passing the test for primes is BailliePSW of C90."
  },
  {
   "property": "C94",
   "status": "proved",
   "theorems": [
    "Torsion.blowfish_init_exact",
    "Torsion.blowfish_encrypt_exact",
    "Torsion.blowfish_key_prefix",
    "Torsion.blowfish_key_repeat"
   ],
   "note": "Decryption as the inverse is in C45. The digits of pi are proved over the reals (BlowfishPi.lean)."
  },
  {
   "property": "C95",
   "status": "proved",
   "theorems": [
    "Torsion.bcrypt_hash192_exact",
    "Torsion.bcrypt_derive_taken",
    "Torsion.bcrypt_derive_exact",
    "Torsion.bcrypt_generate_exact",
    "Torsion.bcrypt_decode_exact",
    "Torsion.bcrypt_verify_exact",
    "Torsion.bcrypt_roundtrip",
    "Torsion.bcrypt_a_wrap_empty",
    "Torsion.bcrypt_a_wrap",
    "Torsion.bcrypt_72",
    "Torsion.bcrypt_check_exact",
    "Torsion.bcrypt_check_long_empty"
   ],
   "note": "Stated as the code is for version a."
  },
  {
   "property": "C96",
   "status": "proved",
   "theorems": [
    "Torsion.bcrypt_pbkdf_exact"
   ],
   "note": ""
  },
  {
   "property": "C97",
   "status": "proved",
   "theorems": [
    "Torsion.limb_add",
    "Torsion.limb_sub",
    "Torsion.limb_neg",
    "Torsion.limb_carry",
    "Torsion.limb_mul",
    "Torsion.limb_sqr",
    "Torsion.limb_mul_small",
    "Torsion.limb_mul_curve",
    "Torsion.limb_set_word",
    "Torsion.limb_from_bytes",
    "Torsion.limb_to_bytes",
    "Torsion.limb_select",
    "Torsion.limb_is_zero",
    "Torsion.limb_equal",
    "Torsion.limb_is_odd",
    "Torsion.limb_neg_cond",
    "Torsion.limb_set_odd"
   ],
   "note": "The programs are written from the text of the code by tools/fiat.py. The fields in Montgomery representation (P-224, P-256, P-384) are not covered; the 32-bit code is in C101."
  },
  {
   "property": "C98",
   "status": "proved",
   "theorems": [
    "Torsion.limbs_jge_dbl_var",
    "Torsion.limbs_jge_addsub_var",
    "Torsion.limbs_jge_mixed_addsub_var",
    "Torsion.limbs_jge_add",
    "Torsion.limbs_jge_mixed_add",
    "Torsion.limbs_pge_dbl",
    "Torsion.limbs_pge_ladder",
    "Torsion.limbs_xge_dbl",
    "Torsion.limbs_xge_add_a",
    "Torsion.limbs_xge_sub_a",
    "Torsion.limbs_xge_add_m1",
    "Torsion.limbs_xge_sub_m1",
    "Torsion.limbs_tables"
   ],
   "note": "The statements are written from the text of the code by tools/formula.py. Coincidences of arguments are given by layouts: one representative for each way in which arguments may be the same variable."
  },
  {
   "property": "C99",
   "status": "proved",
   "theorems": [
    "Torsion.ecdsa_privkey_generate_exact",
    "Torsion.ecdsa_pubkey_grind_exact",
    "Torsion.ecdsa_pubkey_grind_ends",
    "Torsion.ecdsa_privkey_grind_exact",
    "Torsion.bip340_pubkey_grind_exact",
    "Torsion.bip340_privkey_grind_exact",
    "Torsion.ecdh_privkey_grind_exact",
    "Torsion.x25519_privkey_grind_safe",
    "Torsion.ristretto_privkey_generate_exact",
    "Torsion.ristretto_privkey_grind_undefined"
   ],
   "note": "Rounds of the loops are counted by fuel; running out of it is the outcome spin, and the theorems say when this happens."
  },
  {
   "property": "C100",
   "status": "proved",
   "theorems": [
    "Torsion.murmur3_sum_exact",
    "Torsion.murmur3_tweak_exact",
    "Torsion.murmur3_seed_inj",
    "Torsion.murmur3_tweak_inj",
    "Torsion.murmur3_word_inj",
    "Torsion.murmur3_reads_len"
   ],
   "note": ""
  },
  {
   "property": "C101",
   "status": "proved",
   "theorems": [
    "Torsion.limb32_add",
    "Torsion.limb32_sub",
    "Torsion.limb32_neg",
    "Torsion.limb32_carry",
    "Torsion.limb32_mul",
    "Torsion.limb32_sqr",
    "Torsion.limb32_mul_small",
    "Torsion.limb32_mul_curve",
    "Torsion.limb32_set_word",
    "Torsion.limb32_from_bytes",
    "Torsion.limb32_to_bytes",
    "Torsion.limb32_select",
    "Torsion.limb32_is_zero",
    "Torsion.limb32_equal",
    "Torsion.limb32_is_odd",
    "Torsion.limb32_neg_cond",
    "Torsion.limb32_set_odd",
    "Torsion.limb32_same_fields",
    "Torsion.limb32_bounds"
   ],
   "note": "The programs are written from the text of the code by tools/fiat.py. The fields p448 and p521 in 32-bit code are not covered."
  },
  {
   "property": "C102",
   "status": "proved",
   "theorems": [
    "Torsion.limbs32_jge_dbl_var",
    "Torsion.limbs32_jge_addsub_var",
    "Torsion.limbs32_jge_mixed_addsub_var",
    "Torsion.limbs32_jge_add",
    "Torsion.limbs32_jge_mixed_add",
    "Torsion.limbs32_pge_dbl",
    "Torsion.limbs32_pge_ladder",
    "Torsion.limbs32_xge_dbl",
    "Torsion.limbs32_xge_add_a",
    "Torsion.limbs32_xge_sub_a",
    "Torsion.limbs32_xge_add_m1",
    "Torsion.limbs32_xge_sub_m1",
    "Torsion.limbs32_tables"
   ],
   "note": "The statements are those of C98. The fields p448 and p521 in 32-bit code are not covered."
  }
 ]
}
