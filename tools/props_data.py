ALLIN = "The domain is infinite (every byte string of every length); tests sample a handful of vectors."
ALLHIST = "Ranges over every way of splitting the same data into calls; the number of splittings is exponential in the length and unbounded."

prop("C01","Base16 encode/decode round trip",
 "For every byte string b, base16_decode(base16_encode(b)) succeeds and yields b; the same holds for the reversed (little-endian) variant base16le, whose text is the hex of the reversed bytes.",
 "every byte string of every length", ALLIN,
 ["src/encoding.c: base16_encode, base16_decode, base16le_encode, base16le_decode"])
prop("C02","Base16 acceptance is exactly the hex strings",
 "base16_decode accepts a string iff its length is even and every character is one of 0-9a-fA-F; on acceptance, encoding the result gives back the input with letters lower-cased. base16_test returns 1 exactly when base16_decode succeeds.",
 "every character string", ALLIN, ["src/encoding.c: base16_decode, base16_test, base16_test0"])
prop("C03","Base32 / Base32-hex encode/decode round trip",
 "For every byte string b and each padding choice, base32_decode(base32_encode(b,pad),pad) succeeds with b; same for base32hex.",
 "every byte string, both alphabets, padding on and off", ALLIN,
 ["src/encoding.c: base32_encode0, base32_decode0"])
prop("C04","Base32 decoding is canonical",
 "If base32_decode(s, unpad) succeeds with b then base32_encode(b, unpad) is s with letters lower-cased: no non-zero trailing bits, no missing, extra or misplaced padding is accepted. base32_test agrees with base32_decode on every string.",
 "every character string, both alphabets, padding on and off", ALLIN,
 ["src/encoding.c: base32_decode0, base32_test0"])
prop("C05","Base64 / Base64-URL encode/decode round trip",
 "For every byte string b, base64_decode(base64_encode(b)) succeeds with b; same for base64url (unpadded).",
 "every byte string", ALLIN, ["src/encoding.c: base64_encode0, base64_decode0, base64_check_padding"])
prop("C06","Base64 decoding is canonical and matches base64_test",
 "If base64_decode(s) succeeds with b then base64_encode(b) = s exactly (so two different strings never decode to the same bytes); same for base64url. base64_test / base64url_test return 1 exactly when the corresponding decode succeeds.",
 "every character string", ALLIN, ["src/encoding.c: base64_decode, base64_test, base64url_decode, base64url_test"])
prop("C07","Encoding and decoding stay inside the advertised buffer sizes",
 "The number of characters produced by baseN_encode equals baseN_encode_size; the number of bytes ever stored by baseN_decode, including on inputs that are finally rejected, is at most baseN_decode_size of the same input, and equals it on success; the header macros BASE*_ENCODE_SIZE / BASE*_DECODE_SIZE are upper bounds.",
 "every input, valid or not, of every length", "Buffer overrun on some malformed input can only be excluded by covering all inputs.",
 ["src/encoding.c: base16_*, base32_*, base64_* size functions","include/torsion/encoding.h"])
prop("C08","Base58 round trip, canonicity and workspace safety",
 "For every byte string b below the length limit, base58_encode succeeds with a string s, base58_decode(s) succeeds with b, and conversely if base58_decode(s)=b then base58_encode(b)=s. The heap workspace (srclen*138/100+1 and srclen*733/1000+1 bytes) never overflows: the final carry is always zero. Leading zero bytes correspond to leading '1's. Output sizes stay within BASE58_*_SIZE.",
 "every byte string / character string", ALLIN+" The workspace-size claim depends on log_58(256) < 1.38 for every length.",
 ["src/encoding.c: base58_encode, base58_decode, base58_test"])
prop("C09","Bech32 serialise/deserialise and segwit encode/decode round trip",
 "Whenever bech32_serialize accepts (hrp, data, checksum constant) the resulting string is deserialised to the same hrp and data under the same constant; whenever bech32_encode accepts (hrp, version, program), bech32_decode returns the same triple.",
 "every hrp, data, version, program and 30-bit checksum constant", ALLIN,
 ["src/encoding.c: bech32_serialize, bech32_deserialize, bech32_encode, bech32_decode"])
prop("C10","Bech32 decoding is canonical",
 "If bech32_deserialize accepts s with (hrp,data), then bech32_serialize(hrp,data) is s lower-cased; mixed-case strings are always rejected; hence one address string per (hrp,version,program) up to case.",
 "every NUL-terminated string and checksum constant", ALLIN,
 ["src/encoding.c: bech32_deserialize, bech32_decode, bech32_convert_bits"])
prop("C11","Bech32 checksum detects errors",
 "Two different strings of equal length accepted by bech32_deserialize with the same prefix (and the separator in the same place) differ, up to case, in at least five characters; and they cannot differ only inside a window of six consecutive characters. So up to four substituted data characters, or any burst confined to six characters, are detected.",
 "every valid string, every error position and value", "The number of (string, error) pairs is astronomically large; the claim is about a linear code.",
 ["src/encoding.c: bech32_polymod, bech32_deserialize"])
prop("C12","Cash32 (CashAddr) round trip and canonicity",
 "Whenever cash32_encode accepts (prefix,type,hash), cash32_decode of the resulting string (with that expected prefix) returns the same type and hash, also when the prefix part of the string is dropped; if cash32_deserialize accepts a string then re-serialising gives the same string lower-cased with prefix.",
 "every prefix, type, hash and string", ALLIN,
 ["src/encoding.c: cash32_serialize, cash32_deserialize, cash32_encode, cash32_decode, cash32_convert_bits"])
prop("C13","Bech32/Cash32 never read or write out of bounds",
 "On every NUL-terminated input the decoders only read within the string (including its terminator) and only write within the documented BECH32_MAX_* / CASH32_MAX_* output buffers and the internal fixed-size buffers.",
 "every NUL-terminated byte string", "One overlong or malformed string suffices for an overflow; all must be excluded.",
 ["src/encoding.c: bech32_deserialize, bech32_decode, cash32_deserialize, cash32_decode","include/torsion/encoding.h"])
prop("C14","Constant-time memory comparison is exact",
 "torsion_memcmp returns -1/0/1 according to the lexicographic order of the two n-byte strings, its sign agrees with torsion_memcmp_var, and torsion_memequal returns 1 exactly when they are equal.",
 "every pair of equal-length byte strings", ALLIN, ["src/util.c: torsion_memcmp, torsion_memcmp_var, torsion_memequal"])
prop("C15","Byte-order helpers and big-number increment",
 "read/write of 16/32/64-bit little/big endian words are mutually inverse and equal to the positional value; the four increment functions (constant-time and variable-time, LE and BE) add one modulo 256^n and agree with each other.",
 "every word and every byte string of every length", ALLIN, ["src/bio.h"])
prop("C16","DER integers: write/read round trip and exact size",
 "asn1_write_int followed by asn1_read_int (strict or not) returns the same integer and leaves exactly the following bytes; the number of bytes written is asn1_size_int; same for asn1 sizes, sequences, versions and multi-precision integers.",
 "every byte string integer that fits, every suffix", ALLIN, ["src/asn1.c"])
prop("C17","Strict DER parsing accepts a unique encoding",
 "If asn1_read_size / asn1_read_int in strict mode accept a byte string, the consumed bytes are exactly what the writer produces for the value returned: no non-minimal length, no negative, no redundant leading zero.",
 "every byte string", "Signature malleability needs just one accepted alternative encoding.", ["src/asn1.c: asn1_read_size, asn1_read_int, asn1_read_mpz"])
prop("C18","ASN.1 readers never touch memory past the input",
 "For every input buffer and length, the ASN.1 readers only dereference within the buffer and never advance beyond its end; the size accumulator never overflows.",
 "every byte string, strict or lax", "Every malformed input has to be excluded.", ["src/asn1.c"])
prop("C19","ChaCha20/Salsa20 keystream is independent of call splitting",
 "Encrypting data in any sequence of chacha20_crypt calls gives the same bytes as one call, and equals data XOR the keystream obtained from consecutive block counters (64-bit carry); crypt is an involution. Same for salsa20.",
 "every initial state, data and splitting into calls", ALLHIST, ["src/stream.c: chacha20_crypt, chacha20_block, salsa20_crypt, salsa20_block"])
prop("C20","RC4 state stays a permutation; RC4 chunking and involution",
 "After arc4_init with any key of 1..256 bytes and any sequence of arc4_crypt calls the 256-entry state is a permutation; splitting does not matter; decrypting with a fresh context of the same key restores the plaintext; keys outside 1..256 abort.",
 "every key, data and splitting", ALLHIST, ["src/stream.c: arc4_init, arc4_crypt"])
prop("C21","Poly1305 computes the RFC 7539 polynomial for every message and splitting",
 "For every 32-byte key and every sequence of poly1305_update calls, poly1305_final yields ((sum of clamped blocks * r^k mod 2^130-5) + s) mod 2^128 of the concatenated message; no overflow of a 32-, 64- or 128-bit intermediate ever affects the result; the 32-bit and 64-bit backends agree.",
 "every key, message and splitting", "Carry-propagation bugs occur on inputs of probability around 2^-64; random tests never meet them.",
 ["src/mac.c: poly1305_init, poly1305_blocks, poly1305_update, poly1305_pad, poly1305_final"])
prop("C22","ChaCha20-Poly1305 AEAD: decrypt inverts encrypt, tag matches RFC for every call pattern",
 "For every key/nonce, any splitting of AAD and of plaintext, decrypting the ciphertext (in any splitting) returns the plaintext and the same tag, and the tag is Poly1305 over aad||pad||ct||pad||len||len, including empty AAD/ciphertext.",
 "every key, nonce, aad, plaintext and splitting", ALLHIST, ["src/aead.c"])
prop("C23","Secretbox open inverts seal and rejects any other tag",
 "secretbox_open(secretbox_seal(m)) returns 1 and m; it returns 1 only if the first 16 bytes equal the Poly1305 tag of the rest; inputs shorter than 16 bytes are rejected.",
 "every key, nonce, message and sealed string", ALLIN, ["src/ies.c"])
prop("C24","Hash updates are independent of splitting",
 "For every hash of the library, the digest after any sequence of update calls depends only on the concatenation of the data, and equals compressing the padded message block by block.",
 "every message and splitting", ALLHIST, ["src/hash.c: *_update, *_final"])
prop("C25","Hash padding is unambiguous",
 "The padding appended by the *_final functions makes the total a whole number of blocks and is injective on messages (below the length limit), so collisions require compression-function collisions.",
 "every message", ALLIN, ["src/hash.c: *_final"])
prop("C26","HMAC equals H(K^opad || H(K^ipad || m)) for every key length",
 "hmac_init/update/final computes the RFC 2104 value for keys shorter, equal and longer than the block size, for every splitting.",
 "every key, message, splitting", ALLHIST, ["src/hash.c: hmac_init, hmac_update, hmac_final"])
prop("C27","HKDF and PBKDF2 outputs have the prefix property and refuse oversized requests",
 "hkdf_expand(len) and pbkdf2_derive(len) return exactly len bytes, the output for a smaller len is a prefix of that for a larger one (same parameters), equal the RFC block recursion, and hkdf_expand fails iff more than 255 blocks are needed.",
 "every key, info, salt, iteration count and length", ALLIN, ["src/kdf.c: hkdf_expand, hkdf_extract, pbkdf2_derive"])
prop("C28","DRBG state updates follow SP 800-90A for every call history",
 "For any sequence of init/reseed/generate calls HMAC-DRBG and Hash-DRBG and CTR-DRBG produce exactly the requested number of bytes and evolve the state as specified; Hash-DRBG's byte-string accumulate is addition modulo 2^(8*len); generating n bytes gives a prefix of generating m>=n bytes from the same state.",
 "every call history", "Histories are unbounded.", ["src/drbg.c"])
prop("C29","torsion_uniform is unbiased",
 "For every max >= 2, the set of 32-bit draws that torsion_uniform accepts has the same number of members for each result in [0,max), the result is always < max, and for max <= 1 the result is 0.",
 "every 32-bit max and every 32-bit draw", "A bias of one part in 2^32 is invisible to statistical tests.", ["src/rand.c: rng_uniform"])
prop("C30","RNG is reseeded after fork and never re-emits pool words",
 "In every history of calls and forks, output is produced only from a state seeded in the current process; every 32-bit word handed out by torsion_random is consumed once and erased from the pool; the words used for re-keying are never handed out.",
 "every interleaving of calls, forks and entropy failures", "Histories with forks at arbitrary points are unbounded.", ["src/rand.c: rng_global_init, rng_random, torsion_getrandom"])
prop("C31","Multi-precision addition, subtraction, comparison are exact",
 "mpn_add_n, mpn_add_1, mpn_add, mpn_sub_n, mpn_sub_1, mpn_sub, mpn_cmp and the constant-time variants compute the exact integer result with exact carry/borrow, for all lengths.",
 "all limb vectors of all lengths", "Carry chains across many limbs are hit with negligible probability by random tests.", ["src/mpi.c: mpn_add_n, mpn_sub_n, mpn_add_1, mpn_sub_1, mpn_cmp, mpn_sec_*"])
prop("C32","Multi-precision multiplication and squaring are exact",
 "mpn_mul_1, mpn_addmul_1, mpn_submul_1, mpn_mul and mpn_sqr compute the exact product for all operand lengths.",
 "all limb vectors of all lengths", "Carry bugs.", ["src/mpi.c: mpn_mul_1, mpn_addmul_1, mpn_submul_1, mpn_mul, mpn_sqr"])
prop("C33","Multi-precision division is exact",
 "mpn_divmod / mpn_divmod_1 return the unique quotient and remainder for every numerator and non-zero divisor, including the rare quotient-digit correction branches; mpz_quorem truncates, mpz_divmod is Euclidean.",
 "all numerators and non-zero denominators", "Knuth D correction branches occur with probability about 2/2^64 on random input.", ["src/mpi.c: mpn_divmod_*, mp_div_2by1, mp_inv_2by1, mpz_quorem, mpz_divmod"])
prop("C34","Signed integer API obeys ring laws",
 "mpz_add, mpz_sub, mpz_mul, mpz_neg, mpz_cmp and the _ui/_si variants equal integer arithmetic on the represented values for all signs and sizes, and results are normalised (no leading zero limb, no negative zero).",
 "all integers", "Infinite domain.", ["src/mpi.c: mpz_add, mpz_sub, mpz_mul, mpz_cmp"])
prop("C35","Shifts and bit operations match two's complement semantics",
 "mpn_lshift/rshift multiply/divide by powers of two; mpz_and/ior/xor/com, tstbit, setbit, clrbit, scan and the 2exp divisions behave as infinite two's complement.",
 "all integers and shift counts", "Infinite domain.", ["src/mpi.c: mpn_lshift, mpn_rshift, mpz_and, mpz_ior, mpz_xor, mpz_*_2exp"])
prop("C36","Integer import/export and string conversion round trip",
 "mpz_import(mpz_export(x)) = x for both endiannesses and any sufficient size; importing gives the positional value; get_str/set_str are inverse in every base 2..62 supported.",
 "all integers, sizes, endianness, bases", "Infinite domain.", ["src/mpi.c: mpn_import, mpn_export, mpn_get_str, mpn_set_str"])
prop("C37","GCD, extended GCD and modular inverse are correct",
 "mpz_gcd returns the greatest common divisor, mpz_gcdext returns Bezout coefficients, mpn_gcdext the divisor and one coefficient below y, mpz_lcm the least common multiple; mpz_invert succeeds iff gcd = 1 and |m| > 1 and returns the inverse in [0,|m|).",
 "all integers", "Infinite domain.", ["src/mpi.c: mpn_gcd, mpn_gcdext, mpn_invert, mpz_invert"])
prop("C38","Modular exponentiation is exact and constant-time variant agrees",
 "mpz_powm(x,y,m) = x^y mod m for all inputs, both for the Montgomery and the division path; mpz_powm_sec returns the same value on its domain.",
 "all bases, exponents, moduli", "Infinite domain.", ["src/mpi.c: mpn_powm, mpn_mont_powm, mpn_div_powm, mpn_sec_powm, mpn_montmul"])
prop("C39","Jacobi / Kronecker symbol is correct",
 "mpz_jacobi equals the Jacobi symbol for every integer x and odd y, mpz_legendre says whether x is a square modulo a prime, and mpz_kronecker equals the Kronecker symbol for all integers.",
 "all integers x, odd y", "Infinite domain.", ["src/mpi.c: mpn_jacobi, mpz_jacobi"])
prop("C40","Integer roots, perfect-power tests, sieve and primorial are exact",
 "mpz_sqrtrem and mpz_rootrem return the floor root and the remainder (and abort when there is no real root); mpz_perfect_square_p, mpz_root and mpz_perfect_power_p report exactly whether the integer is such a power; mpn_sieve marks exactly the primes and mpz_primorial_ui is their product.",
 "all integers and degrees", "Infinite domain.", ["src/mpi.c: mpn_sqrtrem, mpz_sqrtrem, mpz_rootrem, mpz_root, mpz_perfect_power_p, mpn_sieve, mpz_primorial_ui"])
prop("C41","PKCS#7 padding is unambiguous",
 "pkcs7_unpad(pkcs7_pad(x)) returns x; pkcs7_unpad accepts exactly blocks that are paddings of some shorter string and then returns that string; its constant-time arithmetic agrees with the plain definition for every block.",
 "every block size 1..255 and block content", ALLIN, ["src/cipher.c: pkcs7_pad, pkcs7_unpad"])
prop("C42","Block modes: decryption inverts encryption for every message length and splitting",
 "For any invertible block cipher, ECB, CBC, XTS, CTR, CFB, OFB decryption inverts encryption; for the stream modes any splitting of either side is allowed; ciphertext stealing (CBC-CTS, XTS) round-trips for every message of at least one block.",
 "every key, iv, message, splitting", ALLHIST, ["src/cipher.c: ecb_*, cbc_*, xts_*, ctr_*, cfb_*, ofb_*, stream_update"])
prop("C43","cipher_stream API: output is independent of update splitting, final round-trips",
 "For every mode and any splitting of the input into cipher_stream_update calls, the concatenated outputs followed by cipher_stream_final are the same; decrypting gives the plaintext; output_len always matches the size functions; buffers never overflow.",
 "every mode, key, message, splitting", ALLHIST, ["src/cipher.c: cipher_stream_*"])
prop("C44","AEAD block modes (GCM, CCM, EAX): decryption recovers plaintext and accepts only the right tag",
 "For GCM, CCM and EAX, cipher_stream decryption with the tag from encryption succeeds and recovers the plaintext, for every splitting; final returns 1 iff the supplied tag equals the (possibly truncated) computed tag; no tag set means failure.",
 "every key, nonce, aad, message, splitting, tag", ALLHIST, ["src/cipher.c: gcm_*, ccm_*, eax_*, cipher_mode_verify"])
prop("C45","Block ciphers: decrypt inverts encrypt for every key and block",
 "cipher_init succeeds exactly for the permitted key lengths; for each block cipher of the library (AES, ARC2, Blowfish, Camellia, CAST5, DES/3DES, IDEA, Serpent, Twofish) encryption and decryption under the same key are total and inverse to each other on blocks, so that the modes over them round-trip too.",
 "every key of every supported size and every block", "2^128 blocks times 2^256 keys.", ["src/cipher.c"])
prop("C46","RSA private operation inverts the public one, with blinding and CRT",
 "For every key accepted by the private-key check, if the private operation succeeds its result m satisfies m^e = c mod n for every blinding factor; for prime p,q it always succeeds and inverts encryption; sign-then-verify and encrypt-then-decrypt succeed for PKCS#1 v1.5, PSS and OAEP.",
 "every key, message, salt, blinding factor", "Infinite domain.", ["src/rsa.c: rsa_priv_decrypt, rsa_pub_encrypt, rsa_sign, rsa_verify, pss_encode, pss_verify"])
prop("C47","PKCS#1 v1.5 and OAEP unpadding are exact",
 "The branch-free unpadding accepts exactly 00 02 PS 00 M with at least 8 non-zero PS bytes (resp. well-formed OAEP data blocks) and returns exactly M; signature verification accepts exactly one encoded message.",
 "every encoded block", "Bleichenbacher-style forgeries exploit one accepted malformed block.", ["src/rsa.c: pkcs1v15_unpad, rsa_decrypt_oaep, rsa_verify"])
prop("C48","DSA signatures verify",
 "For valid domain parameters and key, every signature produced by dsa_sign is accepted by dsa_verify.",
 "every group, key, message, nonce", "Infinite domain.", ["src/dsa.c: dsa_sign, dsa_verify"])
prop("C49","ECDSA signatures verify, are low-S, and recover the signer",
 "ecdsa_verify accepts exactly the signatures with s <= n/2 which satisfy the verification equation of the standard under a valid public key. ecdsa_sign uses the first acceptable nonce of the generator seeded with key and message, so its result is a function of both; every signature it produces has s <= n/2 and, unless s = 0, is accepted under every encoding of the corresponding public key, and ecdsa_recover with the returned recovery id yields that public key. (s = 0 is returned as a success without a retry when the message is -r*d modulo n; the verifier refuses it.) A recovered key always verifies the signature, and from every accepted signature one of the four ids recovers the key.",
 "each of the six curves, every key, message, byte string, generator", "Infinite domain; r + n overflow of the abscissa and s = 0 have probability about 2^-128 and 2^-256.", ["src/ecc.c: ecdsa_sign_internal, ecdsa_verify, ecdsa_recover, jge_equal_r_var"])
prop("C50","Schnorr signatures (BIP 340 and the older proposal) verify, and nothing else does",
 "bip340_sign and bipschnorr_sign return exactly the signature of their specification (with and without auxiliary randomness, including the precomputed hash states of the tags), and succeed exactly for a valid private key and a non-zero nonce; every signature made verifies under the public key; the verify functions accept exactly the strings which are an in-range encoding of a point (with even respectively square ordinate) and a reduced scalar satisfying s*G = R + e*A.",
 "each of the six short Weierstrass curves (the older scheme: those with p = 3 mod 4), every key, message, auxiliary bytes and signature string", "Infinite domain; a non-canonical or negated point has negligible probability.", ["src/ecc.c: bip340_sign, bip340_verify, bip340_hash_aux, bip340_hash_nonce, bip340_hash_challenge, bipschnorr_sign, bipschnorr_verify"])
prop("C51","Weierstrass point addition implements the group law",
 "The affine and Jacobian doubling, addition and unified addition formulas return the group-law sum for every pair of curve points, including equal, opposite and identity operands.",
 "every pair of points on every short Weierstrass curve over any field of characteristic > 3", "Exceptional cases are hit with probability 2^-256.", ["src/ecc.c: wge_add, wge_dbl, jge_dbl_var, jge_add_var, jge_add"])
prop("C52","Scalar recodings are faithful",
 "NAF, wNAF and JSF recodings used in variable-time multiplication represent the input scalar exactly, with digits in range.",
 "every scalar", "Infinite domain.", ["src/ecc.c: sc_naf_var0, sc_jsf_var0"])
prop("C53","SipHash range reduction is in range and backends agree",
 "siphash_mod returns floor(h*mod/2^64) which is < mod for mod > 0, and the portable 32-bit multiplication equals the 128-bit one.",
 "every pair of 64-bit words", "2^128 pairs.", ["src/mac.c: siphash_mod"])
prop("C54","EB2K, OpenPGP S2K and scrypt equal their specifications",
 "eb2k_derive equals EVP_BytesToKey with one iteration; pgpdf_derive_simple, _salted and _iterated equal the three string-to-key specifiers of RFC 4880; scrypt_derive equals RFC 7914 and is accepted exactly for power-of-two N with r and p in the documented limits. Every call with a supported hash terminates except pgpdf_derive_iterated with empty salt and passphrase.",
 "every passphrase, salt, count, cost parameters and length", ALLIN, ["src/kdf.c: eb2k_derive, pgpdf_derive_simple, pgpdf_derive_salted, pgpdf_derive_iterated, scrypt_derive"])
prop("C55","Compact difficulty form",
 "mpz_set_compact gives the integer that a compact word (size byte, sign bit, 23 bit mantissa) stands for; mpz_get_compact returns a 32 bit word that stands for the operand cut towards zero after a whole number of bytes, keeping at least 16 significant bits; what has a compact form is reproduced exactly.",
 "all words; all integers of at most 254 bytes", "Infinite domain.", ["src/mpi.c: mpz_set_compact, mpz_get_compact"])
prop("C56","AES equals FIPS 197",
 "For every 16, 24 or 32 byte key the table-driven AES of the library (round tables, masked last round, key schedule in words, decryption with transformed round keys) computes exactly the cipher and the inverse cipher of FIPS 197, which are defined by arithmetic in GF(2^8).",
 "every key and block", "2^128 blocks times 2^256 keys.", ["src/cipher.c: aes_init, aes_encrypt, aes_decrypt"])
prop("C57","Nonlinear layers of Serpent and IDEA equal their definitions",
 "The bit-sliced S-box circuits of Serpent compute the published tables in all 32 positions and the inverse circuits undo them; the branch-free multiplication and inversion of IDEA are those modulo 65537 with 0 standing for 65536, and both code variants (with and without fast 64 bit arithmetic) agree.",
 "every state and every pair of words", "2^128 states of each circuit.", ["src/cipher.c: sb0..sb7, sb0inv..sb7inv, idea_mul, idea_inv"])
prop("C58","RSA signatures: exact acceptance, and what is signed verifies",
 "rsa_verify accepts exactly the signatures whose e-th power is the EMSA-PKCS1-v1_5 encoding of the digest, rsa_verify_pss exactly those whose e-th power is an EMSA-PSS encoding of the digest with a salt of the asked length; rsa_sign and rsa_sign_pss produce signatures which are accepted, and fail exactly when the digest has the wrong size or does not fit.",
 "every hash function, digest, signature, key, salt length and randomness", "Forgeries are single strings out of 2^4096.", ["src/rsa.c: rsa_sign, rsa_verify, rsa_sign_pss, rsa_verify_pss, pss_encode, pss_verify, mgf1xor"])
prop("C59","RSA keys: accepted encodings, conversion and reconstruction",
 "The public and private key checks accept exactly the DER encodings of numbers which satisfy the stated equations; keys survive the compact form; whatever rsa_privkey_import returns is a key which the check accepts, and from the two factors and the exponent the whole key is rebuilt exactly when there is one.",
 "every string and every key", "Infinite domain.", ["src/rsa.c: rsa_pubkey_verify, rsa_privkey_verify, rsa_privkey_import, rsa_privkey_export, rsa_pubkey_import, rsa_pubkey_export, rsa_priv_set_pqe, rsa_priv_set_pqd, rsa_priv_set_ned"])
prop("C60","Veiled RSA ciphertexts",
 "rsa_veil returns a number of at most the asked bits which is congruent to the ciphertext, and rsa_unveil recovers the ciphertext from it.",
 "every public key, ciphertext, size and randomness", "Infinite domain.", ["src/rsa.c: rsa_veil, rsa_unveil"])
prop("C61","Random integers are unbiased",
 "mpz_urandomm returns exactly the first candidate below the bound, and every number of that many bits is the candidate of equally many draws; mpz_urandomb returns the low bits of the draw.",
 "every bound, generator and state", "A bias is not visible in any sample.", ["src/mpi.c: mpz_urandomm, mpz_urandomb, mpn_randomm, mpn_random"])
prop("C62","DSA signatures are the standard's, deterministic, and verification accepts nothing else",
 "dsa_sign returns exactly the FIPS 186-4 signature of the leftmost bits of the message with the first acceptable nonce of the generator seeded with secret and message, whatever the blinding entropy; dsa_verify accepts exactly the pairs of in-range numbers which satisfy the verification equation.",
 "every key within the limits, message, generator, entropy, signature string", "Infinite domain; blinding must not influence the result.", ["src/dsa.c: dsa_sign, dsa_verify, dsa_reduce"])
prop("C63","DSA keys and signature formats are canonical; key agreement agrees and refuses foreign elements",
 "The verify functions accept exactly the DER encodings of consistent keys; compact forms round trip; a missing public number is recomputed; created keys are valid; dsa_derive returns y^x for elements of the group and fails otherwise, and both parties agree; DER and raw signatures convert exactly.",
 "every byte string", "Infinite domain of malformed inputs.", ["src/dsa.c: dsa_params_verify, dsa_pubkey_verify, dsa_privkey_verify, dsa_privkey_import, dsa_privkey_create, dsa_derive, dsa_sig_export, dsa_sig_import"])
prop("C64","Scalar multiplication returns the multiple of the point, whatever the algorithm and the blinding",
 "On a curve struct built by wei_init and re-blinded any number of times, the fixed-base, windowed, GLV-endomorphism, interleaved (Shamir) and multi-point multiplications return exactly k*G, k*P, k1*G + k2*P and k0*G + sum of ki*Pi for every scalar below the order; they neither abort nor read outside their tables.",
 "every short Weierstrass curve over a field of characteristic other than two, every generator, order, blinding scalar, scalar, point and number of terms", "Infinite domain; exceptional digits and operands have negligible probability.", ["src/ecc.c: wei_init, wei_randomize, wei_jmul_g, wei_jmul_normal, wei_jmul_endo, wei_jmul_double_normal_var, wei_jmul_double_endo_var, wei_jmul_multi_normal_var, wei_jmul_multi_endo_var"])
prop("C65","Scalars are numbers modulo the group order",
 "After scalar_field_init the limb-level scalar functions compute sum, difference, negation, product, power, inverse, rounded product shift, comparison and bit access of numbers modulo the order; import refuses or reduces exactly the numbers which are not below the order, export and import are inverse; sc_random returns the first draw strictly between zero and the order. The checks inside never abort.",
 "every odd order of any size, both byte orders, every scalar, byte string, generator", "2^512 pairs; the carries and borrow paths are hit with negligible probability.", ["src/ecc.c: scalar_field_init, sc_add, sc_sub, sc_neg, sc_mul, sc_import, sc_import_wide, sc_import_weak, sc_import_pad, sc_export, sc_set_fe, sc_pow, sc_invert, sc_invert_var, sc_minimize, sc_random", "src/fields/scalar.h"])
prop("C66","Inverses and square roots in the prime fields",
 "For each of the nine fields the hand-written addition chains compute the inverse, decide exactly which elements are squares, and return a root of every square and of every square quotient; zero, non-squares and a zero denominator are reported as such, also when output and input are the same object. The moduli are primes.",
 "every element (and pair of elements) of each field", "2^192 to 2^521 elements per field.", ["src/fields/*.h: *_fe_invert, *_fe_sqrt, *_fe_isqrt, *_fe_legendre", "src/ecc.c: fe_invert, fe_sqrt, fe_is_square, fe_isqrt"])
prop("C67","The six short Weierstrass curves are the groups they claim to be",
 "For P-192, P-224, P-256, P-384, P-521 and secp256k1 the constants in the tables are reduced, the generator lies on the curve, field modulus and order are primes, the curve has exactly n points so that every point is a multiple of the generator, and the endomorphism constants of secp256k1 satisfy their relations and split every scalar into halves which fit. Hence, on the struct wei_init makes of the table, scalar multiplication is exact for every point and scalar, also after any re-blinding.",
 "every point of each curve, every scalar below the order, every blinding scalar", "A wrong digit in g1, g2, b1, b2 or a curve with small subgroups would show for few or specially made inputs only.", ["src/ecc.c: curve_p192, curve_p224, curve_p256, curve_p384, curve_p521, curve_secp256k1, endo_secp256k1, wei_init, wei_endo_split"])
prop("C68","Keys and encodings of points on the short Weierstrass curves",
 "A string is accepted as a public key exactly if it is one of the three SEC 1 encodings (compressed, uncompressed, hybrid) of a finite point of the curve, and it decodes to that point; what is written is read back. A private key is accepted exactly if it is a number between 1 and n-1. Public keys are a*G; tweaks, sums, combinations and negations are those of the group and of the integers modulo n, are refused exactly if an operand is invalid or the result is zero, and commute with taking the public key; both parties of ecdsa_derive compute the same secret.",
 "each of the six curves, every byte string, key and tweak", "Invalid-curve and non-canonical encodings are a negligible fraction of strings; equalities between group elements range over 2^512 pairs.", ["src/ecc.c: wge_import, wge_export, wge_set_x, wge_set_xy, fe_import, fe_import_pad, ecdsa_privkey_verify, ecdsa_privkey_tweak_add, ecdsa_privkey_tweak_mul, ecdsa_privkey_negate, ecdsa_privkey_invert, ecdsa_pubkey_create, ecdsa_pubkey_import, ecdsa_pubkey_tweak_add, ecdsa_pubkey_tweak_mul, ecdsa_pubkey_add, ecdsa_pubkey_combine, ecdsa_pubkey_negate, ecdsa_derive"])
prop("C69","ECDSA signature formats",
 "ecdsa_sig_export writes the DER encoding SEQUENCE { r, s } and ecdsa_sig_import accepts exactly the DER encodings of two reduced numbers and inverts it; ecdsa_sig_import_lax accepts exactly the BER variants; neither reads outside the string or aborts. ecdsa_sig_normalize replaces s by the smaller of s and n-s; a normalised signature verifies exactly if the original satisfies the verification equation; ecdsa_is_low_s decides exactly reduced r and s <= n/2.",
 "each of the six curves, every byte string and signature", "Non-canonical encodings are too many to enumerate.", ["src/ecc.c: ecdsa_encode_der, ecdsa_decode_der, ecdsa_sig_export, ecdsa_sig_import, ecdsa_sig_import_lax, ecdsa_sig_normalize, ecdsa_is_low_s"])
prop("C70","BIP 340 keys",
 "A string is accepted as a public key exactly if it is the abscissa, below p, of a point of the curve, and denotes the one with even ordinate; public keys, exported and imported coordinates, tweaks, tweak checks, sums and shared secrets are those of the group; a tweaked private key has exactly the tweaked public key, with the reported sign; the functions refuse exactly invalid operands and zero results.",
 "each of the six curves, every byte string, key and tweak", "Sign errors in the lift show for half of the keys only in combination; the other failures have negligible probability.", ["src/ecc.c: bip340_pubkey_create, bip340_privkey_export, bip340_privkey_tweak_add, bip340_pubkey_import, bip340_pubkey_export, bip340_pubkey_tweak_add, bip340_pubkey_tweak_add_check, bip340_pubkey_tweak_mul, bip340_pubkey_combine, bip340_derive"])
prop("C71","Batch verification of Schnorr signatures",
 "A batch accepts exactly if every signature is well-formed and, in every chunk the scratch has room for, the combination of the defects s*G - R - e*A vanishes, with the coefficients 1, a2, a3, ... in range drawn from the generator seeded with the hash of all messages, signatures and keys. So valid batches are accepted, a chunk with exactly one invalid signature is refused, an invalid signature passes for at most one value of its coefficient given the rest, and with the smallest scratch the batch is the conjunction of the single verifications.",
 "every batch of any length, scratch size, generator", "An attacker chooses the batch; acceptance of a bad batch is a rare event no test meets.", ["src/ecc.c: bip340_verify_batch, bipschnorr_verify_batch"])
prop("C72","The two Montgomery curves are the groups they claim to be",
 "The constants of the tables for X25519 and X448 are those of RFC 7748; the field modulus and the order n are primes; the curve has exactly h*n points and the base point has the order n; the quadratic twist has four times a prime number of points; the table of small subgroups holds exactly the points killed by the cofactor.",
 "every point of each curve and of its twist", "A wrong digit shows only for inputs in the affected subgroup, or never in a test vector.", ["src/ecc.c: curve_x25519, curve_x448, mont_init", "src/subgroups.h: subgroups_x25519, subgroups_x448"])
prop("C73","X25519 and X448 compute the abscissa of the multiple of the point, for every string of bytes",
 "ecdh_derive returns the abscissa of the clamped scalar times any point with the given abscissa, on the curve or on its twist, and there always is one; ecdh_pubkey_create returns the abscissa of the multiple of the base point; generated keys are clamped; both sides of an exchange obtain the same secret with success. ecdh_pubkey_create does not abort for X25519, and for X448 it aborts for exactly one scalar, 4n, which ecdh_privkey_verify accepts.",
 "both curves, every public and private string of bytes of the right length", "2^255 scalars times 2^255 abscissas; the failing scalar has probability 2^-446.", ["src/ecc.c: ecdh_derive, ecdh_pubkey_create, ecdh_privkey_generate, ecdh_privkey_import, ecdh_privkey_export, mont_mul, mont_clamp, pge_export"])
prop("C74","A shared secret is refused exactly if it is zero, that is for the points of small order",
 "ecdh_derive reports failure exactly if the secret is all zeros; for X25519 exactly for the five abscissas 0, 1, -1 and the two of the points of order eight (modulo p, the highest bit ignored), whatever the private key; for X448 exactly for 0, 1, -1, or for points of the curve with the scalar 4n.",
 "every public and private key", "All other abscissas must succeed: 2^255 of them.", ["src/ecc.c: ecdh_derive, pge_import_unsafe, mont_mul"])
prop("C75","Tests and conversions of public keys on the Montgomery curves",
 "ecdh_pubkey_verify accepts exactly abscissas of points of the curve; is_small and has_torsion decide exactly whether the point is killed by h, respectively not killed by n; export returns the coordinates of the point with the wanted sign, import accepts exactly reduced coordinates of points.",
 "both curves, every string of bytes", "Points of small or mixed order are a negligible part of all points in random tests.", ["src/ecc.c: ecdh_pubkey_verify, ecdh_pubkey_is_small, ecdh_pubkey_has_torsion, ecdh_pubkey_export, ecdh_pubkey_import, pge_import, mge_set_x, mge_set_xy"])
prop("C76","Elligator 2 and hashes of points",
 "Every string of bytes maps to the point Elligator 2 prescribes, without a failing assertion; if to_uniform succeeds, from_uniform gives the point back plus the point of small order the hint names; every preimage is found for one value of the lowest bit of the hint. from_hash is the sum of the two points (times the cofactor if asked); bytes that to_hash makes are mapped back to the point plus the named point of small order. If the first point drawn has the ordinate zero, to_hash reads an uninitialised point.",
 "both curves, every string, point, hint, generator", "Exceptional values have probability 2^-255; inverse relations range over the whole field.", ["src/ecc.c: mont_elligator2, mont_invert2, mont_point_from_uniform, mont_point_to_uniform, mont_point_from_hash, mont_point_to_hash, ecdh_pubkey_from_uniform, ecdh_pubkey_to_uniform, ecdh_pubkey_from_hash, ecdh_pubkey_to_hash"])
prop("C77","The three Edwards curves are the groups they claim to be, and their arithmetic has no exceptions",
 "For Ed25519, Ed448 and Ed1174 edwards_init succeeds; a is a square and d is not, so that the addition law is complete and makes the points an abelian group; the generator has exactly the prime order n, the curve exactly h*n points, and the table of small subgroups holds each point killed by the cofactor once. Addition, subtraction, doubling, mixed addition, negation, comparison and normalisation of structs in extended coordinates are those of the group for all operands, for a = -1, a = 1 and any other a. Fixed-base, windowed, interleaved and multi-point multiplication return the multiples, whatever the blinding; the constant-time multiplication of a point uses the lowest 4*ceil(bits/4) bits of the scalar. is_small and has_torsion decide exactly whether a point is a non-trivial one killed by the cofactor, respectively no multiple of the generator.",
 "every point and struct of each curve, every scalar, blinding scalar, number of terms", "Exceptional operands of an incomplete law, wrong table digits and points of mixed order have negligible probability in random tests.", ["src/ecc.c: edwards_init, edwards_init_isomorphism, edwards_randomize, xge_add, xge_sub, xge_dbl, xge_mixed_add, xge_mixed_sub, xge_neg, xge_equal, xge_is_zero, xge_validate, xge_mulh, xge_is_small, xge_has_torsion, xge_normalize_all_var, edwards_mul_g, edwards_mul, edwards_mul_double_var, edwards_mul_multi_var", "src/subgroups.h: subgroups_ed25519, subgroups_ed448, subgroups_ed1174"])
prop("C78","Encodings of Edwards points, EdDSA keys and their arithmetic",
 "A string is accepted as a public key exactly if it is the RFC 8032 encoding of a point (ordinate reduced, no sign bit on a zero abscissa, no unused bits), and it decodes to that point. The private scalar is the clamped first half of the hash, the prefix its second half, the public key the encoding of scalar times the generator; key grinding returns the first output that passes. Operations on scalars are those modulo the order; sums, negations, combinations and tweaks of public keys are those of the group and agree with the same tweak on the scalar, except products on Ed1174 with tweaks of more than 252 bits, where they differ. Tests for the neutral element, small order and torsion are exact; coordinates are exported and imported exactly.",
 "the three curves, every byte string, key, scalar and tweak", "Non-canonical encodings and points of mixed order are a negligible fraction of strings; equalities of group elements range over 2^512 pairs.", ["src/ecc.c: xge_import, xge_export, eddsa_privkey_expand, eddsa_privkey_grind, eddsa_pubkey_create, eddsa_pubkey_from_scalar, eddsa_scalar_tweak_add, eddsa_scalar_tweak_mul, eddsa_scalar_reduce, eddsa_scalar_negate, eddsa_scalar_invert, eddsa_pubkey_verify, eddsa_pubkey_is_infinity, eddsa_pubkey_is_small, eddsa_pubkey_has_torsion, eddsa_pubkey_tweak_add, eddsa_pubkey_tweak_mul, eddsa_pubkey_add, eddsa_pubkey_combine, eddsa_pubkey_negate, eddsa_pubkey_export, eddsa_pubkey_import"])
prop("C79","EdDSA signatures are those of RFC 8032",
 "eddsa_sign writes the deterministic signature of RFC 8032 (with the pre-hash flag and context as domain; longer contexts are cut to 255 bytes); tweaked signing writes the signature of the tweaked scalar with a prefix bound to the tweak. eddsa_verify accepts exactly canonical encodings with s*G = R + e*A, eddsa_verify_single exactly those for which h times this holds. What is signed is accepted by both under the created public key; the first verification implies the second, and they agree on torsion-free points; the second half of a signature is determined by the rest.",
 "the three curves, every message below 2^64 bytes, key, flag, context, signature", "Acceptance of a forged or non-canonical signature is a negligible event in tests; the equations range over all keys and messages.", ["src/ecc.c: eddsa_sign, eddsa_sign_with_scalar, eddsa_sign_tweak_add, eddsa_sign_tweak_mul, eddsa_verify, eddsa_verify_single, eddsa_hash_init, eddsa_hash_nonce, eddsa_hash_challenge"])
prop("C80","Batch verification of EdDSA signatures",
 "A batch accepts exactly if every signature is well-formed and, in each chunk the scratch has room for, h times the combination of the defects s*G - R - e*A vanishes, with coefficients 1, a2, a3, ... drawn from the generator seeded with all messages, signatures and keys. Batches whose members pass eddsa_verify_single are accepted, a chunk with exactly one bad member is refused, and with the smallest scratch the batch is the conjunction of eddsa_verify_single.",
 "the three curves, every batch of any length, scratch size, generator", "An attacker chooses the batch; acceptance of a bad batch is a rare event no test meets.", ["src/ecc.c: eddsa_verify_batch"])
prop("C81","Shared secrets on the Edwards curves",
 "eddsa_derive returns the encoding of the clamped scalar times the other key; it reports failure exactly if the key is no encoding of a point or the product is the neutral element; keys of small order always fail; both sides of an exchange compute the same.",
 "the three curves, every public string and private key", "Small-order keys and exceptional scalars have negligible probability.", ["src/ecc.c: eddsa_derive, eddsa_derive_with_scalar"])
prop("C82","Elligator 2 and hashes of points on the Edwards curves",
 "Every string of bytes maps to the point which Elligator 2 and the birational map prescribe, without a failing assertion. If to_uniform succeeds, from_uniform gives the point back plus the point of small order the hint names, on Ed25519 and Ed448 always, on Ed1174 unless the Montgomery abscissa is 0 or -A, where the reported success can be wrong; every preimage is found for one value of the lowest bit of the hint. from_hash is the sum of the two points (times the cofactor if asked); on Ed25519 and Ed448 bytes that to_hash makes are mapped back to the point plus the named point of small order, and to_hash reads an uninitialised point if the first point drawn has the abscissa zero.",
 "the three curves, every string, point, hint, generator", "Exceptional values have probability 2^-250; inverse relations range over the whole field.", ["src/ecc.c: edwards_elligator2, edwards_invert2, edwards_point_from_uniform, edwards_point_to_uniform, edwards_point_from_hash, edwards_point_to_hash, mont_to_edwards, edwards_to_mont, eddsa_pubkey_from_uniform, eddsa_pubkey_to_uniform, eddsa_pubkey_from_hash, eddsa_pubkey_to_hash"])
prop("C83","The compression functions of all hashes are those of the standards",
 "MD2, MD4, MD5, RIPEMD-160, SHA-1, SHA-224 to SHA-512, BLAKE2b, BLAKE2s, Keccak-f[1600], Whirlpool and GOST R 34.11-94 compress every chaining value and every block exactly as their standards define; so the digests of C24 are those of the standards on every message. The constants of SHA-2, BLAKE2, SHA-1, MD4 and RIPEMD-160 are the digits of the roots the standards name.",
 "every chaining value, block, counter", "There are 2^768 inputs of a compression function and more; an error in an unrolled step, a carry or a table entry can show for few of them only.", ["src/hash.c: md2_transform, md4_transform, md5_transform, ripemd160_transform, sha1_transform, sha256_transform, sha512_transform, blake2b_compress, blake2s_compress, keccak_compress, whirlpool_transform, gost94_compress"])
prop("C84","Keys for signatures serve for key exchange and come back",
 "eddsa_pubkey_convert accepts exactly the encodings of points other than the neutral one and writes the abscissa of the image on the Montgomery curve. On Ed25519/X25519 and Ed448/X448 the converted private key belongs to the converted public key, and the secret derived with ECDH from the converted key is the conversion of the secret derived with EdDSA, with the same verdict, for every accepted key and every scalar. ecdh_pubkey_convert accepts exactly the abscissas of points of the curve (not of the twist) and writes the point with the wanted sign; created ECDH keys convert to plus or minus the multiple of the base point; converting there and back with the sign of the abscissa gives the same bytes (on Ed448 for points of prime order). On Ed448 (0, -1) converts to zero with success although the isogeny sends it to infinity.",
 "every key, scalar, sign", "Points of small order, points on the twist and the kernel of the isogeny of degree four are hit with negligible probability; commuting with multiplication is a statement on all 2^255 (2^448) points and scalars.", ["src/ecc.c: eddsa_pubkey_convert, eddsa_privkey_convert, ecdh_pubkey_convert, edwards_to_mont, mont_to_edwards, mont_mulh, mge_export_xge, xge_export_mge"])
prop("C85","Ristretto is a group of prime order with one code for each element",
 "On Ed25519, Ed448 and Ed1174 the doubled points modulo the points whose order divides half the cofactor are a group whose classes are exactly the n multiples of the generator. Encoding gives the same bytes for every member of a class (and for every representation of a point) and different bytes for different classes; decoding accepts exactly these bytes and returns a member of the class; the comparisons decide equality of classes. All functions on keys say exactly whether their inputs are codes of elements (scalars below the order) and compute in the group: create, verify, is_infinity, add, combine of any list, negate, tweak_add, tweak_mul (which refuses the neutral element), derive, on which both sides agree, and the functions on private keys. ristretto_pubkey_grind never returns a tweak: the scalar it increments is not initialised, so it is undefined whenever it finds one. rge_export_batch writes for up to sixteen points the codes of their doubles on Ed25519 and Ed1174, and wrong codes on Ed448.",
 "every byte string of the right length, every point and representation, every scalar, every number of keys", "One code per class is a statement on all members of all classes; the exceptional points (of order 2, 4, 8, with zero coordinates) and invalid codes (odd, not reduced, not doubled) are rare or adversarial.", ["src/ecc.c: rge_import, rge_export, rge_export_batch, rge_equal, rge_is_zero, ristretto_init, ristretto_privkey_*, ristretto_pubkey_*, ristretto_derive"])
prop("C86","Elligator for Ristretto reaches the group and can be inverted",
 "On Ed25519 and Ed1174 ristretto_point_from_uniform turns every string of bytes into exactly the doubled point which the map on the Jacobi quartic gives for its number, and from_hash into the sum of two of them; the public keys so made are valid and are codes of multiples of the generator. Whenever ristretto_pubkey_to_uniform or to_hash reports success, the from_ function makes the same key again from its bytes; the only exception is the number zero on Ed1174, which is reported for the neutral element and stands for another class. The inverse is complete: every number but zero that stands for a class other than the neutral one is returned, from every member of the class, for one of the h positions of the hint and the sign of the number. On Ed448 the map is wrong: the constants are misaligned and, whenever the quotient is a square, the struct returned is not on the curve; this happens for the number two.",
 "every string of bytes, every doubled point, every representation, every hint, every sequence of random bytes", "That every input lands on the curve and that the inverse finds every preimage range over the whole field; the exceptional numbers are a handful out of 2^255.", ["src/ecc.c: ristretto_elligator, ristretto_invert, qge_import_rge, qge_invert, ristretto_point_from_uniform, ristretto_point_to_uniform, ristretto_point_from_hash, ristretto_point_to_hash, ristretto_pubkey_from_uniform, ristretto_pubkey_to_uniform, ristretto_pubkey_from_hash, ristretto_pubkey_to_hash, ristretto_ed448"])
prop("C87","Hashing to the short Weierstrass curves and back",
 "On P-192, P-224, P-256, P-384, P-521 (simplified map of Shallue, van de Woestijne and Ulas) and secp256k1 (map of Shallue and van de Woestijne) wei_point_from_uniform turns every string into exactly the point which the map gives for its number, without a failing assertion; from_hash is the sum of two. Whenever to_uniform reports success its bytes give the point back, unless they are zero; every preimage (but the exceptional numbers of the simplified map) is found for one value of the two lowest bits of the hint, whatever the others. to_hash never makes bytes of another point unless the second half is zero. The same for the keys of ECDSA and BIP 340; keys that are not encodings are refused. With zero there are faults: on P-192 and P-384 for the points with the abscissa -b/a, on secp256k1 for one of the two points with the abscissa (c-z)/2, success is reported for bytes of another point. On P-224, P-256 and P-521 there is no exception.",
 "every string of bytes, every point, hint, sequence of random bytes", "That one of the candidates is always an abscissa, and that the inverse is right, range over the whole field; the exceptional points are two out of 2^192 or more.", ["src/ecc.c: wei_sswu, wei_sswui, wei_svdwf, wei_svdw, wei_svdwi, wei_point_from_uniform, wei_point_to_uniform, wei_point_from_hash, wei_point_to_hash, ecdsa_pubkey_from_uniform, ecdsa_pubkey_to_uniform, ecdsa_pubkey_from_hash, ecdsa_pubkey_to_hash, bip340_pubkey_from_uniform, bip340_pubkey_to_uniform, bip340_pubkey_from_hash, bip340_pubkey_to_hash"])
prop("C88","Factorials, binomials, Fibonacci and Lucas numbers, removing a factor",
 "mpz_fac_ui, mpz_2fac_ui and mpz_mfac_uiui give the factorial, double factorial and multifactorial of every word; mpz_bin_ui, mpz_bin_uiui and mpz_bin_siui the binomial coefficient for every upper argument (integer of any size and sign, word, signed word) and every lower one; mpz_fib_ui and mpz_lucnum_ui the numbers of Fibonacci and Lucas. mpz_fib2_ui and mpz_lucnum2_ui give the predecessor too, but for the index zero, where it is stored as zero. mpz_remove divides out the largest power of a factor and returns the exponent; the factor zero aborts.",
 "every word, every integer", "The divisions in the binomial loops must be exact at every step; overflow of intermediate words and the signs of both arguments give many corners that tests sample at a few points.", ["src/mpi.c: mpz_mfac_uiui, mpz_fac_ui, mpz_2fac_ui, mpz_bin_ui, mpz_bin_uiui, mpz_bin_siui, mpz_fib2_ui, mpz_fib_ui, mpz_lucnum2_ui, mpz_lucnum_ui, mpz_remove"])
prop("C89","Square roots modulo a prime and modulo a product of two primes",
 "For every odd prime p mpz_sqrtm ends (each loop within p rounds) and returns a root in [0, p) exactly if the number, of any size and sign, has one; else it fails and clears the output. Whatever is returned for an odd modulus that is not 1 modulo 8, or has no factor in common with the number, is a reduced root, prime or not. Moduli that are even, zero or negative are refused. mpz_sqrtpq does the same modulo the product of two different odd primes. For other moduli mpz_sqrtm can be wrong (0 is called a root of 3 modulo 9) and does not end at all for the square of an odd number and a number coprime to it.",
 "every prime, every integer, every modulus for the soundness", "The loops of Tonelli and Shanks end only because the group is cyclic; their length is not bounded by the shape of the code. Tests try a few primes.", ["src/mpi.c: mpz_sqrtm, mpz_sqrtm_3mod4, mpz_sqrtm_5mod8, mpz_sqrtm_0, mpz_sqrtpq"])
prop("C90","The primality tests reject no prime they can test, and say exactly what has passed",
 "mpz_mr_prime_p accepts an odd number above 7 exactly if it is a strong probable prime to every base it draws; it rejects no prime, and a round with an equally distributed base lets a composite pass with probability below one half. mpz_lucas_prime_p is the extra strong Lucas test with the first suitable parameter up to 10000 or the limit. mpz_probab_prime_p decides primality below 1024 and for negative numbers; above, what it accepts has no factor up to 53 and is a strong probable prime to base 2 and to the bases drawn and a Lucas probable prime (Baillie-PSW), and it rejects no prime that has a Lucas parameter. Primes without one exist and are rejected, although the source takes this to be impossible.",
 "every integer, every generator, every number of rounds below 2^31-1", "Probable primality is a statement about modular powers of every base; the primes that are wrongly rejected are too large to be met by tests.", ["src/mpi.c: mpz_mr_prime_p, mpz_lucas_prime_p, mpz_mod_primorial, mpz_probab_prime_p"])
prop("C91","The search for primes",
 "If mpz_nextprime ends, its result is above the number given, has passed the test of C90, and every prime it skips is one that test cannot accept (none below 1024). mpz_findprime returns an odd number of [x, x+m] that has passed, the first one in the same sense, or reports that there is none; the prime 2 is never found. mpz_randprime refuses fewer than two bits; its result is odd, has exactly the given number of bits with the top two set (so that the product of two of them has exactly the sum of the bits) and has passed the test.",
 "every integer, every length, every generator", "That no prime is skipped is a statement on whole intervals; results depend on random bytes.", ["src/mpi.c: mpz_nextprime, mpz_findprime, mpz_randprime"])
prop("C92","Generation of RSA keys",
 "rsa_privkey_generate refuses sizes outside 512..16384 bits and exponents that are even or outside 3..2^33-1. Otherwise, if it ends, it writes a key that rsa_privkey_verify accepts: modulus of exactly the size asked for, exponent as given, factors p > q of half the size (rounded up for one of them if odd) that have passed the test for primes and are at least 2^(bits/2-99) apart, and a private exponent of more than half the size, inverse to the public one. It aborts only if the two numbers that passed the test have a common factor, so that p is not a prime.",
 "every size, every exponent, every generator of random bytes, every entropy", "Keys depend on random bytes; sizes and exponents are too many; each of the conditions on a candidate is met or violated with small probability.", ["src/rsa.c: rsa_priv_generate, rsa_privkey_generate"])
prop("C93","Generation of DSA groups and keys",
 "dsa_params_generate and dsa_privkey_generate refuse every size but 1024, 2048 and 3072. Otherwise, if they end, p has exactly that size and q 160 bits for the first and 256 for the others; both are odd and have passed the test for primes, q divides p-1, and the generator is the first of the powers h^((p-1)/q) mod p, h = 2, 3, ..., that is not 1. If p is a prime the group passes verification, and if q is one too the order of the generator is q. The secret lies in 1..q-1, the public number is its power, and the key passes verification if p and q are primes.",
 "every size, every generator of random bytes, every entropy", "Groups depend on random bytes; that the order of the generator is right is a theorem on primes, checked by tests on a few groups.", ["src/dsa.c: dsa_group_generate, dsa_priv_generate, dsa_params_generate, dsa_privkey_generate"])
prop("C94","Blowfish is the cipher of Schneier, from the digits of pi",
 "blowfish_init builds, for every key and every salt, the subkeys of the key schedule that starts with the first 33344 fractional bits of pi (with a salt the schedule of Provos and Mazieres, of which 1096 bytes are used); blowfish_encrypt is sixteen rounds on two big-endian words. Only the first 72 bytes of a key count, and a key has the same subkeys as the key written several times in a row.",
 "every key, salt, block", "A wrong digit in a table of 1042 words changes every result, but tests compare with vectors that came from the same table; the equivalent keys are of every length.", ["src/cipher.c: blowfish_init, blowfish_expandstate, blowfish_expand0state, blowfish_encrypt, blowfish_initial"])
prop("C95","bcrypt hashes, records and verification",
 "bcrypt_derive succeeds exactly for the costs 4..31 and the versions a and b and gives the hash of Provos and Mazieres of the password followed by a NUL; for version a only while the length is below 255 (or the length plus one modulo 256 is still 72 or more). bcrypt_generate writes the record of 60 characters and the NUL. The decoder accepts exactly the records, in each of the 64 spellings of the same salt and hash, and never reads beyond the NUL of any string. bcrypt_verify accepts a password exactly if the string is a record of its hash under the salt of the record. Passwords with the same first 72 bytes are interchangeable. With version a a password of 255, 511, ... bytes has the hash of the empty password, so that bcrypt_check accepts every password of 255 or more allowed characters for a record of the empty one.",
 "every password, salt, cost, version, string", "That the parser reads no byte beyond the string and accepts no other string is a statement on all strings; a cost of 31 cannot be run in a test; the wrap of the length is met only by very long passwords.", ["src/kdf.c: bcrypt_base64_encode, bcrypt_base64_decode, bcrypt_encode, bcrypt_decode, bcrypt_hash192, bcrypt_derive, bcrypt_generate, bcrypt_verify, bcrypt_hash, bcrypt_check"])
prop("C96","bcrypt_pbkdf is the function of OpenBSD and writes every byte",
 "bcrypt_pbkdf refuses exactly zero rounds, an empty password or salt, a salt above 2^20 bytes, and keys of 0 or more than 1024 bytes. Otherwise every byte of the key is written, and byte p is byte p/stride of the sum number p mod stride + 1, with stride = ceil(size/32), where a sum is the exclusive or of as many blocks as there are rounds, each made with SHA-512 and the 64 salted schedules of Blowfish.",
 "every password below 2^64 bytes, salt, number of rounds, size, previous content of the memory", "The spreading of the bytes depends on the size in 1024 ways and on the remainders; the number of rounds is not bounded.", ["src/kdf.c: bcrypt_hash256, bcrypt_pbkdf"])
prop("C97","The limb arithmetic of six fields is exact and never wraps",
 "For the fields modulo 2^192-2^64-1, 2^521-1, 2^256-2^32-977, 2^255-19, 2^448-2^224-1 and 2^251-9 (64-bit code): on limbs within the bounds (at most two to the width of the limb when reduced, three times this after one addition or subtraction without reduction) fe_add, fe_sub, fe_neg (with and without reduction), fe_carry, fe_mul, fe_sqr, fe_mul3, fe_mul4, fe_mul8, the multiplications by the constants of the curves, fe_set_word, fe_select, fe_neg_cond and fe_set_odd return limbs within the bounds of the result that stand for the right element; no intermediate value wraps around. from_bytes (called by fe_import) gives limbs of the number read, to_bytes (called by fe_export) writes the bytes of the one number below the modulus, and fe_is_zero, fe_equal and fe_is_odd answer for the element, not for its limbs.",
 "all limbs within the bounds, all words, all bytes", "Overflows need limbs near their bounds, which random elements never have; the inputs are 2^192 and more.", ["src/fields/p192_64.h, p251_64.h, p25519_64.h, p448_64.h, p521_64.h, secp256k1_64.h: all functions", "src/ecc.c: fe_add, fe_sub, fe_neg, fe_mul, fe_sqr, fe_mul3, fe_mul4, fe_mul8, fe_carry, fe_add_nc, fe_sub_nc, fe_neg_nc, fe_set_word, fe_select, fe_is_zero, fe_equal, fe_is_odd, fe_set_odd, fe_neg_cond"])
prop("C98","The point formulas keep the limbs within their bounds and may write over their operands",
 "On reduced limbs of the operands and of the constants of the curve, jge_dbl_var, jge_addsub_var, jge_mixed_addsub_var, jge_add, jge_mixed_add, pge_dbl, pge_ladder, xge_dbl, xge_add_a, xge_sub_a, xge_add_m1 and xge_sub_m1 never hand a function of the field limbs beyond what C97 allows, although they leave sums and differences unreduced; nothing is undefined, and the result has the reduced limbs and the flags of the point that the formula gives in the field, for each of the six fields, every kind of curve coefficient, and every way in which result and operands may be the same object (for pge_ladder those its assertions allow).",
 "all reduced limbs, all points (on the curve or not), all curve coefficients, every coincidence of the arguments, six fields", "A missing reduction overflows only for limbs near their bounds, which random elements never have; an overwritten operand shows only with the aliasing that overwrites it.", ["src/ecc.c: jge_dblj, jge_dbl0, jge_dbl3, jge_dbl_var, jge_addsub_var, jge_mixed_addsub_var, jge_add, jge_mixed_add, pge_dbl, pge_ladder, xge_dbl, xge_add_a, xge_sub_a, xge_add_m1, xge_sub_m1, wei_mul_a, mont_mul_a24, edwards_mul_a, edwards_mul_d"])
prop("C99","Generated and searched keys are valid, and the search finds the first accepted point",
 "ecdsa_privkey_generate, bip340_privkey_generate and ristretto_privkey_generate return the first number from 1 to n-1 which the random generator offers, always a key that their own verification accepts. ecdsa_pubkey_grind and bip340_pubkey_grind walk over Q+G, Q+2G, ..., skip infinity, and return the number of the first point whose encoding the callback accepts, modulo n; they fail exactly on encodings of no point; they end if and only if some point other than infinity is accepted, and then within n rounds. The private keys of ecdsa_privkey_grind and bip340_privkey_grind are valid, and the public key made from them is the accepted one (for BIP 340 up to the sign of the key); nothing aborts. ecdh_privkey_grind returns the first clamped string whose public key is accepted, and aborts exactly if a point before it is infinity, which never happens on X25519. ristretto_privkey_grind never returns a key without undefined behaviour.",
 "every random generator, entropy, public key, callback, number of rounds, every curve of the library of the form concerned", "The callback and the generator are arbitrary functions; wrap-around of the counter and the point at infinity need about n rounds, which no test can run.", ["src/ecc.c: ecdsa_privkey_generate, ecdsa_pubkey_grind, ecdsa_privkey_grind, bip340_privkey_generate, bip340_pubkey_grind, bip340_privkey_grind, ecdh_privkey_grind, ristretto_privkey_generate, ristretto_privkey_grind"])
prop("C100","MurmurHash3 for messages of every length, and what can never collide",
 "murmur3_sum returns MurmurHash3_x86_32 of the message for every seed and every length in the memory, reading no byte outside; murmur3_tweak is the same with the seed n*0xfba4c795+tweak modulo 2^32. Different seeds never give the same hash of a message, different numbers n never for the same tweak, and two messages of the same length that differ within one aligned word never have the same hash.",
 "every message below 2^64 bytes, seed, number and tweak", "The claims are on all pairs of seeds or messages; messages of more than 2^32 bytes are not tested.", ["src/util.c: murmur3_sum, murmur3_tweak"])
prop("C101","The 32-bit limb arithmetic of four fields is exact and never wraps",
 "For the fields modulo 2^192-2^64-1, 2^256-2^32-977, 2^255-19 and 2^251-9, in the code used where the compiler has no 128-bit integers: on limbs within the bounds documented in src/fields (which allow reduced limbs of at least two to the width of the limb, and three times this after one addition or subtraction without reduction) fe_add, fe_sub, fe_neg (with and without reduction), fe_carry, fe_mul, fe_sqr, fe_mul3, fe_mul4, fe_mul8, the multiplications by the constants of the curves, fe_set_word, fe_select, fe_neg_cond and fe_set_odd return limbs within the bounds of the result that stand for the right element; no intermediate value wraps around. from_bytes (called by fe_import) gives reduced limbs of the number read, to_bytes (called by fe_export) writes the bytes of the one number below the modulus, and fe_is_zero, fe_equal and fe_is_odd answer for the element, not for its limbs. The moduli are those of the 64-bit code.",
 "all limbs within the bounds, all 32-bit words, all bytes", "Overflows need limbs near their bounds, which random elements never have; tests on usual machines do not even compile this code.", ["src/fields/p192_32.h, p251_32.h, p25519_32.h, secp256k1_32.h: all functions", "src/ecc.c: fe_add, fe_sub, fe_neg, fe_mul, fe_sqr, fe_mul3, fe_mul4, fe_mul8, fe_carry, fe_add_nc, fe_sub_nc, fe_neg_nc, fe_set_word, fe_select, fe_is_zero, fe_equal, fe_is_odd, fe_set_odd, fe_neg_cond"])
prop("C102","The point formulas keep 32-bit limbs within their bounds and may write over their operands",
 "For the four fields of C101 and the code used where the compiler has no 128-bit integers: on reduced limbs of the operands and of the constants of the curve, jge_dbl_var, jge_addsub_var, jge_mixed_addsub_var, jge_add, jge_mixed_add, pge_dbl, pge_ladder, xge_dbl, xge_add_a, xge_sub_a, xge_add_m1 and xge_sub_m1 never hand a function of the field limbs beyond the bounds of C101, nothing is undefined, and the result has the reduced limbs and the flags of the point that the formula gives in the field, for every kind of curve coefficient and every way in which result and operands may be the same object (for pge_ladder those its assertions allow).",
 "all reduced limbs, all points (on the curve or not), all curve coefficients, every coincidence of the arguments, four fields", "A missing reduction overflows only for limbs near their bounds, which random elements never have; tests on usual machines do not compile this code.", ["src/fields/p192_32.h, p251_32.h, p25519_32.h, secp256k1_32.h: all functions", "src/ecc.c: jge_dbl_var, jge_addsub_var, jge_mixed_addsub_var, jge_add, jge_mixed_add, pge_dbl, pge_ladder, xge_dbl, xge_add_a, xge_sub_a, xge_add_m1, xge_sub_m1"])
