# Formal model of libtorsion in Lean 4

## Trusted base

* Lean 4.33's kernel. Mathlib is used as a library of kernel-checked theorems.
* Axioms of every theorem: at most `propext`, `Classical.choice`, `Quot.sound`. There are no axioms of our own, no `sorry`, no
  `native_decide`, no `bv_decide`. Facts about complete finite tables (S-boxes, curve constants, primality certificates) are
  evaluated by the kernel (`decide`, `decide +kernel`).
* That the definitions say what the C text in /repo says. This is by reading: every definition of a model file cites the file
  and the lines (kept correct by `tools/cite.py`) and says in its comment what it simplifies. The tables are copied by scripts.
* That the specifications (`*Spec.lean`) say what the English properties say.
* Nothing here is about compilers, timing, caches, memory clearing, or threads. Branch-free code is modelled by the values it
  computes and proved equal to the plain definition.

## Conventions

* A buffer with its length is a `List` of bytes (`BitVec 8`). Accesses that could leave a buffer are checked and give the
  outcome `ub`; a failing `CHECK` or `torsion_abort` gives `abort` (`Verif/Basic.lean`). Functions that return 0 on failure and
  loops that draw until a draw is acceptable use the monad `R` (`Verif/Common/Proto.lean`): `fail` is the result 0, `spin` means
  that the loop is still running after the given number of rounds.
* Uninitialised memory is an argument (`junk`); the theorems hold for all its values.
* `size_t` is `Nat` where it cannot wrap; otherwise the wrap is written out. Words are `BitVec w`, or `Nat` with `% 2^w`.
* Random generators and, in the modes, block ciphers are parameters; the theorems hold for all of them.
* Configuration: 64-bit limbs and words, little-endian host, portable C (no assembly). The 32-bit Poly1305, the 32-bit
  field code of C101 and the portable
  versions of IDEA's and mpi's word operations are modelled as well.

## Layout

Each directory under `lean/Verif` has models (their header says "Model"), specifications (`*Spec.lean`, namespace `Torsion.Spec`),
lemmas, and the property theorems with their examples (`*Props.lean`, namespace `Torsion`).

| directory | code |
|---|---|
| `Common` | block buffering, splitting of calls, the monad `R` |
| `Util` | src/bio.h, src/util.c, src/internal.c (comparison, byte order, increments) |
| `Encoding` | src/encoding.c |
| `Asn1` | src/asn1.c |
| `Hash` | src/hash.c |
| `Mac`, `Stream`, `Aead` | src/mac.c, src/stream.c, src/aead.c, src/ies.c |
| `Kdf`, `Drbg`, `Rand` | src/kdf.c, src/drbg.c, src/rand.c |
| `Block`, `Cipher` | src/cipher.c: ciphers; modes and the stream interface |
| `Mpi` | src/mpi.c |
| `Rsa`, `Dsa` | src/rsa.c, src/dsa.c |
| `Ecc` | src/ecc.c, the chains of src/fields/, src/subgroups.h |

Generated modules (the scripts read the text of /repo): `Hash/Tables` (`tools/gen_hash.py`), `Encoding/BechTable`
(`gen_bechtab.py`), `Ecc/Chains` (`chains.py`), `Ecc/ScalarDefs` (`scdefs.py`), `Ecc/CurveDefs` (`curves.py`), `Ecc/MontDefs`
(`mont.py`), `Ecc/Primes` (`primes.py` from the certificates in `primes.json`: Pocklington and elliptic curve certificates, which the
kernel checks). `properties.jsonl` and `MANIFEST.json` are written by `tools/props.py`.

## Properties

What is modelled and how the property is proved. Names of theorems: `MANIFEST.json`.

| id | model | specification and proof |
|---|---|---|
| C01, C02 | base16 | nibble strings; all 256 characters, induction on pairs |
| C03–C06 | base32, base64, as stream engines | regrouping of bits; round trip and converse; the test functions equal the decoders |
| C07 | as C01–C06 | lengths of all that is written, also by rejected calls |
| C08 | base58 with its heap workspace, checked accesses | conversion of base as numbers |
| C09–C13 | bech32, cash32, checked reads and writes | exact acceptance; `polymod` is linear over GF(2); C11 by syndromes of errors of weight at most four at all positions, and bursts |
| C14, C15 | memcmp, memequal, byte order, increments | order of lists, positional values |
| C16–C18 | asn1.c readers on a checked cursor, writers | DER and the lax variants as grammars; exact acceptance; uniqueness |
| C19, C20 | ChaCha20, Salsa20, ARC4 | block functions of the RFC; position in the stream as invariant; permutation invariant |
| C21 | Poly1305, 64- and 32-bit, words with wrap | polynomial modulo 2^130 - 5; bounds on the limbs as invariant |
| C22, C23 | AEAD, secretbox | composition of C19 and C21 |
| C24, C25 | all hashes; init, update, final | padded message folded by the compression function; injectivity of the paddings; collisions of the hash give collisions of the compression function |
| C26–C28 | HMAC, HKDF, PBKDF2, the three DRBGs | RFC 2104, 5869, 8018, SP 800-90A; histories of calls |
| C29, C61 | rng_uniform, mpz_urandomm, mpz_urandomb | each value is hit by the same number of accepted draws |
| C30 | rand.c as a state machine | histories; what is output is erased; process ids |
| C31–C34 | limb vectors and signed integers | integers; sizes; both versions of the limb operations; Knuth's division with the 2-by-1 reciprocal |
| C35 | shifts, logic, single bits, scans | two's complement; **partial**: false for three functions, see below |
| C36 | import, export, strings | positional values, numerals |
| C37–C40 | gcd, inverse, powers, Jacobi symbol, roots, sieve | Mathlib's functions; loop invariants and termination bounds |
| C41–C44 | padding, ECB, CBC with stealing, XTS, CTR, OFB, CFB, GCM, CCM, EAX, stream interface | SP 800-38 as functions of whole messages, any splitting; GHASH as multiplication of polynomials |
| C45, C56, C57 | all block ciphers | inverse of the rounds; AES equals FIPS 197 from the field GF(256); S-boxes of Serpent, multiplication of IDEA |
| C46, C47, C58–C60 | RSA | PKCS 1; private operation with CRT and blinding; PSS, OAEP, veil; keys |
| C48, C62, C63 | DSA | FIPS 186-4 |
| C49–C52, C64–C71 | short Weierstrass curves, scalars, field inverses and roots, ECDSA, Schnorr | Mathlib's group of points; numbers of points by order arguments with Hasse-free certificates; see the notes in `MANIFEST.json` |
| C53 | SipHash | RFC-like definition; multiply-high is onto |
| C54 | EB2K, OpenPGP S2K, scrypt | RFC 4880, 7914 |
| C55 | compact difficulty | value of the three bytes and the exponent |
| C72–C76 | Montgomery curves, ECDH, Elligator 2 | group of `y^2 = x^3 + A x^2 + x` and its twist; differential ladder; number of points of curve and twist |
| C77 | Edwards curves: constants, points, scalar multiplication | `EPt`, the points with the complete addition law; associativity by the map to the Montgomery curve; number of points from the order of the generator and the absence of points of order eight |
| C78 | encodings, EdDSA keys, arithmetic of keys | RFC 8032 5.1.2, 5.1.3 as a function and its inverse; group of C77; exact refusal conditions |
| C79 | `eddsa_sign`, `eddsa_verify` and variants | RFC 8032 5.1.6, 5.1.7 over `Spec.hash`; both verification equations; uniqueness of `s` |
| C80 | `eddsa_verify_batch` with an arbitrary generator | the run of C71 over any abelian group, applied to the defects times the cofactor |
| C81 | `eddsa_derive` | multiples by clamped scalars |
| C82 | Elligator 2 on the Edwards curves | the map on `v^2 = u^3 + A u^2 + u` and the birational map as relations; `-A` is a square on Ed1174 only |
| C83 | the compression functions of all hashes | `Spec.Std` (Verif/Hash/StdSpec.lean) after the standards: indexed schedules, matrices over GF(2^8), lanes `(x, y)`, tables from their defining rules; equality with the unrolled code for all inputs; `Spec.hash` is built on `Spec.Std` |
| C84 | conversion of keys between Edwards and Montgomery curves | `edU`, `isoU` as rational functions; the isogeny is compatible with doubling and differential addition, so with the ladder; the dual map inverts it on points of odd order |
| C85 | Ristretto: encoding, decoding, comparison, all functions on keys | `RistEq`: difference killed by half the cofactor; `RistNum`: the even root of `-a(1-y)/(1+y)` for the chosen member of the class; uniqueness from the discriminant of the members; encoding of an even point by `x = 2uv…` so that the inverse root exists; `Ecc/RistBatch`: the batched codes of doubles, by the same last step for `(e/f, g/h)` |
| C86 | Elligator for Ristretto and its inverse | `RistQuartic`: the map on the Jacobi quartic as a relation (root, sign, both branches); `RistPoint`: the isogeny as two equations; the inverse recovers `u` from each of the `h` points of the quartic over a class |
| C87 | Hashing to the short Weierstrass curves | `WeiMapped`: both maps as relations between numbers and abscissas; `MapC`: what they need from the constants, checked for the six curves by roots and Euler's criterion; product of the three candidates is a square |
| C88 | Factorials, binomials, Fibonacci, `mpz_remove` | falling products, `k! b = i(i-1)...(i-k+1)`; doubling formulas; powers by repeated squaring |
| C89 | `mpz_sqrtm`, `mpz_sqrtpq` | Euler's criterion; invariant `y^2 = x b` and the orders of `b` and `g` in the loop of Tonelli and Shanks; Bezout for the product |
| C90 | `mpz_mr_prime_p`, `mpz_lucas_prime_p`, `mpz_mod_primorial`, `mpz_probab_prime_p` | rounds against the definition of strong probable primes; liars within a proper subgroup (with an element outside) for the bound; ladder invariant and Frobenius in GF(n^2) for Lucas; Dirichlet and reciprocity for the rejected primes |
| C91 | `mpz_nextprime`, `mpz_findprime`, `mpz_randprime` | induction on the loops over C90 |
| C92 | `rsa_priv_generate`, `rsa_privkey_generate` over any source of bytes | one round by cases over C91, then induction on the rounds; validity as for the keys of C58–C60 |
| C93 | `dsa_group_generate`, `dsa_priv_generate`, `dsa_params_generate`, `dsa_privkey_generate` | induction on the three loops over C90; the order of the generator by Fermat, its existence by a primitive root |
| C94 | `blowfish_init`, `blowfish_expandstate`, `blowfish_expand0state`, `blowfish_encrypt`, `blowfish_decrypt`, the initial table | state as functions; the table against the digits of pi computed with Machin's formula in integers, its error bounded and the formula proved over the reals |
| C95 | src/kdf.c:40-470: base64, records, `bcrypt_derive`, `bcrypt_generate`, `bcrypt_verify`, `bcrypt_hash`, `bcrypt_check`, with `blowfish_enc` | EksBlowfish and the grammar of records written down separately; decoder by cases on every character |
| C96 | `bcrypt_pbkdf` over the model of SHA-512 | induction on the rounds and on the residues of the places written |
| C97 | `Fiat/Lang`: the language of the fiat code with C's integer promotions, wrap-around and undefined behaviour; `tools/fiat.py` writes the functions of the six files as programs in it from their text; `Fiat/Field`: the functions of src/ecc.c on top | a checker that follows a program with an interval and a polynomial (modulo p) for every local, proved sound; the kernel evaluates it on the programs (`decide +kernel`). Serialisation: the same with exact integers, then the borrow and the carry are followed by cases |
| C98 | `Fiat/Code`: the calls of a formula as statements over numbered variables, run on limbs; `Fiat/Formula`, written by `tools/formula.py` from the text of the formulas; two arguments that are the same object have the same variables | a bound for every variable is followed through the statements (reduced, or three times that), sound by C97 and evaluated by the kernel for every layout and kind of curve; the same statements run in the field are the functions of `Ecc/Point`, `Ecc/Mont`, `Ecc/Edwards` by computation |
| C99 | `Ecc/Grind`: the functions that make or search for private keys, over an abstract source of random bytes and an arbitrary callback; loops count their rounds | induction over the rounds: after i rounds the point is Q + i·G, so the first accepted one has its number; the group is cyclic of prime order n, so that n rounds meet every point |
| C100 | `Util/Murmur`: the loop, the switch and the finalizer on 32-bit words | induction over the words against a fold; each step (product with an odd constant, rotation, xor with a shift) has an inverse, which gives the claims on collisions |
| C101 | `Fiat/P192W32` and so on: the functions of four 32-bit files, written by `tools/fiat.py` as for C97; `Fiat/FieldW32`: the functions of src/ecc.c on top, with the bounds that the comments in src/fields give for each limb ; `Fiat/LangB32`: the carry, borrow and selection on 32-bit words | the checker of C97 with a bound for each limb (secp256k1 allows 1.1 times two to the width), evaluated by the kernel; for the serialisation the checker and its proof again with 32-bit words (`Fiat/CheckB32`, `SoundB32`, `BytesB32`) |
| C102 | `Fiat/CodeW32`: the statements of C98 run on 32-bit limbs | the bounds followed for C98 (reduced, or unreduced once) are read as the tight and loose bounds of C101, so the evaluation for C98 is used again |

## What is not modelled

* src/fields/: the exponentiation chains and the 64-bit limb code of the fields without Montgomery representation are modelled (C97); so are the 32-bit files of p192, p251, p25519 and secp256k1 (C101); the word-by-word code of P-224, P-256 and P-384 and the 32-bit files of p448 and p521 are not. The curves compute in the field itself; C97 says that the limbs do the same, and C98 that the formulas for points keep within the bounds of C97 (C102: of C101). Other functions of src/ecc.c that call the field (conversions, validation, hashing) are not followed on limbs.
* src/mpi.c: 32-bit limbs, assembly, the division with `MP_USE_DIV_3BY2`, printing to files.
* src/hash.c and src/cipher.c: assembly.
* src/entropy/: an argument of the model of src/rand.c.

## Findings

Statements a user might expect which are false, each with a theorem or an exact characterisation:

* `mpz_setbit`, `mpz_clrbit`, `mpz_combit` are wrong for negative `z` divisible by `2^pos` (`mpz_setbit_wrong`, ...).
* `ecdh_pubkey_create` aborts for the X448 scalar `4 n`, which `ecdh_privkey_verify` accepts (`x448_create_aborts`).
* `mont_point_to_hash` (and the same code for the other curves) has `continue` in a `do ... while` whose condition then reads an
  uninitialised point (`mont_to_hash_undefined`).
* On Ed1174 `eddsa_pubkey_tweak_mul` ignores the bits of the tweak above 252, `eddsa_scalar_tweak_mul` does not
  (`eddsa_tweak_mul_ed1174_differs`). On Ed1174 `eddsa_pubkey_to_uniform` can report success with bytes of another key
  (`eddsa_to_uniform_wrong_ed1174`). Contexts of more than 255 bytes are cut without an error (`Spec.edDom`).
* On Ed448 `eddsa_pubkey_convert` turns `(0, -1)` into the abscissa 0 and reports success (`ed448_convert_torsion`).
* `ristretto_pubkey_grind` (and `ristretto_privkey_grind`, which calls it) adds to a scalar that is not initialised: it never
  returns a tweak without undefined behaviour (`ristretto_pubkey_grind_undefined`, `ristretto_privkey_grind_undefined`).
* The constants of Ristretto for Ed448 have eight zero bytes at the front that are not part of the number, and `fe_import_be` reads
  the first 56 bytes: the Elligator map returns structs that are not on the curve (`ristretto_from_uniform_wrong_ed448_happens`),
  and `rge_export_batch`, which nothing calls, writes wrong codes (`rge_export_batch_wrong_ed448`).
  Encoding and decoding do not use these constants.
* On Ed1174 `ristretto_pubkey_to_uniform` of the neutral element reports success for the hints 2 and 3 with the number zero, which
  stands for another class (`ristretto_to_uniform_wrong_ed1174`).
* The comment at `dmaddpa` says `(d+a)/(d-a)`; the value is `(d-a)/(d+a)`, which is what the inverse needs.
* `ecdsa_sign` returns a signature with `s = 0` instead of trying again (`ecdsa_sign_zero_happens`).
* `mpz_fib2_ui` and `mpz_lucnum2_ui` store 0 as the predecessor for the index 0, where the recurrence has 1 and -1
  (`mpz_fibonacci_predecessor_of_zero`).
* `mpz_sqrtm` for moduli that are not prime: 0 is returned as a root of 3 modulo 9 (`mpz_sqrtm_wrong_root`); the search does not end
  for squares (`mpz_sqrtm_never_ends`).
* `mpz_lucas_prime_p` gives up after the parameter 10000 ("thought to be impossible"): there are arbitrarily large primes which it, and
  so `mpz_probab_prime_p`, rejects (`mpz_probab_prime_p_wrong`); `mpz_findprime` never finds 2 (`mpz_findprime_wrong`).
* `mpz_get_compact` wraps the exponent for huge numbers; `mpz_divexact` of a numerator with fewer limbs returns 0 instead of
  aborting (`mpz_divexact_short`); `mpz_invert` modulo 1 fails (`mpz_invert_mod_one`) and `mpz_powm` with a negative exponent
  modulo 1 aborts; `mpz_gcd_ui` returns the word 0 for a gcd of 2^64; `mpn_barrett` refuses moduli `B^(n-1)`
  (`mpn_barrett_power_abort`); `mpz_set_str` accepts strings without digits (`mpz_set_str_empty`).
* Keccak and SHAKE: outputs longer than the rate are raw state bytes; padding bytes 0x00 and 0x80 are ambiguous
  (`sponge_padding`).
* `pgpdf_derive_iterated` does not end with empty salt and passphrase (`pgpdf_iterated_empty`).
* CTR-DRBG cuts inputs longer than 512 bytes (`ctr_drbg_truncates`).
* ChaCha20 with a 12-byte nonce carries the counter into the nonce (`chacha20_counter_carry`).
* The random generator reseeds only if the process id changes (`rng_pid_reuse`).
* CCM: the length of the counter depends on the message length only (`ccm_nonce_alias`), and the announced lengths are not
  enforced; GCM: the counter wraps without a check; EAX refuses an empty nonce.
* `wei_point_to_uniform` (and with it `ecdsa_pubkey_to_uniform`) can report success with the number zero, whose point is another: on
  P-192 and P-384 for the points with the abscissa `-b/a` and the hints 2, 3 (`wei_to_uniform_p192_p384_wrong`), on secp256k1 for the
  point with the abscissa `(c-z)/2` and odd ordinate (`wei_to_uniform_root_wrong`).
* `secretbox_open` writes the decryption also when the tag is wrong; `pkcs7_unpad` writes a whole block;
  `cipher_stream_update` with padding removal writes more than `*output_len` bytes, so in-place streaming corrupts the input.
* RSA: the private operation checks its result only with the Chinese remainders; primality is not checked; the DigestInfo of
  GOST94 has the OID 1.2.643.2.2.20 instead of 1.2.643.2.2.9 of RFC 4357; PSS treats a salt length 0 as "any".
* DSA: `dsa_priv_is_sane` does not check `y = g^x`; the primality of `q` is not checked.
* base58: encoder and decoder have different limits; bech32 constants of 2^30 and more never deserialise (`bech32_const_limit`); the
  four-error guarantee does not cover replacing a data character by the separator.
* asn1: numbers above 2048 bytes are written but not read (`asn1_mpz_limit`).
* ARC2 with effective key lengths 1017 to 1023 deviates from RFC 2268.
* bcrypt: for records of version `a` the length is kept in eight bits, so that a password of 255 (511, ...) bytes hashes nothing and
  is interchangeable with the empty one (`bcrypt_a_wrap`, `bcrypt_check_long_empty`); only 72 bytes count (`bcrypt_72`); keys of
  Blowfish that are repetitions of each other are equivalent (`blowfish_key_repeat`); 64 spellings of each record are accepted.
* AES: `TD4[x] << 24` shifts a promoted `int` into the sign bit (undefined in C, harmless with usual compilers).

## Checks against wrong programs

`seeded/LOG.jsonl` has one line for each edit of the model that was tried (`tools/mutate.py` applies an edit to a scratch copy and
rebuilds), with the theorems that failed and those that were tightened.
