# Formal model of kryptos (Lean 4)

## 1. What this is

`/verif/lean` is a Lake project holding a function-by-function model of parts of
the C sources in `/repo/src` and theorems about it.  `properties.jsonl` lists the
properties (C01, C02, ...) in API terms, `MANIFEST.json` maps each property to
theorem names and a status, `seeded/LOG.jsonl` records the mutation experiments.

## 2. Modelling conventions

* Bytes are `BitVec 8`, machine words `BitVec 16/32/64`; buffers are `List Byte`
  with the size being the list length.  Address arithmetic (`p`, `p_end`) becomes
  list traversal.
* `Verif.Base` defines the outcome type `Out α = ok a | ub`.  A read or write
  outside a buffer, a division by zero, a `NULL` dereference or an unsigned wrap
  that is subsequently used as an allocation/loop size yields `ub`.  It is never
  replaced by a default value.  Where a function cannot go out of bounds
  syntactically (fixed arrays with literal indices) the model is a plain function.
* Allocation never fails in the model (`kryptos_newseg` returns memory); the C
  code's out-of-memory paths are not modelled unless stated.
* Randomness (`kryptos_get_random_byte/_block`) is an explicit argument, so
  theorems quantify over all random outcomes.
* Configuration: 64-bit user-mode build (`KRYPTOS_MP_EXTENDED_RADIX`, 64-bit
  big-number digits, `KRYPTOS_C99`), little-endian host as in
  `kryptos_endianness_utils.c` run-time test; kernel-mode variants are not modelled,
  except the 64-bit random function of the Linux kernel module (C45).
* C semantics beyond that: `char` is signed and `int` has 32 bits (x86-64); signed
  left shifts into the sign bit wrap as two's complement (every compiler the
  library supports does so); shifts by the width of the type or more are `ub`;
  operands with side effects inside one expression such as `a | b | c | d` are
  evaluated from left to right.
* A loop whose end is not evident gets a bound (`fuel`), and running out is `ub`
  (or `none` where the loop may run for ever without being undefined);
  a theorem shows that the bound does not matter, or the divergence itself is a
  theorem.
* Every definition in `Verif/Model/*` cites the C file and lines.
* Independent specifications live in `Verif/Spec/*`; property theorems live in
  `Verif/Props/*`; helper lemmas live in `Verif/Lemmas/*` or `private` beside.
* When the code violates a property: the negation is proved with a concrete
  witness, the part that does hold is proved under a `_partial` name, and the
  disagreement is listed in section 5.
* Published test vectors run through the models with `decide +kernel` as
  `example`s.  They are fidelity tests of the model, not proofs of properties.

## 3. Plan per property

| Property | Model | How |
|---|---|---|
| C01 | base16 encoder/decoder loops | induction on the buffer |
| C02, C03 | base64/base32 state machines with explicit buffers | refinement to an RFC 4648 bit-group spec, then inversion |
| C04 | same, with `ub` on any out-of-range access | safety theorem for base16; witnesses for base32/64 + `_partial` |
| C05 | uuencode line codec | induction on lines |
| C06 | `kryptos_ansi_x923_padding` | arithmetic on lengths |
| C07-C09 | the block processing macros, generic in the block function | induction on blocks, refinement to SP 800-38A spec |
| C10 | CTR set-up + epilogue over a list of messages | induction on the history |
| C11 | task history with the IV field | negation witness, plus what does hold |
| C12 | same macros with action `EncryptWithoutRandomPad` | holds for OFB/CTR, negation for ECB/CBC |
| C13 | decrypt branches with `ub` | characterisation of the safe inputs; witness |
| C14, C15 | gcm_auth/gcm_verify/ghash/gf_mul | case analysis; bit-serial multiplication vs polynomial spec |
| C16, C17 | message processor macro + SHA compressors | refinement for non-aligned lengths, negation/collision for aligned |
| C18 | do_update/do_finalize | induction on chunks |
| C19, C20 | hmac generic in the hash | unfolding + list lemmas |
| C21, C22 | hkdf/pbkdf2 generic in HMAC | loop invariants |
| C23-C25 | hotp validator/generator state machines | invariants over histories |
| C26 | totp on top of hotp | case analysis |
| C27 | arc4 | permutation invariant, xor involution |
| C28, C29 | each block cipher, key schedule included | algebraic inversion, loop induction |
| C30 | AES tables | GF(2^8) spec, `decide` on the complete 256-entry tables, lifted |
| C31 | salsa20_core, chacha20, salsa20 | loop invariants |
| C32, C33 | siphash | refinement to spec |
| C34 | poly1305 task and arithmetic | case analysis, big-number reasoning |
| C35-C42 | digit-list arithmetic | value function into Nat/Int, induction on digits |
| C43-C45 | gen_random, miller_rabin, unbiased_rand | counting, Fermat's little theorem |
| C46, C47 | pem text buffer | history invariant; witness for malformed input |
| C48 | huffman | prefix-code invariant |
| C49, C50 | oaep/pss generic in hash | list algebra |
| C51-C54 | rsa/dh/elgamal/dsa/ecdsa at the level of integer operations | number theory (Mathlib ZMod) |
| C55 | kryptos_task_check | decision procedure equivalence |
| C56, C59 | freeseg/memcmp | induction |
| C57 | fortuna state machine | invariant over histories |
| C58 | chacha20/salsa20 task with ownership states | history; witness |

## 4. Trusted base

* Lean's kernel, and the three standard axioms `propext`, `Classical.choice`,
  `Quot.sound` (checked with `#print axioms`); no further axioms, no `sorry`,
  no `native_decide`, no `bv_decide`.
* The hand translation from C to the model and the C semantics assumed above.
* The specifications in `Verif/Spec`, which are read by people: they are short,
  written from the publications, and exercised by published test vectors.

### What is modelled

| C source (in /repo/src) | Model | Not modelled of it |
|---|---|---|
| kryptos_base16/32/64.c, kryptos_uuencode.c | Base16, Base32, Base64, Uuencode | |
| kryptos_padding.c, kryptos_block_parser.c, kryptos_iv_utils.c | Padding, BlockModes | |
| kryptos_types.h, kryptos.h (processing macros) | BlockModes, BlockTask, HashTask, KeyLoad, Hmac | tasks chained by the DSL macros |
| kryptos_gcm_utils.c | Gcm | |
| kryptos_hash_common.c | HashCommon | |
| kryptos_sha1.c, kryptos_sha224_256.c, kryptos_sha384_512.c | Sha1, Sha256, Sha512 | |
| kryptos_md4.c, kryptos_md5.c, kryptos_ripemd128_160.c | MdCommon, Md4, Md5, Ripemd | |
| kryptos_tiger.c | Tiger (its S-boxes are proved to be those of the authors' generator in Lemmas/TigerGen) | |
| kryptos_whirlpool.c | Whirlpool | |
| kryptos_keccak.c | Keccak | failing allocations |
| kryptos_rabbit.c | Rabbit | failing allocations |
| kryptos_blake2.c, kryptos_u8_ptr_to_hex | Blake2 | failing allocations; NULL keys with a size |
| kryptos_seal.c | Seal | failing allocation; `n` is the 32-bit word that is read through the pointer to a size_t |
| kryptos_argon2.c | Argon2 | failing allocation; blocks are lists of 128 words; the order of the loops over lanes is that of the code |
| kryptos_blake3.c | Blake3 | failing allocations; NULL keys with a size; the linked list of the stack is a list |
| kryptos_djb2.c, kryptos_pw2.c | Small | |
| kryptos_hmac.c, kryptos_hkdf.c, kryptos_pbkdf2.c | Hmac, Kdf | |
| kryptos_hotp.c, kryptos_totp.c | Hotp | |
| kryptos_endianness_utils.c | Endian | big-endian hosts |
| kryptos_arc4.c, kryptos_salsa20*.c, kryptos_chacha20.c | Arc4, Salsa20 | |
| kryptos_siphash.c, kryptos_poly1305*.c | SipHash, Poly1305Mp, Poly1305 | 32-bit digits of Poly1305 |
| kryptos_aes.c, kryptos_tea.c, kryptos_xtea.c, kryptos_rc2.c, kryptos_rc5.c, kryptos_rc6.c, kryptos_shacal1.c, kryptos_shacal2.c, kryptos_noekeon.c, kryptos_feal.c, kryptos_gost.c, kryptos_misty1.c, kryptos_present.c, kryptos_idea.c, kryptos_saferk64.c, kryptos_des.c, kryptos_blowfish.c (with bcrypt), kryptos_cast5.c, kryptos_serpent.c, kryptos_mars.c, kryptos_twofish.c, kryptos_camellia.c | one module each | |
| kryptos_memory.c | Memory | page locking |
| kryptos_random.c | Random, Csprng | the Windows and FreeBSD sources and the devices themselves |
| kryptos_fortuna.c | Fortuna | |
| kryptos_mp.c | Mp, MpHex, MpGcd, SmallPrimes, MpPrime | squaring shortcuts and printing helpers not used elsewhere |
| kryptos_pem.c | Pem | |
| kryptos_task_check.c | TaskCheck | |
| kryptos_rsa.c, kryptos_padding.c (OAEP, PSS) | Rsa, Oaep | key generation for key buffers already in use |
| kryptos_dl_params.c, kryptos_dh.c, kryptos_elgamal.c, kryptos_dsa.c | DlParams, Dh, DhGroups, DhParams, Elgamal, Dsa | That the primes of RFC 3526 are prime is not proved; they are proved to follow its formula with π. A whole run of the generation with a prime of two digits is in Props/DlRun. How secret numbers are drawn (which ones, how likely, how often the loop is repeated): Props/DrawEnds, DrawUniform, DrawHalf, DrawSlow, and EcUniform, EcCount for curves. |
| kryptos_ec_utils.c, kryptos_ecdh.c, kryptos_ecdsa.c, kryptos_curves.c | Ec, Ecdh, Ecdsa, Curves | failing allocations |
| kryptos_huffman.c | Huffman | |

Every cipher has, beside the inversion theorem, a theorem that it is its published function (Spec/ holds the publications).

## 5. Disagreements between code and properties

Each entry gives the property, what the code does, and the theorem showing it.
Theorem names are relative to the namespace `Kryptos`.

Encodings and compression

* C03, C04: the base32 decoder writes one byte past its allocation when the
  length is a multiple of 5 (`Base32.base32_roundtrip_false`); malformed input
  leads the base32 and base64 decoders out of bounds
  (`Base32.base32_decode_unsafe`, `Base64.base64_decode_unsafe`), and the
  uuencode decoder too (`Uuencode.uuencode_decode_unsafe`).
* C46, C47: PEM headers holding a marker prefix break lookups, headers with
  non-ASCII characters are never found (`Pem.pem_map_fails`,
  `Pem.pem_latin1_fails`); a missing or misplaced END marker and ragged base64
  texts are undefined (`Pem.pem_get_unsafe`); the search misses occurrences
  after a partial match (`Pem.pem_find_incomplete`).
* C48, C77: the dumped Huffman table mixes codes in characters with the bytes
  themselves: buffers with '0' or '1' never come back
  (`Huffman.huffman_digit_lost`), some decode to other bytes
  (`Huffman.huffman_blank_0_wrong`) and some crash
  (`Huffman.huffman_01_undefined`); a repeated single byte is not compressed
  (`Huffman.huffman_single_byte`).  Inflating malformed data is undefined
  (`Huffman.inflate_short_undefined`).

Block ciphers and modes

* C11: a second encryption on the same task reuses the IV buffer
  (`Block.iv_silently_reused`).
* C12: `EncryptWithoutRandomPad` is wrong in ECB and CBC and unauthenticated in
  GCM (`Block.without_random_pad_*`).
* C13, C14: ciphertexts of other lengths than encryption produces lead out of
  bounds (`Block.decrypt_iv_only_unsafe`, `Block.decrypt_ragged_unsafe`,
  `Gcm.gcm_unsafe_short`) or underflow the size (`Block.decrypt_size_underflow`).
* C15: GHASH masks bit lengths to 24 bits (`Gcm.ghash_wrong_for_large_data`).
* C29: RC5 and RC6 rotate by 32 - 0 (`Rc5.rc5_zero_rotation`), RC5 reads
  uninitialised subkeys for long keys and few rounds (`Rc5.rc5_uninitialised`);
  RC2 accepts T1 = 1025 and writes L[-1] (`Rc2.rc2_1025_undefined`); PRESENT and
  NOEKEON overflow on long keys (`Present.present_long_key_overflows`,
  `Noekeon.noekeon_long_key_overflows`); GOST reads beyond short s-boxes
  (`Gost.gost_short_box`); SAFER K-64 accepts 14 to 800 rounds and reads behind
  its table of powers (`Safer.saferk64_undefined`); Blowfish reads behind the
  words of keys above 56 bytes (`Blowfish.blowfish_long_key_undefined`); Serpent
  copies keys above 32 bytes past the end of its array
  (`Serpent.serpent_long_key_undefined`), and MARS does, too
  (`Mars.mars_long_key_undefined`).
* C81: the zero key, weak with other parity bits, and a pair of semi-weak keys
  are accepted (`Des.des_weak_key_accepted`, `Des.des_semi_weak_keys_accepted`);
  the table has misspelt entries.
* C82: equal second and third keys, or first and second keys that differ in
  parity only, reduce EDE to single DES (`Des.triple_des_ede_single`,
  `Des.triple_des_ede_single_parity`).
* C86: CAST-128 shifts a word by 32 places for keys with a rotation by zero
  (`Cast5.cast5_zero_rotation`), among them the 80-bit key of the vectors of RFC
  2144; its 40-bit vector comes out wrong (`Cast5.cast5_40bit_wrong`).
* C88: MARS shifts a word by 32 places for some block under every key
  (`Mars.mars_zero_rotation`); the theorems about its values take shift counts
  modulo 32 as processors do, or assume a defined run (`Mars.mars_strict_partial`).
* C83: Blowfish keys of incomplete words are filled up with zeros instead of
  being repeated (`Blowfish.blowfish_padded`, `Blowfish.blowfish_zeros_same_key`).
* C90: GOST puts the last byte of a short key of odd length into another place
  of its word (`Gost.gost_odd_key`), and stores words highest byte first, not
  lowest byte first as RFC 5830 does.
* C85: `kryptos_bcrypt_verify` reads past the end of texts of 23 to 28 bytes
  (`Blowfish.bcrypt_verify_short_undefined`) and behind its table for a byte 0xFF
  (`Blowfish.bcrypt_verify_ff_undefined`).
* C68-C70: the key loader shifts a partial last word to the wrong place
  (`KeyLoad.ldUserKey_not_padded`, `KeyLoad.ldUserKey_ignores`,
  `Aes.aes128_key_ignored`, `Rc5.rc5_short_key_nonstandard`,
  `shacal_one_byte_key`).

Stream ciphers and authenticators

* C105: the square in Rabbit overflows the type `long`
  (`Rabbit.rabbit_square_overflows`; with wrapping products the key stream is the
  published one), its bytes are in the reverse order of RFC 4503
  (`Rabbit.rabbit_not_rfc4503`), short vectors are read beyond their end
  (`Rabbit.rabbit_short_iv_overread`) and different keys coincide
  (`Rabbit.rabbit_key_collision`).
* C107: the last offset counter of BLAKE2s is truncated to 32 bits
  (`Blake2.blake2s_long`, `Blake2.blake2s_counter_matters`), and the block size
  reported for blake2bN is 64 instead of 128 (`Blake2.blake2bN_input_size`).
- C108: the first stage of the derivation of keys with BLAKE3 drops what is left
  on the stack of parents: for a context of an odd number (3, 5, ...) of chunks
  only its length and its last chunk matter (`Blake3.kdf_last_chunk`), so that
  different contexts derive the same keys (`Blake3.kdf_collision`).  Hashing an
  input of no bytes shifts a word of 32 bits by 32 (`Blake3.blake3_empty_ub`).
* C109: SEAL with a version other than 2 and 3 adds a variable without a value
  to the text (`Seal.version_not_checked`); short keys are padded by four bits
  for each missing byte and collide (`Seal.short_keys_collide`); the first bytes
  of keys of 24 bytes are lost (`Seal.long_key_start_lost`).
* C110: Argon2 takes the reference of the first block of a lane from the column
  `(2^64 - 1) mod q` in later passes (`Argon2.argon2_wrong_column`); in the first
  segment addresses are used two columns late (`Argon2.argon2_wrong_address`);
  tags of more than 64 bytes have their bytes reversed in groups of eight, or are
  read beyond a hash (`Argon2.argon2_code`); parameters that are 0 pass the checks
  (`Argon2.argon2_no_lanes`, `argon2_no_memory`, `argon2_no_passes`).
* C106: `kryptos_pw2` repeats its table from 255 on and for negative exponents
  (`Small.pw2_wraps`).
* C31: the ChaCha20 counter wraps after 2^32 blocks
  (`Stream.chacha20_counter_wraps`); Salsa20 uses the constants of 32-byte keys
  for 16-byte keys (`Stream.salsa20_16_differs`); short inputs are undefined.
* C58: a nonce drawn by the library dangles afterwards
  (`Stream.chacha20_dangling`, `Stream.salsa20_dangling`).
* C33: `siphash_sum` takes the raw key (`SipHash.siphashSum_short_unsafe`,
  `SipHash.siphashSum_long_differs`).
* C34: every Poly1305 tag computation writes behind its product array
  (`Poly1305.tag_unsafe`); unknown actions report success, a task without key
  keeps its old result (`Poly1305.poly1305_action_fails`,
  `Poly1305.poly1305_keyless`).
* C91: the comparison leaves out bit 30 of each digit, so some tags are wrong
  (`Poly1305.tag_wrong`).

Hashes and what is built on them

* C16, C17: no padding is added to messages whose length is a positive multiple
  of the block size (`sha1_aligned`, `sha256_fips_fails`), which gives collisions
  for every message (`padding_collision`, `sha256_collision`); SHA-384/512 place
  the length at byte 120 and pad for 112 to 119 wrongly (`sha512_len_fails`).
* C100, C101: the same for MD4, MD5, RIPEMD-128 and RIPEMD-160
  (`Md4.md4_rfc_fails`, `Md5.md5_rfc_fails`, `Ripemd.ripemd128_fails`,
  `Ripemd.ripemd160_fails`).
* C102: the same for Tiger (`Tiger.tiger_fails_64`), whose seventh word is also
  reversed twice for lengths of 48 to 55 modulo 64 (`Tiger.tiger_fails_48`).
* C103: the same for Whirlpool (`Whirlpool.whirlpool_fails`,
  `Whirlpool.whirlpool_collision`).
* C19, C20: so HMAC-SHA-256 is not standard for some messages, and a tag can be
  forged without the key (`hmac_sha256_fails`, `hmac_sha256_check_forgery`).
* C21: HKDF refuses empty keying material and its default hash calls a null
  pointer (`hkdf_empty_fails`, `hkdf_default_ub`).
* C23, C24, C26: the throttle is never restored (`Hotp.hotp_sync_fails`), a
  rejected token advances the counter (`Hotp.hotp_reject_desyncs`), TOTP accepts
  future tokens for T0 other than 0 (`Hotp.totp_accepts_future`) and divides by
  zero for a zero step (`Hotp.totp_zero_step`).
* C49, C50: dropping OAEP is undefined for short buffers and zeros
  (`Oaep.oaep_drop_unsafe`), PSS is undefined without random bytes or for salt
  sizes near 2^64 (`Oaep.pss_no_salt_unsafe`, `Oaep.pss_salt_size_unsafe`).

Numbers

* C35-C38: adding zeros reads memory never written, 0 - b gives b, numbers of
  different sign are compared by magnitude, the division guesses quotient digits
  with 0xFF when the guess overflows (`Mp.add_zero_indeterminate`,
  `Mp.sub_from_zero_wrong`, `Mp.signed_compare_wrong`, `Mp.div_wrong`,
  `Mp.div_wrong_leading_zero`).
* C119: the division is right for all dividends only when the divisor is a number of one digit times a power of two
  (`Mp.div_right_iff`); for every odd modulus n with more than one digit, and so for every RSA or Diffie-Hellman modulus, the
  product of 2^w and n - 1 is not reduced (`Mp.mulMod_odd_wrong`).
* C40, C63: negative numerals lose a digit (`Mp.hex_negative_wrong`), assigning
  shorter numerals is wrong (`Mp.assignHex_wrong`).
* C41, C42, C65: powers are congruent but may not be reduced (`Mp.me_wrong`),
  inverses modulo even numbers may be undefined (`Mp.modinv_wrong`), Montgomery
  reduction leaves its array (`Mp.montgomery_out_of_bounds`).
* C43-C45: random numbers have one random byte per digit
  (`Mp.genRandom_misses`), Miller-Rabin refuses primes
  (`Mp.millerRabin_rejects_prime`) and never ends for 1
  (`Mp.millerRabin_one_diverges`), bounds above the largest word never return
  (`Random.pick_stuck`), the kernel variant leaves its range
  (`Random.u64Kernel_out_of_range`).
* C62: `kryptos_del_mp_value` wipes one eighth of the number (`Mp.del_leaves`).

Public keys

* C115: RSA key generation accepts equal primes, and then the message `P` is lost (`Rsa.keygen_equal_primes`); it accepts the
  exponent 1, which makes every ciphertext the message (`Rsa.keygen_exponent_one`); and a candidate of zero for the exponent makes
  it endless (`Rsa.keygen_exponent_zero`);
* C116: an ElGamal public key with `B` = 1 is found valid, for all good parameters, and messages encrypted for it can be read
  (`Elgamal.elgamal_verify_one`);
* C51: a valid RSA key pair decrypts a message wrongly (`Rsa.rsa_wrong`);
  C72: plain signatures can be forged (`Rsa.rsa_forgery`).
* C52, C76: both sides of a Diffie-Hellman exchange disagree
  (`Dh.dh_disagree`), received values are not checked (`Dh.dh_answer_one`), the
  default secret size and the group number one past the end are undefined
  (`Dh.dh_default_bits`, `Dh.dh_modp_outside`, `Dh.get_modp_other`).
* C53: ElGamal decrypts wrongly under keys of the library
  (`Elgamal.elgamal_wrong`).
* C121: kryptos_dsa_verify with a document in which the message, R or S is missing goes to its epilogue before the hash task is
  initialised, and reads and releases what is there. These are exactly the documents for which it is undefined (Props/SigVerdict).
* C122: RSA and ElGamal decryption with OAEP of the ciphertext 1 gives a block of one digit, while the padding is removed with the size
  of the modulus: bytes behind the block are read. The same document has this effect under every private key with more than one digit
  (Props/OaepDoc).
* C123: with an order of 3 the range for a secret number is empty, so that the answering side of Diffie-Hellman and the encryption of
  ElGamal never end. The parameters 7, 3 and 2 are accepted by the verification, so that verifying them first does not help
  (Props/DrawEnds).
* C126: the secrets that can be drawn on curves are equally likely (Props/EcUniform), but with digits of 64 bits they are only those
  with the upper half of every digit zero (C95). For DSA, ElGamal and Diffie-Hellman there is no bias (C125, Props/DrawUniform).
* C128: the mask of a Diffie-Hellman secret is made from the number of bits and not from the order, so that for an order much shorter
  than its digits nearly all passes fail (Props/DrawSlow); DSA and ElGamal do better (C127).
* C129: with digits of 64 bits there are only 2^128 private numbers and nonces for an order of 256 bits, in general the square root of
  2^64 times the order (Props/EcCount).
* C54, C75: DSA signatures with s = 0 are issued and refused
  (`Dsa.dsa_zero_refused`), and r = 1, s = 0 is accepted for every message and
  key (`Dsa.dsa_forgery`).

* C54: ECDSA signatures with s = 0 are issued and refused
  (`Ecdsa.ecdsa_zero_refused`); C98: the pair of zeros is accepted as a
  signature of every message under every key (`Ecdsa.ecdsa_forgery`,
  `Ecdsa.ecdsa_forgery_doc`).
* C93: with a prime of several digits the reduction may stop too early, and
  the double of a point is no point (`Ec.ec_dbl_wrong`); the origin of a curve
  with b = 0 is taken for infinity (`Ec.ec_add_origin_wrong`).
* C95: with digits of 64 bits half of the bits of every ECDH and ECDSA secret
  are zero (`Ecdh.secretK_half_zero`, `Ecdh.secretD_half_zero`); without a
  number of bits the functions are undefined or never end
  (`Ecdh.secret_no_bits`).
* C96: a message without a point makes the answering side of ECDH release its
  own point twice (`Ecdh.ecdh_double_free`; exactly then, for odd moduli:
  `Ecdh.bob_double_free_iff`), and one with an order of at most 2 keeps it
  busy for ever (`Ecdh.bob_hangs`); C97: one fixed answer forces the
  secret zero (`Ecdh.ecdh_zero_answer`).
* C99: the orders of BrainpoolP384R1 and BrainpoolP512R1 in the table lack a
  byte (`Curves.std_order_wrong`).

Tasks, memory and randomness

* C55: six kinds of tasks are treated against the documentation
  (`TaskCheck.check_fails`); malformed PEM keys are undefined
  (`TaskCheck.check_unsafe`).
* C56: paranoid builds leave random bytes instead of zeros
  (`Memory.freeseg_paranoid_not_zero`).
* C118: the generator selected by `kryptos_set_csprng` is seeded with between 1 and 31 bytes; with one byte, which happens for
  every 31st number drawn, there are only 256 possible answers to the first request (`Csprng.csprng_256_answers`); a missing
  device gives the byte 0 (`Csprng.csprng_byte_silent`), a short read the old contents of the memory (`Csprng.csprng_short_read`).
* C57: Fortuna returns zeros as a success when the system source fails
  (`Fortuna.fortuna_unseeded_fails`) and reads beyond long seeds
  (`Fortuna.reseed_long_unsafe`); AES-128 uses half of its key
  (`Fortuna.blk_half`).

Observed while reading, without a theorem: `kryptos_realloc` does not wipe moved
memory; ElGamal and DH key functions dereference pointers left by failed steps;
early error paths of the DSA functions read an uninitialised pointer.
