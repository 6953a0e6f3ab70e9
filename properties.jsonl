{"id": "C01", "title": "Base16 decode inverts encode", "statement": "Running the base16 encoder on any non-empty byte buffer and then running the base16 decoder on the produced text succeeds and yields exactly the original buffer; the encoded text has twice the length and only uses upper-case hexadecimal digits.", "quantifier": "every non-empty byte string", "why_tests_cant": "The set of buffers is infinite; tests only cover sample strings.", "anchors": ["src/kryptos_base16.c: kryptos_encode_base16, kryptos_decode_base16, kryptos_base16_processor"]}
{"id": "C02", "title": "Base64 encode is RFC 4648 and decode inverts it", "statement": "For any non-empty buffer the base64 encoder emits the RFC 4648 encoding (alphabet, padding, length 4*ceil(n/3)); feeding that text to the decoder gives back exactly the original buffer.", "quantifier": "every non-empty byte string", "why_tests_cant": "Unbounded inputs; every residue of the length modulo 3 and every bit pattern must be right.", "anchors": ["src/kryptos_base64.c: kryptos_encode_base64, kryptos_decode_base64"]}
{"id": "C03", "title": "Base32 encode is RFC 4648 and decode inverts it", "statement": "For any non-empty buffer the base32 encoder emits the RFC 4648 encoding with padding; the decoder applied to that text returns the original buffer.", "quantifier": "every non-empty byte string", "why_tests_cant": "Unbounded inputs; all five length residues and all bit patterns.", "anchors": ["src/kryptos_base32.c: kryptos_encode_base32, kryptos_decode_base32"]}
{"id": "C04", "title": "Decoders only touch memory they own", "statement": "Decoding any text with the base16, base32 or base64 decoder never reads outside the supplied text or the decoder tables and never writes outside the allocated output.", "quantifier": "every byte string handed to a decoder, valid or not", "why_tests_cant": "Out-of-bounds accesses are input dependent and usually invisible to functional tests.", "anchors": ["src/kryptos_base16.c", "src/kryptos_base32.c: kryptos_decode_base32", "src/kryptos_base64.c: kryptos_decode_base64"]}
{"id": "C05", "title": "UUEncode decode inverts encode", "statement": "For any non-empty buffer, uuencoding followed by uudecoding returns the original buffer.", "quantifier": "every non-empty byte string", "why_tests_cant": "Unbounded inputs spanning arbitrarily many 45-byte lines and all tail lengths.", "anchors": ["src/kryptos_uuencode.c"]}
{"id": "C06", "title": "ANSI X9.23 padding is well formed and reversible", "statement": "Padding a non-empty buffer for a block size between 1 and 255 gives a buffer whose length is the next strict multiple of the block size, starts with the original bytes, and whose last byte is the number of bytes added, so that dropping that many bytes gives the original buffer, whatever random bytes were used as filler.", "quantifier": "every non-empty buffer, every block size 1..255, every stream of filler bytes", "why_tests_cant": "Quantifies over random filler, all lengths and all block sizes.", "anchors": ["src/kryptos_padding.c: kryptos_ansi_x923_padding"]}
{"id": "C07", "title": "Block-mode decryption inverts encryption", "statement": "For each of ECB, CBC, OFB and CTR: decrypting what a block cipher task produced under the same key returns exactly the original plaintext, independent of the IV, filler bytes and counter used.", "quantifier": "every block cipher whose block decryption inverts block encryption, every key, IV, filler and non-empty plaintext", "why_tests_cant": "Quantifies over all messages, IVs, randomness and ciphers.", "anchors": ["src/kryptos.h: kryptos_meta_block_processing_{ecb,cbc,ofb,ctr}", "src/kryptos_types.h: KRYPTOS_IMPL_BLOCK_CIPHER_PROCESSOR", "src/kryptos_iv_utils.c", "src/kryptos_block_parser.c"]}
{"id": "C08", "title": "Block modes compute the standard modes of operation", "statement": "The ciphertext emitted after the leading IV block is the textbook ECB/CBC/OFB/CTR encryption (SP 800-38A) of the padded plaintext, where the CTR counter is the last 32 bits of the IV block, big-endian, incremented modulo 2^32.", "quantifier": "every block function, IV and non-empty plaintext", "why_tests_cant": "A unit test fixes one cipher and a handful of messages; interoperability needs equality everywhere.", "anchors": ["src/kryptos.h: kryptos_meta_block_processing_*", "src/kryptos_iv_utils.c: kryptos_iv_inc_u32"]}
{"id": "C09", "title": "Ciphertext length is predictable", "statement": "An encryption in ECB produces exactly the padded length and in CBC/OFB/CTR one block more; a GCM encryption 16 bytes more than that; so the ciphertext length depends only on plaintext length.", "quantifier": "every plaintext, key, IV and mode", "why_tests_cant": "All lengths.", "anchors": ["src/kryptos.h: kryptos_meta_block_processing_*", "src/kryptos_gcm_utils.c: kryptos_gcm_auth"]}
{"id": "C10", "title": "CTR counter continues across calls", "statement": "After a CTR task the caller's counter equals the starting counter plus the number of processed blocks modulo 2^32, so a sequence of calls that shares the counter and fixed IV prefix never reuses a counter block as long as fewer than 2^32 blocks were processed in total.", "quantifier": "every sequence of messages", "why_tests_cant": "History property over arbitrarily many calls.", "anchors": ["src/kryptos_types.h: KRYPTOS_IMPL_STANDARD_BLOCK_CIPHER_SETUP", "src/kryptos.h: kryptos_meta_block_processing_ctr"]}
{"id": "C11", "title": "Every encryption uses a fresh or caller-chosen IV", "statement": "When the same task object is used for consecutive encryptions in an IV mode, each one uses either an IV supplied by the caller for that call or a fresh random one; no IV is silently reused.", "quantifier": "every sequence of encrypt calls on one task", "why_tests_cant": "A statement about histories and random choices.", "anchors": ["src/kryptos_types.h: KRYPTOS_IMPL_STANDARD_BLOCK_CIPHER_SETUP", "src/kryptos.h: memset(iv, 0, ...) at the end of cbc/ofb/ctr"]}
{"id": "C12", "title": "Deterministic-padding encryption is a real encryption", "statement": "A task run with the action 'encrypt without random padding' in any mode yields a ciphertext that the decrypt action under the same key maps back to the plaintext.", "quantifier": "every mode, cipher, key and plaintext", "why_tests_cant": "The action is used internally (PRNG, GCM) and must invert for all inputs.", "anchors": ["src/kryptos_types.h: KRYPTOS_IMPL_BLOCK_CIPHER_PROCESSOR", "src/kryptos.h: kryptos_meta_block_processing_*"]}
{"id": "C13", "title": "Decryption of malformed ciphertext stays in bounds", "statement": "Decrypting an arbitrary byte string never reads or writes outside the buffers of the task and never reports an output size larger than the ciphertext.", "quantifier": "every byte string given as ciphertext", "why_tests_cant": "Adversarial inputs; the trailing byte of the decrypted data is attacker controlled.", "anchors": ["src/kryptos.h: kryptos_meta_block_processing_* decrypt branches", "src/kryptos_task_check.c"]}
{"id": "C14", "title": "GCM accepts exactly authentic ciphertexts", "statement": "A GCM decryption returns success only if the 16 leading bytes equal the tag recomputed over the additional data and ciphertext; otherwise it reports an authentication error and releases no plaintext. Data produced by GCM encryption is always accepted and decrypts to the plaintext.", "quantifier": "every key, IV, additional data, plaintext and every tampered ciphertext", "why_tests_cant": "All tamperings of all messages.", "anchors": ["src/kryptos_gcm_utils.c: kryptos_gcm_auth, kryptos_gcm_verify, kryptos_gcm_tag"]}
{"id": "C15", "title": "GCM tag is GHASH of SP 800-38D", "statement": "The tag is computed with the GHASH function of SP 800-38D: carry-less multiplication modulo x^128+x^7+x^2+x+1 over zero padded additional data, ciphertext and the 64-bit lengths.", "quantifier": "every hash key, additional data and ciphertext", "why_tests_cant": "Algebraic statement over 2^128 field elements and unbounded data.", "anchors": ["src/kryptos_gcm_utils.c: kryptos_gcm_ghash, kryptos_gcm_gf_mul"]}
{"id": "C16", "title": "Hash output equals the standard for every message", "statement": "SHA-1 and SHA-2 tasks produce the FIPS 180-4 digest of the message whatever its length.", "quantifier": "every message", "why_tests_cant": "Unbounded message lengths; block-boundary lengths are easily missed by tests.", "anchors": ["src/kryptos_types.h: KRYPTOS_IMPL_HASH_MESSAGE_PROCESSOR", "src/kryptos_sha1.c", "src/kryptos_sha224_256.c", "src/kryptos_sha384_512.c", "src/kryptos_hash_common.c"]}
{"id": "C17", "title": "Hash padding does not create trivial collisions", "statement": "Two different messages never have the same digest merely because of padding: the sequence of blocks given to the compression function determines the message.", "quantifier": "every pair of messages", "why_tests_cant": "Injectivity is a property of pairs of unbounded inputs.", "anchors": ["src/kryptos_types.h: KRYPTOS_IMPL_HASH_MESSAGE_PROCESSOR"]}
{"id": "C18", "title": "Incremental hashing does not depend on chunking", "statement": "Hashing by init, any sequence of updates and finalize equals hashing the concatenation of the chunks at once.", "quantifier": "every list of chunks", "why_tests_cant": "All ways of splitting all messages.", "anchors": ["src/kryptos_hash_common.c: kryptos_hash_do_update, kryptos_hash_do_finalize"]}
{"id": "C19", "title": "HMAC is RFC 2104", "statement": "The MAC prepended by an HMAC task is H((K xor opad) || H((K xor ipad) || m)), with the key hashed first when longer than the hash block.", "quantifier": "every hash function, key and message", "why_tests_cant": "All key lengths around the block size and all messages.", "anchors": ["src/kryptos_hmac.c"]}
{"id": "C20", "title": "HMAC verification accepts exactly authentic data", "statement": "An HMAC verification task succeeds iff the leading bytes equal the HMAC of the rest; data produced by an HMAC generation is accepted and the MAC is stripped; otherwise an HMAC error is reported.", "quantifier": "every key and byte string", "why_tests_cant": "All tamperings.", "anchors": ["src/kryptos_hmac.c"]}
{"id": "C21", "title": "HKDF is RFC 5869", "statement": "HKDF returns the first L bytes of the RFC 5869 expansion and refuses L greater than 255 times the hash size.", "quantifier": "every salt, key material, info and length", "why_tests_cant": "Unbounded inputs, every output length.", "anchors": ["src/kryptos_hkdf.c"]}
{"id": "C22", "title": "PBKDF2 is RFC 8018", "statement": "PBKDF2 returns dkLen bytes of the concatenated blocks F(P,S,c,i).", "quantifier": "every password, salt, iteration count and length", "why_tests_cant": "Unbounded iteration counts and lengths.", "anchors": ["src/kryptos_pbkdf2.c"]}
{"id": "C23", "title": "HOTP tokens and counters stay in sync", "statement": "If client and server start with the same counter, and the client generates at most s tokens (s = resynchronisation window) that the server never sees between two tokens it does see, then in every history each token that reaches the server is accepted and both counters agree afterwards (assuming no HMAC truncation coincidences inside the window).", "quantifier": "every interleaving of generated, lost and validated tokens", "why_tests_cant": "Reachability over unbounded histories.", "anchors": ["src/kryptos_hotp.c"]}
{"id": "C24", "title": "A rejected HOTP token leaves the validator in sync", "statement": "A validation that fails must not move the moving factor: after any number of wrong tokens (within the throttle limit) a legitimate next token is still accepted.", "quantifier": "every history of wrong tokens", "why_tests_cant": "History property; a single failed attempt test does not look at later state.", "anchors": ["src/kryptos_hotp.c: kryptos_hotp, kryptos_hotp_validate"]}
{"id": "C25", "title": "HOTP throttling bounds guessing", "statement": "The number of token comparisons a validator performs until it locks is bounded by the throttle parameter, whatever tokens are presented.", "quantifier": "every history of validation attempts", "why_tests_cant": "Unbounded sequence of adversarial attempts.", "anchors": ["src/kryptos_hotp.c"]}
{"id": "C26", "title": "TOTP accepts exactly the tokens of the allowed time steps", "statement": "A TOTP validation succeeds iff the token is the HOTP value for the current time step or one of the two previous ones.", "quantifier": "every time, T0, step and key", "why_tests_cant": "All times and offsets.", "anchors": ["src/kryptos_totp.c"]}
{"id": "C27", "title": "ARC4 is an involution and matches RC4", "statement": "Applying the ARC4 task twice with the same key returns the original buffer; the permutation state always remains a permutation of 0..255; output length equals input length.", "quantifier": "every key of 1..256 bytes and every message", "why_tests_cant": "Invariant over unbounded keystream.", "anchors": ["src/kryptos_arc4.c"]}
{"id": "C28", "title": "TEA and XTEA block decryption inverts encryption", "statement": "For every key (and every number of XTEA rounds) decrypting an encrypted block returns the block.", "quantifier": "every 128-bit key, every 64-bit block, every positive number of XTEA rounds", "why_tests_cant": "2^192 inputs and unbounded rounds.", "anchors": ["src/kryptos_tea.c", "src/kryptos_xtea.c"]}
{"id": "C29", "title": "Feistel and SP block ciphers invert", "statement": "For each remaining block cipher of the library (DES/3DES, IDEA, Blowfish, FEAL, Camellia, CAST5, RC2, RC5, RC6, SAFER K-64, AES, Serpent, MISTY1, PRESENT, SHACAL-1/2, NOEKEON, GOST, Twofish, MARS) block decryption inverts block encryption under every key.", "quantifier": "every key accepted by the cipher and every block", "why_tests_cant": "Keys and blocks are 64..512 bits wide.", "anchors": ["src/kryptos_des.c", "src/kryptos_idea.c", "src/kryptos_blowfish.c", "src/kryptos_aes.c", "..."]}
{"id": "C30", "title": "AES tables and rounds are FIPS-197", "statement": "The block function of the AES ciphers is the FIPS-197 cipher, where S-box and MixColumns are defined by GF(2^8) arithmetic.", "quantifier": "every key and block", "why_tests_cant": "Exhaustive testing over 2^128 blocks is impossible.", "anchors": ["src/kryptos_aes.c"]}
{"id": "C31", "title": "ChaCha20 and Salsa20 are involutive stream ciphers", "statement": "Decrypting a ChaCha20/Salsa20 ciphertext with the same key and nonce returns the plaintext; the keystream block i uses counter start+i, so different blocks of a message never share a counter.", "quantifier": "every key, nonce, starting counter and message", "why_tests_cant": "Unbounded messages.", "anchors": ["src/kryptos_chacha20.c", "src/kryptos_salsa20.c", "src/kryptos_salsa20_core.c"]}
{"id": "C32", "title": "SipHash tags are SipHash-c-d and verified exactly", "statement": "The tag is SipHash-c-d of the message under the (zero padded or folded) key; verification accepts iff the leading eight bytes are that tag.", "quantifier": "every key, message, c and d", "why_tests_cant": "Unbounded messages and round counts.", "anchors": ["src/kryptos_siphash.c"]}
{"id": "C33", "title": "SipHash sum and SipHash task agree", "statement": "For every key accepted by both, the value returned by the siphash sum function is the tag a siphash task prepends.", "quantifier": "every key and message", "why_tests_cant": "All key lengths.", "anchors": ["src/kryptos_siphash.c: kryptos_siphash_sum, kryptos_siphash"]}
{"id": "C34", "title": "Poly1305 task authenticates", "statement": "A Poly1305 task in decrypt direction succeeds iff the tag matches the one recomputed over the message; what the encrypt direction emits is accepted and stripped back to the message. A task with any other action does not report success.", "quantifier": "every key, nonce, message and action", "why_tests_cant": "All tamperings and action values.", "anchors": ["src/kryptos_poly1305.c"]}
{"id": "C35", "title": "Big number addition, subtraction, multiplication are exact", "statement": "For all big numbers the functions add/sub/mul compute the exact result over the non-negative integers (sub as signed magnitude), independent of operand sizes and aliasing-free use.", "quantifier": "every pair of big numbers of any size", "why_tests_cant": "Carry and borrow propagation over unbounded digit counts.", "anchors": ["src/kryptos_mp.c: kryptos_mp_add, kryptos_mp_sub, kryptos_mp_mul"]}
{"id": "C36", "title": "Signed big number helpers agree with integers", "statement": "The sign-aware add_s/sub_s/mul_s helpers compute integer sum, difference and product for every sign combination.", "quantifier": "every pair of signed big numbers", "why_tests_cant": "All sign/magnitude combinations at all sizes.", "anchors": ["src/kryptos_mp.c: kryptos_mp_add_s, kryptos_mp_sub_s, kryptos_mp_mul_s"]}
{"id": "C37", "title": "Big number comparison is the integer order", "statement": "eq/gt/lt/ge/le on non-negative big numbers decide the integer order regardless of leading zero digits.", "quantifier": "every pair of non-negative big numbers", "why_tests_cant": "All sizes.", "anchors": ["src/kryptos_mp.c: kryptos_mp_eq, kryptos_mp_get_gt"]}
{"id": "C38", "title": "Big number division returns quotient and remainder", "statement": "For every dividend and non-zero divisor, div returns q and r with x = q*y + r and r < y.", "quantifier": "every pair of big numbers", "why_tests_cant": "The quotient-digit estimate can fail on rare digit patterns that random tests do not hit.", "anchors": ["src/kryptos_mp.c: kryptos_mp_div"]}
{"id": "C39", "title": "Big number shifts are multiplication and floor division by powers of two", "statement": "lsh by k multiplies by 2^k, rsh by k divides by 2^k rounding down.", "quantifier": "every big number and shift amount", "why_tests_cant": "All shift amounts across digit boundaries.", "anchors": ["src/kryptos_mp.c: kryptos_mp_lsh, kryptos_mp_rsh"]}
{"id": "C40", "title": "Hex conversion of big numbers is faithful", "statement": "Reading a hexadecimal string as a big number and printing it back gives the same number; printing then reading any big number is the identity on values.", "quantifier": "every hex string, every big number", "why_tests_cant": "All lengths.", "anchors": ["src/kryptos_mp.c: kryptos_hex_value_as_mp, kryptos_mp_value_as_hex"]}
{"id": "C41", "title": "Modular exponentiation computes b^e mod n", "statement": "me_mod_n returns b^e mod n for every base, exponent and modulus provided division is correct on the operands it meets.", "quantifier": "every b, e, n", "why_tests_cant": "Unbounded exponents.", "anchors": ["src/kryptos_mp.c: kryptos_mp_me_mod_n"]}
{"id": "C42", "title": "Modular inverse is an inverse", "statement": "modinv(a, m) returns the unique x < m with a*x = 1 (mod m) whenever gcd(a,m)=1.", "quantifier": "every coprime pair", "why_tests_cant": "Unbounded Euclid iterations.", "anchors": ["src/kryptos_mp.c: kryptos_mp_modinv"]}
{"id": "C43", "title": "Random big numbers cover the requested range", "statement": "Every value below the bound can be produced by the random big number generator (no entropy is lost).", "quantifier": "every bound", "why_tests_cant": "Statement about all possible outputs of the entropy source.", "anchors": ["src/kryptos_mp.c: kryptos_mp_gen_random"]}
{"id": "C44", "title": "Primality filter accepts all primes", "statement": "The Miller-Rabin test never rejects a prime, whatever base was drawn, and terminates for every candidate.", "quantifier": "every prime and every random base", "why_tests_cant": "Infinitely many primes.", "anchors": ["src/kryptos_mp.c: kryptos_mp_miller_rabin_test, kryptos_mp_is_prime"]}
{"id": "C45", "title": "Bounded random numbers are unbiased", "statement": "kryptos_unbiased_rand_mod_u{8,16,32,64}(n) returns every residue below n with equal probability and never a value >= n.", "quantifier": "every modulus n", "why_tests_cant": "Distribution statement over all source words.", "anchors": ["src/kryptos_random.c: kryptos_unbiased_rand_mod_u8/16/32/64"]}
{"id": "C46", "title": "PEM buffer behaves as a map from headers to data", "statement": "After any sequence of successful put operations with distinct headers, getting a header returns exactly the data that was put under it; putting an already used header is refused and leaves the buffer unchanged; putting never disturbs earlier entries.", "quantifier": "every sequence of puts and gets", "why_tests_cant": "Histories of arbitrary length.", "anchors": ["src/kryptos_pem.c: kryptos_pem_put_data, kryptos_pem_get_data"]}
{"id": "C47", "title": "PEM parsing of arbitrary text is memory safe", "statement": "Looking up any header in any NUL terminated text never reads or writes outside the text and never computes a bogus size.", "quantifier": "every text and header", "why_tests_cant": "Adversarial malformed files.", "anchors": ["src/kryptos_pem.c: kryptos_pem_get_data"]}
{"id": "C48", "title": "Huffman inflate inverts deflate", "statement": "Inflating what deflate produced returns the original buffer.", "quantifier": "every non-empty buffer", "why_tests_cant": "Trees depend on byte statistics of unbounded inputs.", "anchors": ["src/kryptos_huffman.c"]}
{"id": "C49", "title": "OAEP decoding inverts encoding", "statement": "Dropping the OAEP padding of a padded message with the same label and hash returns the message; messages longer than k-2h-2 are refused.", "quantifier": "every message, label, seed, hash and modulus size", "why_tests_cant": "All sizes and random seeds.", "anchors": ["src/kryptos_padding.c: kryptos_apply_oaep_padding, kryptos_drop_oaep_padding"]}
{"id": "C50", "title": "PSS verification accepts exactly well-formed encodings of the message", "statement": "An encoding made by the PSS encoder for message m verifies for m, whatever salt was drawn.", "quantifier": "every message, salt length and modulus size", "why_tests_cant": "Random salts, all sizes.", "anchors": ["src/kryptos_padding.c: kryptos_pss_encode, kryptos_pss_verify"]}
{"id": "C51", "title": "RSA decryption inverts encryption", "statement": "With an RSA key pair (n,e,d), decrypting an encrypted message returns the message.", "quantifier": "every valid key pair and message below the modulus", "why_tests_cant": "Number theoretic statement.", "anchors": ["src/kryptos_rsa.c"]}
{"id": "C52", "title": "Diffie-Hellman parties agree", "statement": "Both sides of the DH exchange derive the same secret.", "quantifier": "every group, generator and pair of secrets", "why_tests_cant": "All secrets.", "anchors": ["src/kryptos_dh.c"]}
{"id": "C53", "title": "ElGamal decryption inverts encryption", "statement": "Decrypting an ElGamal ciphertext returns the message for every ephemeral key.", "quantifier": "every key pair, message and ephemeral secret", "why_tests_cant": "All random choices.", "anchors": ["src/kryptos_elgamal.c"]}
{"id": "C54", "title": "DSA and ECDSA accept their own signatures", "statement": "A signature made with a private key verifies under the matching public key, whatever nonce was drawn.", "quantifier": "every key pair, message and nonce for which signing succeeds", "why_tests_cant": "All random nonces.", "anchors": ["src/kryptos_dsa.c", "src/kryptos_ecdsa.c"]}
{"id": "C55", "title": "Task validation accepts exactly the well-formed cipher tasks", "statement": "The task check passes iff cipher, mode, action, key, iv and input fulfil the documented requirements; on failure the task result says which one.", "quantifier": "every task content", "why_tests_cant": "Product of all field values.", "anchors": ["src/kryptos_task_check.c"]}
{"id": "C56", "title": "Secrets are wiped before memory is released", "statement": "Freeing a task segment with its size overwrites all its bytes with zero before returning it to the allocator.", "quantifier": "every segment and size", "why_tests_cant": "Unbounded sizes.", "anchors": ["src/kryptos_memory.c: kryptos_freeseg", "src/kryptos.h: kryptos_task_free"]}
{"id": "C57", "title": "Fortuna generator state is forward secure by construction", "statement": "Every request re-keys the generator, the counter never returns to an earlier value between re-seeds, and output length equals the request for all accepted sizes.", "quantifier": "every sequence of requests and re-seeds", "why_tests_cant": "Histories.", "anchors": ["src/kryptos_fortuna.c"]}
{"id": "C58", "title": "Nonce handling of stream tasks leaves no dangling pointers", "statement": "After a stream cipher task that generated its own nonce, the task's IV pointer is either NULL or owns live memory, so the task can be freed or reused.", "quantifier": "every sequence of runs and frees on one task", "why_tests_cant": "Ownership over histories.", "anchors": ["src/kryptos_chacha20.c", "src/kryptos_salsa20.c"]}
{"id": "C59", "title": "Constant-work comparison decides equality", "statement": "The library's memcmp replacement returns zero iff the two buffers are equal and inspects all bytes irrespective of where they differ.", "quantifier": "every pair of buffers", "why_tests_cant": "All buffers, plus a statement about work done.", "anchors": ["src/kryptos_userland_funcs.c: kryptos_memcmp"]}
{"id": "C60", "title": "Encrypt-then-MAC composition", "statement": "kryptos_run_cipher_hmac followed by itself with the decrypt action gives the plaintext back, and data that is not a MAC followed by its message never reaches the cipher.", "quantifier": "every cipher that inverts, every hash function, key, plaintext and tampered ciphertext", "why_tests_cant": "The composition of every cipher with every hash, and all tamperings.", "anchors": ["src/kryptos.h: kryptos_run_cipher_hmac", "src/kryptos_hmac.c"]}
{"id": "C61", "title": "HOTP token generation conforms to RFC 4226", "statement": "For every hash whose digest has at least 19 bytes, key, 64-bit counter and number of digits from 1 to 9, the token produced by kryptos_do_hotp is Truncate(HMAC(K, C)) mod 10^d of RFC 4226, and truncation never reads outside the MAC buffer for any digest size admitted by kryptos_hotp_init.", "quantifier": "all keys, counters, digit counts 1..9 and hashes of at least 19 bytes (safety: 15 bytes)", "why_tests_cant": "The offset is data dependent: 16 values and the carry into the masked top bit cannot be enumerated over all MAC values by tests; the out of bounds case only shows up with short digests and large offsets.", "anchors": ["src/kryptos_hotp.c:201-226", "src/kryptos_hotp.c:160-199"]}
{"id": "C62", "title": "Released big numbers are wiped", "statement": "When a big number is released, no byte of its digits is left in the memory handed to the allocator.", "quantifier": "every big number, every build option without random wiping", "why_tests_cant": "The leftover is in freed memory, which a test may not read.", "anchors": ["src/kryptos_mp.c: kryptos_del_mp_value", "src/kryptos_memory.c: kryptos_freeseg"]}
{"id": "C63", "title": "Assigning a numeral sets the number", "statement": "Assigning a hexadecimal numeral to an existing big number gives the number of the numeral, whatever the old value and the size of the destination.", "quantifier": "every numeral, every destination", "why_tests_cant": "All old contents and all combinations of sizes.", "anchors": ["src/kryptos_mp.c: kryptos_assign_hex_value_to_mp"]}
{"id": "C64", "title": "Greatest common divisor is exact", "statement": "kryptos_mp_gcd returns the greatest common divisor of two positive numbers and terminates.", "quantifier": "every pair of positive numbers of every size", "why_tests_cant": "Unbounded loop over unbounded numbers.", "anchors": ["src/kryptos_mp.c: kryptos_mp_gcd"]}
{"id": "C65", "title": "Barrett and Montgomery reductions agree with the remainder", "statement": "The Barrett and Montgomery reductions give the remainder of the division for the arguments they are meant for.", "quantifier": "every modulus and every argument in range", "why_tests_cant": "All moduli of all sizes.", "anchors": ["src/kryptos_mp.c: kryptos_mp_barrett_reduction, kryptos_mp_montgomery_reduction"]}
{"id": "C66", "title": "The table of small primes is complete", "statement": "The table used to filter prime candidates contains exactly the odd primes up to its last entry, so a candidate which passes has no prime factor up to that entry except itself and two.", "quantifier": "every odd prime up to the last entry, every candidate", "why_tests_cant": "Completeness of a table and divisibility for all candidates.", "anchors": ["src/kryptos_mp.c: g_kryptos_mp_small_primes, kryptos_mp_gen_prime_small_primes_test"]}
{"id": "C67", "title": "Generated primes pass every filter", "statement": "A number returned by the prime generator is odd, has no prime factor among the small primes, has its top bit at or above the requested size rounded down to whole digits, and is a strong probable prime to a base drawn from the random source.", "quantifier": "every sequence of random bytes, every size", "why_tests_cant": "The generator is random and searches without bound.", "anchors": ["src/kryptos_mp.c: kryptos_mp_gen_prime, kryptos_mp_gen_prime_small_primes_test, kryptos_mp_miller_rabin_test"]}
{"id": "C68", "title": "The key loader of the block ciphers ignores no key byte", "statement": "The shared key loader (used by AES, Blowfish, Camellia, CAST5, DES, GOST, IDEA, RC2, RC5, RC6, Serpent, SHACAL and others) turns different user keys of the same accepted length into different word arrays; no byte of the user key is without effect.", "quantifier": "for every word size, every capacity, every key length that fits, and every pair of keys of this length", "why_tests_cant": "The effect of the last, incomplete word depends on the key length modulo the word size, and the tests only use keys of the standard lengths, which are multiples of the word size.", "anchors": ["src/kryptos.h:143-185", "src/kryptos_aes.c"]}
{"id": "C69", "title": "RC5 and RC6 follow the publications", "statement": "RC5-32/r/b and RC6-32/r/b compute, for every accepted key and number of rounds, the published key expansion and encryption.", "quantifier": "for every accepted key, every accepted number of rounds, every block", "why_tests_cant": "The number of rounds and the key length are parameters; the tests fix a few pairs, and the data dependent rotations take special values for few inputs.", "anchors": ["src/kryptos_rc5.c", "src/kryptos_rc6.c"]}
{"id": "C70", "title": "SHACAL-1 and SHACAL-2 are the compression functions of SHA-1 and SHA-256 without the final addition", "statement": "For every key the library accepts and every block, SHACAL-1 and SHACAL-2 encryption return the state which the compression function of FIPS 180-4 has before its final addition, started on the block as chaining value with the zero-padded key as message block.", "quantifier": "all keys, all blocks", "why_tests_cant": "The test vectors use keys of whole words; the key space is unbounded and the key loader treats an incomplete last word differently.", "anchors": ["src/kryptos_shacal1.c", "src/kryptos_shacal2.c", "src/kryptos.h:143-174"]}
{"id": "C71", "title": "PRESENT follows the publication", "statement": "PRESENT-80 and PRESENT-128 encrypt, for every key the library accepts and every block, as published: 31 rounds of key addition, S-box layer and the bit permutation 16 i mod 63, under the round keys of the 80 or 128 bit register holding the zero-padded key.", "quantifier": "for every accepted key, every block", "why_tests_cant": "The code keeps the register in two parts and updates single bits with masks; the tests compare eight vectors. The key is copied into a fixed buffer, and the length of the key is unbounded.", "anchors": ["src/kryptos_present.c"]}
{"id": "C72", "title": "RSA signatures verify, plain and PSS, and only with the signing exponent's power", "statement": "For an RSA key pair, what kryptos_rsa_sign makes of a message below the modulus is accepted by kryptos_rsa_verify, which gives back the message; with EMSA-PSS likewise. A signature is accepted only if its e-th power modulo n is the signed number.", "quantifier": "Every valid key pair, message and salt", "why_tests_cant": "A sweep over key sizes and messages cannot meet the rare divisions that go wrong, and cannot show that nobody else can make a document that is accepted.", "anchors": ["src/kryptos_rsa.c:529-715", "src/kryptos_rsa.c:717-848", "src/kryptos_padding.c:513-990"]}
{"id": "C73", "title": "RSA-OAEP tasks give back the message", "statement": "Decrypting with kryptos_rsa_oaep_cipher what it has encrypted gives back the message, for every label and seed.", "quantifier": "Every valid key pair, message that fits, seed and label", "why_tests_cant": "Whether the padded message keeps its length through the power depends on its leading digits, which random tests meet with probability 2^-56.", "anchors": ["src/kryptos_rsa.c:259-345", "src/kryptos_padding.c:160-511"]}
{"id": "C74", "title": "Accepted and generated domain parameters are sound", "statement": "When kryptos_verify_dl_params accepts p, q, g then 1 < g < p - 1, q divides p - 1 and g^q = 1 modulo p, so that g generates a group of order q when q is prime; every triple from kryptos_generate_dl_params has these relations; numbers drawn for private and ephemeral keys lie in the range.", "quantifier": "for all p, q, g, all bit sizes and all random streams", "why_tests_cant": "The check computes with the library's own division, which is wrong for rare operands; tests only check generated parameters against the same code.", "anchors": ["src/kryptos_dl_params.c:20-35", "src/kryptos_dl_params.c:37-139", "src/kryptos_dl_params.c:141-237"]}
{"id": "C75", "title": "DSA signatures with r or s out of range are rejected", "statement": "kryptos_dsa_verify rejects every document whose r or s is zero or not below q; in particular nobody can make an accepted document from the public key alone by choosing r and s out of range.", "quantifier": "for all public keys, messages, r and s", "why_tests_cant": "The tests verify own signatures and signatures with changed messages; no test chooses r = 1 and s = 0.", "anchors": ["src/kryptos_dsa.c:490-894"]}
{"id": "C76", "title": "A received Diffie-Hellman public value 0, 1 or p - 1 is rejected", "statement": "The exchange functions of kryptos_dh.c refuse a received public value that is 0, 1 or p - 1, so that the derived key cannot be forced by who answers.", "quantifier": "for all groups, secrets and received values", "why_tests_cant": "The tests only exchange honestly computed values.", "anchors": ["src/kryptos_dh.c"]}
{"id": "C77", "title": "Inflating arbitrary bytes is memory safe", "statement": "kryptos_huffman_inflate, given any buffer, returns a result or NULL without reading outside of the buffer or following a null pointer.", "quantifier": "for all buffers of any size", "why_tests_cant": "The tests only inflate what was deflated just before.", "anchors": ["src/kryptos_huffman.c:86-141", "src/kryptos_huffman.c:511-544"]}
{"id": "C78", "title": "IDEA encrypts as published", "statement": "kryptos_idea_cipher in ECB mode encrypts a block as Lai's publication says: the 52 words of the schedule come from the 128-bit key rotated by 25 bits between groups of eight, products are taken modulo 2^16 + 1 with zero standing for 2^16, and the eight rounds and the final transformation are those published.", "quantifier": "for all keys of whole half-words or of at least 16 bytes, and all blocks", "why_tests_cant": "The product has special cases for zero operands, which a random block meets rarely; the tests use thirteen vectors.", "anchors": ["src/kryptos_idea.c:20-260"]}
{"id": "C79", "title": "SAFER K-64 encrypts as published", "statement": "kryptos_saferk64_cipher in ECB mode encrypts a block as Massey's publication says, for every accepted number of rounds: powers of 45 modulo 257 and logarithms, key biases 45^(45^(9i+j mod 257) mod 257) mod 257, three layers of pseudo-Hadamard transforms.", "quantifier": "for all keys of whole half-words or of at least 8 bytes, all blocks and all numbers of rounds from 1 to 800", "why_tests_cant": "The tests use four vectors with six rounds.", "anchors": ["src/kryptos_saferk64.c:20-362"]}
{"id": "C80", "title": "DES and triple DES encrypt as in FIPS 46-3", "statement": "kryptos_des_cipher encrypts and decrypts a block as FIPS 46-3 says, and kryptos_triple_des_ede_cipher as its triple data encryption algorithm says (encrypt with the first key, decrypt with the second, encrypt with the third).", "quantifier": "for all accepted keys of at least 8 bytes or of an even number of bytes, and all blocks", "why_tests_cant": "A handful of vectors reach few entries of the eight boxes and few subkeys; the implementation works on arrays of characters with its own tables, each entry of which matters.", "anchors": ["src/kryptos_des.c:19-155", "src/kryptos_des.c:411-831"]}
{"id": "C81", "title": "DES refuses weak and semi-weak keys", "statement": "No accepted DES key is weak (encrypting twice gives the block back), and no two accepted keys are semi-weak partners (one decrypts what the other encrypts).", "quantifier": "for all keys and pairs of keys", "why_tests_cant": "The table of weak keys is tested by going through the table itself; parity variants and misspelt entries are never tried.", "anchors": ["src/kryptos_des.c:738-750", "src/kryptos_des.c:833-884"]}
{"id": "C82", "title": "Triple DES in EDE form is never single DES", "statement": "The keys that kryptos_triple_des_ede_cipher accepts do not reduce it to single DES: first and second key, and second and third key, are different in more than parity bits.", "quantifier": "for all triples of keys", "why_tests_cant": "Tests try one pair of equal keys.", "anchors": ["src/kryptos_des.c:336-375"]}
{"id": "C83", "title": "Blowfish encrypts as published", "statement": "For every key that is accepted, kryptos_blowfish encrypts and decrypts blocks as the publication says: the P-array and the boxes are the fraction of pi, the bytes of the key are repeated over the P-array, and all 1042 words are replaced by encryptions of a zero block.", "quantifier": "all keys, all blocks", "why_tests_cant": "The published test vectors use keys of eight bytes; lengths that are not whole words take other paths, and the tables have 1042 entries of which a block touches 82.", "anchors": ["src/kryptos_blowfish.c:310-495"]}
{"id": "C84", "title": "bcrypt computes the published hash", "statement": "For every cost from 4 to 31, salt of 16 bytes and password of at most 72 bytes kryptos_bcrypt returns the text of the bcrypt hash (expensive setup with 2^cost rounds, 64 encryptions of the magic text, radix 64), and for all other arguments no hash; it is never undefined.", "quantifier": "all costs, salts and passwords", "why_tests_cant": "The work grows with 2^cost, so that high costs cannot be tested, and a test covers one salt and password each.", "anchors": ["src/kryptos_blowfish.c:497-626", "src/kryptos_blowfish.c:682-851"]}
{"id": "C85", "title": "bcrypt verification accepts exactly the hashes of the password", "statement": "kryptos_bcrypt_verify accepts a text for a password if and only if kryptos_bcrypt computes this text from the password for some cost and salt, and it never reads outside of the text or its tables.", "quantifier": "all texts, all passwords", "why_tests_cant": "Rejection concerns all other texts, among them malformed ones of every length.", "anchors": ["src/kryptos_blowfish.c:628-680", "src/kryptos_blowfish.c:853-913"]}
{"id": "C86", "title": "CAST-128 as in RFC 2144", "statement": "Under every key of up to 128 bits, a block is encrypted and decrypted as RFC 2144 specifies: the key is filled up with zeros, the thirty-two subkeys are the RFC's, keys up to 80 bits use twelve rounds and longer ones sixteen; no operation is undefined in C.", "quantifier": "For all keys of at most 16 bytes and all blocks.", "why_tests_cant": "The test vectors use a handful of keys whose lengths fill words; that some keys give rotations by zero (and therefore a shift by the width of the word), or that keys with an incomplete word are packed differently, is seen only by considering all keys.", "anchors": ["src/kryptos_cast5.c:341-823"]}
{"id": "C87", "title": "Serpent as published", "statement": "Under every key the setup accepts, a block is encrypted and decrypted as the Serpent proposal defines it by S-box tables, bit by bit: the bit-sliced logic of all sixteen S-boxes, the linear transformations, the padded key, the 132 prekeys and the 33 subkeys; the result does not depend on the register that is used without being set.", "quantifier": "For all keys, all blocks and all values of the uninitialised register.", "why_tests_cant": "The bit-sliced S-boxes are Boolean programs over 32-bit registers; a wrong gate can show for few inputs only, and key lengths other than the ones of the vectors (above all lengths over 32 bytes) are not run.", "anchors": ["src/kryptos_serpent.c:30-408", "src/kryptos_serpent.c:511-924"]}
{"id": "C88", "title": "MARS as published", "statement": "Under every key the setup accepts, a block is encrypted and decrypted by all three variants as IBM's revised publication defines MARS: the S-box made of SHA-1 values, the key expansion with its 15 words, the correction of the multiplication subkeys by the mask of runs of ten equal bits, the mixing phases and the keyed transformation.", "quantifier": "For all keys (16, 24 and 32 bytes and every other length) and all blocks.", "why_tests_cant": "Data-dependent rotations by zero occur for a few blocks of each key; the correction mask depends on rare patterns of bits; keys longer than the vectors' are not run.", "anchors": ["src/kryptos_mars.c:20-205", "src/kryptos_mars.c:249-646"]}
{"id": "C89", "title": "Twofish as published", "statement": "Under every key the setup accepts, a block is encrypted as the publication of 1998 defines Twofish: the permutations q0 and q1 made of nibble tables, the MDS and RS matrices over their fields by logarithm tables, the function h, the key schedule and sixteen rounds; decryption undoes it, and the result does not depend on what the uninitialised structure of subkeys held.", "quantifier": "For all keys of every length in the three variants (cut or filled with zeros to 16, 24 or 32 bytes), all blocks and all old contents of the subkeys.", "why_tests_cant": "Logarithm tables with one wrong entry show only when that byte occurs; the old contents of the structure are shifted out of every word, which tests with fresh stack frames do not show.", "anchors": ["src/kryptos_twofish.c:63-492", "src/kryptos_twofish.c:575-984"]}
{"id": "C90", "title": "GOST is GOST 28147-89", "statement": "For every choice of eight substitution boxes of sixteen nibbles and every key, encryption and decryption of a block are the simple replacement mode of GOST 28147-89 (RFC 5830, section 4) on the two words of the block, with the eight key words used in the order of the standard; the fixed boxes of the library are the first rows of the DES S-boxes, as in Schneier's book.", "quantifier": "all sets of boxes, all keys, all blocks", "why_tests_cant": "No official test vectors exist for a given set of boxes; each user-supplied set of boxes is another cipher, and keys of any length are accepted.", "anchors": ["src/kryptos_gost.c", "src/kryptos_endianness_utils.c"]}
{"id": "C91", "title": "Poly1305 tags are those of RFC 8439", "statement": "For every message and every key of 32 bytes the tag is poly1305_mac of RFC 8439: the clamped first half of the key as r, all blocks of 16 bytes or less with a one behind them, sums and products modulo 2^130 - 5, the second half of the key added and the low 16 bytes written lowest first.", "quantifier": "all messages of any length, all keys", "why_tests_cant": "A comparison leaves out one bit of 64 and a guess of a quotient digit saturates at 0xFF; both change the tag only for about one block in 2^32, which random tests never meet.", "anchors": ["src/kryptos_poly1305.c", "src/kryptos_poly1305_mp.c"]}
{"id": "C92", "title": "Camellia computes the cipher of RFC 3713", "statement": "For every key of 16, 24 or 32 bytes and every block, Camellia encryption and decryption are those of RFC 3713, its S-box s1 being the affine-inverse map of the specification of the cipher.", "quantifier": "all keys of 16, 24 and 32 bytes, all blocks", "why_tests_cant": "Keys and blocks are 128 to 256 bits wide; the code rotates the key one bit at a time in copies of four words, where a slip touches single subkeys.", "anchors": ["src/kryptos_camellia.c"]}
{"id": "C93", "title": "Point arithmetic is that of the elliptic curve group", "statement": "For a curve y^2 = x^3 + ax + b over an odd prime field with b not zero, kryptos_ec_dbl, kryptos_ec_add and kryptos_ec_mul compute the double, the sum and the multiple of points in the group of the curve, the pair of zeros standing for the point at infinity; the result has coordinates below the prime.", "quantifier": "every prime, every curve with b nonzero, all points including the point at infinity, equal points and opposite points, every multiplier", "why_tests_cant": "the exceptional cases (infinity, opposite points, intermediate infinity in the ladder) need points that random tests never hit, and wrong reductions depend on rare digit patterns", "anchors": ["src/kryptos_ec_utils.c:76-267", "src/kryptos_ec_utils.c:269-370", "src/kryptos_ec_utils.c:372-440"]}
{"id": "C94", "title": "Both sides of an ECDH exchange agree", "statement": "After the three calls of kryptos_ecdh_process_xchg (Alice offers, Bob answers, Alice completes), both sides hold the same number, the first coordinate of the product of both secrets with the generator.", "quantifier": "every curve, every generator, all secrets drawn, digits of 32 and 64 bits", "why_tests_cant": "the secrets are random and of hundreds of bits; agreement depends on the group law for every pair", "anchors": ["src/kryptos_ecdh.c:175-472", "src/kryptos_ecdh.c:25-119"]}
{"id": "C95", "title": "Secrets on elliptic curves are drawn from the whole range", "statement": "The secrets of kryptos_ecdh_get_random_k and of kryptos_ecdsa_get_random_d are at least 2 (at least 1 for ECDSA) and below the order, and every number of that range can be drawn; the functions are defined for every number of bits, also when it is not given.", "quantifier": "every order, every number of bits, every stream of random bytes", "why_tests_cant": "a range of 2^160 numbers and more cannot be sampled so as to notice half of the bits missing in the sense of a proof, and no test asks for zero bits", "anchors": ["src/kryptos_ecdh.c:121-173", "src/kryptos_ecdsa.c:760-795"]}
{"id": "C96", "title": "ECDH messages from a peer never lead to undefined behaviour", "statement": "Whatever document the other side sends, kryptos_ecdh_process_xchg ends with a result and releases each of its numbers once.", "quantifier": "every received document", "why_tests_cant": "the set of documents is infinite; the double release happens on an error path without visible effect on many platforms", "anchors": ["src/kryptos_ecdh.c:300-397", "src/kryptos_ecdh.c:448-472"]}
{"id": "C97", "title": "An ECDH peer cannot force the shared secret", "statement": "An answer whose point is not a point of the curve other than infinity is refused, so that no answer makes the shared secret a number known in advance.", "quantifier": "every curve, every secret, every answer", "why_tests_cant": "tests exchange only honest messages", "anchors": ["src/kryptos_ecdh.c:398-444"]}
{"id": "C98", "title": "ECDSA verification accepts no trivial signature", "statement": "kryptos_ecdsa_verify refuses signatures whose numbers are not between 1 and the order minus 1; in particular no fixed pair of numbers is a signature of every message under every key.", "quantifier": "every message, every key, every signature", "why_tests_cant": "tests sign with the library and never send zeros", "anchors": ["src/kryptos_ecdsa.c:415-739", "src/kryptos_ecdsa.c:570-664"]}
{"id": "C99", "title": "The standard curves have generators of the stated order", "statement": "For every curve identifier kryptos_new_standard_curve gives the numbers of its table, the modulus has the stated number of bits, the generator lies on the curve, and the stated order is the order of the generator.", "quantifier": "all fourteen identifiers, digits of 32 and 64 bits", "why_tests_cant": "a wrong order still lets ECDH agree and shows up in ECDSA only as refused signatures; the library's tests compare the table with itself", "anchors": ["src/kryptos_curves.c:19-157", "src/kryptos_curves.c:168-251"]}
{"id": "C100", "title": "MD4 and MD5 digests are those of RFC 1320 and RFC 1321", "statement": "For every message the MD4 and MD5 functions give the digests of RFC 1320 and RFC 1321, raw or as base16 text; the constants of MD4 are the integer parts of 2^30 times the square roots of 2 and 3, those of MD5 the integer parts of 2^32 times the absolute sines of 1 to 64.", "quantifier": "every byte string below 2^61 bytes, any previous contents of the block", "why_tests_cant": "the messages are unbounded; every residue of the length modulo 64 takes another path through the padding, and a sample of digests does not fix the sixty-four constants", "anchors": ["src/kryptos_md4.c:60-250", "src/kryptos_md5.c:51-249"]}
{"id": "C101", "title": "RIPEMD-128 and RIPEMD-160 digests are those of the publication", "statement": "For every message the RIPEMD-128 and RIPEMD-160 functions give the digests of the publication (two lines of rounds, word orders by the permutations rho and pi, constants from square and cube roots), raw or as base16 text.", "quantifier": "every byte string below 2^61 bytes, any previous contents of the block", "why_tests_cant": "the messages are unbounded; 288 unrolled steps of two interleaved lines have to agree with the tables in every word, rotation and register", "anchors": ["src/kryptos_ripemd128_160.c:76-625"]}
{"id": "C102", "title": "Tiger digests are those of the publication", "statement": "For every message the Tiger function gives the digest of Anderson and Biham's publication, raw or as base16 text; the four S-boxes are those produced by the authors' generating program (five passes over the identity, driven by the compression of the text naming the paper).", "quantifier": "every byte string below 2^61 bytes, any previous contents of the block", "why_tests_cant": "the messages are unbounded and every residue of the length modulo 64 takes another path through the padding; a sample of digests touches few of the 1024 table entries", "anchors": ["src/kryptos_tiger.c:23-538"]}
{"id": "C103", "title": "Whirlpool digests are those of the publication", "statement": "For every message the Whirlpool function gives the digest of Barreto and Rijmen's final publication, raw or as base16 text: the eight tables are the S-box built from the mini-boxes followed by the circulant matrix over GF(2^8), and the compression function is the Miyaguchi-Preneel use of the block cipher W.", "quantifier": "every byte string below 2^61 bytes, any previous contents of the block", "why_tests_cant": "the messages are unbounded and the padding paths depend on the length modulo 64; a sample of digests says nothing about most of the 2048 table entries in most positions", "anchors": ["src/kryptos_whirlpool.c:28-863"]}
{"id": "C104", "title": "KECCAK and SHA-3 digests are those of FIPS 202", "statement": "For every message the eight functions (KECCAK and SHA3, 224 to 512 bits) give the bits of the sponge over KECCAK-f[1600] with pad10*1, with the suffix 01 for SHA-3 and without it for KECCAK, raw or as base16 text; the offsets and round constants are those of the recurrences of the standard.", "quantifier": "every byte string (any length, positive multiples of the rate and lengths one byte below included)", "why_tests_cant": "the messages are unbounded, the padding has a one-byte special case for one length in each rate, and the permutation has 1600 bits of state", "anchors": ["src/kryptos_keccak.c:21-1150"]}
{"id": "C105", "title": "Rabbit produces the published key stream and inverts itself", "statement": "For every key, every initialization vector (or none) and every input of any length, kryptos_rabbit_cipher combines the input byte by byte with the key stream of Rabbit (Boesgaard et al.; RFC 4503), key, vector and blocks being read with the lowest byte first; the last incomplete block and the uninitialised buffer have no influence on the rest; applying it twice gives the input back; no run has undefined behaviour.", "quantifier": "every byte string as key, vector and input, every content of the uninitialised block, any number of blocks", "why_tests_cant": "the key stream is unbounded and depends on a carry bit and on 512 bits of state; test vectors reach three blocks and only whole ones, and an overflow that the compiler happens to wrap is not seen", "anchors": ["src/kryptos_rabbit.c:26-74", "src/kryptos_rabbit.c:117-230", "src/kryptos_rabbit.c:233-405"]}
{"id": "C106", "title": "djb2 and the table of powers of two compute what they are named for", "statement": "kryptos_djb2 returns 5381\u00b733^n plus the sum of the bytes times descending powers of 33, modulo 2^64, for every input; kryptos_pw2 returns 2^e when it fits an int and the value standing for infinity for every larger e.", "quantifier": "every byte string; every value of type int", "why_tests_cant": "inputs are unbounded and the exponents range over all of int, negative ones included, where the conversion to an unsigned size decides which entry is read", "anchors": ["src/kryptos_djb2.c:10-27", "src/kryptos_pw2.c:14-53"]}
{"id": "C107", "title": "BLAKE2b and BLAKE2s are the functions of RFC 7693", "statement": "For every message, every key within the limit (64 and 32 bytes) and every size of digest from 1 to 64 (32), kryptos_blake2b512/blake2bN/blake2s256/blake2sN_hash produce the digest of RFC 7693, raw or as base16 text; longer keys and other sizes are refused; no run has undefined behaviour; the block size reported to HMAC is that of the function.", "quantifier": "every message, key and digest size, any number of blocks, both forms of output", "why_tests_cant": "the rounds are 176 hand-written macro uses over ten permutations and two rotation tables, the counter has two words with a carry reached only after 4 GiB, and tests use the default sizes and short messages", "anchors": ["src/kryptos_blake2.c:17-41", "src/kryptos_blake2.c:79-368", "src/kryptos_blake2.c:378-648", "src/kryptos_blake2.c:650-908"]}
{"id": "C108", "title": "BLAKE3 is the function of its specification", "statement": "For every input and every size of output, kryptos_blake3_hash and kryptos_blake3N_hash without a key give the output of the mode hash and with a key of 32 bytes that of keyed_hash, raw or as base16 text; keys of other sizes and empty outputs are refused; kryptos_blake3 (the KDF) derives the key of the mode derive_key for every context and key material; no run has undefined behaviour.", "quantifier": "every input of any number of chunks, every output size, all three modes", "why_tests_cant": "the tree of chunks is built with a stack whose merging depends on the number of chunks; tests use a few lengths and one short context, so that the handling of contexts of several chunks is never reached", "anchors": ["src/kryptos_blake3.c:61-228", "src/kryptos_blake3.c:282-512", "src/kryptos_blake3.c:514-735", "src/kryptos_blake3.c:737-896", "src/kryptos_blake3.c:934-1038"]}
{"id": "C109", "title": "SEAL 2.0 and 3.0 are the functions of their designers", "statement": "For every user key, version (2 or 3), position n, number of words L from 1 to 65535 and text, kryptos_seal_cipher succeeds without undefined behaviour and adds to the text, in pieces of L words for the positions n, n + 1, ..., the key stream that Rogaway and Coppersmith define from the tables T, S and R of the loaded key; keys of 160 bits are loaded as their five big-endian words and different keys of at most 20 bytes that do not end in zero bytes are loaded differently; anything else is refused with an error.", "quantifier": "every key, text of any length, position and piece size, both versions", "why_tests_cant": "the tests encrypt a few texts with two keys and compare with themselves; the tables and 64 iterations per 256 words are data dependent, and the byte loop has a case for each length modulo four and modulo the piece size", "anchors": ["src/kryptos_seal.c:72-142", "src/kryptos_seal.c:144-166", "src/kryptos_seal.c:168-341", "src/kryptos_seal.c:354-527"]}
{"id": "C110", "title": "Argon2 is the function of RFC 9106", "statement": "kryptos_do_argon2 returns the Argon2d, Argon2i or Argon2id tag of RFC 9106 (version 0x13) for every password, salt, key and associated data and all parameters that the RFC allows, and refuses other parameters.", "quantifier": "all passwords, salts, keys and associated data below 2^29 bytes, every parallelism, memory size, number of passes and tag size in the bounds of the code", "why_tests_cant": "the tests use the vectors of the RFC (32 blocks, four lanes: eight columns a lane, segments of two columns, tags of 32 bytes), for which a wrong column and a wrong address do not show; the memory filling depends on all sizes", "anchors": ["src/kryptos_argon2.c:102-363", "src/kryptos_argon2.c:365-468", "src/kryptos_argon2.c:470-536", "src/kryptos_argon2.c:538-641", "src/kryptos_argon2.c:643-746", "src/kryptos_argon2.c:748-852"]}
{"id": "C111", "title": "RC2 is the cipher of RFC 2268", "statement": "For every key of 1 to 128 bytes, every effective key length of 1 to 1024 bits and every block, the expanded key and the encrypted block are those of RFC 2268, and decryption restores the block.", "quantifier": "every key of every allowed size, every effective length, every block", "why_tests_cant": "the expansion runs forwards and backwards over an array with positions that depend on both lengths; the eight vectors of the RFC use seven of the 128 times 1024 pairs of lengths", "anchors": ["src/kryptos_rc2.c:19-59", "src/kryptos_rc2.c:64-81", "src/kryptos_rc2.c:291-331", "src/kryptos_rc2.c:333-383"]}
{"id": "C112", "title": "MISTY1 is the cipher of RFC 2994", "statement": "For every key of at most 16 bytes, completed by zero bytes, and every block, the encrypted block is the one of RFC 2994: the 32 subkeys are at the places the functions FO and FL read, the functions FI, FO and FL are those of the RFC; decryption restores the block.", "quantifier": "every key and every block", "why_tests_cant": "two vectors exist; a wrong subkey index or a truncation of the 9-bit half in a byte variable changes the result only for some keys and texts", "anchors": ["src/kryptos_misty1.c:19-60", "src/kryptos_misty1.c:64-106", "src/kryptos_misty1.c:168-193", "src/kryptos_misty1.c:195-244"]}
{"id": "C113", "title": "NOEKEON is the cipher of its designers in both key modes", "statement": "In the indirect mode with every key of at most 16 bytes (completed by zeros), and in the direct mode with every key of an even number of at most 16 bytes, every block is encrypted and decrypted as the NESSIE proposal defines, with the round constants given by their recurrence.", "quantifier": "every key and block, both modes and directions", "why_tests_cant": "the published vectors are a handful of blocks; Gamma, Theta and the rotations have symmetric inputs in them (all zeros, all ones)", "anchors": ["src/kryptos_noekeon.c:20-79", "src/kryptos_noekeon.c:96-136", "src/kryptos_noekeon.c:146-188", "src/kryptos_noekeon.c:191-266"]}
{"id": "C114", "title": "FEAL is FEAL-N for every number of rounds", "statement": "For every key of 8 bytes, every number of rounds N up to 792 and every block, the subkeys and the encrypted block are those of FEAL-N with a key of 64 bits, and decryption restores the block.", "quantifier": "every key, every accepted number of rounds, every block", "why_tests_cant": "the number of subkeys and the whitening positions depend on N; tests use N = 8", "anchors": ["src/kryptos_feal.c:20-24", "src/kryptos_feal.c:94-114", "src/kryptos_feal.c:134-169", "src/kryptos_feal.c:171-205", "src/kryptos_feal.c:243-258"]}
{"id": "C115", "title": "RSA key generation makes sound key pairs", "statement": "Every key pair that kryptos_rsa_mk_key_pair returns has a modulus which is a product of two different primes of the size asked for, a public exponent above 1 and below (p-1)(q-1) without common factor with it, and a private exponent inverse to it; the two buffers hold these numbers, every message that fits comes back modulo n, and the generation ends.", "quantifier": "for all streams of random bytes and all key sizes (digits of 32 and of 64 bits)", "why_tests_cant": "the primes and the exponent are random, so that a test meets a handful of the possible draws; equal primes, the exponent 1 and the candidate 0 never turn up in a test run", "anchors": ["src/kryptos_rsa.c:27-221", "src/kryptos_mp.c:3409-3518", "src/kryptos_mp.c:3663-3745", "src/kryptos_mp.c:3952-4038"]}
{"id": "C116", "title": "Verified public parameters are sound", "statement": "Diffie-Hellman parameters accepted by kryptos_dh_verify_domain_params, and ElGamal public keys accepted by kryptos_elgamal_verify_public_key, hold P, Q and G such that G has order Q modulo P and both numbers pass the test of primality; the B of an accepted ElGamal key is an element of the group other than 1; incomplete buffers are refused.", "quantifier": "for all buffers, streams of random bytes and digit sizes", "why_tests_cant": "the buffers come from the other party and can hold any numbers; tests verify good keys and a few broken ones", "anchors": ["src/kryptos_dh.c:257-303", "src/kryptos_elgamal.c:135-200", "src/kryptos_dl_params.c:141-237"]}
{"id": "C117", "title": "The built-in Diffie-Hellman groups are those of RFC 3526", "statement": "For each of its six sizes kryptos_dh_get_modp gives the prime of RFC 3526, which is 2^n - 2^(n-64) - 1 + 2^64 * ([2^(n-130) pi] + c) with the published c, and the generator 2, whatever the random bytes are; the prime has exactly n bits and 2 to the power (p-1)/2 is 1 modulo it; any other size is refused.", "quantifier": "for all sizes, streams of random bytes and digit sizes", "why_tests_cant": "one wrong digit among 6272 gives a modulus with which everything still seems to work; tests compare with a copy of the same text", "anchors": ["src/kryptos_dh.c:41-194", "src/kryptos_dh.c:865-925", "src/kryptos_mp.c:314-423"]}
{"id": "C118", "title": "The selected random source is the one that answers, and it is properly seeded", "statement": "After any history of calls of kryptos_set_csprng, kryptos_get_random_block and kryptos_get_random_byte every request is answered by the source selected last, with as many bytes as asked for; a selection that fails changes nothing; a generator that has been selected is seeded with at least 16 random bytes of the system; a failure of the system is reported.", "quantifier": "for all histories, all contents of memory and all behaviours of the devices", "why_tests_cant": "the length of the seed is drawn at random and the devices never fail in tests, so that the weak cases are not seen", "anchors": ["src/kryptos_random.c:18-24", "src/kryptos_random.c:98-170", "src/kryptos_random.c:206-260", "src/kryptos_random.c:320-355", "src/kryptos_fortuna.c:23-106"]}
{"id": "C119", "title": "Every modulus of the public key methods can be divided by", "statement": "For an odd modulus n with more than one digit, as used by RSA, Diffie-Hellman, ElGamal, DSA and elliptic curves, kryptos_mp_div gives the right quotient and remainder for every dividend; in particular the product of any two numbers below n is reduced to a number below n.", "quantifier": "for all word sizes of at least 16 bits, all odd moduli with more than one digit and all dividends", "why_tests_cant": "tests take some dividends for some moduli; that no modulus of this kind at all is handled right for every dividend is a statement about all of them", "anchors": ["src/kryptos_mp.c:1464-1849", "src/kryptos_mp.h"]}
{"id": "C120", "title": "Diffie-Hellman parameters that are made can be read back, and the reader is all or nothing", "statement": "When kryptos_dh_mk_domain_params succeeds, the numbers in the buffer are sound parameters with an order of the size asked for, and kryptos_dh_get_modp_from_params_buf gets exactly these numbers, with or without q; without success there is no buffer. For any buffer the reader stores all numbers asked for or none of them, and what it stores is what the verification looks at.", "quantifier": "for all sizes, all random bytes and all buffers", "why_tests_cant": "the parameters of a run are random and large, and damaged buffers are too many to try", "anchors": ["src/kryptos_dh.c:199-255", "src/kryptos_dh.c:305-355", "src/kryptos_dl_params.c:20-35"]}
{"id": "C121", "title": "Verification of a signature ends with a verdict, whatever the signature", "statement": "For a usable public key and a signature document from anyone, kryptos_dsa_verify, kryptos_ecdsa_verify and kryptos_rsa_verify (plain and with PSS) end. With a complete document they give success and the message, or refuse the signature and give no message, whatever the two numbers are (zero, above the modulus, without an inverse); with an incomplete one they give an error.", "quantifier": "for all public keys with an odd order (and an odd modulus for curves), all documents, all hash functions that give digests", "why_tests_cant": "the documents of an attacker are unbounded numbers that no signer produces; a loop that does not end for some of them is not seen by trying signatures", "anchors": ["src/kryptos_dsa.c:490-894", "src/kryptos_ecdsa.c:415-739", "src/kryptos_rsa.c:717-848", "src/kryptos_padding.c:751-990"]}
{"id": "C122", "title": "Decryption with OAEP of any ciphertext ends with a message or an error", "statement": "For a private key of RSA or ElGamal, the decrypting tasks with OAEP padding give a message or an error for every ciphertext document, also for those that were not made by encryption; nothing outside the decrypted block is read.", "quantifier": "for all private keys, hash functions, labels and ciphertext documents", "why_tests_cant": "tests decrypt what was encrypted, whose block has the size of the modulus; the documents of an attacker are unbounded", "anchors": ["src/kryptos_rsa.c:259-345", "src/kryptos_elgamal.c:257-345", "src/kryptos_padding.c:348-511"]}
{"id": "C123", "title": "Drawing a secret ends, whatever parameters a peer sends", "statement": "The loops that draw a secret number (kryptos_dh_get_random_s and the ones of DSA and ElGamal) end as soon as the source delivers a number in the range, and take the first such number; and for every order that a peer can send there is such a number, so that the answering side of Diffie-Hellman and the encryption of ElGamal end.", "quantifier": "for all random bytes, all orders and all documents", "why_tests_cant": "the range is empty only for the smallest orders, which no test sends, and a loop without end is not an outcome that a test compares", "anchors": ["src/kryptos_dh.c:603-726", "src/kryptos_dh.c:783-863", "src/kryptos_elgamal.c:343-412", "src/kryptos_elgamal.c:414-608"]}
{"id": "C124", "title": "The mask leaves out no private number of DSA and ElGamal", "statement": "For every order above the lower end of the range (1 for DSA, 2 for ElGamal), also one with zero digits in front, drawing a private number is defined, whatever the random bytes; every number from the lower end to the order less the lower end can be the result, in a single pass of the loop, and nothing else; some number can be drawn exactly when the order is at least twice the lower end.", "quantifier": "for all orders of any number of digits, all numbers in the range and all random bytes, for digits of whole bytes", "why_tests_cant": "the numbers drawn are random, a test cannot see that some are never drawn, and the cases in which the order and its upper end have different numbers of digits do not come up", "anchors": ["src/kryptos_dsa.c:157-227", "src/kryptos_elgamal.c:343-412", "src/kryptos_mp.c:2889-2922"]}
{"id": "C125", "title": "Secret numbers are drawn without bias", "statement": "For any two private numbers that kryptos_dsa_get_random, kryptos_elgamal_get_random_mp or kryptos_dh_get_random_s can give for an order, and any pass of the loop, there is a fixed string such that adding it (exclusive or) to the random bytes turns exactly the sources for which the loop ends in this pass with the first number into those for which it ends there with the second; so with uniform bytes all numbers are equally likely.", "quantifier": "for all orders, all numbers that can be drawn, all passes and all random bytes, for digits of whole bytes", "why_tests_cant": "a bias of a nonce is a statement about the distribution over all sources; statistics on samples do not show a small one, and small ones are enough to find a DSA key", "anchors": ["src/kryptos_dsa.c:157-227", "src/kryptos_elgamal.c:343-412", "src/kryptos_dh.c:783-863", "src/kryptos_mp.c:2889-2922"]}
{"id": "C126", "title": "Private numbers on curves are drawn without bias", "statement": "kryptos_ecdsa_get_random_d and kryptos_ecdh_get_random_k give every number from 1 (ECDH: 2) up to the order with the same number of sources: for any two such numbers and any pass of the loop, adding a fixed string to the random bytes turns the sources for which the loop ends there with the first number into those for which it ends there with the second.", "quantifier": "for all orders, numbers of bits, passes and random bytes", "why_tests_cant": "a bias is a statement about the distribution over all sources", "anchors": ["src/kryptos_ecdh.c:121-173", "src/kryptos_ecdsa.c:760-795"]}
{"id": "C127", "title": "At most half of the sources give a number above the range in a pass of DSA and ElGamal", "statement": "In the loops of kryptos_dsa_get_random and kryptos_elgamal_get_random_mp the mask fits the order: there is a fixed string such that adding it (exclusive or) to the random bytes turns every source for which a pass makes a number above the range into one for which it makes a number that is not above it; so a pass fails for at most half of the sources, besides those that give 0 (or 1 for ElGamal).", "quantifier": "for all orders of any number of digits whose upper end of the range has as many digits as the order, and all random bytes", "why_tests_cant": "the share of the sources is a statement about all of them; a mask that is a bit too long only makes the loop slower", "anchors": ["src/kryptos_dsa.c:157-227", "src/kryptos_elgamal.c:343-412"]}
{"id": "C128", "title": "The mask of a Diffie-Hellman secret fits the order", "statement": "In the loop of kryptos_dh_get_random_s, as in the ones of DSA and ElGamal, a pass fails for at most about half of the sources: there is a fixed string such that adding it to the random bytes turns every source for which a pass fails into one for which it does not, besides those that give 0 or 1.", "quantifier": "for all orders, numbers of bits and random bytes", "why_tests_cant": "the share of the sources is a statement about all of them; with the orders of tests, which fill their digits, the loop is short", "anchors": ["src/kryptos_dh.c:783-863"]}
{"id": "C129", "title": "There are as many private numbers on a curve as the order allows", "statement": "The number of different results of kryptos_ecdsa_get_random_d and kryptos_ecdh_get_random_k is the order less one (ECDH: less two), so that guessing a private number is as hard as the size of the order suggests.", "quantifier": "for all orders and all numbers of bits that cover the order", "why_tests_cant": "no test can count the results of a random function with 2^128 or more of them", "anchors": ["src/kryptos_ecdh.c:121-173", "src/kryptos_ecdsa.c:760-795"]}
