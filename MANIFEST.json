{
 "claims": [
  {
   "property": "C01",
   "status": "proved",
   "theorems": [
    "Kryptos.Base16.base16_roundtrip",
    "Kryptos.Base16.base16_decode_safe",
    "Kryptos.Base16.base16_encode_safe"
   ],
   "note": ""
  },
  {
   "property": "C02",
   "status": "proved",
   "theorems": [
    "Kryptos.Base64.base64_roundtrip",
    "Kryptos.Base64.base64_encode_safe"
   ],
   "note": ""
  },
  {
   "property": "C03",
   "status": "partial",
   "theorems": [
    "Kryptos.Base32.base32_encode_rfc4648",
    "Kryptos.Base32.base32_roundtrip_partial",
    "Kryptos.Base32.base32_roundtrip_with_slack",
    "Kryptos.Base32.base32_roundtrip_false"
   ],
   "note": "Encoding half holds for all buffers. The round trip is false when the length is a multiple of 5 (one byte written past the allocation, witness base32_roundtrip_false); proved for every other length, and for every length if the allocation had one spare byte."
  },
  {
   "property": "C04",
   "status": "partial",
   "theorems": [
    "Kryptos.Base16.base16_decode_safe",
    "Kryptos.Base64.base64_decode_unsafe",
    "Kryptos.Base64.base64_decode_safe_partial",
    "Kryptos.Base32.base32_decode_unsafe"
   ],
   "note": "Base16 decoder safe on every input; base64 and base32 decoders violate the property (witnesses)."
  },
  {
   "property": "C05",
   "status": "proved",
   "theorems": [
    "Kryptos.Uuencode.uuencode_roundtrip",
    "Kryptos.Uuencode.uuencode_decode_unsafe"
   ],
   "note": "Round trip for every non-empty buffer below 2^56 bytes; additionally the decoder is shown unsafe on a malformed line."
  },
  {
   "property": "C06",
   "status": "proved",
   "theorems": [
    "Kryptos.Padding.ansiX923_spec",
    "Kryptos.Padding.ansiX923_reversible",
    "Kryptos.Padding.ansiX923_zero_filler",
    "Kryptos.Padding.ansiX923_large_block"
   ],
   "note": ""
  },
  {
   "property": "C07",
   "status": "proved",
   "theorems": [
    "Kryptos.Block.block_mode_roundtrip"
   ],
   "note": "For every block cipher with correct block functions."
  },
  {
   "property": "C08",
   "status": "proved",
   "theorems": [
    "Kryptos.Block.ecb_encrypt_standard",
    "Kryptos.Block.cbc_encrypt_standard",
    "Kryptos.Block.ofb_encrypt_standard",
    "Kryptos.Block.ctr_encrypt_standard"
   ],
   "note": ""
  },
  {
   "property": "C09",
   "status": "proved",
   "theorems": [
    "Kryptos.Block.ciphertext_length",
    "Kryptos.Gcm.gcm_roundtrip"
   ],
   "note": ""
  },
  {
   "property": "C10",
   "status": "proved",
   "theorems": [
    "Kryptos.Block.ctr_history",
    "Kryptos.Block.ctr_block",
    "Kryptos.Block.ctr_blocks_distinct"
   ],
   "note": ""
  },
  {
   "property": "C11",
   "status": "partial",
   "theorems": [
    "Kryptos.Block.first_iv_partial",
    "Kryptos.Block.encryptWith_iv",
    "Kryptos.Block.iv_silently_reused"
   ],
   "note": "The first encryption of a task uses the random source as IV; a second one on the same task silently reuses the zeroed buffer, so the full statement is false (iv_silently_reused)."
  },
  {
   "property": "C12",
   "status": "partial",
   "theorems": [
    "Kryptos.Block.without_random_pad_eq",
    "Kryptos.Block.without_random_pad_roundtrip_partial",
    "Kryptos.Block.without_random_pad_ecb_wrong",
    "Kryptos.Block.without_random_pad_cbc_wrong",
    "Kryptos.Block.without_random_pad_gcm_unauthenticated"
   ],
   "note": "Holds in OFB and CTR, false in ECB, CBC and GCM (witnesses)."
  },
  {
   "property": "C13",
   "status": "partial",
   "theorems": [
    "Kryptos.Block.decrypt_in_bounds_partial",
    "Kryptos.Block.decrypt_iv_only_unsafe",
    "Kryptos.Block.decrypt_ragged_unsafe",
    "Kryptos.Block.decrypt_size_underflow",
    "Kryptos.Gcm.gcm_unsafe_short"
   ],
   "note": "In bounds for every content of proper length; false for the other lengths and for the reported size (witnesses)."
  },
  {
   "property": "C14",
   "status": "partial",
   "theorems": [
    "Kryptos.Gcm.gcm_rejects_forgery_partial",
    "Kryptos.Gcm.gcm_success_implies_tag_partial",
    "Kryptos.Gcm.libTag_is_standard_partial",
    "Kryptos.Gcm.gcm_rejects_short",
    "Kryptos.Gcm.gcm_unsafe_short"
   ],
   "note": "Acceptance implies the tag matches, for data of at least 32 bytes; 16 to 31 bytes is undefined behaviour (gcm_unsafe_short)."
  },
  {
   "property": "C15",
   "status": "partial",
   "theorems": [
    "Kryptos.Gcm.gf_mul_is_field_multiplication",
    "Kryptos.Gcm.ghash_is_standard_partial",
    "Kryptos.Gcm.ghash_wrong_for_large_data"
   ],
   "note": "The multiplication is the one of SP 800-38D for all operands; GHASH is standard below 2^21 bytes and false from there on since the bit lengths are masked with 0xFFFFFF (ghash_wrong_for_large_data)."
  },
  {
   "property": "C16",
   "status": "partial",
   "theorems": [
    "Kryptos.sha1_fips_partial",
    "Kryptos.sha224_fips_partial",
    "Kryptos.sha256_fips_partial",
    "Kryptos.sha384_fips_partial",
    "Kryptos.sha512_fips_partial",
    "Kryptos.sha1_aligned",
    "Kryptos.sha256_aligned",
    "Kryptos.sha512_aligned",
    "Kryptos.sha1_fips_fails",
    "Kryptos.sha256_fips_fails",
    "Kryptos.sha512_len_fails",
    "Kryptos.sha512_len64",
    "Kryptos.sha1_hex",
    "Kryptos.sha224_hex",
    "Kryptos.sha256_hex",
    "Kryptos.sha384_hex",
    "Kryptos.sha512_hex"
   ],
   "note": "Proved for every message below 2^61 bytes whose length is not a positive multiple of the block size (SHA-384/512: nor 112..119 modulo 128); false for those (witnesses), where the exact behaviour is characterised instead."
  },
  {
   "property": "C17",
   "status": "partial",
   "theorems": [
    "Kryptos.blocks_injective_partial",
    "Kryptos.padding_collision",
    "Kryptos.sha256_collision"
   ],
   "note": "Blocks determine the message among padded messages; false in general: every message collides with its own padded form (padding_collision)."
  },
  {
   "property": "C18",
   "status": "proved",
   "theorems": [
    "Kryptos.incremental",
    "Kryptos.incremental_chunking",
    "Kryptos.incremental_oneshot",
    "Kryptos.incremental_reuse"
   ],
   "note": ""
  },
  {
   "property": "C19",
   "status": "proved",
   "theorems": [
    "Kryptos.gen_eq",
    "Kryptos.hmac_rfc2104",
    "Kryptos.hmac_rejects",
    "Kryptos.hmac_sha256_partial",
    "Kryptos.hmac_sha256_fails",
    "Kryptos.libSha256_sound"
   ],
   "note": "For every hash function, relative to the function it computes (hypothesis Sound, discharged for SHA-1/2). Relative to the standard SHA-256 it fails where the library's hash does not pad (hmac_sha256_fails)."
  },
  {
   "property": "C20",
   "status": "proved",
   "theorems": [
    "Kryptos.hmac_check_iff",
    "Kryptos.hmac_accepts_generated",
    "Kryptos.hmac_rejects",
    "Kryptos.hmac_sha256_check_partial",
    "Kryptos.hmac_sha256_forgery",
    "Kryptos.hmac_sha256_check_forgery"
   ],
   "note": "Acceptance is exactly equality with the HMAC over the library's hash. Because that hash does not pad multiples of the block size, a keyless forgery exists for HMAC-SHA-256 (hmac_sha256_check_forgery)."
  },
  {
   "property": "C21",
   "status": "partial",
   "theorems": [
    "Kryptos.hkdf_rfc5869_partial",
    "Kryptos.hkdf_sha256_partial",
    "Kryptos.hkdf_refuses",
    "Kryptos.hkdf_empty_fails",
    "Kryptos.hkdf_default_ub"
   ],
   "note": "Holds for non-empty keying material and explicit hash functions; empty keying material yields NULL, the NULL-hash default calls a NULL pointer."
  },
  {
   "property": "C22",
   "status": "proved",
   "theorems": [
    "Kryptos.pbkdf2_rfc8018",
    "Kryptos.pbkdf2_refuses",
    "Kryptos.pbkdf2_sha256_partial",
    "Kryptos.pbkdf2_count_zero",
    "Kryptos.pbkdf2_null_password"
   ],
   "note": ""
  },
  {
   "property": "C23",
   "status": "partial",
   "theorems": [
    "Kryptos.Hotp.hotp_sync_partial",
    "Kryptos.Hotp.hotp_sync_fails",
    "Kryptos.Hotp.validate_window",
    "Kryptos.Hotp.tok_exists"
   ],
   "note": "Synchronised while the throttle lasts; the throttle is never restored after a success, so enough losses lock the validator (hotp_sync_fails)."
  },
  {
   "property": "C24",
   "status": "partial",
   "theorems": [
    "Kryptos.Hotp.hotp_reject_keeps_counter_partial",
    "Kryptos.Hotp.hotp_wrong_then_right_partial",
    "Kryptos.Hotp.hotp_reject_effect",
    "Kryptos.Hotp.hotp_reject_desyncs"
   ],
   "note": "Holds without a resynchronisation window; with one, a rejected token advances the counter (hotp_reject_desyncs)."
  },
  {
   "property": "C25",
   "status": "proved",
   "theorems": [
    "Kryptos.Hotp.hotp_throttle",
    "Kryptos.Hotp.hotp_throttle_bound",
    "Kryptos.Hotp.hotp_locked",
    "Kryptos.Hotp.validate_count"
   ],
   "note": ""
  },
  {
   "property": "C26",
   "status": "partial",
   "theorems": [
    "Kryptos.Hotp.totp_accepts_iff",
    "Kryptos.Hotp.totp_window_partial",
    "Kryptos.Hotp.totp_accepts_future",
    "Kryptos.Hotp.totp_zero_step"
   ],
   "note": "Holds for T0 = 0 after the first three steps; for other epochs the third attempt adds T0 and accepts future tokens."
  },
  {
   "property": "C27",
   "status": "proved",
   "theorems": [
    "Kryptos.Arc4.arc4_rc4",
    "Kryptos.Arc4.arc4_involution",
    "Kryptos.Arc4.arc4_permutation",
    "Kryptos.Arc4.arc4_total"
   ],
   "note": ""
  },
  {
   "property": "C28",
   "status": "proved",
   "theorems": [
    "Kryptos.Tea.tea_invertible",
    "Kryptos.Tea.tea_standard",
    "Kryptos.Xtea.xtea_invertible",
    "Kryptos.Xtea.xtea_standard"
   ],
   "note": ""
  },
  {
   "property": "C29",
   "status": "partial",
   "theorems": [
    "Kryptos.Aes.aes128_invertible",
    "Kryptos.Aes.aes192_invertible",
    "Kryptos.Aes.aes256_invertible",
    "Kryptos.Rc5.rc5_invertible",
    "Kryptos.Rc6.rc6_invertible",
    "Kryptos.Rc5.rc5_zero_rotation",
    "Kryptos.Rc5.rc5_uninitialised",
    "Kryptos.Shacal1.shacal1_invertible",
    "Kryptos.Shacal2.shacal2_invertible",
    "Kryptos.Noekeon.noekeon_invertible",
    "Kryptos.Noekeon.noekeon_d_invertible",
    "Kryptos.Noekeon.noekeon_long_key_overflows",
    "Kryptos.Feal.feal_invertible",
    "Kryptos.Gost.gost_invertible",
    "Kryptos.Gost.gost_short_box",
    "Kryptos.Misty1.misty1_invertible",
    "Kryptos.Present.present80_invertible",
    "Kryptos.Present.present128_invertible",
    "Kryptos.Present.present_long_key_overflows",
    "Kryptos.Rc2.rc2_invertible",
    "Kryptos.Rc2.rc2_1025_undefined",
    "Kryptos.Rc2.rc2_1025_accepted",
    "Kryptos.Idea.idea_invertible",
    "Kryptos.Safer.saferk64_invertible_partial",
    "Kryptos.Safer.saferk64_undefined",
    "Kryptos.Des.des_invertible",
    "Kryptos.Des.des_defined",
    "Kryptos.Des.triple_des_invertible",
    "Kryptos.Des.triple_des_ede_invertible",
    "Kryptos.Blowfish.blowfish_invertible_partial",
    "Kryptos.Blowfish.blowfish_long_key_undefined",
    "Kryptos.Cast5.cast5_invertible",
    "Kryptos.Cast5.cast5_invertible_partial",
    "Kryptos.Serpent.serpent_invertible_partial",
    "Kryptos.Serpent.serpent_long_key_undefined",
    "Kryptos.Mars.mars_invertible_partial",
    "Kryptos.Mars.mars_zero_rotation",
    "Kryptos.Mars.mars_long_key_undefined",
    "Kryptos.Twofish.twofish_invertible",
    "Kryptos.Camellia.camellia128_invertible",
    "Kryptos.Camellia.camellia256_invertible"
   ],
   "note": "All the ciphers are modelled. Inversion holds for every key where no theorem on the list shows undefined behaviour; where one does, it is proved for the other keys (the _partial theorems)."
  },
  {
   "property": "C30",
   "status": "proved",
   "theorems": [
    "Kryptos.Aes.aes128_standard",
    "Kryptos.Aes.aes192_standard",
    "Kryptos.Aes.aes256_standard",
    "Kryptos.Aes.aes128_decrypts",
    "Kryptos.Aes.aes192_decrypts",
    "Kryptos.Aes.aes256_decrypts"
   ],
   "note": "The specification is FIPS 197 with the S-box defined from inversion in GF(2^8)."
  },
  {
   "property": "C31",
   "status": "partial",
   "theorems": [
    "Kryptos.Stream.chacha20_roundtrip",
    "Kryptos.Stream.chacha20_roundtrip_own",
    "Kryptos.Stream.chacha20_live",
    "Kryptos.Stream.chacha20_own",
    "Kryptos.Stream.chacha20_dec",
    "Kryptos.Stream.chacha20_counters_partial",
    "Kryptos.Stream.chacha20_counter_wraps",
    "Kryptos.Stream.chacha20_continue",
    "Kryptos.Stream.salsa20_roundtrip",
    "Kryptos.Stream.salsa20_roundtrip_own",
    "Kryptos.Stream.salsa20_conforms_partial",
    "Kryptos.Stream.salsa20_16_is_doubled",
    "Kryptos.Stream.salsa20_16_differs",
    "Kryptos.Stream.chacha20_short_unsafe",
    "Kryptos.Stream.salsa20_short_unsafe"
   ],
   "note": "Round trips for every key, nonce, start and message, and conformance with RFC 8439. Distinct counters up to 2^32 blocks; beyond them the ChaCha20 key stream repeats (proved). Salsa20 with 16-byte keys uses the constants of 32-byte keys (proved different from the specification)."
  },
  {
   "property": "C32",
   "status": "proved",
   "theorems": [
    "Kryptos.SipHash.doSiphash_eq",
    "Kryptos.SipHash.siphash_tags",
    "Kryptos.SipHash.siphash_verifies",
    "Kryptos.SipHash.siphash_refuses",
    "Kryptos.SipHash.siphash_roundtrip",
    "Kryptos.SipHash.expandKey_eq"
   ],
   "note": "SipHash-c-d for every key, message, c and d; verification is exact."
  },
  {
   "property": "C33",
   "status": "partial",
   "theorems": [
    "Kryptos.SipHash.siphashSum_agrees_partial",
    "Kryptos.SipHash.siphashSum_short_unsafe",
    "Kryptos.SipHash.siphashSum_long",
    "Kryptos.SipHash.siphashSum_long_differs"
   ],
   "note": "False in general: the sum function passes the raw key. Proved: agreement for 16-byte keys, out-of-bounds read for shorter keys, disagreement for a longer key."
  },
  {
   "property": "C34",
   "status": "partial",
   "theorems": [
    "Kryptos.Poly1305.poly1305_decrypt_partial",
    "Kryptos.Poly1305.poly1305_roundtrip_partial",
    "Kryptos.Poly1305.tag_length",
    "Kryptos.Poly1305.mul_unsafe",
    "Kryptos.Poly1305.tag_unsafe",
    "Kryptos.Poly1305.poly1305_task_unsafe",
    "Kryptos.Poly1305.poly1305_action_fails",
    "Kryptos.Poly1305.poly1305_keyless"
   ],
   "note": "Both directions are proved for runs in which the tag is computed, with usable memory behind the product array; refuted otherwise: every tag computation leaves the array of the product (proved for all messages and keys), other actions report success, a task without key keeps its old result."
  },
  {
   "property": "C35",
   "status": "partial",
   "theorems": [
    "Kryptos.Mp.add_exact_partial",
    "Kryptos.Mp.add_zero_indeterminate",
    "Kryptos.Mp.sub_exact_partial",
    "Kryptos.Mp.sub_from_zero_wrong",
    "Kryptos.Mp.mul_exact",
    "Kryptos.Mp.mulDigit_exact",
    "Kryptos.Mp.copyNull_loses"
   ],
   "note": "Exact for all sizes except adding two zeros (reads memory never written) and subtracting from zero (gives the subtrahend); both proved."
  },
  {
   "property": "C36",
   "status": "partial",
   "theorems": [
    "Kryptos.Mp.addS_exact",
    "Kryptos.Mp.subS_exact",
    "Kryptos.Mp.mulS_exact",
    "Kryptos.Mp.addS_negative_zero"
   ],
   "note": "Exact for canonical numbers, where zero is not negative; adding two negative zeros is undefined (proved)."
  },
  {
   "property": "C37",
   "status": "partial",
   "theorems": [
    "Kryptos.Mp.compare_exact",
    "Kryptos.Mp.getGt_exact",
    "Kryptos.Mp.eq_exact",
    "Kryptos.Mp.signed_compare_wrong"
   ],
   "note": "Exact for numbers of equal sign; numbers of different sign are compared by magnitude (witness)."
  },
  {
   "property": "C38",
   "status": "partial",
   "theorems": [
    "Kryptos.Mp.div_exact_iff",
    "Kryptos.Mp.div_partial",
    "Kryptos.Mp.div_single_digit",
    "Kryptos.Mp.div_wrong",
    "Kryptos.Mp.div_wrong_leading_zero",
    "Kryptos.Mp.div_zero",
    "Kryptos.Mp.mod_nonneg_partial",
    "Kryptos.Mp.mod_neg_partial",
    "Kryptos.Mp.div2p_exact"
   ],
   "note": "x = q*y + r always; r < y exactly under a condition stated on the numbers alone (div_exact_iff); it fails for concrete operands (div_wrong, div_wrong_leading_zero)."
  },
  {
   "property": "C39",
   "status": "proved",
   "theorems": [
    "Kryptos.Mp.lsh_exact",
    "Kryptos.Mp.rsh_exact",
    "Kryptos.Mp.rsh_lsh"
   ],
   "note": ""
  },
  {
   "property": "C40",
   "status": "partial",
   "theorems": [
    "Kryptos.Mp.hex_read",
    "Kryptos.Mp.hex_read_negative",
    "Kryptos.Mp.hex_text",
    "Kryptos.Mp.hex_print_read",
    "Kryptos.Mp.hex_read_print",
    "Kryptos.Mp.hex_negative_wrong",
    "Kryptos.Mp.task_out_value",
    "Kryptos.Mp.raw_buffer_value",
    "Kryptos.Mp.raw_buffer_task_out"
   ],
   "note": "Holds for all numbers that are not negative; for negative ones the reported size is one short, so reading back divides the number by 16 (hex_negative_wrong, for every negative number)."
  },
  {
   "property": "C41",
   "status": "partial",
   "theorems": [
    "Kryptos.Mp.me_congruent",
    "Kryptos.Mp.me_partial",
    "Kryptos.Mp.me_single_digit",
    "Kryptos.Mp.me_wrong",
    "Kryptos.Mp.me_zero_modulus",
    "Kryptos.Mp.pow_exact"
   ],
   "note": "Always congruent to the power; reduced when no quotient guess overflows, which fails for concrete operands (me_wrong)."
  },
  {
   "property": "C42",
   "status": "partial",
   "theorems": [
    "Kryptos.Mp.modinv_odd",
    "Kryptos.Mp.modinvRs_spec",
    "Kryptos.Mp.modinv_even_partial",
    "Kryptos.Mp.modinv_even_single",
    "Kryptos.Mp.modinv_wrong"
   ],
   "note": "Proved for every odd modulus and for even moduli whose Euclidean divisions the code does right (all of one digit). False in general: undefined behaviour for 2^64-1 modulo 2^192."
  },
  {
   "property": "C43",
   "status": "partial",
   "theorems": [
    "Kryptos.Mp.genRandom_misses",
    "Kryptos.Mp.genRandom_misses_long",
    "Kryptos.Mp.genRandom_small",
    "Kryptos.Mp.genRandom_covers_partial",
    "Kryptos.Mp.genRandom_lt",
    "Kryptos.Mp.rand_covers",
    "Kryptos.Mp.rand_short"
   ],
   "note": "False: one random byte per digit. For every bound of two or more digits some value is never produced; true for bounds up to 256. kryptos_mp_rand covers its whole range."
  },
  {
   "property": "C44",
   "status": "partial",
   "theorems": [
    "Kryptos.Mp.millerRabin_prime_partial",
    "Kryptos.Mp.millerRabin_prime_single",
    "Kryptos.Mp.millerRabin_single",
    "Kryptos.Mp.millerRabin_sound",
    "Kryptos.Mp.millerRabin_rejects_prime",
    "Kryptos.Mp.millerRabin_two",
    "Kryptos.Mp.millerRabin_one_diverges",
    "Kryptos.Mp.millerRabin_ends_partial",
    "Kryptos.Mp.isPrime_wrong",
    "Kryptos.Mp.isPrime_two",
    "Kryptos.Mp.fermat_prime_single",
    "Kryptos.Mp.isPrime_draws_partial"
   ],
   "note": "Primes whose predecessor is divisible by two at most sn+1 times are accepted; 65537 is rejected for base 3, 2 is always rejected, and the test never ends for 1. Soundness (accepted numbers are strong probable primes) holds for every size."
  },
  {
   "property": "C45",
   "status": "partial",
   "theorems": [
    "Kryptos.Random.rand_mod_uniform",
    "Kryptos.Random.pick_uniform",
    "Kryptos.Random.pick_count",
    "Kryptos.Random.pick_lt",
    "Kryptos.Random.pick_progress",
    "Kryptos.Random.pick_stuck",
    "Kryptos.Random.u8_256_hangs",
    "Kryptos.Random.u64Kernel_out_of_range"
   ],
   "note": "Range and uniformity for all four user-mode functions; a bound above the greatest word never returns (proved) and zero divides by zero. The Linux kernel variant of the 64-bit function returns values above the bound (proved)."
  },
  {
   "property": "C46",
   "status": "partial",
   "theorems": [
    "Kryptos.Pem.pem_is_map",
    "Kryptos.Pem.pem_put_after",
    "Kryptos.Pem.pem_mp_roundtrip",
    "Kryptos.Pem.pem_map_fails",
    "Kryptos.Pem.pem_latin1_fails"
   ],
   "note": "Full map behaviour for all histories with headers of ASCII characters which hold no new line and neither of the marker prefixes (all headers of the library are such); false for other headers (two proved counterexamples)."
  },
  {
   "property": "C47",
   "status": "partial",
   "theorems": [
    "Kryptos.Pem.pem_get_safe_partial",
    "Kryptos.Pem.pem_find_safe",
    "Kryptos.Pem.pem_get_unsafe",
    "Kryptos.Pem.pem_find_incomplete"
   ],
   "note": "The search is safe for every text; the lookup is proved safe for texts without the begin marker and for entries holding whole base64 quanta; it is undefined for missing or misplaced end markers and cut base64 texts (proved)."
  },
  {
   "property": "C48",
   "status": "partial",
   "theorems": [
    "Kryptos.Huffman.huffman_roundtrip_partial",
    "Kryptos.Huffman.huffman_roundtrip_iff",
    "Kryptos.Huffman.huffman_digit_lost",
    "Kryptos.Huffman.inflate_no_digit",
    "Kryptos.Huffman.huffman_single_byte",
    "Kryptos.Huffman.deflate_run",
    "Kryptos.Huffman.deflate_defined",
    "Kryptos.Huffman.huffman_01_undefined",
    "Kryptos.Huffman.huffman_blank_0_wrong"
   ],
   "note": "Violated: the exact set of buffers that come back is proved. Buffers with a byte '0' or '1' (the characters used for codes in the table) never do, and buffers of one repeated byte are not compressed. All others do."
  },
  {
   "property": "C49",
   "status": "proved",
   "theorems": [
    "Kryptos.Oaep.oaep_roundtrip",
    "Kryptos.Oaep.oaep_apply",
    "Kryptos.Oaep.oaep_refuses",
    "Kryptos.Oaep.oaep_drop_iff",
    "Kryptos.Oaep.oaep_drop_unsafe",
    "Kryptos.Oaep.oaep_drop_short_unsafe",
    "Kryptos.Oaep.mgf_spec"
   ],
   "note": "Sizes below 2^60 and any hash task computing a function with h bytes. The padding is EME-OAEP of RFC 8017; dropping accepts exactly the paddings. Empty messages are refused too. Dropping is undefined for buffers shorter than the modulus and for blocks of zeros (proved)."
  },
  {
   "property": "C50",
   "status": "proved",
   "theorems": [
    "Kryptos.Oaep.pss_roundtrip",
    "Kryptos.Oaep.pss_verify_iff",
    "Kryptos.Oaep.pss_encode",
    "Kryptos.Oaep.pss_refuses_short",
    "Kryptos.Oaep.pss_no_salt_unsafe",
    "Kryptos.Oaep.pss_salt_size_unsafe"
   ],
   "note": "Verification accepts exactly the encodings of the message with some salt of the size. The encoding has the size of the message, so that short messages are refused; without random bytes, or with salt sizes near 2^64, the encoder is undefined (proved)."
  },
  {
   "property": "C51",
   "status": "partial",
   "theorems": [
    "Kryptos.Rsa.rsa_roundtrip_partial",
    "Kryptos.Rsa.rsa_congruent",
    "Kryptos.Rsa.rsa_single_digit",
    "Kryptos.Rsa.rsa_wrong",
    "Kryptos.Rsa.rsa_lengths",
    "Kryptos.Rsa.rsa_large",
    "Kryptos.Rsa.rsa_refuses",
    "Kryptos.Rsa.cipher_encrypt",
    "Kryptos.Rsa.cipher_decrypt"
   ],
   "note": "Violated: rsa_wrong is a valid key pair and a message below the modulus for which another number is decrypted; messages of broken digits never come back as they were. Proved: the number decrypted is always congruent to the message; it is the message under the conditions on the divisions in the two powers, and for all moduli of one digit without conditions."
  },
  {
   "property": "C52",
   "status": "partial",
   "theorems": [
    "Kryptos.Dh.dh_agree_partial",
    "Kryptos.Dh.dh_std_run",
    "Kryptos.Dh.dh_single_digit",
    "Kryptos.Dh.dh_mod_run",
    "Kryptos.Dh.dh_mod_single_digit",
    "Kryptos.Dh.dh_disagree",
    "Kryptos.Dh.dh_keys_given",
    "Kryptos.Dh.dh_modp_outside",
    "Kryptos.Dh.dh_default_bits",
    "Kryptos.Dh.secret_range",
    "Kryptos.Dh.secret_one_bit"
   ],
   "note": "Violated: dh_disagree is a prime group in which both sides end with success and different keys. Proved: the keys are always congruent; they are equal under the conditions on the divisions in the four powers, and for moduli of one digit without conditions, in both protocols. Undefined for the default secret size 0, for given key buffers and for the group number one past the end (proved). The elliptic curve exchange is not modelled."
  },
  {
   "property": "C53",
   "status": "partial",
   "theorems": [
    "Kryptos.Elgamal.elgamal_roundtrip_partial",
    "Kryptos.Elgamal.elgamal_run",
    "Kryptos.Elgamal.elgamal_single_digit",
    "Kryptos.Elgamal.elgamal_wrong",
    "Kryptos.Elgamal.elgamal_range",
    "Kryptos.Elgamal.elgamal_keys",
    "Kryptos.Elgamal.elgamal_oaep_partial",
    "Kryptos.Elgamal.cipher_encrypt",
    "Kryptos.Elgamal.cipher_decrypt",
    "Kryptos.Elgamal.elgamal_keys_undefined"
   ],
   "note": "Violated: elgamal_wrong has sound parameters, keys made by the library and a message below the modulus for which another message is decrypted. Proved: the number decrypted is always congruent to the message; it is the message under the conditions on the divisions, and for all moduli of one digit without conditions."
  },
  {
   "property": "C54",
   "status": "partial",
   "theorems": [
    "Kryptos.Dsa.dsa_sign_verify_partial",
    "Kryptos.Dsa.dsa_single_digit",
    "Kryptos.Dsa.dsa_zero_refused",
    "Kryptos.Dsa.dsa_no_message",
    "Kryptos.Dsa.dsa_keys",
    "Kryptos.Dsa.verifyTask_eq",
    "Kryptos.Dsa.signTask_eq",
    "Kryptos.Ecdsa.ecdsa_sign_verify_partial",
    "Kryptos.Ecdsa.ecdsa_single_digit",
    "Kryptos.Ecdsa.ecdsa_zero_refused",
    "Kryptos.Ecdsa.ecdsa_keys_partial",
    "Kryptos.Ecdsa.ecdsa_keys_single"
   ],
   "note": "DSA and ECDSA: proved under the conditions on the divisions and for s different from zero, and for parameters of one digit without conditions on divisions; violated for the nonces that make s zero (dsa_zero_refused, ecdsa_zero_refused)."
  },
  {
   "property": "C55",
   "status": "partial",
   "theorems": [
    "Kryptos.TaskCheck.check_iff_partial",
    "Kryptos.TaskCheck.check_accepts",
    "Kryptos.TaskCheck.check_reason",
    "Kryptos.TaskCheck.violates_not_wellFormed",
    "Kryptos.TaskCheck.check_defined",
    "Kryptos.TaskCheck.checkSign_iff",
    "Kryptos.TaskCheck.checkVerify_iff",
    "Kryptos.TaskCheck.check_fails",
    "Kryptos.TaskCheck.check_unsafe"
   ],
   "note": "Equivalence with the documented requirements for all tasks outside of six named quirks, each of which is refuted by a witness; a refusal always names a requirement which is violated; the checks of signature tasks are characterised completely. Undefined for malformed PEM keys (proved)."
  },
  {
   "property": "C56",
   "status": "partial",
   "theorems": [
    "Kryptos.Memory.freeseg_wipes",
    "Kryptos.Memory.freeseg_paranoid",
    "Kryptos.Memory.freeseg_paranoid_not_zero",
    "Kryptos.Memory.freeseg_wrong_size",
    "Kryptos.Memory.taskFree_wipes",
    "Kryptos.Memory.taskFree_twice"
   ],
   "note": "All bytes are zero before release except in builds with the paranoid option, which leave random bytes (proved)."
  },
  {
   "property": "C57",
   "status": "partial",
   "theorems": [
    "Kryptos.Fortuna.fortuna_history",
    "Kryptos.Fortuna.getRandomBlock_spec",
    "Kryptos.Fortuna.key_not_constant",
    "Kryptos.Fortuna.rekey_halves_differ",
    "Kryptos.Fortuna.fortuna_unseeded_fails",
    "Kryptos.Fortuna.reseed_long_unsafe",
    "Kryptos.Fortuna.blk_half"
   ],
   "note": "Full claim for all histories in which the system source delivers seeds and user seeds have at most 32 bytes; refuted (proved) when the system source fails (zeros are returned as a success and the key stays zero) and for longer seeds (out of bounds read)."
  },
  {
   "property": "C58",
   "status": "partial",
   "theorems": [
    "Kryptos.Stream.chacha20_dangling",
    "Kryptos.Stream.salsa20_dangling",
    "Kryptos.Stream.chacha20_caller_nonce_partial",
    "Kryptos.Stream.chacha20_odd_action"
   ],
   "note": "The claim is false: proved that every run which draws its own nonce leaves a dangling pointer, and that the next run or free is undefined. It holds of every history in which the caller supplies the nonce."
  },
  {
   "property": "C59",
   "status": "proved",
   "theorems": [
    "Kryptos.Memory.memcmp_eq",
    "Kryptos.Memory.memcmp_not_ordered"
   ],
   "note": "Zero exactly for equal buffers, reading every position once in order. The sign carries no order (proved)."
  },
  {
   "property": "C60",
   "status": "proved",
   "theorems": [
    "Kryptos.etm_round_trip",
    "Kryptos.etm_rejects",
    "Kryptos.etm_ignores_no_random_pad"
   ],
   "note": ""
  },
  {
   "property": "C61",
   "status": "proved",
   "theorems": [
    "Kryptos.Hotp.token_rfc4226",
    "Kryptos.Hotp.trunc_eq",
    "Kryptos.Hotp.trunc_safe"
   ],
   "note": ""
  },
  {
   "property": "C62",
   "status": "partial",
   "theorems": [
    "Kryptos.Mp.del_leaves",
    "Kryptos.Mp.del_keeps_top",
    "Kryptos.Mp.del_keeps_single"
   ],
   "note": "False: the size in digits is passed as the size in bytes. Proved exactly what is left."
  },
  {
   "property": "C63",
   "status": "partial",
   "theorems": [
    "Kryptos.Mp.assignHex_partial",
    "Kryptos.Mp.assignHex_wrong",
    "Kryptos.Mp.assignHex_wrong_place"
   ],
   "note": "Holds for numerals that fill the destination exactly; false for others (witnesses)."
  },
  {
   "property": "C64",
   "status": "proved",
   "theorems": [
    "Kryptos.Mp.gcd_exact",
    "Kryptos.Mp.gcd_zero_diverges"
   ],
   "note": "Exact and terminating for all positive numbers; for an operand equal to zero (outside the property) the function never ends."
  },
  {
   "property": "C65",
   "status": "partial",
   "theorems": [
    "Kryptos.Mp.barrett_exact",
    "Kryptos.Mp.barrettMain_exact",
    "Kryptos.Mp.barrett_large_partial",
    "Kryptos.Mp.barrett_refused",
    "Kryptos.Mp.montgomery2k_exact",
    "Kryptos.Mp.montgomery_single",
    "Kryptos.Mp.montgomery_out_of_bounds",
    "Kryptos.Mp.montgomery_even_wrong"
   ],
   "note": "Barrett: proved for every modulus and argument below twice the modulus. Montgomery: right for odd moduli of one digit; writes out of bounds whenever the remainder needs two digits; wrong for even moduli."
  },
  {
   "property": "C66",
   "status": "proved",
   "theorems": [
    "Kryptos.Mp.smallPrimes_complete",
    "Kryptos.Mp.smallPrimesTest_exact",
    "Kryptos.Mp.smallPrimesTest_rejects_prime"
   ],
   "note": "Small primes themselves are rejected too."
  },
  {
   "property": "C67",
   "status": "proved",
   "theorems": [
    "Kryptos.Mp.genPrime_sound",
    "Kryptos.Mp.genPrime_prime_of_small",
    "Kryptos.Mp.genPrime_run"
   ],
   "note": "Partial correctness: about the numbers returned; termination depends on the random bytes."
  },
  {
   "property": "C68",
   "status": "partial",
   "theorems": [
    "Kryptos.KeyLoad.ldUserKey_inj_partial",
    "Kryptos.KeyLoad.ldUserKey_ignores",
    "Kryptos.KeyLoad.ldUserKey_padded_partial",
    "Kryptos.KeyLoad.ldUserKey_not_padded",
    "Kryptos.Aes.aes128_key_ignored"
   ],
   "note": "False in general: when the last word is incomplete and more than half full its first bytes are shifted out. Injectivity is proved for the other lengths."
  },
  {
   "property": "C69",
   "status": "partial",
   "theorems": [
    "Kryptos.Rc5.rc5_standard",
    "Kryptos.Rc6.rc6_standard",
    "Kryptos.Rc5.rc5_short_key_nonstandard",
    "Kryptos.Rc5.rc5_zero_rotation",
    "Kryptos.Rc5.roundsOk_iff",
    "Kryptos.Rc6.rc6_trailing_zeros"
   ],
   "note": "Keys of whole words, with rotations by zero as the processor does them; for other key lengths RC5 does not follow the publication."
  },
  {
   "property": "C70",
   "status": "partial",
   "theorems": [
    "Kryptos.Shacal1.shacal1_standard",
    "Kryptos.Shacal2.shacal2_standard",
    "Kryptos.shacal_one_byte_key",
    "Kryptos.shacal_short_key_nonstandard"
   ],
   "note": "Proved for all keys of even length or of at least 64 bytes; false for keys of one byte, whose byte is loaded to another place."
  },
  {
   "property": "C71",
   "status": "partial",
   "theorems": [
    "Kryptos.Present.present80_standard",
    "Kryptos.Present.present128_standard",
    "Kryptos.Present.present_long_key_overflows"
   ],
   "note": "Proved for all keys of at most 128 bytes; longer keys, which are accepted, overflow a buffer (proved)."
  },
  {
   "property": "C72",
   "status": "partial",
   "theorems": [
    "Kryptos.Rsa.rsa_sign_verify_partial",
    "Kryptos.Rsa.rsa_pss_partial",
    "Kryptos.Rsa.verify_eq",
    "Kryptos.Rsa.rsa_forgery"
   ],
   "note": "Own signatures verify under the conditions on the divisions in the two powers (and, for PSS, an encoded message below the modulus whose first digit is not zero); verification accepts exactly when the power is the number in the document. The message is taken from the document, so that plain signatures can be forged from the public key alone (rsa_forgery)."
  },
  {
   "property": "C73",
   "status": "partial",
   "theorems": [
    "Kryptos.Rsa.rsa_oaep_partial"
   ],
   "note": "For encoded messages below the modulus whose first digit is not zero, under the conditions on the divisions in the two powers."
  },
  {
   "property": "C74",
   "status": "proved",
   "theorems": [
    "Kryptos.Dl.verify_sound",
    "Kryptos.Dl.Sound.orderOf",
    "Kryptos.Dl.generate_sound",
    "Kryptos.Dl.draw_range",
    "Kryptos.Dl.verify_single_digit",
    "Kryptos.Dl.verify_fine_partial",
    "Kryptos.Dl.generate_run",
    "Kryptos.Dl.draw_undefined"
   ],
   "note": "Without conditions on the divisions: wrong divisions can only lead to refusals. The primality of p and q is what the library's tests accept (C44, C67)."
  },
  {
   "property": "C75",
   "status": "partial",
   "theorems": [
    "Kryptos.Dsa.dsa_forgery",
    "Kryptos.Dsa.dsa_forgery_doc",
    "Kryptos.Dsa.dsa_forgery_task"
   ],
   "note": "Refuted: the document with r = 1 and s = 0 is accepted for every message under every public key with odd q above 1 (proved for the function and for the task)."
  },
  {
   "property": "C76",
   "status": "partial",
   "theorems": [
    "Kryptos.Dh.dh_answer_one"
   ],
   "note": "Refuted: a received value 1 is accepted and gives the key 1, whatever the secret is."
  },
  {
   "property": "C77",
   "status": "partial",
   "theorems": [
    "Kryptos.Huffman.inflate_short_undefined",
    "Kryptos.Huffman.inflate_needs_zeros",
    "Kryptos.Huffman.huffman_01_undefined"
   ],
   "note": "Refuted: every buffer below ten bytes and every buffer without two adjacent zeros followed by eight bytes is undefined, and so is the library's own compressed form of \"01\"."
  },
  {
   "property": "C78",
   "status": "proved",
   "theorems": [
    "Kryptos.Idea.idea_standard",
    "Kryptos.Idea.mul_eq"
   ],
   "note": "Short keys are filled up with zeros; keys whose last word is more than half full but incomplete fall under C68."
  },
  {
   "property": "C79",
   "status": "partial",
   "theorems": [
    "Kryptos.Safer.saferk64_standard_partial",
    "Kryptos.Safer.saferk64_undefined",
    "Kryptos.Safer.roundsOk_iff",
    "Kryptos.Safer.log_eq",
    "Kryptos.Safer.ex_eq"
   ],
   "note": "Proved for up to 13 rounds; for 14 to 800, which are accepted, every run reads past the end of the table of powers (proved)."
  },
  {
   "property": "C80",
   "status": "proved",
   "theorems": [
    "Kryptos.Des.des_standard",
    "Kryptos.Des.triple_des_ede_standard",
    "Kryptos.Des.f_run",
    "Kryptos.Des.schedule_run"
   ],
   "note": "Specified on lists of bits with the tables as printed. Keys are filled up with zeros; other key lengths fall under C68."
  },
  {
   "property": "C81",
   "status": "partial",
   "theorems": [
    "Kryptos.Des.des_weak_keys_refused_partial",
    "Kryptos.Des.des_weak_key_accepted",
    "Kryptos.Des.des_semi_weak_keys_accepted"
   ],
   "note": "Refuted: eight zero bytes (a weak key whose parity bits are not set) is accepted and is its own inverse; a published pair of semi-weak keys is accepted because their entries in the table are misspelt. The four weak keys with odd parity are refused."
  },
  {
   "property": "C82",
   "status": "partial",
   "theorems": [
    "Kryptos.Des.triple_des_ede_keys_partial",
    "Kryptos.Des.triple_des_ede_single",
    "Kryptos.Des.triple_des_ede_single_parity"
   ],
   "note": "Refuted: every third key equal to the second is accepted, and so are first and second keys that differ in a parity bit only; both leave single DES. Equal first and second keys are refused."
  },
  {
   "property": "C83",
   "status": "partial",
   "theorems": [
    "Kryptos.Blowfish.blowfish_standard_partial",
    "Kryptos.Blowfish.blowfish_padded",
    "Kryptos.Blowfish.blowfish_zeros_same_key",
    "Kryptos.Blowfish.schedule_repeated",
    "Kryptos.Blowfish.pi_eq",
    "Kryptos.Blowfish.blowfish_long_key_undefined"
   ],
   "note": "Proved for keys of whole words up to 56 bytes. Other keys of even length are filled up with zeros instead of being repeated (proved: what is computed for them), so that two bytes and the same two bytes followed by zeros are one key. Keys above 56 bytes are read past the end of an array."
  },
  {
   "property": "C84",
   "status": "proved",
   "theorems": [
    "Kryptos.Blowfish.bcrypt_standard",
    "Kryptos.Blowfish.setup_run",
    "Kryptos.Blowfish.pi_eq"
   ],
   "note": ""
  },
  {
   "property": "C85",
   "status": "partial",
   "theorems": [
    "Kryptos.Blowfish.bcrypt_verify_iff",
    "Kryptos.Blowfish.bcrypt_verify_own",
    "Kryptos.Blowfish.bcrypt_verify_defined_partial",
    "Kryptos.Blowfish.bcrypt_verify_short_undefined",
    "Kryptos.Blowfish.bcrypt_verify_ff_undefined"
   ],
   "note": "The equivalence is proved for all texts. Violated: texts of 23 to 28 bytes with the right beginning are read past their end, and a byte 0xFF in the salt is looked up behind the table; definedness is proved for the other texts of at most 22 or at least 31 bytes without 17 signs '=' at the end of the salt."
  },
  {
   "property": "C86",
   "status": "partial",
   "theorems": [
    "Kryptos.Cast5.cast5_standard_partial",
    "Kryptos.Cast5.cast5_standard_strict_partial",
    "Kryptos.Cast5.cast5_zero_rotation",
    "Kryptos.Cast5.cast5_zero_rotation_rfc",
    "Kryptos.Cast5.cast5_40bit_wrong",
    "Kryptos.Cast5.rfc128",
    "Kryptos.Cast5.rfc80",
    "Kryptos.Cast5.rfc40"
   ],
   "note": "Proved for keys of an even number of bytes or at least 16. Violated: keys of odd length are packed differently, so that the RFC's own 40-bit vector comes out wrong; a subkey with a rotation by zero makes every block undefined in C (a shift by 32), which happens for the RFC's own 80-bit key."
  },
  {
   "property": "C87",
   "status": "partial",
   "theorems": [
    "Kryptos.Serpent.serpent_standard_partial",
    "Kryptos.Serpent.serpent_long_key_undefined"
   ],
   "note": "Proved for all keys of up to 32 bytes. Violated: longer keys are accepted and copied past the end of a 32-byte array."
  },
  {
   "property": "C88",
   "status": "partial",
   "theorems": [
    "Kryptos.Mars.mars_published_partial",
    "Kryptos.Mars.S_eq_sbox",
    "Kryptos.Mars.mars_standard_partial",
    "Kryptos.Mars.mars_strict_partial",
    "Kryptos.Mars.mars_zero_rotation",
    "Kryptos.Mars.mars_long_key_undefined",
    "Kryptos.Mars.mars_same_key",
    "Kryptos.Mars.schedule_unique",
    "Kryptos.Mars.mask_bits"
   ],
   "note": "Proved for keys of up to 32 bytes with rotations as processors perform them (shift counts modulo 32); a defined result in standard C is the published one and is decrypted. Violated: under every key there is a block that shifts a word by 32 places, which C does not define; keys above 32 bytes overflow an array; bytes behind the size of the variant are ignored and shorter keys are filled up with zeros."
  },
  {
   "property": "C89",
   "status": "proved",
   "theorems": [
    "Kryptos.Twofish.twofish_standard",
    "Kryptos.Twofish.twofish_invertible",
    "Kryptos.Twofish.precomputed",
    "Kryptos.Twofish.gfmul_mds",
    "Kryptos.Twofish.gfmul_rs",
    "Kryptos.Twofish.schedule_run"
   ],
   "note": "All three variants, all keys and blocks, for both builds of the q permutations."
  },
  {
   "property": "C90",
   "status": "partial",
   "theorems": [
    "Kryptos.Gost.gost_standard_partial",
    "Kryptos.Gost.sub_val",
    "Kryptos.Gost.lt_eq",
    "Kryptos.Gost.ds_des",
    "Kryptos.Gost.ds_nibbles",
    "Kryptos.Gost.gost_odd_key"
   ],
   "note": "Proved for keys of at least 32 bytes or of even length, on the words of a block: the code stores words highest byte first, RFC 5830 lowest byte first. Missing: short keys of odd length, whose last byte lands in another place of its word (gost_odd_key shows a wrong block); this is how the code is."
  },
  {
   "property": "C91",
   "status": "partial",
   "theorems": [
    "Kryptos.Poly1305.tag_rfc8439_partial",
    "Kryptos.Poly1305.clamp_val",
    "Kryptos.Poly1305.mul_val",
    "Kryptos.Poly1305.leBytesToNum_val",
    "Kryptos.Poly1305.tagFromNum_val",
    "Kryptos.Poly1305.tag_wrong"
   ],
   "note": "Refuted as stated: tag_wrong is a message and key with a wrong tag, because kryptos_poly1305_get_gt does not look at bit 30 of a digit. Proved for all messages and keys: the tag is that of RFC 8439 whenever every division by 2^130 - 5 in the run leaves the right remainder and there is memory behind the product array (without it every tag is undefined, C34)."
  },
  {
   "property": "C92",
   "status": "proved",
   "theorems": [
    "Kryptos.Camellia.camellia128_standard",
    "Kryptos.Camellia.camellia192_standard",
    "Kryptos.Camellia.camellia256_standard",
    "Kryptos.Camellia.camellia128_padded_partial",
    "Kryptos.Camellia.camellia256_padded_partial",
    "Kryptos.Camellia.camellia_odd_key",
    "Kryptos.Camellia.s1_spec"
   ],
   "note": "For the key sizes of RFC 3713, with the S-box in its algebraic form. Keys of other lengths, which the RFC does not have, are covered by the padded theorems except short ones of odd length."
  },
  {
   "property": "C93",
   "status": "partial",
   "theorems": [
    "Kryptos.Ec.ec_dbl_partial",
    "Kryptos.Ec.ec_add_partial",
    "Kryptos.Ec.ec_mul_partial",
    "Kryptos.Ec.ec_dbl_single",
    "Kryptos.Ec.ec_add_single",
    "Kryptos.Ec.ec_mul_single",
    "Kryptos.Ec.Rep.unique",
    "Kryptos.Ec.ec_dbl_wrong",
    "Kryptos.Ec.ec_add_origin_wrong"
   ],
   "note": "Proved for primes of one digit without further conditions, and for every prime when the reductions that occur are right. For primes of several digits a reduction may stop too early: ec_dbl_wrong is a double that is no point. Curves with b = 0 are excluded by the statement; ec_add_origin_wrong shows why."
  },
  {
   "property": "C94",
   "status": "partial",
   "theorems": [
    "Kryptos.Ecdh.ecdh_agree_partial",
    "Kryptos.Ecdh.ecdh_agree_single",
    "Kryptos.Ecdh.strtoul_decimal",
    "Kryptos.Ecdh.getCurve_run",
    "Kryptos.Ecdh.alice_run",
    "Kryptos.Ecdh.bob_run"
   ],
   "note": "For primes of one digit without conditions; for longer ones when the reductions are right (see C93). The documents are written and read by the modelled PEM functions."
  },
  {
   "property": "C95",
   "status": "partial",
   "theorems": [
    "Kryptos.Ecdh.secretK_range_partial",
    "Kryptos.Ecdh.secretD_range_partial",
    "Kryptos.Ecdh.secrets_all_partial",
    "Kryptos.Ecdh.secretK_half_zero",
    "Kryptos.Ecdh.secretD_half_zero",
    "Kryptos.Ecdh.secret_no_bits"
   ],
   "note": "Refuted with digits of 64 bits: half of the bits of every secret are zero, whatever the random bytes (secretK_half_zero, secretD_half_zero), and for zero bits (secret_no_bits). Proved: the range, and with digits of 32 bits that every number of the range can be drawn."
  },
  {
   "property": "C96",
   "status": "partial",
   "theorems": [
    "Kryptos.Ecdh.ecdh_double_free",
    "Kryptos.Ecdh.bob_double_free_iff",
    "Kryptos.Ecdh.bob_ends_partial",
    "Kryptos.Ecdh.alice_ends",
    "Kryptos.Ecdh.bob_hangs",
    "Kryptos.Ecdh.bob_hangs_sample",
    "Kryptos.Ec.mul_any",
    "Kryptos.Mp.rsLoop_zero_modulus"
   ],
   "note": "Refuted twice: a document with a curve but without a point makes the answering side release its own point twice, and one whose order is at most 2 keeps it looking for a secret for ever. Proved: among the readable documents with an odd modulus above 1 (prime or not, points anywhere) and a secret that is found, the double release happens exactly when a coordinate is missing, and all others end with a key; the other side ends for every readable answer. Missing: even moduli (modulo zero the inverse never ends) and unreadable documents (C47)."
  },
  {
   "property": "C97",
   "status": "partial",
   "theorems": [
    "Kryptos.Ecdh.ecdh_zero_answer",
    "Kryptos.Ecdh.mul_zero"
   ],
   "note": "Refuted: one fixed answer gives every Alice the secret zero, whatever her curve and secret. The received point is not checked at all."
  },
  {
   "property": "C98",
   "status": "partial",
   "theorems": [
    "Kryptos.Ecdsa.ecdsa_forgery",
    "Kryptos.Ecdsa.ecdsa_forgery_doc",
    "Kryptos.Ecdsa.verifyWith_zero"
   ],
   "note": "Refuted: the pair of zeros is accepted as a signature of every message under every public key with odd modulus and odd order. The honest direction is C54."
  },
  {
   "property": "C99",
   "status": "partial",
   "theorems": [
    "Kryptos.Curves.std_curve",
    "Kryptos.Curves.std_good",
    "Kryptos.Curves.std_context",
    "Kryptos.Curves.row_check",
    "Kryptos.Curves.gen_on",
    "Kryptos.Curves.prime_p",
    "Kryptos.Curves.prime_order",
    "Kryptos.Curves.gen_order",
    "Kryptos.Curves.std_order_partial",
    "Kryptos.Curves.std_order_wrong",
    "Kryptos.Curves.curve_order_partial",
    "Kryptos.Curves.curve_order_wrong"
   ],
   "note": "Proved for all identifiers but two: numbers, bits, prime modulus (certificates), generator on the curve, and the stated number is its order and prime. Refuted for BrainpoolP384R1 and BrainpoolP512R1, whose orders lack a byte (std_order_wrong, which also gives the true orders)."
  },
  {
   "property": "C100",
   "status": "partial",
   "theorems": [
    "Kryptos.Md4.md4_rfc_partial",
    "Kryptos.Md4.md4_functional",
    "Kryptos.Md4.md4_aligned",
    "Kryptos.Md4.md4_rfc_fails",
    "Kryptos.Md4.md4_hex",
    "Kryptos.Md5.md5_rfc_partial",
    "Kryptos.Md5.const_eq",
    "Kryptos.Md5.md5_aligned",
    "Kryptos.Md5.md5_rfc_fails",
    "Kryptos.Md5.md5_hex"
   ],
   "note": "Proved for every message below 2^61 bytes whose length is not a positive multiple of 64; false for those (witness), where the exact behaviour is characterised instead. The table of MD5 is proved to be that of the real sines."
  },
  {
   "property": "C101",
   "status": "partial",
   "theorems": [
    "Kryptos.Ripemd.ripemd128_partial",
    "Kryptos.Ripemd.ripemd128_functional",
    "Kryptos.Ripemd.ripemd128_aligned",
    "Kryptos.Ripemd.ripemd128_fails",
    "Kryptos.Ripemd.ripemd128_hex",
    "Kryptos.Ripemd.ripemd160_partial",
    "Kryptos.Ripemd.ripemd160_functional",
    "Kryptos.Ripemd.ripemd160_aligned",
    "Kryptos.Ripemd.ripemd160_fails",
    "Kryptos.Ripemd.ripemd160_hex"
   ],
   "note": "Proved for every message below 2^61 bytes whose length is not a positive multiple of 64; false for those (witness), where the exact behaviour is characterised instead."
  },
  {
   "property": "C102",
   "status": "partial",
   "theorems": [
    "Kryptos.Tiger.tiger_partial",
    "Kryptos.Tiger.tiger_aligned",
    "Kryptos.Tiger.tiger_fails_48",
    "Kryptos.Tiger.tiger_fails_64",
    "Kryptos.Tiger.tiger_hex",
    "Kryptos.TigerGen.boxes_eq"
   ],
   "note": "Proved, S-boxes from the authors' generator included, for lengths that modulo 64 are not in 48..55 and are not positive multiples of 64. Violated there: the seventh word of the last block is reversed twice, and nothing is appended to whole blocks (witnesses; the second case is characterised)."
  },
  {
   "property": "C103",
   "status": "partial",
   "theorems": [
    "Kryptos.Whirlpool.whirlpool_partial",
    "Kryptos.Whirlpool.whirlpool_aligned",
    "Kryptos.Whirlpool.whirlpool_fails",
    "Kryptos.Whirlpool.whirlpool_collision",
    "Kryptos.Whirlpool.whirlpool_hex",
    "Kryptos.Whirlpool.compress_eq",
    "Kryptos.Whirlpool.C0_eq"
   ],
   "note": "Proved, tables included, for every message whose length is not a positive multiple of 64. Violated there: nothing is appended to whole blocks (witness, characterisation, and the collisions that follow)."
  },
  {
   "property": "C104",
   "status": "proved",
   "theorems": [
    "Kryptos.Keccak.sha3_fips",
    "Kryptos.Keccak.keccak_sub",
    "Kryptos.Keccak.bits_inj",
    "Kryptos.Keccak.r1600_bits",
    "Kryptos.Keccak.padding_sha3",
    "Kryptos.Keccak.padding_keccak",
    "Kryptos.Keccak.hexOut_eq",
    "Kryptos.Keccak.keccak_hex"
   ],
   "note": "Proved for every message against a bit-level statement of FIPS 202; allocations succeed."
  },
  {
   "property": "C105",
   "status": "partial",
   "theorems": [
    "Kryptos.Rabbit.rabbit_published",
    "Kryptos.Rabbit.rabbit_inverse",
    "Kryptos.Rabbit.rabbit_full_key",
    "Kryptos.Rabbit.rabbit_rfc_reversed",
    "Kryptos.Rabbit.rabbit_no_overflow_partial",
    "Kryptos.Rabbit.rabbit_square_overflows",
    "Kryptos.Rabbit.rabbit_key_collision",
    "Kryptos.Rabbit.rabbit_short_iv_overread",
    "Kryptos.Rabbit.rabbit_not_rfc4503"
   ],
   "note": "Proved for all inputs when an overflowing product of type long wraps; where it is undefined, runs without overflow agree and the key of zeros overflows. Octets are in the order of the eSTREAM submission, the reverse of RFC 4503. Short vectors are read beyond their end, and keys that differ in leading zeros or before their last 16 bytes give one key stream."
  },
  {
   "property": "C106",
   "status": "partial",
   "theorems": [
    "Kryptos.Small.djb2_value",
    "Kryptos.Small.djb2_null",
    "Kryptos.Small.djb2_extend",
    "Kryptos.Small.djb2_one_byte",
    "Kryptos.Small.djb2_collision",
    "Kryptos.Small.pw2_value_partial",
    "Kryptos.Small.pw2_wraps"
   ],
   "note": "djb2 proved for every input. pw2 proved for exponents below 255; for others, negative ones included, the powers begin again, which is characterised for every int."
  },
  {
   "property": "C107",
   "status": "partial",
   "theorems": [
    "Kryptos.Blake2.blake2b_rfc7693",
    "Kryptos.Blake2.blake2b_task",
    "Kryptos.Blake2.blake2s_rfc7693_partial",
    "Kryptos.Blake2.blake2s_task_partial",
    "Kryptos.Blake2.blake2s_long",
    "Kryptos.Blake2.blake2s_counter_matters",
    "Kryptos.Blake2.blake2bN_input_size",
    "Kryptos.Blake2.iv_b",
    "Kryptos.Blake2.iv_s"
   ],
   "note": "BLAKE2b proved for every message whose buffer size fits size_t. BLAKE2s proved below 2^32 - 64 bytes; from 4 GiB on its last counter loses the high word (characterised for every length). The block size reported for blake2bN is that of BLAKE2s."
  },
  {
   "property": "C108",
   "status": "partial",
   "theorems": [
    "Kryptos.Blake3.blake3_task",
    "Kryptos.Blake3.blake3N_task",
    "Kryptos.Blake3.blake3_refused",
    "Kryptos.Blake3.blake3_empty_ub",
    "Kryptos.Blake3.kdf_derive_key_partial",
    "Kryptos.Blake3.full_short",
    "Kryptos.Blake3.kdf_last_chunk",
    "Kryptos.Blake3.kdf_collision",
    "Kryptos.Blake3.root_eq"
   ],
   "note": "hash and keyed_hash proved for every input (the empty one has an undefined shift, proved) and output size. derive_key proved for contexts whose number of chunks is a power of two; violated for longer ones: with an odd number of chunks only the last chunk matters."
  },
  {
   "property": "C109",
   "status": "partial",
   "theorems": [
    "Kryptos.Seal.seal_partial",
    "Kryptos.Seal.seal_inverts",
    "Kryptos.Seal.seal_refused",
    "Kryptos.Seal.key_of_160_bits",
    "Kryptos.Seal.ldUserkey_ok",
    "Kryptos.Seal.version_not_checked",
    "Kryptos.Seal.short_keys_collide",
    "Kryptos.Seal.long_key_start_lost",
    "Kryptos.Seal.keystream_eq"
   ],
   "note": "Proved for every key, text, position and piece size with versions 2 and 3. Violated: other versions are not refused and read a variable without a value; short keys are padded with four bits for each missing byte, so that keys of one and two bytes collide; the first bytes of keys of 24 bytes have no influence."
  },
  {
   "property": "C110",
   "status": "partial",
   "theorems": [
    "Kryptos.Argon2.argon2_rfc9106_partial",
    "Kryptos.Argon2.argon2_code",
    "Kryptos.Argon2.argon2d_powers",
    "Kryptos.Argon2.argon2_wrong_column",
    "Kryptos.Argon2.argon2_wrong_address",
    "Kryptos.Argon2.argon2_no_lanes",
    "Kryptos.Argon2.argon2_no_memory",
    "Kryptos.Argon2.argon2_no_passes",
    "Kryptos.Argon2.H_eq",
    "Kryptos.Argon2.tag_same"
   ],
   "note": "What the code computes is characterised for all allowed parameters and inputs. It is the RFC's tag (up to 64 bytes) for Argon2d with one pass or a power-of-two number of columns, and for Argon2i/id with segments of at most three columns (id: and that). Violated otherwise: a wrong column at j = 0 of later passes, addresses two too low in the first segment; tags over 64 bytes have groups of eight bytes reversed or undefined behaviour; parallelism, memory or passes 0 are not refused and undefined."
  },
  {
   "property": "C111",
   "status": "proved",
   "theorems": [
    "Kryptos.Rc2.rc2_rfc2268",
    "Kryptos.Rc2.rc2_rfc2268_decrypt",
    "Kryptos.Rc2.inflate_eq"
   ],
   "note": "Every key size and effective length of the RFC. (The code also accepts 1025 bits, which is undefined: C29.)"
  },
  {
   "property": "C112",
   "status": "proved",
   "theorems": [
    "Kryptos.Misty1.misty1_rfc2994",
    "Kryptos.Misty1.misty1_rfc2994_decrypt",
    "Kryptos.Misty1.sched_eq",
    "Kryptos.Misty1.FI_eq"
   ],
   "note": "Every key and block; the specification uses 7- and 9-bit values and the subkey numbering of the paper."
  },
  {
   "property": "C113",
   "status": "proved",
   "theorems": [
    "Kryptos.Noekeon.noekeon_indirect",
    "Kryptos.Noekeon.noekeon_direct"
   ],
   "note": "Both modes, both directions. Direct keys of odd sizes are not completed by zeros (C68)."
  },
  {
   "property": "C114",
   "status": "proved",
   "theorems": [
    "Kryptos.Feal.feal_n",
    "Kryptos.Feal.feal_n_decrypt",
    "Kryptos.Feal.expandKey_eq"
   ],
   "note": "Every key of 8 bytes, N up to 792, every block."
  },
  {
   "property": "C115",
   "status": "partial",
   "theorems": [
    "Kryptos.Rsa.keygen_partial",
    "Kryptos.Rsa.mkNumbers_sound",
    "Kryptos.Rsa.evalELoop_sound",
    "Kryptos.Rsa.keygen_short",
    "Kryptos.Mp.gcd_returns",
    "Kryptos.Rsa.keygen_run",
    "Kryptos.Rsa.keygen_equal_primes",
    "Kryptos.Rsa.keygen_exponent_one",
    "Kryptos.Rsa.keygen_exponent_zero"
   ],
   "note": "For every run that ends: modulus a product of two numbers from the generator, exponent coprime to (P-1)(Q-1); a working key pair when the numbers are different primes and Euclid's divisions are right. Refuted: equal primes are accepted and lose the message P, the exponent 1 is accepted, and a zero candidate makes the search endless."
  },
  {
   "property": "C116",
   "status": "partial",
   "theorems": [
    "Kryptos.Dh.dh_verify_sound",
    "Kryptos.Dh.dh_verify_single_digit",
    "Kryptos.Dh.dh_verify_missing",
    "Kryptos.Elgamal.elgamal_verify_partial",
    "Kryptos.Elgamal.elgamal_verify_ignores_b",
    "Kryptos.Elgamal.elgamal_verify_one",
    "Kryptos.Mp.isPrime_digit"
   ],
   "note": "Whatever is accepted is sound in P, Q and G, for all buffers. Refuted for B: it is not looked at, and for all good parameters the key with B = 1 is accepted, under which every message can be read from the ciphertext."
  },
  {
   "property": "C117",
   "status": "partial",
   "theorems": [
    "Kryptos.Dh.get_modp_rfc3526",
    "Kryptos.Dh.rfc3526_sound",
    "Kryptos.Dh.get_modp_other",
    "Kryptos.Dh.floor_pi_8062",
    "Kryptos.PiBits.floor_pi"
   ],
   "note": "Proved for the six sizes, with the formula of the RFC and the real number pi; that the numbers are prime is not proved. Refuted for the first number behind the table, for which the entry is read outside of it."
  },
  {
   "property": "C118",
   "status": "partial",
   "theorems": [
    "Kryptos.Csprng.csprng_history",
    "Kryptos.Csprng.set_spec",
    "Kryptos.Csprng.csprng_seed",
    "Kryptos.Csprng.csprng_256_answers",
    "Kryptos.Csprng.csprng_byte_silent",
    "Kryptos.Csprng.csprng_short_read"
   ],
   "note": "Selection and answers proved for all histories. Refuted: the seed has between 1 and 31 bytes and with one byte there are only 256 possible answers to the first request; a missing device gives the byte zero without an error; a short read leaves old memory in the block."
  },
  {
   "property": "C119",
   "status": "partial",
   "theorems": [
    "Kryptos.Mp.div_right_iff",
    "Kryptos.Mp.mulMod_odd_wrong",
    "Kryptos.Mp.overflow_odd",
    "Kryptos.Mp.odd_not_oneDigit"
   ],
   "note": "Refuted for every such modulus: the division is right for all dividends exactly when the divisor is a number of one digit times a power of two; for every odd n with more than one digit the product of 2^w and n - 1 is not reduced. (Proved for the other divisors by the same equivalence.)"
  },
  {
   "property": "C120",
   "status": "proved",
   "theorems": [
    "Kryptos.Dh.mkDomainParams_sound",
    "Kryptos.Dh.mkDomainParams_failure",
    "Kryptos.Dh.mkDomainParams_zero",
    "Kryptos.Dh.params_roundtrip",
    "Kryptos.Dh.getModp_all_or_nothing",
    "Kryptos.Dh.getModp_verify",
    "Kryptos.Dh.mkDomainParams_run"
   ],
   "note": "For every run that ends and every buffer. Soundness is the one of C74: order and generator are right, both numbers have passed the test of primality."
  },
  {
   "property": "C121",
   "status": "partial",
   "theorems": [
    "Kryptos.Dsa.dsa_verdict_partial",
    "Kryptos.Dsa.dsa_task_verdict_partial",
    "Kryptos.Dsa.dsa_verify_ub_iff",
    "Kryptos.Ecdsa.ecdsa_verdict",
    "Kryptos.Ecdsa.ecdsa_missing",
    "Kryptos.Rsa.rsa_verdict",
    "Kryptos.Rsa.rsa_pss_verdict",
    "Kryptos.Rsa.rsa_missing"
   ],
   "note": "Proved for ECDSA and RSA. For DSA it holds for exactly the complete documents: when the message, R or S is missing, kryptos_dsa_verify reads fields that were never set."
  },
  {
   "property": "C122",
   "status": "partial",
   "theorems": [
    "Kryptos.Rsa.rsa_oaep_one_ub",
    "Kryptos.Rsa.rsa_oaep_task_ub",
    "Kryptos.Elgamal.elgamal_oaep_one_ub",
    "Kryptos.Oaep.oaep_drop_ub_iff",
    "Kryptos.Oaep.checkDb_ub_iff",
    "Kryptos.Rsa.rsa_oaep_ub_iff_partial"
   ],
   "note": "Refuted: there is one document (the ciphertext is the number one) that makes the decrypting task read out of bounds under every private key with more than one digit, whatever the hash and the label are. For blocks of the size of the modulus the blocks with this effect are characterised: the maskings of the hash of the label followed by zeros only."
  },
  {
   "property": "C123",
   "status": "partial",
   "theorems": [
    "Kryptos.Dh.drawS_iff",
    "Kryptos.Dh.secret_drawn_iff",
    "Kryptos.Dh.secret_set",
    "Kryptos.Dh.secret_possible_iff",
    "Kryptos.Dl.drawLoop_iff",
    "Kryptos.Dh.xchg_hangs",
    "Kryptos.Dh.xchg_hangs_doc",
    "Kryptos.Elgamal.encrypt_hangs",
    "Kryptos.Elgamal.encrypt_hangs_key"
   ],
   "note": "First half proved (the loops end with the first number in the range). Second half refuted: with an order of 3 the range is empty, so that the answering side of Diffie-Hellman and the encryption of ElGamal never end, for any random bytes; the parameters 7, 3, 2 are accepted by the verification of parameters and keys (digits of 32 bits)."
  },
  {
   "property": "C124",
   "status": "proved",
   "theorems": [
    "Kryptos.Dl.draw_defined",
    "Kryptos.Dl.draw_all",
    "Kryptos.Dl.draw_possible_iff",
    "Kryptos.Dl.topMask_keeps",
    "Kryptos.Dl.drawLoop_iff",
    "Kryptos.Dl.draw_range"
   ],
   "note": "For both loops, which differ only in the lower end of the range. For an order equal to the lower end see C123 and Dl.draw_undefined."
  },
  {
   "property": "C125",
   "status": "proved",
   "theorems": [
    "Kryptos.Dl.draw_uniform",
    "Kryptos.Dh.secret_uniform",
    "Kryptos.Mp.uniform_core",
    "Kryptos.Mp.randDigit_xor"
   ],
   "note": "For DSA, ElGamal and Diffie-Hellman. The statement is about sources that deliver uniform bytes; how far the generators of the library do is not part of it (C118)."
  },
  {
   "property": "C126",
   "status": "partial",
   "theorems": [
    "Kryptos.Ecdh.draw_uniform",
    "Kryptos.Ecdh.secretK_uniform",
    "Kryptos.Ecdh.secretD_uniform",
    "Kryptos.Ecdh.secretD_full_partial",
    "Kryptos.Ecdh.secretD_half_zero",
    "Kryptos.Ecdh.secretK_half_zero"
   ],
   "note": "Proved: the numbers that can be drawn are all equally likely; with digits of 32 bits and at least as many bits as a digit these are all numbers of the range. Refuted with digits of 64 bits: the numbers that can be drawn have the upper half of every digit zero (C95)."
  },
  {
   "property": "C127",
   "status": "proved",
   "theorems": [
    "Kryptos.Dl.draw_half",
    "Kryptos.Dl.draw_half_pass",
    "Kryptos.Dl.flip_top"
   ],
   "note": "The condition on the number of digits is only missed by orders that are a power of the base (or one more, for ElGamal)."
  },
  {
   "property": "C128",
   "status": "partial",
   "theorems": [
    "Kryptos.Dh.secret_no_half",
    "Kryptos.Dh.secret_set"
   ],
   "note": "Refuted for every order that is at least two bits shorter than the digits drawn, with as many bits as a digit or more: for each string there is a source that fails before and after. The mask is made from the number of bits only; secret_set tells which numbers are taken."
  },
  {
   "property": "C129",
   "status": "partial",
   "theorems": [
    "Kryptos.Ecdh.secretD_count",
    "Kryptos.Ecdh.secretK_count",
    "Kryptos.Ecdh.secretD_sqrt",
    "Kryptos.Ecdh.secretK_sqrt",
    "Kryptos.Ecdh.draw_count",
    "Kryptos.Ecdh.secretD_count_partial",
    "Kryptos.Ecdh.secretK_count_partial"
   ],
   "note": "Refuted with digits of 64 bits: there are at most 2^32 results for each digit, so that their number is at most the square root of 2^64 times the order (2^128 for an order of 256 bits). With digits of 32 bits and enough digits the number is exactly the order less one (ECDH: less two), by the theorems with the suffix."
  }
 ]
}