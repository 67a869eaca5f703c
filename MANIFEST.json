{
 "claims": [
  {
   "property": "C01",
   "status": "proved",
   "theorems": [
    "Cex.IntTools.C01_be16_write",
    "Cex.IntTools.C01_be32_write",
    "Cex.IntTools.C01_be64_write",
    "Cex.IntTools.C01_be16_read",
    "Cex.IntTools.C01_be32_read",
    "Cex.IntTools.C01_be64_read",
    "Cex.IntTools.C01_le16_write",
    "Cex.IntTools.C01_le32_write",
    "Cex.IntTools.C01_le64_write",
    "Cex.IntTools.C01_le16_read",
    "Cex.IntTools.C01_le32_read",
    "Cex.IntTools.C01_le64_read",
    "Cex.IntTools.C01_roundtrip",
    "Cex.IntTools.C01_codecs"
   ],
   "note": ""
  },
  {
   "property": "C02",
   "status": "proved",
   "theorems": [
    "Cex.IntTools.C02_be_increment_window",
    "Cex.IntTools.C02_be_increment",
    "Cex.IntTools.C02_le_increment",
    "Cex.IntTools.C02_be_increment_iter",
    "Cex.IntTools.C02_be_no_repeat",
    "Cex.IntTools.C02_leIncrementW"
   ],
   "note": ""
  },
  {
   "property": "C03",
   "status": "partial",
   "theorems": [
    "Cex.IntTools.C03_be_increase_partial",
    "Cex.IntTools.C03_le_increase_partial",
    "Cex.IntTools.C03_inplace_partial",
    "Cex.IntTools.C03_no_ff_byte",
    "Cex.IntTools.C03_small",
    "Cex.IntTools.C03_be_increase_false",
    "Cex.IntTools.C03_le_increase_false",
    "Cex.IntTools.C03_leIncreaseW"
   ],
   "note": "The code loses a carry when a carry-in meets an addend byte 0xFF; the partial theorem is an exact iff, the negation is proved with a witness."
  },
  {
   "property": "C04",
   "status": "proved",
   "theorems": [
    "Cex.IntTools.C04_compare",
    "Cex.IntTools.C04_verify",
    "Cex.IntTools.C04_out_of_range",
    "Cex.IntTools.C04_diffMask",
    "Cex.IntTools.C04_diffMask16_false"
   ],
   "note": "DiffMask on 16-bit elements is refuted by a witness."
  },
  {
   "property": "C05",
   "status": "partial",
   "theorems": [
    "Cex.IntTools.C05_masks",
    "Cex.IntTools.C05_topBit",
    "Cex.IntTools.C05_select",
    "Cex.IntTools.C05_conditionalCopy",
    "Cex.IntTools.C05_conditionalZeroMem",
    "Cex.IntTools.C05_cmov",
    "Cex.IntTools.C05_shiftLeft",
    "Cex.IntTools.C05_rotates",
    "Cex.IntTools.C05_crop",
    "Cex.IntTools.C05_cMax_false",
    "Cex.IntTools.C05_cMin_false"
   ],
   "note": "CMax and CMin are refuted by witnesses; everything else proved."
  },
  {
   "property": "C06",
   "status": "proved",
   "theorems": [
    "Cex.Padding.C06_pkcs7_add",
    "Cex.Padding.C06_pkcs7_roundtrip",
    "Cex.Padding.C06_pkcs7_end_to_end",
    "Cex.Padding.C06_pkcs7_256_false"
   ],
   "note": "All messages, pad lengths 1..255, total length >= 2, both reader overloads; the 256-byte pad is shown not to round-trip."
  },
  {
   "property": "C07",
   "status": "proved",
   "theorems": [
    "Cex.Padding.C07_x923_add",
    "Cex.Padding.C07_x923_roundtrip",
    "Cex.Padding.C07_x923_end_to_end"
   ],
   "note": "All messages, pad lengths 1..255, total length >= 2, both reader overloads."
  },
  {
   "property": "C08",
   "status": "proved",
   "theorems": [
    "Cex.Padding.C08_esp_add",
    "Cex.Padding.C08_esp_roundtrip",
    "Cex.Padding.C08_esp_end_to_end"
   ],
   "note": "All messages, pad lengths 1..255."
  },
  {
   "property": "C09",
   "status": "proved",
   "theorems": [
    "Cex.Padding.C09_zeroOne_add",
    "Cex.Padding.C09_zeroOne_roundtrip",
    "Cex.Padding.C09_zeroOne_end_to_end"
   ],
   "note": "All messages and all pad lengths >= 1."
  },
  {
   "property": "C10",
   "status": "partial",
   "theorems": [
    "Cex.Padding.C10_esp_rejects",
    "Cex.Padding.C10_zeroOne_rejects",
    "Cex.Padding.C10_pkcs7_rejects_partial",
    "Cex.Padding.C10_x923_rejects_partial",
    "Cex.Padding.C10_pkcs7_false",
    "Cex.Padding.C10_x923_false",
    "Cex.Padding.C10_short_ub"
   ],
   "note": "Exact for ESP and ISO 7816-4. PKCS7 and X9.23 do not check byte 0 of the array (witness [9,2]), so the full claim is false for them; proved with that exception."
  },
  {
   "property": "C100",
   "status": "partial",
   "theorems": [
    "Cex.Factory.C100_block",
    "Cex.Factory.C100_kdf",
    "Cex.Factory.C100_mac_partial",
    "Cex.Factory.C100_mac_false",
    "Cex.Factory.C100_macStream_gmac_false",
    "Cex.Factory.C100_prng_partial",
    "Cex.Factory.C100_prng_false",
    "Cex.Factory.C100_stream_partial",
    "Cex.Factory.C100_stream_false",
    "Cex.Factory.C100_stream_name_partial",
    "Cex.Factory.C100_stream_name_false",
    "Cex.Factory.C100_code_false"
   ],
   "note": "Proved for block ciphers and key derivation functions, and for the others with the exceptions named in the theorems. Refuted: CSX512 and CSXR80K512 make ChaCha20; HCRS512 makes HCR with SHA2-256; KMAC128 cannot be made; CMAC and GMAC with extended ciphers report the name of the one with AES; TSX512 and TSX1024 report TSX256 without authentication; MacStream by name takes extended GMACs; the error code is always UnKnown."
  },
  {
   "property": "C101",
   "status": "partial",
   "theorems": [
    "Cex.Factory.Names.C101_names",
    "Cex.Factory.Names.C101_names_partial",
    "Cex.Factory.Names.C101_names_false",
    "Cex.Factory.Names.C101_unknown",
    "Cex.Factory.Names.C101_distinct"
   ],
   "note": "Proved for nine enumerations; for SymmetricCiphers, Kdfs and AsymmetricParameters the theorem names exactly the enumerators that fail: FromName does not know the name AES, XMSSSHA2256H10 becomes XMSSSHA2256H16, and KYBERS1P1632, SPXPS6S512SHAKE, TSXR96K512, the SHAKE and the HKDS functions have no name."
  },
  {
   "property": "C102",
   "status": "partial",
   "theorems": [
    "Cex.McEliece.C102_field",
    "Cex.McEliece.C102_arith",
    "Cex.McEliece.C102_frac",
    "Cex.McEliece.C102_inv",
    "Cex.McEliece.C102_isZero",
    "Cex.McEliece.C102_sameMask",
    "Cex.McEliece.C102_eval",
    "Cex.McEliece.C102_minMax32_partial",
    "Cex.McEliece.C102_minMax32_ub",
    "Cex.McEliece.C102_minMax64_partial",
    "Cex.McEliece.C102_minMax64_false"
   ],
   "note": "The arithmetic, the inverse, the evaluation and the masks are proved for all elements. MinMax32 is proved when the difference is an int32_t and is undefined otherwise; MinMax64 is proved below 2^63 and swaps the sorted pair (0, 2^63). Field elements are 13-bit: the functions do not reduce arguments of 2^13 and above."
  },
  {
   "property": "C103",
   "status": "partial",
   "theorems": [
    "Cex.McEliece.Kem.C103_genE",
    "Cex.McEliece.Kem.C103_decrypt",
    "Cex.McEliece.Kem.C103_decaps",
    "Cex.McEliece.Kem.C103_6960_partial",
    "Cex.McEliece.Kem.C103_6960_padding",
    "Cex.McEliece.Kem.C103_6960_false",
    "Cex.McEliece.Kem.C103_6960_false_case",
    "Cex.McEliece.Kem.C103_roundtrip",
    "Cex.McEliece.Kem.C103_6960_encaps"
   ],
   "note": "Proved for MPKCN4608T96, MPKCN6688T128 and MPKCN8192T128, and for MPKCN6960T119 when the padding bits of the ciphertext are zero. False for MPKCN6960T119 otherwise: for every key and every syndrome with a padding bit set there is a confirmation with which Decapsulate returns true with the secret FF..FF. Not covered: that the decoder finds the error vector of an honest ciphertext (Goppa decoding)."
  },
  {
   "property": "C104",
   "status": "proved",
   "theorems": [
    "Cex.McEliece.Synd.C104_syndrome",
    "Cex.McEliece.Synd.C104_shapes",
    "Cex.McEliece.Synd.C104_6960_padding"
   ],
   "note": "For every number of rows and columns of the shape of the four sets (C104_shapes)."
  },
  {
   "property": "C105",
   "status": "proved",
   "theorems": [
    "Cex.McEliece.Benes.C105_perm",
    "Cex.McEliece.Benes.C105_inverse",
    "Cex.McEliece.Benes.C105_support",
    "Cex.McEliece.Benes.C105_distinct",
    "Cex.McEliece.Benes.C105_all",
    "Cex.McEliece.Benes.C105_transpose",
    "Cex.McEliece.Benes.C105_bitReverse",
    "Cex.McEliece.Benes.C105_control"
   ],
   "note": "SupportGen of the four sets is the same text; SYS_N only cuts the list. C105_moves: a control bit that moves a bit."
  },
  {
   "property": "C106",
   "status": "proved",
   "theorems": [
    "Cex.McEliece.Goppa.C106_decrypt",
    "Cex.McEliece.Goppa.C106_unique",
    "Cex.McEliece.Goppa.C106_synd",
    "Cex.McEliece.Goppa.C106_points",
    "Cex.McEliece.Goppa.C106_support",
    "Cex.McEliece.Goppa.C106_key"
   ],
   "note": "That the Goppa polynomial has no zero in the support is a hypothesis (the key generator yields an irreducible polynomial; GenPolyGen is not modelled). That the decoder Bm finds every vector of weight t is not claimed. C106_case: a polynomial, a support and a word that meet the hypotheses."
  },
  {
   "property": "C107",
   "status": "partial",
   "theorems": [
    "Cex.Scalar.C107_rotL_partial",
    "Cex.Scalar.C107_rotR_partial",
    "Cex.Scalar.C107_rot_inverse",
    "Cex.Scalar.C107_rot_zero_false",
    "Cex.Scalar.C107_parity",
    "Cex.Scalar.C107_isPowerOf2",
    "Cex.Scalar.C107_modPowerOf2",
    "Cex.Scalar.C107_crop",
    "Cex.Scalar.C107_hex_partial",
    "Cex.Scalar.C107_hex32",
    "Cex.Scalar.C107_hex64_false",
    "Cex.Scalar.C107_fromHex_partial",
    "Cex.Scalar.C107_fromHex_false"
   ],
   "note": "The full statement is false: a rotation by 0 shifts by the width (undefined), HexToInt of 64-bit values from 2^63 on saturates, FromHex takes the number of characters although documented as the number of bytes. Everything else is proved without bounds."
  },
  {
   "property": "C108",
   "status": "partial",
   "theorems": [
    "Cex.Scalar.C108_increment",
    "Cex.Scalar.C108_increase_partial",
    "Cex.Scalar.C108_increaseTo_partial",
    "Cex.Scalar.C108_increase_false"
   ],
   "note": "Proved for every amount that fits a word and counters of at least two words; false for larger amounts with 32-bit words and for one-word counters that overflow (C108_increase_false)."
  },
  {
   "property": "C109",
   "status": "partial",
   "theorems": [
    "Cex.Scalar.C109_blockToBe_partial",
    "Cex.Scalar.C109_blockToBe_false",
    "Cex.Scalar.C109_roundtrip"
   ],
   "note": "BlockToBe is proved for output words that were 0; it ors into the output, so the statement is false for other contents (C109_blockToBe_false). BeToBlock is modelled for one word."
  },
  {
   "property": "C11",
   "status": "proved",
   "theorems": [
    "Cex.Modes.C11_ecb_inverse",
    "Cex.Modes.C11_ecb_parallel"
   ],
   "note": "all block ciphers, splits into calls, profiles and schedules"
  },
  {
   "property": "C12",
   "status": "proved",
   "theorems": [
    "Cex.Modes.C12_cbc_inverse",
    "Cex.Modes.C12_cbc_textbook"
   ],
   "note": ""
  },
  {
   "property": "C13",
   "status": "proved",
   "theorems": [
    "Cex.Modes.C13_cbc_parallel"
   ],
   "note": "every schedule of the tasks; task actions are atomic per block or per wide group"
  },
  {
   "property": "C14",
   "status": "partial",
   "theorems": [
    "Cex.Modes.C14_cfb_inverse_partial",
    "Cex.Modes.C14_cfb_textbook",
    "Cex.Modes.C14_trailing_false",
    "Cex.Modes.C14_small_register_false"
   ],
   "note": "round trip for whole registers; trailing bytes are silently left unprocessed (witness); register sizes below 8 use an overlapping memcpy (witness)"
  },
  {
   "property": "C15",
   "status": "proved",
   "theorems": [
    "Cex.Modes.C15_ofb_keystream",
    "Cex.Modes.C15_ofb_involution"
   ],
   "note": ""
  },
  {
   "property": "C16",
   "status": "proved",
   "theorems": [
    "Cex.Modes.C16_counter_keystream",
    "Cex.Modes.C16_counter_involution"
   ],
   "note": ""
  },
  {
   "property": "C17",
   "status": "partial",
   "theorems": [
    "Cex.Modes.C17_counter_parallel_partial",
    "Cex.Modes.C17_small_blocks_partial",
    "Cex.Modes.C17_ctr_false",
    "Cex.Modes.C17_icm_false"
   ],
   "note": "true up to 1 MB parallel blocks and whenever no carry is lost; false for larger ones (witness: any 2 MB message, nonce 00..F8)"
  },
  {
   "property": "C18",
   "status": "partial",
   "theorems": [
    "Cex.Modes.C18_chunked",
    "Cex.Modes.C18_chunked_counter_partial",
    "Cex.Modes.C18_unaligned_false"
   ],
   "note": "ECB, CBC, CFB, OFB in full; CTR/ICM for parallel blocks up to 1 MB"
  },
  {
   "property": "C19",
   "status": "partial",
   "theorems": [
    "Cex.Options.C19_history_partial",
    "Cex.Options.C19_construct_partial",
    "Cex.Options.C19_construct_user_partial",
    "Cex.Options.C19_mode_gate_partial",
    "Cex.Options.C19_setters_partial",
    "Cex.Options.C19_mode_degree",
    "Cex.Options.C19_degree_false",
    "Cex.Options.C19_zero_block_false",
    "Cex.Options.C19_flag_false"
   ],
   "note": "size relations hold over every history; degree bound/evenness and non-zero size fail (witnesses)"
  },
  {
   "property": "C20",
   "status": "partial",
   "theorems": [
    "Cex.Gcm.C20_same_profile_partial",
    "Cex.Gcm.C20_small_blocks_partial",
    "Cex.Gcm.C20_cross_profile_false"
   ],
   "note": "Proved for every message when both sides use the same valid parallel profile, and for different profiles whose blocks are at most 16*0xFF00 bytes; false across larger profiles (lost carry in the task counters of CTR, see C17). From every reachable usable state, every SIMD width and schedule."
  },
  {
   "property": "C21",
   "status": "partial",
   "theorems": [
    "Cex.Gcm.C21_forgery_partial",
    "Cex.Gcm.C21_no_release",
    "Cex.Gcm.C21_nonce_only_false",
    "Cex.Gcm.C21_failed_init_false"
   ],
   "note": "Every wrong tag is rejected with unchanged output after Initialize with a key on an instance that is not in the middle of a message. False after nonce-only Initialize and after a failed Initialize on an initialised instance: the hash key is zero and every ciphertext is accepted with one tag."
  },
  {
   "property": "C22",
   "status": "partial",
   "theorems": [
    "Cex.Gcm.C22_result_partial",
    "Cex.Gcm.C22_history_partial",
    "Cex.Gcm.C22_nonce_ignored_false",
    "Cex.Gcm.C22_pending_aad_false",
    "Cex.Gcm.C22_stale_nonce_false"
   ],
   "note": "Holds from every reachable state with IsInitialized() == false. False for nonce-only re-initialisation (H = 0, other nonce sizes than 12 are ignored) and for re-initialisation in the middle of a message (stale counter bytes, stale AAD length)."
  },
  {
   "property": "C23",
   "status": "proved",
   "theorems": [
    "Cex.Gcm.C23_ghash",
    "Cex.Gcm.C23_multiplication",
    "Cex.Gcm.ghash_sum",
    "Cex.Gcm.nist_mul",
    "Cex.Gcm.permute_eq"
   ],
   "note": "Any key, associated data, update split, history; scalar and PCLMULQDQ paths. poly/P are Mathlib polynomials over ZMod 2."
  },
  {
   "property": "C24",
   "status": "partial",
   "theorems": [
    "Cex.Hba.C24_sequence_partial",
    "Cex.Hba.C24_hmac_sha256_partial",
    "Cex.Hba.C24_offset_refused_false",
    "Cex.Hba.C24_after_forgery_false",
    "Cex.Hba.C24_after_exception_false"
   ],
   "note": "Proved for every sequence of messages and associated data from every pair of reachable states, any SIMD width and schedules, for compatible parallel profiles (equal, or small blocks) and associated data at an offset not greater than its length. False for a larger offset (refused), after a rejected forgery, and after a sealing call that throws."
  },
  {
   "property": "C25",
   "status": "partial",
   "theorems": [
    "Cex.Hba.C25_injective_partial",
    "Cex.Hba.C25_tag",
    "Cex.Hba.C25_empty_item_false",
    "Cex.Hba.C25_large_items_false"
   ],
   "note": "Injective in the ciphertext and the list of non-empty items (each shorter than 2^32 bytes). Empty items leave no trace, so the literal statement is false for lists that differ only in those; beyond 2^32 - 4 bytes items collide."
  },
  {
   "property": "C26",
   "status": "proved",
   "theorems": [
    "Cex.Hba.C26_no_release",
    "Cex.Hba.C26_forgery"
   ],
   "note": "Every call that throws leaves the output unchanged, in every state; from every reachable decrypting state exactly one tag is accepted for each ciphertext. MAC, key derivation function and block cipher are parameters with an interface that HMAC/HKDF over SHA2 is proved to meet (hmacEnv_good)."
  },
  {
   "property": "C27",
   "status": "partial",
   "theorems": [
    "Cex.Mac.C27_cmac_partial",
    "Cex.Mac.C27_secure_partial",
    "Cex.Mac.C27_second_message_false"
   ],
   "note": "For every block cipher, reachable state, key and update split, Initialize/updates/Finalize gives the RFC 4493 tag. False for a second message without re-Initialize: Finalize(vector) leaves the chaining state behind (counterexample proved)."
  },
  {
   "property": "C28",
   "status": "proved",
   "theorems": [
    "Cex.Gcm.C28_gmac",
    "Cex.Gcm.C28_compute",
    "Cex.Gcm.C28_is_ghash"
   ],
   "note": "Any history, key, salt of at least 12 bytes, update split. Block cipher is any length-preserving function; its key setup is not modelled. The SecureVector overload of Finalize is not modelled."
  },
  {
   "property": "C29",
   "status": "proved",
   "theorems": [
    "Cex.Mac.C29_hmac",
    "Cex.Mac.C29_reuse",
    "Cex.Mac.C29_hmac_sha256",
    "Cex.Mac.C29_hmac_sha512"
   ],
   "note": "For every digest implementation that streams a function H; instantiated with the SHA-2 models. The digest passed to the constructor is assumed fresh."
  },
  {
   "property": "C30",
   "status": "partial",
   "theorems": [
    "Cex.Keccak.C30_initialize",
    "Cex.Keccak.C30_total",
    "Cex.Keccak.C30_kmac_partial",
    "Cex.Keccak.C30_named_partial",
    "Cex.Keccak.C30_collision",
    "Cex.Keccak.C30_lengths",
    "Cex.Keccak.C30_reuse_false"
   ],
   "note": "Equal to SP 800-185 for every key, customization and message, from every reachable state, when the message length modulo the rate leaves room for the encoded output length and one byte. Otherwise false: collisions (KMAC512) and no separation of output lengths (KMAC256) are proved for all keys. A second message after Finalize is not keyed."
  },
  {
   "property": "C31",
   "status": "proved",
   "theorems": [
    "Cex.Poly.C31_poly1305_init",
    "Cex.Poly.C31_poly1305_update",
    "Cex.Poly.C31_poly1305_tag",
    "Cex.Poly.C31_poly1305_tag_secure",
    "Cex.Poly.C31_poly1305_compute",
    "Cex.Poly.C31_poly1305_refuses",
    "Cex.Poly.C31_poly1305_reset",
    "Cex.Poly.C31_poly1305_macs",
    "Cex.Poly.C31_donna_exact"
   ],
   "note": "RFC 8439 tag for every key of at least 32 bytes, every message and split, from every reachable state; exactness of the limb arithmetic is part of the proof. After a finalizer call a new Initialize is required, as documented."
  },
  {
   "property": "C32",
   "status": "partial",
   "theorems": [
    "Cex.Keys.C32_roundtrip_partial",
    "Cex.Keys.C32_long_false",
    "Cex.Keys.C32_long_silent",
    "Cex.Keys.C32_deserialize",
    "Cex.Keys.C32_injective",
    "Cex.Keys.C32_truncated_ub",
    "Cex.Keys.C32_size_roundtrip",
    "Cex.Keys.C32_size_short",
    "Cex.Keys.C32_contains_partial",
    "Cex.Keys.C32_contains_false"
   ],
   "note": "Round trip for every key whose parts are shorter than 65536 bytes, and the exact outcome of DeSerialize on every byte stream. Missing because false: keys with a longer part never come back, and every truncated stream is read past its end."
  },
  {
   "property": "C33",
   "status": "partial",
   "theorems": [
    "Cex.Streams.C33_file_partial",
    "Cex.Streams.C33_file_front",
    "Cex.Streams.C33_sensible_answers",
    "Cex.Streams.C33_write_read",
    "Cex.Streams.C33_read_false",
    "Cex.Streams.C33_read_false_example",
    "Cex.Streams.C33_beyond_end",
    "Cex.Streams.C33_copyTo",
    "Cex.Streams.C33_typed_roundtrip",
    "Cex.Streams.C33_writer_length",
    "Cex.Streams.C33_readBytes"
   ],
   "note": "Every sequence of sensible calls answers as the abstract file, except reads into a window not at the front of the array that leave bytes unread; these are proved wrong for all streams. Typed write and read round trip for all values."
  },
  {
   "property": "C34",
   "status": "partial",
   "theorems": [
    "Cex.Kdf.C34_hkdf_partial",
    "Cex.Kdf.C34_refused",
    "Cex.Kdf.C34_repeat",
    "Cex.Kdf.C34_limit_false",
    "Cex.Kdf.C34_secure_ub",
    "Cex.Kdf.C34_reinit_false"
   ],
   "note": "HKDF equals RFC 5869 for every history within the 255-block limit; the limit itself, re-initialisation without info and the SecureVector overload with an offset are refuted."
  },
  {
   "property": "C35",
   "status": "partial",
   "theorems": [
    "Cex.Kdf.C35_kdf2_partial",
    "Cex.Kdf.C35_kdf2_prefix",
    "Cex.Kdf.C35_kdf2_info_ub",
    "Cex.Kdf.C35_kdf2_info_ignored",
    "Cex.Kdf.C35_kdf2_secure_ub",
    "Cex.Kdf.C35_kdf2_reinit_false",
    "Cex.Kdf.C35_pbkdf2_partial",
    "Cex.Kdf.C35_pbkdf2_prefix",
    "Cex.Kdf.C35_pbkdf2_zero",
    "Cex.Kdf.C35_pbkdf2_short_key",
    "Cex.Kdf.C35_pbkdf2_info_ub",
    "Cex.Kdf.C35_pbkdf2_secure_ub",
    "Cex.Kdf.C35_pbkdf2_reinit_false"
   ],
   "note": "Output, index progression, prefix consistency and window bounds proved for every history with nonce or info (not both) and no salt left over from before; the remaining cases are refuted."
  },
  {
   "property": "C36",
   "status": "partial",
   "theorems": [
    "Cex.Digest.C36_sha256",
    "Cex.Digest.C36_sha512_partial",
    "Cex.Digest.C36_sha512_partial_range",
    "Cex.Digest.C36_split",
    "Cex.Digest.C36_sha512_long_false"
   ],
   "note": "SHA2-256 (both compression code paths) is proved for every message, split and call history. SHA2-512 is proved for all lengths n with n mod 2^61 + 128 < 2^61; outside it the length field is wrong (C36_sha512_long_false)."
  },
  {
   "property": "C37",
   "status": "partial",
   "theorems": [
    "Cex.Digest.C37_split",
    "Cex.Digest.C37_root_partial",
    "Cex.Digest.C37_leaves_ignored",
    "Cex.Digest.C37_sha256_false",
    "Cex.Digest.C37_sha512_false",
    "Cex.Digest.C37_sha256_degree8"
   ],
   "note": "The property is false: only the first half of the leaves enters the root hash. Proved: the exact digest for whole stripes and even degree, split independence for every message and degree, and the negation with the compression function left open."
  },
  {
   "property": "C38",
   "status": "partial",
   "theorems": [
    "Cex.Keccak.C38_absorb",
    "Cex.Keccak.C38_compute",
    "Cex.Keccak.C38_xof",
    "Cex.Keccak.C38_cxof_partial",
    "Cex.Keccak.C38_incremental_partial",
    "Cex.Keccak.C38_incremental_two",
    "Cex.Keccak.C38_mac_partial",
    "Cex.Keccak.C38_incremental_false",
    "Cex.Keccak.C38_customize_false",
    "Cex.Keccak.C38_customize_overflow",
    "Cex.Keccak.C38_kmac_overflow",
    "Cex.Keccak.C38_mac_false"
   ],
   "note": "Absorb, Compute, XOFP1600: for every message, rate and place. Incremental: every split in which no call both completes a word and leaves an incomplete one; false otherwise. Customize: when the encoded customization length fits into the block of the name; otherwise wrong state or write behind the array. MACP1600: wrong for the empty message."
  },
  {
   "property": "C39",
   "status": "partial",
   "theorems": [
    "Cex.CStream.C39_array_partial",
    "Cex.CStream.C39_stream_partial",
    "Cex.CStream.C39_cbc_textbook",
    "Cex.CStream.C39_counter_partial",
    "Cex.CStream.C39_one_block_false",
    "Cex.CStream.C39_one_block_counter_false",
    "Cex.CStream.C39_aligned",
    "Cex.CStream.C39_aligned_false",
    "Cex.CStream.C39_offset_ub",
    "Cex.CStream.C39_short_ub"
   ],
   "note": "Round trip for every message that does not end on a block boundary in CBC, CFB-128 and OFB with the four paddings, and for every message except those of one block in CTR and ICM. Missing because false: one block is not processed at all; longer aligned messages are not padded but unpadded."
  },
  {
   "property": "C42",
   "status": "partial",
   "theorems": [
    "Cex.Gcm.C42_sp800_38d_partial",
    "Cex.Gcm.C42_counter_false"
   ],
   "note": "Equal to SP 800-38D for 12-byte nonces, no info string and at most 2^32-2 blocks; false for other nonces because all 128 bits of the counter are incremented."
  },
  {
   "property": "C43",
   "status": "partial",
   "theorems": [
    "Cex.Gcm.C43_info_ignored_false",
    "Cex.Gcm.C22_result_partial"
   ],
   "note": "False: only the hash key depends on the info string; the encryption uses the key alone."
  },
  {
   "property": "C44",
   "status": "partial",
   "theorems": [
    "Cex.Keccak.C44_initialize",
    "Cex.Keccak.C44_generate",
    "Cex.Keccak.C44_first",
    "Cex.Keccak.C44_stream_partial",
    "Cex.Keccak.C44_split_false",
    "Cex.Keccak.C44_limit_false"
   ],
   "note": "The first call after Initialize is cSHAKE from every reachable state; every later call returns the stream from the next block boundary on. Consecutive calls are consecutive bytes only if all but the last ask for whole blocks; the block limit is not enforced across calls."
  },
  {
   "property": "C45",
   "status": "proved",
   "theorems": [
    "Cex.Keccak.C45_sha3_256",
    "Cex.Keccak.C45_sha3_512",
    "Cex.Keccak.C45_sha3_256_compact",
    "Cex.Keccak.C45_sha3_512_compact"
   ],
   "note": "Sequential mode, with the unrolled or the compact permutation, from every reachable state."
  },
  {
   "property": "C46",
   "status": "proved",
   "theorems": [
    "Cex.Keccak.C46_permutations"
   ],
   "note": "For every state."
  },
  {
   "property": "C47",
   "status": "proved",
   "theorems": [
    "Cex.Keys.C47_roundtrip",
    "Cex.Keys.C47_deserialize"
   ],
   "note": "Round trip for every key, and for every stream exactly when and with what result it is accepted. A stream shorter than three bytes is read past its end (part of the theorem)."
  },
  {
   "property": "C48",
   "status": "partial",
   "theorems": [
    "Cex.Random.C48_generate",
    "Cex.Random.C48_fresh",
    "Cex.Random.C48_prng_fresh",
    "Cex.Random.C48_prng_generate_partial",
    "Cex.Random.C48_layered",
    "Cex.Random.C48_fill",
    "Cex.Random.C48_csr_part_ub",
    "Cex.Random.C48_bcr_offset_ub"
   ],
   "note": "Freshness is proved for all four generators and for SecureRandom on top of another. Missing because false: CSR and HCR asked for a part of a std::vector write behind a temporary; an offset behind the end passes the check."
  },
  {
   "property": "C49",
   "status": "partial",
   "theorems": [
    "Cex.Random.C49_unsigned_max",
    "Cex.Random.C49_unsigned_range_partial",
    "Cex.Random.C49_unsigned_ends",
    "Cex.Random.C49_unsigned_full_ub",
    "Cex.Random.C49_signed_max_partial",
    "Cex.Random.C49_signed_max_false",
    "Cex.Random.C49_bit",
    "Cex.Random.C49_signed_range_partial",
    "Cex.Random.C49_signed_range_false",
    "Cex.Random.C49_signed_range_ub",
    "Cex.Random.C49_int16_constant"
   ],
   "note": "Proved for the unsigned functions except the full range of the type, which is a division by zero. The signed functions are not uniform: the lowest number comes about twice as often; exact frequencies and range are proved."
  },
  {
   "property": "C50",
   "status": "partial",
   "theorems": [
    "Cex.SCipher.C50_chacha_partial",
    "Cex.SCipher.C50_csx_partial",
    "Cex.SCipher.C50_tsx",
    "Cex.SCipher.C50_rcs_partial",
    "Cex.SCipher.C50_roundtrip_partial",
    "Cex.SCipher.C50_pieces_partial",
    "Cex.SCipher.C50_offset_leak",
    "Cex.SCipher.C50_chacha_leak",
    "Cex.SCipher.C50_rcs_false"
   ],
   "note": "Sequential processing and the TSX ciphers in full. Missing because false: parallel ChaChaP20/CSX512 with a non-zero output offset (the tail comes out unencrypted); parallel RCS/RWS where the jump of the counter loses a carry."
  },
  {
   "property": "C51",
   "status": "proved",
   "theorems": [
    "Cex.SCipher.C51_chacha20",
    "Cex.SCipher.C51_csx512"
   ],
   "note": "The straight-line programs of ChaCha.h are transcribed by script and proved equal to the column and diagonal rounds for all states."
  },
  {
   "property": "C52",
   "status": "partial",
   "theorems": [
    "Cex.SCipher.C52_chacha_partial",
    "Cex.SCipher.C52_csx_partial",
    "Cex.SCipher.C52_chacha_text",
    "Cex.SCipher.C52_csx_text",
    "Cex.SCipher.C52_aad_collision",
    "Cex.SCipher.C52_chacha_tag_partial",
    "Cex.SCipher.C52_csx_tag_partial",
    "Cex.SCipher.C52_nonce_false",
    "Cex.SCipher.C52_short_ub",
    "Cex.SCipher.C52_recover_false"
   ],
   "note": "The exchange in step is proved for every history; the tag is identified for the first message. False: ChaChaP20 authenticates neither nonce nor code; a refused message spoils the following ones; an input without a tag is read out of range; associated data of 2^32 bytes collide."
  },
  {
   "property": "C53",
   "status": "partial",
   "theorems": [
    "Cex.SCipher.C53_csx_state",
    "Cex.SCipher.C53_rcs_state",
    "Cex.SCipher.C53_rcs",
    "Cex.SCipher.C53_rcs_auth_partial",
    "Cex.SCipher.C53_csx_auth_partial",
    "Cex.SCipher.C53_fresh",
    "Cex.SCipher.C53_chacha_unauth_false",
    "Cex.SCipher.C53_csx_unauth_false",
    "Cex.SCipher.C53_midway_false",
    "Cex.SCipher.C53_malformed_ub"
   ],
   "note": "Members round-trip for every state; RCS/RWS without authentication in full; with authentication right after Initialize. False: ChaChaP20/CSX512 without authentication are never restored; a MAC in use is not saved; malformed lengths are read out of range."
  },
  {
   "property": "C54",
   "status": "partial",
   "theorems": [
    "Cex.SCipher.C54_chacha",
    "Cex.SCipher.C54_csx_partial",
    "Cex.SCipher.C54_csx_false",
    "Cex.SCipher.C54_csx_keystream_false",
    "Cex.SCipher.C54_rcs_partial",
    "Cex.SCipher.C54_rcs_false"
   ],
   "note": "ChaChaP20 in full. CSX512 keeps the rest of the old code behind a shorter one; RCS and RWS keep zeros of the old length when no code is given."
  },
  {
   "property": "C55",
   "status": "proved",
   "theorems": [
    "Cex.Rijndael.C55_encrypt",
    "Cex.Rijndael.C55_decrypt",
    "Cex.Rijndael.C55_roundtrip",
    "Cex.Rijndael.C55_key_size",
    "Cex.Rijndael.C55_wide",
    "Cex.Rijndael.C55_extended",
    "Cex.Rijndael.C55_good"
   ],
   "note": "For every key and block, against FIPS 197 with the S-box defined by field inversion. C55_good makes AES an instance of the cipher parameter of the mode theorems (C11-C18). AVX-512 wide code and the KDF itself (C34, C44) are outside."
  },
  {
   "property": "C56",
   "status": "proved",
   "theorems": [
    "Cex.Rijndael.C56_rcs",
    "Cex.Rijndael.C56_rws",
    "Cex.Rijndael.C56_wide",
    "Cex.Rijndael.C56_injective",
    "Cex.Rijndael.C56_keystream"
   ],
   "note": "For every number of rounds and all round-key bytes. The generation of the round keys by cSHAKE is a parameter here."
  },
  {
   "property": "C57",
   "status": "partial",
   "theorems": [
    "Cex.Serpent.C57_encrypt_partial",
    "Cex.Serpent.C57_decrypt_partial",
    "Cex.Serpent.C57_reverse_first",
    "Cex.Serpent.C57_roundtrip",
    "Cex.Serpent.C57_key_size",
    "Cex.Serpent.C57_extended",
    "Cex.Serpent.C57_good",
    "Cex.Serpent.C57_not_serpent"
   ],
   "note": "Proved for every key, block, build and width against Serpent of the submission - under the key with its bytes reversed. Under the key itself the claim is refuted by C57_not_serpent, with a vector of NESSIE. Everything else of the statement is proved in full."
  },
  {
   "property": "C58",
   "status": "proved",
   "theorems": [
    "Cex.Kyber.C58_montgomery",
    "Cex.Kyber.C58_barrett",
    "Cex.Kyber.C58_ntt",
    "Cex.Kyber.C58_polyNtt",
    "Cex.Kyber.C58_invNtt",
    "Cex.Kyber.C58_roundtrip",
    "Cex.Kyber.C58_mul",
    "Cex.Kyber.C58_dot"
   ],
   "note": "Against the formulas of the specification over ZMod 3329: the transform as sums of powers of the roots of unity, the product modulo X^256+1 as a double sum over coefficients."
  },
  {
   "property": "C59",
   "status": "proved",
   "theorems": [
    "Cex.Kyber.C59_toBytes",
    "Cex.Kyber.C59_fromBytes",
    "Cex.Kyber.C59_poly_roundtrip",
    "Cex.Kyber.C59_bytes_roundtrip",
    "Cex.Kyber.C59_not_canonical",
    "Cex.Kyber.C59_compress",
    "Cex.Kyber.C59_decompress",
    "Cex.Kyber.C59_vecToBytes",
    "Cex.Kyber.C59_vecCompress",
    "Cex.Kyber.C59_vecFromBytes",
    "Cex.Kyber.C59_vecDecompress",
    "Cex.Kyber.C59_rounding",
    "Cex.Kyber.C59_recompress",
    "Cex.Kyber.C59_message"
   ],
   "note": "Scalar build. C59_not_canonical: byte strings with numbers from q on are accepted and stand for the residue, so a public key has several encodings."
  },
  {
   "property": "C60",
   "status": "partial",
   "theorems": [
    "Cex.Kyber.C60_cbd2",
    "Cex.Kyber.C60_cbd3",
    "Cex.Kyber.C60_small",
    "Cex.Kyber.C60_noise1",
    "Cex.Kyber.C60_noise2",
    "Cex.Kyber.C60_reject",
    "Cex.Kyber.C60_parse_unique",
    "Cex.Kyber.C60_matrix_partial",
    "Cex.Kyber.C60_matrix_repaired",
    "Cex.Kyber.C60_matrix_refuted"
   ],
   "note": "Noise and rejection for all inputs. GenMatrix (scalar build) is proved when the first 534 bytes of each stream hold 256 residues, and refuted in general with a concrete seed: line 1503 squeezes 32 bytes where 168 are used. With 168 it is proved without condition."
  },
  {
   "property": "C61",
   "status": "partial",
   "theorems": [
    "Cex.Kyber.C61_generate_partial",
    "Cex.Kyber.C61_encapsulate_partial",
    "Cex.Kyber.C61_decapsulate_partial",
    "Cex.Kyber.C61_roundtrip",
    "Cex.Kyber.C61_appended",
    "Cex.Kyber.C61_reject",
    "Cex.Kyber.C61_domain_refuted",
    "Cex.Kyber.C61_empty_refuted"
   ],
   "note": "Scalar build. Equality with the specification under the condition of C60 on the streams of the matrix; the round trip without it, for draws where decryption does not fail (noise coefficients in [-832, 831], a condition on the polynomials of the specification). Violations: an honest ciphertext with zero bytes appended is accepted (C61_appended); with a domain key the code is undefined (C61_domain_refuted); an empty ciphertext is read past its end (C61_empty_refuted)."
  },
  {
   "property": "C62",
   "status": "partial",
   "theorems": [
    "Cex.Drbg.C62_initialize",
    "Cex.Drbg.C62_first",
    "Cex.Drbg.C62_generate",
    "Cex.Drbg.C62_stream",
    "Cex.Drbg.C62_output",
    "Cex.Drbg.C62_update",
    "Cex.Drbg.C62_fed",
    "Cex.Drbg.C62_limits",
    "Cex.Drbg.C62_fit",
    "Cex.Drbg.C62_update_refuted",
    "Cex.Drbg.C62_ctor_refuted",
    "Cex.Drbg.C62_ctor_overrun_refuted"
   ],
   "note": "Holds for objects of rate 168, 136, 72 and customizations that fit (C44). Violations: Initialize(K) followed by Update(K) without a provider erases the key (C62_update_refuted); the constructor with a caller-owned provider gives SHAKE512 a rate of one byte (C62_ctor_refuted) and overruns a buffer with long info (C62_ctor_overrun_refuted)."
  },
  {
   "property": "C63",
   "status": "partial",
   "theorems": [
    "Cex.Drbg.C63_initialize",
    "Cex.Drbg.C63_generate",
    "Cex.Drbg.C63_update",
    "Cex.Drbg.C63_limits",
    "Cex.Drbg.C63_stream_partial",
    "Cex.Drbg.C63_split_refuted",
    "Cex.Drbg.C63_zero_refuted",
    "Cex.Drbg.two256",
    "Cex.Drbg.two512"
   ],
   "note": "The exact state machine holds for all histories (code string below 65280 bytes). The stream property holds when all requests but the last are whole blocks; for other splittings it is false (C63_split_refuted), because the used part of the chaining value is zeroed before the next block. With digests of other proportions, which the constructor taking a digest accepts, output blocks end in zeros (C63_zero_refuted)."
  },
  {
   "property": "C64",
   "status": "partial",
   "theorems": [
    "Cex.Drbg.Bcg.C64_initialize",
    "Cex.Drbg.Bcg.C64_generate",
    "Cex.Drbg.Bcg.C64_update",
    "Cex.Drbg.Bcg.C64_limits",
    "Cex.Drbg.Bcg.C64_stream_partial",
    "Cex.Drbg.Bcg.C64_parallel_refuted",
    "Cex.Drbg.Bcg.C64_strength_refuted",
    "Cex.Drbg.Bcg.C64_reinit_refuted",
    "Cex.Drbg.Bcg.C64_split_refuted"
   ],
   "note": "Proved for all histories and schedules: the exact state machine, including what a request answered by tasks returns. False: independence of the number of threads (C64_parallel_refuted, for every key, nonce and profile with two or more tasks), of splitting (C64_split_refuted), the strength after an automatic reseed (C64_strength_refuted), recovery by Initialize at the reseed limit (C64_reinit_refuted). The stream property holds without tasks if all requests but the last are whole blocks. Fair profile: the parallel block is cut into equal whole-block tasks and is below about 2 MB."
  },
  {
   "property": "C65",
   "status": "partial",
   "theorems": [
    "Cex.Blake.C65_blake2s_partial",
    "Cex.Blake.C65_blake2b_partial",
    "Cex.Blake.C65_counter",
    "Cex.Blake.C65_split",
    "Cex.Blake.C65_limits",
    "Cex.Blake.C65_salt_ignored",
    "Cex.Blake.C65_digest_interface",
    "Cex.Blake.C65_key_lost"
   ],
   "note": "Proved for all histories: the digest is RFC 7693 for fewer than 2^32 (BLAKE2s) or 2^64 (BLAKE2b) bytes; for all lengths it is RFC 7693 with the high counter word always zero (C65_counter), so BLAKE2s departs from the RFC at 4 GB. False: salt and info have no effect at all (C65_salt_ignored, universal); after Finalize a keyed object gives digests that are neither keyed nor plain (C65_key_lost, and C65_blake2s_partial in mode stale says exactly what they are)."
  },
  {
   "property": "C66",
   "status": "partial",
   "theorems": [
    "Cex.Blake.C66_collision",
    "Cex.Blake.C66_collision_exists",
    "Cex.Blake.C66_split_dependence",
    "Cex.Blake.C66_offset_ignored"
   ],
   "note": "The property is false, and refuted: for every fan-out and every message longer than the buffer by the minimum size, the second half of the buffer (512 bytes for the default objects) has no influence on the digest of one Update call (C66_collision, universal); the digest depends on the cutting (C66_split_dependence); Blake512 ignores the output offset (C66_offset_ignored, universal). No positive part is claimed."
  },
  {
   "property": "C67",
   "status": "partial",
   "theorems": [
    "Cex.Dilithium.C67_signed_overflow",
    "Cex.Dilithium.C67_montgomery",
    "Cex.Dilithium.C67_reduce",
    "Cex.Dilithium.C67_ntt",
    "Cex.Dilithium.C67_invNtt",
    "Cex.Dilithium.C67_mul",
    "Cex.Dilithium.C67_rounding",
    "Cex.Dilithium.C67_makeHint",
    "Cex.Dilithium.C67_hint",
    "Cex.Dilithium.C67_norm"
   ],
   "note": "Proved for all inputs in the stated ranges, with one exception that is refuted: MontReduce multiplies two int32_t and the product overflows (undefined behaviour) for every operand whose low half is 37 or more in absolute value (C67_signed_overflow). The other theorems are about the value that wrapping arithmetic gives there."
  },
  {
   "property": "C68",
   "status": "proved",
   "theorems": [
    "Cex.Dilithium.C68_pk",
    "Cex.Dilithium.C68_pk_onto",
    "Cex.Dilithium.C68_sk",
    "Cex.Dilithium.C68_w1",
    "Cex.Dilithium.C68_sig",
    "Cex.Dilithium.C68_sig_canonical"
   ],
   "note": "Secrets that UnpackSk reads are not range-checked by the code, so the converse is stated for public keys and signatures only."
  },
  {
   "property": "C69",
   "status": "partial",
   "theorems": [
    "Cex.Dilithium.C69_matrix",
    "Cex.Dilithium.C69_matrix_found",
    "Cex.Dilithium.C69_matrix_unique",
    "Cex.Dilithium.C69_mask",
    "Cex.Dilithium.C69_challenge",
    "Cex.Dilithium.C69_challenge_found",
    "Cex.Dilithium.C69_challenge_weight",
    "Cex.Dilithium.C69_secret_partial",
    "Cex.Dilithium.C69_secret_range",
    "Cex.Dilithium.C69_secret_stale",
    "Cex.Dilithium.C69_secret_refuted"
   ],
   "note": "Proved for matrix, mask and challenge. False for PolyUniformEta when its first blocks have fewer than 256 accepted values: RejEta ignores AOffset, so it overwrites the first coefficients and leaves the last ones at what the buffer held; proved with the partial theorem for the other case."
  },
  {
   "property": "C70",
   "status": "proved",
   "theorems": [
    "Cex.Dilithium.C70_keypair",
    "Cex.Dilithium.C70_roundtrip",
    "Cex.Dilithium.C70_generate_partial"
   ],
   "note": "Round trip and form of the keys for every seed. That the secrets are those of the specification holds only when the first blocks suffice (C70_generate_partial; see C69)."
  },
  {
   "property": "C71",
   "status": "partial",
   "theorems": [
    "Cex.Dilithium.C71_verify",
    "Cex.Dilithium.C71_accepts",
    "Cex.Dilithium.C71_short",
    "Cex.Dilithium.C71_short_refuted"
   ],
   "note": "Proved for signatures of at least the signature size. For shorter ones Verify does not return false but leaves with std::length_error, because Message.resize comes before the length test."
  },
  {
   "property": "C72",
   "status": "proved",
   "theorems": [
    "Cex.Dilithium.C72_sign",
    "Cex.Dilithium.C72_sign_found",
    "Cex.Dilithium.C72_deterministic",
    "Cex.Dilithium.C72_safe",
    "Cex.Dilithium.C72_errors",
    "Cex.Dilithium.C72_enumeral_refuted"
   ],
   "note": "Equality with the specification needs the second secret vector in range, which Generate guarantees. Beside it: Enumeral returns SphincsPlus."
  },
  {
   "property": "C73",
   "status": "proved",
   "theorems": [
    "Cex.Threefish.C73_unrolled",
    "Cex.Threefish.C73_compact"
   ],
   "note": "The vectorised form PemuteR72P512V is not modelled."
  },
  {
   "property": "C74",
   "status": "partial",
   "theorems": [
    "Cex.Threefish.C74_tsx256",
    "Cex.Threefish.C74_tsx512_partial",
    "Cex.Threefish.C74_tsx1024_partial",
    "Cex.Threefish.C74_refuted",
    "Cex.Threefish.C74_distinct",
    "Cex.Threefish.C74_compact",
    "Cex.Threefish.C74_wide"
   ],
   "note": "TSX256 is Threefish-256. TSX512 and TSX1024 add a wrong last subkey: the key words stand where 72 and 80 rounds have them, so they are not Threefish with 96 and 120 rounds (C74_refuted); everything before the last addition is. The rest holds for all three."
  },
  {
   "property": "C75",
   "status": "proved",
   "theorems": [
    "Cex.Skein.C75_skein",
    "Cex.Skein.C75_split",
    "Cex.Skein.C75_digest_interface"
   ],
   "note": "Messages below 2^64 bytes (C75_split has no bound). AVX forms of the permutation are not modelled."
  },
  {
   "property": "C76",
   "status": "partial",
   "theorems": [
    "Cex.Skein.C76_tree_partial",
    "Cex.Skein.C76_collision",
    "Cex.Skein.C76_degree_false",
    "Cex.Skein.C76_params_false"
   ],
   "note": "Holds on machines with at least as many processors as lanes and after ParallelMaxDegree on an empty object on any machine. Refuted otherwise: with four processors a default parallel object drops half of what passes through its buffer, so different messages collide (C76_collision); ParallelMaxDegree after Update forgets the buffered bytes (C76_degree_false); Skein512 and Skein1024 from tree parameters overrun their buffer in Finalize (C76_params_false)."
  },
  {
   "property": "C77",
   "status": "partial",
   "theorems": [
    "Cex.Sphincs.C77_generate",
    "Cex.Sphincs.C77_sign_partial",
    "Cex.Sphincs.C77_roundtrip_partial",
    "Cex.Sphincs.C77_stale",
    "Cex.Sphincs.C77_refuted_128",
    "Cex.Sphincs.C77_refuted_192",
    "Cex.Sphincs.C77_long_refuted"
   ],
   "note": "Proved for messages below 2^32 bytes for all parameter sets with 32-bit unsigned long and for S5P256 and S6P512 with 64-bit unsigned long. Refuted for S1P128 and S3P192 with 64-bit unsigned long: the leaf index is not reduced, and for most messages a part of the signature is what the vector held before (C77_stale, C77_refuted_128, C77_refuted_192). Refuted for messages of 2^32 bytes (C77_long_refuted)."
  },
  {
   "property": "C78",
   "status": "partial",
   "theorems": [
    "Cex.Sphincs.C78_verify_partial",
    "Cex.Sphincs.C78_total",
    "Cex.Sphincs.C78_short_refuted"
   ],
   "note": "Equivalence with the specification under the same conditions as C77; on every platform each vector that can hold a signature gets an answer, and a rejected message is delivered as zeros. Refuted for shorter vectors: std::vector::resize throws (C78_short_refuted)."
  },
  {
   "property": "C79",
   "status": "partial",
   "theorems": [
    "Cex.Digest.C79_compute256",
    "Cex.Digest.C79_compute512_partial",
    "Cex.Digest.C79_compute384_partial",
    "Cex.Digest.C79_mac256_partial",
    "Cex.Digest.C79_mac512_partial",
    "Cex.Digest.C79_mac_longkey",
    "Cex.Digest.C79_mac256_refuted"
   ],
   "note": "Compute256 for all messages; Compute384 and Compute512 for messages below 2^61 bytes (the upper half of the length field stays zero); the two codes for keys of at most a block. Refuted for longer keys: RFC 2104 hashes them, the code copies them past the end of the pad (C79_mac_longkey)."
  },
  {
   "property": "C80",
   "status": "proved",
   "theorems": [
    "Cex.Xmss.C80_generate",
    "Cex.Xmss.C80_sizes"
   ],
   "note": "All 44 sets, for every permutation the Keccak function computes (perm24 is the one of the library); the random generator is the bytes it delivers."
  },
  {
   "property": "C81",
   "status": "partial",
   "theorems": [
    "Cex.Xmss.C81_verify_partial",
    "Cex.Xmss.C81_short_refuted"
   ],
   "note": "Vectors of at least the length of a signature. Refuted for shorter ones: the length of the message wraps round and memory behind the vector is read."
  },
  {
   "property": "C82",
   "status": "partial",
   "theorems": [
    "Cex.Xmss.C82_sign_partial",
    "Cex.Xmss.C82_roundtrip_partial",
    "Cex.Xmss.C82_reuse_refuted",
    "Cex.Xmss.C82_vector_refuted",
    "Cex.Xmss.C82_key_refuted"
   ],
   "note": "C82_sign_partial says what Sign delivers for every key and vector; C82_roundtrip_partial: RFC signature and acceptance where the first bytes of the vector hold the index of the key (fresh vector, generated key). Refuted: the index never advances (C82_reuse_refuted), and the one-time key is chosen by the output vector, not by the key (C82_vector_refuted, C82_key_refuted)."
  },
  {
   "property": "C83",
   "status": "partial",
   "theorems": [
    "Cex.Ec25519.C83_field32",
    "Cex.Ec25519.C83_codec32",
    "Cex.Ec25519.C83_field64_partial",
    "Cex.Ec25519.C83_swap64_refuted",
    "Cex.Ec25519.C83_copy64_refuted",
    "Cex.Ec25519.C83_reduce32_refuted"
   ],
   "note": "The 32-bit path in full for the limbs the curve code passes; the 128-bit path except conditional swap and copy, which are refuted. The reduction of the 32-bit path is also refuted in the wider range of its comment where unsigned long has 32 bits."
  },
  {
   "property": "C84",
   "status": "partial",
   "theorems": [
    "Cex.Ec25519.C84_kex_partial",
    "Cex.Ec25519.C84_agreement_partial",
    "Cex.Ec25519.C84_kex64_refuted",
    "Cex.Ec25519.C84_agreement64_refuted",
    "Cex.Ec25519.C84_domain_refuted"
   ],
   "note": "32-bit path without a domain key: equal to X25519 for all keys, and two parties always agree (2^255-19 is proved prime, the ladder is proved to compute multiples in the group of the curve over the algebraic closure). Refuted for the build with 128-bit integers (RFC 7748 test vector, and two parties disagree) and for domain keys (undefined). That Generate gives such public keys is C86."
  },
  {
   "property": "C85",
   "status": "partial",
   "theorems": [
    "Cex.Ec25519.C85_smallOrder_partial",
    "Cex.Ec25519.C85_smallOrder_refuted",
    "Cex.Ec25519.C85_rejected",
    "Cex.Ec25519.C85_zero_secret"
   ],
   "note": "What Ed25519SmallOrder answers is proved for every encoding; refuted for six of the seven entries. All seven are nevertheless refused by the key exchange on the 32-bit path, because the secret is zero, and a zero secret is never delivered."
  },
  {
   "property": "C86",
   "status": "proved",
   "theorems": [
    "Cex.Ed25519.C86_base",
    "Cex.Ed25519.C86_generate",
    "Cex.Ed25519.C86_agreement",
    "Cex.Ed25519.C86_generate_digests"
   ],
   "note": "The group of the Montgomery curve is that of Mathlib; the map to the twisted Edwards curve, the completeness of its addition and the doubling formulas are proved, all 256 table entries are checked by the kernel against the base point, and the recoding to signed digits is proved for all scalars."
  },
  {
   "property": "C87",
   "status": "partial",
   "theorems": [
    "Cex.Ed25519.C87_reduce",
    "Cex.Ed25519.C87_reduce_partial",
    "Cex.Ed25519.C87_reduce_canonical",
    "Cex.Ed25519.C87_reduce_wrong",
    "Cex.Ed25519.wrongInput_ok",
    "Cex.Ed25519.C87_muladd"
   ],
   "note": "MulAdd is proved for all inputs. Reduce is characterised for all inputs: the residue of x, or of x + 2^274 when limb s10 is negative at line 6070 (about one input in seven), which is proved to be a different residue."
  },
  {
   "property": "C88",
   "status": "partial",
   "theorems": [
    "Cex.Ed25519.C88_generate",
    "Cex.Ed25519.C88_sign_exact",
    "Cex.Ed25519.C88_sign_partial",
    "Cex.Ed25519.C88_sign_wrong",
    "Cex.Ed25519.C88_sign_refuted",
    "Cex.Ed25519.C88_sign_k_refused",
    "Cex.Ed25519.C88_verify",
    "Cex.Ed25519.C88_verify_partial",
    "Cex.Ed25519.C88_roundtrip",
    "Cex.Ed25519.C88_roundtrip_digests",
    "Cex.Ed25519.C88_unique",
    "Cex.Ed25519.C88_forgery",
    "Cex.Ed25519.C88_bad_key",
    "Cex.Ed25519.C88_verify_short"
   ],
   "note": "Key generation, the round trip and the uniqueness of the scalar are proved for all inputs; Sign and Verify are characterised for all inputs. Equality with RFC 8032 holds unless the reduction of C87 is wrong (iff, with a SHA2-512 witness) and, for Verify, for public keys in the group of the base point; outside it a forgery and a key that encodes no point are accepted."
  },
  {
   "property": "C89",
   "status": "partial",
   "theorems": [
    "Cex.Keccak.C89_initialize",
    "Cex.Keccak.C89_generate_partial",
    "Cex.Keccak.C89_no_memory",
    "Cex.Keccak.C89_memory",
    "Cex.Keccak.C89_memory_refuted",
    "Cex.Keccak.C89_memory_ignored",
    "Cex.Keccak.C89_first_cycle",
    "Cex.Keccak.C89_split"
   ],
   "note": "The output is characterised for all reachable states. The memory cost is refuted: for every cost from 1 to 2^44 the cache grows by the rate in every cycle (witness: 1 megabyte, 10000 cycles, 1680168 bytes). Hypothesis Fits as in C44."
  },
  {
   "property": "C90",
   "status": "partial",
   "theorems": [
    "Cex.Keccak.C90_mac",
    "Cex.Keccak.C90_compute",
    "Cex.Keccak.C90_next_partial",
    "Cex.Keccak.C90_tag_size",
    "Cex.Keccak.C90_tag_size_refuted",
    "Cex.Keccak.C90_mode_ignored",
    "Cex.Keccak.C90_offset_refuted",
    "Cex.Keccak.C90_offset_witness",
    "Cex.Keccak.C90_reset_refuted",
    "Cex.Keccak.C90_not_keyed"
   ],
   "note": "The tag of the first message after Initialize is proved for all inputs and splits below 2^53 bytes. Refuted: the tag size of KPA512 (1), the role of the mode, the offset of the SecureVector overload, the erasure by Reset, and the second message (its tag is characterised)."
  },
  {
   "property": "C91",
   "status": "partial",
   "theorems": [
    "Cex.Keccak.Tree.C91_digest_partial",
    "Cex.Keccak.Tree.C91_one_update",
    "Cex.Keccak.Tree.C91_params",
    "Cex.Keccak.Tree.C91_leaves",
    "Cex.Keccak.Tree.C91_dropped",
    "Cex.Keccak.Tree.C91_full_collides",
    "Cex.Keccak.Tree.C91_false",
    "Cex.Keccak.Tree.C91_degree_ub",
    "Cex.Keccak.Tree.C91_params_ub"
   ],
   "note": "With at least eight processors (or, for given parameters, as many as the fan-out) any history gives the described digest; on any machine a single Update does. Refuted for less than eight processors: bytes are dropped (collisions for every permutation, C91_dropped), so the digest depends on the split (C91_false is for the identity in place of the permutation; for Keccak, C91_full_collides shows that independence would make the described digest collide). Refuted: ParallelMaxDegree above 8 and parameters of another output size lead out of the arrays."
  },
  {
   "property": "C92",
   "status": "partial",
   "theorems": [
    "Cex.Keccak.C92_roundtrip",
    "Cex.Keccak.C92_clone",
    "Cex.Keccak.C92_injective",
    "Cex.Keccak.C92_short_ub",
    "Cex.Keccak.C92_equals_refl",
    "Cex.Keccak.C92_equals_false",
    "Cex.Keccak.C92_equals_refuted",
    "Cex.Keccak.C92_hash_ub"
   ],
   "note": "The block is proved lossless and injective. Equals is refuted: it compares a sum of all fields, so every object has a different one that compares equal; the sum can overflow a signed integer."
  },
  {
   "property": "C93",
   "status": "partial",
   "theorems": [
    "Cex.Streams.C93_digest_array",
    "Cex.Streams.C93_digest_stream",
    "Cex.Streams.C93_mac_array",
    "Cex.Streams.C93_mac_stream",
    "Cex.Streams.C93_empty_ub"
   ],
   "note": "Proved for every non-empty input, every engine that meets the interface (C36, C45, C65, C75; C29, C31) and a parallel block size that is a positive multiple of the block size (C19). Refuted for empty input: the percentage 0.0/0.0 is converted to an integer."
  },
  {
   "property": "C94",
   "status": "partial",
   "theorems": [
    "Cex.Streams.C94_file_partial",
    "Cex.Streams.C94_same_keystream",
    "Cex.Streams.C94_gap",
    "Cex.Streams.C94_gap_false"
   ],
   "note": "Proved for reads that fit (as in C33), writes without a gap and parallel blocks of at most 1 MB (C17), with the stored bytes equal to content XOR keystream after every sequence. Refuted: a gap is filled with keystream instead of zeros, for every seed; all streams of a process with the same salt share the keystream, so two stored contents differ exactly as the contents do."
  },
  {
   "property": "C95",
   "status": "partial",
   "theorems": [
    "Cex.Keys.C95_symmetric",
    "Cex.Keys.C95_symmetric_salted",
    "Cex.Keys.C95_clone_salted",
    "Cex.Keys.C95_tampered",
    "Cex.Keys.C95_asymmetric_extra",
    "Cex.Keys.C95_asymmetric_partial",
    "Cex.Keys.C95_clone_false",
    "Cex.Keys.C95_asymmetric_false"
   ],
   "note": "Proved for symmetric keys under every policy and for asymmetric keys under the policies without authentication, for every cipher that seals and opens (C50, C52; the TSX objects themselves are not modelled). Refuted: under the three authenticated policies the polynomial comes back with the length of the tag in zeros behind it; a symmetric key without a salt cannot be cloned."
  },
  {
   "property": "C96",
   "status": "partial",
   "theorems": [
    "Cex.Params.C96_sha2_clone",
    "Cex.Params.C96_sha2_refused",
    "Cex.Params.C96_sha2_short",
    "Cex.Params.C96_sha2_equals_refuted",
    "Cex.Params.C96_blake_clone",
    "Cex.Params.C96_blake_injective",
    "Cex.Params.C96_blake_members",
    "Cex.Params.C96_blake_short",
    "Cex.Params.C96_blake_small",
    "Cex.Params.C96_blake_reset",
    "Cex.Params.C96_blake_equals_refuted",
    "Cex.Params.C96_skein_clone",
    "Cex.Params.C96_skein_injective",
    "Cex.Params.C96_skein_short",
    "Cex.Params.C96_skein_empty",
    "Cex.Params.C96_skein_equals_refuted",
    "Cex.Params.C96_skein_leaf"
   ],
   "note": "The round trip and the injectivity are proved for all three classes (injectivity of SHA2Params is C92_injective, the functions being the same). Refuted: the refusal of short arrays (SHA2Params with 72 to 135 bytes, BlakeParams with 32 bytes that do not begin with 32, SkeinParams always), Equals for each class, the leaf size of SkeinParams, ToBytes of BlakeParams after Reset."
  },
  {
   "property": "C97",
   "status": "partial",
   "theorems": [
    "Cex.Keys.C97_generate",
    "Cex.Keys.C97_length",
    "Cex.Keys.C97_key",
    "Cex.Keys.C97_zero",
    "Cex.Keys.C97_strength_partial",
    "Cex.Keys.C97_strength_false",
    "Cex.Keys.C97_info_dropped",
    "Cex.Keys.C97_offset_ub"
   ],
   "note": "Window, sizes and independent seeds are proved for every provider that answers and for requests within the limit of SHAKE. Refuted: the policies SPL1024 and SPL1024AE use a seed of 256 bits and SHAKE256, exactly as SPL256; an info size without a nonce size is ignored; the size test wraps. GetSecureKey calls the generator in the same way; the key object it makes is that of C95."
  },
  {
   "property": "C98",
   "status": "partial",
   "theorems": [
    "Cex.Pool.C98_new",
    "Cex.Pool.C98_allocate_partial",
    "Cex.Pool.C98_allocate_perfect_ub",
    "Cex.Pool.C98_deallocate",
    "Cex.Pool.C98_whole",
    "Cex.Pool.C98_outside",
    "Cex.Pool.C98_reuse_false",
    "Cex.Pool.C98_reset_false"
   ],
   "note": "Proved with an invariant over the free list and the blocks in use. Refuted: a request for exactly the length of an aligned free entry goes on with an invalid iterator (so giving back a block and asking for one of the same length may be undefined), and Reset keeps the old entries, so overlapping blocks are given out. Missing: the full statement for perfect fits, which is false. Calls from several threads are not modelled: the mutex is a local variable of each call and excludes nothing."
  },
  {
   "property": "C99",
   "status": "partial",
   "theorems": [
    "Cex.Pool.C99_never_locked",
    "Cex.Pool.C99_short_block",
    "Cex.Pool.C99_short_block_case"
   ],
   "note": "Refuted in both directions: the overflow test is inverted, so a size that can be computed never uses the pool (the secure vectors use ordinary memory), and a size that wraps gets a block of the pool that is shorter than asked for. Nothing of the English claim remains to be proved; the theorems state what the code does for every input."
  }
 ]
}