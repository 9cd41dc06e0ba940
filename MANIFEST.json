{"claims": [
 {"property": "C01", "status": "proved", "theorems": ["Kripto.Props.C01_memory_equals"], "note": "All lengths, any two valid ranges, overlapping or not. Timing is not modelled."},
 {"property": "C02", "status": "proved", "theorems": ["Kripto.Props.C02_memory_wipe"], "note": "All lengths and addresses; an invalid range is undefined behaviour. That a compiler keeps the stores is not modelled."},
 {"property": "C03", "status": "proved", "theorems": ["Kripto.Props.C03_pkcs7_add", "Kripto.Props.C03_pkcs7_add_not_power_of_two"], "note": "Power-of-two block sizes; C03_pkcs7_add_not_power_of_two shows that other sizes give wrong lengths."},
 {"property": "C04", "status": "proved", "theorems": ["Kripto.Props.C04_pkcs7_rem_add", "Kripto.Props.C04_pkcs7_rem_add_empty"], "note": "C04_pkcs7_rem_add_empty proves the failure for the empty message."},
 {"property": "C05", "status": "proved", "theorems": ["Kripto.Props.C05_pkcs7_rem", "Kripto.Props.C05_pkcs7_rem_only_last", "Kripto.Props.C05_pkcs7_rem_empty"], "note": "C05_pkcs7_rem_empty proves that an empty buffer is read out of bounds."},
 {"property": "C06", "status": "proved", "theorems": ["Kripto.Props.C06_load16_value", "Kripto.Props.C06_store16", "Kripto.Props.C06_load_store16", "Kripto.Props.C06_load16_array", "Kripto.Props.C06_load32_value", "Kripto.Props.C06_store32", "Kripto.Props.C06_load_store32", "Kripto.Props.C06_load32_array", "Kripto.Props.C06_store32_array", "Kripto.Props.C06_load64_value", "Kripto.Props.C06_store64", "Kripto.Props.C06_load_store64", "Kripto.Props.C06_load64_array", "Kripto.Props.C06_store64_array"], "note": "Portable configuration (no KRIPTO_*_ENDIAN)."},
 {"property": "C07", "status": "proved", "theorems": ["Kripto.Props.C07_rol", "Kripto.Props.C07_ror_rol", "Kripto.Props.C07_rol_portable", "Kripto.Props.C07_rol_fixed", "Kripto.Props.C07_ror_fixed", "Kripto.Props.C07_ror8_6_wrong"], "note": "Fixed-count macros from the generated table Verif/Gen/Rot.lean; ROR8_6 shown wrong."},
 {"property": "C08", "status": "proved", "theorems": ["Kripto.Props.C08_tea", "Kripto.Props.C08_xtea", "Kripto.Props.C08_rc5", "Kripto.Props.C08_rc6", "Kripto.Props.C08_speck32", "Kripto.Props.C08_speck64", "Kripto.Props.C08_speck128", "Kripto.Props.C08_simon32", "Kripto.Props.C08_simon64", "Kripto.Props.C08_simon128", "Kripto.Props.C08_shacal2", "Kripto.Props.C08_threefish256", "Kripto.Props.C08_threefish512", "Kripto.Props.C08_threefish1024", "Kripto.Props.C08_crax_s", "Kripto.Props.C08_trax_m", "Kripto.Props.C08_trax_l", "Kripto.Props.C08_lea", "Kripto.Props.C08_threefish256_tweak", "Kripto.Props.C08_threefish512_tweak", "Kripto.Props.C08_threefish1024_tweak", "Kripto.Props.C08_trax_m_tweak", "Kripto.Props.C08_trax_l_tweak"], "note": "Default rounds. Speck keys of one word: C13_speck*_short_key. Tweaks: C08_*_tweak."},
 {"property": "C09", "status": "proved", "theorems": ["Kripto.Props.C09_des", "Kripto.Props.C09_blowfish", "Kripto.Props.C09_cast5", "Kripto.Props.C09_camellia", "Kripto.Props.C09_gost_cbr", "Kripto.Props.C09_gost_r34_12_2015", "Kripto.Props.C09_seed", "Kripto.Props.C09_sm4", "Kripto.Props.C09_twofish", "Kripto.Props.C09_skipjack", "Kripto.Props.C09_rc2"], "note": "Default rounds."},
 {"property": "C10", "status": "proved", "theorems": ["Kripto.Props.C10_rijndael128", "Kripto.Props.C10_rijndael256", "Kripto.Props.C10_anubis", "Kripto.Props.C10_khazad", "Kripto.Props.C10_aria", "Kripto.Props.C10_serpent", "Kripto.Props.C10_noekeon", "Kripto.Props.C10_threeway", "Kripto.Props.C10_rectangle", "Kripto.Props.C10_idea", "Kripto.Props.C10_safer", "Kripto.Props.C10_safer_sk", "Kripto.Props.C10_saferpp"], "note": "Default rounds; key lengths for which creation is undefined: C13."},
 {"property": "C11", "status": "proved", "theorems": ["Kripto.Props.C11_permutation", "Kripto.Props.C11_encrypt_decrypt"], "note": "For every combination listed in Verif/Spec/BlockLib.lean (all ciphers, all round counts of C12)."},
 {"property": "C12", "status": "proved", "theorems": ["Kripto.Props.C12_tea", "Kripto.Props.C12_crax_s", "Kripto.Props.C12_des", "Kripto.Props.C12_rc2", "Kripto.Props.C12_xtea", "Kripto.Props.C12_rc5", "Kripto.Props.C12_rc6", "Kripto.Props.C12_trax_m", "Kripto.Props.C12_trax_l", "Kripto.Props.C12_blowfish", "Kripto.Props.C12_cast5", "Kripto.Props.C12_camellia", "Kripto.Props.C12_seed", "Kripto.Props.C12_skipjack", "Kripto.Props.C12_anubis", "Kripto.Props.C12_khazad", "Kripto.Props.C12_noekeon", "Kripto.Props.C12_rectangle", "Kripto.Props.C12_idea", "Kripto.Props.C12_shacal2", "Kripto.Props.C12_lea", "Kripto.Props.C12_sm4", "Kripto.Props.C12_serpent", "Kripto.Props.C12_gost_cbr", "Kripto.Props.C12_gost_r34_12_2015", "Kripto.Props.C12_speck32", "Kripto.Props.C12_speck32_short_key", "Kripto.Props.C12_speck64", "Kripto.Props.C12_speck64_short_key", "Kripto.Props.C12_speck128", "Kripto.Props.C12_speck128_short_key", "Kripto.Props.C12_simon32", "Kripto.Props.C12_simon64", "Kripto.Props.C12_simon128", "Kripto.Props.C12_rijndael128", "Kripto.Props.C12_rijndael256", "Kripto.Props.C12_safer", "Kripto.Props.C12_safer_sk", "Kripto.Props.C12_saferpp", "Kripto.Props.C12_threeway", "Kripto.Props.C12_threefish256", "Kripto.Props.C12_threefish256_odd", "Kripto.Props.C12_threefish512", "Kripto.Props.C12_threefish512_odd", "Kripto.Props.C12_threefish1024", "Kripto.Props.C12_threefish1024_odd", "Kripto.Props.C12_aria", "Kripto.Props.C12_aria_odd", "Kripto.Props.C12_twofish", "Kripto.Props.C12_twofish_odd"], "note": "Equivalences for all ciphers but Threefish, Twofish and ARIA, where the condition is shown sufficient and a failing instance outside it is exhibited."},
 {"property": "C13", "status": "proved", "theorems": ["Kripto.Props.C13_create_in_bounds", "Kripto.Props.C13_speck32_short_key", "Kripto.Props.C13_speck64_short_key", "Kripto.Props.C13_speck128_short_key", "Kripto.Props.C13_simon32_few_rounds", "Kripto.Props.C13_rijndael256_short_key", "Kripto.Props.C13_safer_key_length", "Kripto.Props.C13_safer_sk_key_length", "Kripto.Props.C13_saferpp_key_length"], "note": "Bounds are checked by every array access of the model."},
 {"property": "C14", "status": "proved", "theorems": ["Kripto.Props.C14_history", "Kripto.Props.C14_xtea", "Kripto.Props.C14_rc5", "Kripto.Props.C14_rc6", "Kripto.Props.C14_shacal2", "Kripto.Props.C14_trax_m", "Kripto.Props.C14_trax_l", "Kripto.Props.C14_blowfish", "Kripto.Props.C14_seed", "Kripto.Props.C14_sm4", "Kripto.Props.C14_twofish", "Kripto.Props.C14_khazad", "Kripto.Props.C14_serpent", "Kripto.Props.C14_rectangle", "Kripto.Props.C14_idea", "Kripto.Props.C14_lea", "Kripto.Props.C14_anubis", "Kripto.Props.C14_aria", "Kripto.Props.C14_saferpp", "Kripto.Props.C14_safer", "Kripto.Props.C14_safer_sk", "Kripto.Props.C14_rijndael128", "Kripto.Props.C14_rijndael256", "Kripto.Props.C14_gost_cbr", "Kripto.Props.C14_gost_r34_12_2015", "Kripto.Props.C14_speck32", "Kripto.Props.C14_speck64", "Kripto.Props.C14_speck128", "Kripto.Props.C14_simon32", "Kripto.Props.C14_simon64", "Kripto.Props.C14_simon128", "Kripto.Props.C14_tea", "Kripto.Props.C14_crax_s", "Kripto.Props.C14_des", "Kripto.Props.C14_cast5", "Kripto.Props.C14_camellia", "Kripto.Props.C14_noekeon", "Kripto.Props.C14_rc2", "Kripto.Props.C14_skipjack", "Kripto.Props.C14_threefish256", "Kripto.Props.C14_threefish512", "Kripto.Props.C14_threefish1024", "Kripto.Props.C14_threeway"], "note": "Histories are lists of (rounds, key)."},
 {"property": "C15", "status": "proved", "theorems": ["Kripto.Props.C15_frame", "Kripto.Props.C15_invalid", "Kripto.Props.C15_in_place", "Kripto.Props.C15_commute", "Kripto.Props.C15_supported"], "note": "C15_frame and C15_commute are stated for every cipher of the library (Spec/BlockLib.lean) and every state reached by creation."},
 {"property": "C16", "status": "proved", "theorems": ["Kripto.Props.C16_aes", "Kripto.Props.C16_aes_inverse", "Kripto.Props.C16_rijndael128", "Kripto.Props.C16_rijndael256", "Kripto.Props.C16_rcon_wrong", "Kripto.Props.C16_ctr", "Kripto.Props.C16_cmac", "Kripto.Props.C16_xcbc"], "note": "The standard is Spec/Aes.lean. C16_rcon_wrong proves the deviation beyond 51 round constants."},
 {"property": "C17", "status": "proved", "theorems": ["Kripto.Props.C17_tea", "Kripto.Props.C17_xtea", "Kripto.Props.C17_speck32", "Kripto.Props.C17_speck64", "Kripto.Props.C17_speck128", "Kripto.Props.C17_simon32", "Kripto.Props.C17_simon64", "Kripto.Props.C17_simon128", "Kripto.Props.C17_rc5", "Kripto.Props.C17_rc5_long_wrong", "Kripto.Props.C17_rc6", "Kripto.Props.C17_rc6_long_wrong", "Kripto.Props.C17_lea", "Kripto.Props.C17_shacal2", "Kripto.Props.C17_threefish256", "Kripto.Props.C17_threefish512", "Kripto.Props.C17_threefish1024", "Kripto.Props.C17_crax_s", "Kripto.Props.C17_trax_m", "Kripto.Props.C17_trax_l"], "note": "Published definitions in Spec/{Tea,SimonSpeck,Rc,Lea,Shacal2,Threefish,Alzette}.lean. RC5 and RC6 with keys longer than the expanded key deviate: C17_rc5_long_wrong, C17_rc6_long_wrong."},
 {"property": "C18", "status": "proved", "theorems": ["Kripto.Props.C18_des", "Kripto.Props.C18_tdes2", "Kripto.Props.C18_tdes3", "Kripto.Props.C18_parity", "Kripto.Props.C18_complement", "Kripto.Props.C18_equal", "Kripto.Props.C18_two_key"], "note": "The standard is Spec/Des.lean (tables of FIPS 46-3)."},
 {"property": "C19", "status": "proved", "theorems": ["Kripto.Props.C19_tea", "Kripto.Props.C19_tea_zeros", "Kripto.Props.C19_noekeon_zeros", "Kripto.Props.C19_threeway_zeros", "Kripto.Props.C19_seed_zeros", "Kripto.Props.C19_idea_zeros", "Kripto.Props.C19_crax_s_zeros", "Kripto.Props.C19_trax_m_zeros", "Kripto.Props.C19_trax_l_zeros", "Kripto.Props.C19_threefish256_zeros", "Kripto.Props.C19_threefish512_zeros", "Kripto.Props.C19_threefish1024_zeros", "Kripto.Props.C19_cast5_zeros", "Kripto.Props.C19_rijndael128_zeros", "Kripto.Props.C19_simon32_zeros", "Kripto.Props.C19_simon64_zeros", "Kripto.Props.C19_simon128_zeros", "Kripto.Props.C19_camellia_zeros", "Kripto.Props.C19_camellia_192", "Kripto.Props.C19_serpent", "Kripto.Props.C19_blowfish", "Kripto.Props.C19_rc4", "Kripto.Props.C19_safer", "Kripto.Props.C19_safer_sk", "Kripto.Props.C19_saferpp", "Kripto.Props.C19_hmac_zeros", "Kripto.Props.C19_hmac_long", "Kripto.Props.C19_pbkdf2_zeros", "Kripto.Props.C19_xtea_zeros", "Kripto.Props.C19_rc5_zeros", "Kripto.Props.C19_rc6_zeros", "Kripto.Props.C19_speck32_zeros", "Kripto.Props.C19_speck64_zeros", "Kripto.Props.C19_speck128_zeros", "Kripto.Props.C19_shacal2_zeros", "Kripto.Props.C19_lea_zeros", "Kripto.Props.C19_gost_cbr_zeros", "Kripto.Props.C19_gost_r34_zeros", "Kripto.Props.C19_sm4_zeros", "Kripto.Props.C19_khazad_zeros", "Kripto.Props.C19_skipjack_zeros", "Kripto.Props.C19_rijndael256_zeros", "Kripto.Props.C19_anubis_zeros", "Kripto.Props.C19_aria_zeros", "Kripto.Props.C19_rectangle_zeros", "Kripto.Props.C19_twofish_zeros", "Kripto.Props.C19_des_zeros"], "note": "Each pair of keys is shown to give the same encryption and decryption of every block; for RC4 the same keystream, for HMAC the same tags (for every hash function with a Computes theorem), for PBKDF2 the same derived keys. C19_*_zeros are the ciphers that zero-fill short keys."},
 {"property": "C20", "status": "proved", "theorems": ["Kripto.Props.C20_ecb", "Kripto.Props.C20_ecb_round_trip", "Kripto.Props.C20_ecb_odd_length_rejected"], "note": "For any block cipher object whose encryption and decryption are total and inverse; all ciphers of the library are."},
 {"property": "C21", "status": "proved", "theorems": ["Kripto.Props.C21_cbc", "Kripto.Props.C21_cbc_round_trip", "Kripto.Props.C21_cbc_odd_length_rejected"], "note": "For any block cipher object whose encryption and decryption are total and inverse."},
 {"property": "C22", "status": "proved", "theorems": ["Kripto.Props.C22_cfb_encrypt", "Kripto.Props.C22_cfb_decrypt_blockwise", "Kripto.Props.C22_cfb_spec_round_trip", "Kripto.Props.C22_cfb_round_trip_blockwise", "Kripto.Props.C22_cfb_decrypt_two_blocks_wrong", "Kripto.Props.C22_cfb_decrypt_broken", "Kripto.Props.C22_cfb_decrypt_overrun"], "note": "C22_cfb_decrypt_broken, C22_cfb_decrypt_two_blocks_wrong and C22_cfb_decrypt_overrun prove the defects."},
 {"property": "C23", "status": "proved", "theorems": ["Kripto.Props.C23_ofb", "Kripto.Props.C23_ofb_round_trip"], "note": "For any block cipher object whose encryption is total."},
 {"property": "C24", "status": "proved", "theorems": ["Kripto.Props.C24_ctr", "Kripto.Props.C24_counter", "Kripto.Props.C24_ctr_round_trip"], "note": "For any block cipher object whose encryption is total."},
 {"property": "C25", "status": "proved", "theorems": ["Kripto.Props.C25_ctr_period", "Kripto.Props.C25_ctr_no_early_repeat"], "note": "C25_ctr_period proves the short period, C25_ctr_no_early_repeat that there is none shorter."},
 {"property": "C26", "status": "proved", "theorems": ["Kripto.Props.C26_ofb", "Kripto.Props.C26_ctr", "Kripto.Props.C26_salsa20", "Kripto.Props.C26_chacha", "Kripto.Props.C26_rc4", "Kripto.Props.C26_keccak1600", "Kripto.Props.C26_keccak800", "Kripto.Props.C26_skein"], "note": "For Keccak-800 and Skein too, although those streams are not the published ones (C33, C34, C40)."},
 {"property": "C27", "status": "proved", "theorems": ["Kripto.Props.C27_ofb", "Kripto.Props.C27_ctr", "Kripto.Props.C27_cfb", "Kripto.Props.C27_ecb_cbc_none", "Kripto.Props.C27_salsa20", "Kripto.Props.C27_chacha", "Kripto.Props.C27_rc4", "Kripto.Props.C27_keccak", "Kripto.Props.C27_skein"], "note": "ECB and CBC offer no prng call (C27_ecb_cbc_none)."},
 {"property": "C28", "status": "proved", "theorems": ["Kripto.Props.C28_ofb", "Kripto.Props.C28_ctr", "Kripto.Props.C28_ecb", "Kripto.Props.C28_cbc", "Kripto.Props.C28_cfb_encrypt", "Kripto.Props.C28_cfb_decrypt_wrong", "Kripto.Props.C28_salsa20", "Kripto.Props.C28_chacha", "Kripto.Props.C28_rc4", "Kripto.Props.C28_keccak1600", "Kripto.Props.C28_keccak800", "Kripto.Props.C28_skein"], "note": "C28_cfb_decrypt_wrong proves that CFB decryption in place is wrong."},
 {"property": "C29", "status": "proved", "theorems": ["Kripto.Props.C29_short_iv", "Kripto.Props.C29_iv_collision"], "note": ""},
 {"property": "C30", "status": "proved", "theorems": ["Kripto.Props.C30_salsa20", "Kripto.Props.C30_salsa20_recreate", "Kripto.Props.C30_standard", "Kripto.Props.C30_constants", "Kripto.Props.C30_round_trip"], "note": "C30_standard and C30_constants tie the described keystream to the published quarter-round and constants."},
 {"property": "C31", "status": "proved", "theorems": ["Kripto.Props.C31_chacha", "Kripto.Props.C31_chacha_recreate", "Kripto.Props.C31_standard", "Kripto.Props.C31_rfc8439", "Kripto.Props.C31_nonce_overlap", "Kripto.Props.C31_round_trip"], "note": "C31_nonce_overlap proves the overlap of keystreams for RFC 8439 nonces."},
 {"property": "C32", "status": "proved", "theorems": ["Kripto.Props.C32_rc4", "Kripto.Props.C32_rc4_recreate", "Kripto.Props.C32_drop"], "note": ""},
 {"property": "C33", "status": "proved", "theorems": ["Kripto.Props.C33_keystream", "Kripto.Props.C33_first_block_public", "Kripto.Props.C33_first_block_not_encrypted", "Kripto.Props.C33_key_part", "Kripto.Props.C33_short_keys_ignored", "Kripto.Props.C33_uninitialised", "Kripto.Props.C33_standard_after_first_block", "Kripto.Props.C33_recreate"], "note": "Negative results: C33_first_block_public, _first_block_not_encrypted, _short_keys_ignored, _uninitialised."},
 {"property": "C34", "status": "proved", "theorems": ["Kripto.Props.C34_stream1600", "Kripto.Props.C34_stream800", "Kripto.Props.C34_stream_round_trip", "Kripto.Props.C34_mac_key_is_data", "Kripto.Props.C34_mac_shift", "Kripto.Props.C34_mac1600", "Kripto.Props.C34_mac800"], "note": "C34_mac_shift proves the related-key identity of the MAC."},
 {"property": "C35", "status": "proved", "theorems": ["Kripto.Props.C35_split", "Kripto.Props.C35_all", "Kripto.Props.C35_keccak", "Kripto.Props.C35_sha3", "Kripto.Props.C35_skein"], "note": ""},
 {"property": "C36", "status": "proved", "theorems": ["Kripto.Props.C36_pieces", "Kripto.Props.C36_concat", "Kripto.Props.C36_keccak", "Kripto.Props.C36_sha3", "Kripto.Props.C36_skein_one_piece", "Kripto.Props.C36_skein_too_much"], "note": "Skein exceptions: C36_skein_one_piece, C36_skein_too_much; SHA-3 overread: C36_sha3 and C40_sha3_overread."},
 {"property": "C37", "status": "proved", "theorems": ["Kripto.Props.C37_md5", "Kripto.Props.C37_sha1", "Kripto.Props.C37_sha256", "Kripto.Props.C37_sha224", "Kripto.Props.C37_sha512", "Kripto.Props.C37_sha384", "Kripto.Props.C37_sha2_256_rounds", "Kripto.Props.C37_sha2_512_rounds", "Kripto.Props.C37_tiger", "Kripto.Props.C37_whirlpool", "Kripto.Props.C37_rounds_rejected"], "note": "Standards in Spec/{Md,Sha,Tiger,Whirlpool}.lean; length limits are those of the counters in the code."},
 {"property": "C38", "status": "proved", "theorems": ["Kripto.Props.C38_padding_injective", "Kripto.Props.C38_length_encodings", "Kripto.Props.C38_collision", "Kripto.Props.C38_md5", "Kripto.Props.C38_sha1", "Kripto.Props.C38_sha256", "Kripto.Props.C38_sha512", "Kripto.Props.C38_tiger", "Kripto.Props.C38_whirlpool"], "note": "C38_collision derives a collision of the compression function from one of the digest."},
 {"property": "C39", "status": "proved", "theorems": ["Kripto.Props.C39_recreate", "Kripto.Props.C39_keccak", "Kripto.Props.C39_skein"], "note": ""},
 {"property": "C40", "status": "proved", "theorems": ["Kripto.Props.C40_keccak1600_code", "Kripto.Props.C40_keccak1600_standard", "Kripto.Props.C40_keccak1600_history", "Kripto.Props.C40_keccak1600_range", "Kripto.Props.C40_keccak800_code", "Kripto.Props.C40_keccak800_history", "Kripto.Props.C40_keccak800_range", "Kripto.Props.C40_keccak800_wrong", "Kripto.Props.C40_keccak800_constants", "Kripto.Props.C40_sha3_all", "Kripto.Props.C40_sha3_standard", "Kripto.Props.C40_sha3_overread", "Kripto.Props.C40_sha3_range"], "note": "Negative results: C40_keccak800_wrong, C40_keccak800_constants, C40_sha3_overread, C40_*_range."},
 {"property": "C41", "status": "proved", "theorems": ["Kripto.Props.C41_blake2s_code", "Kripto.Props.C41_blake2b_code", "Kripto.Props.C41_blake2s_standard", "Kripto.Props.C41_blake2b_standard", "Kripto.Props.C41_blake2_extra_block", "Kripto.Props.C41_blake2s_wrong", "Kripto.Props.C41_blake2b_wrong", "Kripto.Props.C41_blake256_code", "Kripto.Props.C41_blake512_code", "Kripto.Props.C41_blake256_standard", "Kripto.Props.C41_blake512_standard", "Kripto.Props.C41_blake256_wrong", "Kripto.Props.C41_blake512_wrong", "Kripto.Props.C41_blake256_zero", "Kripto.Props.C41_blake512_zero"], "note": "Negative results: C41_blake2s_wrong, C41_blake2b_wrong, C41_blake256_wrong, C41_blake512_wrong."},
 {"property": "C42", "status": "proved", "theorems": ["Kripto.Props.C42_verify", "Kripto.Props.C42_accepts", "Kripto.Props.C42_empty"], "note": ""},
 {"property": "C43", "status": "proved", "theorems": ["Kripto.Props.C43_hmac", "Kripto.Props.C43_standard", "Kripto.Props.C43_md5", "Kripto.Props.C43_sha1", "Kripto.Props.C43_sha224", "Kripto.Props.C43_sha256", "Kripto.Props.C43_sha384", "Kripto.Props.C43_sha512", "Kripto.Props.C43_tiger", "Kripto.Props.C43_whirlpool", "Kripto.Props.C43_sha3", "Kripto.Props.C43_truncation", "Kripto.Props.C43_second_tag"], "note": "C43_truncation proves that a short tag is not a prefix of the long one, C43_second_tag the assertion failure."},
 {"property": "C44", "status": "proved", "theorems": ["Kripto.Props.C44_library", "Kripto.Props.C44_cmac", "Kripto.Props.C44_recreate_always", "Kripto.Props.C44_recreate_law", "Kripto.Props.C44_aes"], "note": "C44_library covers every block cipher and block size of the library."},
 {"property": "C45", "status": "proved", "theorems": ["Kripto.Props.C45_xcbc", "Kripto.Props.C45_aes128", "Kripto.Props.C45_aes_long"], "note": "C45_aes_long proves that XCBC with AES keys of more than 16 bytes cannot be created."},
 {"property": "C46", "status": "proved", "theorems": ["Kripto.Props.C46_split", "Kripto.Props.C46_all", "Kripto.Props.C46_hash_split"], "note": ""},
 {"property": "C47", "status": "proved", "theorems": ["Kripto.Props.C47_eax", "Kripto.Props.C47_delivers", "Kripto.Props.C47_recreate", "Kripto.Props.C47_recreate_aes"], "note": "Keystream equality holds until the counter carries into its first byte (C25)."},
 {"property": "C48", "status": "proved", "theorems": ["Kripto.Props.C48_short_iv", "Kripto.Props.C48_rejects", "Kripto.Props.C48_ciphertext", "Kripto.Props.C48_ciphertext_wrong"], "note": "Proves the defect: the tag depends on uninitialised memory (C48_rejects) and the keystream starts at the wrong block (C48_ciphertext_wrong)."},
 {"property": "C49", "status": "proved", "theorems": ["Kripto.Props.C49_eax2", "Kripto.Props.C49_delivers", "Kripto.Props.C49_rejects", "Kripto.Props.C49_iv_overflow", "Kripto.Props.C49_not_created", "Kripto.Props.C49_one_byte_key", "Kripto.Props.C49_maxkey", "Kripto.Props.C49_ctr_omac", "Kripto.Props.C49_salsa20_hmac"], "note": "Negative results: C49_rejects, C49_iv_overflow, C49_not_created, C49_one_byte_key, C49_maxkey."},
 {"property": "C50", "status": "proved", "theorems": ["Kripto.Props.C50_tag_length", "Kripto.Props.C50_verify", "Kripto.Props.C50_accepts", "Kripto.Props.C50_empty", "Kripto.Props.C50_once"], "note": "C50_empty and C50_once prove the undefined empty tag and the single use."},
 {"property": "C51", "status": "proved", "theorems": ["Kripto.Props.C51_pbkdf2", "Kripto.Props.C51_length", "Kripto.Props.C51_hmac", "Kripto.Props.C51_short", "Kripto.Props.C51_sha1", "Kripto.Props.C51_sha256", "Kripto.Props.C51_sha512", "Kripto.Props.C51_prefix", "Kripto.Props.C51_short_wrong", "Kripto.Props.C51_abort"], "note": "C51_short_wrong proves the deviation for short outputs."},
 {"property": "C52", "status": "proved", "theorems": ["Kripto.Props.C52_smix", "Kripto.Props.C52_one", "Kripto.Props.C52_one_sha256", "Kripto.Props.C52_undefined", "Kripto.Props.C52_wrong"], "note": "C52_undefined and C52_wrong prove that kripto_scrypt fails for cost at least 2; C52_smix proves the mixing function itself correct."},
 {"property": "C53", "status": "proved", "theorems": ["Kripto.Props.C53_generator", "Kripto.Props.C53_limit", "Kripto.Props.C53_limit_wrong", "Kripto.Props.C53_undefined", "Kripto.Props.C53_no_memory"], "note": "Time, clock() and the surroundings are inputs of the model. C53_limit_wrong and C53_undefined prove the defects."},
 {"property": "C54", "status": "proved", "theorems": ["Kripto.Props.C54_block_create", "Kripto.Props.C54_block_recreate", "Kripto.Props.C54_block_tweak", "Kripto.Props.C54_long_tweak", "Kripto.Props.C54_stream_create", "Kripto.Props.C54_stream_recreate", "Kripto.Props.C54_stream_data", "Kripto.Props.C54_units", "Kripto.Props.C54_hash", "Kripto.Props.C54_mac", "Kripto.Props.C54_ae_create", "Kripto.Props.C54_ae_data", "Kripto.Props.C54_long_key"], "note": ""},
 {"property": "C55", "status": "proved", "theorems": ["Kripto.Props.C55_hash", "Kripto.Props.C55_standard", "Kripto.Props.C55_full_block_wrong", "Kripto.Props.C55_short_output_wrong", "Kripto.Props.C55_long_output_wrong", "Kripto.Props.C55_short_salt_ignored"], "note": "Negative results: C55_full_block_wrong, _short_output_wrong, _long_output_wrong, _short_salt_ignored."},
 {"property": "C56", "status": "proved", "theorems": ["Kripto.Props.C56_mac", "Kripto.Props.C56_standard", "Kripto.Props.C56_key_part", "Kripto.Props.C56_short_keys_ignored", "Kripto.Props.C56_wrong"], "note": "Negative results: C56_short_keys_ignored, C56_wrong."},
 {"property": "C57", "status": "proved", "theorems": ["Kripto.Props.C57_ecb", "Kripto.Props.C57_cbc", "Kripto.Props.C57_cfb", "Kripto.Props.C57_ofb", "Kripto.Props.C57_ctr", "Kripto.Props.C57_always", "Kripto.Props.C57_law"], "note": ""},
 {"property": "C58", "status": "proved", "theorems": ["Kripto.Props.C58_test", "Kripto.Props.C58_fails"], "note": "Proves the defect: every sample fails."},
 {"property": "C59", "status": "proved", "theorems": ["Kripto.Props.C59_idea", "Kripto.Props.C59_seed", "Kripto.Props.C59_sm4", "Kripto.Props.C59_gost", "Kripto.Props.C59_gost_cbr", "Kripto.Props.C59_gost_r34", "Kripto.Props.C59_magma", "Kripto.Props.C59_magma_vector", "Kripto.Props.C59_magma_wrong", "Kripto.Props.C59_rc2", "Kripto.Props.C59_skipjack", "Kripto.Props.C59_skipjack_vector", "Kripto.Props.C59_skipjack_wrong"], "note": "Negative results: C59_magma_wrong, C59_skipjack_wrong."},
 {"property": "C60", "status": "proved", "theorems": ["Kripto.Props.C60_noekeon", "Kripto.Props.C60_serpent", "Kripto.Props.C60_rectangle", "Kripto.Props.C60_threeway", "Kripto.Props.C60_camellia"], "note": ""},
 {"property": "C61", "status": "proved", "theorems": ["Kripto.Props.C61_aria", "Kripto.Props.C61_aria_wrong", "Kripto.Props.C61_khazad", "Kripto.Props.C61_anubis", "Kripto.Props.C61_twofish", "Kripto.Props.C61_twofish_wrong"], "note": "Negative results: C61_aria_wrong, C61_twofish_wrong."},
 {"property": "C62", "status": "proved", "theorems": ["Kripto.Props.C62_safer", "Kripto.Props.C62_safer_sk", "Kripto.Props.C62_safer_sk_default", "Kripto.Props.C62_saferpp", "Kripto.Props.C62_blowfish", "Kripto.Props.C62_blowfish_pi", "Kripto.Props.C62_cast5", "Kripto.Props.C62_cast5_middle", "Kripto.Props.C62_cast5_wrong"], "note": "Negative result: C62_cast5_wrong. C62_blowfish_pi is a statement about the real number pi."},
 {"property": "C63", "status": "proved", "theorems": ["Kripto.Props.C63_block", "Kripto.Props.C63_block_rounds", "Kripto.Props.C63_hash", "Kripto.Props.C63_stream", "Kripto.Props.C63_mac", "Kripto.Props.C63_xcbc_wrong", "Kripto.Props.C63_descriptor", "Kripto.Props.C63_gost_wrong"], "note": "malloc is a list of successes and failures, arbitrary. Negative results: C63_xcbc_wrong, C63_gost_wrong."},
 {"property": "C64", "status": "proved", "theorems": ["Kripto.Props.C64_eax", "Kripto.Props.C64_eax_rekey", "Kripto.Props.C64_eax2", "Kripto.Props.C64_eax2_rekey", "Kripto.Props.C64_kdf", "Kripto.Props.C64_kdf_skein", "Kripto.Props.C64_random", "Kripto.Props.C64_eax_rekey_leaks", "Kripto.Props.C64_eax2_rekey_leaks", "Kripto.Props.C64_pbkdf2_aborts", "Kripto.Props.C64_random_reseed_leaks", "Kripto.Props.C64_random_gen_leaks"], "note": "Negative results: C64_*_leaks, C64_pbkdf2_aborts."},
 {"property": "C65", "status": "proved", "theorems": ["Kripto.Props.C65_determined", "Kripto.Props.C65_word16", "Kripto.Props.C65_load16_array", "Kripto.Props.C65_store16_array", "Kripto.Props.C65_word32", "Kripto.Props.C65_load32_array", "Kripto.Props.C65_store32_array", "Kripto.Props.C65_word64", "Kripto.Props.C65_load64_array", "Kripto.Props.C65_store64_array", "Kripto.Props.C65_load_array_nonzero_wrong", "Kripto.Props.C65_macro_wrong", "Kripto.Props.C65_rotate_x86", "Kripto.Props.C65_rotate_portable", "Kripto.Props.C65_rotate_zero"], "note": "Negative results: C65_load_array_nonzero_wrong, C65_macro_wrong, and the undefined cases of C65_rotate_zero."},
 {"property": "C66", "status": "proved", "theorems": ["Kripto.Props.C66_sizes", "Kripto.Props.C66_padded", "Kripto.Props.C66_threeway_wrong", "Kripto.Props.C66_empty_wrong"], "note": "Negative results: C66_threeway_wrong, C66_empty_wrong."},
 {"property": "C67", "status": "proved", "theorems": ["Kripto.Props.C67_create", "Kripto.Props.C67_gen", "Kripto.Props.C67_history", "Kripto.Props.C67_endless", "Kripto.Props.C67_environment_decides", "Kripto.Props.C67_end", "Kripto.Props.C67_null"], "note": "stdio's buffering is not modelled. C67_environment_decides proves that the environment determines the output."},
 {"property": "C68", "status": "proved", "theorems": ["Kripto.Props.C68_live", "Kripto.Props.C68_block", "Kripto.Props.C68_stream", "Kripto.Props.C68_hash", "Kripto.Props.C68_mac", "Kripto.Props.C68_ae", "Kripto.Props.C68_rounds", "Kripto.Props.C68_rounds_ignored", "Kripto.Props.C68_rectangle_overrun", "Kripto.Props.C68_shacal2_overrun", "Kripto.Props.C68_long_key_wrong", "Kripto.Props.C68_empty_key_wrong", "Kripto.Props.C68_cbc_odd_length_wrong"], "note": "The descriptor without assertions is any one whose functions agree with the original where that does not abort. Negative results: C68_*_wrong, C68_rounds_ignored, C68_*_overrun."},
 {"property": "C69", "status": "proved", "theorems": ["Kripto.Props.C69_ecb", "Kripto.Props.C69_cbc", "Kripto.Props.C69_cbc_iv", "Kripto.Props.C69_cbc_seek", "Kripto.Props.C69_cfb", "Kripto.Props.C69_keystream", "Kripto.Props.C69_ctr_seek"], "note": "CFB in the form that C22 proves of the library: one call per block, with room behind the message."},
 {"property": "C70", "status": "proved", "theorems": ["Kripto.Props.C70_md5", "Kripto.Props.C70_sha1", "Kripto.Props.C70_sha256", "Kripto.Props.C70_sha512", "Kripto.Props.C70_tiger", "Kripto.Props.C70_whirlpool", "Kripto.Props.C70_secret_prefix"], "note": "SHA-256 and SHA-512 with the standard number of rounds. The truncated SHA-224 and SHA-384 do not reveal their whole state and are left out."},
 {"property": "C71", "status": "proved", "theorems": ["Kripto.Props.C71_rc5", "Kripto.Props.C71_rc6", "Kripto.Props.C71_x86", "Kripto.Props.C71_cast5", "Kripto.Props.C71_rc5_every_key_undefined", "Kripto.Props.C71_rc6_every_key_undefined", "Kripto.Props.C71_create_undefined", "Kripto.Props.C71_defined", "Kripto.Props.C71_md5"], "note": "Negative results: C71_*_undefined and the first case of C71_cast5. C71_x86 identifies the descriptors with those of the other properties."},
 {"property": "C72", "status": "proved", "theorems": ["Kripto.Props.C72_confined", "Kripto.Props.C72_schedules", "Kripto.Props.C72_deterministic"], "note": "A call is one step of a schedule. The theorems need no assumption about the arguments: a call that is not proper ends the run alone."},
 {"property": "C73", "status": "proved", "theorems": ["Kripto.Props.C73_des", "Kripto.Props.C73_gost", "Kripto.Props.C73_idea"], "note": "The known exceptional keys of these three ciphers; nothing is claimed about the strength of other keys."},
 {"property": "C74", "status": "proved", "theorems": ["Kripto.Props.C74_equals_same", "Kripto.Props.C74_equals", "Kripto.Props.C74_mac_verify_same", "Kripto.Props.C74_mac_verify", "Kripto.Props.C74_ae_verify_same", "Kripto.Props.C74_ae_verify", "Kripto.Props.C74_wipe_same", "Kripto.Props.C74_wipe", "Kripto.Props.C74_pkcs7_add_same", "Kripto.Props.C74_pkcs7_add", "Kripto.Props.C74_pkcs7_rem_same", "Kripto.Props.C74_pkcs7_rem", "Kripto.Props.C74_pkcs7_rem_wrong"], "note": "Steps are loads, stores and tests of the C text in `Model/Trace.lean`; C74_*_same prove that the recorded functions are those of the other properties. What a compiler makes of it is not modelled. Negative result: C74_pkcs7_rem_wrong."},
 {"property": "C75", "status": "proved", "theorems": ["Kripto.Props.C75_ofb", "Kripto.Props.C75_rc4"], "note": "CTR mode is C25."},
 {"property": "C76", "status": "proved", "theorems": ["Kripto.Props.C76_omac", "Kripto.Props.C76_xcbc", "Kripto.Props.C76_xcbc_aes", "Kripto.Props.C76_eax"], "note": "Tags of the length of a block; nothing is claimed about changes of several blocks."},
 {"property": "C77", "status": "proved", "theorems": ["Kripto.Props.C77_ecb", "Kripto.Props.C77_cbc", "Kripto.Props.C77_cbc_collision", "Kripto.Props.C77_cfb"], "note": "Messages of whole blocks."},
 {"property": "C78", "status": "proved", "theorems": ["Kripto.Props.C78_hash_all", "Kripto.Props.C78_mac_all", "Kripto.Props.C78_pbkdf2", "Kripto.Props.C78_pbkdf2_block", "Kripto.Props.C78_pbkdf2_salt", "Kripto.Props.C78_pbkdf2_salt_wrong", "Kripto.Props.C78_scrypt"], "note": "For streams see C28, for blocks C15. Negative result: C78_pbkdf2_salt_wrong."},
 {"property": "C79", "status": "proved", "theorems": ["Kripto.Props.C79_threefish256", "Kripto.Props.C79_threefish512", "Kripto.Props.C79_threefish1024", "Kripto.Props.C79_trax_m", "Kripto.Props.C79_trax_l"], "note": "Re-keying with another number of rounds is undefined for TRAX, see C14; tweaks that are too long, C54."},
 {"property": "C80", "status": "proved", "theorems": ["Kripto.Props.C80_hash", "Kripto.Props.C80_hash_object", "Kripto.Props.C80_mac_object", "Kripto.Props.C80_omac", "Kripto.Props.C80_xcbc_aes", "Kripto.Props.C80_sha2_256", "Kripto.Props.C80_sha2_512", "Kripto.Props.C80_blake256", "Kripto.Props.C80_blake512", "Kripto.Props.C80_blake2s", "Kripto.Props.C80_blake2b", "Kripto.Props.C80_hmac_wrong", "Kripto.Props.C80_hmac_sha1_wrong"], "note": "Negative results: C80_hmac_wrong, C80_hmac_sha1_wrong, C80_sha2_256 etc. For PBKDF2 see C51_prefix and C51_short_wrong, for EAX C47."},
 {"property": "C81", "status": "proved", "theorems": ["Kripto.Props.C81_mac_verify", "Kripto.Props.C81_mac_forgery", "Kripto.Props.C81_ae_verify", "Kripto.Props.C81_ae_forgery", "Kripto.Props.C81_random_create", "Kripto.Props.C81_random_gen"], "note": "A negative result about secrecy: the functions do not wipe these arrays. The lines that do wipe local arrays (key schedules, compression functions, PBKDF2) are not modelled."},
 {"property": "C82", "status": "proved", "theorems": ["Kripto.Props.C82_ofb", "Kripto.Props.C82_ctr", "Kripto.Props.C82_ctr_nonce", "Kripto.Props.C82_cbc", "Kripto.Props.C82_cfb"], "note": "For the same IV see C77; within one keystream C25 and C75."},
 {"property": "C83", "status": "proved", "theorems": ["Kripto.Props.C83_speck32", "Kripto.Props.C83_speck64", "Kripto.Props.C83_speck128", "Kripto.Props.C83_xtea", "Kripto.Props.C83_idea_mul", "Kripto.Props.C83_idea", "Kripto.Props.C83_rc4"], "note": "As in C74 the steps are those of the C source; a compiler may change them. Key schedules and other ciphers are not covered."},
 {"property": "C84", "status": "proved", "theorems": ["Kripto.Props.C84_chacha", "Kripto.Props.C84_salsa20"], "note": "As in C74 the steps are those of the C source; the setup with the key is not covered."},
 {"property": "C85", "status": "proved", "theorems": ["Kripto.Props.C85_first", "Kripto.Props.C85_key", "Kripto.Props.C85_aes128"], "note": "A negative result about side channels; as in C74 the steps are those of the C source. What a cache attack really sees (lines rather than addresses) is not modelled."},
 {"property": "C86", "status": "proved", "theorems": ["Kripto.Props.C86_rc5", "Kripto.Props.C86_rc6", "Kripto.Props.C86_simon32", "Kripto.Props.C86_simon64", "Kripto.Props.C86_simon128", "Kripto.Props.C86_lea", "Kripto.Props.C86_tea", "Kripto.Props.C86_noekeon"], "note": "As in C74 the steps are those of the C source, and rotations by a variable number of bits count as operations without steps. The key schedules are not covered."},
 {"property": "C87", "status": "proved", "theorems": ["Kripto.Props.C87_key"], "note": "A negative result about side channels, as C85; the order in which the C compiler evaluates the four lookups of one round is fixed to that of the source."}
]}
