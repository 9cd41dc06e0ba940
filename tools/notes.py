NOTE.update({
 "C01": "All lengths, any two valid ranges, overlapping or not. Timing is not modelled.",
 "C02": "All lengths and addresses; an invalid range is undefined behaviour. That a compiler keeps the stores is not modelled.",
 "C05": "C05_pkcs7_rem_empty proves that an empty buffer is read out of bounds.",
 "C15": "C15_frame and C15_commute are stated for every cipher of the library (Spec/BlockLib.lean) and every state reached by creation.",
 "C16": "The standard is Spec/Aes.lean. C16_rcon_wrong proves the deviation beyond 51 round constants.",
 "C17": "Published definitions in Spec/{Tea,SimonSpeck,Rc,Lea,Shacal2,Threefish,Alzette}.lean. RC5 and RC6 with keys longer than the expanded key deviate: C17_rc5_long_wrong, C17_rc6_long_wrong.",
 "C18": "The standard is Spec/Des.lean (tables of FIPS 46-3).",
 "C19": "Each pair of keys is shown to give the same encryption and decryption of every block; for RC4 the same keystream, for HMAC the same tags (for every hash function with a Computes theorem), for PBKDF2 the same derived keys. C19_*_zeros are the ciphers that zero-fill short keys.",
 "C21": "For any block cipher object whose encryption and decryption are total and inverse.",
 "C23": "For any block cipher object whose encryption is total.",
 "C24": "For any block cipher object whose encryption is total.",
 "C25": "C25_ctr_period proves the short period, C25_ctr_no_early_repeat that there is none shorter.",
 "C26": "For Keccak-800 and Skein too, although those streams are not the published ones (C33, C34, C40).",
 "C27": "ECB and CBC offer no prng call (C27_ecb_cbc_none).",
 "C30": "C30_standard and C30_constants tie the described keystream to the published quarter-round and constants.",
 "C31": "C31_nonce_overlap proves the overlap of keystreams for RFC 8439 nonces.",
 "C33": "Negative results: C33_first_block_public, _first_block_not_encrypted, _short_keys_ignored, _uninitialised.",
 "C34": "C34_mac_shift proves the related-key identity of the MAC.",
 "C36": "Skein exceptions: C36_skein_one_piece, C36_skein_too_much; SHA-3 overread: C36_sha3 and C40_sha3_overread.",
 "C37": "Standards in Spec/{Md,Sha,Tiger,Whirlpool}.lean; length limits are those of the counters in the code.",
 "C38": "C38_collision derives a collision of the compression function from one of the digest.",
 "C40": "Negative results: C40_keccak800_wrong, C40_keccak800_constants, C40_sha3_overread, C40_*_range.",
 "C41": "Negative results: C41_blake2s_wrong, C41_blake2b_wrong, C41_blake256_wrong, C41_blake512_wrong.",
 "C43": "C43_truncation proves that a short tag is not a prefix of the long one, C43_second_tag the assertion failure.",
 "C44": "C44_library covers every block cipher and block size of the library.",
 "C45": "C45_aes_long proves that XCBC with AES keys of more than 16 bytes cannot be created.",
 "C47": "Keystream equality holds until the counter carries into its first byte (C25).",
 "C48": "Proves the defect: the tag depends on uninitialised memory (C48_rejects) and the keystream starts at the wrong block (C48_ciphertext_wrong).",
 "C49": "Negative results: C49_rejects, C49_iv_overflow, C49_not_created, C49_one_byte_key, C49_maxkey.",
 "C50": "C50_empty and C50_once prove the undefined empty tag and the single use.",
 "C51": "C51_short_wrong proves the deviation for short outputs.",
 "C52": "C52_undefined and C52_wrong prove that kripto_scrypt fails for cost at least 2; C52_smix proves the mixing function itself correct.",
 "C53": "Time, clock() and the surroundings are inputs of the model. C53_limit_wrong and C53_undefined prove the defects.",
 "C55": "Negative results: C55_full_block_wrong, _short_output_wrong, _long_output_wrong, _short_salt_ignored.",
 "C56": "Negative results: C56_short_keys_ignored, C56_wrong.",
 "C58": "Proves the defect: every sample fails.",
 "C59": "Negative results: C59_magma_wrong, C59_skipjack_wrong.",
 "C61": "Negative results: C61_aria_wrong, C61_twofish_wrong.",
 "C62": "Negative result: C62_cast5_wrong. C62_blowfish_pi is a statement about the real number pi.",
 "C63": "malloc is a list of successes and failures, arbitrary. Negative results: C63_xcbc_wrong, C63_gost_wrong.",
 "C64": "Negative results: C64_*_leaks, C64_pbkdf2_aborts.",
 "C65": "Negative results: C65_load_array_nonzero_wrong, C65_macro_wrong, and the undefined cases of C65_rotate_zero.",
 "C66": "Negative results: C66_threeway_wrong, C66_empty_wrong.",
 "C67": "stdio's buffering is not modelled. C67_environment_decides proves that the environment determines the output.",
 "C68": "The descriptor without assertions is any one whose functions agree with the original where that does not abort. Negative results: C68_*_wrong, C68_rounds_ignored, C68_*_overrun.",
 "C69": "CFB in the form that C22 proves of the library: one call per block, with room behind the message.",
 "C70": "SHA-256 and SHA-512 with the standard number of rounds. The truncated SHA-224 and SHA-384 do not reveal their whole state and are left out.",
 "C71": "Negative results: C71_*_undefined and the first case of C71_cast5. C71_x86 identifies the descriptors with those of the other properties.",
 "C72": "A call is one step of a schedule. The theorems need no assumption about the arguments: a call that is not proper ends the run alone.",
 "C73": "The known exceptional keys of these three ciphers; nothing is claimed about the strength of other keys.",
 "C74": "Steps are loads, stores and tests of the C text in `Model/Trace.lean`; C74_*_same prove that the recorded functions are those of the other properties. What a compiler makes of it is not modelled. Negative result: C74_pkcs7_rem_wrong.",
 "C75": "CTR mode is C25.",
 "C76": "Tags of the length of a block; nothing is claimed about changes of several blocks.",
 "C77": "Messages of whole blocks.",
 "C78": "For streams see C28, for blocks C15. Negative result: C78_pbkdf2_salt_wrong.",
 "C79": "Re-keying with another number of rounds is undefined for TRAX, see C14; tweaks that are too long, C54.",
 "C80": "Negative results: C80_hmac_wrong, C80_hmac_sha1_wrong, C80_sha2_256 etc. For PBKDF2 see C51_prefix and C51_short_wrong, for EAX C47.",
 "C81": "A negative result about secrecy: the functions do not wipe these arrays. The lines that do wipe local arrays (key schedules, compression functions, PBKDF2) are not modelled.",
 "C82": "For the same IV see C77; within one keystream C25 and C75.",
 "C83": "As in C74 the steps are those of the C source; a compiler may change them. Key schedules and other ciphers are not covered.",
 "C84": "As in C74 the steps are those of the C source; the setup with the key is not covered.",
 "C85": "A negative result about side channels; as in C74 the steps are those of the C source. What a cache attack really sees (lines rather than addresses) is not modelled.",
 "C87": "A negative result about side channels, as C85; the order in which the C compiler evaluates the four lookups of one round is fixed to that of the source.",
 "C86": "As in C74 the steps are those of the C source, and rotations by a variable number of bits count as operations without steps. The key schedules are not covered.",
})
