#!/usr/bin/env python3
"""Writes /verif/properties.jsonl.  Edit the table below, then re-run."""
import json, os
P = []
def p(id, title, statement, quantifier, why, anchors):
    P.append(dict(id=id, title=title, statement=statement, quantifier=quantifier,
                  why_tests_cant=why, anchors=anchors))

# ---------------------------------------------------------------- memory, padding, words
p("C01","Constant-time comparison decides equality",
  "kripto_memory_equals(a, b, n) returns non-zero exactly when the n bytes at a and at b are pairwise equal, for every n including 0.",
  "all lengths n and all contents of both buffers",
  "2^(16n) pairs of buffers for every n; a fold that dropped one byte or one bit passes almost every sampled test",
  ["lib/memory.c: kripto_memory_equals"])
p("C02","Wipe zeroes exactly the requested range",
  "After kripto_memory_wipe(s, n) the n bytes at s are all zero and every other byte of memory is unchanged.",
  "all memories, addresses and lengths",
  "the frame condition ranges over all other addresses",
  ["lib/memory.c: kripto_memory_wipe"])
p("C03","PKCS#7 padding is correct and stays inside the buffer",
  "For a block size that is a power of two at most 128, kripto_pkcs7_add either returns 0 and changes nothing (exactly when the padded length would exceed the buffer size) or returns the smallest multiple of the block size greater than len, writing only the bytes from len to the new length, each with the number of padding bytes. For block sizes that are not a power of two the returned length need not be a multiple of the block size.",
  "all buffers, lengths, maximum lengths and block sizes",
  "depends on arithmetic relation of four unbounded numbers; boundary cases at every multiple of every block size",
  ["lib/pkcs7.c: kripto_pkcs7_add"])
p("C04","PKCS#7 remove undoes add",
  "For every non-empty message kripto_pkcs7_rem applied to the result of kripto_pkcs7_add returns the original message length; for the empty message it returns the padded length instead (the code compares with < where <= is needed).",
  "all messages and block sizes",
  "the law fails only for one message length (the empty message: rem returns the padded length); sampled tests miss it",
  ["lib/pkcs7.c: kripto_pkcs7_add, kripto_pkcs7_rem"])
p("C05","PKCS#7 remove is total on non-empty buffers and never grows them",
  "On any non-empty buffer kripto_pkcs7_rem returns a length not larger than the buffer and does not look at any byte but the last; it accepts malformed padding, so it cannot be used to detect corruption; on an empty buffer it reads before the buffer.",
  "all buffers",
  "adversarial buffers are unbounded",
  ["lib/pkcs7.c: kripto_pkcs7_rem"])
p("C06","Byte-order loads and stores are mutually inverse and portable",
  "For each width and byte order, storing a word and loading it gives the word back, loading and storing gives the bytes back, big- and little-endian forms are each other's byte reversal, the value is the positional value of the bytes, and the partial-array load/store macros agree with the word forms.",
  "all words and byte strings",
  "2^64 words per macro",
  ["include/kripto/loadstore.h: LOAD16B..LOAD64L, STORE16B..STORE64L, LOAD*_ARRAY, STORE*_ARRAY"])
p("C07","Rotations",
  "Rotating left then right by the same count restores the word; the count is taken modulo the word width; the portable macro with a count that is 0 modulo the width shifts by the full width (undefined behaviour in C).",
  "all words and counts",
  "2^64 x 2^32 argument pairs",
  ["include/kripto/rotate.h: ROL*, ROR*"])

# ---------------------------------------------------------------- block ciphers
p("C08","Block decryption undoes encryption: ARX ciphers",
  "For TEA, XTEA, RC5, RC6, Speck32/64/128, Simon32/64/128, SHACAL-2, Threefish-256/512/1024, CRAX-S, TRAX-M, TRAX-L and LEA: for every key (and tweak) the API accepts and the default number of rounds, decrypting the encryption of any block gives the block back. The one exception is Speck with a key that fits in a single word, where creation divides by zero (C13).",
  "all keys, tweaks and blocks",
  "at least 2^32 blocks times 2^64 keys per cipher",
  ["lib/block/tea.c","lib/block/xtea.c","lib/block/rc5.c","lib/block/rc6.c","lib/block/speck32.c","lib/block/speck64.c","lib/block/speck128.c","lib/block/simon32.c","lib/block/simon64.c","lib/block/simon128.c","lib/block/shacal2.c","lib/block/threefish256.c","lib/block/threefish512.c","lib/block/threefish1024.c","lib/block/crax_s.c","lib/block/trax_m.c","lib/block/trax_l.c","lib/block/lea.c"])
p("C09","Block decryption undoes encryption: Feistel-type ciphers with tables",
  "For DES/3DES, Blowfish, CAST5, Camellia, GOST, SEED, SM4, Twofish, Skipjack and RC2: for every accepted key and the default number of rounds, decrypting the encryption of any block gives the block back.",
  "all keys and blocks",
  "2^64 blocks times 2^40..2^448 keys per cipher",
  ["lib/block/des.c","lib/block/blowfish.c","lib/block/cast5.c","lib/block/camellia.c","lib/block/gost.c","lib/block/seed.c","lib/block/sm4.c","lib/block/twofish.c","lib/block/skipjack.c","lib/block/rc2.c"])
p("C10","Block decryption undoes encryption: substitution-permutation ciphers",
  "For Rijndael-128/256, Anubis, Khazad, ARIA, Serpent, Noekeon, 3-Way, Rectangle, IDEA, SAFER K/SK and SAFER++: for every accepted key and the default number of rounds, decrypting the encryption of any block gives the block back. Exceptions, where creation reads outside an array (C13): Rijndael-256 with a key of at most 8 bytes, SAFER K/SK with a key not of 8 or 16 bytes and SAFER++ with a key not of 16 or 32 bytes.",
  "all keys and blocks",
  "2^64..2^256 blocks times 2^64..2^512 keys; correctness of merged table look-ups rests on linearity over the whole table domain",
  ["lib/block/rijndael.c","lib/block/anubis.c","lib/block/khazad.c","lib/block/aria.c","lib/block/serpent.c","lib/block/noekeon.c","lib/block/3way.c","lib/block/rectangle.c","lib/block/idea.c","lib/block/safer.c","lib/block/saferpp.c"])
p("C11","Encryption under a fixed key is a permutation of blocks",
  "For every cipher of C08-C10 under its stated conditions, block encryption is injective and every block is the encryption of exactly one block; encryption after decryption is also the identity.",
  "all keys and pairs of blocks",
  "pairs of 2^128 blocks",
  ["lib/block/*.c: *_encrypt, *_decrypt"])
p("C12","Which explicit round counts keep a cipher invertible",
  "The API lets the caller choose the number of rounds. For each cipher there is a condition on the round count under which decryption undoes encryption for every key and block and no memory outside the object is touched. Outside it either the round trip fails (XTEA odd, 3-Way other than 11; for Threefish with an odd number of 4-round groups, Twofish and ARIA with an odd number of rounds there are keys and blocks for which it fails) or the code reads outside its key array (LEA not a multiple of 4, SHACAL-2 not a multiple of 8, SM4 not a multiple of 4 or above 32, Noekeon above 33, ...).",
  "all round counts, keys and blocks",
  "unbounded parameter; tests use default rounds",
  ["lib/block/*.c: rounds parameter of kripto_block_create"])
p("C13","Key schedules never touch memory outside their arrays",
  "For each modelled cipher, creation with any key length the API accepts and any round count in the stated range performs only in-bounds array accesses and no division by zero. Speck with a key that fits in one word divides by zero; Simon with fewer rounds than key words, Rijndael-256 with a key of at most 8 bytes, SAFER K/SK with a key not of 8 or 16 bytes and SAFER++ with a key not of 16 or 32 bytes go out of bounds.",
  "all key lengths, keys and round counts",
  "the failing lengths are not in any published test vector",
  ["lib/block/*.c: *_setup, *_create"])
p("C14","Re-keying is equivalent to a fresh object",
  "kripto_block_recreate with the same effective number of rounds leaves the object in a state indistinguishable from a newly created one, whatever keys were used before. With a different effective round count ciphers that reallocate read the freed object.",
  "all histories of create/recreate/encrypt/decrypt calls, keys and blocks",
  "quantifies over histories",
  ["lib/block.c: kripto_block_recreate","lib/block/*.c: *_recreate"])
p("C15","Block calls depend only on the block and may be done in place",
  "A block call reads its whole input block before it writes any output byte, so input and output may be the same buffer; it writes exactly one block and leaves the object unchanged, so calls commute.",
  "all memories, addresses and blocks",
  "frame condition over all memory",
  ["lib/block/*.c: *_encrypt, *_decrypt","lib/block.c"])
p("C16","AES is FIPS-197",
  "Rijndael-128 as created with a 16, 24 or 32 byte key and default rounds computes exactly the FIPS-197 cipher (SubBytes, ShiftRows, MixColumns, AddRoundKey, KeyExpansion defined from GF(2^8) arithmetic), and its decryption is the inverse of that function on both sides. For other key lengths (zero-filled to words) and explicit rounds, and for 256-bit blocks, the Rijndael function of that many rounds is computed as long as no more than 52 words of expanded key per word of key are needed. Beyond that it is not: the table of round constants lacks its 52nd value. CTR, CMAC (RFC 4493) and XCBC-MAC (RFC 3566) over AES are the standards' functions of the FIPS-197 cipher.",
  "all keys of all lengths, all rounds and all blocks",
  "2^256 keys x 2^128 blocks; table-based rounds agree with the algebraic definition only by linearity",
  ["lib/block/rijndael.c: rijndael_setup, rijndael128_encrypt, rijndael256_encrypt, rcon"])
p("C17","ARX ciphers implement their published definitions",
  "TEA, XTEA, Speck, Simon, RC5, RC6, Threefish, SHACAL-2, LEA, CRAX-S, TRAX-M and TRAX-L (with every tweak) compute, for every key of the standard sizes and every block, the function given by their published definition.",
  "all keys and blocks",
  "as C08",
  ["lib/block/tea.c","lib/block/xtea.c","lib/block/speck64.c","lib/block/simon64.c","lib/block/rc5.c","lib/block/threefish256.c","lib/block/crax_s.c","lib/block/trax_m.c","lib/block/trax_l.c"])
p("C18","DES and triple DES are FIPS 46-3, and their symmetries",
  "With keys of up to 8 bytes the DES object computes DES of FIPS 46-3, with keys of 9 to 16 bytes two-key and with 17 to 24 bytes three-key triple DES, the last key zero-filled, whatever number of rounds is asked for. DES ignores the parity bits of its key; complementing key and plaintext complements the ciphertext; triple DES with equal parts is single DES; 16-byte keys give two-key triple DES.",
  "all keys of all lengths, rounds and blocks",
  "2^120 pairs",
  ["lib/block/des.c"])
p("C19","Equivalent keys",
  "For TEA, flipping the top bits of the first two (or last two) key words gives the same cipher, so every key has three other keys with the same effect; for TEA, Noekeon, 3-Way, SEED, IDEA, CRAX-S, TRAX, Threefish, CAST5, Rijndael and the other ciphers that zero-fill short keys, a key and the key extended by zero bytes give the same cipher when the round count and the number of key words stay the same. A Serpent key of less than 32 bytes is the 32-byte key with a byte 1 and zeros appended, a 24-byte Camellia key is the 32-byte key ending in the complement of its last eight bytes, and Blowfish, RC4 and (with equal round counts) SAFER take a key and its repetitions for the same. HMAC gives the same tags for a key and the key with zero bytes appended up to the block length, and for a key longer than a block and its hash; so PBKDF2 derives the same keys. Callers must not rely on distinct keys giving distinct permutations, keystreams or tags.",
  "all keys and blocks",
  "universally quantified equality of functions",
  ["lib/block/tea.c","lib/block/threefish256.c","lib/block/simon64.c","lib/block/camellia.c","lib/block/serpent.c","lib/block/blowfish.c","lib/block/safer.c","lib/stream/rc4.c","lib/mac/hmac.c","lib/pbkdf2.c"])

# ---------------------------------------------------------------- stream modes
p("C20","ECB mode", "Encrypting then decrypting any whole number of blocks in ECB mode restores the data and ECB acts on each block independently as the block cipher.",
  "all lawful block ciphers, keys and data", "unbounded data", ["lib/stream/ecb.c"])
p("C21","CBC mode", "CBC encryption is the textbook chaining of the block cipher with the zero-padded IV, decryption restores the data, also when both calls are split at block boundaries in different ways and when done in place.",
  "all lawful block ciphers, IVs, data and splittings", "unbounded data and splittings", ["lib/stream/cbc.c"])
p("C22","CFB mode", "CFB encryption is textbook full-block CFB for every splitting of the data. Decryption restores the data when it is done with one call per block, into buffers that do not overlap the input and have room for a whole block; decrypting two blocks in one call returns data that depends on the previous contents of the output buffer, and decrypting into a buffer shorter than a block writes past its end.",
  "all lawful block ciphers, IVs, data and splittings", "the failing path needs multi-block calls with output buffer semantics", ["lib/stream/cfb.c"])
p("C23","OFB mode", "OFB is the xor of the data with the iterated encryption of the IV; decryption equals encryption; it restores the data under any splitting.",
  "all lawful block ciphers, IVs, data and splittings", "unbounded data and splittings", ["lib/stream/ofb.c"])
p("C24","CTR mode", "CTR is the xor of the data with the encryption of successive counter blocks starting from the zero-padded IV; decryption equals encryption; it restores the data under any splitting.",
  "all lawful block ciphers, IVs, data and splittings", "unbounded data and splittings", ["lib/stream/ctr.c"])
p("C25","CTR counter blocks do not repeat within the period", "With block size b, any two counter blocks fewer than 256^(b-1) blocks apart are different, and since the first byte never receives a carry the counter repeats exactly after 256^(b-1) blocks instead of 256^b.",
  "all IVs and positions", "2^120 positions", ["lib/stream/ctr.c"])
p("C26","Keystream independence of call boundaries", "For OFB, CTR, Salsa20, ChaCha, RC4, Keccak and Skein streams: any sequence of encrypt calls on consecutive pieces gives the same bytes as one call on the whole; encrypt, decrypt and prng calls may be interleaved and all consume the same keystream.",
  "all call histories and piece lengths", "quantifies over histories", ["lib/stream/ofb.c","lib/stream/ctr.c","lib/stream/salsa20.c","lib/stream/chacha.c","lib/stream/rc4.c","lib/stream/keccak.c"])
p("C27","prng is the encryption of zeros", "For every stream that offers it, kripto_stream_prng writes the same bytes as encrypting that many zero bytes and leaves the stream in the same state (for Keccak: in the same position of the keystream).",
  "all states and lengths", "quantifies over states", ["lib/stream/*.c: *_prng"])
p("C28","In-place stream operation", "For ECB, CBC, OFB, CTR, Salsa20, ChaCha, RC4, Keccak and Skein, encrypting or decrypting with source and destination the same buffer gives the same result as with disjoint buffers, and no byte outside the destination is changed. CFB decryption in place is wrong.",
  "all memories, addresses, states and lengths", "frame condition and aliasing over all memory", ["lib/stream/ecb.c","lib/stream/cbc.c","lib/stream/cfb.c","lib/stream/ofb.c","lib/stream/ctr.c"])
p("C29","Short IVs are zero padded", "A stream created with an IV shorter than the block is the same as one created with the IV extended by zero bytes; hence such IVs collide.",
  "all IVs", "universally quantified equality", ["lib/stream/cbc.c","lib/stream/ctr.c","lib/stream/ofb.c","lib/stream/cfb.c"])
p("C30","Salsa20 keystream", "For every key of 1 to 32 bytes, nonce of at most 24 bytes (over 8 bytes: XSalsa20) and number of rounds, the stream is exactly the Salsa20 keystream of the specification for the first 2^64-1 blocks, whatever the calls that consume it, after which the call aborts instead of repeating the keystream. Recreating an object after any history starts afresh.",
  "all keys, nonces, round counts, positions and call histories", "2^64 positions", ["lib/stream/salsa20.c"])
p("C31","ChaCha keystream", "For every key of 1 to 32 bytes, nonce of at most 24 bytes and number of rounds, the stream is exactly the ChaCha keystream of the specification (8-byte nonces: 64-bit counter; 12-byte nonces: RFC 8439; over 12: XChaCha) until the 64-bit counter is exhausted, after which the call aborts. With 12-byte nonces the 32-bit counter of the RFC overflows into the nonce, so that keystreams of different nonces overlap.",
  "all keys, nonces, round counts, positions and call histories", "2^64 positions", ["lib/stream/chacha.c"])
p("C32","RC4 state is always a permutation", "After any key and any history of calls the RC4 table is a permutation of 0..255, all indices stay in range, and the output is the RC4 keystream after the requested number of dropped bytes.",
  "all keys and histories", "256! states", ["lib/stream/rc4.c"])
p("C33","What the Skein streams are", "A Skein-256/512/1024 stream has an exactly described keystream of N*2^64 bytes (N the block size), whatever the calls that consume it, but it is not that of the Skein specification: its first N bytes do not depend on the key (they are the configuration block, or the IV itself if it has N bytes, so that the first block of a message is not encrypted); of a key shorter than N only the bytes from number N-length on count, so that keys of at most N/2 bytes are ignored altogether and uninitialised memory decides instead; of a longer key only the first N bytes count. With a key of N bytes and an IV of 0 or N bytes the rest of the keystream is that of Skein. Recreate starts afresh, and for keys of at least N bytes gives the same object as create.",
  "all keys, IVs, initial memory contents, positions and call histories", "equality over all pairs of keys; 2^64 positions; uninitialised memory", ["lib/stream/skein256.c","lib/stream/skein512.c","lib/stream/skein1024.c"])
p("C34","Keccak stream and MAC absorb key and data without separation", "The keystream of a Keccak stream with key k and IV v is the sponge output on k||v with a capacity of twice the key length; the Keccak MAC does not separate key from message: for every key k and data a, an object for the key k||a is an object for k that has read a, so the tag of a||b under k equals that of b under k||a.",
  "all keys, IVs, messages, splits and call histories", "universally quantified equality; unbounded messages and histories", ["lib/stream/keccak.c","lib/mac/keccak.c"])

# ---------------------------------------------------------------- hashes
p("C35","Hashing does not depend on how input is split", "For MD5, SHA-1, SHA-2-256, SHA-2-512, Tiger, Whirlpool, BLAKE, BLAKE2, Keccak, SHA-3 and Skein: feeding a message in any pieces gives the same digest as feeding it at once, and equals the one-shot call.",
  "all messages and splittings", "unbounded messages, exponentially many splittings", ["lib/hash/*.c: *_input","lib/hash.c: kripto_hash_all"])
p("C36","Digest output in pieces", "Requesting the digest in several pieces gives the consecutive pieces of the whole digest, and requesting more than the digest aborts rather than reading outside. Exceptions: Keccak output has no end; SHA-3 goes on with the rest of its 200-byte state and then reads out of bounds; Skein can only be asked once: a second output call fails an assertion if the digest has the size of a block, and is not limited at all if it is shorter.",
  "all states and splittings of the output", "exponentially many splittings", ["lib/hash/*.c: *_output"])
p("C37","MD5, SHA-1 and SHA-2 are the standard functions", "For every message below the length limit the digest equals the function of RFC 1321 / FIPS 180-4, stated independently by message padding, schedule and compression recurrences.",
  "all messages up to 2^61-1 bytes", "unbounded messages; padding boundary cases at every block", ["lib/hash/md5.c","lib/hash/sha1.c","lib/hash/sha2_256.c","lib/hash/sha2_512.c"])
p("C38","Merkle-Damgard padding is injective", "Two different messages (within the length limit) never give the same sequence of padded blocks, so a digest collision implies a compression-function collision.",
  "all pairs of messages", "pairs of unbounded messages", ["lib/hash/md5.c","lib/hash/sha1.c","lib/hash/sha2_256.c","lib/hash/sha2_512.c","lib/hash/tiger.c","lib/hash/whirlpool.c"])
p("C39","Hash objects can be reused", "After kripto_hash_recreate an object is indistinguishable from a new one whatever was hashed before.",
  "all histories", "quantifies over histories", ["lib/hash.c","lib/hash/*.c: *_recreate"])
p("C40","Keccak and SHA-3 are sponges", "With the default number of rounds the output of Keccak-1600 and the digest of SHA-3 equal the sponge functions of FIPS 202 (state as 25 lanes, rate 200-2n, pad10*1, Keccak-f with theta, rho, pi, chi, iota) for every message, digest length in range and sequence of calls. Keccak-800 never does: its round constants are wrong, and so is its default number of rounds. Output lengths of half the state or more and more rounds than there are constants make every call access memory out of bounds.",
  "all messages, digest lengths, round counts and call histories", "unbounded messages", ["lib/hash/keccak1600.c","lib/hash/keccak800.c"])
p("C41","BLAKE2 and BLAKE digests", "For every message, salt, digest length and splitting, BLAKE2b/2s digests equal RFC 7693 when the message is empty or its length is not a multiple of the block size; for a non-empty multiple of the block the code hashes one zero block more, and the digest is not the standard one. BLAKE-224/256/384/512 digests equal the published ones when the padding does not need a block of its own; otherwise the code uses a counter that the specification sets to 0, and the digest is not the published one.",
  "all messages", "the failing lengths are sparse", ["lib/hash/blake2b.c","lib/hash/blake2s.c","lib/hash/blake256.c","lib/hash/blake512.c"])

# ---------------------------------------------------------------- MACs
p("C42","MAC verification accepts exactly the right tag", "kripto_mac_verify returns success exactly when the given bytes equal the tag that kripto_mac_tag would produce at that point.",
  "all MAC objects, histories, tags and tag lengths", "2^(8n) tags", ["lib/mac.c: kripto_mac_verify"])
p("C43","HMAC", "For a full-length tag HMAC over the hash functions with a fixed block size (MD5, SHA-1, SHA-2, Tiger, Whirlpool) equals RFC 2104 for every key and message, however the message is cut into pieces; for a tag of n bytes it is the HMAC of the hash function truncated to n bytes, so not the truncation of the full tag; with SHA-3 the block size is 200 bytes and not the rate; after a full tag a second tag call fails an assertion.",
  "all keys, messages, splittings, tag lengths and histories before a recreate call", "unbounded messages and keys", ["lib/mac/hmac.c"])
p("C44","OMAC is CMAC", "OMAC over any block cipher of the library (block sizes 4, 8, 12, 16, 32, 64 and 128 bytes) equals CMAC (NIST SP 800-38B: subkeys by doubling in GF(2^n)) for every key, message and splitting of the message.",
  "all lawful block ciphers, keys, messages, splittings and histories before a recreate call", "unbounded messages", ["lib/mac/omac.c"])
p("C45","XCBC", "XCBC-MAC equals RFC 3566 for every block cipher, key, message and splitting as long as the key derived from E(01..01) leads to the same number of rounds; for AES with keys of more than 16 bytes and the default number of rounds it does not, and no object can be made.",
  "all lawful block ciphers, keys, messages, splittings and histories before a recreate call", "unbounded messages", ["lib/mac/xcbc.c"])
p("C46","MAC input splitting", "For every MAC and hash function and every state of the object, feeding data in any pieces has the same outcome and effect on the object as feeding it at once; the one-shot call gives the same tag.",
  "all messages and splittings", "exponentially many splittings", ["lib/mac/*.c","lib/mac.c: kripto_mac_all"])

# ---------------------------------------------------------------- AE
p("C47","EAX with IVs of one block", "With an IV of exactly one block EAX gives the tags of the specification (Bellare-Rogaway-Wagner), and its keystream until the counter would carry into its first byte; data in any pieces interleaved with the header in any way is delivered to a receiver with the same key and IV, who accepts the sender's tag and no other; an object recreated after any history does the same.",
  "all ciphers of the library, keys, IVs, headers, messages, splittings, memory contents and call histories", "quantifies over histories and splittings", ["lib/ae/eax.c"])
p("C48","EAX with short IVs uses uninitialised memory", "With an IV shorter than a block the keystream starts at the truncated nonce instead of the specified one, and the tag depends on bytes of newly allocated memory that are never written: a receiver whose memory differs there rejects every message.",
  "all initial memory contents, keys, IVs and messages", "needs two runs with different memory", ["lib/ae/eax.c"])
p("C49","EAX2 key split and buffers", "EAX2 gives the first part of the key to the MAC and the rest to the stream and computes, for every stream and MAC, exactly the described function; with IVs as long as the tag data is delivered and exactly the right tag accepted; with shorter IVs the tag depends on uninitialised memory and a receiver with other memory rejects every message; an IV longer than the tag is written behind the end of an array; with a one-byte key the MAC key is empty and creation aborts; with MACs of unlimited keys the sum of the key limits wraps around.",
  "all streams and MACs, keys, IVs, tag lengths, messages, splittings and memory contents", "relation between three unbounded lengths; two runs with different memory", ["lib/ae/eax2.c"])
p("C50","AE verification accepts exactly the right tag", "kripto_ae_verify has the outcome kripto_ae_tag would have and returns success exactly when the given bytes equal the tag, in every state; an empty tag is undefined behaviour; an object gives its tag only once, further calls neither continue nor repeat it.",
  "all states and tags", "2^(8n) tags and all states", ["lib/ae.c: kripto_ae_verify", "lib/ae/eax.c: eax_tag"])

# ---------------------------------------------------------------- KDF, random, API
p("C51","PBKDF2", "With every MAC of the library and every password, salt, iteration count and length, kripto_pbkdf2 computes RFC 8018 PBKDF2 with the MAC, created for tags of the smaller of its maximum tag length and the requested length, as the pseudorandom function. So with HMAC it is PBKDF2-HMAC for every length from the digest length on, and longer keys extend shorter ones; a request shorter than a digest is computed with the hash cut to that length inside HMAC and is not a prefix of a longer one. It aborts if more than 2^32-1 blocks are asked for, for 0 iterations and for an empty password; otherwise it writes exactly the number of bytes asked for.",
  "all MACs of the library, passwords, salts, iteration counts and output lengths", "unbounded parameters", ["lib/pbkdf2.c:kripto_pbkdf2"])
p("C52","scrypt work area", "The mixing function of scrypt is scryptROMix of RFC 7914 for every block, block size and cost that is a power of two whenever its table and its two working blocks do not overlap. kripto_scrypt places the working blocks inside the table for every cost from 2 on: for all other parameters the behaviour is then undefined (memcpy of an area onto itself), and if that is tolerated the derived key is not that of RFC 7914. For cost 1, which the RFC excludes, it agrees.",
  "all costs, block sizes, parallelisation parameters, passwords, salts, output lengths and initial contents of the work area", "unbounded parameters; result equality for all inputs", ["lib/scrypt.c:kripto_scrypt","lib/scrypt.c:smix","lib/scrypt.c:blockmix"])
p("C53","Random generator reseeds", "For every history of requests, clock and surroundings the fallback generator delivers, in order, what it is asked for as segments of ChaCha20 keystream, each with a key of its own derived from a new seed. Besides the request that caused the seeding a segment has at most 5 MB, and no request is served more than five minutes after seeding; seeding takes place only when one of the limits is reached. The limit of 5 MB itself can be exceeded by one request. In strict C seeding is undefined behaviour (scrypt copies an area onto itself). If there is no memory for a new seed the request returns 0 and the object is gone, so every later use is undefined.",
  "all request sequences, clocks, surroundings and memory contents", "quantifies over histories", ["lib/random.c: kripto_random_create","lib/random.c: kripto_random_gen","lib/random.c: kripto_random_destroy"])
p("C54","API argument checks", "For every descriptor: creating and re-creating block cipher, stream and AE objects aborts for null keys, key lengths of 0 or above the maximum, IV lengths above the maximum and tag lengths above the maximum, encryption and decryption by streams and AE objects abort for lengths that are not a multiple of the unit, hash functions for salts and outputs above the maximum, MACs for empty keys, tweaks if empty; otherwise the arguments reach the implementation unchanged. ECB and CBC have the block as unit, all other streams of the library single bytes. The length of tweaks and, for MACs, the maximal lengths of keys and tags are not checked: a tweak for Threefish-256 of 24 bytes is cut to 16 without notice, and one of 25 bytes is undefined behaviour.",
  "all descriptors, objects and arguments", "unbounded arguments", ["lib/block.c","lib/stream.c","lib/hash.c","lib/mac.c","lib/ae.c"])
p("C55","Skein hash functions", "Skein-256/512/1024 compute, for every message shorter than 2^96 bytes in any pieces, salt, output length and history of the object, exactly the described function when asked once. It is the hash function of the Skein specification if the output has the size of a block, there is no salt, and the length of the message is not a positive multiple of the block; messages of whole blocks get an additional empty block, shorter and longer digests are wrong, and salts of at most half a block are ignored.",
  "all messages, splittings, salts, output lengths and histories", "unbounded messages; block boundary cases", ["lib/hash/skein256.c","lib/hash/skein512.c","lib/hash/skein1024.c"])
p("C56","Skein MACs", "The Skein MACs compute, for every key and message in any pieces and after any history, exactly the described function. It is Skein-MAC if the key has the size of a block and the length of the message is not a positive multiple of it. Keys of at most half a block are ignored; of other keys only the bytes from number N-length up to number N count.",
  "all keys, messages, splittings, tag lengths, histories and initial memory contents", "unbounded messages; equality over all pairs of keys", ["lib/mac/skein256.c","lib/mac/skein512.c","lib/mac/skein1024.c"])
p("C57","A re-keyed mode object is as good as a new one", "After any history of creations, re-keyings, encryptions, decryptions and generations, kripto_stream_recreate on an ECB, CBC, CFB, OFB or CTR object gives an object that no sequence of calls distinguishes from one that kripto_stream_create makes with the same arguments, or fails as that does, provided the block cipher can be re-keyed with the parameters the program uses (C14): no keystream bytes, chaining value or counter of the old key or IV survive.",
  "all block ciphers, histories, keys, IVs, later calls and memory contents", "quantifies over histories before and after the call", ["lib/stream/ecb.c: ecb_recreate","lib/stream/cbc.c: cbc_recreate","lib/stream/cfb.c: cfb_recreate","lib/stream/ofb.c: ofb_recreate","lib/stream/ctr.c: ctr_recreate"])
p("C58","Self-test of randomness", "kripto_random_test reports failure for every sample: a difference is formed in unsigned arithmetic, so for each byte value the deviation is either zero or huge, and no sample of 4096 bytes passes.",
  "all samples of 4096 bytes", "2^32768 samples", ["lib/random.c: kripto_random_test"])
p("C59","IDEA, SEED, SM4, GOST, RC2 and SKIPJACK are the published ciphers",
  "For every key and every block, IDEA, SEED (RFC 4269), SM4 (GB/T 32907), RC2 (RFC 2268, effective key length = all bits of the key) and GOST 28147-89 with any eight substitutions compute the function given by their published definition. The GOST R 34.12-2015 descriptor is Magma (RFC 8891) only with the block and each key word byte-reversed, and SKIPJACK only with block and key byte-reversed; with the bytes in the published order neither is.",
  "all keys, numbers of rounds and blocks", "2^128 keys times 2^128 blocks; test vectors sample a handful",
  ["lib/block/idea.c","lib/block/seed.c","lib/block/sm4.c","lib/block/gost.c","lib/block/rc2.c","lib/block/skipjack.c"])
p("C60","NOEKEON, Serpent, RECTANGLE, 3-Way and Camellia are the published ciphers",
  "For every key and every block, NOEKEON (direct key mode), Serpent, RECTANGLE-80/128, 3-Way and Camellia (RFC 3713, keys of 16 to 32 bytes) compute the function given by their published definition: encryption gives that function's value and decryption of it gives the block back.",
  "all keys, supported numbers of rounds and blocks", "2^128 keys times 2^128 blocks; test vectors sample a handful",
  ["lib/block/noekeon.c","lib/block/serpent.c","lib/block/rectangle.c","lib/block/3way.c","lib/block/camellia.c"])
p("C61","ARIA, KHAZAD, ANUBIS and Twofish are the published ciphers",
  "For every key and every block, ARIA (RFC 5794), KHAZAD, ANUBIS and Twofish compute the function given by their published definition, a short key being extended by zero bytes: encryption gives that function's value and decryption of it gives the block back. Excepted are ARIA keys of 17 to 20 or 25 to 28 bytes and Twofish keys of at most 8 bytes, for which the library computes something else.",
  "all keys, supported numbers of rounds and blocks", "2^128 keys times 2^128 blocks; test vectors sample a handful",
  ["lib/block/aria.c","lib/block/khazad.c","lib/block/anubis.c","lib/block/twofish.c"])
p("C62","SAFER, SAFER++, Blowfish and CAST5 are the published ciphers",
  "For every key of a published length and every block, SAFER K and SK, SAFER++, Blowfish and CAST5 (RFC 2144) compute the function given by their published definition: encryption gives that function's value and decryption of it gives the block back. The 1060 constant words of Blowfish are the binary digits of pi. Excepted are CAST5 keys of 6 to 10 bytes, for which the library computes 16 rounds instead of the RFC's 12.",
  "all keys of the published lengths, supported numbers of rounds and blocks", "2^128 keys times 2^64 blocks; test vectors sample a handful",
  ["lib/block/safer.c","lib/block/saferpp.c","lib/block/blowfish.c","lib/block/cast5.c"])
p("C63","Destroyed objects leave nothing behind",
  "For every block cipher, hash function, stream cipher and MAC of the library, and whichever allocations fail: an object that is created, used and re-keyed any number of times and destroyed (or that create or recreate gave up for want of memory) causes no undefined behaviour, frees each of its allocations exactly once and nothing else, and every byte of them that held a key, data or anything derived from them has been wiped before. For ciphers whose objects have room for the round keys, and modes and MACs built on them, this requires re-keying with the same number of rounds; with another number it is undefined.",
  "all ciphers, hash functions, modes and MACs, all sequences of calls, arguments, structure sizes and patterns of failing allocations", "a test cannot make every subset of allocations fail in every history, and does not look at freed memory",
  ["lib/block.c: kripto_block_destroy","lib/stream.c: kripto_stream_destroy","lib/hash.c: kripto_hash_destroy","lib/mac.c: kripto_mac_destroy","lib/memory.c: kripto_memory_wipe","lib/block/","lib/stream/","lib/hash/","lib/mac/"])
p("C64","Memory of EAX, EAX2, PBKDF2, scrypt and the random generator",
  "EAX and EAX2 objects that are not re-keyed, and calls of PBKDF2 and scrypt with any MAC but HMAC with Skein, leave no memory behind and no secret in freed memory, whichever allocations fail; the same holds with re-keying, and for HMAC with Skein, as long as no allocation fails, and for the fallback generator as long as it does not seed itself again. Beyond that it is false: re-keying EAX or EAX2 when malloc fails loses objects with their keys, PBKDF2 with HMAC with Skein aborts, and the generator loses memory each time it seeds itself again.",
  "all block ciphers, stream ciphers and MACs, sequences of calls, arguments, sizes and patterns of failing allocations", "a test cannot make every subset of allocations fail in every history",
  ["lib/ae/eax.c","lib/ae/eax2.c","lib/pbkdf2.c: kripto_pbkdf2","lib/scrypt.c: kripto_scrypt","lib/random.c: seed","lib/random.c: kripto_random_gen"])
p("C65","All builds compute the same",
  "Whatever the byte order of the machine, whichever of KRIPTO_LITTLE_ENDIAN and KRIPTO_BIG_ENDIAN is defined (as long as it is true of the machine), the load and store functions of all widths give the same words and bytes; the array loads do so if the words written are zero before, as they are in the library. On x86 every rotation by any count is the rotation by the count modulo the width; elsewhere the result is the same if the count is not a multiple of the width, and otherwise ROL32, ROR32, ROL64 and ROR64 are undefined, and ROR16 is if the top bit is set.",
  "all machines, macros, words, byte strings and counts", "a test runs one build on one machine",
  ["include/kripto/loadstore.h","include/kripto/rotate.h: ROL8..ROR64","build.sh"])
p("C66","Padded messages survive ECB and CBC",
  "For every block cipher of the library but 3-Way, every key, IV and non-empty message: padding the message in its buffer with kripto_pkcs7_add, encrypting in place in ECB or CBC mode, moving the ciphertext anywhere, decrypting it in place with a second object and removing the padding gives the message back; the ciphertext is at most one block longer and nothing else in memory changes. With 3-Way encryption aborts for some lengths, and the empty message comes back as a block of padding.",
  "all ciphers, keys, IVs, messages and buffer addresses", "unbounded messages; the failure concerns only one message length and one cipher",
  ["lib/pkcs7.c","lib/stream/ecb.c","lib/stream/cbc.c","lib/stream.c"])
p("C67","The random device of the default build",
  "In the default (Unix) build the generator opens the file named by the environment variable KRIPTO_RANDOM, or else /dev/urandom. For every history of requests the delivered bytes are, in order and without gap or repetition, those the device brought; a request returns the number of bytes delivered, changes no other byte, and delivers fewer than asked for only if the device failed or ended. Whoever sets the environment decides what is delivered.",
  "all devices, environments, request sequences and memory contents", "quantifies over the behaviour of the device",
  ["lib/random.c: kripto_random_create","lib/random.c: kripto_random_gen"])
p("C68","Assertions only check",
  "A build with NDEBUG, without assertions, does the same as one with assertions in every call of the block cipher, stream cipher, hash, MAC and AE interfaces that does not end in a failed assertion. The calls an assertion would have stopped run on: keys that are too long or empty overrun objects, an incomplete block makes CBC read and write behind the message, RECTANGLE with more than 25 and SHACAL-2 with more than 128 rounds read behind their tables, and Camellia, CAST5 and SKIPJACK ignore the number of rounds.",
  "all descriptors, objects, arguments and memory contents", "a test runs one build, and calls that end in an assertion end the test",
  ["lib/block.c","lib/stream.c","lib/hash.c","lib/mac.c","lib/ae.c","lib/block/rectangle.c: rectangle_create","lib/block/shacal2.c: shacal2_create","lib/block/camellia.c: camellia_create","lib/block/cast5.c: cast5_create","lib/block/skipjack.c: skipjack_create"])
p("C69","Damage stays where it is, and decryption may start anywhere",
  "For every block cipher, key and IV: a damaged ciphertext block damages, in ECB, that block of the plaintext and no other; in CBC that block and, in the bits that differ, the next one; in CFB (decrypted block by block) the bits that differ and the next block. A wrong IV in CBC changes the bits in which it differs in the first block only. CBC decryption may start behind any block, given that block as IV, and CTR at any block, given its counter block as IV. With all keystream modes flipping bits of the input flips the same bits of the output, and the exclusive or of two ciphertexts of the same key and IV is that of the messages.",
  "all block ciphers, keys, IVs, messages, positions and kinds of damage", "unbounded messages and all damages",
  ["lib/stream/ecb.c: ecb_decrypt","lib/stream/cbc.c: cbc_decrypt","lib/stream/cfb.c: cfb_decrypt","lib/stream/ctr.c: ctr_crypt","lib/stream.c"])
p("C70","Digests can be extended",
  "For MD5, SHA-1, SHA-256, SHA-512, Tiger and Whirlpool, the digest of a message followed by its padding and by any bytes is a function of the digest of the message, its length and those bytes alone, whatever the message. So these hash functions over a secret followed by a message do not authenticate the message; a program must use a MAC.",
  "all messages and extensions", "relates the digests of all messages to those of all their extensions",
  ["lib/hash/md5.c","lib/hash/sha1.c","lib/hash/sha2_256.c","lib/hash/sha2_512.c","lib/hash/tiger.c","lib/hash/whirlpool.c","lib/hash.c: kripto_hash_all"])
p("C71","Rotations by variable counts need x86",
  "Whatever processor the library is compiled for, RC5, RC6 and CAST5, the only ciphers that rotate by counts that depend on keys or data, do what they do on x86 or are undefined. Off x86 they often are: with CAST5, encryption and decryption of every block are undefined exactly with the keys one of whose rotation keys in RFC 2144 is a multiple of 32; with RC5 and RC6 and every key, creating the object or encrypting some block is undefined, and already the key of sixteen zero bytes cannot be used. MD5, which takes its counts from a table, is the same everywhere.",
  "all processors, keys, numbers of rounds and blocks", "a test runs one build, and undefined behaviour may go unnoticed",
  ["include/kripto/rotate.h: ROL32","include/kripto/rotate.h: ROR32","lib/block/rc5.c","lib/block/rc6.c","lib/block/cast5.c","lib/hash/md5.c: ROT"])
p("C72","Threads with objects of their own do not interfere",
  "Several threads each call the library on an object of their own (block cipher, stream, hash, MAC or authenticated encryption), with buffers in disjoint parts of the memory. If each thread alone makes its calls properly within its part, then in every schedule of the calls all calls return, each thread ends with the object, the returned values and the memory contents it has when it runs alone, and no other memory is changed; so two schedules with the same calls of each thread end in the same way. A call that succeeds with only some memory does the same whatever other memory there is.",
  "all objects of the library, threads, schedules, call sequences, arguments and memory contents", "a test sees some schedules, and a stray access may hit memory that nobody looks at",
  ["lib/stream.c","lib/block.c","lib/hash.c","lib/mac.c","lib/ae.c","lib/stream/ecb.c","lib/stream/cbc.c","lib/stream/cfb.c: cfb_decrypt","lib/stream/keccak.c: keccak_crypt","lib/ae/eax.c","lib/ae/eax2.c"])
p("C73","Weak keys",
  "With the weak and semi-weak keys of DES, whatever their parity bits and whatever number of rounds is asked for, encrypting with the one key of a pair undoes encrypting with the other. With GOST, all tables and 32 rounds, encrypting twice with a key whose eight words read the same backwards gives the block back. With IDEA, any number of rounds and a key of zeros the lowest bits of the four ciphertext words depend only on those of the four plaintext words. The library accepts all these keys.",
  "all blocks, parity bits, numbers of rounds, S-boxes and palindromic keys", "2^64 blocks and 2^128 keys",
  ["lib/block/des.c: des_create","lib/block/gost.c: gost_create","lib/block/idea.c: idea_create"])
p("C74","Comparing, wiping and padding take the same steps whatever the contents",
  "The comparison of two byte strings loads every byte of both in the same order and tests nothing but its counter, whatever the bytes are; it does not stop at a difference. Verifying a tag does what computing it does and then compares in this way, for every MAC and authenticated encryption object. Wiping and adding padding likewise do not look at the contents. Removing padding does: its steps tell whether the last byte is less than the length, and nothing else.",
  "all memory contents, lengths, objects and tags", "a test sees results, not steps, and timing measurements are statistics",
  ["lib/memory.c: kripto_memory_equals","lib/memory.c: kripto_memory_wipe","lib/pkcs7.c","lib/mac.c: kripto_mac_verify","lib/ae.c: kripto_ae_verify"])
p("C75","Keystreams that run in cycles",
  "With every block cipher, key and IV the keystream of OFB mode is a cycle of at most 256^n blocks (n the block size): no block occurs twice within it, its last block is the IV, and then it starts over from the beginning. With every key and number of dropped bytes the keystream of RC4 repeats from its very beginning, after at most 256^2 * 256! bytes.",
  "all ciphers, keys, IVs and positions", "cycle lengths far beyond what can be run",
  ["lib/stream/ofb.c","lib/stream/rc4.c"])
p("C76","MACs made of block ciphers detect every change of one block",
  "With OMAC and every block cipher of the library, with XCBC, and with EAX (in the ciphertext and in the header), two messages of the same length that differ only inside one block, be it the last and incomplete one, never have the same full-length tag.",
  "all ciphers, keys, messages, positions and changes", "2^128 values of the block, and unbounded messages before and behind it",
  ["lib/mac/omac.c","lib/mac/xcbc.c","lib/ae/eax.c"])
p("C77","What equal blocks and repeated IVs reveal",
  "In ECB mode two ciphertext blocks are equal exactly if the message blocks are. Two messages encrypted in CBC or CFB mode with the same key and IV have ciphertexts that agree in exactly as many first blocks as the messages; in CFB mode the first blocks that differ do so in the same bits. Two equal ciphertext blocks in CBC mode give away the exclusive or of the message blocks, and they occur exactly if it is that of the ciphertext blocks before them.",
  "all ciphers, keys, IVs, pairs of messages and block positions", "relates all pairs of messages of any length",
  ["lib/stream/ecb.c","lib/stream/cbc.c","lib/stream/cfb.c"])
p("C78","Output that is written over the input",
  "A digest or tag computed in one call may be written over the message, the key or the salt, in any overlap. The output of PBKDF2 may overlap the password and the salt if it is at most one block; of a longer output every block is computed with what the blocks before have left of the salt, so with OMAC two blocks written over a salt of one block are right only if the first of them happens to be the salt. The output of scrypt may always overlap the salt, and the password if it is at most one block. Where nothing overlaps, only the output is written and it is that of C51 and C52.",
  "all memory contents, addresses, lengths and overlaps, MACs, ciphers, passwords and salts", "all placements of three buffers and all contents",
  ["lib/hash.c: kripto_hash_all","lib/mac.c: kripto_mac_all","lib/pbkdf2.c","lib/scrypt.c"])
p("C79","The tweak in force is the one given last",
"For Threefish-256, Threefish-512, Threefish-1024, TRAX-M and TRAX-L, after any sequence of kripto_block_tweak calls with tweaks of 1 to maxtweak bytes the object is exactly what the last call alone makes of it; no call fails. Zeros at the end of a tweak do not matter. A tweak of zeros undoes every earlier tweak and gives the object as it was created. kripto_block_recreate with a new key and the same number of rounds gives the object kripto_block_create gives, whatever tweaks were set before.",
"all objects, all finite sequences of tweaks of every permitted length, all keys and numbers of rounds",
"A test tries a few tweaks once; a tweak that is or-ed into the old one, a checksum word left from an earlier tweak or a tweak that survives a new key shows only after particular histories.",
["lib/block.c:kripto_block_tweak","lib/block.c:kripto_block_maxtweak","lib/block/threefish256.c:threefish256_tweak","lib/block/threefish512.c:threefish512_tweak","lib/block/threefish1024.c:threefish1024_tweak","lib/block/trax_m.c:trax_m_tweak","lib/block/trax_l.c:trax_l_tweak"])
p("C80","Short digests and tags",
"A digest of k bytes is the beginning of the digest of n bytes (k at most n) for MD5, SHA-1, Tiger and Whirlpool, and for sha2_256, blake256 (sha2_512, blake512) if both lengths are at most 28 (48) or both are greater; then objects created for the two lengths cannot be told apart by any sequence of input and output calls. Across that border, and for BLAKE2 with any two lengths shown, it is not. A short tag is the beginning of the tag of one block for OMAC with every supported cipher and key and for AES-XCBC; the length given to kripto_mac_create plays no part there. For HMAC a short tag is not the beginning of the full tag, contrary to RFC 2104.",
"all messages, all lengths, all sequences of input and output calls, all supported keys; concrete witnesses for the negative results",
"A test compares a few lengths; the border cases (28 and 29 bytes) and the cut inner digest of HMAC do not show unless exactly these are tried.",
["lib/hash.c:kripto_hash_create","lib/hash/sha2_256.c:sha2_256_recreate","lib/hash/blake256.c:blake256_recreate","lib/hash/blake2s.c:blake2s_recreate","lib/mac/hmac.c:hmac_create","lib/mac/omac.c:omac_create","lib/mac/xcbc.c:xcbc_create"])
p("C81","What verification and seeding leave on the stack",
"After kripto_mac_verify and kripto_ae_verify, whether they accept or reject, the right tag is still in the memory where their local array was, and presenting it to an object in the same state is accepted. After kripto_random_create and after a request that seeds the random generator anew, the key and the nonce of the generator are still there, and the bytes delivered up to the next seeding are the ChaCha20 keystream for them. Otherwise the calls have the outcome they have in the other properties, and verification changes no other byte.",
"all objects, presented tags, tag lengths, places of the local arrays, and all histories of requests before and after the seeding",
"Tests do not look at dead stack memory, and cannot try all histories or tags.",
["lib/mac.c: kripto_mac_verify","lib/ae.c: kripto_ae_verify","lib/random.c: create","lib/random.c: kripto_random_gen"])
p("C82","What different IVs guarantee",
"With the same cipher and key and two IVs that differ after padding with zeros: in OFB and CTR mode the keystreams differ in every block at the same position; in CBC and CFB mode the ciphertexts of the same message differ in every block. In CTR mode the positions where two keystreams have a block in common are given by the difference of the IVs, and nonces that are c bytes shorter than a block never share a keystream block within 256^c blocks. In OFB mode keystreams that have a block in common are the same from there on.",
"all block ciphers of the library, keys, pairs of IVs, messages and positions",
"Relates all pairs of IVs and positions; there are far too many to try.",
["lib/stream/ofb.c","lib/stream/ctr.c","lib/stream/cbc.c","lib/stream/cfb.c"])
p("C83","Which ciphers take the same steps whatever the key and data",
"Which addresses Speck (encryption and decryption) and XTEA (encryption) load from and store to, in which order, and which way their tests go, depends on the addresses of the arguments, the number of rounds and, where it determines that number, the length of the key only: not on the key and not on the block. IDEA and RC4 are different: a test in IDEA tells whether a factor of a product is zero, the first one whether the first two bytes of the block are, and RC4 reads and writes its table at secret indices, so that an observer of the addresses learns its index j and a sum of entries.",
"all keys, numbers of rounds, blocks and addresses; for RC4 all states",
"Tests see results, not steps; equal steps is a claim about all pairs of keys and blocks.",
["lib/block/speck32.c","lib/block/speck64.c","lib/block/speck128.c","lib/block/xtea.c:xtea_encrypt","lib/block/idea.c:MUL,idea_crypt","lib/stream/rc4.c:rc4"])
p("C84","The steps of ChaCha and Salsa20 do not depend on secrets",
"Encrypting, decrypting or generating len bytes with ChaCha or Salsa20 after any history of calls loads from and stores to addresses, in an order, and takes branches, that are determined by the number of rounds, the number of bytes processed before, the addresses of the buffers and of the object, and len; for ChaCha with an IV of 9 to 12 bytes also by the block number that comes from the IV. They depend neither on the key nor on the keystream nor on the data.",
"all keys, IVs, numbers of rounds, histories of calls, memory contents, addresses and lengths, up to the last block",
"Tests see results, not steps; equal steps is a claim about all pairs of keys and messages.",
["lib/stream/chacha.c:chacha_core,chacha_crypt,chacha_prng","lib/stream/salsa20.c:salsa20_core,salsa20_crypt,salsa20_prng"])
p("C85","The table lookups of AES reveal the key",
"Whoever sees the addresses from which one AES encryption of a known block loads knows the first sixteen bytes of the key: the first round looks up each byte of the block, added to the byte of the key at the same place, in a table. So two keys of the same length that lead to the same steps for one block agree in their first sixteen bytes, and with keys of sixteen bytes they are equal.",
"all keys of 16 to 32 bytes, all numbers of rounds from two up to what the key schedule's constants allow, all blocks and all addresses",
"Tests see results, not steps; that the steps determine the key is a claim about all pairs of keys.",
["lib/block/rijndael.c:rijndael128_encrypt,E,EL,rijndael_setup"])
p("C86","The steps of RC5, RC6, Simon, LEA, TEA and Noekeon do not depend on secrets",
"Encrypting or decrypting a block with RC5, RC6, Simon32, Simon64, Simon128, LEA, TEA or Noekeon loads from and stores to addresses, in an order, and takes branches, that are determined by the number of rounds (by default that may come from the length of the key) and the addresses of the blocks, of the object and of the constants: they depend neither on the bytes of the key nor on the block.",
"all keys and lengths of keys, all numbers of rounds for which creation succeeds (Simon: at least four, or the default; LEA: multiples of four; Noekeon: at most 33), all blocks and addresses",
"Tests see results, not steps; equal steps is a claim about all pairs of keys and blocks.",
["lib/block/rc5.c:rc5_encrypt,rc5_decrypt","lib/block/rc6.c:rc6_encrypt,rc6_decrypt","lib/block/simon32.c:simon32_encrypt,simon32_decrypt","lib/block/simon64.c:simon64_encrypt,simon64_decrypt","lib/block/simon128.c:simon128_encrypt,simon128_decrypt","lib/block/lea.c:lea_encrypt,lea_decrypt","lib/block/tea.c:tea_encrypt,tea_decrypt","lib/block/noekeon.c:noekeon_encrypt,noekeon_decrypt"])
p("C87","The table lookups of SM4 reveal the key",
"Whoever sees the addresses from which one SM4 encryption of a known block loads knows the key: each of the first four rounds looks up the four bytes of known words plus one word of the expanded key in a table, and four words of the expanded key determine the key. So two keys of the same length lead to the same steps for one block exactly if they are equal.",
"all pairs of keys of the same length (1 to 16 bytes), all numbers of rounds that are multiples of four up to 32 (or the default), all blocks and all addresses",
"Tests see results, not steps; that the steps determine the key is a claim about all pairs of keys.",
["lib/block/sm4.c:sm4_encrypt,F,TAU,sm4_setup"])
with open(os.path.join(os.path.dirname(__file__), "..", "properties.jsonl"), "w") as f:
    for x in P: f.write(json.dumps(x) + "\n")
print(len(P))
