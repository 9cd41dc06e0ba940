# Formal model of libkripto

## 1. What is being verified

The C sources of LightBit/libkripto in `/repo` (pinned commit), read as text.
The configuration modelled is the one `build.sh` produces by default:

* `KRIPTO_UNIX` defined; neither `KRIPTO_LITTLE_ENDIAN` nor `KRIPTO_BIG_ENDIAN`
  defined, so `loadstore.h` uses the portable shift-and-or macros;
* `NDEBUG` not defined, so every `assert` is live;
* `unsigned int` and `int` 32 bits, `size_t` 64 bits, `CHAR_BIT` 8.

The model is written in Lean 4 under `lean/Verif/`.  Every definition that
models code carries a comment with the file and lines it models and any
simplification made.

## 2. Shape of the model

* **Outcomes** (`Verif/Base/Res.lean`).  `Res α` is `ok a`, `abort` (a live
  `assert` failed), `ub` (the C program has undefined behaviour at this point:
  out-of-bounds access, division by zero, shift by the word width, use after
  free) or `fail` (the function returned NULL / -1).  Undefined behaviour is a
  value of the model, so memory safety is a theorem and not an assumption.
* **Words and bytes**.  `BitVec 8/16/32/64`; all C unsigned arithmetic is
  `BitVec` arithmetic.  Byte strings are `List (BitVec 8)`.
* **Arrays**.  Reads go through `rd : List α → Nat → Res α` which is `ub` out of
  bounds; the length of the list is the size of the C array / allocation.
* **Loops** with a counter are `loop n f s` / `loopDown n f s`
  (`Verif/Base/Loop.lean`), folds in the `Res` monad over the loop index.
  Loops whose exit test is data dependent carry fuel, with a theorem that the
  fuel is sufficient.
* **Signed arithmetic**.  A few expressions are signed in C because of integer
  promotion: `S[x] << 24` with a `uint8_t` table, `rc << 16` in 3-Way, `a * b`
  with 16-bit operands in IDEA.  They may overflow `int`, which ISO C leaves
  undefined and every compiler this library is built with computes modulo 2^32;
  the model takes the result modulo 2^32.  This is the only place where the
  model is more lenient than ISO C.
* **Objects**.  Heap objects are structures; `create` returns the structure,
  operations return the new structure.  Allocation failure is not explored in
  cipher models except where said (the code returns NULL directly).  Where the
  code reads memory it never wrote, the model takes the initial contents as an
  explicit parameter (`junk`).
* **Aliasing**.  Block functions are modelled as functions from the bytes of the
  input block to the bytes of the output block.  That is exact because in every
  `lib/block/*.c` each encrypt and decrypt function reads all of its input before
  it writes any output (checked over the text of all 40 pairs of functions when
  the models were written; it is a fact about the text, not a theorem).
  `blockEncryptMem` in `Model/Stream.lean` puts the function on memory.  Stream
  modes are modelled on a flat memory `Nat → Byte` with a validity predicate, so
  that in-place use, overlapping buffers and overruns are expressible.
* **Interfaces**.  Modes, MACs, AE and KDFs are parametric in a block cipher /
  hash / MAC / stream interface, with a predicate saying what a lawful
  implementation is; concrete ciphers are then shown to be lawful.

## 3. Directory layout

| directory | contents |
| --- | --- |
| `Verif/Base/` | outcomes, bytes, words, loops, general lemmas |
| `Verif/Model/` | the model of the C code, one module per C file |
| `Verif/Gen/` | tables and fully unrolled functions extracted from the C text by the scripts `tools/gen*.py` (S-boxes and constants, rotation macros, Threefish rounds, Keccak rounds) |
| `Verif/Spec/` | small independent specifications (textbook modes, FIPS-197, ...) |
| `Verif/Proof/` | helper lemmas; nothing here has to be read to understand what is proved |
| `Verif/Props/` | the property theorems, one module `Cxx.lean` per property, with the examples that show that the hypotheses can be met |
| `Verif/Test/` | the repository's own test vectors run on the model (tests of model fidelity, not proofs) |

## 4. Plan per property

| id | modelled | proof |
| --- | --- | --- |
| C01, C02 | `memory.c` on flat memory | induction on the length |
| C03-C05 | `pkcs7.c` on a flat buffer | arithmetic (`x & (2^k-1) = x % 2^k`); negations for the empty message, the empty buffer and block sizes that are not powers of two |
| C06, C07 | `loadstore.h` (portable form), `rotate.h` (all macros, generated) | bit extensionality; `ROR8_6` is shown to be wrong |
| C08-C10 | every `lib/block/*.c` function by function | per-step inverse lemma `f s = ok t -> g t = ok s`, composed over loops by induction; S-box inverses by kernel `decide` over the full 256-entry tables; merged tables by GF(2)-linearity; IDEA by `ZMod 65537`; statements only mention `kripto_block_create/encrypt/decrypt` |
| C11 | same | both directions of the round trip give a bijection of blocks |
| C12, C13 | same, with array bounds and explicit round counts | the exact condition on the round count, or sufficiency plus a failing instance outside it; concrete witnesses for the negations |
| C14 | `*_recreate` | equality with `create` over any history of re-keyings; `ub` when reallocation is needed |
| C15 | block calls on flat memory | frame condition, in-place use, commutation of calls, for every supported cipher |
| C16 | `rijndael.c` | refinement to FIPS 197 (S-box from inversion in GF(2^8) and the affine map, MixColumns as a matrix, word-oriented key expansion), then transported through CTR, OMAC and XCBC |
| C17 | TEA, XTEA, Speck, Simon, RC5, RC6, LEA, SHACAL-2, Threefish, CRAX-S, TRAX | refinement to the published recurrences, any rounds and key sizes the API accepts; RC5/RC6 with keys longer than the table are shown to differ |
| C18 | `des.c` | refinement to FIPS 46-3 given by the printed bit selection tables; complementation, parity and degenerate triple DES follow from it |
| C19 | ciphers that zero-fill or repeat keys, TEA, Serpent, Camellia, RC4, HMAC, PBKDF2 | equality of objects (`SameCipher`), of keystreams and of tags |
| C20-C29 | `lib/stream/{ecb,cbc,cfb,ofb,ctr}.c` over flat memory | refinement to list-level textbook modes for every cipher; induction on blocks/bytes; `IsKeystream` as the common notion of a keystream; negations for CFB decryption |
| C30, C31 | `salsa20.c`, `chacha.c` | refinement to the keystream specification, counter invariant, recreation |
| C32 | `rc4.c` | permutation invariant and refinement to the RC4 recurrence |
| C33 | `skein*.c` streams | exact description for all keys and all initial contents of memory; comparison with the Skein specification |
| C34 | `keccak.c` stream and MAC | refinement to the sponge on the concatenation |
| C35-C39 | `hash.c`, `lib/hash/*.c` | state after input = fold over the blocks of everything fed so far (invariant), then padding arithmetic; refinement to RFC 1321 / FIPS 180-4 / Tiger / Whirlpool |
| C40 | Keccak, SHA-3 | refinement to FIPS 202 (theta, rho, pi, chi, iota on lanes); negation for Keccak-800 |
| C41 | BLAKE, BLAKE2 | refinement to RFC 7693 / the BLAKE submission; negation at multiples of the block size |
| C42-C46 | `mac.c`, `lib/mac/*.c` | refinement to RFC 2104, SP 800-38B, RFC 3566 over the hash functions and ciphers of the library |
| C47-C50 | `ae.c`, `lib/ae/*.c` | refinement to EAX; dependence on uninitialised memory by exhibiting two initial contents with different tags |
| C51 | `pbkdf2.c` | refinement to RFC 8018 over the MACs of the library |
| C52 | `scrypt.c` | array model with the real offsets; refinement of the mixing to RFC 7914 without overlap; undefined behaviour with the offsets of the code |
| C53, C58 | `random.c`: fallback generator, self-test | invariant over request lists; decision logic for every sample |
| C54 | `block.c`, `stream.c`, `hash.c`, `mac.c`, `ae.c` | decision logic outright, for every descriptor |
| C55, C56 | Skein hash functions and MACs | exact description; equality with and differences from the Skein specification |
| C57 | `*_recreate` of the modes | bisimulation with a new object over any history |
| C59 | IDEA, SEED, SM4, GOST, RC2, SKIPJACK | refinement to the published definitions; SEED and SM4 S-boxes from power maps and affine maps over GF(2^8); Magma and SKIPJACK with the byte orders of the standards are shown to differ from the code |
| C60 | NOEKEON, Serpent, RECTANGLE, 3-Way and Camellia | refinement to the published definitions, S-boxes of 4 bits given by their tables of 16 entries applied to columns of bits, the one of Camellia by its algebraic description; Camellia only for keys of at least 16 bytes (shorter keys are filled in a way of the code's own) |
| C61 | ARIA, KHAZAD, ANUBIS, Twofish | refinement to the published definitions; the 256-entry tables of the code are proved equal to the algebraic boxes and to products with the diffusion matrices over GF(2^8), by linearity (a table is checked against the span of its eight values at powers of two); the key lengths on which the code departs from the standard are stated as `_wrong` |
| C62 | SAFER K/SK, SAFER++, Blowfish, CAST5 | refinement to the published definitions; SAFER's tables are proved to be the powers of 45 modulo 257 and their logarithms; the 1060 words of Blowfish are proved to be digits of `Real.pi` from integer bounds on Machin's formula; the S-boxes of CAST5 have no description and are shared with the code; CAST5 keys of 6 to 10 bytes get 16 rounds (`C62_cast5_middle`, `C62_cast5_wrong`) |
| C63 | memory of block ciphers, hash functions, stream ciphers and MACs | a second model (`Model/Life`) of what `create`, `recreate`, `destroy` and the other calls allocate, write, wipe and free, on a heap in which every `malloc` may fail; a class satisfies a law (which allocations an object owns, which bytes may hold secrets); laws are proved bottom-up (cipher, mode, MAC) and give every history by induction; re-keying with another number of rounds is proved undefined |
| C64 | memory of EAX, EAX2, PBKDF2, scrypt and the generator | the same for lives without re-keying, and with re-keying while no allocation fails; the losses of memory and the abort are proved as witnesses |
| C65 | all branches of `loadstore.h` (words in the memory of a little- or big-endian machine, `memcpy`) and of the variable rotations of `rotate.h` (x86 instructions as in Intel's manual, C shifts with promotion and their undefined cases) | words determined by their bytes; one step of the instruction is a rotation by 1 |
| C66 | `pkcs7.c` and the modes together | composition of C03, C20, C21 on memory |
| C67 | `random.c` with `KRIPTO_UNIX`, the default build; the device is any sequence of events | induction over requests |
| C68 | the five interface files with a parameter for `NDEBUG`; round checks of five ciphers | outcome by outcome; the overruns by an invariant of the loop |
| C69 | the modes of C20-C24 | append lemmas for the recursive definitions of the modes |
| C70 | the hash functions of C37 | the state is decoded from the digest; the blocks of a padded message are whole |
| C71 | RC5, RC6, CAST5 with the rotations of every build | relation "undefined or the same" through the loops; for CAST5 which keys |
| C72 | objects, memory of the caller shared by threads, schedules as lists of calls | frame property of `ld`/`st` carried through binds and loops of every function; induction on the schedule |
| C73 | DES, GOST and IDEA | the subkeys of the published ciphers (C18, C59) read the same backwards, by the kernel for the 20 DES keys and by algebra for GOST; lowest bits carried through the rounds of IDEA |
| C74 | `memory.c`, `pkcs7.c`, tag verification with a record of loads, stores and tests | the record erases to the model of C01-C05, C42, C50; its steps computed by induction |
| C75 | OFB, RC4 | pigeonhole on the orbit of an injective function of a finite type |
| C76 | OMAC, XCBC, EAX | CMAC and XCBC of C44, C45, C47; encryption is injective, so a difference of one block persists |
| C77 | ECB, CBC, CFB | induction on the blocks of C20-C22 |
| C78 | hash and MAC in one call, PBKDF2, scrypt with all buffers in one memory | induction on the blocks, comparing with the models of C51 and C52; C76 for the negative result |
| C79 | histories of `kripto_block_tweak` calls on the five tweakable ciphers | the tweak function stores words computed from the tweak alone (`TweakFun`); induction on the history |
| C80 | hash and MAC objects created for different lengths | the specifications of C37, C41, C44 and C45 for both lengths; kernel evaluation of the model for the witnesses |
| C81 | `kripto_mac_verify`, `kripto_ae_verify`, `create` and `kripto_random_gen` with their local arrays in the memory (`Model/Frame.lean`) | C42, C50 and the invariant of C53, with the key and nonce read from the memory |
| C82 | pairs of objects in OFB, CTR, CBC and CFB mode | the specifications of C21-C24; E is injective; big-endian arithmetic for the counter |
| C83 | Speck, XTEA, IDEA and RC4 with a record of loads, stores and tests (`Model/TraceCipher.lean`) | the record erases to the model of the cipher; its steps computed by induction; for IDEA and RC4 the step that depends on secrets |
| C84 | `chacha.c` and `salsa20.c` with a record of loads, stores and tests (`Model/TraceChacha.lean`) | the record erases to the model of C30 and C31; its steps computed along the invariant of the keystream proofs |
| C85 | `rijndael128_encrypt` with a record of loads, stores and tests (`Model/TraceAes.lean`) | the record erases to the model of C01; its first 41 steps computed with the key expansion of the specification; injectivity in the key |
| C86 | RC5, RC6, Simon, LEA, TEA and Noekeon with a record of loads, stores and tests (`Model/TraceRc5.lean`, `Model/TraceSimon.lean`, `Model/TraceLea.lean`, `Model/TraceTea.lean`, `Model/TraceNoekeon.lean`) | the record erases to the model of the cipher; its steps computed by induction on the rounds |
| C87 | `sm4_encrypt` with a record of loads, stores and tests (`Model/TraceSm4.lean`) | the record erases to the model of the cipher; its first rounds computed; the lookups give four round keys, and the key schedule run backwards gives the key |

Every property of `properties.jsonl` is expressible in the model.  Not
expressible, and therefore not listed as properties: timing behaviour (the
constant-time claim of `kripto_memory_equals`), the compiler's freedom to remove
the wipe, the quality of the operating system's random source, cryptographic
hardness.

## 5. What is modelled and what is not

Modelled: every function of `lib/memory.c`, `lib/pkcs7.c`, `lib/block.c`,
`lib/stream.c`, `lib/hash.c`, `lib/mac.c`, `lib/ae.c`, `lib/pbkdf2.c`,
`lib/scrypt.c`, `lib/random.c` (the fallback and the self-test), all of
`lib/block/`, `lib/stream/`, `lib/hash/`, `lib/mac/`, `lib/ae/`, and the macros of
`loadstore.h` and `rotate.h`, with the exceptions below.  Files that differ only in
parameters share a model with the parameters as an argument (Speck, Simon, Skein,
SHA-2, BLAKE, BLAKE2; the comment of the definition says so).

Not modelled:

* In the models that say what is computed (C01-C62): `destroy`, the freeing of memory
  and failure of `malloc`, except in `random.c`.  Where `recreate` itself frees the
  object and goes on reading it, that is modelled, as `ub`.  The models in
  `Model/Life` (C63, C64) have `malloc` failure, `destroy` and `free` for all objects,
  but only which bytes are written, not the values; that the two agree on what is
  written is not a theorem (the sizes come from the same lines of the code, and that
  the computations stay inside the objects is C13 and its likes).
* Wiping of local variables on the stack, except in the four functions of C81, which do not wipe. That a compiler keeps local arrays in memory, and that nothing else overwrites them, is not part of the model.
* Steps and their order (C74, C83 to C87) except for `memory.c`, `pkcs7.c`, tag verification, Speck, Simon, RC5, RC6, LEA, TEA, Noekeon, XTEA encryption, IDEA, RC4, ChaCha, Salsa20, AES and SM4 encryption: many ciphers
  index tables with secrets, and IDEA tests the product in its multiplication.
* The Windows branches of `random.c`; builds with `NDEBUG`, except the interface functions and the
  checks of round numbers (C68).
* In the models of ciphers and hash functions `loadstore.h` without
  `KRIPTO_LITTLE_ENDIAN` and `KRIPTO_BIG_ENDIAN` and `rotate.h` on x86; C65 and C71 relate the
  other builds to these.
* `lib/version.c`, the casts of `cast.h` and the programs in `test/` and `perf/`.
* Overlap of a buffer of the caller with an object of the library; overlap of a key or IV with the
  output of a stream, which is read before the first output (C78 has the one-call functions).
* Concurrency within a call: in C72 a call is one step of a schedule.  Calls that share no
  memory have no data race, so on the machines of the C standard this loses nothing; `lib/`
  has no `static` variables that are written, and the model has no global state.

## 6. Where the code disagrees with what a user would expect

Each line is a theorem about the model (name in parentheses), not an opinion
about the text.  The properties are stated so that they are true of the code; the
theorem with the suffix `_wrong`, `_broken` or similar proves the negation of the
expected statement.

* PKCS#7: removing the padding of an empty message does not remove it (C04);
  block sizes that are not powers of two give wrong lengths (C03); an empty
  buffer makes `rem` read before the buffer (C05).
* `ROR8_6` is not a rotation (C07).
* Without inline assembly, 32- and 64-bit rotations by a variable count that is a
  multiple of the width are undefined (`C65_rotate_zero`), and so are CAST5 with many
  keys (`C71_cast5`), RC5 and RC6 with some blocks for every key
  (`C71_rc5_every_key_undefined`, `C71_rc6_every_key_undefined`) and for many keys
  altogether (`C71_create_undefined`).
* `KRIPTO_RANDOM` in the environment replaces the random device
  (`C67_environment_decides`).
* With `NDEBUG` bad arguments overrun memory or are ignored (`C68_long_key_wrong`,
  `C68_empty_key_wrong`, `C68_cbc_odd_length_wrong`, `C68_rectangle_overrun`,
  `C68_shacal2_overrun`, `C68_rounds_ignored`).
* PKCS#7 padding for 3-Way gives lengths that encryption rejects
  (`C66_threeway_wrong`); the empty message does not survive (`C66_empty_wrong`).
* Speck with a one-word key divides by zero, Simon with fewer rounds than key
  words, Rijndael-256 with short keys, SAFER with other key lengths access memory
  out of bounds (C13).
* Explicit round counts: XTEA odd, 3-Way other than 11, Threefish with an odd
  number of groups, Twofish and ARIA with one round do not round trip (C12).
* `recreate` with another number of rounds reads freed memory in the ciphers
  with variable-size objects (C14), so XCBC with AES keys over 16 bytes cannot be
  made (C45).
* `rcon[52]` of Rijndael has one initialiser too few: more rounds than the
  standard ones use a zero constant (C16_rcon_wrong).
* RC5 and RC6 with long keys mix too few times (C17_rc5_long_wrong,
  C17_rc6_long_wrong).
* CFB decryption of more than one block per call, in place or into a buffer
  without room for a whole block is wrong (C22, C28).
* CTR never carries into the first byte: period 256^(b-1) (C25).
* ChaCha with 12-byte nonces runs its 32-bit counter into the nonce (C31).
* Skein streams emit a block that does not depend on the key, ignore short keys,
  read uninitialised memory (C33); Skein hashes and MACs differ from the
  specification for lengths that are multiples of the block (C55, C56).
* Keccak stream and MAC do not separate key and data (C34).
* SHA-3 output past the digest continues into the state and then out of bounds;
  Skein output can be asked for only once (C36).
* Keccak-800 has wrong round constants (C40).
* BLAKE2 hashes one block too many for non-empty multiples of the block (C41).
* HMAC with a short tag length is HMAC of the shortened hash, not a truncated
  HMAC (`C80_hmac_wrong`); with SHA-3 the block size is that of the digest length (C43).
* `kripto_mac_verify` and `kripto_ae_verify` leave the right tag in a local array that is not wiped, also if they reject; `create` and `kripto_random_gen` leave the
  key of the generator (C81). Key schedules and compression functions wipe theirs.
* EAX and EAX2 with short IVs depend on uninitialised memory (C48, C49); an
  empty tag is undefined behaviour and a second tag differs from the first (C50).
* PBKDF2 is not a truncation of the longer output for HMAC (C51); it checks the
  wrong pointer after creating the MAC (visible in the model as `fail` handling).
* PBKDF2 with more than one block of output written over its salt is wrong
  (`C78_pbkdf2_salt_wrong`).
* The steps of removing PKCS#7 padding depend on the contents (`C74_pkcs7_rem_wrong`).
* The steps of IDEA depend on the block and the subkeys, those of RC4 on the secret state (`C83_idea`, `C83_rc4`). Those of AES for one known block tell the first sixteen bytes of the key (`C85_key`), those of SM4 the whole key (`C87_key`).
* scrypt overlaps its working blocks with its table for every cost from 2 on
  (C52).
* The random self-test fails on every sample (C58); the fallback generator forgets
  its state but for eight bytes when it is seeded again (C53).
* Threefish tweaks of 17 to 24 bytes are cut silently, longer ones overrun
  (C54_long_tweak).
* GOST R 34.12-2015 and SKIPJACK are the published ciphers only up to byte order
  (C59_magma_wrong, C59_skipjack_wrong).
- ARIA with a key of 17 to 20 or 25 to 28 bytes takes the constants in the order for 16-byte keys (C61_aria_wrong); Twofish with a key of at most
  8 bytes uses one 64-bit key word instead of extending the key to 16 bytes (C61_twofish_wrong).
- CAST5 has 16 rounds for keys of 6 to 10 bytes where RFC 2144 has 12 (C62_cast5_wrong); SAFER SK-64 has 6 rounds by default where its
  publication has 8 (C62_safer_sk, C62_safer_sk_default).

Memory (C63, C64):

- Re-keying one of the 29 ciphers whose objects have room for the round keys with
  another number of rounds reads the object after freeing it (C63_block_rounds).
  XCBC does so by itself for AES with keys of 24 or 32 bytes and no explicit number
  of rounds (C63_xcbc_wrong).
- `kripto_block_gost` does not look whether `malloc` succeeded (C63_gost_wrong).
- `eax_recreate` and `eax2_recreate` lose the objects of the mode and the MACs, with
  their keys, if `malloc` fails (C64_eax_rekey_leaks, C64_eax2_rekey_leaks).
- `kripto_pbkdf2` tests the wrong pointer after re-keying and aborts if an HMAC with
  Skein cannot be re-keyed for want of memory (C64_pbkdf2_aborts).
- The fallback generator loses a descriptor each time it seeds itself again, and the
  stream cipher with its key if that fails (C64_random_reseed_leaks,
  C64_random_gen_leaks).

One more fact about the text, visible in the model but without a theorem of its
own: a Camellia key of 9 to 15 bytes is extended by the complement of what comes
before, past its 16th byte.

## 7. Trusted base

* Lean 4's kernel.  `#print axioms` of every theorem of `MANIFEST.json` gives a
  subset of `propext`, `Classical.choice`, `Quot.sound`.  No other axioms, no
  `sorry`, `native_decide`, `bv_decide`, `implemented_by` or `unsafe`.  `decide
  +kernel` (evaluation by the kernel) is used for finite tables over their whole
  domain, and for concrete witnesses of negations and published test vectors.
* The reading of C into the model.  Each definition cites its lines
  (`tools/fixcites.py` checks that cited lines exist and name the function cited);
  `Verif/Test/` runs the repository's own vectors on the model.
* The extraction scripts `tools/gen*.py`; their output is committed and readable.
* The specifications in `Verif/Spec/`.  Published test vectors are evaluated on
  the specifications of C16-C18, C37, C40, C41, and C59-C62.
* The conventions of section 2 (32-bit `int`, two's complement results of the
  signed expressions named there, load before store in block functions).

## 8. Testing the theorems

`tools/mutate.py` applies an edit to a copy of the model outside `/verif`, rebuilds
the theorems concerned and records which of them fail in `seeded/LOG.jsonl`; the
edits are in `seeded/batch*.py`.
