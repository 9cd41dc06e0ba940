import Verif.Spec.Threefish
import Verif.Spec.Stream
/-!
# Skein, from the Skein paper (version 1.3), sections 3.4 and 3.5

`E key tweak block` is the tweakable block cipher, `N` the number of bytes in a block.
-/
namespace Kripto.SkeinSpec

abbrev Tbc := List Byte → List Byte → List Byte → List Byte

/-- The tweak (Table 5): bits 0 to 95 the position, 120 to 125 the type, 126 first, 127 final; as a number, least significant byte
first. -/
def tweak (type pos : Nat) (first final : Bool) : List Byte :=
  toLE 16 (pos + type * 2 ^ 120 + first.toNat * 2 ^ 126 + final.toNat * 2 ^ 127)

/-- Type values (Table 6). -/
def tKey : Nat := 0
def tCfg : Nat := 4
def tNonce : Nat := 20
def tMsg : Nat := 48
def tOut : Nat := 63

def step (E : Tbc) (G tw M : List Byte) : List Byte := xorL (E G tw M) M

/-- Chaining over `n` blocks `block i`, with the positions `pos i`. -/
def chain (E : Tbc) (type n : Nat) (pos : Nat → Nat) (block : Nat → List Byte) (G : List Byte) : List Byte :=
  (List.range n).foldl (fun H i => step E H (tweak type (pos i) (i == 0) (i + 1 == n)) (block i)) G

/-- The number of blocks of a string of `len` bytes: the empty string has one. -/
def nblocks (N len : Nat) : Nat := max 1 ((len + N - 1) / N)

/-- UBI: the string is cut into blocks and padded with zeros; the position is the number of bytes processed so far. -/
def ubi (E : Tbc) (N type : Nat) (G M : List Byte) : List Byte :=
  chain E type (nblocks N M.length) (fun i => min M.length ((i + 1) * N)) (fun i => zeroPad N ((M.drop (i * N)).take N)) G

/-- The configuration string for an output of `bits` bits, without tree hashing. -/
def config (bits : Nat) : List Byte :=
  [0x53, 0x48, 0x41, 0x33] ++ toLE 2 1 ++ toLE 2 0 ++ toLE 8 bits ++ List.replicate 16 0

/-- Block `i` of the output function. -/
def outBlock (E : Tbc) (N : Nat) (G : List Byte) (i : Nat) : List Byte := ubi E N tOut G (toLE 8 i)

/-- The first `n` bytes of output. -/
def output (E : Tbc) (N : Nat) (G : List Byte) (n : Nat) : List Byte :=
  ((List.range ((n + N - 1) / N)).flatMap (outBlock E N G)).take n

/-- Simple hashing with `n` bytes of output. -/
def hash (E : Tbc) (N n : Nat) (M : List Byte) : List Byte :=
  let G := ubi E N tCfg (List.replicate N 0) (config (8 * n))
  output E N (ubi E N tMsg G M) n

/-- Hashing with a nonce (the library calls it salt). -/
def saltedHash (E : Tbc) (N n : Nat) (salt M : List Byte) : List Byte :=
  let G := ubi E N tCfg (List.replicate N 0) (config (8 * n))
  output E N (ubi E N tMsg (ubi E N tNonce G salt) M) n

/-- Skein-MAC with `n` bytes of output. -/
def mac (E : Tbc) (N n : Nat) (key M : List Byte) : List Byte :=
  let K := ubi E N tKey (List.replicate N 0) key
  let G := ubi E N tCfg K (config (8 * n))
  output E N (ubi E N tMsg G M) n

/-- The stream cipher: key, a configuration with the maximal output length `2^64 - 1`, and a nonce unless it is empty. The key
stream is the output. -/
def streamChain (E : Tbc) (N : Nat) (key nonce : List Byte) : List Byte :=
  let K := ubi E N tKey (List.replicate N 0) key
  let G := ubi E N tCfg K (config (2 ^ 64 - 1))
  if nonce = [] then G else ubi E N tNonce G nonce

/-! ## What the library computes instead

The descriptions below are used to say exactly in which way the library's functions differ. -/

/-- Block `i` of a key, nonce or salt in the library: always the first bytes of the string, and the beginning of the block is cleared
instead of its end; `old` is what was in the buffer. -/
def codeBlock (N : Nat) (old data : List Byte) (i : Nat) : List Byte :=
  let len := min N (data.length - i * N)
  let old := if i = 0 then old else data.take N
  List.replicate (N - len) 0 ++ (data.take len ++ old.drop len).drop (N - len)

def codeUbi (E : Tbc) (N type : Nat) (G old data : List Byte) : List Byte :=
  chain E type ((data.length + N - 1) / N) (fun i => min data.length ((i + 1) * N)) (codeBlock N old data) G

/-- What is in the buffer afterwards. -/
def codeBuf (N : Nat) (old data : List Byte) : List Byte :=
  if data = [] then old else codeBlock N old data ((data.length + N - 1) / N - 1)

/-- A message of `len` bytes has always a last block that is not full. -/
def codeMsg (E : Tbc) (N off : Nat) (G M : List Byte) : List Byte :=
  chain E tMsg (M.length / N + 1) (fun i => off + min M.length ((i + 1) * N)) (fun i => zeroPad N ((M.drop (i * N)).take N)) G

/-- The output blocks are chained, the position advances by a block, and the final flag is set only if the output length is a
multiple of the block. -/
def codeOut (E : Tbc) (N n : Nat) (G : List Byte) (k : Nat) : List Byte :=
  (List.range k).foldl (fun H i => step E H (tweak tOut (8 + i * N) (i == 0) (decide ((i + 1) * N = n))) (List.replicate N 0)) G

/-- The first `len` bytes of output of a hash object created for `n` bytes. -/
def codeOutput (E : Tbc) (N n : Nat) (G : List Byte) (len : Nat) : List Byte :=
  ((List.range ((len + N - 1) / N)).flatMap fun i => codeOut E N n G (i + 1)).take len

/-- The chaining value before the message in a hash object for `n` bytes of output. -/
def codeHashStart (E : Tbc) (N n : Nat) (salt : List Byte) : List Byte :=
  let conf := config (8 * n % 2 ^ 32)
  codeUbi E N tNonce (ubi E N tCfg (List.replicate N 0) conf) (zeroPad N conf) salt

/-- What a hash object for `n` bytes of output gives when it is asked once, for `len` bytes. -/
def codeHash (E : Tbc) (N n : Nat) (salt M : List Byte) (len : Nat) : List Byte :=
  codeOutput E N n (codeMsg E N 0 (codeHashStart E N n salt) M) len

/-- The position of configuration and message in a MAC object begins at the length of the key without its lowest byte. -/
def codeMacOff (key : List Byte) : Nat := key.length / 256 * 256

/-- The chaining value before the message in a MAC object for tags of `n` bytes; `junk` are the bytes that happened to be in the
buffer. -/
def codeMacStart (E : Tbc) (N n : Nat) (junk key : List Byte) : List Byte :=
  step E (codeUbi E N tKey (List.replicate N 0) junk key) (tweak tCfg (codeMacOff key + 32) true true) (zeroPad N (config (8 * n % 2 ^ 32)))

/-- The tag. -/
def codeMac (E : Tbc) (N n : Nat) (junk key M : List Byte) : List Byte :=
  outBlock E N (codeMsg E N (codeMacOff key) (codeMacStart E N n junk key) M) 0

/-- The key of the output function of a stream. -/
def codeStreamStart (E : Tbc) (N : Nat) (junk key iv : List Byte) : List Byte :=
  let conf := config (2 ^ 64 - 1)
  codeUbi E N tNonce (ubi E N tCfg (codeUbi E N tKey (List.replicate N 0) junk key) conf) (zeroPad N conf) iv

/-- The first `N` bytes of the keystream: what is left in the buffer. -/
def codeLeak (N : Nat) (iv : List Byte) : List Byte := codeBuf N (zeroPad N (config (2 ^ 64 - 1))) iv

/-- Byte `j` of the keystream: the blocks of the output function come one block late. -/
def codeKs (E : Tbc) (N : Nat) (junk key iv : List Byte) (j : Nat) : Byte :=
  if j < N then (codeLeak N iv).getD j 0 else (outBlock E N (codeStreamStart E N junk key iv) (j / N - 1)).getD (j % N) 0

end Kripto.SkeinSpec
