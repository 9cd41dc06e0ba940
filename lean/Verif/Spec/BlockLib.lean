import Verif.Model.Block.Tea
import Verif.Model.Block.Xtea
import Verif.Model.Block.Rc5
import Verif.Model.Block.Rc6
import Verif.Model.Block.Speck
import Verif.Model.Block.Simon
import Verif.Model.Block.Shacal2
import Verif.Model.Block.Threefish
import Verif.Model.Block.CraxS
import Verif.Model.Block.TraxM
import Verif.Model.Block.TraxL
import Verif.Model.Block.Lea
import Verif.Model.Block.Des
import Verif.Model.Block.Blowfish
import Verif.Model.Block.Cast5
import Verif.Model.Block.Camellia
import Verif.Model.Block.Gost
import Verif.Model.Block.Seed
import Verif.Model.Block.Sm4
import Verif.Model.Block.Twofish
import Verif.Model.Block.Skipjack
import Verif.Model.Block.Rc2
import Verif.Model.Block.Rijndael
import Verif.Model.Block.Anubis
import Verif.Model.Block.Khazad
import Verif.Model.Block.Aria
import Verif.Model.Block.Serpent
import Verif.Model.Block.Noekeon
import Verif.Model.Block.Threeway
import Verif.Model.Block.Rectangle
import Verif.Model.Block.Idea
import Verif.Model.Block.Safer
import Verif.Model.Block.Saferpp
import Verif.Spec.Block
/-!
# The block ciphers of the library and the parameters they work for

`Supported C r key`: the cipher `C` created with `r` rounds (0 asks for the default number) and this key is one
of the combinations for which the library's block functions are expected to work. Every condition beyond the
maximal key length of the descriptor is one that the C code needs; what happens outside is the subject of
property C12.
-/
namespace Kripto

/-- The supported combinations of cipher, number of rounds and key. -/
inductive Supported : Cipher → Nat → List Byte → Prop where
  /-- TEA -/
  | tea {r key} (hk : 1 ≤ key.length ∧ key.length ≤ 16) (hr : r < 2 ^ 32) : Supported Tea.tea r key
  /-- XTEA -/
  | xtea {r key} (hk : 1 ≤ key.length ∧ key.length ≤ 16) (hr : r % 2 = 0 ∧ r < 2 ^ 30) : Supported Xtea.xtea r key
  /-- RC5 -/
  | rc5 {r key} (hk : 1 ≤ key.length ∧ key.length ≤ 255) (hr : r < 2 ^ 29 - 1) : Supported Rc5.rc5 r key
  /-- RC6 -/
  | rc6 {r key} (hk : 1 ≤ key.length ∧ key.length ≤ 255) (hr : r < 2 ^ 29 - 2) : Supported Rc6.rc6 r key
  /-- Speck32 -/
  | speck32 {r key} (hk : 3 ≤ key.length ∧ key.length ≤ 8) (hr : r < 2 ^ 31) : Supported Speck.speck32 r key
  /-- Speck64 -/
  | speck64 {r key} (hk : 5 ≤ key.length ∧ key.length ≤ 16) (hr : r < 2 ^ 30) : Supported Speck.speck64 r key
  /-- Speck128 -/
  | speck128 {r key} (hk : 9 ≤ key.length ∧ key.length ≤ 32) (hr : r < 2 ^ 29) : Supported Speck.speck128 r key
  /-- Simon32 -/
  | simon32 {r key} (hk : 1 ≤ key.length ∧ key.length ≤ 8) (hr : (r = 0 ∨ 4 ≤ r) ∧ r * 2 < 2 ^ 32) : Supported Simon.simon32 r key
  /-- Simon64 -/
  | simon64 {r key} (hk : 1 ≤ key.length ∧ key.length ≤ 16) (hr : (r = 0 ∨ max 3 ((key.length + 3) / 4) ≤ r) ∧ r * 4 < 2 ^ 32) : Supported Simon.simon64 r key
  /-- Simon128 -/
  | simon128 {r key} (hk : 1 ≤ key.length ∧ key.length ≤ 32) (hr : (r = 0 ∨ max 2 ((key.length + 7) / 8) ≤ r) ∧ r * 8 < 2 ^ 32) : Supported Simon.simon128 r key
  /-- SHACAL-2 -/
  | shacal2 {r key} (hk : 1 ≤ key.length ∧ key.length ≤ 64) (hr : r % 8 = 0 ∧ r ≠ 8 ∧ r < 128) : Supported Shacal2.shacal2 r key
  /-- Threefish-256 -/
  | threefish256 {r key} (hk : 1 ≤ key.length ∧ key.length ≤ 32) (hr : r / 4 % 2 = 0) : Supported Threefish.threefish256 r key
  /-- Threefish-512 -/
  | threefish512 {r key} (hk : 1 ≤ key.length ∧ key.length ≤ 64) (hr : r / 4 % 2 = 0) : Supported Threefish.threefish512 r key
  /-- Threefish-1024 -/
  | threefish1024 {r key} (hk : 1 ≤ key.length ∧ key.length ≤ 128) (hr : r / 4 % 2 = 0) : Supported Threefish.threefish1024 r key
  /-- CRAX-S -/
  | crax_s {r key} (hk : 1 ≤ key.length ∧ key.length ≤ 16) (hr : r < 2 ^ 32) : Supported CraxS.crax_s r key
  /-- TRAX-M -/
  | trax_m {r key} (hk : 1 ≤ key.length ∧ key.length ≤ 16) (hr : r < 2 ^ 28 - 1) : Supported TraxM.trax_m r key
  /-- TRAX-L -/
  | trax_l {r key} (hk : 1 ≤ key.length ∧ key.length ≤ 32) (hr : r < 2 ^ 27 - 1) : Supported TraxL.trax_l r key
  /-- LEA -/
  | lea {r key} (hk : 1 ≤ key.length ∧ key.length ≤ 32) (hr : r % 4 = 0 ∧ r * 24 < 2 ^ 32) : Supported Lea.lea r key
  /-- DES and triple DES -/
  | des {r key} (hk : 1 ≤ key.length ∧ key.length ≤ 24) (hr : r < 2 ^ 32) : Supported Des.des r key
  /-- Blowfish -/
  | blowfish {r key} (hk : 1 ≤ key.length ∧ key.length ≤ 56) (hr : r ≤ 34) : Supported Blowfish.blowfish r key
  /-- CAST5 -/
  | cast5 {r key} (hk : 1 ≤ key.length ∧ key.length ≤ 16) (hr : r = 0) : Supported Cast5.cast5 r key
  /-- Camellia -/
  | camellia {r key} (hk : 1 ≤ key.length ∧ key.length ≤ 32) (hr : r = 0) : Supported Camellia.camellia r key
  /-- GOST 28147-89 (CBR) -/
  | gost_cbr {r key} (hk : 1 ≤ key.length ∧ key.length ≤ 32) (hr : r % 2 = 0 ∧ (r = 0 ∨ 2 * ((key.length + 3) / 4) ≤ r) ∧ r * 4 < 2 ^ 32) : Supported Gost.gost_cbr r key
  /-- GOST R 34.12-2015 (Magma) -/
  | gost_r34_12_2015 {r key} (hk : 1 ≤ key.length ∧ key.length ≤ 32) (hr : r % 2 = 0 ∧ (r = 0 ∨ 2 * ((key.length + 3) / 4) ≤ r) ∧ r * 4 < 2 ^ 32) : Supported Gost.gost_r34_12_2015 r key
  /-- SEED -/
  | seed {r key} (hk : 1 ≤ key.length ∧ key.length ≤ 16) (hr : r * 8 < 2 ^ 32) : Supported Seed.seed r key
  /-- SM4 -/
  | sm4 {r key} (hk : 1 ≤ key.length ∧ key.length ≤ 16) (hr : r % 4 = 0 ∧ r ≤ 32) : Supported Sm4.sm4 r key
  /-- Twofish -/
  | twofish {r key} (hk : 1 ≤ key.length ∧ key.length ≤ 32) (hr : r % 2 = 0 ∧ r < 2 ^ 29 - 4) : Supported Twofish.twofish r key
  /-- Skipjack -/
  | skipjack {r key} (hk : 1 ≤ key.length ∧ key.length ≤ 10) (hr : r = 0 ∨ r = 32) : Supported Skipjack.skipjack r key
  /-- RC2 -/
  | rc2 {r key} (hk : 1 ≤ key.length ∧ key.length ≤ 128) (hr : r < 2 ^ 32) : Supported Rc2.rc2 r key
  /-- Rijndael-128 (AES) -/
  | rijndael128 {r key} (hk : 1 ≤ key.length ∧ key.length ≤ 32) (hr : r = 0 ∨ (r + 1) * 4 ≤ 53 * ((key.length + 3) / 4)) : Supported Rijndael.rijndael128 r key
  /-- Rijndael-256 -/
  | rijndael256 {r key} (hk : 1 ≤ key.length ∧ key.length ≤ 32) (hr : (r = 0 ∧ 9 ≤ key.length) ∨ (r ≠ 0 ∧ (r + 1) * 8 ≤ 53 * ((key.length + 3) / 4))) : Supported Rijndael.rijndael256 r key
  /-- Anubis -/
  | anubis {r key} (hk : 1 ≤ key.length ∧ key.length ≤ 40) (hr : r ≤ 64) : Supported Anubis.anubis r key
  /-- Khazad -/
  | khazad {r key} (hk : 1 ≤ key.length ∧ key.length ≤ 16) (hr : r ≤ 8) : Supported Khazad.khazad r key
  /-- ARIA -/
  | aria {r key} (hk : 1 ≤ key.length ∧ key.length ≤ 32) (hr : r % 2 = 0 ∧ r < 2 ^ 27 - 1) : Supported Aria.aria r key
  /-- Serpent -/
  | serpent {r key} (hk : 1 ≤ key.length ∧ key.length ≤ 32) (hr : r % 8 = 0 ∧ r < 2 ^ 28) : Supported Serpent.serpent r key
  /-- Noekeon -/
  | noekeon {r key} (hk : 1 ≤ key.length ∧ key.length ≤ 16) (hr : r ≤ 33) : Supported Noekeon.noekeon r key
  /-- 3-Way -/
  | threeway {r key} (hk : 1 ≤ key.length ∧ key.length ≤ 12) (hr : r = 0 ∨ r = 11) : Supported Threeway.threeway r key
  /-- Rectangle -/
  | rectangle {r key} (hk : 1 ≤ key.length ∧ key.length ≤ 16) (hr : r ≤ 25) : Supported Rectangle.rectangle r key
  /-- IDEA -/
  | idea {r key} (hk : 1 ≤ key.length ∧ key.length ≤ 16) (hr : r * 24 + 16 < 2 ^ 32) : Supported Idea.idea r key
  /-- SAFER K -/
  | safer {r key} (hk : key.length = 8 ∨ key.length = 16) (hr : r < 2 ^ 28) : Supported Safer.safer r key
  /-- SAFER SK -/
  | safer_sk {r key} (hk : key.length = 8 ∨ key.length = 16) (hr : r < 2 ^ 28) : Supported Safer.saferSk r key
  /-- SAFER++ -/
  | saferpp {r key} (hk : key.length = 16 ∨ key.length = 32) (hr : r < 2 ^ 27) : Supported Saferpp.saferpp r key

end Kripto
