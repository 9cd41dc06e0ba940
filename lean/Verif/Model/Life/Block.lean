import Verif.Model.Life.Heap
/-!
# The memory of block cipher objects: `create`, `recreate` and `destroy` of every file in `lib/block`

`hdr` is `sizeof(kripto_block)`, which depends on the platform.
-/
namespace Kripto.Life
open Res

/-- what distinguishes the ciphers here -/
structure BlockMem where
  /-- the number of rounds for the argument `r` and a key of `n` bytes -/
  eff : Nat → Nat → Nat
  /-- the bytes that `create` allocates beyond the structure, for `r` rounds -/
  alloc : Nat → Nat
  /-- the bytes that `destroy` wipes beyond the structure, for `r` rounds -/
  wiped : Nat → Nat
  /-- `recreate` destroys the object and creates another one if the number of rounds changes -/
  resize : Bool

/-- an object: its address and the field `rounds` (`r`, `steps`) -/
structure BlockObj where
  p : Ptr
  r : Nat

/-- `X_create`, e.g. lib/block/aria.c:655-683. Simplification: the key schedule counts as a write to the whole object; that
it stays inside is C13. -/
def BlockMem.create (B : BlockMem) (hdr : Nat) (a : Nat × Nat) : H (Option BlockObj) := do
  let r := B.eff a.1 a.2
  match ← malloc (hdr + B.alloc r) with
  | none => pure none
  | some p => do
    write p 0 (hdr + B.alloc r)
    pure (some ⟨p, r⟩)

/-- `X_destroy`, e.g. lib/block/aria.c:685-689 -/
def BlockMem.destroy (B : BlockMem) (hdr : Nat) (s : BlockObj) : H Unit := do
  wipe s.p 0 (hdr + B.wiped s.r)
  free s.p

/-- `X_recreate`, e.g. lib/block/aria.c:691-717: `X_destroy(s); s = X_create(s->desc, ...)` reads `s->desc` after the object
has been freed. -/
def BlockMem.recreate (B : BlockMem) (hdr : Nat) (s : BlockObj) (a : Nat × Nat) : H (Option BlockObj) := do
  let r := B.eff a.1 a.2
  if B.resize ∧ r ≠ s.r then
    B.destroy hdr s
    touch s.p
    B.create hdr a
  else
    write s.p 0 (hdr + B.alloc s.r)
    pure (some { s with r := if B.resize then s.r else r })

/-- The functions of a cipher. The other calls (`tweak`, `encrypt`, `decrypt`) use the object's own memory. -/
def BlockMem.cls (B : BlockMem) (hdr : Nat) : Cls where
  Arg := Nat × Nat
  Obj := BlockObj
  create := B.create hdr
  recreate := B.recreate hdr
  use s := write s.p 0 (hdr + B.alloc s.r)
  destroy := B.destroy hdr

/-- `if(!r) r = d;` -/
def def0 (d r : Nat) : Nat := if r = 0 then d else r

/-- lib/block/xtea.c:103-125 `xtea_create`, 127-131 `xtea_destroy`, 133-154 `xtea_recreate` -/
def xtea : BlockMem where
  eff := fun r _ => def0 64 r
  alloc := fun r => u32 (r * 4)
  wiped := fun r => u32 (r * 4)
  resize := true

/-- lib/block/rc5.c:117-139 `rc5_create`, 141-145 `rc5_destroy`, 147-168 `rc5_recreate` -/
def rc5 : BlockMem where
  eff := fun r _ => def0 12 r
  alloc := fun r => u32 ((r + 1) * 8)
  wiped := fun r => u32 ((r + 1) * 8)
  resize := true

/-- lib/block/rc6.c:158-180 `rc6_create`, 182-186 `rc6_destroy`, 188-209 `rc6_recreate` (`RC6_K_LEN`: line 36) -/
def rc6 : BlockMem where
  eff := fun r _ => def0 20 r
  alloc := fun r => u32 ((r + 2) * 2 * 4)
  wiped := fun r => u32 ((r + 2) * 2 * 4)
  resize := true

/-- lib/block/shacal2.c:194-215 `shacal2_create`, 217-221 `shacal2_destroy`, 223-246 `shacal2_recreate` -/
def shacal2 : BlockMem where
  eff := fun r _ => def0 64 r
  alloc := fun r => u32 (r * 4)
  wiped := fun r => u32 (r * 4)
  resize := true

/-- lib/block/trax_m.c:182-202 `trax_m_create`, 204-208 `trax_m_destroy`, 210-231 `trax_m_recreate` -/
def trax_m : BlockMem where
  eff := fun r _ => def0 14 r
  alloc := fun r => u32 ((r + 1) * 16)
  wiped := fun r => u32 ((r + 1) * 16)
  resize := true

/-- lib/block/trax_l.c:250-270 `trax_l_create`, 272-276 `trax_l_destroy`, 278-299 `trax_l_recreate` -/
def trax_l : BlockMem where
  eff := fun r _ => def0 17 r
  alloc := fun r => u32 ((r + 1) * 32)
  wiped := fun r => u32 ((r + 1) * 32)
  resize := true

/-- lib/block/blowfish.c:480-502 `blowfish_create`, 504-508 `blowfish_destroy`, 510-531 `blowfish_recreate` -/
def blowfish : BlockMem where
  eff := fun r _ => def0 16 r
  alloc := fun r => u32 ((r + 2) * 4)
  wiped := fun r => u32 ((r + 2) * 4)
  resize := true

/-- lib/block/seed.c:418-440 `seed_create`, 442-446 `seed_destroy`, 448-469 `seed_recreate` -/
def seed : BlockMem where
  eff := fun r _ => def0 16 r
  alloc := fun r => u32 (r * 8)
  wiped := fun r => u32 (r * 8)
  resize := true

/-- lib/block/sm4.c:186-205 `sm4_create`, 207-211 `sm4_destroy`, 213-234 `sm4_recreate` -/
def sm4 : BlockMem where
  eff := fun r _ => def0 32 r
  alloc := fun r => u32 (r * 4)
  wiped := fun r => u32 (r * 4)
  resize := true

/-- lib/block/twofish.c:1185-1207 `twofish_create`, 1209-1213 `twofish_destroy`, 1215-1236 `twofish_recreate` (`TWOFISH_K_LEN`: line 41) -/
def twofish : BlockMem where
  eff := fun r _ => def0 16 r
  alloc := fun r => u32 ((r * 2 + 8) * 4)
  wiped := fun r => u32 ((r * 2 + 8) * 4)
  resize := true

/-- lib/block/khazad.c:707-730 `khazad_create`, 732-736 `khazad_destroy`, 738-759 `khazad_recreate` -/
def khazad : BlockMem where
  eff := fun r _ => def0 8 r
  alloc := fun r => u32 ((r + 1) * 16)
  wiped := fun r => u32 ((r + 1) * 16)
  resize := true

/-- lib/block/serpent.c:668-690 `serpent_create`, 692-696 `serpent_destroy`, 698-719 `serpent_recreate` -/
def serpent : BlockMem where
  eff := fun r _ => def0 32 r
  alloc := fun r => u32 ((r + 1) * 16)
  wiped := fun r => u32 ((r + 1) * 16)
  resize := true

/-- lib/block/rectangle.c:245-267 `rectangle_create`, 269-273 `rectangle_destroy`, 275-298 `rectangle_recreate` -/
def rectangle : BlockMem where
  eff := fun r _ => def0 25 r
  alloc := fun r => u32 ((r + 1) * 8)
  wiped := fun r => u32 ((r + 1) * 8)
  resize := true

/-- lib/block/idea.c:172-195 `idea_create`, 197-201 `idea_destroy`, 203-224 `idea_recreate` -/
def idea : BlockMem where
  eff := fun r _ => def0 8 r
  alloc := fun r => u32 (r * 24) + 16
  wiped := fun r => u32 (r * 24) + 16
  resize := true

/-- lib/block/lea.c:203-227 `lea_create`, 229-233 `lea_destroy`, 235-261 `lea_recreate` -/
def lea : BlockMem where
  eff := fun r n => def0 (if n > 24 then 32 else if n > 16 then 28 else 24) r
  alloc := fun r => u32 (r * 24)
  wiped := fun r => u32 (r * 24)
  resize := true

/-- lib/block/anubis.c:722-749 `anubis_create`, 751-755 `anubis_destroy`, 757-782 `anubis_recreate` -/
def anubis : BlockMem where
  eff := fun r n => def0 (if 8 + (n + 3) / 4 < 12 then 12 else 8 + (n + 3) / 4) r
  alloc := fun r => u32 ((r + 1) * 32)
  wiped := fun r => u32 ((r + 1) * 32)
  resize := true

/-- lib/block/aria.c:655-683 `aria_create`, 685-689 `aria_destroy`, 691-717 `aria_recreate` -/
def aria : BlockMem where
  eff := fun r n => def0 (max 12 (8 + (n + 3) / 4 + (n + 3) / 4 % 2)) r
  alloc := fun r => u32 ((r + 1) * 32)
  wiped := fun r => u32 ((r + 1) * 32)
  resize := true

/-- lib/block/saferpp.c:369-395 `saferpp_create`, 363-367 `saferpp_destroy`, 397-422 `saferpp_recreate` -/
def saferpp : BlockMem where
  eff := fun r n => def0 (if n > 16 then 10 else 7) r
  alloc := fun r => u32 (r * 32) + 16
  wiped := fun r => u32 (r * 32) + 16
  resize := true

/-- lib/block/safer.c:308-334 `safer_create`, 302-306 `safer_destroy`, 336-360 `safer_recreate` -/
def safer : BlockMem where
  eff := fun r n => def0 (if n > 8 then 10 else 6) r
  alloc := fun r => u32 (r * 16) + 8
  wiped := fun r => u32 (r * 16) + 8
  resize := true

/-- lib/block/safer.c:362-387 `safer_sk_create`, 302-306 `safer_destroy`, 389-413 `safer_sk_recreate` -/
def safer_sk : BlockMem where
  eff := fun r n => def0 (if n > 8 then 10 else 6) r
  alloc := fun r => u32 (r * 16) + 8
  wiped := fun r => u32 (r * 16) + 8
  resize := true

/-- lib/block/rijndael.c:886-913 `rijndael128_create`, 915-919 `rijndael128_destroy`, 921-946 `rijndael128_recreate` -/
def rijndael128 : BlockMem where
  eff := fun r n => def0 (if 6 + (n + 3) / 4 < 10 then 10 else 6 + (n + 3) / 4) r
  alloc := fun r => u32 ((r + 1) * 32)
  wiped := fun r => u32 ((r + 1) * 32)
  resize := true

/-- lib/block/rijndael.c:1119-1146 `rijndael256_create`, 1148-1152 `rijndael256_destroy`, 1154-1179 `rijndael256_recreate` -/
def rijndael256 : BlockMem where
  eff := fun r n => def0 (if 6 + (n + 3) / 4 < 14 then 14 else 6 + (n + 3) / 4) r
  alloc := fun r => u32 ((r + 1) * 64)
  wiped := fun r => u32 ((r + 1) * 64)
  resize := true

/-- lib/block/gost.c:141-173 `gost_create`, 175-179 `gost_destroy`, 181-202 `gost_recreate` -/
def gost : BlockMem where
  eff := fun r _ => def0 32 r
  alloc := fun r => u32 (r * 4)
  wiped := fun r => u32 (r * 4)
  resize := true

/-- lib/block/speck32.c:105-127 `speck32_create`, 129-133 `speck32_destroy`, 135-156 `speck32_recreate` -/
def speck32 : BlockMem where
  eff := fun r _ => def0 22 r
  alloc := fun r => u32 (r * 2)
  wiped := fun r => u32 (r * 2)
  resize := true

/-- lib/block/speck64.c:105-127 `speck64_create`, 129-133 `speck64_destroy`, 135-156 `speck64_recreate` -/
def speck64 : BlockMem where
  eff := fun r n => def0 (23 + (n + 3) / 4) r
  alloc := fun r => u32 (r * 4)
  wiped := fun r => u32 (r * 4)
  resize := true

/-- lib/block/speck128.c:105-127 `speck128_create`, 129-133 `speck128_destroy`, 135-156 `speck128_recreate` -/
def speck128 : BlockMem where
  eff := fun r n => def0 (30 + (n + 7) / 8) r
  alloc := fun r => u32 (r * 8)
  wiped := fun r => u32 (r * 8)
  resize := true

/-- lib/block/simon32.c:115-137 `simon32_create`, 139-143 `simon32_destroy`, 145-166 `simon32_recreate` -/
def simon32 : BlockMem where
  eff := fun r _ => def0 32 r
  alloc := fun r => u32 (r * 2)
  wiped := fun r => u32 (r * 2)
  resize := true

/-- lib/block/simon64.c:126-148 `simon64_create`, 150-154 `simon64_destroy`, 156-177 `simon64_recreate` -/
def simon64 : BlockMem where
  eff := fun r n => def0 (36 + (n + 3) / 4 * 2) r
  alloc := fun r => u32 (r * 4)
  wiped := fun r => u32 (r * 4)
  resize := true

/-- lib/block/simon128.c:127-157 `simon128_create`, 159-163 `simon128_destroy`, 165-194 `simon128_recreate` -/
def simon128 : BlockMem where
  eff := fun r n => def0 (if (n + 7) / 8 = 3 then 69 else if (n + 7) / 8 = 4 then 72 else 68) r
  alloc := fun r => u32 (r * 8)
  wiped := fun r => u32 (r * 8)
  resize := true

/-- lib/block/3way.c:202-216 `threeway_create`, 218-222 `threeway_destroy`, 175-200 `threeway_recreate` -/
def threeway : BlockMem := ⟨fun _ _ => 0, fun _ => 0, fun _ => 0, false⟩

/-- lib/block/camellia.c:655-671 `camellia_create`, 673-677 `camellia_destroy`, 636-653 `camellia_recreate` -/
def camellia : BlockMem := ⟨fun _ _ => 0, fun _ => 0, fun _ => 0, false⟩

/-- lib/block/cast5.c:793-807 `cast5_create`, 809-813 `cast5_destroy`, 691-791 `cast5_recreate` -/
def cast5 : BlockMem := ⟨fun _ _ => 0, fun _ => 0, fun _ => 0, false⟩

/-- lib/block/crax_s.c:135-154 `crax_s_create`, 156-160 `crax_s_destroy`, 162-177 `crax_s_recreate` -/
def crax_s : BlockMem := ⟨fun _ _ => 0, fun _ => 0, fun _ => 0, false⟩

/-- lib/block/des.c:488-506 `des_create`, 508-512 `des_destroy`, 514-527 `des_recreate` -/
def des : BlockMem := ⟨fun _ _ => 0, fun _ => 0, fun _ => 0, false⟩

/-- lib/block/noekeon.c:178-195 `noekeon_create`, 211-215 `noekeon_destroy`, 197-209 `noekeon_recreate` -/
def noekeon : BlockMem := ⟨fun _ _ => 0, fun _ => 0, fun _ => 0, false⟩

/-- lib/block/rc2.c:190-204 `rc2_create`, 206-210 `rc2_destroy`, 74-104 `rc2_recreate` -/
def rc2 : BlockMem := ⟨fun _ _ => 0, fun _ => 0, fun _ => 0, false⟩

/-- lib/block/skipjack.c:217-231 `skipjack_create`, 233-237 `skipjack_destroy`, 193-215 `skipjack_recreate` -/
def skipjack : BlockMem := ⟨fun _ _ => 0, fun _ => 0, fun _ => 0, false⟩

/-- lib/block/tea.c:87-101 `tea_create`, 103-107 `tea_destroy`, 68-85 `tea_recreate` -/
def tea : BlockMem := ⟨fun _ _ => 0, fun _ => 0, fun _ => 0, false⟩

/-- lib/block/threefish256.c:192-206 `threefish256_create`, 208-212 `threefish256_destroy`, 172-190 `threefish256_recreate` -/
def threefish256 : BlockMem := ⟨fun _ _ => 0, fun _ => 0, fun _ => 0, false⟩

/-- lib/block/threefish512.c:261-275 `threefish512_create`, 277-281 `threefish512_destroy`, 240-259 `threefish512_recreate` -/
def threefish512 : BlockMem := ⟨fun _ _ => 0, fun _ => 0, fun _ => 0, false⟩

/-- lib/block/threefish1024.c:400-414 `threefish1024_create`, 416-420 `threefish1024_destroy`, 377-398 `threefish1024_recreate` -/
def threefish1024 : BlockMem := ⟨fun _ _ => 0, fun _ => 0, fun _ => 0, false⟩

/-- all ciphers of the library -/
def allBlocks : List BlockMem :=
  [xtea, rc5, rc6, shacal2, trax_m, trax_l, blowfish, seed,
   sm4, twofish, khazad, serpent, rectangle, idea, lea, anubis,
   aria, saferpp, safer, safer_sk, rijndael128, rijndael256, gost, speck32,
   speck64, speck128, simon32, simon64, simon128, threeway, camellia, cast5,
   crax_s, des, noekeon, rc2, skipjack, tea, threefish256, threefish512,
   threefish1024]

/-- lib/block/gost.c:204-222 `kripto_block_gost`: the descriptor is written to without looking whether `malloc` succeeded. `sz` is
`sizeof(kripto_desc_block) + sizeof(struct gost)`. -/
def gostDesc (sz : Nat) : H (Option Ptr) := do
  match ← malloc sz with
  | none => bad
  | some p => do
    touch p
    pure (some p)

end Kripto.Life
