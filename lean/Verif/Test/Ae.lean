import Verif.Model.Ae
import Verif.Model.Block.Rijndael
/-! # test/ae/eax.c -/
namespace Kripto.Test.Ae
open Kripto Res

private def k : List Byte := (List.range 16).map (BitVec.ofNat 8)
private def pt : List Byte := (List.range 32).map (BitVec.ofNat 8)
private def ct : List Byte := [
  0x29, 0xD8, 0x78, 0xD1, 0xA3, 0xBE, 0x85, 0x7B, 0x6F, 0xB8, 0xC8, 0xEA, 0x59, 0x50, 0xA7, 0x78,
  0x33, 0x1F, 0xBF, 0x2C, 0xCF, 0x33, 0x98, 0x6F, 0x35, 0xE8, 0xCF, 0x12, 0x1D, 0xCB, 0x30, 0xBC]
private def tag : List Byte := [0x4F, 0xBE, 0x03, 0x38, 0xBE, 0x1C, 0x8C, 0x7E, 0x1D, 0x7A, 0xE7, 0xE4, 0x5B, 0x92, 0xC5, 0x87]
private def mem (l : List Byte) : Mem := ⟨fun a => l.getD a 0, fun _ => true⟩
private abbrev A : Ae := eax Rijndael.rijndael128 (List.replicate 16 0xAA)

/-- The calls of the test program. -/
private def run : Res (List (List Byte)) := do
  let s ← kripto_ae_create A 0 (some k) (some k) 16
  let (s, m) ← kripto_ae_encrypt A s (mem (pt ++ List.replicate 32 0)) 0 32 32
  let c ← ldN m 32 32
  let s ← kripto_ae_header A s (pt.take 16)
  let (s, t) ← kripto_ae_tag A s 16
  let s ← kripto_ae_recreate A s 0 (some (pt.take 16)) (some (pt.take 16)) 16
  let (s, m) ← kripto_ae_decrypt A s (mem (ct ++ List.replicate 32 0)) 0 32 32
  let p ← ldN m 32 32
  let s ← kripto_ae_header A s (pt.take 16)
  let (_, u) ← kripto_ae_tag A s 16
  ok [c, t, p, u]

#guard run = ok [ct, tag, pt, tag]

end Kripto.Test.Ae
