import Verif.Base.Bytes
/-!
# The round functions of `lib/hash/keccak1600.c` and `lib/hash/keccak800.c`

Generated by tools/genkeccak.py, statement by statement, from the loop bodies of `keccak1600_F` and `keccak800_F`.
-/
namespace Kripto.Keccak

/-- lib/hash/keccak1600.c:69-288 `keccak1600_F`: one iteration of the loop; `a` holds the variables `a0` .. `a24`, `rc` is `rc[i]`. -/
def round1600 (rc : BitVec 64) (a : Vector (BitVec 64) 25) : Vector (BitVec 64) 25 :=
  let a0 := a[0]
  let a1 := a[1]
  let a2 := a[2]
  let a3 := a[3]
  let a4 := a[4]
  let a5 := a[5]
  let a6 := a[6]
  let a7 := a[7]
  let a8 := a[8]
  let a9 := a[9]
  let a10 := a[10]
  let a11 := a[11]
  let a12 := a[12]
  let a13 := a[13]
  let a14 := a[14]
  let a15 := a[15]
  let a16 := a[16]
  let a17 := a[17]
  let a18 := a[18]
  let a19 := a[19]
  let a20 := a[20]
  let a21 := a[21]
  let a22 := a[22]
  let a23 := a[23]
  let a24 := a[24]
  let c0 := a0 ^^^ a5 ^^^ a10 ^^^ a15 ^^^ a20
  let c1 := a1 ^^^ a6 ^^^ a11 ^^^ a16 ^^^ a21
  let c2 := a2 ^^^ a7 ^^^ a12 ^^^ a17 ^^^ a22
  let c3 := a3 ^^^ a8 ^^^ a13 ^^^ a18 ^^^ a23
  let c4 := a4 ^^^ a9 ^^^ a14 ^^^ a19 ^^^ a24
  let d0 := (rol c1 1) ^^^ c4
  let d1 := (rol c2 1) ^^^ c0
  let d2 := (rol c3 1) ^^^ c1
  let d3 := (rol c4 1) ^^^ c2
  let d4 := (rol c0 1) ^^^ c3
  let a0 := a0 ^^^ d0
  let c0 := a0
  let a6 := a6 ^^^ d1
  let c1 := (rol a6 44)
  let a12 := a12 ^^^ d2
  let c2 := (rol a12 43)
  let a18 := a18 ^^^ d3
  let c3 := (rol a18 21)
  let a24 := a24 ^^^ d4
  let c4 := (rol a24 14)
  let b0 := c0 ^^^ ((~~~c1) &&& c2) ^^^ rc
  let b1 := c1 ^^^ ((~~~c2) &&& c3)
  let b2 := c2 ^^^ ((~~~c3) &&& c4)
  let b3 := c3 ^^^ ((~~~c4) &&& c0)
  let b4 := c4 ^^^ ((~~~c0) &&& c1)
  let a3 := a3 ^^^ d3
  let c0 := (rol a3 28)
  let a9 := a9 ^^^ d4
  let c1 := (rol a9 20)
  let a10 := a10 ^^^ d0
  let c2 := (rol a10 3)
  let a16 := a16 ^^^ d1
  let c3 := (rol a16 45)
  let a22 := a22 ^^^ d2
  let c4 := (rol a22 61)
  let b5 := c0 ^^^ ((~~~c1) &&& c2)
  let b6 := c1 ^^^ ((~~~c2) &&& c3)
  let b7 := c2 ^^^ ((~~~c3) &&& c4)
  let b8 := c3 ^^^ ((~~~c4) &&& c0)
  let b9 := c4 ^^^ ((~~~c0) &&& c1)
  let a1 := a1 ^^^ d1
  let c0 := (rol a1 1)
  let a7 := a7 ^^^ d2
  let c1 := (rol a7 6)
  let a13 := a13 ^^^ d3
  let c2 := (rol a13 25)
  let a19 := a19 ^^^ d4
  let c3 := (rol a19 8)
  let a20 := a20 ^^^ d0
  let c4 := (rol a20 18)
  let b10 := c0 ^^^ ((~~~c1) &&& c2)
  let b11 := c1 ^^^ ((~~~c2) &&& c3)
  let b12 := c2 ^^^ ((~~~c3) &&& c4)
  let b13 := c3 ^^^ ((~~~c4) &&& c0)
  let b14 := c4 ^^^ ((~~~c0) &&& c1)
  let a4 := a4 ^^^ d4
  let c0 := (rol a4 27)
  let a5 := a5 ^^^ d0
  let c1 := (rol a5 36)
  let a11 := a11 ^^^ d1
  let c2 := (rol a11 10)
  let a17 := a17 ^^^ d2
  let c3 := (rol a17 15)
  let a23 := a23 ^^^ d3
  let c4 := (rol a23 56)
  let b15 := c0 ^^^ ((~~~c1) &&& c2)
  let b16 := c1 ^^^ ((~~~c2) &&& c3)
  let b17 := c2 ^^^ ((~~~c3) &&& c4)
  let b18 := c3 ^^^ ((~~~c4) &&& c0)
  let b19 := c4 ^^^ ((~~~c0) &&& c1)
  let a2 := a2 ^^^ d2
  let c0 := (rol a2 62)
  let a8 := a8 ^^^ d3
  let c1 := (rol a8 55)
  let a14 := a14 ^^^ d4
  let c2 := (rol a14 39)
  let a15 := a15 ^^^ d0
  let c3 := (rol a15 41)
  let a21 := a21 ^^^ d1
  let c4 := (rol a21 2)
  let b20 := c0 ^^^ ((~~~c1) &&& c2)
  let b21 := c1 ^^^ ((~~~c2) &&& c3)
  let b22 := c2 ^^^ ((~~~c3) &&& c4)
  let b23 := c3 ^^^ ((~~~c4) &&& c0)
  let b24 := c4 ^^^ ((~~~c0) &&& c1)
  let a0 := b0
  let a1 := b1
  let a2 := b2
  let a3 := b3
  let a4 := b4
  let a5 := b5
  let a6 := b6
  let a7 := b7
  let a8 := b8
  let a9 := b9
  let a10 := b10
  let a11 := b11
  let a12 := b12
  let a13 := b13
  let a14 := b14
  let a15 := b15
  let a16 := b16
  let a17 := b17
  let a18 := b18
  let a19 := b19
  let a20 := b20
  let a21 := b21
  let a22 := b22
  let a23 := b23
  let a24 := b24
  #v[a0, a1, a2, a3, a4, a5, a6, a7, a8, a9, a10, a11, a12, a13, a14, a15, a16, a17, a18, a19, a20, a21, a22, a23, a24]

/-- lib/hash/keccak800.c:54-273 `keccak800_F`: one iteration of the loop; `a` holds the variables `a0` .. `a24`, `rc` is `rc[i]`. -/
def round800 (rc : BitVec 32) (a : Vector (BitVec 32) 25) : Vector (BitVec 32) 25 :=
  let a0 := a[0]
  let a1 := a[1]
  let a2 := a[2]
  let a3 := a[3]
  let a4 := a[4]
  let a5 := a[5]
  let a6 := a[6]
  let a7 := a[7]
  let a8 := a[8]
  let a9 := a[9]
  let a10 := a[10]
  let a11 := a[11]
  let a12 := a[12]
  let a13 := a[13]
  let a14 := a[14]
  let a15 := a[15]
  let a16 := a[16]
  let a17 := a[17]
  let a18 := a[18]
  let a19 := a[19]
  let a20 := a[20]
  let a21 := a[21]
  let a22 := a[22]
  let a23 := a[23]
  let a24 := a[24]
  let c0 := a0 ^^^ a5 ^^^ a10 ^^^ a15 ^^^ a20
  let c1 := a1 ^^^ a6 ^^^ a11 ^^^ a16 ^^^ a21
  let c2 := a2 ^^^ a7 ^^^ a12 ^^^ a17 ^^^ a22
  let c3 := a3 ^^^ a8 ^^^ a13 ^^^ a18 ^^^ a23
  let c4 := a4 ^^^ a9 ^^^ a14 ^^^ a19 ^^^ a24
  let d0 := (rol c1 1) ^^^ c4
  let d1 := (rol c2 1) ^^^ c0
  let d2 := (rol c3 1) ^^^ c1
  let d3 := (rol c4 1) ^^^ c2
  let d4 := (rol c0 1) ^^^ c3
  let a0 := a0 ^^^ d0
  let c0 := a0
  let a6 := a6 ^^^ d1
  let c1 := (rol a6 12)
  let a12 := a12 ^^^ d2
  let c2 := (rol a12 11)
  let a18 := a18 ^^^ d3
  let c3 := (rol a18 21)
  let a24 := a24 ^^^ d4
  let c4 := (rol a24 14)
  let b0 := c0 ^^^ ((~~~c1) &&& c2) ^^^ rc
  let b1 := c1 ^^^ ((~~~c2) &&& c3)
  let b2 := c2 ^^^ ((~~~c3) &&& c4)
  let b3 := c3 ^^^ ((~~~c4) &&& c0)
  let b4 := c4 ^^^ ((~~~c0) &&& c1)
  let a3 := a3 ^^^ d3
  let c0 := (rol a3 28)
  let a9 := a9 ^^^ d4
  let c1 := (rol a9 20)
  let a10 := a10 ^^^ d0
  let c2 := (rol a10 3)
  let a16 := a16 ^^^ d1
  let c3 := (rol a16 13)
  let a22 := a22 ^^^ d2
  let c4 := (rol a22 29)
  let b5 := c0 ^^^ ((~~~c1) &&& c2)
  let b6 := c1 ^^^ ((~~~c2) &&& c3)
  let b7 := c2 ^^^ ((~~~c3) &&& c4)
  let b8 := c3 ^^^ ((~~~c4) &&& c0)
  let b9 := c4 ^^^ ((~~~c0) &&& c1)
  let a1 := a1 ^^^ d1
  let c0 := (rol a1 1)
  let a7 := a7 ^^^ d2
  let c1 := (rol a7 6)
  let a13 := a13 ^^^ d3
  let c2 := (rol a13 25)
  let a19 := a19 ^^^ d4
  let c3 := (rol a19 8)
  let a20 := a20 ^^^ d0
  let c4 := (rol a20 18)
  let b10 := c0 ^^^ ((~~~c1) &&& c2)
  let b11 := c1 ^^^ ((~~~c2) &&& c3)
  let b12 := c2 ^^^ ((~~~c3) &&& c4)
  let b13 := c3 ^^^ ((~~~c4) &&& c0)
  let b14 := c4 ^^^ ((~~~c0) &&& c1)
  let a4 := a4 ^^^ d4
  let c0 := (rol a4 27)
  let a5 := a5 ^^^ d0
  let c1 := (rol a5 4)
  let a11 := a11 ^^^ d1
  let c2 := (rol a11 10)
  let a17 := a17 ^^^ d2
  let c3 := (rol a17 15)
  let a23 := a23 ^^^ d3
  let c4 := (rol a23 24)
  let b15 := c0 ^^^ ((~~~c1) &&& c2)
  let b16 := c1 ^^^ ((~~~c2) &&& c3)
  let b17 := c2 ^^^ ((~~~c3) &&& c4)
  let b18 := c3 ^^^ ((~~~c4) &&& c0)
  let b19 := c4 ^^^ ((~~~c0) &&& c1)
  let a2 := a2 ^^^ d2
  let c0 := (rol a2 30)
  let a8 := a8 ^^^ d3
  let c1 := (rol a8 23)
  let a14 := a14 ^^^ d4
  let c2 := (rol a14 7)
  let a15 := a15 ^^^ d0
  let c3 := (rol a15 9)
  let a21 := a21 ^^^ d1
  let c4 := (rol a21 2)
  let b20 := c0 ^^^ ((~~~c1) &&& c2)
  let b21 := c1 ^^^ ((~~~c2) &&& c3)
  let b22 := c2 ^^^ ((~~~c3) &&& c4)
  let b23 := c3 ^^^ ((~~~c4) &&& c0)
  let b24 := c4 ^^^ ((~~~c0) &&& c1)
  let a0 := b0
  let a1 := b1
  let a2 := b2
  let a3 := b3
  let a4 := b4
  let a5 := b5
  let a6 := b6
  let a7 := b7
  let a8 := b8
  let a9 := b9
  let a10 := b10
  let a11 := b11
  let a12 := b12
  let a13 := b13
  let a14 := b14
  let a15 := b15
  let a16 := b16
  let a17 := b17
  let a18 := b18
  let a19 := b19
  let a20 := b20
  let a21 := b21
  let a22 := b22
  let a23 := b23
  let a24 := b24
  #v[a0, a1, a2, a3, a4, a5, a6, a7, a8, a9, a10, a11, a12, a13, a14, a15, a16, a17, a18, a19, a20, a21, a22, a23, a24]

end Kripto.Keccak
