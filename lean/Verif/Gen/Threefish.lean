import Verif.Base.Reg
/-! Generated by tools/genthreefish.py from lib/block/threefish{256,512,1024}.c: the mixing statements
of the loop bodies, one `Op` per C assignment. -/
namespace Kripto.Threefish


/-- lib/block/threefish256.c:66-76 -/
def encA256 : List (Op 4) :=
  [.add 0 1, .rol 1 14, .xor 1 0, .add 2 3, .rol 3 16, .xor 3 2,
   .add 0 3, .rol 3 52, .xor 3 0, .add 2 1, .rol 1 57, .xor 1 2,
   .add 0 1, .rol 1 23, .xor 1 0, .add 2 3, .rol 3 40, .xor 3 2,
   .add 0 3, .rol 3 5, .xor 3 0, .add 2 1, .rol 1 37, .xor 1 2]

/-- lib/block/threefish256.c:84-94 -/
def encB256 : List (Op 4) :=
  [.add 0 1, .rol 1 25, .xor 1 0, .add 2 3, .rol 3 33, .xor 3 2,
   .add 0 3, .rol 3 46, .xor 3 0, .add 2 1, .rol 1 12, .xor 1 2,
   .add 0 1, .rol 1 58, .xor 1 0, .add 2 3, .rol 3 22, .xor 3 2,
   .add 0 3, .rol 3 32, .xor 3 0, .add 2 1, .rol 1 32, .xor 1 2]

/-- lib/block/threefish256.c:130-140 -/
def decB256 : List (Op 4) :=
  [.xor 1 2, .ror 1 32, .sub 2 1, .xor 3 0, .ror 3 32, .sub 0 3,
   .xor 3 2, .ror 3 22, .sub 2 3, .xor 1 0, .ror 1 58, .sub 0 1,
   .xor 1 2, .ror 1 12, .sub 2 1, .xor 3 0, .ror 3 46, .sub 0 3,
   .xor 3 2, .ror 3 33, .sub 2 3, .xor 1 0, .ror 1 25, .sub 0 1]

/-- lib/block/threefish256.c:148-158 -/
def decA256 : List (Op 4) :=
  [.xor 1 2, .ror 1 37, .sub 2 1, .xor 3 0, .ror 3 5, .sub 0 3,
   .xor 3 2, .ror 3 40, .sub 2 3, .xor 1 0, .ror 1 23, .sub 0 1,
   .xor 1 2, .ror 1 57, .sub 2 1, .xor 3 0, .ror 3 52, .sub 0 3,
   .xor 3 2, .ror 3 16, .sub 2 3, .xor 1 0, .ror 1 14, .sub 0 1]

/-- lib/block/threefish512.c:70-88 -/
def encA512 : List (Op 8) :=
  [.add 0 1, .rol 1 46, .xor 1 0, .add 2 3, .rol 3 36, .xor 3 2,
   .add 4 5, .rol 5 19, .xor 5 4, .add 6 7, .rol 7 37, .xor 7 6,
   .add 2 1, .rol 1 33, .xor 1 2, .add 4 7, .rol 7 27, .xor 7 4,
   .add 6 5, .rol 5 14, .xor 5 6, .add 0 3, .rol 3 42, .xor 3 0,
   .add 4 1, .rol 1 17, .xor 1 4, .add 6 3, .rol 3 49, .xor 3 6,
   .add 0 5, .rol 5 36, .xor 5 0, .add 2 7, .rol 7 39, .xor 7 2,
   .add 6 1, .rol 1 44, .xor 1 6, .add 0 7, .rol 7 9, .xor 7 0,
   .add 2 5, .rol 5 54, .xor 5 2, .add 4 3, .rol 3 56, .xor 3 4]

/-- lib/block/threefish512.c:100-118 -/
def encB512 : List (Op 8) :=
  [.add 0 1, .rol 1 39, .xor 1 0, .add 2 3, .rol 3 30, .xor 3 2,
   .add 4 5, .rol 5 34, .xor 5 4, .add 6 7, .rol 7 24, .xor 7 6,
   .add 2 1, .rol 1 13, .xor 1 2, .add 4 7, .rol 7 50, .xor 7 4,
   .add 6 5, .rol 5 10, .xor 5 6, .add 0 3, .rol 3 17, .xor 3 0,
   .add 4 1, .rol 1 25, .xor 1 4, .add 6 3, .rol 3 29, .xor 3 6,
   .add 0 5, .rol 5 39, .xor 5 0, .add 2 7, .rol 7 43, .xor 7 2,
   .add 6 1, .rol 1 8, .xor 1 6, .add 0 7, .rol 7 35, .xor 7 0,
   .add 2 5, .rol 5 56, .xor 5 2, .add 4 3, .rol 3 22, .xor 3 4]

/-- lib/block/threefish512.c:170-188 -/
def decB512 : List (Op 8) :=
  [.xor 3 4, .ror 3 22, .sub 4 3, .xor 5 2, .ror 5 56, .sub 2 5,
   .xor 7 0, .ror 7 35, .sub 0 7, .xor 1 6, .ror 1 8, .sub 6 1,
   .xor 7 2, .ror 7 43, .sub 2 7, .xor 5 0, .ror 5 39, .sub 0 5,
   .xor 3 6, .ror 3 29, .sub 6 3, .xor 1 4, .ror 1 25, .sub 4 1,
   .xor 3 0, .ror 3 17, .sub 0 3, .xor 5 6, .ror 5 10, .sub 6 5,
   .xor 7 4, .ror 7 50, .sub 4 7, .xor 1 2, .ror 1 13, .sub 2 1,
   .xor 7 6, .ror 7 24, .sub 6 7, .xor 5 4, .ror 5 34, .sub 4 5,
   .xor 3 2, .ror 3 30, .sub 2 3, .xor 1 0, .ror 1 39, .sub 0 1]

/-- lib/block/threefish512.c:200-218 -/
def decA512 : List (Op 8) :=
  [.xor 3 4, .ror 3 56, .sub 4 3, .xor 5 2, .ror 5 54, .sub 2 5,
   .xor 7 0, .ror 7 9, .sub 0 7, .xor 1 6, .ror 1 44, .sub 6 1,
   .xor 7 2, .ror 7 39, .sub 2 7, .xor 5 0, .ror 5 36, .sub 0 5,
   .xor 3 6, .ror 3 49, .sub 6 3, .xor 1 4, .ror 1 17, .sub 4 1,
   .xor 3 0, .ror 3 42, .sub 0 3, .xor 5 6, .ror 5 14, .sub 6 5,
   .xor 7 4, .ror 7 27, .sub 4 7, .xor 1 2, .ror 1 33, .sub 2 1,
   .xor 7 6, .ror 7 37, .sub 6 7, .xor 5 4, .ror 5 19, .sub 4 5,
   .xor 3 2, .ror 3 36, .sub 2 3, .xor 1 0, .ror 1 46, .sub 0 1]

/-- lib/block/threefish1024.c:79-113 -/
def encA1024 : List (Op 16) :=
  [.add 0 1, .rol 1 24, .xor 1 0, .add 2 3, .rol 3 13, .xor 3 2,
   .add 4 5, .rol 5 8, .xor 5 4, .add 6 7, .rol 7 47, .xor 7 6,
   .add 8 9, .rol 9 8, .xor 9 8, .add 10 11, .rol 11 17, .xor 11 10,
   .add 12 13, .rol 13 22, .xor 13 12, .add 14 15, .rol 15 37, .xor 15 14,
   .add 0 9, .rol 9 38, .xor 9 0, .add 2 13, .rol 13 19, .xor 13 2,
   .add 6 11, .rol 11 10, .xor 11 6, .add 4 15, .rol 15 55, .xor 15 4,
   .add 10 7, .rol 7 49, .xor 7 10, .add 12 3, .rol 3 18, .xor 3 12,
   .add 14 5, .rol 5 23, .xor 5 14, .add 8 1, .rol 1 52, .xor 1 8,
   .add 0 7, .rol 7 33, .xor 7 0, .add 2 5, .rol 5 4, .xor 5 2,
   .add 4 3, .rol 3 51, .xor 3 4, .add 6 1, .rol 1 13, .xor 1 6,
   .add 12 15, .rol 15 34, .xor 15 12, .add 14 13, .rol 13 41, .xor 13 14,
   .add 8 11, .rol 11 59, .xor 11 8, .add 10 9, .rol 9 17, .xor 9 10,
   .add 0 15, .rol 15 5, .xor 15 0, .add 2 11, .rol 11 20, .xor 11 2,
   .add 6 13, .rol 13 48, .xor 13 6, .add 4 9, .rol 9 41, .xor 9 4,
   .add 14 1, .rol 1 47, .xor 1 14, .add 8 5, .rol 5 28, .xor 5 8,
   .add 10 3, .rol 3 16, .xor 3 10, .add 12 7, .rol 7 25, .xor 7 12]

/-- lib/block/threefish1024.c:133-167 -/
def encB1024 : List (Op 16) :=
  [.add 0 1, .rol 1 41, .xor 1 0, .add 2 3, .rol 3 9, .xor 3 2,
   .add 4 5, .rol 5 37, .xor 5 4, .add 6 7, .rol 7 31, .xor 7 6,
   .add 8 9, .rol 9 12, .xor 9 8, .add 10 11, .rol 11 47, .xor 11 10,
   .add 12 13, .rol 13 44, .xor 13 12, .add 14 15, .rol 15 30, .xor 15 14,
   .add 0 9, .rol 9 16, .xor 9 0, .add 2 13, .rol 13 34, .xor 13 2,
   .add 6 11, .rol 11 56, .xor 11 6, .add 4 15, .rol 15 51, .xor 15 4,
   .add 10 7, .rol 7 4, .xor 7 10, .add 12 3, .rol 3 53, .xor 3 12,
   .add 14 5, .rol 5 42, .xor 5 14, .add 8 1, .rol 1 41, .xor 1 8,
   .add 0 7, .rol 7 31, .xor 7 0, .add 2 5, .rol 5 44, .xor 5 2,
   .add 4 3, .rol 3 47, .xor 3 4, .add 6 1, .rol 1 46, .xor 1 6,
   .add 12 15, .rol 15 19, .xor 15 12, .add 14 13, .rol 13 42, .xor 13 14,
   .add 8 11, .rol 11 44, .xor 11 8, .add 10 9, .rol 9 25, .xor 9 10,
   .add 0 15, .rol 15 9, .xor 15 0, .add 2 11, .rol 11 48, .xor 11 2,
   .add 6 13, .rol 13 35, .xor 13 6, .add 4 9, .rol 9 52, .xor 9 4,
   .add 14 1, .rol 1 23, .xor 1 14, .add 8 5, .rol 5 31, .xor 5 8,
   .add 10 3, .rol 3 37, .xor 3 10, .add 12 7, .rol 7 20, .xor 7 12]

/-- lib/block/threefish1024.c:251-285 -/
def decB1024 : List (Op 16) :=
  [.xor 7 12, .ror 7 20, .sub 12 7, .xor 3 10, .ror 3 37, .sub 10 3,
   .xor 5 8, .ror 5 31, .sub 8 5, .xor 1 14, .ror 1 23, .sub 14 1,
   .xor 9 4, .ror 9 52, .sub 4 9, .xor 13 6, .ror 13 35, .sub 6 13,
   .xor 11 2, .ror 11 48, .sub 2 11, .xor 15 0, .ror 15 9, .sub 0 15,
   .xor 9 10, .ror 9 25, .sub 10 9, .xor 11 8, .ror 11 44, .sub 8 11,
   .xor 13 14, .ror 13 42, .sub 14 13, .xor 15 12, .ror 15 19, .sub 12 15,
   .xor 1 6, .ror 1 46, .sub 6 1, .xor 3 4, .ror 3 47, .sub 4 3,
   .xor 5 2, .ror 5 44, .sub 2 5, .xor 7 0, .ror 7 31, .sub 0 7,
   .xor 1 8, .ror 1 41, .sub 8 1, .xor 5 14, .ror 5 42, .sub 14 5,
   .xor 3 12, .ror 3 53, .sub 12 3, .xor 7 10, .ror 7 4, .sub 10 7,
   .xor 15 4, .ror 15 51, .sub 4 15, .xor 11 6, .ror 11 56, .sub 6 11,
   .xor 13 2, .ror 13 34, .sub 2 13, .xor 9 0, .ror 9 16, .sub 0 9,
   .xor 15 14, .ror 15 30, .sub 14 15, .xor 13 12, .ror 13 44, .sub 12 13,
   .xor 11 10, .ror 11 47, .sub 10 11, .xor 9 8, .ror 9 12, .sub 8 9,
   .xor 7 6, .ror 7 31, .sub 6 7, .xor 5 4, .ror 5 37, .sub 4 5,
   .xor 3 2, .ror 3 9, .sub 2 3, .xor 1 0, .ror 1 41, .sub 0 1]

/-- lib/block/threefish1024.c:305-339 -/
def decA1024 : List (Op 16) :=
  [.xor 7 12, .ror 7 25, .sub 12 7, .xor 3 10, .ror 3 16, .sub 10 3,
   .xor 5 8, .ror 5 28, .sub 8 5, .xor 1 14, .ror 1 47, .sub 14 1,
   .xor 9 4, .ror 9 41, .sub 4 9, .xor 13 6, .ror 13 48, .sub 6 13,
   .xor 11 2, .ror 11 20, .sub 2 11, .xor 15 0, .ror 15 5, .sub 0 15,
   .xor 9 10, .ror 9 17, .sub 10 9, .xor 11 8, .ror 11 59, .sub 8 11,
   .xor 13 14, .ror 13 41, .sub 14 13, .xor 15 12, .ror 15 34, .sub 12 15,
   .xor 1 6, .ror 1 13, .sub 6 1, .xor 3 4, .ror 3 51, .sub 4 3,
   .xor 5 2, .ror 5 4, .sub 2 5, .xor 7 0, .ror 7 33, .sub 0 7,
   .xor 1 8, .ror 1 52, .sub 8 1, .xor 5 14, .ror 5 23, .sub 14 5,
   .xor 3 12, .ror 3 18, .sub 12 3, .xor 7 10, .ror 7 49, .sub 10 7,
   .xor 15 4, .ror 15 55, .sub 4 15, .xor 11 6, .ror 11 10, .sub 6 11,
   .xor 13 2, .ror 13 19, .sub 2 13, .xor 9 0, .ror 9 38, .sub 0 9,
   .xor 15 14, .ror 15 37, .sub 14 15, .xor 13 12, .ror 13 22, .sub 12 13,
   .xor 11 10, .ror 11 17, .sub 10 11, .xor 9 8, .ror 9 8, .sub 8 9,
   .xor 7 6, .ror 7 47, .sub 6 7, .xor 5 4, .ror 5 8, .sub 4 5,
   .xor 3 2, .ror 3 13, .sub 2 3, .xor 1 0, .ror 1 24, .sub 0 1]

end Kripto.Threefish
