/-! Generated by tools/genrot.py from include/kripto/rotate.h. -/
namespace Kripto.Rot

/-- include/kripto/rotate.h:189-309 the functions `ROL8_r`: `r`, the count of the assembly branch, and the left and
right shift counts of the portable branch -/
def rol8 : List (Nat × Nat × Nat × Nat) := [
  (1, 1, 1, 7), (2, 2, 2, 6), (3, 3, 3, 5), (4, 4, 4, 4), (5, 5, 5, 3), (6, 6, 6, 2),
  (7, 7, 7, 1)]

/-- include/kripto/rotate.h:329-335 the macros `ROR8_r`: `r` and the count of the `ROL8` function it stands for -/
def ror8 : List (Nat × Nat) := [
  (1, 7), (2, 6), (3, 5), (4, 4), (5, 3), (6, 3), (7, 1)]

/-- include/kripto/rotate.h:337-617 the functions `ROL16_r`: `r`, the count of the assembly branch, and the left and
right shift counts of the portable branch -/
def rol16 : List (Nat × Nat × Nat × Nat) := [
  (1, 1, 1, 15), (2, 2, 2, 14), (3, 3, 3, 13), (4, 4, 4, 12), (5, 5, 5, 11), (6, 6, 6, 10),
  (7, 7, 7, 9), (8, 8, 8, 8), (9, 9, 9, 7), (10, 10, 10, 6), (11, 11, 11, 5), (12, 12, 12, 4),
  (13, 13, 13, 3), (14, 14, 14, 2), (15, 15, 15, 1)]

/-- include/kripto/rotate.h:637-651 the macros `ROR16_r`: `r` and the count of the `ROL16` function it stands for -/
def ror16 : List (Nat × Nat) := [
  (1, 15), (2, 14), (3, 13), (4, 12), (5, 11), (6, 10), (7, 9), (8, 8), (9, 7), (10, 6), (11, 5), (12, 4),
  (13, 3), (14, 2), (15, 1)]

/-- include/kripto/rotate.h:653-1253 the functions `ROL32_r`: `r`, the count of the assembly branch, and the left and
right shift counts of the portable branch -/
def rol32 : List (Nat × Nat × Nat × Nat) := [
  (1, 1, 1, 31), (2, 2, 2, 30), (3, 3, 3, 29), (4, 4, 4, 28), (5, 5, 5, 27), (6, 6, 6, 26),
  (7, 7, 7, 25), (8, 8, 8, 24), (9, 9, 9, 23), (10, 10, 10, 22), (11, 11, 11, 21), (12, 12, 12, 20),
  (13, 13, 13, 19), (14, 14, 14, 18), (15, 15, 15, 17), (16, 16, 16, 16), (17, 17, 17, 15), (18, 18, 18, 14),
  (19, 19, 19, 13), (20, 20, 20, 12), (21, 21, 21, 11), (22, 22, 22, 10), (23, 23, 23, 9), (24, 24, 24, 8),
  (25, 25, 25, 7), (26, 26, 26, 6), (27, 27, 27, 5), (28, 28, 28, 4), (29, 29, 29, 3), (30, 30, 30, 2),
  (31, 31, 31, 1)]

/-- include/kripto/rotate.h:1273-1303 the macros `ROR32_r`: `r` and the count of the `ROL32` function it stands for -/
def ror32 : List (Nat × Nat) := [
  (1, 31), (2, 30), (3, 29), (4, 28), (5, 27), (6, 26), (7, 25), (8, 24), (9, 23), (10, 22), (11, 21), (12, 20),
  (13, 19), (14, 18), (15, 17), (16, 16), (17, 15), (18, 14), (19, 13), (20, 12), (21, 11), (22, 10), (23, 9), (24, 8),
  (25, 7), (26, 6), (27, 5), (28, 4), (29, 3), (30, 2), (31, 1)]

/-- include/kripto/rotate.h:1305-2545 the functions `ROL64_r`: `r`, the count of the assembly branch, and the left and
right shift counts of the portable branch -/
def rol64 : List (Nat × Nat × Nat × Nat) := [
  (1, 1, 1, 63), (2, 2, 2, 62), (3, 3, 3, 61), (4, 4, 4, 60), (5, 5, 5, 59), (6, 6, 6, 58),
  (7, 7, 7, 57), (8, 8, 8, 56), (9, 9, 9, 55), (10, 10, 10, 54), (11, 11, 11, 53), (12, 12, 12, 52),
  (13, 13, 13, 51), (14, 14, 14, 50), (15, 15, 15, 49), (16, 16, 16, 48), (17, 17, 17, 47), (18, 18, 18, 46),
  (19, 19, 19, 45), (20, 20, 20, 44), (21, 21, 21, 43), (22, 22, 22, 42), (23, 23, 23, 41), (24, 24, 24, 40),
  (25, 25, 25, 39), (26, 26, 26, 38), (27, 27, 27, 37), (28, 28, 28, 36), (29, 29, 29, 35), (30, 30, 30, 34),
  (31, 31, 31, 33), (32, 32, 32, 32), (33, 33, 33, 31), (34, 34, 34, 30), (35, 35, 35, 29), (36, 36, 36, 28),
  (37, 37, 37, 27), (38, 38, 38, 26), (39, 39, 39, 25), (40, 40, 40, 24), (41, 41, 41, 23), (42, 42, 42, 22),
  (43, 43, 43, 21), (44, 44, 44, 20), (45, 45, 45, 19), (46, 46, 46, 18), (47, 47, 47, 17), (48, 48, 48, 16),
  (49, 49, 49, 15), (50, 50, 50, 14), (51, 51, 51, 13), (52, 52, 52, 12), (53, 53, 53, 11), (54, 54, 54, 10),
  (55, 55, 55, 9), (56, 56, 56, 8), (57, 57, 57, 7), (58, 58, 58, 6), (59, 59, 59, 5), (60, 60, 60, 4),
  (61, 61, 61, 3), (62, 62, 62, 2), (63, 63, 63, 1)]

/-- include/kripto/rotate.h:2565-2627 the macros `ROR64_r`: `r` and the count of the `ROL64` function it stands for -/
def ror64 : List (Nat × Nat) := [
  (1, 63), (2, 62), (3, 61), (4, 60), (5, 59), (6, 58), (7, 57), (8, 56), (9, 55), (10, 54), (11, 53), (12, 52),
  (13, 51), (14, 50), (15, 49), (16, 48), (17, 47), (18, 46), (19, 45), (20, 44), (21, 43), (22, 42), (23, 41), (24, 40),
  (25, 39), (26, 38), (27, 37), (28, 36), (29, 35), (30, 34), (31, 33), (32, 32), (33, 31), (34, 30), (35, 29), (36, 28),
  (37, 27), (38, 26), (39, 25), (40, 24), (41, 23), (42, 22), (43, 21), (44, 20), (45, 19), (46, 18), (47, 17), (48, 16),
  (49, 15), (50, 14), (51, 13), (52, 12), (53, 11), (54, 10), (55, 9), (56, 8), (57, 7), (58, 6), (59, 5), (60, 4),
  (61, 3), (62, 2), (63, 1)]

end Kripto.Rot
