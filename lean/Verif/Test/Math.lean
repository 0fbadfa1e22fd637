import Verif.Test.Lib
import Verif.Model.Math
import Verif.Model.Matmul
import Verif.Model.Dot
import Verif.Model.NN

/-!
# Unit tests of the repository run in the model

Each test runs one fixed program (see `Verif.Test.Lib`). The kernel runs the small ones (`example`); the large ones, which
would need much memory, are only evaluated (`#guard`).
-/

namespace Aitisa.Replay

/-- `/repo/test/binary_test.cpp` 35-66. -/
def binary_add : Bool :=
  binary .f32 [4] [4] (ramp (lit 1 10)) (ramp (lit 1 10)) (fun a b => binaryOp .add a b .indet) ulps4 (some [4]) (floats 10 [0, 2, 4, 6])

example : binary_add = true := by decide +kernel

/-- `/repo/test/binary_test.cpp` 68-99. -/
def binary_sub : Bool :=
  binary .f32 [4] [4] (ramp (lit 2 10)) (ramp (lit 1 10)) (fun a b => binaryOp .sub a b .indet) ulps4 (some [4]) (floats 10 [0, 1, 2, 3])

example : binary_sub = true := by decide +kernel

/-- `/repo/test/binary_test.cpp` 101-132. -/
def binary_mul : Bool :=
  binary .f32 [4] [4] (ramp (lit 1 10)) (ramp (lit 1 10)) (fun a b => binaryOp .mul a b .indet) ulps4 (some [4]) (floats 100 [0, 1, 4, 9])

example : binary_mul = true := by decide +kernel

/-- The tests of matmul. -/
def mm (d1 d2 od : List Int) (want : List Int) : Bool :=
  binary .f32 d1 d2 r1 r1 (fun a b => matmul a b .indet) ulps4 (some od) (floats 100 want)

/-- `/repo/test/matmul_test.cpp` 23-54. -/
def matmul_vector_vector : Bool := mm [4] [4] [1] [14]

example : matmul_vector_vector = true := by decide +kernel

/-- `/repo/test/matmul_test.cpp` 56-88. -/
def matmul_matrix_vector : Bool := mm [5,4] [4] [5] [14, 38, 62, 86, 110]

example : matmul_matrix_vector = true := by decide +kernel

/-- `/repo/test/matmul_test.cpp` 90-123. -/
def matmul_matrix_matrix : Bool :=
  mm [5,4] [4,3] [5,3] [42, 48, 54, 114, 136, 158, 186, 224, 262, 258, 312, 366, 330, 400, 470]

example : matmul_matrix_matrix = true := by decide +kernel

/-- `/repo/test/matmul_test.cpp` 125-157. -/
def matmul_vector_matrix : Bool := mm [5] [5,4] [4] [120, 130, 140, 150]

example : matmul_vector_matrix = true := by decide +kernel

/-- `/repo/test/matmul_test.cpp` 159-193. -/
def matmul_cube_vector : Bool :=
  mm [5,4,3] [3] [5,4] [5, 14, 23, 32, 41, 50, 59, 68, 77, 86, 95, 104, 113, 122, 131, 140, 149, 158, 167, 176]

example : matmul_cube_vector = true := by decide +kernel

/-- `/repo/test/matmul_test.cpp` 195-229. -/
def matmul_vector_cube : Bool :=
  mm [3] [5,3,4] [5,4] [20, 23, 26, 29, 56, 59, 62, 65, 92, 95, 98, 101, 128, 131, 134, 137, 164, 167, 170, 173]

example : matmul_vector_cube = true := by decide +kernel

/-- `/repo/test/matmul_test.cpp` 231-264. -/
def matmul_tensor_tensor : Bool :=
  mm [2,1,3,4] [2,4,2] [2,2,3,2] [28, 34, 76, 98, 124, 162, 76, 82, 252, 274, 428, 466, 172, 226, 220, 290, 268, 354, 604, 658, 780, 850, 956, 1042]

example : matmul_tensor_tensor = true := by decide +kernel

/-- `/repo/test/dot_test.cpp` 24-54. -/
def dot_2_2 : Bool :=
  binary .f32 [3,3] [3,3] r1 r1 (fun a b => dot a b .indet) n5 none (floats 100 [15, 18, 21, 42, 54, 66, 69, 90, 111])

example : dot_2_2 = true := by decide +kernel

/-- `/repo/test/dot_test.cpp` 56-86. -/
def dot_2_0 : Bool := passes do
  let h ← make .f32 [3, 3]
  let f ← filled .f32 [] (lit 2 1)
  assign .f32 h r1
  let (st, o) ← dot h f .indet
  let xs ← items .f32 o
  let e ← finish [h, f, o]
  return st == .success && agree n5 xs (floats 10 [0, 2, 4, 6, 8, 10, 12, 14, 16]) && e

example : dot_2_0 = true := by decide +kernel

/-- `/repo/test/dot_test.cpp` 88-118. -/
def dot_1_1 : Bool := binary .f32 [5] [5] r1 r1 (fun a b => dot a b .indet) n5 none (floats 10 [3])

example : dot_1_1 = true := by decide +kernel

/-- `/repo/test/dot_test.cpp` 120-154. -/
def dot_3_1 : Bool :=
  binary .f32 [2,5,6] [6] r1 r1 (fun a b => dot a b .indet) n5 none (floats 100 [55, 145, 235, 325, 415, 505, 595, 685, 775, 865])

example : dot_3_1 = true := by decide +kernel

/-- `/repo/test/dot_test.cpp` 156-194. -/
def dot_4_3 : Bool :=
  binary .f32 [2,3,2,3] [2,3,2] r1 r1 (fun a b => dot a b .indet) n5 none (floats 100 [10, 13, 28, 31, 28, 40, 100, 112, 46, 67, 172, 193,
      64, 94, 244, 274, 82, 121, 316, 355, 100, 148, 388, 436,
      118, 175, 460, 517, 136, 202, 532, 598, 154, 229, 604, 679,
      172, 256, 676, 760, 190, 283, 748, 841, 208, 310, 820, 922])

#guard dot_4_3

/-- `/repo/test/sqrt_test.cpp` 31-56. -/
def sqrt_float : Bool :=
  unary .f32 .f32 [2,3] (fun i => .f32 (ieee.ofInt32 (i * 2 : Nat))) (fun h => sqrt h .indet) (near32 (lit 1 1000000)) none (floats 1000000 [0, 1414214, 2000000, 2449490, 2828427, 3162278])

example : sqrt_float = true := by decide +kernel

/-- `/repo/test/sqrt_test.cpp` 58-81. -/
def sqrt_int32 : Bool :=
  unary .i32 .i32 [2,3] (rampI 4) (fun h => sqrt h .indet) (· == ·) none (ints [0, 2, 2, 3, 4, 4])

example : sqrt_int32 = true := by decide +kernel

end Aitisa.Replay
