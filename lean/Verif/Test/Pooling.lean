import Verif.Test.Lib
import Verif.Model.Pooling

/-!
# Unit tests of the repository run in the model

Each test runs one fixed program (see `Verif.Test.Lib`). The kernel runs the small ones (`example`); the large ones, which
would need much memory, are only evaluated (`#guard`).
-/

namespace Aitisa.Replay

/-- `/repo/test/pooling_test.cpp` 47-78. -/
def pooling1d_maxFloat : Bool :=
  unary .f32 .f32 [2,3,9] r1 (fun h => pooling 1000 h "max" (Arr.of [2]) (Arr.of [2]) (Arr.of [0]) (Arr.of [2]) .indet) (near32 (lit 1 10000)) none
  (floats 10 [2, 4, 6, 8, 11, 13, 15, 17, 20, 22, 24, 26, 29, 31, 33, 35, 38, 40, 42, 44, 47, 49, 51, 53])

example : pooling1d_maxFloat = true := by decide +kernel

/-- `/repo/test/pooling_test.cpp` 80-107. -/
def pooling2d_avgInt32 : Bool :=
  unary .i32 .i32 [1,2,9,9] (rampI 1) (fun h => pooling 1000 h "avg" (Arr.of [3,3]) (Arr.of [3,3]) (Arr.of [0,0]) (Arr.of [1,1]) .indet) (· == ·) none
  (ints [10, 13, 16, 37,  40,  43,  64,  67,  70, 91, 94, 97, 118, 121, 124, 145, 148, 151])

example : pooling2d_avgInt32 = true := by decide +kernel

/-- `/repo/test/pooling_test.cpp` 109-140. -/
def pooling2d_maxDouble : Bool :=
  unary .f64 .f64 [1,2,15,15] (rampD (lit 1 10) 0) (fun h => pooling 10000 h "max" (Arr.of [6,6]) (Arr.of [6,6]) (Arr.of [3,3]) (Arr.of [1,1]) .indet) (near64 (lit 1 10000)) none
  (doubles 10 [32, 38, 44, 122, 128, 134, 212, 218, 224, 257, 263, 269, 347, 353, 359, 437, 443, 449])

#guard pooling2d_maxDouble

/-- `/repo/test/pooling_test.cpp` 142-170. -/
def pooling3d_maxInt32 : Bool :=
  unary .i32 .i32 [1,2,5,10,9] (rampI 1) (fun h => pooling 10000 h "max" (Arr.of [3,3,3]) (Arr.of [5,5,5]) (Arr.of [0,0,1]) (Arr.of [2,2,2]) .indet) (· == ·) none
  (ints [399, 404, 444, 449, 849, 854, 894, 899])

#guard pooling3d_maxInt32

end Aitisa.Replay
