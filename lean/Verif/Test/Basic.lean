import Verif.Test.Lib
import Verif.Model.Math

/-!
# Unit tests of the repository run in the model

Each test runs one fixed program (see `Verif.Test.Lib`). The kernel runs the small ones (`example`); the large ones, which
would need much memory, are only evaluated (`#guard`).
-/

namespace Aitisa.Replay

/-- `/repo/test/tensor_test.cpp` 9-18. -/
def tensor_memberAccess : Bool := passes do
  let t ← make .i32 [2, 3, 4]
  let n ← tNdim t
  let s ← tSize t
  let e ← finish [t]
  return n == 3 && s == 24 && e

example : tensor_memberAccess = true := by decide +kernel

/-- `/repo/test/tensor_test.cpp` 20-46. -/
def tensor_factories : Bool := passes do
  let t ← filled .i32 [2, 3, 4] (lit 73 10)
  let xs ← items .i32 t
  let _ ← destroy t
  let u ← filled .f32 [1, 2, 3, 4] (lit 2 1)
  let ys ← items .f32 u
  let e ← finish [u]
  return agree (· == ·) xs (List.replicate 24 (.int 7)) && agree (· == ·) ys (List.replicate 24 (.f32 (litF 2 1))) && e

example : tensor_factories = true := by decide +kernel

/-- `/repo/test/cast_test.cpp` 32-64. -/
def cast_floatToInt32 : Bool := passes do
  let h ← make .f32 [3, 2]
  let f ← filled .f32 [3, 2] (lit 7 1)
  assign .f32 h (ramp (lit 1 10))
  let (_, t) ← binaryOp .mul h f .indet
  let (st, o) ← cast t Code.i32.dtype .indet
  let d1 ← tDtype h
  let d2 ← tDtype o
  let xs ← items .i32 o
  let e ← finish [f, h, t, o]
  return st == .success && d1.code == 8 && d2.code == 4 && agree (· == ·) xs (ints [0, 0, 1, 2, 2, 3]) && e

example : cast_floatToInt32 = true := by decide +kernel

/-- `/repo/test/cast_test.cpp` 66-98. -/
def cast_int32ToDouble : Bool := passes do
  let h ← make .i32 [3, 2]
  let f ← filled .i32 [3, 2] (lit 2 1)
  assign .i32 h (rampI 1)
  let (_, t) ← binaryOp .mul h f .indet
  let (st, o) ← cast t Code.f64.dtype .indet
  let d1 ← tDtype h
  let d2 ← tDtype o
  let xs ← items .f64 o
  let e ← finish [f, h, t, o]
  return st == .success && d1.code == 4 && d2.code == 9 && agree (near64 (lit 1 100000)) xs (doubles 1 [0, 2, 4, 6, 8, 10]) && e

example : cast_int32ToDouble = true := by decide +kernel

/-- `/repo/test/reshape_test.cpp` 19-44. -/
def reshape_int32 : Bool :=
  unary .i32 .i32 [2,1,5,10] (rampI 4) (fun h => reshape h (Arr.of [2,5,10]) 3 .indet) (· == ·) (some [2,5,10]) ((List.range 100).map (rampI 4))

example : reshape_int32 = true := by decide +kernel

/-- `/repo/test/slice_test.cpp` 32-57. -/
def slice_stepIsOne : Bool :=
  unary .f32 .f32 [2,4,5] r1 (fun h => slice h (Arr.of [1,1,2]) (Arr.of [1,2,3]) (Arr.of [1,1,1]) .indet) n5 none (floats 10 [27, 28, 29, 32, 33, 34])

example : slice_stepIsOne = true := by decide +kernel

/-- `/repo/test/slice_test.cpp` 59-83. -/
def slice_stepNotOne : Bool :=
  unary .i32 .i32 [2,5,10] (rampI 1) (fun h => slice h (Arr.of [0,1,2]) (Arr.of [2,4,6]) (Arr.of [1,2,3]) .indet) (· == ·) none (ints [12, 15, 32, 35, 62, 65, 82, 85])

example : slice_stepNotOne = true := by decide +kernel

/-- `/repo/test/squeeze_test.cpp` 20-45. -/
def squeeze_axis : Bool :=
  unary .i32 .i32 [2,1,5,1,10,1] (rampI 1) (fun h => squeeze h (Arr.of [1,3,4]) 3 .indet) (· == ·) (some [2,5,10,1]) ((List.range 100).map (rampI 1))

example : squeeze_axis = true := by decide +kernel

/-- `/repo/test/squeeze_test.cpp` 47-71. -/
def squeeze_all : Bool :=
  unary .i32 .i32 [2,1,5,1,10,1] (rampI 1) (fun h => squeeze h [] 0 .indet) (· == ·) (some [2,5,10]) ((List.range 100).map (rampI 1))

example : squeeze_all = true := by decide +kernel

/-- `/repo/test/duplicate_test.cpp` 20-48. -/
def duplicate_float : Bool :=
  unary .f32 .f32 [3,2] r1 (fun h => duplicate h .indet) (· == ·) (some [3,2]) (floats 10 [0,1,2,3,4,5])

example : duplicate_float = true := by decide +kernel

/-- `/repo/test/broadcast_test.cpp` 10-22 (that test looks at nothing). -/
def broadcast_4d_6d : Bool :=
  match (broadcastArray (Arr.of [1, 3, 4, 2]) 4 (Arr.of [5, 1, 2, 3, 1, 2]) 6 (Arr.of [0, 0, 0, 0, 0, 0]) 6) machine Mem.empty with
  | .ok r _ => r.1 == .success && r.2 == Arr.of [5, 1, 2, 3, 4, 2]
  | _ => false

example : broadcast_4d_6d = true := by decide +kernel

end Aitisa.Replay
