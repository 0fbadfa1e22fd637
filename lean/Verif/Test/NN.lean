import Verif.Test.Lib
import Verif.Model.NN
import Verif.Model.BatchNorm

/-!
# Unit tests of the repository run in the model

Each test runs one fixed program (see `Verif.Test.Lib`). The kernel runs the small ones (`example`); the large ones, which
would need much memory, are only evaluated (`#guard`).
-/

namespace Aitisa.Replay

/-- `/repo/test/relu_test.cpp` 20-46. -/
def relu_float : Bool :=
  unary .f32 .f32 [2,3] (fun i => .f32 (ieee.narrow (ieee.sub64 (ieee.mul64 (ieee.ofInt64 i) (lit 1 10)) (lit 3 10)))) (fun h => relu h .indet) (near32 (lit 1 1000000)) none (floats 10 [0,0,0,0,1,2])

example : relu_float = true := by decide +kernel

/-- `/repo/test/sigmoid_test.cpp` 20-45. -/
def sigmoid_float : Bool :=
  unary .f32 .f32 [2,3] r1 (fun h => sigmoid h .indet) n5 none (floats 1000000 [500000, 524979, 549834, 574443, 598688, 622459])

example : sigmoid_float = true := by decide +kernel

/-- `/repo/test/softmax_test.cpp` 36-60. -/
def softmax_floatAll : Bool :=
  unary .f32 .f32 [2,3] (fun i => .f32 (ieee.narrow (ieee.add64 (ieee.mul64 (ieee.ofInt64 (i * i : Nat)) (lit 1 10)) (ieee.mul64 (ieee.ofInt64 i) (lit 1 10)))))
  (fun h => softmax h (-1) .indet) n5 none (floats 100000 [2870, 3506, 5230, 9530, 21210, 57654])

example : softmax_floatAll = true := by decide +kernel

/-- `/repo/test/softmax_test.cpp` 62-95. -/
def softmax_doubleAxis1 : Bool :=
  unary .f64 .f64 [2,3,5] (fun i => .f64 (ieee.add64 (ieee.mul64 (ieee.ofInt64 (i * i : Nat)) (lit 2 1000)) (ieee.mul64 (ieee.ofInt64 i) (lit 3 10))))
  (fun h => softmax h 1 .indet) (near64 (lit 1 1000000)) none (doubles 1000000 [33064, 31908, 30789, 29706, 28659,
                        155782, 153369, 150980, 148614, 146272,
                        811154, 814723, 818232, 821680, 825069,
                        19208, 18514, 17843, 17196, 16571,
                        122161, 120123, 118111, 116125, 114165,
                        858631, 861363, 864046, 866679, 869264])

example : softmax_doubleAxis1 = true := by decide +kernel

/-- The tests of batch normalisation. -/
def bn (dims : List Int) (axis : Int) (n : Int) (want : List Int) : Bool := passes do
  let h ← make .f64 dims
  assign .f64 h (rampD (lit 1 10) 0)
  let me ← make .f64 [n]
  assign .f64 me (rampD (lit 1 10) (lit 5 10))
  let va ← make .f64 [n]
  assign .f64 va (rampD (lit 1 10) (lit 11 10))
  let sc ← make .f64 [n]
  assign .f64 sc (rampD (lit 1 10) (lit 1 1))
  let bi ← make .f64 [n]
  assign .f64 bi (rampD (lit 1 10) 0)
  let (st, o) ← batchNorm h axis sc bi me va (lit 1 100000) .indet
  let xs ← items .f64 o
  let e ← finish [h, me, va, sc, bi, o]
  return st == .success && agree (near64 (lit 1 1000000)) xs (doubles 1000000 want) && e

/-- `/repo/test/batch_norm_test.cpp` 21-76. -/
def batchNorm_5d_axis4 : Bool := bn [2,1,2,1,2] 4 2 [-476729, -402077, -286037, -201246, -95346, -415, 95346, 200415]

example : batchNorm_5d_axis4 = true := by decide +kernel

/-- `/repo/test/batch_norm_test.cpp` 78-137. -/
def batchNorm_4d_axis1 : Bool :=
  bn [2,3,2,2] 1 3 [-476729, -381383, -286037, -190692, -100831, -415, 100000, 200415, 305247, 410493, 515740,  620986,  667421,  762767,  858112,
                        953458,  1104154,  1204569,  1304985,  1405400, 1568205,  1673452,  1778698,  1883945]

example : batchNorm_4d_axis1 = true := by decide +kernel

/-- `/repo/test/batch_norm_test.cpp` 139-190. -/
def batchNorm_2d_axis1 : Bool :=
  bn [3,4] 1 4 [-476729, -402077, -326233, -249348, -95346, -415, 94753,  190130, 286037,  401246,  515740,  629609]

example : batchNorm_2d_axis1 = true := by decide +kernel

/-- `/repo/test/dropout_test.cpp` 22-49. -/
def dropout_rate40percent : Bool := passes do
  let h ← make .f32 [30, 20]
  assign .f32 h (fun i => .f32 (ieee.narrow (ieee.add64 (ieee.mul64 (ieee.ofInt64 i) (lit 1 10)) (lit 1 1))))
  let (st, o) ← dropout h (lit 4 10) .indet
  let xs ← items .f32 o
  let e ← finish [h, o]
  let z := (xs.filter fun v => v == .f32 0).length
  return st == .success && decide (20 * z > 4*600) && decide (10*z < 6*600) && e

#guard dropout_rate40percent

end Aitisa.Replay
