import Verif.Test.Lib
import Verif.Model.Conv

/-!
# Unit tests of the repository run in the model

Each test runs one fixed program (see `Verif.Test.Lib`). The kernel runs the small ones (`example`); the large ones, which
would need much memory, are only evaluated (`#guard`).
-/

namespace Aitisa.Replay

/-- `aitisa_full` of ones twice, then a convolution (the status is not looked at: the C functions return none). -/
def tConv (run : Ptr → Ptr → M (Status × Ptr)) (d1 d2 : List Int) (want : List Val) : Bool := passes do
  let h ← filled .f32 d1 (lit 1 1)
  let f ← filled .f32 d2 (lit 1 1)
  let (_, o) ← run h f
  let xs ← items .f32 o
  let e ← finish [h, f, o]
  return agree (· == ·) xs want && e

/-- `/repo/test/conv_test.cpp` 14-67. -/
def conv2d_p0s1d1 : Bool :=
  tConv (fun h f => conv2d (some .success) (some .success) h f (Arr.of [1, 1]) (Arr.of [0, 0]) (Arr.of [1, 1]) 1 .indet) [2,2,5,5] [3,2,3,3] (List.replicate 54 (.f32 (litF 18 1)))

#guard conv2d_p0s1d1

/-- `/repo/test/conv_test.cpp` 69-99. -/
def conv2d_p2s1d1 : Bool :=
  tConv (fun h f => conv2d (some .success) (some .success) h f (Arr.of [2, 2]) (Arr.of [1, 1]) (Arr.of [2, 2]) 1 .indet) [1,1,5,5] [1,1,2,2] (floats 1 [1, 2, 1, 2, 4, 2, 1, 2, 1])

example : conv2d_p2s1d1 = true := by decide +kernel

/-- `/repo/test/conv_test.cpp` 101-157. -/
def conv3d_p0s1d1 : Bool :=
  tConv (fun h f => conv3d (some .success) (some .success) h f (Arr.of [1, 1, 1]) (Arr.of [0, 0, 0]) (Arr.of [1, 1, 1]) 1 .indet) [2,2,5,5,5] [3,2,3,3,3] (List.replicate 162 (.f32 (litF 54 1)))

#guard conv3d_p0s1d1

end Aitisa.Replay
