import Verif.Spec.Calc
import Verif.Model.NN
import Verif.Model.Math

/-!
# Specification vocabulary: positive and negative part

A tensor is split with `aitisa_relu` into the part above 0 and the part below 0, and put together again.
-/

namespace Aitisa

/-- Four calls succeed one after the other and give the tensor at `y`: `aitisa_relu` of `x` (the part above 0), `aitisa_sub` of `z` and `x`,
`aitisa_relu` of that (the part below 0, without its sign), and `op` of the two parts. -/
def SplitRun (E : Env) (m : Mem) (op : BinOp) (x z o1 o2 o3 o4 y : Ptr) (m' : Mem) : Prop :=
  ∃ p m1 n m2 q m3, relu x o1 E m = .ok (.success, p) m1 ∧ binaryOp .sub z x o2 E m1 = .ok (.success, n) m2 ∧
    relu n o3 E m2 = .ok (.success, q) m3 ∧ binaryOp op p q o4 E m3 = .ok (.success, y) m'

/-- The element with its sign bit cleared. -/
def unsigned : Val → Val
  | .int n => .int n.natAbs
  | .f32 b => .f32 (b &&& 0x7fffffff)
  | .f64 b => .f64 (b &&& 0x7fffffffffffffff)

end Aitisa
