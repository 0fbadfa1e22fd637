import Verif.Spec.Exact
import Verif.Model.NN
import Verif.Model.Math

/-!
# Specification vocabulary: the larger and the smaller of two numbers
-/

namespace Aitisa

/-- Three calls succeed one after the other and give the tensor at `y`: `aitisa_sub` of `a` and `b`, `aitisa_relu` of that, and `op` of `z` and that. -/
def ExcessRun (E : Env) (m : Mem) (op : BinOp) (a b z o1 o2 o3 y : Ptr) (m' : Mem) : Prop :=
  ∃ d m1 r m2, binaryOp .sub a b o1 E m = .ok (.success, d) m1 ∧ relu d o2 E m1 = .ok (.success, r) m2 ∧
    binaryOp op z r o3 E m2 = .ok (.success, y) m'

end Aitisa
