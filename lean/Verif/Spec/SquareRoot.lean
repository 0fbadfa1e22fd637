import Verif.Spec.PoolLaws
import Verif.Spec.Scale
import Verif.Spec.Error

/-!
# Specification vocabulary: what a chain of calls ends with
-/

namespace Aitisa

/-- The calls `l` are made one on the result of the other, beginning with the tensor at `h`. If all succeed the last has given the tensor `T`; and all do if no
allocation fails. -/
def EndsIn (E : Env) (m : Mem) (l : List (Ptr → M (Status × Ptr))) (h : Ptr) (T : TV) : Prop :=
  (∀ h' m', Chain E l h m h' m' → ∃ R, h' = R.h ∧ At m' R T) ∧ (E.NoFail → E.MallocOK → ∃ h' m', Chain E l h m h' m')

/-- The square of the number is 0, or neither tiny nor beyond the range of the element type. -/
def Squarable (c : Code) (a : Rat) : Prop := a = 0 ∨ (c.tiny ≤ a * a ∧ a * a < c.fmt.limit)

end Aitisa
