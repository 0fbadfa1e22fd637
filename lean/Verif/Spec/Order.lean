import Verif.Spec.Range
import Verif.Spec.Nearest
import Verif.Spec.Matmul

/-!
# Specification vocabulary: order of results
-/

namespace Aitisa

/-- No element of the first list exceeds the one at the same position of the second, and none is a NaN. -/
def Below (xs ys : List Val) : Prop := Pointwise AtMost xs ys

/-- The first value does not exceed the second, unless one is a NaN. -/
def InOrder (x y : Val) : Prop := NotNaN x → NotNaN y → AtMost x y

/-- A finite number that is not negative. -/
def NonNeg (x : Val) : Prop := ∃ q, x.rat = some q ∧ 0 ≤ q

/-- A finite positive number. -/
def FinPos (x : Val) : Prop := ∃ q, x.rat = some q ∧ 0 < q

/-- From the operands `x`, `y` to `x'`, `y'` the exact result of an operator does not decrease: sums rise with both operands, differences with the first and
against the second, products by a number that is not negative and quotients by a positive number with the first. -/
def OpRises : BinOp → Val → Val → Val → Val → Prop
  | .add, x, y, x', y' => AtMost x x' ∧ AtMost y y'
  | .sub, x, y, x', y' => AtMost x x' ∧ AtMost y' y
  | .mul, x, y, x', y' => AtMost x x' ∧ y' = y ∧ NonNeg y
  | .div, x, y, x', y' => AtMost x x' ∧ y' = y ∧ FinPos y

/-- From one product to the other one factor rises and the other is the same finite number, not negative. -/
def TermRises (p p' : Val × Val) : Prop :=
  (AtMost p.1 p'.1 ∧ p'.2 = p.2 ∧ NonNeg p.2) ∨ (AtMost p.2 p'.2 ∧ p'.1 = p.1 ∧ NonNeg p.1)

/-- From one product of tensors to the other the elements of one factor rise and those of the other are the same finite numbers, not negative. -/
def FactorsRise (xs ys xs' ys' : List Val) : Prop :=
  (Below xs xs' ∧ ys' = ys ∧ ∀ y ∈ ys, NonNeg y) ∨ (Below ys ys' ∧ xs' = xs ∧ ∀ x ∈ xs, NonNeg x)

/-- A machine with IEEE arithmetic on which `z + a * b` is always rounded twice or always once. -/
def Uniform (fp : FloatOps) : Prop :=
  Machine fp ∧ (fp.mac32 = ieee.mac32 ∨ fp.mac32 = fused.mac32) ∧ (fp.mac64 = ieee.mac64 ∨ fp.mac64 = fused.mac64)

end Aitisa
