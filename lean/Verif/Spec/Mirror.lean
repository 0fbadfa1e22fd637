import Verif.Spec.Range
import Verif.Spec.Order

/-!
# Specification vocabulary: opposite numbers
-/

namespace Aitisa

/-- `y` is the number opposite to `x`: the same bits but for the sign, or both are zeros, or both are NaN. -/
def Opposite (x y : Val) : Prop := y = negVal x ∨ (Stands x 0 ∧ Stands y 0) ∨ (¬ NotNaN x ∧ ¬ NotNaN y)

/-- From the operands `x`, `y` to `x'`, `y'` the exact result of an operator changes its sign: both operands of a sum or a difference do, or those of a
difference are exchanged; one factor does, or the dividend, or the divisor (whose sign counts even if it is a zero). -/
def OpTurns : BinOp → Val → Val → Val → Val → Prop
  | .add, x, y, x', y' => Opposite x x' ∧ Opposite y y'
  | .sub, x, y, x', y' => (Opposite x x' ∧ Opposite y y') ∨ (x' = y ∧ y' = x)
  | .mul, x, y, x', y' => (Opposite x x' ∧ y' = y) ∨ (x' = x ∧ Opposite y y')
  | .div, x, y, x', y' => (Opposite x x' ∧ y' = y) ∨ (x' = x ∧ y' = negVal y)

/-- From one product to the other one factor changes its sign and the other is the same. -/
def TermTurns (p p' : Val × Val) : Prop := (Opposite p.1 p'.1 ∧ p'.2 = p.2) ∨ (Opposite p.2 p'.2 ∧ p'.1 = p.1)

/-- From one product of tensors to the other all elements of one factor change their signs and those of the other are the same. -/
def FactorsTurn (xs ys xs' ys' : List Val) : Prop := (Pointwise Opposite xs xs' ∧ ys' = ys) ∨ (Pointwise Opposite ys ys' ∧ xs' = xs)

/-- Minus one. -/
def MinusOne : Val → Prop
  | .int n => n = -1
  | .f32 b => b = 0xBF800000
  | .f64 b => b = 0xBFF0000000000000

end Aitisa
