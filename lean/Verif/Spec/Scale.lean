import Verif.Spec.Nearest
import Verif.Spec.Calc
import Verif.Spec.Ieee

/-!
# Specification vocabulary: numbers scaled by a power of two
-/

namespace Aitisa

/-- Both are numbers and `y` is exactly `2 ^ k` times `x`. -/
def Scaled (k : Nat) (x y : Val) : Prop := ∃ q, x.rat = some q ∧ y.rat = some (q * 2 ^ k)

/-- The smallest positive number of full precision. -/
def Code.tiny : Code → Rat
  | .f32 => 1 / 2 ^ 126
  | .f64 => 1 / 2 ^ 1022
  | _ => 0

/-- The exact number `q` does not fall below the range of full precision. -/
def Ample (c : Code) (q : Rat) : Prop := q = 0 ∨ c.tiny ≤ q.abs

/-- The exact product does not fall below the range. -/
def AmpleProduct (c : Code) (x y : Val) : Prop := ∀ q r, x.rat = some q → y.rat = some r → Ample c (q * r)

/-- From the operands `x`, `y` to `x'`, `y'` the exact result of an operator is multiplied by `2 ^ k`: both operands of a sum or a difference are,
the factors of a product are multiplied by `2 ^ i` and `2 ^ j` with `i + j = k`, or the dividend is. Exact products and quotients must not fall below
the range of full precision; sums and differences may. -/
def OpScales (c : Code) (k : Nat) : BinOp → Val → Val → Val → Val → Prop
  | .add, x, y, x', y' => Scaled k x x' ∧ Scaled k y y'
  | .sub, x, y, x', y' => Scaled k x x' ∧ Scaled k y y'
  | .mul, x, y, x', y' => ∃ i j, i + j = k ∧ Scaled i x x' ∧ Scaled j y y' ∧ AmpleProduct c x y
  | .div, x, y, x', y' => Scaled k x x' ∧ y' = y ∧ ∃ q r, x.rat = some q ∧ y.rat = some r ∧ Ample c (q / r)

/-- From one product to the other the exact value is multiplied by `2 ^ k`, and it does not fall below the range. -/
def TermScales (c : Code) (k : Nat) (p p' : Val × Val) : Prop :=
  ∃ i j, i + j = k ∧ Scaled i p.1 p'.1 ∧ Scaled j p.2 p'.2 ∧ AmpleProduct c p.1 p.2

/-- From one product of tensors to the other all elements of the factors are multiplied by `2 ^ i` and `2 ^ j`, `i + j = k`, and no product of an element
of the one and an element of the other falls below the range. -/
def FactorsScale (c : Code) (k : Nat) (xs ys xs' ys' : List Val) : Prop :=
  ∃ i j, i + j = k ∧ Pointwise (Scaled i) xs xs' ∧ Pointwise (Scaled j) ys ys' ∧ ∀ x ∈ xs, ∀ y ∈ ys, AmpleProduct c x y

/-- Unless the second result is beyond the range, it is exactly `2 ^ k` times the first. -/
def Scales (k : Nat) (z z' : Val) : Prop := Finite z' → Scaled k z z'

/-- A number above the smallest of full precision. -/
def Above (c : Code) (z : Val) : Prop := ∃ q, z.rat = some q ∧ c.tiny < q.abs

/-- The compiler does not fuse `z + a * b` into one operation. -/
def Unfused (fp : FloatOps) : Prop := Machine fp ∧ fp.mac32 = ieee.mac32 ∧ fp.mac64 = ieee.mac64

end Aitisa
