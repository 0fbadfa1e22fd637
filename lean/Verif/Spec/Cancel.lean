import Verif.Spec.Scale

/-!
# Specification vocabulary: sums and differences without loss
-/

namespace Aitisa

/-- The element is zero, above zero (possibly plus infinity) or below zero (possibly minus infinity) exactly if the exact number `e` is. -/
def SignOf (e : Rat) (z : Val) : Prop := (z.rat = some 0 ↔ e = 0) ∧ (Positive z ↔ 0 < e) ∧ (Negative ieee z ↔ e < 0)

/-- Neither number is more than twice the other. -/
def Alike (a b : Rat) : Prop := (a ≤ 2 * b ∧ b ≤ 2 * a) ∨ (2 * b ≤ a ∧ 2 * a ≤ b)

end Aitisa
