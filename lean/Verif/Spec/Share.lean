import Verif.Spec.Error
import Verif.Spec.Range

/-!
# Specification vocabulary: shares and other ratios of positive numbers
-/

namespace Aitisa

/-- What a ratio `s` may be off by when it is computed in `double` with a relative error of `k` parts in `2^53` (and half of the smallest number, if it
is tiny) and then stored in an element of type `c`. -/
def Code.off (c : Code) (k s : Rat) : Rat :=
  match c with
  | .f64 => k / 2 ^ 53 * s + 2 ^ b64.emin / 2
  | _ => b32.grow * (k / 2 ^ 53 * s + 2 ^ b64.emin / 2) + 1 / 2 ^ 24 * s + 2 ^ b32.emin / 2

/-- The element of type `c` is a number near the ratio `s`. -/
def NearRatio (c : Code) (k : Rat) (w : Val) (s : Rat) : Prop := ∃ q, w.rat = some q ∧ (q - s).abs ≤ c.off k s.abs

/-- The elements stand for the numbers of the other list. -/
def RatsOf (vs : List Val) (ws : List Rat) : Prop := vs.map Val.rat = ws.map some

/-- Numbers that have shares: none is negative, their sum is positive and below half of the range of `double`, and there are at most `2^50` of them. -/
def Sharable (ws : List Rat) : Prop := (∀ e ∈ ws, 0 ≤ e) ∧ 0 < ws.sum ∧ ws.sum < 2 ^ 1023 ∧ ws.length ≤ 2 ^ 50

end Aitisa
