import Verif.Spec.Conv
import Verif.Spec.PoolLaws
import Verif.Spec.Order
import Verif.Spec.Calc

/-!
# Specification vocabulary: padding made explicit
-/

namespace Aitisa

/-- The same windows on an axis that has the padding as part of it. -/
def Win.bordered (w : Win) : Win := ⟨w.x + 2 * w.p, w.k, w.s, 0, w.d⟩

/-- Coordinates in the input of a position of the input with its border; none if it is on the border. -/
def inside : List Win → List Nat → Option (List Nat)
  | w :: ws, q :: qs => if w.p ≤ q ∧ q < w.p + w.x then (inside ws qs).map ((q - w.p) :: ·) else none
  | _, _ => some []

/-- The zero of the type. -/
def Code.zero : Code → Val
  | .f32 => .f32 0
  | .f64 => .f64 0
  | _ => .int 0

/-- `xs'` are the elements `xs` (of `C` channels of `B` samples) with a border of zeros as wide as the padding of `ws`. -/
def Bordered (c : Code) (B C : Nat) (ws : List Win) (xs xs' : List Val) : Prop :=
  ∀ b ch qs, InRange (B :: C :: (ws.map Win.bordered).map Win.x) (b :: ch :: qs) →
    elemAt (B :: C :: (ws.map Win.bordered).map Win.x) xs' (b :: ch :: qs) =
      match inside ws qs with
      | some cs => elemAt (B :: C :: ws.map Win.x) xs (b :: ch :: cs)
      | none => c.zero

/-- The numbers are the same: the same element, or both a zero. -/
def SameNumber (x y : Val) : Prop := x = y ∨ (Stands x 0 ∧ Stands y 0)

/-- Average pooling with the windows `ws`. -/
def avgPool (fuel : Nat) (ws : List Win) (out : Ptr) (h : Ptr) : M (Status × Ptr) :=
  pooling fuel h "avg" (dimsCells (ws.map Win.k)) (dimsCells (ws.map Win.s)) (dimsCells (ws.map Win.p)) (dimsCells (ws.map Win.d)) out

end Aitisa
