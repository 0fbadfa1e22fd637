import Verif.Spec.Conv
import Verif.Spec.Slice
import Verif.Spec.Exact

/-!
# Specification vocabulary: parameters that change nothing
-/

namespace Aitisa

/-- The request for all positions of every axis. -/
def whole (ds : List Nat) : List Axis := ds.map fun d => ⟨0, d, 1⟩

/-- Window length and stride 1, no padding. -/
def Win.Plain (w : Win) : Prop := w.k = 1 ∧ w.s = 1 ∧ w.p = 0

/-- The filter of output channel `oc`, of shape `fs`, has a one at channel `ch` and position `q` and zeros elsewhere. -/
def OneAt (fs : List Nat) (ys : List Val) (oc ch : Nat) (q : List Nat) : Prop :=
  ∀ ic p, InRange (fs.drop 1) (ic :: p) → Stands (elemAt fs ys (oc :: ic :: p)) (if ic = ch ∧ p = q then 1 else 0)

end Aitisa
