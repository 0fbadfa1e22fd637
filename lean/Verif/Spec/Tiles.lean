import Verif.Spec.Border
import Verif.Spec.Slice
import Verif.Spec.PoolLaws

/-!
# Specification vocabulary: tiles
-/

namespace Aitisa

/-- Positions along an axis: `n` of them, namely `first`, `first + step`, `first + 2 * step`, ... -/
structure Pick where
  first : Nat
  n : Nat
  step : Nat

/-- At least one position, all within a dimension of length `d`. -/
def Pick.Of (p : Pick) (d : Nat) : Prop := 1 ≤ p.n ∧ 1 ≤ p.step ∧ p.first + (p.n - 1) * p.step < d

/-- The positions as a request to `slice`. -/
def Pick.axis (p : Pick) : Axis := ⟨p.first, (p.n - 1) * p.step + 1, p.step⟩

/-- All of an axis, as a request to `slice`. -/
def Axis.whole (d : Nat) : Axis := ⟨0, d, 1⟩

/-- Windows along an axis, and the positions among them that are wanted. -/
structure Tile where
  w : Win
  p : Pick

/-- There is no padding, and the windows that are wanted exist. -/
def Tile.Fits (t : Tile) : Prop := t.w.Fits ∧ t.w.p = 0 ∧ t.p.Of t.w.out

/-- The part of the input from the start of the first window that is wanted to the end of the last. -/
def Tile.axis (t : Tile) : Axis := ⟨t.p.first * t.w.s, (t.p.n - 1) * (t.p.step * t.w.s) + t.w.d * (t.w.k - 1) + 1, 1⟩

/-- The windows that are wanted, in that part: the stride is multiplied by the step. -/
def Tile.win (t : Tile) : Win := ⟨t.axis.sz, t.w.k, t.p.step * t.w.s, 0, t.w.d⟩

/-- `ys` are the elements that the request `ax` takes of the elements `xs` of a tensor of shape `ds`. -/
def Sliced (ds : List Nat) (ax : List Axis) (xs ys : List Val) : Prop :=
  ys.length = prod (sliceDims ax) ∧ ∀ cs, InRange (sliceDims ax) cs → elemAt (sliceDims ax) ys cs = elemAt ds xs (source ax cs)

end Aitisa
