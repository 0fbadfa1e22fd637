import Verif.Spec.Index

/-!
# Specification vocabulary: indices and coordinates that do not exist
-/

namespace Aitisa

/-- `cs` names an element of a tensor with dims `ds`. -/
def Names (ds : List Nat) (cs : List Int) : Prop :=
  cs.length = ds.length ∧ ∀ k (h : k < cs.length) (h' : k < ds.length), 0 ≤ cs[k] ∧ cs[k] < (ds[k] : Int)

/-- Coordinate times the number of elements one step along that axis skips, summed; any integers. -/
def reach : List Nat → List Int → Int
  | _ :: ds, c :: cs => c * (prod ds : Int) + reach ds cs
  | _, _ => 0

/-- The same with all coordinates counted positive. -/
def reachAbs : List Nat → List Int → Nat
  | _ :: ds, c :: cs => c.natAbs * prod ds + reachAbs ds cs
  | _, _ => 0

end Aitisa
