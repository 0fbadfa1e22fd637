import Verif.Spec.Tensor

/-!
# Specification vocabulary: squeeze
-/

namespace Aitisa

/-- `ds'` are the dims `ds` (positions counted from `k`) without the unit dims at the positions in `A`. -/
def Without (A : Nat → Prop) : Nat → List Nat → List Nat → Prop
  | _, [], ds' => ds' = []
  | k, d :: ds, ds' => (d = 1 ∧ A k ∧ Without A (k + 1) ds ds') ∨
      (¬ (d = 1 ∧ A k) ∧ ∃ r, ds' = d :: r ∧ Without A (k + 1) ds r)

/-- No axis of length 1 is listed twice. -/
def NoRepeatedUnit (ds ax : List Nat) : Prop :=
  ∀ ⦃j k a : Nat⦄, j < k → ax[j]? = some a → ax[k]? = some a → ds[a]? ≠ some 1

/-- Axis `i` is asked for: it is listed, or the list is empty. -/
def asked (ax : List Nat) (i : Nat) : Bool := ax.isEmpty || decide (i ∈ ax)

/-- The number of entries of the axis list that name a unit dim, repetitions included; for the empty list the number of
unit dims. -/
def unitHits (ds ax : List Nat) : Nat :=
  if ax = [] then ds.count 1 else ax.countP fun a => ds[a]? == some 1

/-- The dims `ds` (positions counted from `k`) without the zeros and without the unit dims at the positions in `A`. -/
def keptDims (A : Nat → Bool) : Nat → List Nat → List Nat
  | _, [] => []
  | k, d :: ds => if d = 0 ∨ (d = 1 ∧ A k = true) then keptDims A (k + 1) ds else d :: keptDims A (k + 1) ds

/-- An allocator that grants every request of less than `2^63` bytes and no other. -/
def Env.Sane (E : Env) : Prop := ∀ t s, E.allocOk t s = true ↔ s < 9223372036854775808

end Aitisa
