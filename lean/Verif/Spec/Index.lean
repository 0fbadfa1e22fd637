import Verif.Spec.Tensor

/-!
# Specification vocabulary: row-major coordinates
-/

namespace Aitisa

/-- `cs` are valid coordinates for the shape `ds`: as many as dimensions, each below its dimension. -/
def InRange : List Nat → List Nat → Prop
  | [], [] => True
  | d :: ds, c :: cs => c < d ∧ InRange ds cs
  | _, _ => False

/-- Row-major linear index of coordinates. -/
def lin : List Nat → List Nat → Nat
  | _ :: ds, c :: cs => c * prod ds + lin ds cs
  | _, _ => 0

/-- Row-major coordinates of a linear index. -/
def unlin : List Nat → Nat → List Nat
  | [], _ => []
  | _ :: ds, i => (i / prod ds) :: unlin ds (i % prod ds)

/-- Row-major strides: each the product of the later dims. -/
def strides : List Nat → List Nat
  | [] => []
  | _ :: ds => prod ds :: strides ds

/-- Sum of products. -/
def dotNat : List Nat → List Nat → Nat
  | a :: as, b :: bs => a * b + dotNat as bs
  | _, _ => 0

/-- The dim at distance `i` from the right end, if there is one. -/
def fromRight (ds : List Nat) (i : Nat) : Option Nat := ds.reverse[i]?

/-- Two aligned dims are compatible: equal, or one of them is 1; a missing dim goes with everything. -/
def Compatible : Option Nat → Option Nat → Prop
  | some a, some b => a = b ∨ a = 1 ∨ b = 1
  | _, _ => True

/-- The larger of two aligned dims, or the only one. -/
def larger : Option Nat → Option Nat → Option Nat
  | some a, some b => some (max a b)
  | some a, none => some a
  | none, b => b

/-- The shapes `a` and `b` broadcast to `c`. -/
def Broadcasts (a b c : List Nat) : Prop :=
  (∀ i, Compatible (fromRight a i) (fromRight b i)) ∧ ∀ i, fromRight c i = larger (fromRight a i) (fromRight b i)

end Aitisa
