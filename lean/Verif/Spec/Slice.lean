import Verif.Spec.Index

/-!
# Specification vocabulary: slices
-/

namespace Aitisa

/-- What is asked for on one axis: `sz` positions from `bg` on, of which every `st`-th is taken. -/
structure Axis where
  bg : Nat
  sz : Nat
  st : Nat
  deriving DecidableEq, Repr

/-- The request is within a dimension of length `d`. -/
def Axis.Fits (d : Nat) (a : Axis) : Prop := a.bg < d ∧ a.bg + a.sz ≤ d ∧ 1 ≤ a.st

/-- One request per dimension, each within it. -/
def SliceFits : List Nat → List Axis → Prop
  | [], [] => True
  | d :: ds, a :: as => a.Fits d ∧ SliceFits ds as
  | _, _ => False

/-- `a / b` rounded up. -/
def ceilDiv (a b : Nat) : Nat := (a + (b - 1)) / b

/-- Dims of the slice: the number of positions taken on each axis with a nonzero size. -/
def sliceDims : List Axis → List Nat
  | [] => []
  | a :: as => if a.sz = 0 then sliceDims as else ceilDiv a.sz a.st :: sliceDims as

/-- Coordinates in the input of the element at coordinates `cs` of the slice. Axes of size 0 have no coordinate in
the slice and are taken at `bg`. -/
def source : List Axis → List Nat → List Nat
  | [], _ => []
  | a :: as, cs =>
    if a.sz = 0 then a.bg :: source as cs
    else (a.bg + a.st * cs.headD 0) :: source as cs.tail

/-- Begin `b`, size `s` and step `t` are acceptable for a dimension of length `d`. -/
def AxisOK (d b s t : Int) : Prop := 0 ≤ b ∧ b < d ∧ 0 ≤ s ∧ b + s ≤ d ∧ 1 ≤ t

instance (d b s t : Int) : Decidable (AxisOK d b s t) := inferInstanceAs (Decidable (_ ∧ _))

/-- The value fits in a C `int`. -/
def FitsInt (n : Int) : Prop := -2147483648 ≤ n ∧ n ≤ 2147483647

/-- The `int` arrays of a request. -/
def bgs (ax : List Axis) : Arr := dimsCells (ax.map (·.bg))
def szs (ax : List Axis) : Arr := dimsCells (ax.map (·.sz))
def sts (ax : List Axis) : Arr := dimsCells (ax.map (·.st))

/-- Axis `i` of the request is acceptable. -/
def GoodAt (ds : List Nat) (bg sz st : List Int) (i : Nat) : Prop :=
  AxisOK (ds.getD i 0) (bg.getD i 0) (sz.getD i 0) (st.getD i 0)

instance (ds : List Nat) (bg sz st : List Int) (i : Nat) : Decidable (GoodAt ds bg sz st i) :=
  inferInstanceAs (Decidable (AxisOK _ _ _ _))

/-- The sum computed in the check of axis `i` fits in an `int`. -/
def SumFits (bg sz : List Int) (i : Nat) : Prop :=
  bg.getD i 0 + sz.getD i 0 ≤ 2147483647 ∧ (0 ≤ sz.getD i 0 → -2147483648 ≤ bg.getD i 0 + sz.getD i 0)

/-- All numbers of the request fit in an `int`. -/
def AxFit (ax : List Axis) : Prop := ∀ a ∈ ax, a.bg + a.sz ≤ 2147483647 ∧ a.st ≤ 2147483647

end Aitisa
