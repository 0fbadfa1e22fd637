import Verif.Spec.Pooling
import Verif.Spec.Matmul

/-!
# Specification vocabulary: convolution

The axis parameters are those of pooling: `x` the length of the input axis, `k` that of the filter axis.
-/

namespace Aitisa

/-- The parameters are positive where the code divides or subtracts, and the intermediate values fit in their C types. -/
structure Win.Wide (w : Win) : Prop where
  k : 1 ≤ w.k
  s : 1 ≤ w.s
  p : 2 * w.p ≤ 2147483647
  x : w.x + 2 * w.p ≤ 9223372036854775807
  span : w.d * (w.k - 1) + 1 ≤ 9223372036854775807

/-- The pairs (input element, filter element) that contribute to output element `b, oc, os`: channel by channel, in each
channel in row-major order of the filter, positions outside the input left out.  `ds` and `fs` are the shapes, `xs` and
`ys` the elements of input and filter, `C` the number of channels. -/
def convTerms (ds fs : List Nat) (xs ys : List Val) (ws : List Win) (C b oc : Nat) (os : List Nat) : List (Val × Val) :=
  (List.range C).flatMap fun ic => (List.range (prod (ws.map Win.k))).filterMap fun j =>
    (winAt ws os (unlin (ws.map Win.k) j)).map fun cs => (elemAt ds xs (b :: ic :: cs), elemAt fs ys (oc :: ic :: unlin (ws.map Win.k) j))

/-- `y` is the sum of the products, accumulated from 0 in `float` arithmetic. -/
def ConvOf (fp : FloatOps) (l : List (Val × Val)) (y : Val) : Prop :=
  ∃ z, ZeroOf fp .f32 z ∧ DotTo fp .f32 z l y

/-- Outcomes of a call whose status is the meaningless value `st`: a new tensor `T`, or - only if the allocator can fail -
`STATUS_ALLOC_FAILED` with existing memory and `*output` unchanged, or a dereference of null. -/
def Leaves (E : Env) (x : M (Status × Ptr)) (m : Mem) (out : Ptr) (st : Status) (T : TV) : Prop :=
  (∃ R m', x E m = .ok (st, R.h) m' ∧ Produces m m' R T) ∨
  (¬ E.NoFail ∧ ((∃ m', x E m = .ok (.allocFailed, out) m' ∧ Frame m m' ∧ m'.WF) ∨ x E m = .ub .nullDeref))

end Aitisa
