import Verif.Spec.Arith
import Verif.Spec.NN
import Verif.Spec.Math

/-!
# Specification vocabulary: batch normalisation
-/

namespace Aitisa

/-- `st` is the status that goes with the first requirement of the list that does not hold. -/
def FirstFails : List (Prop × Status) → Status → Prop
  | [], _ => False
  | (p, s) :: l, st => (¬ p ∧ st = s) ∨ (p ∧ FirstFails l st)

/-- The requirements of batch normalisation on the input `T`, the axis, and the tensors scale, bias, mean and variance, in the
order of their precedence, each with the status that reports its violation. -/
def bnRequires (fp : FloatOps) (T : TV) (axis : Int) (Sc Bi Me Va : TV) (eps : BitVec 64) : List (Prop × Status) :=
  let channels := T.dims.getD axis.toNat 0
  [ (2 ≤ T.dims.length ∧ T.dims.length ≤ 5, .dimensionsMismatch),
    (axis = 1 ∨ axis = T.dims.length - 1, .invalidArgument),
    (Sc.dtype.code = T.dtype.code ∧ Bi.dtype.code = T.dtype.code, .typeMismatch),
    (Sc.dims = [channels] ∧ Bi.dims = [channels], .dimensionsMismatch),
    (Me.dtype.code = T.dtype.code ∧ Va.dtype.code = T.dtype.code, .typeMismatch),
    (Me.dims = [channels] ∧ Va.dims = [channels], .dimensionsMismatch),
    (¬ Negative fp (.f64 eps), .invalidArgument) ]

/-- `r = scale * ((x - mean) / sqrt(var + eps)) + bias`, every operation done in the element type `c`; the square root of a
negative number is not defined. -/
def NormTo (fp : FloatOps) (c : Code) (eps : BitVec 64) (scale bias mean var x r : Val) : Prop :=
  ∃ e t d a b p, Converts fp c (.f64 eps) e ∧ OpResult fp c .add var e t ∧ ¬ Negative fp t ∧ RootOf fp c t d ∧
    OpResult fp c .sub x mean a ∧ OpResult fp c .div a d b ∧ OpResult fp c .mul scale b p ∧ OpResult fp c .add p bias r

/-- Outcomes of batch normalisation, which is careless about allocation failure: success with a new tensor `T`, or - only if an
allocation can fail - `STATUS_ALLOC_FAILED` with existing memory unchanged but any `*output`, or a dereference of null. -/
def AttemptsMalloc (E : Env) (x : M (Status × Ptr)) (m : Mem) (T : TV) : Prop :=
  (∃ R m', x E m = .ok (.success, R.h) m' ∧ Produces m m' R T) ∨
  ((¬ E.NoFail ∨ ¬ E.MallocOK) ∧ ((∃ out m', x E m = .ok (.allocFailed, out) m' ∧ Frame m m' ∧ m'.WF) ∨ x E m = .ub .nullDeref))

/-- The sizes for which the code's 32-bit counters and offsets suffice: channels and numbers per channel count up to `INT_MAX`,
and both fit in 4 GiB. -/
structure BnSmall (T : TV) (axis : Nat) (c : Code) : Prop where
  samples : T.dims.getD 0 0 ≤ 2147483647
  channels : T.dims.getD axis 0 ≤ 2147483647
  inner : prod ((T.dims.eraseIdx axis).drop 1) ≤ 2147483647
  channelBytes : T.dims.getD axis 0 * c.size ≤ 4294967296
  innerBytes : prod ((T.dims.eraseIdx axis).drop 1) * c.size ≤ 4294967296

end Aitisa
