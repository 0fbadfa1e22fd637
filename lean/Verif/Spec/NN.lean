import Verif.Spec.Arith
import Verif.Spec.Index

/-!
# Specification vocabulary: neural network operators
-/

namespace Aitisa

/-- Outcomes of a call that should produce `T`, checks its allocations, but does not keep `*output` or free its temporaries
when one fails: success with a new tensor `T`, or - only if the allocator can fail - `STATUS_ALLOC_FAILED` with
existing memory unchanged but any `*output`. -/
def Tries (E : Env) (x : M (Status × Ptr)) (m : Mem) (T : TV) : Prop :=
  (∃ R m', x E m = .ok (.success, R.h) m' ∧ Produces m m' R T) ∨
  (¬ E.NoFail ∧ ∃ out m', x E m = .ok (.allocFailed, out) m' ∧ Frame m m' ∧ m'.WF)

/-- `ys` is `xs` with some elements replaced by the zero `z`: position `i` is replaced iff the `i`-th random number
`rnd i`, mapped to 1..100, is at most `line`. -/
def Dropped (rnd : Nat → Nat) (line : Int) (z : Val) (xs ys : List Val) : Prop :=
  ys.length = xs.length ∧ ∀ i (h : i < xs.length) (h' : i < ys.length),
    (((rnd i % 100 + 1 : Nat) : Int) ≤ line → ys[i] = z) ∧ (line < ((rnd i % 100 + 1 : Nat) : Int) → ys[i] = xs[i])

/-- `n` is the truncated percentage of `rate`. -/
def Percent (fp : FloatOps) (rate : BitVec 64) (n : Int) : Prop :=
  Converts fp .i32 (.f64 (fp.mul64 rate (fp.ofInt64 100))) (.int n)

/-- The rate is not rejected: neither below 0 nor above 1 (a NaN is neither). -/
def RateOK (fp : FloatOps) (rate : BitVec 64) : Prop :=
  fp.lt64 rate (fp.ofInt64 0) = false ∧ fp.lt64 (fp.ofInt64 1) rate = false

/-- `e = (T) exp((double) x)`. -/
def ExpOf (fp : FloatOps) (c : Code) (x e : Val) : Prop :=
  ∃ d, Converts fp .f64 x (.f64 d) ∧ Converts fp c (.f64 (fp.exp64 d)) e

/-- Adding the elements of the list as `double`s, from left to right, to `t` gives `r`. -/
def SumsTo (fp : FloatOps) : BitVec 64 → List Val → BitVec 64 → Prop
  | t, [], r => r = t
  | t, e :: es, r => ∃ d, Converts fp .f64 e (.f64 d) ∧ SumsTo fp (fp.add64 t d) es r

/-- `y = (T)(e / total)` where `total` is the sum of the line. -/
def ShareOf (fp : FloatOps) (c : Code) (line : List Val) (e y : Val) : Prop :=
  ∃ t d, SumsTo fp (fp.ofInt64 0) line t ∧ Converts fp .f64 e (.f64 d) ∧ Converts fp c (.f64 (fp.div64 d t)) y

/-- The element of a row-major array at the given coordinates. -/
def elemAt (ds : List Nat) (xs : List Val) (cs : List Nat) : Val := xs.getD (lin ds cs) (.int 0)

/-- The line through coordinates `cs` along an axis, in increasing order of the coordinate. -/
def lineAt (ds : List Nat) (axis : Nat) (xs : List Val) (cs : List Nat) : List Val :=
  (List.range (ds.getD axis 0)).map fun j => elemAt ds xs (cs.set axis j)

end Aitisa
