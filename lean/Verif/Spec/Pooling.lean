import Verif.Spec.NN

/-!
# Specification vocabulary: pooling windows
-/

namespace Aitisa

/-- One pooled axis: its length, and the window length, stride, padding and dilation along it. -/
structure Win where
  x : Nat
  k : Nat
  s : Nat
  p : Nat
  d : Nat

/-- The documented preconditions: positive window length, stride and dilation, and a window that fits in the padded axis. -/
structure Win.Fits (w : Win) : Prop where
  k : 1 ≤ w.k
  s : 1 ≤ w.s
  d : 1 ≤ w.d
  fits : w.d * (w.k - 1) + 1 ≤ w.x + 2 * w.p

/-- The padded axis and the parameters fit in `int`. -/
structure Win.Small (w : Win) : Prop where
  x : w.x + 2 * w.p ≤ 2147483647
  s : w.s ≤ 2147483647
  d : w.d ≤ 2147483647

/-- Number of windows along the axis. -/
def Win.out (w : Win) : Nat := (w.x + 2 * w.p - w.d * (w.k - 1) - 1) / w.s + 1

/-- Coordinates in the input of element `qs` of window `os`; none if it lies in the padding. -/
def winAt : List Win → List Nat → List Nat → Option (List Nat)
  | w :: ws, o :: os, q :: qs =>
    if w.p ≤ o * w.s + q * w.d ∧ o * w.s + q * w.d < w.p + w.x then
      (winAt ws os qs).map ((o * w.s + q * w.d - w.p) :: ·)
    else none
  | _, _, _ => some []

/-- The elements of window `os` of channel `c` of sample `b` that lie inside the input, in row-major order of the window.
`ds` is the shape of the input. -/
def winElems (ds : List Nat) (xs : List Val) (ws : List Win) (b c : Nat) (os : List Nat) : List Val :=
  (List.range (prod (ws.map Win.k))).filterMap fun j =>
    (winAt ws os (unlin (ws.map Win.k) j)).map fun cs => elemAt ds xs (b :: c :: cs)

/-- `y = (T)(sum / size)`: the elements added up as `double`s, divided by the window size. -/
def AvgOf (fp : FloatOps) (c : Code) (size : Nat) (es : List Val) (y : Val) : Prop :=
  ∃ t, SumsTo fp (fp.ofInt64 0) es t ∧ Converts fp c (.f64 (fp.div64 t (fp.ofInt64 size))) y

/-- Scanning the list from `t`, replacing the running value by any element above it, ends with `r`. -/
def ScansTo (fp : FloatOps) : BitVec 64 → List Val → BitVec 64 → Prop
  | t, [], r => r = t
  | t, e :: es, r => ∃ d, Converts fp .f64 e (.f64 d) ∧ ScansTo fp (if fp.lt64 t d then d else t) es r

/-- `y = (T) r` where `r` is the outcome of the scan from 0. -/
def ScanOf (fp : FloatOps) (c : Code) (es : List Val) (y : Val) : Prop :=
  ∃ r, ScansTo fp (fp.ofInt64 0) es r ∧ Converts fp c (.f64 r) y

/-- On the given numbers `<` is a strict order whose negation is transitive (true of IEEE numbers that are not NaN). -/
structure Ordered (fp : FloatOps) (ds : List (BitVec 64)) : Prop where
  asymm : ∀ a ∈ ds, ∀ b ∈ ds, fp.lt64 a b = true → fp.lt64 b a = false
  trans : ∀ a ∈ ds, ∀ b ∈ ds, ∀ c ∈ ds, fp.lt64 a b = false → fp.lt64 b c = false → fp.lt64 a c = false

/-- `e` is a maximum of `es` as `double`s. -/
def MaxOf (fp : FloatOps) (es : List Val) (e : Val) : Prop :=
  e ∈ es ∧ ∀ e' ∈ es, ∀ d d', Converts fp .f64 e (.f64 d) → Converts fp .f64 e' (.f64 d') → fp.lt64 d d' = false

end Aitisa
