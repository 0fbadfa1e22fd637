/-!
# binary64 arithmetic used for shapes

`slice.c` and `pooling.c` compute output dimensions with `double` division followed by `ceil`/`floor`.
These few operations are modelled concretely: IEEE-754 binary64, round to nearest, ties to even, for
quotients of non-negative integers in the normal range.
-/

namespace Aitisa

/-- `a / b` rounded to the nearest integer, ties to even. -/
def rne (a b : Nat) : Nat :=
  let q := a / b
  let r := a % b
  if 2 * r < b then q
  else if b < 2 * r then q + 1
  else if q % 2 = 0 then q else q + 1

/-- Binary exponent shift `k` such that `2^52 ≤ (a / b) * 2^k < 2^53` (for `0 < a`, `0 < b` and
quotients below `2^53`). -/
def dShift (a b : Nat) : Nat :=
  let la := Nat.log2 a
  let lb := Nat.log2 b
  let k := 52 + lb - la
  if a * 2 ^ lb < b * 2 ^ la then k + 1 else k

/-- The binary64 quotient `(double)a / (double)b` as a fraction `mantissa / 2^k`.  `a` and `b` must be
exactly representable (below `2^53`), `b` positive, the quotient below `2^52`. -/
def dDiv (a b : Nat) : Nat × Nat :=
  if a = 0 then (0, 0)
  else
    let k := dShift a b
    (rne (a * 2 ^ k) b, k)

/-- The binary64 sum `x + 1` for a fraction `x` (below `2^52`): the exact sum, rounded if it needs more than 53 bits. -/
def dAddOne (x : Nat × Nat) : Nat × Nat :=
  let n := x.1 + 2 ^ x.2
  let t := Nat.log2 n - 52
  (rne n (2 ^ t), x.2 - t)

/-- `ceil` of a fraction with power of two denominator. -/
def dCeil (x : Nat × Nat) : Nat := (x.1 + (2 ^ x.2 - 1)) / 2 ^ x.2

/-- `floor` of a fraction with power of two denominator. -/
def dFloor (x : Nat × Nat) : Nat := x.1 / 2 ^ x.2

end Aitisa
