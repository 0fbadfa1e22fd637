import Verif.Spec.Tensor

/-!
# Specification vocabulary: values, conversions, arithmetic

Relational descriptions of the C conversion and arithmetic rules, with literal ranges, independent of the
functions used in the model.  Floating-point arithmetic itself is the abstract `FloatOps`.
-/

namespace Aitisa

/-- Range of an integer type, as literals. -/
def intRange : Code → Option (Int × Int)
  | .i8 => some (-128, 127)
  | .u8 => some (0, 255)
  | .i16 => some (-32768, 32767)
  | .u16 => some (0, 65535)
  | .i32 => some (-2147483648, 2147483647)
  | .u32 => some (0, 4294967295)
  | .i64 => some (-9223372036854775808, 9223372036854775807)
  | .u64 => some (0, 18446744073709551615)
  | .f32 | .f64 => none

/-- `r` is `n` reduced into the range of the integer type `c`: in range and congruent modulo the number of
values of the type. -/
def ReducesTo (c : Code) (n r : Int) : Prop :=
  ∃ lo hi, intRange c = some (lo, hi) ∧ lo ≤ r ∧ r ≤ hi ∧ ∃ k : Int, n = r + k * (hi - lo + 1)

/-- Value `v` (of any element type) converts in C to the value `w` of element type `c`. -/
def Converts (fp : FloatOps) (c : Code) (v w : Val) : Prop :=
  match c with
  | .f32 => w = .f32 (match v with | .int n => fp.ofInt32 n | .f32 b => b | .f64 b => fp.narrow b)
  | .f64 => w = .f64 (match v with | .int n => fp.ofInt64 n | .f32 b => fp.widen b | .f64 b => b)
  | c => ∃ r, w = .int r ∧
    match v with
    | .int n => ReducesTo c n r
    | .f32 b => fp.trunc32 b = some r ∧ ∃ lo hi, intRange c = some (lo, hi) ∧ lo ≤ r ∧ r ≤ hi
    | .f64 b => fp.trunc64 b = some r ∧ ∃ lo hi, intRange c = some (lo, hi) ∧ lo ≤ r ∧ r ≤ hi

/-- Lists related position by position. -/
def Pointwise {α β : Type} (r : α → β → Prop) (xs : List α) (ys : List β) : Prop :=
  xs.length = ys.length ∧ ∀ i (h : i < xs.length) (h' : i < ys.length), r xs[i] ys[i]

/-- `y` is `x` clamped at zero. -/
def ClampedAtZero (fp : FloatOps) : Val → Val → Prop
  | .int n, y => y = .int (max n 0)
  | .f32 b, y => (fp.lt32 (fp.ofInt32 0) b = true → y = .f32 b) ∧
      (fp.lt32 (fp.ofInt32 0) b = false → y = .f32 (fp.ofInt32 0))
  | .f64 b, y => (fp.lt64 (fp.ofInt64 0) b = true → y = .f64 b) ∧
      (fp.lt64 (fp.ofInt64 0) b = false → y = .f64 (fp.ofInt64 0))

/-- `x < 0`. -/
def Negative (fp : FloatOps) : Val → Prop
  | .int n => n < 0
  | .f32 b => fp.lt32 b (fp.ofInt32 0) = true
  | .f64 b => fp.lt64 b (fp.ofInt64 0) = true

/-- `y = (T) sqrt((double) x)`. -/
def RootOf (fp : FloatOps) (c : Code) (x y : Val) : Prop :=
  ∃ d, Converts fp .f64 x (.f64 d) ∧ Converts fp c (.f64 (fp.sqrt64 d)) y

/-- `y = (T)(1 / (1 + exp(-x)))`, the negation being done in the element type. -/
def SigmoidOf (fp : FloatOps) (x y : Val) : Prop :=
  match x with
  | .f32 b => y = .f32 (fp.narrow (fp.div64 (fp.ofInt64 1)
      (fp.add64 (fp.ofInt64 1) (fp.exp64 (fp.widen (fp.neg32 b))))))
  | .f64 b => y = .f64 (fp.div64 (fp.ofInt64 1) (fp.add64 (fp.ofInt64 1) (fp.exp64 (fp.neg64 b))))
  | .int _ => False

/-- `y = (T)((exp(x) - exp(-x)) / (exp(x) + exp(-x)))`. -/
def TanhOf (fp : FloatOps) (x y : Val) : Prop :=
  match x with
  | .f32 b =>
    y = .f32 (fp.narrow (fp.div64
      (fp.sub64 (fp.exp64 (fp.widen b)) (fp.exp64 (fp.widen (fp.neg32 b))))
      (fp.add64 (fp.exp64 (fp.widen b)) (fp.exp64 (fp.widen (fp.neg32 b))))))
  | .f64 b =>
    y = .f64 (fp.div64 (fp.sub64 (fp.exp64 b) (fp.exp64 (fp.neg64 b)))
      (fp.add64 (fp.exp64 b) (fp.exp64 (fp.neg64 b))))
  | .int _ => False

/-- `q` is the quotient `a / b` of C: rounded toward zero. -/
def CQuot (a b q : Int) : Prop :=
  b ≠ 0 ∧ ∃ r : Int, a = b * q + r ∧ r.natAbs < b.natAbs ∧ (0 ≤ a → 0 ≤ r) ∧ (a ≤ 0 → r ≤ 0)

/-- Exact mathematical result of an integer operator. -/
def ExactOp : BinOp → Int → Int → Int → Prop
  | .add, a, b, e => e = a + b
  | .sub, a, b, e => e = a - b
  | .mul, a, b, e => e = a * b
  | .div, a, b, e => CQuot a b e

/-- `y` is the result of the C operator on elements of type `c`.  For `int32_t` and `int64_t` the exact
result must be representable; the other integer types reduce the exact result into their range, except that
`uint16_t` operands are promoted to `int`, so a product above `INT_MAX` is not defined. -/
def OpResult (fp : FloatOps) (c : Code) (op : BinOp) (x y z : Val) : Prop :=
  match x, y with
  | .int a, .int b => ∃ e r, z = .int r ∧ ExactOp op a b e ∧
    match c with
    | .i32 | .i64 => r = e ∧ ∃ lo hi, intRange c = some (lo, hi) ∧ lo ≤ r ∧ r ≤ hi
    | .u16 => e ≤ 2147483647 ∧ ReducesTo c e r
    | c => ReducesTo c e r
  | .f32 a, .f32 b => z = .f32 (match op with
      | .add => fp.add32 a b | .sub => fp.sub32 a b | .mul => fp.mul32 a b | .div => fp.div32 a b)
  | .f64 a, .f64 b => z = .f64 (match op with
      | .add => fp.add64 a b | .sub => fp.sub64 a b | .mul => fp.mul64 a b | .div => fp.div64 a b)
  | _, _ => False

end Aitisa
