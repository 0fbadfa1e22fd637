import Verif.Spec.Exact

/-!
# Specification vocabulary: correct rounding
-/

namespace Aitisa

/-- The rational number that a bit pattern stands for; nothing for NaN and infinities. -/
def Fmt.rat (F : Fmt) (b : Nat) : Option Rat :=
  match F.decode b with
  | .fin s m e => some ((sgn s m : Rat) * 2 ^ e)
  | _ => none

/-- The end of the range: half a unit in the last place above the largest number. -/
def Fmt.limit (F : Fmt) : Rat := ((2 ^ (F.p + 1) - 1 : Nat) : Rat) * 2 ^ ((2 : Int) ^ (F.w - 1) - 1 - F.p)

/-- `b` is the exact result `e` correctly rounded: below the end of the range the number of the format that is
nearest to `e`, of two the one whose last bit is 0; otherwise infinity with the sign of `e`. -/
def Fmt.Rounded (F : Fmt) (e : Rat) (b : Nat) : Prop :=
  (e.abs < F.limit → ∃ q, F.rat b = some q ∧ ∀ k w, k < 2 ^ (F.p + F.w) → F.rat k = some w →
    (e - q).abs ≤ (e - w).abs ∧ ((e - q).abs = (e - w).abs → w ≠ q → b % 2 = 0)) ∧
  (F.limit ≤ e → b = F.infBits) ∧ (e ≤ -F.limit → b = F.signBit + F.infBits)

/-- `b` is the square root of `x` correctly rounded: no number of the format that is not negative is closer to the
root (the root lies on this side of the middle between the two), and if the root is the middle the last bit is 0. -/
def Fmt.RootRounded (F : Fmt) (x : Rat) (b : Nat) : Prop :=
  ∃ q, F.rat b = some q ∧ 0 ≤ q ∧ ∀ k w, k < 2 ^ (F.p + F.w) → F.rat k = some w → 0 ≤ w →
    (q < w → 4 * x ≤ (q + w) * (q + w) ∧ (4 * x = (q + w) * (q + w) → b % 2 = 0)) ∧
    (w < q → (q + w) * (q + w) ≤ 4 * x ∧ (4 * x = (q + w) * (q + w) → b % 2 = 0))

/-- The rational number that an element stands for. -/
def Val.rat : Val → Option Rat
  | .int n => some n
  | .f32 b => b32.rat b.toNat
  | .f64 b => b64.rat b.toNat

/-- The element is the exact result `e` correctly rounded to its type. -/
def RoundedTo (e : Rat) : Val → Prop
  | .int n => (n : Rat) = e
  | .f32 b => b32.Rounded e b.toNat
  | .f64 b => b64.Rounded e b.toNat

/-- The element is the square root of `x` correctly rounded to its type. -/
def RootRoundedTo (x : Rat) : Val → Prop
  | .int _ => False
  | .f32 b => b32.RootRounded x b.toNat
  | .f64 b => b64.RootRounded x b.toNat

/-- The exact result of an operator on rational numbers. -/
def RatOp : BinOp → Rat → Rat → Rat → Prop
  | .add, a, b, e => e = a + b
  | .sub, a, b, e => e = a - b
  | .mul, a, b, e => e = a * b
  | .div, a, b, e => b ≠ 0 ∧ e = a / b

end Aitisa
