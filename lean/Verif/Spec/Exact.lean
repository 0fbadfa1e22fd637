import Verif.Spec.Ieee
import Verif.Spec.Conv

/-!
# Specification vocabulary: elements that stand for whole numbers
-/

namespace Aitisa

/-- The element stands for the whole number `n`. -/
def Stands : Val → Int → Prop
  | .int k, n => k = n
  | .f32 b, n => b32.IsInt b.toNat n
  | .f64 b, n => b64.IsInt b.toNat n

/-- A range of whole numbers that the type holds without gaps: all of an integer type, 24 bits of `float`, 53 of `double`. -/
def Within (c : Code) (n : Int) : Prop :=
  match c with
  | .f32 => -16777216 < n ∧ n < 16777216
  | .f64 => -9007199254740992 < n ∧ n < 9007199254740992
  | c => ∃ lo hi, intRange c = some (lo, hi) ∧ lo ≤ n ∧ n ≤ hi

/-- The elements `xs` of a tensor with dims `ds` stand for the whole numbers `A`, given by coordinates. -/
def Numbers (ds : List Nat) (xs : List Val) (A : List Nat → Int) : Prop :=
  ∀ cs, InRange ds cs → Stands (elemAt ds xs cs) (A cs)

/-- The exact sum of products. -/
def total : List (Int × Int) → Int
  | [] => 0
  | (a, b) :: l => a * b + total l

/-- Every product, and every sum of products from the first up to one of them and `s`, is in the range of `c`. -/
def SumsWithin (c : Code) : Int → List (Int × Int) → Prop
  | _, [] => True
  | s, (a, b) :: l => Within c (a * b) ∧ Within c (s + a * b) ∧ SumsWithin c (s + a * b) l

/-- `e` is the exact result of an operator on whole numbers; for division there must be no remainder. -/
def WholeOp : BinOp → Int → Int → Int → Prop
  | .add, a, b, e => e = a + b
  | .sub, a, b, e => e = a - b
  | .mul, a, b, e => e = a * b
  | .div, a, b, e => b ≠ 0 ∧ a = b * e

/-- The pairs of numbers that contribute to an output element of a convolution (compare `convTerms`). -/
def convNums (A B : List Nat → Int) (ws : List Win) (C b oc : Nat) (os : List Nat) : List (Int × Int) :=
  (List.range C).flatMap fun ic => (List.range (prod (ws.map Win.k))).filterMap fun j =>
    (winAt ws os (unlin (ws.map Win.k) j)).map fun cs => (A (b :: ic :: cs), B (oc :: ic :: unlin (ws.map Win.k) j))

/-- The numbers of a window (compare `winElems`). -/
def winNums (A : List Nat → Int) (ws : List Win) (b c : Nat) (os : List Nat) : List Int :=
  (List.range (prod (ws.map Win.k))).filterMap fun j => (winAt ws os (unlin (ws.map Win.k) j)).map fun cs => A (b :: c :: cs)

/-- The element is not a NaN. -/
def NotNaN : Val → Prop
  | .int _ => True
  | .f32 b => b32.isNaN b.toNat = false
  | .f64 b => b64.isNaN b.toNat = false

/-- The element is a number above 0 or plus infinity: as bits, not 0 and at most those of infinity (the sign is the highest bit). -/
def Positive : Val → Prop
  | .int n => 0 < n
  | .f32 b => 0 < b.toNat ∧ b.toNat ≤ b32.infBits
  | .f64 b => 0 < b.toNat ∧ b.toNat ≤ b64.infBits

instance (v : Val) : Decidable (Positive v) := by cases v <;> unfold Positive <;> infer_instance
instance (v : Val) : Decidable (NotNaN v) := by cases v <;> unfold NotNaN <;> infer_instance

/-- The 0 of the type (for `float` and `double`, +0.0). -/
def zeroLike : Val → Val
  | .int _ => .int 0
  | .f32 _ => .f32 0
  | .f64 _ => .f64 0

/-- The zero of a type. -/
def zeroVal : Code → Val
  | .f32 => .f32 0
  | .f64 => .f64 0
  | _ => .int 0

end Aitisa
