import Verif.Spec.Nearest

/-!
# Specification vocabulary: how far a rounded sum of products is from the exact one
-/

namespace Aitisa

/-- The largest factor by which rounding to the format changes a number that is not tiny. -/
def Fmt.grow (F : Fmt) : Rat := 1 + 1 / 2 ^ F.p

/-- What `n` products and `n` sums, each rounded, may be off by in total: `t` is the sum of the absolute values of the
exact products. -/
def Fmt.slack (F : Fmt) (n : Nat) (t : Rat) : Rat := (F.grow ^ (n + 1) - 1) * t + n * F.grow ^ n * 2 ^ F.emin

/-- The format of a floating-point type. -/
def Code.fmt : Code → Fmt
  | .f64 => b64
  | _ => b32

/-- The elements `xs` of a tensor with dims `ds` stand for the rational numbers `A`, given by coordinates. -/
def Rationals (ds : List Nat) (xs : List Val) (A : List Nat → Rat) : Prop :=
  ∀ cs, InRange ds cs → (elemAt ds xs cs).rat = some (A cs)

/-- The exact sum of products. -/
def ratDot : List (Rat × Rat) → Rat
  | [] => 0
  | (a, b) :: l => a * b + ratDot l

/-- The sum of the absolute values of the products. -/
def ratMass : List (Rat × Rat) → Rat
  | [] => 0
  | (a, b) :: l => (a * b).abs + ratMass l

/-- The element of type `c` is the sum of products up to rounding: if it is a number, its distance from the exact sum is
at most the slack; and it is a number unless the absolute values of the products, with the slack, reach the end of the
range. -/
def NearDot (c : Code) (w : Val) (l : List (Rat × Rat)) : Prop :=
  (∀ q, w.rat = some q → (q - ratDot l).abs ≤ c.fmt.slack l.length (ratMass l)) ∧
  (ratMass l + c.fmt.slack l.length (ratMass l) < c.fmt.limit → ∃ q, w.rat = some q)

/-- The pairs of numbers that contribute to an output element of a convolution (compare `convTerms`). -/
def convRats (A B : List Nat → Rat) (ws : List Win) (C b oc : Nat) (os : List Nat) : List (Rat × Rat) :=
  (List.range C).flatMap fun ic => (List.range (prod (ws.map Win.k))).filterMap fun j =>
    (winAt ws os (unlin (ws.map Win.k) j)).map fun cs => (A (b :: ic :: cs), B (oc :: ic :: unlin (ws.map Win.k) j))

/-- The sum of the absolute values of the numbers. -/
def absSum (l : List Rat) : Rat := (l.map Rat.abs).sum

/-- What the average over `K` places of numbers with absolute values `t` in all, `n` of them, may be off by in `double` arithmetic. -/
def avgSlack (n K : Nat) (t : Rat) : Rat := b64.slack (n + 1) t / K + 2 ^ b64.emin

/-- The same after the result is stored in an element of type `c`. -/
def Code.avgSlack (c : Code) (n K : Nat) (t : Rat) : Rat :=
  match c with
  | .f64 => Aitisa.avgSlack n K t
  | _ => Aitisa.avgSlack n K t + (1 / 2 ^ b32.p * (t / K + Aitisa.avgSlack n K t) + 2 ^ b32.emin / 2)

/-- The element of type `c` is the average of the numbers over `K` places up to rounding: if it is a number, its distance
from the exact average is at most the slack; and it is a number unless the absolute values, with the slack, reach the
end of the range of `double` before or of the type after the division. -/
def NearAvg (c : Code) (K : Nat) (w : Val) (l : List Rat) : Prop :=
  (∀ q, w.rat = some q → (q - l.sum / K).abs ≤ c.avgSlack l.length K (absSum l)) ∧
  (absSum l + b64.slack (l.length + 1) (absSum l) < b64.limit → absSum l / K + avgSlack l.length K (absSum l) < c.fmt.limit → ∃ q, w.rat = some q)

/-- The numbers in a window of pooling (compare `winElems`). -/
def winRats (A : List Nat → Rat) (ws : List Win) (b c : Nat) (os : List Nat) : List Rat :=
  (List.range (prod (ws.map Win.k))).filterMap fun j => (winAt ws os (unlin (ws.map Win.k) j)).map fun cs => A (b :: c :: cs)

end Aitisa
