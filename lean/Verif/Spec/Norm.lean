import Verif.Spec.Error
import Verif.Spec.Order

/-!
# Specification vocabulary: batch normalisation of floating-point numbers
-/

namespace Aitisa

/-- `d` is the denominator for the variance `v` and `eps`: `eps` is rounded to the type `c`, added to the variance and the sum rounded, and `d`
is the root of that sum, rounded.  All are finite, and the sum is positive. -/
def Denominator (c : Code) (eps v d : Rat) : Prop :=
  ∃ (e t r : Val) (ε τ : Rat), e.WT c ∧ t.WT c ∧ r.WT c ∧ RoundedTo eps e ∧ e.rat = some ε ∧ RoundedTo (v + ε) t ∧ t.rat = some τ ∧ 0 < τ ∧
    RootRoundedTo τ r ∧ r.rat = some d

/-- What `s * ((x - m) / d) + b`, every operation rounded, may be off by; `a` is the absolute value of `x - m`. -/
def Fmt.normSlack (F : Fmt) (s b d a : Rat) : Rat :=
  (F.grow ^ 4 - 1) * (s.abs * (a / d) + b.abs) + (F.grow ^ 3 * (s.abs / d) + F.grow ^ 2 * s.abs + F.grow + 1) * (2 ^ F.emin / 2)

/-- The largest number that a number up to `a` is rounded to. -/
def Fmt.wide (F : Fmt) (a : Rat) : Rat := F.grow * a + 2 ^ F.emin / 2

/-- Upper bounds for the results of the four operations before they are rounded. -/
def Fmt.normPeaks (F : Fmt) (s b d a : Rat) : List Rat :=
  [a, F.wide a / d, s.abs * F.wide (F.wide a / d), F.wide (s.abs * F.wide (F.wide a / d)) + b.abs]

/-- The element of type `c` is `s * ((x - m) / d) + b` up to rounding: if it is a number, its distance from the exact result is at most the
slack; and it is a number unless one of the operations reaches the end of the range. -/
def NearNorm (c : Code) (w : Val) (s b m d x : Rat) : Prop :=
  (∀ q, w.rat = some q → (q - (s * ((x - m) / d) + b)).abs ≤ c.fmt.normSlack s b d (x - m).abs) ∧
  ((∀ p ∈ c.fmt.normPeaks s b d (x - m).abs, p < c.fmt.limit) → ∃ q, w.rat = some q)

end Aitisa
