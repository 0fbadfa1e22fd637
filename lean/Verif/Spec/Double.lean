/-!
# Specification vocabulary: binary64 quotients
-/

namespace Aitisa

/-- The fraction `m / 2^k` is a binary64 number nearest to `a / b`: its significand has 53 bits and it is off by at
most half a unit in the last place. (A tie may go either way.) -/
structure Nearest (a b m k : Nat) : Prop where
  normal : 2 ^ 52 ≤ m
  below : m ≤ 2 ^ 53
  upper : 2 * (m * b) ≤ 2 * (a * 2 ^ k) + b
  lower : 2 * (a * 2 ^ k) ≤ 2 * (m * b) + b

/-- The fraction `n / 2^j` is a binary64 number nearest to `m / 2^k + 1`: the exact sum if 53 bits hold it, otherwise its
significand has 53 bits and it is off by at most half a unit in the last place. -/
structure PlusOne (m k n j : Nat) : Prop where
  exp : j ≤ k
  below : n ≤ 2 ^ 53
  exact : j = k → n = m + 2 ^ k
  normal : j < k → 2 ^ 52 ≤ n
  upper : 2 * (n * 2 ^ (k - j)) ≤ 2 * (m + 2 ^ k) + 2 ^ (k - j)
  lower : 2 * (m + 2 ^ k) ≤ 2 * (n * 2 ^ (k - j)) + 2 ^ (k - j)

/-- `n` is the ceiling of `a / b`. -/
def IsCeil (a b n : Nat) : Prop := a ≤ n * b ∧ ∀ n', a ≤ n' * b → n ≤ n'

/-- `n` is the floor of `a / b`. -/
def IsFloor (a b n : Nat) : Prop := n * b ≤ a ∧ ∀ n', n' * b ≤ a → n' ≤ n

end Aitisa
