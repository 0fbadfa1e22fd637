import Verif.Spec.Pooling
import Verif.Spec.Commute
import Verif.Model.Pooling

/-!
# Specification vocabulary: chains of calls with the same result
-/

namespace Aitisa

/-- Each call on the result of the one before it, the first on the tensor at `h`: all succeed, the last gives the tensor at `h'`. -/
def Chain (E : Env) : List (Ptr → M (Status × Ptr)) → Ptr → Mem → Ptr → Mem → Prop
  | [], h, m, h', m' => h' = h ∧ m' = m
  | x :: l, h, m, h', m' => ∃ h1 m1, x h E m = .ok (.success, h1) m1 ∧ Chain E l h1 m1 h' m'

/-- The calls `l` are made one on the result of the other, beginning with the tensor at `h`, and then in the same way the calls `l'`.
If all succeed both have given the same tensor; and all do if no allocation fails. -/
def SameResult (E : Env) (m : Mem) (l l' : List (Ptr → M (Status × Ptr))) (h : Ptr) : Prop :=
  (∀ h1 m1 h2 m2, Chain E l h m h1 m1 → Chain E l' h m1 h2 m2 → SameTensor m2 h1 h2) ∧
  (E.NoFail → E.MallocOK → ∃ h1 m1 h2 m2, Chain E l h m h1 m1 ∧ Chain E l' h m1 h2 m2 ∧ SameTensor m2 h1 h2)

/-- Max pooling with the windows `ws`. -/
def maxPool (fuel : Nat) (ws : List Win) (out : Ptr) (h : Ptr) : M (Status × Ptr) :=
  pooling fuel h "max" (dimsCells (ws.map Win.k)) (dimsCells (ws.map Win.s)) (dimsCells (ws.map Win.p)) (dimsCells (ws.map Win.d)) out

/-- The preconditions of pooling `C` channels of `B` samples of element type `c` with the windows `ws`. -/
structure Pools (fuel B C : Nat) (c : Code) (ws : List Win) : Prop where
  some : 1 ≤ ws.length
  three : ws.length ≤ 3
  fits : ∀ w ∈ ws, w.Fits ∧ w.Small
  shape : ShapeOK (B :: C :: ws.map Win.out) c.size
  outs : prod (ws.map Win.out) ≤ 2147483647
  size : prod (ws.map Win.k) ≤ 9223372036854775807
  enough : prod (ws.map Win.k) ≤ fuel
  enough' : prod (ws.map Win.out) ≤ fuel

/-- Two poolings along an axis: the first, and the window length and stride of the second. -/
structure Twice where
  first : Win
  k : Nat
  s : Nat

/-- The second pooling, of the result of the first, without padding or dilation. -/
def Twice.second (t : Twice) : Win := ⟨t.first.out, t.k, t.s, 0, 1⟩

/-- The pooling that does both. -/
def Twice.once (t : Twice) : Win := ⟨t.first.x, (t.k - 1) * t.first.s + t.first.k, t.first.s * t.s, t.first.p, 1⟩

/-- The first pooling is not dilated and its windows leave no gaps. -/
def Twice.Dense (t : Twice) : Prop := t.first.d = 1 ∧ t.first.s ≤ t.first.k

end Aitisa
