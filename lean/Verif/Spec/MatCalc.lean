import Verif.Spec.Calc
import Verif.Spec.Matmul
import Verif.Model.Matmul
import Verif.Model.Dot

/-!
# Specification vocabulary: calculations with matrices
-/

namespace Aitisa

/-- The two functions that multiply matrices. -/
inductive MatFun where
  | matmul
  | dot

def MatFun.run (h h' out : Ptr) : MatFun → M (Status × Ptr)
  | .matmul => Aitisa.matmul h h' out
  | .dot => Aitisa.dot h h' out

/-- A calculation with matrices: one of the given matrices, an operator applied element by element, or a matrix product with `k`
terms in each sum. -/
inductive MatCalc where
  | arg (i : Nat)
  | bin (op : BinOp) (a b : MatCalc)
  | prod (f : MatFun) (k : Nat) (a b : MatCalc)

/-- The calls, in the order of writing; the first that does not report success ends the calculation. -/
def MatCalc.run (args : Nat → Ptr) : MatCalc → M (Status × Ptr)
  | .arg i => fun _ m => .ok (.success, args i) m
  | .bin op a b => fun E m =>
    match a.run args E m with
    | .ok (.success, h) m' =>
      match b.run args E m' with
      | .ok (.success, h') m'' => binaryOp op h h' .null E m''
      | r => r
    | r => r
  | .prod f _ a b => fun E m =>
    match a.run args E m with
    | .ok (.success, h) m' =>
      match b.run args E m' with
      | .ok (.success, h') m'' => f.run h h' .null E m''
      | r => r
    | r => r

/-- A matrix of `r` rows and `n` columns that is not empty and not too large. -/
def MatOK (sz r n : Nat) : Prop := 0 < r ∧ 0 < n ∧ r * n ≤ 2147483647 ∧ ShapeOK [r, n] sz

/-- The result has `r` rows and `n` columns and all dims fit, where the given matrices have the rows and columns `d`. -/
def MatCalc.Fits (d : Nat → Nat × Nat) (sz : Nat) : MatCalc → Nat → Nat → Prop
  | .arg i, r, n => d i = (r, n) ∧ MatOK sz r n
  | .bin _ a b, r, n => a.Fits d sz r n ∧ b.Fits d sz r n
  | .prod _ k a b, r, n => a.Fits d sz r k ∧ b.Fits d sz k n ∧ MatOK sz r n

/-- What the calculation gives in row `p` and column `q`; `x i` are the elements of the given matrix `i`. -/
def MatCalc.Value (fp : FloatOps) (c : Code) (x : Nat → Nat → Nat → Val) : MatCalc → Nat → Nat → Val → Prop
  | .arg i, p, q, z => z = x i p q
  | .bin op a b, p, q, z => ∃ u v, a.Value fp c x p q u ∧ b.Value fp c x p q v ∧ OpResult fp c op u v z
  | .prod _ k a b, p, q, z => ∃ l : List (Val × Val), l.length = k ∧
    (∀ j (h : j < l.length), a.Value fp c x p j l[j].1 ∧ b.Value fp c x j q l[j].2) ∧ ∃ z0, ZeroOf fp c z0 ∧ DotTo fp c z0 l z

/-- The calculation with exact whole numbers; there is no exact quotient. -/
def MatCalc.num (X : Nat → Nat → Nat → Int) : MatCalc → Nat → Nat → Int
  | .arg i, p, q => X i p q
  | .bin op a b, p, q =>
    match op with
    | .add => a.num X p q + b.num X p q
    | .sub => a.num X p q - b.num X p q
    | .mul => a.num X p q * b.num X p q
    | .div => 0
  | .prod _ k a b, p, q => total ((List.range k).map fun j => (a.num X p j, b.num X j q))

def MatCalc.NoDiv : MatCalc → Prop
  | .arg _ => True
  | .bin op a b => op ≠ .div ∧ a.NoDiv ∧ b.NoDiv
  | .prod _ _ a b => a.NoDiv ∧ b.NoDiv

/-- The given matrices: `xs i` are the elements of the matrix at `R i`, which has the rows and columns `d i`; all have element
type `c` and are on the CPU `dev`. -/
structure GivenMats (m : Mem) (c : Code) (dev : Device) (d : Nat → Nat × Nat) (R : Nat → Foot) (xs : Nat → List Val) : Prop where
  tensor : ∀ i, At m (R i) ⟨c.dtype, dev, [(d i).1, (d i).2], encAll c (xs i)⟩
  wt : ∀ i, ∀ x ∈ xs i, x.WT c
  len : ∀ i, (xs i).length = (d i).1 * (d i).2
  cpu : dev.type = 0

/-- The elements of the given matrices by row and column. -/
def cells2 (d : Nat → Nat × Nat) (xs : Nat → List Val) : Nat → Nat → Nat → Val :=
  fun i p q => elemAt [(d i).1, (d i).2] (xs i) [p, q]

/-- No operator of the calculation is applied to elements for which C does not define it. -/
def MatCalc.Defined (fp : FloatOps) (c : Code) (d : Nat → Nat × Nat) (xs : Nat → List Val) (a : MatCalc) (r n : Nat) : Prop :=
  ∀ p q, p < r → q < n → ∃ z, a.Value fp c (cells2 d xs) p q z

end Aitisa
