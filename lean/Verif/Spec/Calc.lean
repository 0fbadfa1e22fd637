import Verif.Spec.Commute
import Verif.Spec.Exact

/-!
# Specification vocabulary: calculations with several calls

Calculations that combine tensors of one type and shape with add, sub, mul and div and with constants made by full.
-/

namespace Aitisa

/-- A calculation: one of the given tensors, a constant (the `double` passed to `aitisa_full`), or an operator applied to the
results of two calculations. -/
inductive Calc where
  | arg (i : Nat)
  | lit (v : BitVec 64)
  | bin (op : BinOp) (a b : Calc)

/-- The calls, in the order of writing; the first that does not report success ends the calculation. `args` are the handles of the
given tensors. -/
def Calc.run (c : Code) (dev : Device) (ds : List Nat) (args : Nat → Ptr) : Calc → M (Status × Ptr)
  | .arg i => fun _ m => .ok (.success, args i) m
  | .lit v => full c.dtype dev (dimsCells ds) ds.length v .null
  | .bin op a b => fun E m =>
    match a.run c dev ds args E m with
    | .ok (.success, h) m' =>
      match b.run c dev ds args E m' with
      | .ok (.success, h') m'' => binaryOp op h h' .null E m''
      | r => r
    | r => r

/-- What the calculation gives at one position, where the given tensors have the elements `x`. -/
def Calc.Value (fp : FloatOps) (c : Code) (x : Nat → Val) : Calc → Val → Prop
  | .arg i, z => z = x i
  | .lit v, z => Converts fp c (.f64 v) z
  | .bin op a b, z => ∃ p q, a.Value fp c x p ∧ b.Value fp c x q ∧ OpResult fp c op p q z

/-- The elements at position `k`. -/
def atPos (xs : Nat → List Val) (k : Nat) : Nat → Val := fun i => (xs i).getD k (.int 0)

/-- No operator of the calculation is applied to elements for which C does not define it. -/
def Calc.Defined (fp : FloatOps) (c : Code) (ds : List Nat) (xs : Nat → List Val) (a : Calc) : Prop :=
  ∀ k, k < prod ds → ∃ z, a.Value fp c (atPos xs k) z

/-- The exact whole number that the calculation stands for when its arguments stand for the whole numbers `x`: an argument, a
constant that is a whole number, a sum, a difference or a product. -/
def Calc.Poly (fp : FloatOps) (x : Nat → Int) : Calc → Int → Prop
  | .arg i, n => n = x i
  | .lit v, n => fp.trunc64 v = some n
  | .bin op a b, n => op ≠ .div ∧ ∃ p q, a.Poly fp x p ∧ b.Poly fp x q ∧ ExactOp op p q n

/-- The two calculations are the same polynomial with whole coefficients. -/
def Calc.SamePoly (fp : FloatOps) (a b : Calc) : Prop := ∀ x, ∃ n, a.Poly fp x n ∧ b.Poly fp x n

/-- Memory `m` holds at the two handles tensors of the same element type, device, dims and data. -/
def EqualTensors (m : Mem) (h h' : Ptr) : Prop := ∃ R R' T, h = R.h ∧ h' = R'.h ∧ At m R T ∧ At m R' T

/-- The calculations `x` and then `y` are made. If both succeed they have given equal tensors; and they succeed if no allocation
fails. -/
def GiveSame (E : Env) (m : Mem) (x y : M (Status × Ptr)) : Prop :=
  (∀ h h' m1 m2, x E m = .ok (.success, h) m1 → y E m1 = .ok (.success, h') m2 → EqualTensors m2 h h') ∧
  (E.NoFail → E.MallocOK → ∃ h h' m1 m2, x E m = .ok (.success, h) m1 ∧ y E m1 = .ok (.success, h') m2 ∧ EqualTensors m2 h h')

/-- The given tensors: `xs i` are the elements of the tensor at `R i`; all have element type `c` and dims `ds` and are on the CPU
`dev`; there is at least one element and there are at most `INT_MAX`. -/
structure Given (m : Mem) (c : Code) (dev : Device) (ds : List Nat) (R : Nat → Foot) (xs : Nat → List Val) : Prop where
  tensor : ∀ i, At m (R i) ⟨c.dtype, dev, ds, encAll c (xs i)⟩
  wt : ∀ i, ∀ x ∈ xs i, x.WT c
  len : ∀ i, (xs i).length = prod ds
  cpu : dev.type = 0
  shape : ShapeOK ds c.size
  some : 0 < prod ds
  few : prod ds ≤ 2147483647

/-- The element is a number (not NaN) and not an infinity. -/
def Finite : Val → Prop
  | .int _ => True
  | .f32 b => b32.units b.toNat ≠ none
  | .f64 b => b64.units b.toNat ≠ none

/-- The element is a zero. -/
def IsZero : Val → Prop
  | .int n => n = 0
  | .f32 b => b = 0 ∨ b.toNat = b32.signBit
  | .f64 b => b = 0 ∨ b.toNat = b64.signBit

/-- The element is minus zero. -/
def MinusZero : Val → Prop
  | .int _ => False
  | .f32 b => b.toNat = b32.signBit
  | .f64 b => b.toNat = b64.signBit

/-- The `double` of a whole number. -/
def num (n : Int) : BitVec 64 := .ofNat 64 (b64.ofInt n)

/-- The `double` 0.5. -/
def half : BitVec 64 := 0x3FE0000000000000

/-- The constants of the calculation can be converted to type `c` and it does not divide. -/
def Calc.Plain (fp : FloatOps) (c : Code) : Calc → Prop
  | .arg _ => True
  | .lit v => ∃ z, Converts fp c (.f64 v) z
  | .bin op a b => op ≠ .div ∧ a.Plain fp c ∧ b.Plain fp c

end Aitisa
