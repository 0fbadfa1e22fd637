import Verif.Spec.NN

/-!
# Specification vocabulary: matrix products
-/

namespace Aitisa

/-- Outcomes of a call that should deliver elements but uses its temporaries without checking the allocation: the tensor
is delivered, or - only if the allocator can fail - a null pointer is dereferenced. -/
def DeliversCareless (E : Env) (x : M (Status × Ptr)) (m : Mem) (out : Ptr) (c : Code) (dev : Device) (dims : List Nat)
    (zs : List Val) : Prop :=
  Delivers E x m out c dev dims zs ∨ (¬ E.NoFail ∧ x E m = .ub .nullDeref)

/-- Outcomes of a product on any values: a tensor of the given shape, a reported or unreported allocation failure, or an
integer overflow. -/
def SafeProduct (E : Env) (x : M (Status × Ptr)) (m : Mem) (out : Ptr) (c : Code) (dev : Device) (ds : List Nat) : Prop :=
  (∃ zs, DeliversCareless E x m out c dev ds zs) ∨ x E m = .ub .overflow

/-- `w` is the result of `z += x * y` on elements of type `c`.  For `int32_t` and `int64_t` the product and the sum must
be representable; `uint16_t` is promoted to `int`, whose range product and sum must not exceed; the other integer types
reduce the exact value into their range. -/
def MacResult (fp : FloatOps) (c : Code) (z x y w : Val) : Prop :=
  match z, x, y with
  | .int a, .int b, .int d => ∃ r, w = .int r ∧
    match c with
    | .i32 | .i64 => r = a + b * d ∧
      ∃ lo hi, intRange c = some (lo, hi) ∧ lo ≤ b * d ∧ b * d ≤ hi ∧ lo ≤ r ∧ r ≤ hi
    | .u16 => b * d ≤ 2147483647 ∧ a + b * d ≤ 2147483647 ∧ ReducesTo c (a + b * d) r
    | c => ReducesTo c (a + b * d) r
  | .f32 a, .f32 b, .f32 d => w = .f32 (fp.mac32 a b d)
  | .f64 a, .f64 b, .f64 d => w = .f64 (fp.mac64 a b d)
  | _, _, _ => False

/-- The factors of a `float` product that is added to a sum can be exchanged. -/
def FactorsSwap (fp : FloatOps) : Prop := ∀ z a b, fp.mac32 z a b = fp.mac32 z b a

/-- Accumulating the products of the pairs, from left to right, onto `z` gives `w`. -/
def DotTo (fp : FloatOps) (c : Code) : Val → List (Val × Val) → Val → Prop
  | z, [], w => w = z
  | z, (x, y) :: l, w => ∃ v, MacResult fp c z x y v ∧ DotTo fp c v l w

/-- The zero that `aitisa_full(…, 0.0, …)` stores. -/
def ZeroOf (fp : FloatOps) (c : Code) (z : Val) : Prop := Converts fp c (.f64 (fp.ofInt64 0)) z


/-- The coordinates in an array of shape `ds` that broadcasting reads for the output coordinates `cs`: aligned at the
right, and 0 along dims of length 1. -/
def under (ds cs : List Nat) : List Nat :=
  List.zipWith (fun d k => if d = 1 then 0 else k) ds (cs.drop (cs.length - ds.length))

/-- The documented shapes of the product: operand shapes and the shape of the result. -/
inductive MatShape : List Nat → List Nat → List Nat → Prop
  | vv (k : Nat) : MatShape [k] [k] [1]
  | mv (n k : Nat) : MatShape [n, k] [k] [n]
  | mm (n k l : Nat) : MatShape [n, k] [k, l] [n, l]
  | vm (k l : Nat) : MatShape [k] [k, l] [l]
  | tv {bs : List Nat} (n k : Nat) : bs ≠ [] → MatShape (bs ++ [n, k]) [k] (bs ++ [n])
  | vt {bs : List Nat} (k l : Nat) : bs ≠ [] → MatShape [k] (bs ++ [k, l]) (bs ++ [l])
  | tt {b1 b2 bd : List Nat} (n k l : Nat) : (b1 ≠ [] ∨ b2 ≠ []) → Broadcasts b1 b2 bd →
      MatShape (b1 ++ [n, k]) (b2 ++ [k, l]) (bd ++ [n, l])

/-- The inner dim of a right operand: its only dim, or the last but one. -/
def innerRight (ds : List Nat) : Option Nat := if ds.length = 1 then ds[0]? else ds[ds.length - 2]?

/-- The value `s` of element type `c`, converted to `double` and back, is `v`. -/
def ThroughDouble (fp : FloatOps) (c : Code) (s v : Val) : Prop :=
  ∃ d, Converts fp .f64 s (.f64 d) ∧ Converts fp c (.f64 d) v

end Aitisa
