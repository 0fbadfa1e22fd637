import Verif.Spec.Arith

/-!
# Specification vocabulary: binary operators
-/

namespace Aitisa

/-- Direct `malloc` never fails. -/
def Env.MallocOK (E : Env) : Prop := ∀ t s, E.mallocOk t s = true

/-- Outcomes of a binary operator: the tensor is delivered, or - only if `malloc` can fail - a null pointer is
dereferenced. -/
def DeliversMalloc (E : Env) (x : M (Status × Ptr)) (m : Mem) (out : Ptr) (c : Code) (dev : Device) (dims : List Nat)
    (zs : List Val) : Prop :=
  Delivers E x m out c dev dims zs ∨ (¬ E.MallocOK ∧ x E m = .ub .nullDeref)

/-- The element operation of an integer type is undefined: division by zero, an `int32_t` or `int64_t` result out of
range, a `uint16_t` product above `INT_MAX`. -/
def BadIntOp (c : Code) (op : BinOp) (a b : Int) : Prop :=
  (op = .div ∧ b = 0) ∨
  (∃ e lo hi, ExactOp op a b e ∧ (c = .i32 ∨ c = .i64) ∧ intRange c = some (lo, hi) ∧ (e < lo ∨ hi < e)) ∨
  (c = .u16 ∧ op = .mul ∧ 2147483647 < a * b)

/-- Addition and multiplication of the element type are commutative (always so for the integer types). -/
def Commutes (fp : FloatOps) : Code → BinOp → Prop
  | .f32, .add => ∀ a b, fp.add32 a b = fp.add32 b a
  | .f32, .mul => ∀ a b, fp.mul32 a b = fp.mul32 b a
  | .f64, .add => ∀ a b, fp.add64 a b = fp.add64 b a
  | .f64, .mul => ∀ a b, fp.mul64 a b = fp.mul64 b a
  | _, .add | _, .mul => True
  | _, _ => False

end Aitisa
