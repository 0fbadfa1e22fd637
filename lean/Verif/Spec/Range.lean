import Verif.Spec.Exact
import Verif.Spec.NN

/-!
# Specification vocabulary: ranges and order of `float` and `double` elements, the exponential function
-/

namespace Aitisa

/-- IEEE arithmetic with an arbitrary exponential function (C says little about `exp`). -/
def withExp (ex : BitVec 64 → BitVec 64) : FloatOps := { ieee with exp64 := ex }

/-- What is assumed of `exp`: for a NaN it gives a NaN; otherwise a number that is not negative, or plus infinity. -/
structure ExpOK (ex : BitVec 64 → BitVec 64) : Prop where
  plus : ∀ d, b64.isNaN d.toNat = false → (ex d).toNat ≤ b64.infBits
  nan : ∀ d, b64.isNaN d.toNat = true → b64.isNaN (ex d).toNat = true

/-- `exp` does not decrease. -/
def ExpMono (ex : BitVec 64 → BitVec 64) : Prop :=
  ∀ a b, b64.isNaN a.toNat = false → b64.isNaN b.toNat = false → ieee.lt64 b a = false → ieee.lt64 (ex b) (ex a) = false

/-- A number from 0 to 1: as bits, from those of +0 to those of 1. -/
def InUnit : Val → Prop
  | .int n => 0 ≤ n ∧ n ≤ 1
  | .f32 b => b.toNat ≤ 0x3F800000
  | .f64 b => b.toNat ≤ 0x3FF0000000000000

/-- A number from -1 to 1: the bits without the sign are at most those of 1. -/
def WithinOne : Val → Prop
  | .int n => -1 ≤ n ∧ n ≤ 1
  | .f32 b => b.toNat % 0x80000000 ≤ 0x3F800000
  | .f64 b => b.toNat % 0x8000000000000000 ≤ 0x3FF0000000000000

/-- `x <= y`, both of the same type and neither a NaN. -/
def AtMost : Val → Val → Prop
  | .int a, .int b => a ≤ b
  | .f32 a, .f32 b => NotNaN (.f32 a) ∧ NotNaN (.f32 b) ∧ ieee.lt32 b a = false
  | .f64 a, .f64 b => NotNaN (.f64 a) ∧ NotNaN (.f64 b) ∧ ieee.lt64 b a = false
  | _, _ => False

/-- Plus infinity. -/
def IsInf : Val → Prop
  | .int _ => False
  | .f32 b => b = 0x7F800000
  | .f64 b => b = 0x7FF0000000000000

/-- The element with its sign changed. -/
def negVal : Val → Val
  | .int n => .int (-n)
  | .f32 b => .f32 (ieee.neg32 b)
  | .f64 b => .f64 (ieee.neg64 b)

/-- The `double` of `-x`. -/
def negDouble : Val → BitVec 64
  | .int n => ieee.ofInt64 (-n)
  | .f32 b => ieee.widen (ieee.neg32 b)
  | .f64 b => ieee.neg64 b

/-- The `double` of `x`. -/
def asDouble : Val → BitVec 64
  | .int n => ieee.ofInt64 n
  | .f32 b => ieee.widen b
  | .f64 b => b

instance (v : Val) : Decidable (InUnit v) := by cases v <;> unfold InUnit <;> infer_instance
instance (v : Val) : Decidable (WithinOne v) := by cases v <;> unfold WithinOne <;> infer_instance
instance (v : Val) : Decidable (IsInf v) := by cases v <;> unfold IsInf <;> infer_instance

end Aitisa
