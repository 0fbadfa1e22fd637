import Verif.Spec.Calc

/-!
# Specification vocabulary: casts one after the other
-/

namespace Aitisa

/-- A tensor of element type `c` is cast to the given types, one after the other; no cast is to the type the tensor already has. -/
def Steps : Code → List Code → Prop
  | _, [] => True
  | c, c' :: cs => c' ≠ c ∧ Steps c' cs

/-- The calls of `aitisa_cast`, each on the result of the one before; the first that does not report success is the last. -/
def casts : List Code → Ptr → M (Status × Ptr)
  | [], h => fun _ m => .ok (.success, h) m
  | c :: cs, h => fun E m =>
    match cast h c.dtype .null E m with
    | .ok (.success, h') m' => casts cs h' E m'
    | r => r

/-- The element `x` becomes `z` when it is converted to the given types in turn. -/
def ThroughCasts (fp : FloatOps) : List Code → Val → Val → Prop
  | [], x, z => z = x
  | c :: cs, x, z => ∃ y, Converts fp c x y ∧ ThroughCasts fp cs y z

/-- The type in the end. -/
def lastCode : Code → List Code → Code
  | c, [] => c
  | _, c' :: cs => lastCode c' cs

/-- One cast to `d`, or no cast for a tensor that has this type. -/
def direct (c d : Code) : List Code := if d = c then [] else [d]

end Aitisa
