import Verif.Spec.Slice
import Verif.Spec.Squeeze
import Verif.Spec.Math
import Verif.Model.NN
import Verif.Model.Math

/-!
# Specification vocabulary: calls made in a different order

The operators that compute each element from the element at the same position, and the operators that only select and
regroup elements.
-/

namespace Aitisa

/-- The operators that compute each element of the result from the element at the same position. -/
inductive Each where
  | relu
  | sigmoid
  | tanh
  | sqrt
  | cast (c : Code)

/-- The call on the tensor `h`; `out` is `*output` before it. -/
def Each.run (h out : Ptr) : Each → M (Status × Ptr)
  | .relu => Aitisa.relu h out
  | .sigmoid => Aitisa.sigmoid h out
  | .tanh => Aitisa.tanh h out
  | .sqrt => Aitisa.sqrt h out
  | .cast c => Aitisa.cast h c.dtype out

/-- The element type of the result. -/
def Each.code (c : Code) : Each → Code
  | .cast c' => c'
  | _ => c

/-- The operator accepts the element type. -/
def Each.Accepts (c : Code) : Each → Prop
  | .relu | .sqrt => True
  | .sigmoid | .tanh => c = .f32 ∨ c = .f64
  | .cast c' => c ≠ c'

/-- The operator is defined on element `x` of type `c`. -/
def Each.Takes (fp : FloatOps) (c : Code) (x : Val) : Each → Prop
  | .relu | .sigmoid | .tanh => True
  | .sqrt => ¬ Negative fp x ∧ ∃ y, RootOf fp c x y
  | .cast c' => ∃ y, Converts fp c' x y

/-- The operators that select and regroup elements. -/
inductive Move where
  | reshape (ds : List Nat)
  | squeeze (ax : List Nat)
  | slice (ax : List Axis)
  | duplicate

/-- The call on the tensor `h`; `out` is `*output` before it. -/
def Move.run (h out : Ptr) : Move → M (Status × Ptr)
  | .reshape ds => Aitisa.reshape h (dimsCells ds) ds.length out
  | .squeeze ax => Aitisa.squeeze h (dimsCells ax) ax.length out
  | .slice ax => Aitisa.slice h (bgs ax) (szs ax) (sts ax) out
  | .duplicate => Aitisa.duplicate h out

/-- The request can be met for a tensor with dims `ds` and elements of `sz` bytes. -/
def Move.Fits (ds : List Nat) (sz : Nat) : Move → Prop
  | .reshape ds' => ShapeOK ds' sz ∧ prod ds' = prod ds
  | .squeeze ax => (∀ d ∈ ds, 0 < d) ∧ ax.Nodup ∧ ∀ a ∈ ax, a < ds.length
  | .slice ax => ds ≠ [] ∧ SliceFits ds ax ∧ AxFit ax ∧ prod (sliceDims ax) ≤ 2147483647
  | .duplicate => ds ≠ [] ∧ (∀ d ∈ ds, 0 < d) ∧ prod ds ≤ 2147483647

/-- The request for one axis that takes what `b` asks for of what `a` asks for (`a` with a nonzero size). -/
def Axis.after (a b : Axis) : Axis :=
  if b.sz = 0 then ⟨a.bg + a.st * b.bg, 0, 1⟩
  else ⟨a.bg + a.st * b.bg, (ceilDiv b.sz b.st - 1) * (a.st * b.st) + 1, a.st * b.st⟩

/-- The request that takes the slice `bs` of the slice `as`. -/
def sliceAfter : List Axis → List Axis → List Axis
  | [], _ => []
  | a :: as, bs => if a.sz = 0 then a :: sliceAfter as bs else
    match bs with
    | [] => []
    | b :: bs => a.after b :: sliceAfter as bs

/-- The request for `n` positions from `b` on, every `st`-th, on the first axis, and for everything on the others, whose lengths
are `ds`. -/
def rowsOf (b n st : Nat) (ds : List Nat) : List Axis := ⟨b, n, st⟩ :: ds.map fun d => ⟨0, d, 1⟩

/-- Memory `m` holds the same tensor - element type, device, dims and data - at the two handles, in separate memory. -/
def SameTensor (m : Mem) (h h' : Ptr) : Prop :=
  ∃ R R' T, h = R.h ∧ h' = R'.h ∧ At m R T ∧ At m R' T ∧ ∀ b ∈ R.list, b ∉ R'.list

/-- From memory `m`, the operator `x` (a function of the handle of its argument and of `*output`) on the tensor at `h`, and then the
slice `ax'` of its result, are called, and then the slice `ax` of the tensor at `h`, and `x` on that. If all four succeed, the second
and the fourth have given the same tensor; and they all succeed if no allocation fails. -/
def PartsIndependent (E : Env) (m : Mem) (x : Ptr → Ptr → M (Status × Ptr)) (h : Ptr) (ax ax' : List Axis) : Prop :=
  (∀ out1 out2 out3 out4 h1 h2 h3 h4 m1 m2 m3 m4, x h out1 E m = .ok (.success, h1) m1 →
    (Move.slice ax').run h1 out2 E m1 = .ok (.success, h2) m2 → (Move.slice ax).run h out3 E m2 = .ok (.success, h3) m3 →
    x h3 out4 E m3 = .ok (.success, h4) m4 → SameTensor m4 h2 h4) ∧
  (E.NoFail → E.MallocOK → ∀ out1 out2 out3 out4, ∃ h1 h2 h3 h4 m1 m2 m3 m4, x h out1 E m = .ok (.success, h1) m1 ∧
    (Move.slice ax').run h1 out2 E m1 = .ok (.success, h2) m2 ∧ (Move.slice ax).run h out3 E m2 = .ok (.success, h3) m3 ∧
    x h3 out4 E m3 = .ok (.success, h4) m4 ∧ SameTensor m4 h2 h4)

end Aitisa
