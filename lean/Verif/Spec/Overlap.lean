import Verif.Spec.Calc
import Verif.Spec.Conv

/-!
# Specification vocabulary: operators that overlap
-/

namespace Aitisa

/-- The window of an axis of length 1: one element, no padding, any stride and dilation. -/
def unitWin (s d : Nat) : Win := ⟨1, 1, s, 0, d⟩

/-- The window that covers an axis of length `x`, with any stride. -/
def wholeWin (x s : Nat) : Win := ⟨x, x, s, 0, 1⟩

/-- The window of one element, moved by one along an axis of length `x`, with any dilation. -/
def pointWin (x d : Nat) : Win := ⟨x, 1, 1, 0, d⟩

/-- The windows that cover the axes; `ns` lists the lengths and the strides. -/
def wholes (ns : List (Nat × Nat)) : List Win := ns.map fun p => wholeWin p.1 p.2

/-- The windows of one element; `ns` lists the lengths and the dilations. -/
def points (ns : List (Nat × Nat)) : List Win := ns.map fun p => pointWin p.1 p.2

/-- From memory `m`, where no allocation fails, the convolution `x` (a function of the handles of input and filter and of `*output`) is
called on the tensors at `h` and `k`; then these are reshaped to `ds` and `ks`, `y` is called on what that gives, and its result is
reshaped to `ds'`. All calls return, `x` with status `s` and `y` with status `s'` (those of convolutions are meaningless, C41), and both
ways have given the same tensor. -/
def ConvAs (E : Env) (m : Mem) (s s' : Status) (x y : Ptr → Ptr → Ptr → M (Status × Ptr)) (h k : Ptr) (ds ks ds' : List Nat) : Prop :=
  E.NoFail → E.MallocOK → ∀ out1 out2 out3 out4 out5, ∃ h1 h2 h3 h4 h5 m1 m2 m3 m4 m5, x h k out1 E m = .ok (s, h1) m1 ∧
    reshape h (dimsCells ds) ds.length out2 E m1 = .ok (.success, h2) m2 ∧ reshape k (dimsCells ks) ks.length out3 E m2 = .ok (.success, h3) m3 ∧
    y h2 h3 out4 E m3 = .ok (s', h4) m4 ∧ reshape h4 (dimsCells ds') ds'.length out5 E m4 = .ok (.success, h5) m5 ∧ SameTensor m5 h1 h5

end Aitisa
