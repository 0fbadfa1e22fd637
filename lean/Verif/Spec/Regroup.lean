import Verif.Spec.Commute

/-!
# Specification vocabulary: merging axes
-/

namespace Aitisa

/-- From memory `m`, the operator `x` (a function of the handle of its argument and of `*output`) is called on the tensor at `h`; then
the tensor at `h` is reshaped to `ds`, `x'` is called on that, and its result is reshaped to `ds'`. If all calls succeed, both ways have
given the same tensor; and they all succeed if no allocation fails. -/
def Regrouped (E : Env) (m : Mem) (x x' : Ptr → Ptr → M (Status × Ptr)) (h : Ptr) (ds ds' : List Nat) : Prop :=
  (∀ out1 out2 out3 out4 h1 h2 h3 h4 m1 m2 m3 m4, x h out1 E m = .ok (.success, h1) m1 →
    reshape h (dimsCells ds) ds.length out2 E m1 = .ok (.success, h2) m2 → x' h2 out3 E m2 = .ok (.success, h3) m3 →
    reshape h3 (dimsCells ds') ds'.length out4 E m3 = .ok (.success, h4) m4 → SameTensor m4 h1 h4) ∧
  (E.NoFail → E.MallocOK → ∀ out1 out2 out3 out4, ∃ h1 h2 h3 h4 m1 m2 m3 m4, x h out1 E m = .ok (.success, h1) m1 ∧
    reshape h (dimsCells ds) ds.length out2 E m1 = .ok (.success, h2) m2 ∧ x' h2 out3 E m2 = .ok (.success, h3) m3 ∧
    reshape h3 (dimsCells ds') ds'.length out4 E m3 = .ok (.success, h4) m4 ∧ SameTensor m4 h1 h4)

end Aitisa
