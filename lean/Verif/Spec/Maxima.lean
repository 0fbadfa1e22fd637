import Verif.Spec.Range

/-!
# Specification vocabulary: maxima of windows
-/

namespace Aitisa

/-- `y` is a maximum of the elements `es`: one of them (plus and minus zero are the same number), and none exceeds it. Elements among which is a NaN have
no maximum. -/
def Maximum (es : List Val) (y : Val) : Prop := (∃ e ∈ es, AtMost e y ∧ AtMost y e) ∧ ∀ e ∈ es, AtMost e y

end Aitisa
