import Verif.Spec.Border

/-!
# Specification vocabulary: the patches of a convolution as columns of a matrix
-/

namespace Aitisa

/-- `ps` are, for each of the `B` samples, the matrix whose columns are the parts of the sample under the filter at its positions (in
row-major order), channel by channel; a zero where the filter lies on the padding. -/
def Patches (B C : Nat) (ws : List Win) (xs ps : List Val) : Prop :=
  ∀ b ic qs os, b < B → ic < C → InRange (ws.map Win.k) qs → InRange (ws.map Win.out) os →
    elemAt [B, C * prod (ws.map Win.k), prod (ws.map Win.out)] ps [b, ic * prod (ws.map Win.k) + lin (ws.map Win.k) qs, lin (ws.map Win.out) os] =
      match winAt ws os qs with
      | some cs => elemAt (B :: C :: ws.map Win.x) xs (b :: ic :: cs)
      | none => Code.f32.zero

end Aitisa
