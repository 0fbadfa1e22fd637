import Verif.Spec.Frame

/-!
# Specification vocabulary: failing allocations

`Mem.tick` counts the requests made to the allocator and `Mem.next` those that were granted.
-/

namespace Aitisa

/-- Every request made between `m` and `m'` was granted. -/
def Granted (m m' : Mem) : Prop := m'.tick - m.tick = m'.next - m.next

/-- Whenever the call completes, its status is `STATUS_ALLOC_FAILED` exactly if some request was refused. -/
def ReportsOom (x : M (Status × Ptr)) : Prop :=
  ∀ E m st p m', x E m = .ok (st, p) m' → (st = .allocFailed ↔ ¬ Granted m m')

/-- The call completes, existing memory is unchanged, and either every request was granted, or some was refused, the status is
`STATUS_ALLOC_FAILED` and `*output` is as before (`out`). -/
def SurvivesOom (E : Env) (x : M (Status × Ptr)) (m : Mem) (out : Ptr) : Prop :=
  ∃ st p m', x E m = .ok (st, p) m' ∧ Frame m m' ∧
    (Granted m m' ∧ st ≠ .allocFailed ∨ ¬ Granted m m' ∧ st = .allocFailed ∧ p = out)

end Aitisa
