import Verif.Spec.Alloc

/-!
# Specification vocabulary: read-only memory

A write to a read-only block is undefined behaviour (`UB.constWrite`), also if it stores what is already there or is undone later.
A run that completes although some blocks are read-only has not written to them at any time.
-/

namespace Aitisa

/-- The memory in which the blocks chosen by `ro` are read-only. -/
def Mem.protect (m : Mem) (ro : Nat → Bool) : Mem := m.relabel fun b => if ro b then some .const else none

/-- All the memory there is, read-only. -/
def Mem.frozen (m : Mem) : Mem := m.protect fun _ => true

end Aitisa
