import Verif.Spec.Alloc
import Verif.Proof.Mem

/-!
# Memory with other origins
-/

namespace Aitisa

variable {m : Mem}

theorem relabel_some {L : Nat → Option Origin} {b : Nat} {k : Block} (h : m.blk b = some k) :
    (m.relabel L).blk b = some ⟨(L b).getD k.heap, k.body⟩ := by
  show (m.blk b).map _ = _
  rw [h]; rfl

theorem relabel_push {L : Nat → Option Origin} (b : Block) (h : L m.next = none) :
    ({ (m.relabel L) with next := m.next + 1, tick := m.tick + 1, blk := upd (m.relabel L).blk m.next (some b) } : Mem) =
      Mem.relabel { m with next := m.next + 1, tick := m.tick + 1, blk := upd m.blk m.next (some b) } L := by
  simp only [Mem.relabel, Mem.mk.injEq, true_and]
  funext c
  simp only [upd]
  by_cases hc : c = m.next
  · simp [hc, h]
  · simp only [if_neg hc]

theorem relabel_set {L : Nat → Option Origin} (b : Nat) (o : Origin) (x : Body) :
    (m.relabel L).set b (some ⟨(L b).getD o, x⟩) = (m.set b (some ⟨o, x⟩)).relabel L := by
  simp only [Mem.relabel, Mem.set, Mem.mk.injEq, true_and]
  funext c
  simp only [upd]
  by_cases hc : c = b
  · simp [hc]
  · simp only [if_neg hc]

theorem relabel_drop {L : Nat → Option Origin} (b : Nat) : (m.relabel L).set b none = (m.set b none).relabel L := by
  simp only [Mem.relabel, Mem.set, Mem.mk.injEq, true_and]
  funext c
  simp only [upd]
  by_cases hc : c = b
  · simp [hc]
  · simp only [if_neg hc]

end Aitisa
