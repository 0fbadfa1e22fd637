import Verif.Spec.Oom
import Verif.Spec.History

/-!
# Specification vocabulary: what a call depends on
-/

namespace Aitisa

/-- The memory `m` with the blocks of `F` in addition. -/
def Mem.plus (m : Mem) (F : Nat → Option Block) : Mem :=
  { m with blk := fun b => match m.blk b with | some k => some k | none => F b }

/-- `F` holds blocks that are not among those of `m` and that are not new. -/
def Apart (m : Mem) (F : Nat → Option Block) : Prop := ∀ b, F b ≠ none → m.blk b = none ∧ b < m.next

/-- The allocators of `E` and `E'` give the same answers to the requests numbered from `m.tick` to `m'.tick`. -/
def SameAnswers (E E' : Env) (m m' : Mem) : Prop :=
  ∀ t s, m.tick ≤ t → t < m'.tick → E'.allocOk t s = E.allocOk t s ∧ E'.mallocOk t s = E.mallocOk t s

/-- The allocator of `E'` grants every request that the one of `E` grants. -/
def Richer (E E' : Env) : Prop :=
  ∀ t s, (E.allocOk t s = true → E'.allocOk t s = true) ∧ (E.mallocOk t s = true → E'.mallocOk t s = true)

/-- For a computation that takes `E` from `m` to `m'` the surroundings `E'` are as good as `E`: the arithmetic is the same; the random
numbers drawn are the same; assertions are checked in `E'` only if they are in `E`; and the allocator gives the same answers to the
requests the computation makes, or it grants more and the computation was refused nothing. -/
structure Env.Like (E E' : Env) (m m' : Mem) : Prop where
  fp : E'.fp = E.fp
  asserts : E'.asserts = true → E.asserts = true
  requests : SameAnswers E E' m m' ∨ Granted m m' ∧ Richer E E'
  rand : ∀ t, m.rtick ≤ t → t < m'.rtick → E'.rand t = E.rand t

/-- A computation that, whenever it completes, depends only on the memory it can see, on the arithmetic, on the answers to its own
requests and on the random numbers it draws itself: it gives the same result and makes the same changes when there is more memory
around and when anything else in the surroundings differs. -/
def SelfContained {α : Type} (x : M α) : Prop :=
  ∀ E m a m', x E m = .ok a m' → ∀ E' F, Apart m F → E.Like E' m m' → x E' (m.plus F) = .ok a (m'.plus F)

/-- A computation that draws no random numbers. -/
def Unrandom {α : Type} (x : M α) : Prop := ∀ E m a m', x E m = .ok a m' → m'.rtick = m.rtick

/-- Surroundings in which every request is granted. -/
def Env.unlimited (E : Env) : Env := { E with allocOk := fun _ _ => true, mallocOk := fun _ _ => true }

/-- All operators but dropout. -/
def Call.Fixed : Call → Prop
  | .dropout .. => False
  | _ => True

end Aitisa
