import Verif.Model.Base

/-!
# Specification vocabulary: where memory comes from

In a program that exchanges the allocator every block has an allocator it came from. The allocators are numbered; a block that came
from allocator `k` is marked `.other k`. While allocator `k` is installed the library sees the blocks of `k` as its own.
-/

namespace Aitisa

variable {α : Type}

/-- The memory with other origins for some blocks. -/
def Mem.relabel (m : Mem) (L : Nat → Option Origin) : Mem :=
  { m with blk := fun b => (m.blk b).map fun k => ⟨(L b).getD k.heap, k.body⟩ }

/-- While allocator `k` is installed its blocks are the library's own. -/
def Origin.enter (k : Nat) : Origin → Origin
  | .other j => if j = k then .own else .other j
  | o => o

/-- What the library allocated while allocator `k` was installed came from `k`. -/
def Origin.leave (k : Nat) : Origin → Origin
  | .own => .other k
  | o => o

/-- The memory as the library sees it while allocator `k` is installed. -/
def Mem.enter (m : Mem) (k : Nat) : Mem :=
  { m with blk := fun b => (m.blk b).map fun x => ⟨x.heap.enter k, x.body⟩ }

/-- The memory with the origins as seen from outside, after allocator `k` was installed. -/
def Mem.leave (m : Mem) (k : Nat) : Mem :=
  { m with blk := fun b => (m.blk b).map fun x => ⟨x.heap.leave k, x.body⟩ }

/-- `x` with allocator `k` installed (`aitisa_set_default_cpu_raw_alloc` and `aitisa_set_default_cpu_raw_dealloc`,
`/repo/src/core/allocator.h` 25-31, called before it with the two functions of `k`). -/
def M.under (k : Nat) (x : M α) : M α := fun E m =>
  match x E (m.enter k) with
  | .ok a m' => .ok a (m'.leave k)
  | .ub u => .ub u
  | .abort => .abort
  | .fuel => .fuel

/-- Every block is marked with the allocator it came from. -/
def Mem.Marked (m : Mem) : Prop := ∀ b x, m.blk b = some x → x.heap ≠ .own

/-- The same memory but for the origins of the blocks: the same contents, and the same blocks are read-only. -/
structure SameContents (m m' : Mem) : Prop where
  next : m'.next = m.next
  tick : m'.tick = m.tick
  rtick : m'.rtick = m.rtick
  body : ∀ b, (m'.blk b).map Block.body = (m.blk b).map Block.body
  ro : ∀ b, (m'.blk b).map (fun x => decide (x.heap = .const)) = (m.blk b).map fun x => decide (x.heap = .const)

/-- All these blocks came from allocator `k`. -/
def FromAllocator (k : Nat) (m : Mem) (bs : List Nat) : Prop := ∀ b ∈ bs, ∃ x, m.blk b = some ⟨.other k, x⟩

end Aitisa
