/-!
# Execution and memory model

The semantics of the C fragment used by `/repo/src`: a state monad over a block memory in which
undefined behaviour, a failed `assert` and exhaustion of the fuel given to a `while` loop are
distinct outcomes.  See `DESIGN.md`, sections 2.1 - 2.4.
-/

namespace Aitisa

/-- Kinds of undefined behaviour that the model distinguishes. -/
inductive UB where
  | nullDeref       -- dereference of a null pointer
  | wildPtr         -- use of an indeterminate pointer
  | useAfterFree    -- access to a freed block
  | outOfBounds     -- access outside a block / array
  | uninit          -- use of an uninitialised object
  | overflow        -- signed integer overflow
  | divZero         -- integer division by zero
  | badCast         -- float -> integer conversion of an unrepresentable value
  | badFree         -- free of something not obtained from the allocator
  | missingReturn   -- value of a non-void function that ended without `return` is used
  | typeConfusion   -- object of another struct type at that address
  | constWrite      -- change of read-only memory
  deriving DecidableEq, Repr

/-- `Status`, `/repo/src/core/status.h` 4-14 (the enumeration of status codes). -/
inductive Status where
  | success | typeMismatch | dimensionsMismatch | invalidArgument | notSupported
  | allocFailed | outOfRange | internalError | mathError
  deriving DecidableEq, Repr

/-- A pointer: null, the base address of a block, or an indeterminate value (an uninitialised
pointer variable).  Interior pointers occur in `matmul.c` only and are modelled there as a base plus
an element offset. -/
inductive Ptr where
  | null
  | blk (n : Nat)
  | indet
  deriving DecidableEq, Repr, Inhabited

/-- `DataType`, `/repo/src/core/types.h` 27-30.  `code` is the `TypeCode` (a C enum, so any value of
the underlying integer type can be passed), `size` the `uint8_t` byte size. -/
structure DType where
  code : Nat
  size : Nat
  deriving DecidableEq, Repr, Inhabited

/-- `Device`, `/repo/src/core/device.h` 21-24; `type` 0 is `DEVICE_CPU`. -/
structure Device where
  type : Nat
  id : Int
  deriving DecidableEq, Repr, Inhabited

/-- `DEVICE_CPU`, `/repo/src/core/device.h` 12. -/
def DEVICE_CPU : Nat := 0

/-- `LayoutType`, `/repo/src/core/shape.h` 15-18. -/
inductive LayoutType where
  | dense | sparse
  deriving DecidableEq, Repr, Inhabited

/-- `struct _TensorImpl` with the embedded `Shape` and `Layout`,
`/repo/src/core/tensor.h` 13-27, `/repo/src/core/shape.h` 25-39. -/
structure TensorS where
  size : Int
  offset : Int
  ndim : Int
  dims : Ptr
  layoutType : LayoutType
  min2maj : Ptr
  storage : Ptr
  deriving DecidableEq, Repr, Inhabited

/-- `struct _StorageImpl`, `/repo/src/core/storage.h` 13-18. -/
structure StorageS where
  dtype : DType
  device : Device
  size : Int
  data : Ptr
  deriving DecidableEq, Repr, Inhabited

/-- A byte of memory; `none` is an uninitialised byte. -/
abbrev Byte := Option UInt8

/-- Contents of a block.  `scratch` is temporary working memory whose contents the model keeps in
local lists. -/
inductive Body where
  | tensor (t : TensorS)
  | storage (s : StorageS)
  | i64s (l : List (Option Int))
  | bytes (l : List Byte)
  | scratch (n : Nat)
  deriving DecidableEq, Repr, Inhabited

/-- Where a live block comes from, which decides how it may be released: from the allocator installed at present
(`raw_dealloc` takes it back), from another allocator (`other k`), from `malloc` (`free` takes it back), or from none of
these (`fixed`; `const` if it may not be changed either: `const` objects, memory mapped read-only). -/
inductive Origin where
  | own
  | other (k : Nat)
  | malloc
  | fixed
  | const
  deriving DecidableEq, Repr, Inhabited

/-- A live block; `heap` says where it comes from. -/
structure Block where
  heap : Origin
  body : Body
  deriving DecidableEq, Repr, Inhabited

/-- The memory: a map from block ids to live blocks, the next fresh id, the number of allocation
requests made so far and the number of `rand()` calls made so far. -/
structure Mem where
  next : Nat
  tick : Nat
  rtick : Nat
  blk : Nat → Option Block

/-- The memory without any block. -/
def Mem.empty : Mem := ⟨0, 0, 0, fun _ => none⟩

/-- Floating-point operations on bit patterns.  All theorems hold for every choice of these
functions; no law is assumed.  `trunc*` is the truncation to an integer (`none` for NaN and
infinities); `mac* z a b` is `z + a * b` in one expression, which a compiler may round once
(fused multiply-add) or twice. -/
structure FloatOps where
  add32 : BitVec 32 → BitVec 32 → BitVec 32
  sub32 : BitVec 32 → BitVec 32 → BitVec 32
  mul32 : BitVec 32 → BitVec 32 → BitVec 32
  div32 : BitVec 32 → BitVec 32 → BitVec 32
  add64 : BitVec 64 → BitVec 64 → BitVec 64
  sub64 : BitVec 64 → BitVec 64 → BitVec 64
  mul64 : BitVec 64 → BitVec 64 → BitVec 64
  div64 : BitVec 64 → BitVec 64 → BitVec 64
  mac32 : BitVec 32 → BitVec 32 → BitVec 32 → BitVec 32
  mac64 : BitVec 64 → BitVec 64 → BitVec 64 → BitVec 64
  lt32 : BitVec 32 → BitVec 32 → Bool
  lt64 : BitVec 64 → BitVec 64 → Bool
  neg32 : BitVec 32 → BitVec 32
  neg64 : BitVec 64 → BitVec 64
  exp64 : BitVec 64 → BitVec 64
  sqrt64 : BitVec 64 → BitVec 64
  widen : BitVec 32 → BitVec 64
  narrow : BitVec 64 → BitVec 32
  ofInt32 : Int → BitVec 32
  ofInt64 : Int → BitVec 64
  trunc32 : BitVec 32 → Option Int
  trunc64 : BitVec 64 → Option Int

/-- What the program does not control: whether the `tick`-th allocation request (of the given size)
succeeds, for `raw_alloc` of the default allocator and for direct `malloc`; the stream returned by
`rand()`; whether `assert` is compiled in; the floating-point operations. -/
structure Env where
  allocOk : Nat → Nat → Bool
  mallocOk : Nat → Nat → Bool
  rand : Nat → Nat
  asserts : Bool
  fp : FloatOps

/-- Outcome of a run. -/
inductive Res (α : Type) where
  | ok (a : α) (m : Mem)
  | ub (u : UB)
  | abort
  | fuel

/-- Sequencing on outcomes. -/
def Res.andThen {α β : Type} (r : Res α) (f : α → Mem → Res β) : Res β :=
  match r with
  | .ok a m => f a m
  | .ub u => .ub u
  | .abort => .abort
  | .fuel => .fuel

/-- A C computation. -/
@[implicit_reducible] def M (α : Type) := Env → Mem → Res α

instance : Monad M where
  pure a := fun _ m => .ok a m
  bind x f := fun E m => (x E m).andThen (fun a m' => f a E m')

/-- Undefined behaviour. -/
def ubM {α : Type} (u : UB) : M α := fun _ _ => .ub u

/-- C `assert` (on in the default Debug build: `/repo/CMakeLists.txt`). -/
def cAssert (b : Bool) : M Unit := fun E m => if E.asserts && !b then .abort else .ok () m

/-- Floating-point unit. -/
def getFp : M FloatOps := fun E m => .ok E.fp m

/-- `rand()`. -/
def cRand : M Nat := fun E m => .ok (E.rand m.rtick) { m with rtick := m.rtick + 1 }

/-- Function update. -/
def upd {α : Type} (f : Nat → α) (n : Nat) (a : α) : Nat → α := fun k => if k = n then a else f k

/-- Memory with block `n` replaced. -/
def Mem.set (m : Mem) (n : Nat) (b : Option Block) : Mem := { m with blk := upd m.blk n b }

/-- Conversion to `size_t`. -/
def toSizeT (n : Int) : Nat := (n % 18446744073709551616).toNat

/-- `raw_alloc` of the default allocator (`/repo/src/core/allocator.h` 8, 21-23): returns a fresh
block with the given (typed view of the) contents, or null. -/
def rawAlloc (sz : Nat) (b : Body) : M Ptr := fun E m =>
  if E.allocOk m.tick sz then
    .ok (.blk m.next)
      { m with next := m.next + 1, tick := m.tick + 1, blk := upd m.blk m.next (some ⟨.own, b⟩) }
  else .ok .null { m with tick := m.tick + 1 }

/-- Direct `malloc` (used in `/repo/src/math/binary_op.c`). -/
def cMalloc (sz : Nat) (b : Body) : M Ptr := fun E m =>
  if E.mallocOk m.tick sz then
    .ok (.blk m.next)
      { m with next := m.next + 1, tick := m.tick + 1, blk := upd m.blk m.next (some ⟨.malloc, b⟩) }
  else .ok .null { m with tick := m.tick + 1 }

/-- `raw_dealloc` of the installed allocator (`/repo/src/core/allocator.h` 9, 21-23), which takes back what its `raw_alloc` gave;
`NULL` is accepted. -/
def rawFree (p : Ptr) : M Unit := fun _ m =>
  match p with
  | .null => .ok () m
  | .indet => .ub .badFree
  | .blk n =>
    match m.blk n with
    | none => .ub .badFree
    | some b => if b.heap = .own then .ok () (m.set n none) else .ub .badFree

/-- `free` (used in `/repo/src/math/binary_op.c`): takes back what `malloc` gave; `free(NULL)` does nothing. -/
def cFree (p : Ptr) : M Unit := fun _ m =>
  match p with
  | .null => .ok () m
  | .indet => .ub .badFree
  | .blk n =>
    match m.blk n with
    | none => .ub .badFree
    | some b => if b.heap = .malloc then .ok () (m.set n none) else .ub .badFree

/-- Look up the block a pointer points to. -/
def derefBlk (p : Ptr) : M Block := fun _ m =>
  match p with
  | .null => .ub .nullDeref
  | .indet => .ub .wildPtr
  | .blk n =>
    match m.blk n with
    | none => .ub .useAfterFree
    | some b => .ok b m

/-- Read a tensor descriptor. -/
def derefT (p : Ptr) : M TensorS := do
  match (← derefBlk p).body with
  | .tensor t => pure t
  | _ => ubM .typeConfusion

/-- Read a storage descriptor. -/
def derefS (p : Ptr) : M StorageS := do
  match (← derefBlk p).body with
  | .storage s => pure s
  | _ => ubM .typeConfusion

/-- Read the bytes of a data block. -/
def derefB (p : Ptr) : M (List Byte) := do
  match (← derefBlk p).body with
  | .bytes l => pure l
  | _ => ubM .typeConfusion

/-- Read an `int64_t` array. -/
def derefI (p : Ptr) : M (List (Option Int)) := do
  match (← derefBlk p).body with
  | .i64s l => pure l
  | _ => ubM .typeConfusion

/-- Overwrite the contents of a live block, which must not be read-only (C99 6.7.3). -/
def putBody (p : Ptr) (b : Body) : M Unit := fun _ m =>
  match p with
  | .null => .ub .nullDeref
  | .indet => .ub .wildPtr
  | .blk n =>
    match m.blk n with
    | none => .ub .useAfterFree
    | some k => if k.heap = .const then .ub .constWrite else .ok () (m.set n (some ⟨k.heap, b⟩))

/-- A write through a pointer to scratch memory whose contents are kept locally: only the validity
of the pointer and the bound (in bytes) are checked (not whether the block is read-only). -/
def touch (p : Ptr) (lo hi : Int) : M Unit := do
  match (← derefBlk p).body with
  | .scratch n => if 0 ≤ lo ∧ hi ≤ n then pure () else ubM .outOfBounds
  | _ => ubM .typeConfusion

/-- An array whose cells may be uninitialised, held by value. -/
abbrev Arr := List (Option Int)

/-- Read cell `i` of a local array. -/
def Arr.rd (a : Arr) (i : Int) : M Int :=
  if 0 ≤ i ∧ i < a.length then
    match a[i.toNat]? with
    | some (some v) => pure v
    | _ => ubM .uninit
  else ubM .outOfBounds

/-- Write cell `i` of a local array. -/
def Arr.wr (a : Arr) (i : Int) (v : Int) : M Arr :=
  if 0 ≤ i ∧ i < a.length then pure (a.set i.toNat (some v)) else ubM .outOfBounds

/-- A fully initialised array. -/
def Arr.of (l : List Int) : Arr := l.map some

def I32_MAX : Int := 2147483647
def I32_MIN : Int := -2147483648
def I64_MAX : Int := 9223372036854775807
def I64_MIN : Int := -9223372036854775808

/-- Result of a signed 64-bit operation. -/
def i64 (n : Int) : M Int := if I64_MIN ≤ n ∧ n ≤ I64_MAX then pure n else ubM .overflow

/-- Result of a signed 32-bit (`int`) operation. -/
def i32 (n : Int) : M Int := if I32_MIN ≤ n ∧ n ≤ I32_MAX then pure n else ubM .overflow

/-- Conversion to `int` (implementation-defined wrap-around). -/
def toI32 (n : Int) : Int := (n + 2147483648) % 4294967296 - 2147483648

/-- Conversion to `unsigned int`. -/
def toU32 (n : Int) : Int := n % 4294967296

/-- `for (i = i0; k iterations; ++i) s = f(i, s)`. -/
def loopN {σ : Type} (f : Nat → σ → M σ) : Nat → Nat → σ → M σ
  | 0, _, s => pure s
  | k + 1, i, s => do
    let s' ← f i s
    loopN f k (i + 1) s'

/-- `for (int64_t i = 0; i < n; ++i)`: no iterations if `n` is negative. -/
def forI {σ : Type} (n : Int) (s : σ) (f : Nat → σ → M σ) : M σ := loopN f n.toNat 0 s

/-- `for (int i = 0; i < n; ++i)` with a 64-bit bound `n`: when `n` exceeds `INT_MAX` the increment
of `i` eventually overflows. -/
def forI32 {σ : Type} (n : Int) (s : σ) (f : Nat → σ → M σ) : M σ :=
  if n ≤ I32_MAX then loopN f n.toNat 0 s else ubM .overflow

/-- Loop with early `return r`: the body answers `.inl s` (continue) or `.inr r` (return). -/
def loopE {σ ρ : Type} (f : Nat → σ → M (σ ⊕ ρ)) : Nat → Nat → σ → M (σ ⊕ ρ)
  | 0, _, s => pure (.inl s)
  | k + 1, i, s => do
    match ← f i s with
    | .inl s' => loopE f k (i + 1) s'
    | .inr r => pure (.inr r)

end Aitisa
