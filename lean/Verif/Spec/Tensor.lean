import Verif.Model.Core

/-!
# Specification vocabulary: tensors in memory

What it means that a handle denotes a well-formed tensor with a given abstract value, that a call left
existing memory alone, and that it leaked nothing.  Independent of how the operators work.
-/

namespace Aitisa

/-- Abstract value of a tensor. -/
structure TV where
  dtype : DType
  device : Device
  dims : List Nat
  bytes : List Byte

/-- Number of elements of a shape. -/
def prod : List Nat → Nat
  | [] => 1
  | d :: ds => d * prod ds

/-- Shape with zero lengths counted as one (bounds every partial product). -/
def prodMax : List Nat → Nat
  | [] => 1
  | d :: ds => max d 1 * prodMax ds

/-- The blocks a tensor consists of: descriptor, storage descriptor, data, dims array and layout array
(the latter two absent for rank 0). -/
structure Foot where
  t : Nat
  s : Nat
  p : Nat
  d : Option Nat
  l : Option Nat

/-- Block ids of a footprint. -/
def Foot.list (R : Foot) : List Nat := R.t :: R.s :: R.p :: (R.d.toList ++ R.l.toList)

/-- Pointer to an optional block. -/
def optPtr : Option Nat → Ptr
  | none => .null
  | some n => .blk n

/-- The handle of a tensor. -/
def Foot.h (R : Foot) : Ptr := .blk R.t

/-- A shape that the C `int64_t` arithmetic can handle for elements of `sz` bytes: also in the presence
of zero lengths no partial product overflows, and the rank fits in an `int`. -/
structure ShapeOK (dims : List Nat) (sz : Nat) : Prop where
  fits : prodMax dims * max sz 1 ≤ 9223372036854775807
  rank : dims.length ≤ 2147483647

/-- The layout array of the default dense layout: `n-1, ..., 1, 0`. -/
def defaultMin2maj (n : Nat) : Arr := (List.range n).map fun i : Nat => some ((n : Int) - 1 - i)

/-- A `dims` list as `int64_t` array contents. -/
def dimsCells (dims : List Nat) : Arr := dims.map fun n : Nat => some (n : Int)

/-- In memory `m` the blocks `R` form a well-formed tensor with value `T`. -/
structure At (m : Mem) (R : Foot) (T : TV) : Prop where
  tensor : m.blk R.t = some ⟨.own, .tensor
    ⟨prod T.dims, 0, T.dims.length, optPtr R.d, .dense, optPtr R.l, .blk R.s⟩⟩
  storage : m.blk R.s = some ⟨.own, .storage ⟨T.dtype, T.device, prod T.dims, .blk R.p⟩⟩
  data : m.blk R.p = some ⟨.own, .bytes T.bytes⟩
  dims : (T.dims = [] ∧ R.d = none) ∨
    ∃ d, T.dims ≠ [] ∧ R.d = some d ∧ m.blk d = some ⟨.own, .i64s (dimsCells T.dims)⟩
  layout : (T.dims = [] ∧ R.l = none) ∨
    ∃ l, T.dims ≠ [] ∧ R.l = some l ∧
      m.blk l = some ⟨.own, .i64s (defaultMin2maj T.dims.length)⟩
  nodup : R.list.Nodup
  len : T.bytes.length = prod T.dims * T.dtype.size
  shape : ShapeOK T.dims T.dtype.size

/-- No block beyond `next`. -/
def Mem.WF (m : Mem) : Prop := ∀ b, m.next ≤ b → m.blk b = none

/-- Every block that existed before is unchanged. -/
structure Frame (m m' : Mem) : Prop where
  next : m.next ≤ m'.next
  same : ∀ b, b < m.next → m'.blk b = m.blk b

/-- `m'` extends `m`: existing blocks are unchanged and every live new block is in `L`. -/
structure Ext (m m' : Mem) (L : List Nat) : Prop extends Frame m m' where
  wf : m'.WF
  live : ∀ b, m.next ≤ b → m'.blk b ≠ none → b ∈ L

/-- The call turned `m` into `m'` and produced the tensor `T` at `R`: all in new memory, nothing else
is left allocated, nothing that existed before changed. -/
structure Produces (m m' : Mem) (R : Foot) (T : TV) : Prop where
  ext : Ext m m' R.list
  tensor : At m' R T
  fresh : ∀ b ∈ R.list, m.next ≤ b

/-- The allocator never fails. -/
def Env.NoFail (E : Env) : Prop := ∀ t s, E.allocOk t s = true

/-- The two outcomes of a call that should produce `T`: success with a new tensor `T`, or - only if the
allocator can fail - `STATUS_ALLOC_FAILED` with `*output` (`out`) and all existing memory unchanged. -/
def Creates (E : Env) (x : M (Status × Ptr)) (m : Mem) (out : Ptr) (T : TV) : Prop :=
  (∃ R m', x E m = .ok (.success, R.h) m' ∧ Produces m m' R T) ∨
  (∃ m', x E m = .ok (.allocFailed, out) m' ∧ Frame m m' ∧ m'.WF ∧ ¬ E.NoFail)

/-- Outcomes of a call that should produce `T` but is careless about allocation failure: success with a new tensor
`T`, or - only if the allocator can fail - `STATUS_ALLOC_FAILED` with existing memory unchanged but any `*output`, or
a dereference of null. -/
def Attempts (E : Env) (x : M (Status × Ptr)) (m : Mem) (T : TV) : Prop :=
  (∃ R m', x E m = .ok (.success, R.h) m' ∧ Produces m m' R T) ∨
  (¬ E.NoFail ∧ ((∃ out m', x E m = .ok (.allocFailed, out) m' ∧ Frame m m' ∧ m'.WF) ∨ x E m = .ub .nullDeref))

/-- The call returns `st` and has no effect at all. -/
def Refuses (E : Env) (x : M (Status × Ptr)) (m : Mem) (out : Ptr) (st : Status) : Prop :=
  ∃ m', x E m = .ok (st, out) m' ∧ Frame m m' ∧ m'.WF ∧ ∀ b, m.next ≤ b → m'.blk b = none

/-- A value that inhabits element type `c`. -/
def Val.WT (c : Code) (v : Val) : Prop :=
  match c, v with
  | .f32, .f32 _ => True
  | .f64, .f64 _ => True
  | .f32, _ | .f64, _ => False
  | c, .int n => c.lo ≤ n ∧ n ≤ c.hi
  | _, _ => False

/-- Object representation of an array of values. -/
def encAll (c : Code) (xs : List Val) : List Byte := xs.flatMap fun x => (encVal c x).map some

/-- `T` is a tensor of element type `c` whose elements, in memory order, are `xs`. -/
structure Elems (T : TV) (c : Code) (xs : List Val) : Prop where
  dtype : T.dtype = c.dtype
  bytes : T.bytes = encAll c xs
  wt : ∀ x ∈ xs, x.WT c
  len : xs.length = prod T.dims

/-- The call should produce a tensor of element type `c` on device `dev` with the given dims whose elements,
in row-major order, are `ys` (values of type `c`, as many as the shape has positions). -/
structure Delivers (E : Env) (x : M (Status × Ptr)) (m : Mem) (out : Ptr) (c : Code) (dev : Device)
    (dims : List Nat) (ys : List Val) : Prop where
  creates : Creates E x m out ⟨c.dtype, dev, dims, encAll c ys⟩
  wt : ∀ y ∈ ys, y.WT c
  len : ys.length = prod dims

end Aitisa
