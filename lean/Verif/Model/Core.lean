import Verif.Model.Types

/-!
# Core: shape, storage, tensor

`/repo/src/core/{utils.h,shape.c,storage.c,tensor.c,tensor.h}`.
-/

namespace Aitisa

/-- `size_of_dims(int64_t *dims, int ndim)`, `/repo/src/core/utils.h` 9-15.  The `int64_t` rank passed
by callers is converted to `int`. -/
def sizeOfDims (dims : Arr) (ndim : Int) : M Int :=
  forI (toI32 ndim) 1 fun i r => do
    let d ← dims.rd i
    i64 (r * d)

/-- Store into an `int64_t` array in the heap. -/
def storeI (p : Ptr) (i : Int) (v : Int) : M Unit := do
  let l ← derefI p
  let l' ← Arr.wr l i v
  putBody p (.i64s l')

/-- Load from an `int64_t` array in the heap. -/
def loadI (p : Ptr) (i : Int) : M Int := do
  let l ← derefI p
  Arr.rd l i

/-- Contents of a new `int64_t` array allocated with `sizeof(int64_t) * n` bytes (`size_t`
arithmetic). -/
def newI64s (n : Int) : Body := .i64s (List.replicate (toSizeT (8 * n) / 8) none)

/-- `aitisa_create_default_layout`, `/repo/src/core/shape.c` 5-20: returns the status and the new value
of `layout->min2maj` (`old` if it was not assigned). -/
def createDefaultLayout (lt : LayoutType) (ndim : Int) (old : Ptr) : M (Status × Ptr) := do
  if lt ≠ .dense then return (.notSupported, old)
  let p ← if ndim = 0 then pure Ptr.null else rawAlloc (toSizeT (8 * ndim)) (newI64s ndim)
  if ndim ≠ 0 ∧ p = .null then return (.allocFailed, p)
  forI ndim () fun i _ => storeI p i (ndim - 1 - i)
  return (.success, p)

/-- `aitisa_create_shape`, `/repo/src/core/shape.c` 31-46: returns the status and the new values of
`shape->dims` and `shape->layout.min2maj`. -/
def createShape (lt : LayoutType) (dims : Arr) (ndim : Int) : M (Status × Ptr × Ptr) := do
  let d ← if ndim = 0 then pure Ptr.null else rawAlloc (toSizeT (8 * ndim)) (newI64s ndim)
  if ndim ≠ 0 ∧ d = .null then return (.allocFailed, d, .indet)
  forI ndim () fun i _ => do
    let v ← dims.rd i
    storeI d i v
  let (st, l) ← createDefaultLayout lt ndim .indet
  if st ≠ .success then return (st, d, l)
  return (.success, d, l)

/-- `aitisa_create_storage`, `/repo/src/core/storage.c` 4-24: returns the status and the new value of
`*storage` (`old` if not assigned).  `dtype.size * size` is an `int64_t` multiplication. -/
def createStorage (dt : DType) (dev : Device) (size : Int) (data : Ptr) (old : Ptr) :
    M (Status × Ptr) := do
  let s ← rawAlloc 32 (.storage ⟨dt, dev, size, .indet⟩)
  if s = .null then return (.allocFailed, old)
  if data ≠ .null then
    putBody s (.storage ⟨dt, dev, size, data⟩)
    return (.success, s)
  else
    let n ← i64 (dt.size * size)
    let p ← rawAlloc (toSizeT n) (.bytes (List.replicate (toSizeT n) none))
    putBody s (.storage ⟨dt, dev, size, p⟩)
    if p = .null then return (.allocFailed, old)
    return (.success, s)

/-- The test `len/dtype.size != tensor->size`, `/repo/src/core/tensor.c` 14: an `unsigned int` division,
undefined for size 0. -/
def lenMismatch (len sz : Nat) (size : Int) : M Bool :=
  if sz = 0 then ubM .divZero else pure (((len / sz : Nat) : Int) ≠ size)

/-- `aitisa_create`, `/repo/src/core/tensor.c` 6-21: returns the status and the new value of `*output`. -/
def create (dt : DType) (dev : Device) (dims : Arr) (ndim : Int) (data : Ptr) (len : Nat)
    (out : Ptr) : M (Status × Ptr) := do
  let t ← rawAlloc 56 (.tensor ⟨0, 0, 0, .indet, .dense, .indet, .indet⟩)
  if t = .null then return (.allocFailed, out)
  let size ← sizeOfDims dims ndim
  putBody t (.tensor ⟨size, 0, 0, .indet, .dense, .indet, .indet⟩)
  let bad ← if data ≠ .null then lenMismatch len dt.size size else pure false
  if bad then return (.invalidArgument, out)
  let (st, d, l) ← createShape .dense dims ndim
  putBody t (.tensor ⟨size, 0, ndim, d, .dense, l, .indet⟩)
  if st ≠ .success then return (st, out)
  let (st, s) ← createStorage dt dev size data .indet
  if st ≠ .success then return (st, out)
  putBody t (.tensor ⟨size, 0, ndim, d, .dense, l, s⟩)
  return (.success, t)

/-- `aitisa_destroy_shape` (with `aitisa_destroy_layout`), `/repo/src/core/shape.c` 22-29, 48-56, applied
to the shape inside the tensor descriptor at `t`. -/
def destroyShape (t : Ptr) : M Unit := do
  let s ← derefT t
  if s.dims ≠ .null then
    rawFree s.dims
    putBody t (.tensor { s with dims := .null })
  let s ← derefT t
  if s.min2maj ≠ .null then
    rawFree s.min2maj
    putBody t (.tensor { s with min2maj := .null })

/-- `aitisa_destroy_storage`, `/repo/src/core/storage.c` 26-37, applied to the field `storage` of the
tensor descriptor at `t`. -/
def destroyStorage (t : Ptr) : M Unit := do
  let s ← derefT t
  if s.storage = .null then return ()
  let st ← derefS s.storage
  if st.data ≠ .null then
    rawFree st.data
    putBody s.storage (.storage { st with data := .null })
  rawFree s.storage
  putBody t (.tensor { s with storage := .null })

/-- `aitisa_destroy`, `/repo/src/core/tensor.c` 23-30: returns the status and the new handle. -/
def destroy (h : Ptr) : M (Status × Ptr) := do
  if h = .null then return (.success, h)
  destroyShape h
  destroyStorage h
  rawFree h
  return (.success, .null)

/-- `aitisa_tensor_ndim`, `/repo/src/core/tensor.h` 38-40. -/
def tNdim (h : Ptr) : M Int := do return (← derefT h).ndim

/-- `aitisa_tensor_dims`, `/repo/src/core/tensor.h` 52-54. -/
def tDims (h : Ptr) : M Ptr := do return (← derefT h).dims

/-- `aitisa_tensor_dim`, `/repo/src/core/tensor.h` 45-47. -/
def tDim (h : Ptr) (d : Int) : M Int := do loadI (← tDims h) d

/-- `aitisa_tensor_size`, `/repo/src/core/tensor.h` 59-61. -/
def tSize (h : Ptr) : M Int := do return (← derefT h).size

/-- `aitisa_tensor_data_type`, `/repo/src/core/tensor.h` 87-89. -/
def tDtype (h : Ptr) : M DType := do return (← derefS (← derefT h).storage).dtype

/-- `aitisa_tensor_data`, `/repo/src/core/tensor.h` 95-97. -/
def tData (h : Ptr) : M Ptr := do return (← derefS (← derefT h).storage).data

/-- `aitisa_tensor_device`, `/repo/src/core/tensor.h` 102-104. -/
def tDevice (h : Ptr) : M Device := do return (← derefS (← derefT h).storage).device

/-- The array behind `aitisa_tensor_dims(t)` when it is handed on to a function that reads it
(`NULL` for rank 0: no cell can be read).  The tensor's own array is not modified during these calls. -/
def tDimsArr (h : Ptr) : M Arr := do
  let p ← tDims h
  if p = .null then return [] else derefI p

/-- Result of `aitisa_resolve`. -/
structure Resolved where
  dtype : DType
  device : Device
  dims : Ptr
  ndim : Int
  data : Ptr
  len : Int
  deriving DecidableEq, Repr

/-- `aitisa_resolve`, `/repo/src/core/tensor.c` 32-42.  The C function has no `return` statement; the
model returns the output parameters and no status (using the status is undefined). `*len` is an
`unsigned int`. -/
def resolve (h : Ptr) : M Resolved := do
  let dt ← tDtype h
  let dev ← tDevice h
  let dims ← tDims h
  let ndim ← tNdim h
  let data ← tData h
  let size ← tSize h
  let n ← i64 (size * dt.size)
  return ⟨dt, dev, dims, ndim, data, toU32 n⟩

/-- `aitisa_tensor_set_item`, `/repo/src/core/tensor.h` 109-115; `value` is the object pointed to,
as bytes. -/
def setItem (h : Ptr) (idx : Int) (value : List Byte) : M Unit := do
  let p ← tData h
  let dt ← tDtype h
  let off ← i64 (idx * dt.size)
  let bs ← derefB p
  if 0 ≤ off ∧ off + dt.size ≤ bs.length ∧ dt.size ≤ value.length then
    putBody p (.bytes (splice bs off.toNat (value.take dt.size)))
  else ubM .outOfBounds

end Aitisa
