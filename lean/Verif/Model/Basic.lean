import Verif.Model.Core
import Verif.Model.Double

/-!
# Basic operators

`/repo/src/basic/*.c`.
-/

namespace Aitisa

/-! ### `factories.c` -/

/-- Object representation of the local `double value` after
`aitisa_castto_typed_value_func(dtype)(&value, &value)` (`/repo/src/basic/factories.c` 9,
`/repo/src/core/types.c` 80-94): the converted value occupies the first bytes. -/
def fullCell (fp : FloatOps) (c : Code) (value : BitVec 64) : Except UB (List Byte) := do
  let v ← cCast fp c (.f64 value)
  return splice ((encVal .f64 (.f64 value)).map some) 0 ((encVal c v).map some)

/-- `aitisa_full`, `/repo/src/basic/factories.c` 3-15.  The loop counter is an `int`. -/
def full (dt : DType) (dev : Device) (dims : Arr) (ndim : Int) (value : BitVec 64) (out : Ptr) :
    M (Status × Ptr) := do
  let (st, t) ← create dt dev dims ndim .null 0 .indet
  if st ≠ .success then return (st, out)
  let size ← tSize t
  let c ← tableCode dt
  let fp ← getFp
  let cell ← liftU (fullCell fp c value)
  forI32 size () fun i _ => setItem t i cell
  return (.success, t)

/-! ### Elementwise loops -/

/-- `for (int64_t i = 0; i < size; i++) out[i] = f(in[i])` with typed arrays. -/
def mapLoop (c c' : Code) (ip op : Ptr) (size : Int) (f : Val → Except UB Val) : M Unit :=
  forI size () fun i _ => do
    let v ← loadElem c ip i
    let w ← liftU (f v)
    storeElem c' op i w

/-! ### `cast.c` -/

/-- `cast_template` with `cast_kernel`, `/repo/src/basic/cast.c` 4-9, 11-72: double dispatch on the input
and output dtype codes. -/
def castTemplate (h : Ptr) (odt : DType) (t : Ptr) : M Status := do
  let idt ← tDtype h
  let size ← tSize h
  let ip ← tData h
  let op ← tData t
  match Code.find idt.code with
  | none => return .notSupported
  | some c =>
    match Code.find odt.code with
    | none => return .notSupported
    | some c' => do
      let fp ← getFp
      mapLoop c c' ip op size (cCast fp c')
      return .success

/-- `aitisa_cast`, `/repo/src/basic/cast.c` 74-94. -/
def cast (h : Ptr) (dt : DType) (out : Ptr) : M (Status × Ptr) := do
  let idt ← tDtype h
  if idt.code = dt.code then return (.success, out)
  let dev ← tDevice h
  let dims ← tDimsArr h
  let ndim ← tNdim h
  let (st, t) ← create dt dev dims ndim .null 0 .indet
  if st ≠ .success then return (st, out)
  let st ← castTemplate h dt t
  return (st, t)

/-! ### `reshape.c` -/

/-- `aitisa_reshape`, `/repo/src/basic/reshape.c` 4-27. -/
def reshape (h : Ptr) (dims : Arr) (ndim : Int) (out : Ptr) : M (Status × Ptr) := do
  let inSize ← tSize h
  let outSize ← sizeOfDims dims ndim
  if inSize ≠ outSize then return (.dimensionsMismatch, out)
  let dev ← tDevice h
  let dt ← tDtype h
  let (st, t) ← create dt dev dims ndim .null 0 .indet
  if st ≠ .success then return (st, out)
  let ip ← tData h
  let op ← tData t
  let n ← i64 (outSize * dt.size)
  memcpyB op ip (toSizeT n)
  return (.success, t)

/-! ### `squeeze.c` -/

/-- A failed allocation of a scratch array is null; otherwise the array starts uninitialised. -/
def scratch (n : Int) (elem : Nat) : M Ptr :=
  rawAlloc (toSizeT (elem * n)) (.scratch (toSizeT (elem * n)))

/-- Number of `elem`-byte cells in a scratch array allocated for `n` elements. -/
def cells (n : Int) (elem : Nat) : Arr := List.replicate (toSizeT (elem * n) / elem) none

/-- Axis validation, `/repo/src/basic/squeeze.c` 10-17: is some axis negative? -/
def squeezeBadAxis (axis : Arr) (numAxis : Int) : M Bool := do
  if numAxis > 0 then
    match ← loopE (ρ := Unit) (fun i (_ : Unit) => do
      let a ← axis.rd i
      if a < 0 then return .inr () else return .inl ()) numAxis.toNat 0 () with
    | .inl _ => return false
    | .inr _ => return true
  else return false

/-- The loops of `/repo/src/basic/squeeze.c` 22-41: `processed_in_dims` and `out_ndim`. -/
def squeezeMark (inDims : Arr) (ndim : Int) (axis : Arr) (numAxis : Int) : M (Arr × Int) := do
  let proc ← forI ndim (cells ndim 8) fun i p => do
    let d ← inDims.rd i
    p.wr i d
  if numAxis = 0 then
    forI ndim (proc, ndim) fun i s => do
      let d ← inDims.rd i
      if d = 1 then return (← s.1.wr i 0, s.2 - 1) else return s
  else
    forI numAxis (proc, ndim) fun i s => do
      let a ← axis.rd i
      let d ← inDims.rd a
      if d = 1 then return (← s.1.wr a 0, s.2 - 1) else return s

/-- The compaction loop of `/repo/src/basic/squeeze.c` 47-52: `out_dims`. -/
def squeezeCompact (proc : Arr) (ndim outNdim : Int) : M Arr := do
  let s ← forI ndim (cells outNdim 8, (0 : Int)) fun i s => do
    let d ← proc.rd i
    if d ≠ 0 then return (← s.1.wr s.2 d, s.2 + 1) else return s
  return s.1

/-- `aitisa_squeeze`, `/repo/src/basic/squeeze.c` 5-61. -/
def squeeze (h : Ptr) (axis : Arr) (numAxis : Int) (out : Ptr) : M (Status × Ptr) := do
  let inDims ← tDimsArr h
  let ndim ← tNdim h
  if numAxis < 0 then return (.invalidArgument, out)
  let bad ← squeezeBadAxis axis numAxis
  if bad then return (.invalidArgument, out)
  let pp ← scratch ndim 8
  if pp = .null then return (.allocFailed, out)
  let (proc, outNdim) ← squeezeMark inDims ndim axis numAxis
  let po ← scratch outNdim 8
  if po = .null then return (.allocFailed, out)
  let outDims ← squeezeCompact proc ndim outNdim
  let r ← reshape h outDims outNdim out
  rawFree pp
  rawFree po
  return r

/-! ### `slice.c` -/

/-- One iteration of `slice_check_parameters`, `/repo/src/basic/slice.c` 55-60: is axis `i` wrong?
`begin[i] + size[i]` is an `int` addition, evaluated only if `size[i] >= 0`. -/
def sliceBad (inDims bg sz st : Arr) (i : Nat) : M Bool := do
  let b ← bg.rd i
  let condBegin ← if b < 0 then pure true else do
    let d ← inDims.rd i
    pure (decide (b ≥ d))
  let s ← sz.rd i
  let condSize ← if s < 0 then pure true else do
    let e ← i32 (b + s)
    let d ← inDims.rd i
    pure (decide (e > d))
  let t ← st.rd i
  return condBegin || condSize || decide (t < 1)

/-- `slice_check_parameters`, `/repo/src/basic/slice.c` 50-63. -/
def sliceCheck (inDims : Arr) (ndim : Int) (bg sz st : Arr) : M Status := do
  if ndim > I32_MAX then ubM .overflow else
  match ← loopE (ρ := Unit) (fun i (_ : Unit) => do
      let bad ← sliceBad inDims bg sz st i
      if bad then return .inr () else return .inl ()) ndim.toNat 0 () with
  | .inl _ => return .success
  | .inr _ => return .invalidArgument

/-- The first `n` cells of a caller's array. -/
def rdAll (a : Arr) : Nat → M (List Int)
  | 0 => pure []
  | n + 1 => do
    let l ← rdAll a n
    let v ← a.rd n
    return l ++ [v]

/-- `(int)ceil((double)size / (double)step)` for `size ≥ 0`, `step ≥ 1`,
`/repo/src/basic/slice.c` 20. -/
def ceilDim (s t : Int) : Int := dCeil (dDiv s.toNat t.toNat)

/-- The writes to `out_dims`, `/repo/src/basic/slice.c` 27-32. -/
def sliceTouch (po : Ptr) (outDims : List Int) : M Unit :=
  if outDims = [] then pure () else touch po 0 (8 * (outDims.length : Int))

/-- `slice_create_output`, `/repo/src/basic/slice.c` 9-48.  Returns the status and the new `*output`
(which is assigned even if the creation failed: the local variable `new_tensor` is then
indeterminate).  The result of the second allocation is not checked. -/
def sliceCreate (h : Ptr) (sz st : List Int) (out : Ptr) : M (Status × Ptr) := do
  let ndim ← tNdim h
  let pt ← scratch ndim 4
  if pt = .null then return (.allocFailed, out)
  let temp := List.zipWith ceilDim sz st
  let outDims := temp.filter (· > 0)
  let outNdim : Int := outDims.length
  let po ← scratch outNdim 8
  sliceTouch po outDims
  rawFree pt
  let dt ← tDtype h
  let dev ← tDevice h
  let (s, t) ← create dt dev (Arr.of outDims) outNdim .null 0 .indet
  rawFree po
  return (s, t)

/-- `offset_recorder`, `/repo/src/basic/slice.c` 111-114: the strides of the input, computed from the
last dimension; for rank 0 the write to index `-1` is out of bounds. -/
def offsets : List Int → M (List Int)
  | [] => ubM .outOfBounds
  | [_] => pure [1]
  | _ :: d' :: r => do
    let s ← offsets (d' :: r)
    let o ← i64 (s.headD 1 * d')
    return o :: s

/-- `sum of index[i] * offset[i]`, the inner loop of `/repo/src/basic/slice.c` 71-74. -/
def linIdx (idx off : List Int) : M Int :=
  (List.zip idx off).foldlM (fun a p => do
    let x ← i64 (p.1 * p.2)
    i64 (a + x)) 0

/-- One axis of the slice odometer: begin, step and boundary. -/
structure SliceAxis where
  bg : Int
  step : Int
  bound : Int

/-- `begin`, `step` and `boundary = begin + size - 1` of every axis, `/repo/src/basic/slice.c` 104-110. -/
def sliceAxes : List Int → List Int → List Int → List SliceAxis
  | b :: bs, s :: ss, t :: ts => ⟨b, t, b + s - 1⟩ :: sliceAxes bs ss ts
  | _, _, _ => []

/-- Update of `index_recorder`, `/repo/src/basic/slice.c` 78-86: from the last axis, add the step; reset
and carry on beyond the boundary, else stop.  The flag says that all axes were reset. -/
def odoSlice : List SliceAxis → List Int → List Int × Bool
  | a :: as, i :: is =>
    let (is', carry) := odoSlice as is
    if carry then
      if i + a.step > a.bound then (a.bg :: is', true) else ((i + a.step) :: is', false)
    else (i :: is', false)
  | _, _ => ([], true)

/-- `slice_kernel`, `/repo/src/basic/slice.c` 65-87: `int` loop counter. -/
def sliceKernel (c : Code) (ip op : Ptr) (outSize : Int) (ax : List SliceAxis) (off : List Int) :
    M Unit := do
  let _ ← forI32 outSize (ax.map (·.bg)) fun i idx => do
    let k ← linIdx idx off
    let v ← loadElem c ip k
    storeElem c op i v
    return (odoSlice ax idx).1

/-- `slice_template`, `/repo/src/basic/slice.c` 89-123. -/
def sliceTemplate (h : Ptr) (bg sz st : List Int) (t : Ptr) : M Status := do
  let ndim ← tNdim h
  let inDims ← tDimsArr h
  let p1 ← scratch ndim 8
  let p2 ← scratch ndim 8
  let p3 ← scratch ndim 8
  if p1 = .null ∨ p2 = .null ∨ p3 = .null then return .allocFailed
  let ax := sliceAxes bg sz st
  let dims ← rdAll inDims ndim.toNat
  let off ← offsets dims
  let dt ← tDtype h
  match Code.find dt.code with
  | none => return .notSupported
  | some c => do
    let ip ← tData h
    let op ← tData t
    let outSize ← tSize t
    sliceKernel c ip op outSize ax off
    rawFree p1
    rawFree p2
    rawFree p3
    return .success

/-- `aitisa_slice`, `/repo/src/basic/slice.c` 125-135. -/
def slice (h : Ptr) (bg sz st : Arr) (out : Ptr) : M (Status × Ptr) := do
  let ndim ← tNdim h
  let inDims ← tDimsArr h
  let s ← sliceCheck inDims ndim bg sz st
  if s ≠ .success then return (s, out)
  let bg ← rdAll bg ndim.toNat
  let sz ← rdAll sz ndim.toNat
  let st ← rdAll st ndim.toNat
  let (s, t) ← sliceCreate h sz st out
  if s ≠ .success then return (s, t)
  let s ← sliceTemplate h bg sz st t
  return (s, t)

/-! ### `duplicate.c` -/

/-- `aitisa_duplicate`, `/repo/src/basic/duplicate.c` 5-28: a slice of everything. `(int)dims[i]` may
truncate. -/
def duplicate (h : Ptr) (out : Ptr) : M (Status × Ptr) := do
  let inDims ← tDimsArr h
  let nd ← tNdim h
  let ndim := toI32 nd
  let pb ← scratch ndim 4
  let ps ← scratch ndim 4
  let pt ← scratch ndim 4
  if pb = .null ∨ ps = .null ∨ pt = .null then return (.allocFailed, out)
  let dims ← rdAll inDims ndim.toNat
  let (st, t) ← slice h (Arr.of (dims.map fun _ => 0)) (Arr.of (dims.map toI32))
    (Arr.of (dims.map fun _ => 1)) .indet
  rawFree pb
  rawFree ps
  rawFree pt
  return (st, if st = .success then t else out)

/-! ### `broadcast.c` -/

/-- Body of the first loop of `aitisa_broadcast_array`, `/repo/src/basic/broadcast.c` 12-21 (`.inr` is the
`return STATUS_DIMENSIONS_MISMATCH`). -/
def bcastBoth (d1 : Arr) (n1 : Int) (d2 : Arr) (n2 nOut : Int) (i : Nat) (o : Arr) : M (Arr ⊕ Arr) := do
  let a ← d1.rd (n1 - i - 1)
  let b ← d2.rd (n2 - i - 1)
  if a = 1 ∨ b = 1 ∨ a = b then
    let o ← o.wr (nOut - i - 1) (if a > b then a else b)
    return .inl o
  else return .inr o

/-- Body of the copying loops of `aitisa_broadcast_array`, `/repo/src/basic/broadcast.c` 23-26, 27-30. -/
def bcastOne (d : Arr) (n nOut : Int) (i : Nat) (o : Arr) : M Arr := do
  let a ← d.rd (n - i - 1)
  o.wr (nOut - i - 1) a

/-- `aitisa_broadcast_array`, `/repo/src/basic/broadcast.c` 6-32: the status and the caller's array
`dims_out`.  The counter `i` continues from one loop to the next. -/
def broadcastArray (d1 : Arr) (n1 : Int) (d2 : Arr) (n2 : Int) (out : Arr) (nOut : Int) :
    M (Status × Arr) := do
  let k : Nat := (min n1 n2).toNat
  match ← loopE (bcastBoth d1 n1 d2 n2 nOut) k 0 out with
  | .inr o => return (.dimensionsMismatch, o)
  | .inl o => do
    let o ← loopN (bcastOne d1 n1 nOut) (n1.toNat - k) k o
    let o ← loopN (bcastOne d2 n2 nOut) (n2.toNat - max k n1.toNat) (max k n1.toNat) o
    return (.success, o)

/-! ### `index_utils.c` -/

/-- The array behind `layout.min2maj`. -/
def tMin2maj (h : Ptr) : M Arr := do
  let t ← derefT h
  if t.min2maj = .null then return [] else derefI t.min2maj

/-- `aitisa_get_stride`, `/repo/src/basic/index_utils.c` 4-17. -/
def getStride (h : Ptr) (dimension : Int) : M Int := do
  let ndim ← tNdim h
  let dims ← tDimsArr h
  let m2m ← tMin2maj h
  match ← loopE (fun i (stride : Int) => do
      let dim ← m2m.rd i
      if dim = dimension then return .inr stride
      let d ← dims.rd dim
      return .inl (← i64 (stride * d))) ndim.toNat 0 1 with
  | .inl s => return s
  | .inr s => return s

/-- `aitisa_get_all_strides`, `/repo/src/basic/index_utils.c` 19-29; `strides` is the caller's array. -/
def getAllStrides (h : Ptr) (strides : Arr) : M Arr := do
  let ndim ← tNdim h
  let dims ← tDimsArr h
  let m2m ← tMin2maj h
  let r ← forI32 ndim (strides, (1 : Int)) fun i s => do
    let dim ← m2m.rd i
    let a ← s.1.wr dim s.2
    let d ← dims.rd dim
    return (a, ← i64 (s.2 * d))
  return r.1

/-- The assertions shared by `aitisa_coords_to_linidx` and `aitisa_coords_to_offset`,
`/repo/src/basic/index_utils.c` 35-39, 70-74. With `NDEBUG` the loop reads nothing. -/
def assertCoords (dims coords : Arr) (ndim len : Int) : M Unit := do
  cAssert (len = ndim)
  forI ndim () fun i _ => fun E m =>
    if E.asserts then (do
      let c ← coords.rd i
      cAssert (c ≥ 0)
      let d ← dims.rd i
      cAssert (c < d)) E m
    else .ok () m

/-- `aitisa_coords_to_linidx`, `/repo/src/basic/index_utils.c` 31-48: the loop runs from the last
dimension (iteration `i` handles dimension `ndim-1-i`). -/
def coordsToLinidx (h : Ptr) (coords : Arr) (len : Int) : M Int := do
  let ndim ← tNdim h
  let dims ← tDimsArr h
  assertCoords dims coords ndim len
  let r ← forI ndim ((1 : Int), (0 : Int)) fun i s => do
    let c ← coords.rd (ndim - 1 - i)
    let x ← i64 (s.1 * c)
    let l ← i64 (s.2 + x)
    let d ← dims.rd (ndim - 1 - i)
    return (← i64 (s.1 * d), l)
  return r.2

/-- C division and remainder of `int64_t` values. -/
def cDivMod (a b d : Int) : M Int := do
  if b = 0 then ubM .divZero else
  let q ← i64 (a.tdiv b)
  if d = 0 then ubM .divZero else
  let _ ← i64 (q.tdiv d)
  return q.tmod d

/-- `aitisa_linidx_to_coords`, `/repo/src/basic/index_utils.c` 50-63. -/
def linidxToCoords (h : Ptr) (linidx : Int) (coords : Arr) : M Arr := do
  let size ← tSize h
  let ndim ← tNdim h
  let dims ← tDimsArr h
  cAssert (linidx ≥ 0)
  cAssert (linidx < size)
  let r ← forI ndim ((1 : Int), coords) fun i s => do
    let d ← dims.rd (ndim - 1 - i)
    let c ← cDivMod linidx s.1 d
    let a ← s.2.wr (ndim - 1 - i) c
    return (← i64 (s.1 * d), a)
  return r.2

/-- `aitisa_coords_to_offset`, `/repo/src/basic/index_utils.c` 65-92. -/
def coordsToOffset (h : Ptr) (coords : Arr) (len : Int) : M Int := do
  let ndim ← tNdim h
  let dims ← tDimsArr h
  let m2m ← tMin2maj h
  assertCoords dims coords ndim len
  let r ← forI ndim ((1 : Int), (0 : Int), true) fun i s => do
    let dim ← m2m.rd i
    let c ← coords.rd dim
    let d ← dims.rd dim
    if s.2.2 then return (d, c, false)
    else
      let x ← i64 (s.1 * c)
      let o ← i64 (s.2.1 + x)
      return (← i64 (s.1 * d), o, false)
  return r.2.1

/-- `aitisa_offset_to_coords`, `/repo/src/basic/index_utils.c` 94-109. -/
def offsetToCoords (h : Ptr) (offset : Int) (coords : Arr) : M Arr := do
  let size ← tSize h
  let ndim ← tNdim h
  let dims ← tDimsArr h
  let m2m ← tMin2maj h
  cAssert (offset ≥ 0)
  cAssert (offset < size)
  let r ← forI ndim ((1 : Int), coords) fun i s => do
    let dim ← m2m.rd i
    let d ← dims.rd dim
    let c ← cDivMod offset s.1 d
    let a ← s.2.wr dim c
    return (← i64 (s.1 * d), a)
  return r.2

end Aitisa
