import Verif.Model.Math
import Verif.Model.Matmul

/-!
# Dot product

`/repo/src/math/dot.c`.  The scratch arrays (`out_dims`, the index recorders, `size`, `step`) are allocated and freed as
blocks, their contents are kept in local lists.
-/

namespace Aitisa

/-- `memcpy((char *)dst + off, src, n)` for the bases `dst`, `src` of two data blocks. -/
def memcpyAt (dst : Ptr) (off : Int) (src : Ptr) (n : Nat) : M Unit := do
  let s ← derefB src
  let d ← derefB dst
  if 0 ≤ off ∧ n ≤ s.length ∧ off + n ≤ d.length then putBody dst (.bytes (splice d off.toNat (s.take n)))
  else ubM .outOfBounds

/-- `dot_kernel`, `/repo/src/math/dot.c` 11-16: the accumulator is set to 0 and the products are added (the loop is that of
`VV_KERNEL`). -/
def dotKernel (c : Code) (X Y Z : Ptr) (n : Int) : M Unit := do
  let fp ← getFp
  let z ← liftU (cCast fp c (.int 0))
  storeElem c Z 0 z
  forI32 n () fun i _ => macStep c X Y Z i i 0

/-- `vector_vector_dot` (with `dot_template`), `/repo/src/math/dot.c` 18-23, 70-90.  The output is created as in `matmul.c`;
the field `size` is read before the creation. -/
def vecDot (h1 h2 out : Ptr) : M (Status × Ptr) := do
  let n1 ← tDim h1 0
  let n2 ← tDim h2 0
  if n1 ≠ n2 then return (.dimensionsMismatch, out)
  let size ← tSize h1
  matPlain h1 h2 [some 1] 1 out fun c ap bp cp => dotKernel c ap bp cp size

/-- `dot_get_value`, `/repo/src/math/dot.c` 25-33: element 0 as a `double` (none: `STATUS_NOT_SUPPORTED`). -/
def dotGetValue (h : Ptr) : M (Option (BitVec 64)) := do
  let dt ← tDtype h
  match Code.find dt.code with
  | none => return none
  | some c => do
    let p ← tData h
    let v ← loadElem c p 0
    let fp ← getFp
    return some (toDouble fp v)

/-- `scalar_tensor_mul`, `/repo/src/math/dot.c` 35-68, where `big` is the operand of larger rank (the second if equal) and
`small` the other. -/
def scalarMulOf (h1 big small out : Ptr) : M (Status × Ptr) := do
  let dt ← tDtype h1
  let dev ← tDevice h1
  let n ← tNdim big
  let dims ← tDimsArr big
  match ← dotGetValue small with
  | none => return (.notSupported, out)
  | some v => do
    let (st, t) ← full dt dev dims n v .indet
    if st ≠ .success then return (st, out)
    let r ← binaryOp .mul t big out
    let _ ← destroy t
    return r

/-- `scalar_tensor_mul`, `/repo/src/math/dot.c` 35-68. -/
def scalarMul (h1 h2 out : Ptr) : M (Status × Ptr) := do
  let n1 ← tNdim h1
  let n2 ← tNdim h2
  if n1 > n2 then scalarMulOf h1 h1 h2 out else scalarMulOf h1 h2 h1 out

/-- The update of an index recorder, `/repo/src/math/dot.c` 155-163 (265-274, 279-287): an odometer from the last dimension,
skipping the contracted axis (flag).  (The `int` increment cannot overflow: the number of vectors is at most `INT_MAX`.) -/
def odoGe : List (Int × Bool) → List Int → List Int × Bool
  | a :: as, i :: is =>
    let (is', carry) := odoGe as is
    if carry then
      if a.2 then (i :: is', true)
      else if i + 1 ≥ a.1 then (0 :: is', true) else ((i + 1) :: is', false)
    else (i :: is', false)
  | _, _ => ([], true)

/-- `for (int i = 0; i < n; i++)` with an early `return`. -/
def forI32E {σ ρ : Type} (n : Int) (s : σ) (f : Nat → σ → M (σ ⊕ ρ)) : M (σ ⊕ ρ) :=
  if n ≤ I32_MAX then loopE f n.toNat 0 s else ubM .overflow

/-- The vectors of a tensor along one axis: the arguments of `aitisa_slice`.  `marked` are the dims with the axis flagged. -/
structure Vecs where
  h : Ptr
  marked : List (Int × Bool)
  size : List Int
  step : List Int

/-- The slice call, `/repo/src/math/dot.c` 149 (253-254, 256-257). -/
def Vecs.get (v : Vecs) (idx : List Int) : M (Status × Ptr) :=
  slice v.h (Arr.of idx) (Arr.of v.size) (Arr.of v.step) .indet

/-- `vector_vector_dot` into `result` and the copy of its element to byte `off` of the output,
`/repo/src/math/dot.c` 150-153 (258-263).  Gives `result`. -/
def dotCell (v1 v2 op : Ptr) (sz : Nat) (off : M Int) : M (Status × Ptr) := do
  let (st, r) ← vecDot v1 v2 .indet
  if st ≠ .success then return (st, r)
  let rp ← tData r
  let o ← off
  memcpyAt op o rp sz
  return (.success, r)

/-- One vector, `/repo/src/math/dot.c` 148-165 (255-276): slice, dot, copy, next index, release. -/
def dotStep (v : Vecs) (cell : Ptr → M (Status × Ptr)) (idx : List Int) : M (List Int ⊕ Status) := do
  let (st, x) ← v.get idx
  if st ≠ .success then return .inr st
  let (st, r) ← cell x
  if st ≠ .success then return .inr st
  let _ ← destroy x
  let _ ← destroy r
  return .inl (odoGe v.marked idx).1

/-- The dims with the axis flagged, and the contents of `size` and `step`, `/repo/src/math/dot.c` 134-139 (230-241). -/
def vecsOf (h : Ptr) (dims : List Int) (axis : Nat) : Vecs where
  h := h
  marked := dims.zipIdx.map fun p => (p.1, decide (p.2 = axis))
  size := dims.zipIdx.map fun p => if p.2 = axis then toI32 p.1 else 0
  step := dims.map fun _ => 1

/-- Second half of `tensor_vector_dot`, `/repo/src/math/dot.c` 121-170. -/
def tvFill (h1 h2 t : Ptr) (n1 : Int) (d1 : Arr) : M Status := do
  let p1 ← scratch n1 4
  let p2 ← scratch n1 4
  let p3 ← scratch n1 4
  if p1 = .null ∨ p2 = .null ∨ p3 = .null then return .allocFailed
  let dims ← rdAll d1 n1.toNat
  let nv ← sizeToDim (n1 - 1) d1
  let op ← tData t
  let dt ← tDtype t
  match ← forI32E nv (dims.map fun _ => (0 : Int)) fun i idx =>
      dotStep (vecsOf h1 dims (n1 - 1).toNat) (fun v => dotCell v h2 op dt.size (i32 ((i : Int) * dt.size))) idx with
  | .inr st => return st
  | .inl _ => do
    rawFree p1
    rawFree p2
    rawFree p3
    return .success

/-- `aitisa_create(dtype, device, out_dims, out_ndim, NULL, 0, &new_tensor)` and the release of `out_dims`,
`/repo/src/math/dot.c` 103-120 (185-209). -/
def dotCreate (h1 : Ptr) (o : List Int) (out : Ptr) : M (Status × Ptr) := do
  let po ← scratch o.length 8
  if po = .null then return (.allocFailed, out)
  let dt ← tDtype h1
  let dev ← tDevice h1
  let (st, t) ← create dt dev (Arr.of o) o.length .null 0 .indet
  if st ≠ .success then return (st, out)
  rawFree po
  return (.success, t)

/-- `tensor_vector_dot`, `/repo/src/math/dot.c` 92-171. -/
def tvDot (h1 h2 out : Ptr) : M (Status × Ptr) := do
  let n1 ← tNdim h1
  let d1 ← tDimsArr h1
  let d2 ← tDimsArr h2
  let k1 ← d1.rd (n1 - 1)
  let k2 ← d2.rd 0
  if k1 ≠ k2 then return (.invalidArgument, out)
  let o ← rdAll d1 (n1 - 1).toNat
  let (st, t) ← dotCreate h1 o out
  if st ≠ .success then return (st, t)
  let st ← tvFill h1 h2 t n1 d1
  return (st, t)

/-- `size_of_dims(tensor2_dims, ndim_tensor2) / tensor2_dims[ndim_tensor2 - 2]`. -/
def mdCount (d2 : Arr) (n2 : Int) : M Int := do
  let s ← sizeOfDims d2 n2
  let k ← d2.rd (n2 - 2)
  if k = 0 then ubM .divZero else return s.tdiv k

/-- `(vec1_idx * nvec_tensor2 + vec2_idx) * data_size`. -/
def mdOff (i1 nv2 i2 : Int) (sz : Nat) : M Int := do
  let a ← i64 (i1 * nv2)
  let b ← i64 (a + i2)
  i64 (b * sz)

/-- One vector of the first operand, `/repo/src/math/dot.c` 252-288. -/
def mdRow (v1 v2 : Vecs) (op : Ptr) (sz : Nat) (nv2 : Int) (i1 : Nat) (s : List Int × List Int) :
    M ((List Int × List Int) ⊕ Status) := do
  let (st, x) ← v1.get s.1
  if st ≠ .success then return .inr st
  match ← forI32E nv2 s.2 fun i2 idx => dotStep v2 (fun y => dotCell x y op sz (mdOff i1 nv2 i2 sz)) idx with
  | .inr st => return .inr st
  | .inl idx2 => do
    let _ ← destroy x
    return .inl ((odoGe v1.marked s.1).1, idx2)

/-- The release of the six arrays, `/repo/src/math/dot.c` 290-295. -/
def free6 (p1 p2 p3 p4 p5 p6 : Ptr) : M Unit := do
  rawFree p1
  rawFree p3
  rawFree p5
  rawFree p2
  rawFree p4
  rawFree p6

/-- Second half of `multidim_dot`, `/repo/src/math/dot.c` 210-296. -/
def mdFill (h1 h2 t : Ptr) (n1 n2 : Int) (d1 d2 : Arr) : M Status := do
  let p1 ← scratch n1 4
  let p2 ← scratch n2 4
  let p3 ← scratch n1 4
  let p4 ← scratch n2 4
  let p5 ← scratch n1 4
  let p6 ← scratch n2 4
  if p1 = .null ∨ p2 = .null ∨ p3 = .null ∨ p4 = .null ∨ p5 = .null ∨ p6 = .null then return .allocFailed
  let dims1 ← rdAll d1 n1.toNat
  let dims2 ← rdAll d2 n2.toNat
  let nv1 ← sizeToDim (n1 - 1) d1
  let nv2 ← mdCount d2 n2
  let op ← tData t
  let dt ← tDtype t
  match ← forI32E nv1 (dims1.map fun _ => (0 : Int), dims2.map fun _ => (0 : Int))
      (mdRow (vecsOf h1 dims1 (n1 - 1).toNat) (vecsOf h2 dims2 (n2 - 2).toNat) op dt.size nv2) with
  | .inr st => return st
  | .inl _ => do
    free6 p1 p2 p3 p4 p5 p6
    return .success

/-- `multidim_dot`, `/repo/src/math/dot.c` 173-297. -/
def mdDot (h1 h2 out : Ptr) : M (Status × Ptr) := do
  let n1 ← tNdim h1
  let n2 ← tNdim h2
  let d1 ← tDimsArr h1
  let d2 ← tDimsArr h2
  let k1 ← d1.rd (n1 - 1)
  let k2 ← d2.rd (n2 - 2)
  if k1 ≠ k2 then return (.invalidArgument, out)
  let o1 ← rdAll d1 (n1 - 1).toNat
  let o2 ← rdAll d2 (n2 - 2).toNat
  let l ← d2.rd (n2 - 1)
  let (st, t) ← dotCreate h1 (o1 ++ o2 ++ [l]) out
  if st ≠ .success then return (st, t)
  let st ← mdFill h1 h2 t n1 n2 d1 d2
  return (st, t)

/-- `aitisa_dot`, `/repo/src/math/dot.c` 299-333: the status and the new value of `*output`. -/
def dot (h1 h2 out : Ptr) : M (Status × Ptr) := do
  let dev1 ← tDevice h1
  let dev2 ← tDevice h2
  if dev1.type ≠ DEVICE_CPU ∨ dev2.type ≠ DEVICE_CPU then return (.notSupported, out)
  let dt1 ← tDtype h1
  let dt2 ← tDtype h2
  if dt1.code ≠ dt2.code then return (.notSupported, out)
  let n1 ← tNdim h1
  let n2 ← tNdim h2
  if n1 = 1 ∧ n2 = 1 then vecDot h1 h2 out
  else if n1 = 2 ∧ n2 = 2 then matmul h1 h2 out
  else if n1 = 0 ∨ n2 = 0 then scalarMul h1 h2 out
  else if n2 = 1 then tvDot h1 h2 out
  else if n1 > 2 ∧ n2 > 2 then mdDot h1 h2 out
  else return (.invalidArgument, out)

end Aitisa
