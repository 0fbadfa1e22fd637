import Verif.Model.Basic

/-!
# Matrix multiplication

`/repo/src/math/matmul.c`.  The scratch arrays `dims_out`, `strides_t1`, `strides_t2`, `As`, `Bs`, `Cs` are allocated
and freed as blocks, their contents are kept in local lists; a write goes through `touch`.  A pointer into a data array
is the array and an element offset.
-/

namespace Aitisa

/-- `z += x * y` for objects of element type `c`: operands are promoted, product and sum are evaluated in the promoted
type, the result is converted back.  How floating-point product and sum are
evaluated together is up to the machine (`mac32`, `mac64`): C allows the compiler to round once or twice. -/
def cMac (fp : FloatOps) (c : Code) : Val → Val → Val → Except UB Val
  | .int z, .int x, .int y =>
    match evalInt c.promote .mul x y with
    | .error u => .error u
    | .ok p => (evalInt c.promote .add z p).map fun r => .int (c.wrap r)
  | .f32 z, .f32 x, .f32 y => .ok (.f32 (fp.mac32 z x y))
  | .f64 z, .f64 x, .f64 y => .ok (.f64 (fp.mac64 z x y))
  | _, _, _ => .error .typeConfusion

/-- `C[ic] += A[ia] * B[ib]`, the statement inside the kernels of `/repo/src/math/matmul.c` 26-48. -/
def macStep (c : Code) (ap bp cp : Ptr) (ia ib ic : Int) : M Unit := do
  let z ← loadElem c cp ic
  let x ← loadElem c ap ia
  let y ← loadElem c bp ib
  let fp ← getFp
  let w ← liftU (cMac fp c z x y)
  storeElem c cp ic w

/-- The index expression `i * n + j` (`int64_t`). -/
def idx2 (i n j : Int) : M Int := do
  let a ← i64 (i * n)
  i64 (a + j)

/-- `VV_KERNEL`, `/repo/src/math/matmul.c` 26-29. -/
def vvKernel (c : Code) (X Y Z : Ptr) (L : Int) : M Unit :=
  forI32 L () fun i _ => macStep c X Y Z i i 0

/-- `MV_KERNEL`, `/repo/src/math/matmul.c` 32-37. -/
def mvKernel (c : Code) (A X B : Ptr) (nM nN : Int) : M Unit :=
  forI32 nM () fun i _ =>
    forI32 nN () fun j _ => do
      let ia ← idx2 i nN j
      macStep c A X B ia j i

/-- Body of the innermost loop of `MM_KERNEL`. -/
def mmBody (c : Code) (A B C : Ptr) (oa ob oc : Int) (nK nN : Int) (i j q : Int) : M Unit := do
  let ic ← idx2 i nN j
  let ia ← idx2 i nK q
  let ib ← idx2 q nN j
  macStep c A B C (oa + ia) (ob + ib) (oc + ic)

/-- `MM_KERNEL`, `/repo/src/math/matmul.c` 40-48, with element offsets `oa`, `ob`, `oc` of the three matrices. -/
def mmKernel (c : Code) (A B C : Ptr) (oa ob oc : Int) (nM nK nN : Int) : M Unit :=
  forI32 nM () fun i _ =>
    forI32 nN () fun j _ =>
      forI32 nK () fun q _ => mmBody c A B C oa ob oc nK nN i j q

/-- The `*_template` functions, `/repo/src/math/matmul.c` 60-86: `AITISA_DISPATCH_ALL_TYPES_RETURN`
(`/repo/src/core/dispatch.h`). -/
def withCode (dt : DType) (k : Code → M Unit) : M Status :=
  match Code.find dt.code with
  | none => pure .notSupported
  | some c => do
    k c
    return .success

/-- `aitisa_full(dtype of tensor1, device of tensor1, dims_out, ndim_out, 0.0, output)`. -/
def matFull (h1 : Ptr) (dims : Arr) (ndim : Int) (out : Ptr) : M (Status × Ptr) := do
  let dt ← tDtype h1
  let dev ← tDevice h1
  let fp ← getFp
  full dt dev dims ndim (fp.ofInt64 0) out

/-- Creation of the output and a kernel call without batches, `/repo/src/math/matmul.c` 104-116 (127-138, 150-160,
171-181). -/
def matPlain (h1 h2 : Ptr) (dims : Arr) (ndim : Int) (out : Ptr) (k : Code → Ptr → Ptr → Ptr → M Unit) :
    M (Status × Ptr) := do
  let (st, t) ← matFull h1 dims ndim out
  if st ≠ .success then return (st, t)
  let dt ← tDtype h1
  let ap ← tData h1
  let bp ← tData h2
  let cp ← tData t
  let st ← withCode dt fun c => k c ap bp cp
  return (st, t)

/-- Vector-vector, `/repo/src/math/matmul.c` 97-116. -/
def matVV (h1 h2 out : Ptr) : M (Status × Ptr) := do
  let n1 ← tDim h1 0
  let n2 ← tDim h2 0
  if n1 ≠ n2 then return (.dimensionsMismatch, out)
  matPlain h1 h2 [some 1] 1 out fun c ap bp cp => vvKernel c ap bp cp n1

/-- Matrix-vector, `/repo/src/math/matmul.c` 117-138. -/
def matMV (h1 h2 out : Ptr) : M (Status × Ptr) := do
  let m1 ← tDim h1 0
  let n1 ← tDim h1 1
  let m2 ← tDim h2 0
  if n1 ≠ m2 then return (.dimensionsMismatch, out)
  matPlain h1 h2 [some m1] 1 out fun c ap bp cp => mvKernel c ap bp cp m1 n1

/-- Matrix-matrix, `/repo/src/math/matmul.c` 139-160. -/
def matMM (h1 h2 out : Ptr) : M (Status × Ptr) := do
  let m1 ← tDim h1 0
  let n1 ← tDim h1 1
  let m2 ← tDim h2 0
  let n2 ← tDim h2 1
  if n1 ≠ m2 then return (.dimensionsMismatch, out)
  matPlain h1 h2 [some m1, some n2] 2 out fun c ap bp cp => mmKernel c ap bp cp 0 0 0 m1 n1 n2

/-- Vector-matrix, `/repo/src/math/matmul.c` 162-183. -/
def matVM (h1 h2 out : Ptr) : M (Status × Ptr) := do
  let n1 ← tDim h1 0
  let m2 ← tDim h2 0
  let n2 ← tDim h2 1
  if n1 ≠ m2 then return (.dimensionsMismatch, out)
  matPlain h1 h2 [some n2] 1 out fun c ap bp cp => mmKernel c ap bp cp 0 0 0 1 n1 n2

/-- `size_to_dim`, `/repo/src/core/utils.h` 31-37. -/
def sizeToDim (k : Int) (dims : Arr) : M Int :=
  forI32 k 1 fun i r => do
    let d ← dims.rd i
    i64 (r * d)

/-- The pointer arithmetic `data + x * s * size_type`, as an element offset. -/
def elemOff (x s : Int) (sz : Nat) : M Int := do
  let a ← i64 (x * s)
  let _ ← i64 (a * sz)
  return a

/-- The writes to `As[i]`, `Bs[i]`, `Cs[i]`. -/
def touch3 (pA pB pC : Ptr) (i : Int) : M Unit := do
  touch pA (8 * i) (8 * i + 8)
  touch pB (8 * i) (8 * i + 8)
  touch pC (8 * i) (8 * i + 8)

/-- The loop that fills `As`, `Bs`, `Cs`, `/repo/src/math/matmul.c` 218-222 (267-271, 319-338): the element offsets of the
three matrices of each batch.  `offs i` are the batch numbers of the operands for output batch `i`. -/
def batchPtrs (pA pB pC : Ptr) (s1 s2 s3 : Int) (sz : Nat) (nb : Int) (offs : Nat → M (Int × Int)) :
    M (List (Int × Int × Int)) :=
  forI nb [] fun i l => do
    touch3 pA pB pC i
    let x ← offs i
    let a ← elemOff x.1 s1 sz
    let b ← elemOff x.2 s2 sz
    let c ← elemOff i s3 sz
    return l ++ [(a, b, c)]

/-- `BATCH_MM_KERNEL`, `/repo/src/math/matmul.c` 51-57. -/
def batchKernel (c : Code) (A B C : Ptr) (l : List (Int × Int × Int)) (nM nK nN nb : Int) : M Unit :=
  forI nb () fun b _ =>
    match l[b]? with
    | some x => mmKernel c A B C x.1 x.2.1 x.2.2 nM nK nN
    | none => ubM .outOfBounds

/-- Pointers of the batches, kernel call and release, `/repo/src/math/matmul.c` 204-230 (253-279, 302-346).  `s1`, `s2`,
`s3` are the sizes of the three matrices. -/
def batchRun (h1 h2 t : Ptr) (s1 s2 s3 nM nK nN nb : Int) (offs : Nat → M (Int × Int)) : M Status := do
  let pA ← scratch nb 8
  let pB ← scratch nb 8
  let pC ← scratch nb 8
  let dt ← tDtype h1
  let ap ← tData h1
  let bp ← tData h2
  let cp ← tData t
  let l ← batchPtrs pA pB pC s1 s2 s3 dt.size nb offs
  let st ← withCode dt fun c => batchKernel c ap bp cp l nM nK nN nb
  if st ≠ .success then return st
  rawFree pC
  rawFree pB
  rawFree pA
  return .success

/-- Tensor-vector, `/repo/src/math/matmul.c` 184-231. -/
def matTV (h1 h2 out : Ptr) (n1 : Int) : M (Status × Ptr) := do
  let nM ← tDim h1 (n1 - 2)
  let nK ← tDim h1 (n1 - 1)
  let k2 ← tDim h2 0
  if nK ≠ k2 then return (.dimensionsMismatch, out)
  let po ← scratch (n1 - 1) 8
  touch po 0 (8 * (n1 - 1))
  let d1 ← tDimsArr h1
  let o ← rdAll d1 (n1 - 1).toNat
  let (st, t) ← matFull h1 (Arr.of o) (n1 - 1) out
  if st ≠ .success then return (st, t)
  let nb ← sizeToDim (n1 - 2) d1
  let s1 ← i64 (nM * nK)
  let s3 ← i64 (nM * 1)
  let st ← batchRun h1 h2 t s1 0 s3 nM nK 1 nb fun i => pure ((i : Int), 0)
  if st ≠ .success then return (st, t)
  rawFree po
  return (.success, t)

/-- Vector-tensor, `/repo/src/math/matmul.c` 232-280. -/
def matVT (h1 h2 out : Ptr) (n2 : Int) : M (Status × Ptr) := do
  let nK ← tDim h1 0
  let k2 ← tDim h2 (n2 - 2)
  let nN ← tDim h2 (n2 - 1)
  if nK ≠ k2 then return (.dimensionsMismatch, out)
  let po ← scratch (n2 - 1) 8
  touch po 0 (8 * (n2 - 1))
  let d2 ← tDimsArr h2
  let o ← rdAll d2 (n2 - 2).toNat
  let (st, t) ← matFull h1 (Arr.of (o ++ [nN])) (n2 - 1) out
  if st ≠ .success then return (st, t)
  let nb ← sizeToDim (n2 - 2) d2
  let s2 ← i64 (k2 * nN)
  let s3 ← i64 (1 * nN)
  let st ← batchRun h1 h2 t 0 s2 s3 1 nK nN nb fun i => pure (0, (i : Int))
  if st ≠ .success then return (st, t)
  rawFree po
  return (.success, t)

/-- `dims[ndim - 1 - i]` where there is such a dim, and 1 otherwise. -/
def batchDim (dims : Arr) (ndim : Int) (i : Int) : M Int :=
  if ndim - 1 - i ≥ 0 then dims.rd (ndim - 1 - i) else pure 1

/-- Body of the loop in `batch_strides`: the array and the running stride. -/
def bstrideStep (dims : Arr) (ndim nstride : Int) (i : Nat) (s : Arr × Int) : M (Arr × Int) := do
  let d ← batchDim dims ndim i
  if d ≠ 1 then
    let a ← s.1.wr (nstride - 1 - i) s.2
    let t ← i64 (s.2 * d)
    return (a, t)
  else
    let a ← s.1.wr (nstride - 1 - i) 0
    return (a, s.2)

/-- `batch_strides`, `/repo/src/math/matmul.c` 11-23: the array `strides`. -/
def batchStrides (dims : Arr) (ndim nstride : Int) : M Arr := do
  let r ← forI nstride (cells nstride 8, (1 : Int)) (bstrideStep dims ndim nstride)
  return r.1

/-- One step of the conversion of a linear batch index to the offsets, `/repo/src/math/matmul.c` 323-333.  The state is
`idx`, `offset_t1`, `offset_t2`. -/
def offsStep (bd st1 st2 : Arr) (nd : Int) (j : Nat) (s : Int × Int × Int) : M ((Int × Int × Int) ⊕ (Int × Int)) := do
  let dim ← bd.rd (nd - 1 - j)
  let rem ← cMod s.1 dim
  let x1 ← st1.rd (nd - 1 - j)
  let p1 ← i64 (rem * x1)
  let o1 ← i64 (s.2.1 + p1)
  let x2 ← st2.rd (nd - 1 - j)
  let p2 ← i64 (rem * x2)
  let o2 ← i64 (s.2.2 + p2)
  let idx := s.1.tdiv dim
  if idx = 0 then return .inr (o1, o2) else return .inl (idx, o1, o2)
where
  /-- `a % b`. -/
  cMod (a b : Int) : M Int := if b = 0 then ubM .divZero else pure (a.tmod b)

/-- The offsets of one batch, `/repo/src/math/matmul.c` 320-334.  (`ndim_batch` fits in an `int` for every tensor this
model describes; a larger one would overflow the counter `j`.) -/
def batchOffs (bd st1 st2 : Arr) (nd : Int) (i : Nat) : M (Int × Int) := do
  if nd > I32_MAX then ubM .overflow else
  match ← loopE (offsStep bd st1 st2 nd) nd.toNat 0 ((i : Int), 0, 0) with
  | .inl s => return s.2
  | .inr r => return r

/-- Strides, batches and kernel of the tensor-tensor case, `/repo/src/math/matmul.c` 300-350.  `bd` are the first
`ndim_out - 2` cells of `dims_out`. -/
def matTTFill (h1 h2 t : Ptr) (d1 d2 bd : Arr) (n1 n2 nd nM nK k2 nN : Int) : M Status := do
  let ps1 ← scratch nd 8
  let ps2 ← scratch nd 8
  touch ps1 0 (8 * nd)
  let st1 ← batchStrides d1 (n1 - 2) nd
  touch ps2 0 (8 * nd)
  let st2 ← batchStrides d2 (n2 - 2) nd
  let nb ← sizeToDim nd bd
  let s1 ← i64 (nM * nK)
  let s2 ← i64 (k2 * nN)
  let s3 ← i64 (nM * nN)
  let st ← batchRun h1 h2 t s1 s2 s3 nM nK nN nb (batchOffs bd st1 st2 nd)
  if st ≠ .success then return st
  rawFree ps2
  rawFree ps1
  return .success

/-- Tensor-tensor, `/repo/src/math/matmul.c` 281-351.  `dims_out` is a local list: the broadcast batch dims, then the two
matrix dims.  A failed allocation of `dims_out` is reported at once, where the code runs until its first write to it. -/
def matTT (h1 h2 out : Ptr) (n1 n2 : Int) : M (Status × Ptr) := do
  let nM ← tDim h1 (n1 - 2)
  let nK ← tDim h1 (n1 - 1)
  let k2 ← tDim h2 (n2 - 2)
  let nN ← tDim h2 (n2 - 1)
  if nK ≠ k2 then return (.dimensionsMismatch, out)
  let po ← scratch (max n1 n2) 8
  touch po 0 (8 * max n1 n2)
  let d1 ← tDimsArr h1
  let d2 ← tDimsArr h2
  let (st, bd) ← broadcastArray d1 (max (n1 - 2) 0) d2 (max (n2 - 2) 0) (cells (max n1 n2 - 2) 8) (max n1 n2 - 2)
  if st ≠ .success then return (st, out)
  let (st, t) ← matFull h1 (bd ++ [some nM, some nN]) (max n1 n2) out
  if st ≠ .success then return (st, t)
  let st ← matTTFill h1 h2 t d1 d2 bd n1 n2 (max n1 n2 - 2) nM nK k2 nN
  if st ≠ .success then return (st, t)
  rawFree po
  return (.success, t)

/-- `aitisa_matmul`, `/repo/src/math/matmul.c` 89-354: the status and the new value of `*output`. -/
def matmul (h1 h2 out : Ptr) : M (Status × Ptr) := do
  let dev1 ← tDevice h1
  let dev2 ← tDevice h2
  if dev1.type ≠ DEVICE_CPU ∨ dev2.type ≠ DEVICE_CPU then return (.notSupported, out)
  let n1 ← tNdim h1
  let n2 ← tNdim h2
  if n1 = 1 ∧ n2 = 1 then matVV h1 h2 out
  else if n1 = 2 ∧ n2 = 1 then matMV h1 h2 out
  else if n1 = 2 ∧ n2 = 2 then matMM h1 h2 out
  else if n1 = 1 ∧ n2 = 2 then matVM h1 h2 out
  else if n1 ≥ 3 ∧ n2 = 1 then matTV h1 h2 out n1
  else if n1 = 1 ∧ n2 ≥ 3 then matVT h1 h2 out n2
  else if (n1 ≥ 3 ∧ n2 ≥ 2) ∨ (n1 ≥ 2 ∧ n2 ≥ 3) then matTT h1 h2 out n1 n2
  else return (.invalidArgument, out)

end Aitisa
