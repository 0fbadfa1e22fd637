import Verif.Model.Basic

/-!
# Activation functions, dropout, softmax, square root

`/repo/src/nn/{relu,sigmoid,tanh,dropout,softmax}.c`, `/repo/src/math/sqrt.c`.
-/

namespace Aitisa

/-- Does `x > 0` hold?  The literal `0` is converted to the type of `x`. -/
def isPos (fp : FloatOps) : Val → Bool
  | .int n => decide (n > 0)
  | .f32 b => fp.lt32 (fp.ofInt32 0) b
  | .f64 b => fp.lt64 (fp.ofInt64 0) b

/-- Does `x < 0` hold? -/
def isNeg (fp : FloatOps) : Val → Bool
  | .int n => decide (n < 0)
  | .f32 b => fp.lt32 b (fp.ofInt32 0)
  | .f64 b => fp.lt64 b (fp.ofInt64 0)

/-- The literal `0` stored as an element of type `c`. -/
def zeroOf (fp : FloatOps) : Code → Val
  | .f32 => .f32 (fp.ofInt32 0)
  | .f64 => .f64 (fp.ofInt64 0)
  | _ => .int 0

/-- Loop body of `relu_kernel`, `/repo/src/nn/relu.c` 8-12. -/
def reluF (fp : FloatOps) (c : Code) (v : Val) : Except UB Val :=
  .ok (if isPos fp v then v else zeroOf fp c)

/-- `exp(x)` after the implicit conversion to `double`. -/
def expOf (fp : FloatOps) (v : Val) : BitVec 64 := fp.exp64 (toDouble fp v)

/-- `exp(-x)` for a floating element: the negation is done in the element type. -/
def expNeg (fp : FloatOps) : Val → BitVec 64
  | .f32 b => fp.exp64 (fp.widen (fp.neg32 b))
  | .f64 b => fp.exp64 (fp.neg64 b)
  | .int n => fp.exp64 (fp.ofInt64 (-n))

/-- Loop body of `sigmoid_kernel`, `/repo/src/nn/sigmoid.c` 9: `(T)(1 / (1 + exp(-x)))`. -/
def sigmoidF (fp : FloatOps) (c : Code) (v : Val) : Except UB Val :=
  cCast fp c (.f64 (fp.div64 (fp.ofInt64 1) (fp.add64 (fp.ofInt64 1) (expNeg fp v))))

/-- Loop body of `tanh_kernel`, `/repo/src/nn/tanh.c` 9-10:
`(T)((exp(x) - exp(-x)) / (exp(x) + exp(-x)))`. -/
def tanhF (fp : FloatOps) (c : Code) (v : Val) : Except UB Val :=
  cCast fp c (.f64 (fp.div64 (fp.sub64 (expOf fp v) (expNeg fp v))
    (fp.add64 (expOf fp v) (expNeg fp v))))

/-- `AITISA_DISPATCH_FLOATING_TYPES_RETURN`, `/repo/src/core/dispatch.h` 57-63: the case labels. -/
def Code.findFloat (n : Nat) : Option Code :=
  match Code.find n with
  | some .f32 => some .f32
  | some .f64 => some .f64
  | _ => none

/-- Creation of an output with the shape, type and device of the input (`relu.c` 17-25, `sigmoid.c`
14-22, `tanh.c` 15-23, `sqrt.c` 5-18). -/
def createLike (h out : Ptr) : M (Status × Ptr) := do
  let dims ← tDimsArr h
  let ndim ← tNdim h
  let dt ← tDtype h
  let dev ← tDevice h
  create dt dev dims ndim .null 0 out

/-- `aitisa_relu`, `/repo/src/nn/relu.c` 15-31.  `*output` is assigned before the type dispatch. -/
def relu (h out : Ptr) : M (Status × Ptr) := do
  let (st, t) ← createLike h out
  if st ≠ .success then return (st, out)
  let dt ← tDtype h
  let size ← tSize h
  match Code.find dt.code with
  | none => return (.notSupported, t)
  | some c => do
    let ip ← tData h
    let op ← tData t
    let fp ← getFp
    mapLoop c c ip op size (reluF fp c)
    return (.success, t)

/-- `aitisa_sigmoid`, `/repo/src/nn/sigmoid.c` 12-28. -/
def sigmoid (h out : Ptr) : M (Status × Ptr) := do
  let (st, t) ← createLike h out
  if st ≠ .success then return (st, out)
  let dt ← tDtype h
  let size ← tSize h
  match Code.findFloat dt.code with
  | none => return (.notSupported, t)
  | some c => do
    let ip ← tData h
    let op ← tData t
    let fp ← getFp
    mapLoop c c ip op size (sigmoidF fp c)
    return (.success, t)

/-- `aitisa_tanh`, `/repo/src/nn/tanh.c` 13-29. -/
def tanh (h out : Ptr) : M (Status × Ptr) := do
  let (st, t) ← createLike h out
  if st ≠ .success then return (st, out)
  let dt ← tDtype h
  let size ← tSize h
  match Code.findFloat dt.code with
  | none => return (.notSupported, t)
  | some c => do
    let ip ← tData h
    let op ← tData t
    let fp ← getFp
    mapLoop c c ip op size (tanhF fp c)
    return (.success, t)

/-- `sqrt_kernel`, `/repo/src/math/sqrt.c` 20-26: returns from the function on a negative element. -/
def sqrtKernel (c : Code) (ip op : Ptr) (size : Int) : M Status := do
  let fp ← getFp
  match ← loopE (ρ := Status) (fun i (_ : Unit) => do
      let v ← loadElem c ip i
      if isNeg fp v then return .inr .mathError
      let w ← liftU (cCast fp c (.f64 (fp.sqrt64 (toDouble fp v))))
      storeElem c op i w
      return .inl ()) size.toNat 0 () with
  | .inl _ => return .success
  | .inr st => return st

/-- `aitisa_sqrt` (with `sqrt_create_output` and `sqrt_template`), `/repo/src/math/sqrt.c` 5-18, 28-42. -/
def sqrt (h out : Ptr) : M (Status × Ptr) := do
  let (st, t) ← createLike h out
  if st ≠ .success then return (st, out)
  let dt ← tDtype h
  let size ← tSize h
  match Code.find dt.code with
  | none => return (.notSupported, t)
  | some c => do
    let ip ← tData h
    let op ← tData t
    let st ← sqrtKernel c ip op size
    return (st, t)

/-! ### `dropout.c` -/

/-- `dropout_kernel`, `/repo/src/nn/dropout.c` 6-13. -/
def dropoutKernel (c : Code) (p : Ptr) (size rateLine : Int) : M Unit :=
  forI size () fun i _ => do
    let r ← cRand
    let fp ← getFp
    if ((r % 100 + 1 : Nat) : Int) ≤ rateLine then storeElem c p i (zeroOf fp c) else pure ()

/-- `dropout_template`, `/repo/src/nn/dropout.c` 15-24.  `srand(time(NULL))` selects the sequence of
random numbers, which is arbitrary in the model. -/
def dropoutTemplate (t : Ptr) (rate : BitVec 64) : M Status := do
  let size ← tSize t
  let dt ← tDtype t
  let fp ← getFp
  let line ← liftU (cCast fp .i32 (.f64 (fp.mul64 rate (fp.ofInt64 100))))
  match Code.find dt.code with
  | none => return .notSupported
  | some c => do
    let p ← tData t
    match line with
    | .int n =>
      dropoutKernel c p size n
      return .success
    | _ => ubM .typeConfusion

/-- `aitisa_dropout`, `/repo/src/nn/dropout.c` 26-38. -/
def dropout (h : Ptr) (rate : BitVec 64) (out : Ptr) : M (Status × Ptr) := do
  let fp ← getFp
  if fp.lt64 rate (fp.ofInt64 0) ∨ fp.lt64 (fp.ofInt64 1) rate then return (.invalidArgument, out)
  let (st, t) ← duplicate h .indet
  if st ≠ .success then return (st, out)
  let st ← dropoutTemplate t rate
  if st ≠ .success then return (st, out)
  return (.success, t)

/-! ### `softmax.c` -/

/-- `out[k] = (T)exp(in[k]); total += out[k];`, `/repo/src/nn/softmax.c` 27-28, 62-64. -/
def softmaxExp (c : Code) (ip op : Ptr) (k : Int) (total : BitVec 64) : M (BitVec 64) := do
  let fp ← getFp
  let v ← loadElem c ip k
  let w ← liftU (cCast fp c (.f64 (expOf fp v)))
  storeElem c op k w
  return fp.add64 total (toDouble fp w)

/-- `out[k] = (T)(out[k] / total);`, `/repo/src/nn/softmax.c` 32, 70-71. -/
def softmaxDiv (c : Code) (op : Ptr) (k : Int) (total : BitVec 64) : M Unit := do
  let fp ← getFp
  let v ← loadElem c op k
  let w ← liftU (cCast fp c (.f64 (fp.div64 (toDouble fp v) total)))
  storeElem c op k w

/-- The softmax of the `n` elements at `start, start + stride, ...`: `softmax_with_all_kernel`
(`/repo/src/nn/softmax.c` 20-33, `start = 0`, `stride = 1`) and the body of
`softmax_along_axis_kernel` (`/repo/src/nn/softmax.c` 56-74). -/
def softmaxRow (c : Code) (ip op : Ptr) (start stride n : Int) : M Unit := do
  let fp ← getFp
  let r ← forI n (start, fp.ofInt64 0) fun _ s => do
    let total ← softmaxExp c ip op s.1 s.2
    return (← i64 (s.1 + stride), total)
  let _ ← forI n start fun _ k => do
    softmaxDiv c op k r.2
    i64 (k + stride)

/-- Update of `index_recorder` in `/repo/src/nn/softmax.c` 76-84: as an odometer from the last
dimension, skipping the softmax axis (flag). -/
def odoSkip : List (Int × Bool) → List Int → List Int × Bool
  | a :: as, i :: is =>
    let (is', carry) := odoSkip as is
    if carry then
      if a.2 then (i :: is', true)
      else if i + 1 = a.1 then (0 :: is', true) else ((i + 1) :: is', false)
    else (i :: is', false)
  | _, _ => ([], true)

/-- Product of all lengths except the one of the softmax axis, `/repo/src/nn/softmax.c` 94-100. -/
def batchSize (ds : List (Int × Bool)) : M Int :=
  ds.foldlM (fun b d => if d.2 then pure b else i64 (b * d.1)) 1

/-- `softmax_along_axis` with its kernel, `/repo/src/nn/softmax.c` 42-128. -/
def softmaxAxis (h : Ptr) (axis : Int) (t : Ptr) : M Status := do
  let dims ← tDimsArr h
  let ndim ← tNdim h
  let ds ← rdAll dims ndim.toNat
  let marked := ds.zipIdx.map fun p => (p.1, decide ((p.2 : Int) = axis))
  let batch ← batchSize marked
  let p1 ← scratch ndim 8
  let p2 ← scratch ndim 8
  if p1 = .null ∨ p2 = .null then return .allocFailed
  let off ← offsets ds
  let stride ← (Arr.of off).rd axis
  let dt ← tDtype h
  match Code.find dt.code with
  | none => return .notSupported
  | some c => do
    let ip ← tData h
    let op ← tData t
    let n ← dims.rd axis
    let _ ← forI batch (ds.map fun _ => (0 : Int)) fun _ idx => do
      let k ← linIdx idx off
      softmaxRow c ip op k stride n
      return (odoSkip marked idx).1
    rawFree p1
    rawFree p2
    return .success

/-- `softmax_with_all`, `/repo/src/nn/softmax.c` 20-40. -/
def softmaxAll (h t : Ptr) : M Status := do
  let dt ← tDtype h
  match Code.find dt.code with
  | none => return .notSupported
  | some c => do
    let ip ← tData h
    let op ← tData t
    let size ← tSize h
    softmaxRow c ip op 0 1 size
    return .success

/-- `aitisa_softmax` (with `softmax_create_output`), `/repo/src/nn/softmax.c` 7-18, 130-151.  `*output` is
assigned even when the creation fails (then it is indeterminate). -/
def softmax (h : Ptr) (axis : Int) (out : Ptr) : M (Status × Ptr) := do
  let ndim ← tNdim h
  if axis < -1 ∨ axis > ndim - 1 then return (.notSupported, out)
  let (st, t) ← createLike h .indet
  if st ≠ .success then return (st, t)
  let st ← if axis = -1 then softmaxAll h t else softmaxAxis h axis t
  return (st, t)

end Aitisa
