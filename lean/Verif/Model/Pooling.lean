import Verif.Model.Basic
import Verif.Model.Double

/-!
# Pooling

`/repo/src/nn/pooling.c`.  The scratch arrays (`out_dims`, `index`, `strides`, `out_strides`, `k_head`, `k_tail`) are
allocated and freed as blocks, their contents are kept in local lists.  `axis` is always 1 and `c_start` always 2
(`aitisa_pooling`, line 179), so only this case is written down.
-/

namespace Aitisa

/-- `int has = 1; while (has) { ... }`: the body gives the new state and the flag, or returns from the function.
The fuel bounds the number of iterations; running out of it is the outcome `fuel`. -/
def whileE {σ ρ : Type} (f : σ → M ((σ × Bool) ⊕ ρ)) : Nat → σ → M (σ ⊕ ρ)
  | 0, _ => fun _ _ => .fuel
  | n + 1, s => do
    match ← f s with
    | .inr r => return .inr r
    | .inl (s', more) => if more then whileE f n s' else return .inl s'

/-- The parameters of one pooled axis: `in_dims[i]`, `ksize`, `stride`, `padding`, `dilation`. -/
structure PAxis where
  x : Int
  k : Int
  s : Int
  p : Int
  d : Int

/-- `(ksize[i] - 1) * dilation[i]`, computed in `int`. -/
def poolSpan (k d : Int) : M Int := do
  let a ← i32 (k - 1)
  i32 (a * d)

/-- The test that the window fits, `/repo/src/nn/pooling.c` 65-69. -/
def poolCheck (ksize padding dilation dims : Arr) (n : Nat) : M (Unit ⊕ Unit) :=
  loopE (fun (i : Nat) (_ : Unit) => do
    let k ← ksize.rd i
    let d ← dilation.rd i
    let sp ← poolSpan k d
    let e ← i32 (sp + 1)
    let p ← padding.rd i
    let pp ← i32 (2 * p)
    let x ← dims.rd ((i : Int) + 2)
    let r ← i64 (pp + x)
    if e > r then return .inr () else return .inl ()) n 0 ()

/-- One output dim, `/repo/src/nn/pooling.c` 35-37: `floor((temp - 1) / stride + 1)` in `double`.  `temp - 1` is an integer and
exact (lengths below `2^53`); it is not negative once the window fits.  For a negative stride the addition does not round
across an integer.  A zero stride gives an infinity or a NaN, whose conversion is undefined. -/
def poolOut (a : PAxis) : M Int := do
  let k ← i32 (a.k - 1)
  let sp ← i32 (a.d * k)
  let t := a.x + 2 * a.p - sp - 1
  if a.s = 0 then ubM .badCast
  else if a.s > 0 then return (dFloor (dAddOne (dDiv t.toNat a.s.toNat)) : Int)
  else return 1 - (dCeil (dDiv t.toNat (-a.s).toNat) : Int)

/-- The pooled dims, `/repo/src/nn/pooling.c` 34-38. -/
def poolOuts : List PAxis → M (List Int)
  | [] => return []
  | a :: as => do
    let o ← poolOut a
    let os ← poolOuts as
    return o :: os

/-- `window_size`, `/repo/src/nn/pooling.c` 76-79. -/
def poolSize : List PAxis → Int → M Int
  | [], w => return w
  | a :: as, w => do
    let w' ← i64 (w * a.k)
    poolSize as w'

/-- The first window: `k_head[i]` and `k_tail[i]`, `/repo/src/nn/pooling.c` 98-101 (also 152-153). -/
def poolHead (a : PAxis) : M (Int × Int) := do
  let h ← i32 (0 - a.p)
  let sp ← poolSpan a.k a.d
  let t ← i64 (h + sp)
  return (h, t)

/-- All axes, `/repo/src/nn/pooling.c` 98-101. -/
def poolHeads : List PAxis → M (List (Int × Int))
  | [] => return []
  | a :: as => do
    let w ← poolHead a
    let ws ← poolHeads as
    return w :: ws

/-- The offset of the current element, none if it lies in the padding, `/repo/src/nn/pooling.c` 111-122. -/
def poolOffset : List PAxis → List Int → List Int → Int → M (Option Int)
  | a :: as, st :: sts, i :: is, o => do
    if 0 ≤ i ∧ i < a.x then
      let q ← i64 (i * st)
      let o' ← i64 (o + q)
      poolOffset as sts is o'
    else return none
  | _, _, _, o => return some o

/-- The next element of the window, `/repo/src/nn/pooling.c` 128-137, from the last axis; the flag: no element is left. -/
def poolNextElem : List PAxis → List (Int × Int) → List Int → M (List Int × Bool)
  | a :: as, w :: ws, i :: is => do
    let (is', carry) ← poolNextElem as ws is
    if carry then
      let i' ← i64 (i + a.d)
      if i' > w.2 then return (w.1 :: is', true) else return (i' :: is', false)
    else return (i :: is', false)
  | _, _, _ => return ([], true)

/-- The next window, `/repo/src/nn/pooling.c` 144-155, from the last axis; the flag: no window is left. -/
def poolNextWin : List PAxis → List (Int × Int) → M (List (Int × Int) × Bool)
  | a :: as, w :: ws => do
    let (ws', carry) ← poolNextWin as ws
    if carry then
      let h ← i64 (w.1 + a.s)
      let sp ← poolSpan a.k a.d
      let t ← i64 (h + sp)
      let b ← i64 (a.p + a.x)
      let b' ← i64 (b - 1)
      if t > b' then
        let w0 ← poolHead a
        return (w0 :: ws', true)
      else return ((h, t) :: ws', false)
    else return (w :: ws', false)
  | _, _ => return ([], true)

/-- `pooling_kernel`, `/repo/src/nn/pooling.c` 7-15: the new value of `temp`. -/
def poolAcc (mode : String) (c : Code) (ip : Ptr) (o : Int) (temp : BitVec 64) : M (BitVec 64) := do
  if mode = "avg" ∨ mode = "max" then
    let fp ← getFp
    let v ← loadElem c ip o
    if mode = "avg" then return fp.add64 temp (toDouble fp v)
    else if fp.lt64 temp (toDouble fp v) then return toDouble fp v
    else return temp
  else return temp

/-- The element at the given offset (none: padding) is taken into account, `/repo/src/nn/pooling.c` 124-126. -/
def poolVisit (mode : String) (oc : Option Code) (ip : Ptr) (temp : BitVec 64) : Option Int → M (BitVec 64 ⊕ Status)
  | none => return .inl temp
  | some o =>
    match oc with
    | none => return .inr .notSupported
    | some c => do
      let t ← poolAcc mode c ip o temp
      return .inl t

/-- One element, `/repo/src/nn/pooling.c` 110-138: the state is `index` and `temp`. -/
def poolElem (mode : String) (oc : Option Code) (ip : Ptr) (axs : List PAxis) (sts : List Int) (base : Int)
    (ws : List (Int × Int)) (s : List Int × BitVec 64) : M (((List Int × BitVec 64) × Bool) ⊕ Status) := do
  let o ← poolOffset axs sts s.1 base
  match ← poolVisit mode oc ip s.2 o with
  | .inr st => return .inr st
  | .inl t => do
    let (idx, last) ← poolNextElem axs ws s.1
    return .inl ((idx, t), !last)

/-- `pooling_output_element`, `/repo/src/nn/pooling.c` 17-23. -/
def poolStore (mode : String) (c : Code) (op : Ptr) (o : Int) (temp : BitVec 64) (size : Int) : M Unit := do
  let fp ← getFp
  if mode = "avg" then
    let v ← liftU (cCast fp c (.f64 (fp.div64 temp (fp.ofInt64 size))))
    storeElem c op o v
  else if mode = "max" then
    let v ← liftU (cCast fp c (.f64 temp))
    storeElem c op o v
  else pure ()

/-- One window, `/repo/src/nn/pooling.c` 103-157: the state is `k_head`, `k_tail` and `window_idx`. -/
def poolWindow (fuel : Nat) (mode : String) (oc : Option Code) (ip op : Ptr) (axs : List PAxis) (sts : List Int)
    (ostr base obase size : Int) (s : List (Int × Int) × Int) : M (((List (Int × Int) × Int) × Bool) ⊕ Status) := do
  let fp ← getFp
  match ← whileE (poolElem mode oc ip axs sts base s.1) fuel (s.1.map fun w => w.1, fp.ofInt64 0) with
  | .inr st => return .inr st
  | .inl (_, temp) => do
    let a ← i64 (s.2 * ostr)
    let o ← i64 (a + obase)
    match oc with
    | none => return .inr .notSupported
    | some c => do
      poolStore mode c op o temp size
      let (ws, last) ← poolNextWin axs s.1
      let w ← i32 (s.2 + 1)
      return .inl ((ws, w), !last)

/-- `s * strides[0] + c * strides[axis]`. -/
def poolBase (s c s0 s1 : Int) : M Int := do
  let a ← i64 (s * s0)
  let b ← i64 (c * s1)
  i64 (a + b)

/-- One channel of one sample, `/repo/src/nn/pooling.c` 92-158. -/
def poolChannel (fuel : Nat) (mode : String) (oc : Option Code) (ip op : Ptr) (axs : List PAxis) (sI sO : List Int)
    (size : Int) (s c : Nat) : M (Unit ⊕ Status) := do
  let base ← poolBase s c (sI.getD 0 0) (sI.getD 1 0)
  let obase ← poolBase s c (sO.getD 0 0) (sO.getD 1 0)
  let ws ← poolHeads axs
  match ← whileE (poolWindow fuel mode oc ip op axs (sI.drop 2) (sO.getD (axs.length + 1) 0) base obase size) fuel (ws, 0) with
  | .inr st => return .inr st
  | .inl _ => return .inl ()

/-- One sample, `/repo/src/nn/pooling.c` 87-159.  `pi`, `ph`, `pt` are the arrays `index`, `k_head`, `k_tail`. -/
def poolSample (pi ph pt : Ptr) (channel : Nat → M (Unit ⊕ Status)) (nc : Nat) : M (Unit ⊕ Status) := do
  touch pi 0 8
  touch pt 0 8
  touch ph 0 8
  loopE (fun c (_ : Unit) => channel c) nc 0 ()

/-- The values of an `int64_t` array all of whose cells are set. -/
def Arr.vals (a : Arr) : List Int := a.map fun x => x.getD 0

/-- `/repo/src/nn/pooling.c` 75-160: from the output tensor `t` on. -/
def poolFill (fuel : Nat) (mode : String) (h t : Ptr) (ndim : Int) (dims : Arr) (axs : List PAxis)
    (pi ps pos ph pt : Ptr) : M (Unit ⊕ Status) := do
  let size ← poolSize axs 1
  touch ps 0 (8 * ndim)
  let sI ← getAllStrides h (cells ndim 8)
  touch pos 0 (8 * ndim)
  let sO ← getAllStrides t (cells ndim 8)
  let ip ← tData h
  let op ← tData t
  let dt ← tDtype h
  let nb ← dims.rd 0
  let nc ← dims.rd 1
  loopE (fun s (_ : Unit) => poolSample pi ph pt
    (fun c => poolChannel fuel mode (Code.find dt.code) ip op axs sI.vals sO.vals size s c) nc.toNat) nb.toNat 0 ()

/-- The parameters of the pooled axes. -/
def poolAxes (xs ks ss ps ds : List Int) : List PAxis :=
  (List.range xs.length).map fun i => ⟨xs.getD i 0, ks.getD i 0, ss.getD i 0, ps.getD i 0, ds.getD i 0⟩

/-- The release of the six arrays, `/repo/src/nn/pooling.c` 163-168. -/
def poolFree (po pi ph pt ps pos : Ptr) : M Unit := do
  rawFree po
  rawFree pi
  rawFree ph
  rawFree pt
  rawFree ps
  rawFree pos

/-- `pooling_create_output`, `/repo/src/nn/pooling.c` 26-45. -/
def poolCreate (h : Ptr) (ndim x0 x1 : Int) (axs : List PAxis) : M (Status × Ptr) := do
  let os ← poolOuts axs
  let dt ← tDtype h
  let dev ← tDevice h
  create dt dev (Arr.of (x0 :: x1 :: os)) ndim .null 0 .indet

/-- `/repo/src/nn/pooling.c` 65-170: from the test of the window on.  The caller's arrays are read once more before the
output is created; at that point all cells but those of `stride` have been read, and those are read next. -/
def poolMain (fuel : Nat) (h : Ptr) (mode : String) (ksize stride padding dilation dims : Arr) (ndim : Int) (out : Ptr)
    (po pi ps pos ph pt : Ptr) : M (Status × Ptr) := do
  let n := (ndim - 2).toNat
  match ← poolCheck ksize padding dilation dims n with
  | .inr _ => return (.invalidArgument, out)
  | .inl _ => do
    touch po 0 (8 * ndim)
    let x0 ← dims.rd 0
    let x1 ← dims.rd 1
    let xs ← rdAll (dims.drop 2) n
    let ks ← rdAll ksize n
    let ss ← rdAll stride n
    let pds ← rdAll padding n
    let ds ← rdAll dilation n
    let axs := poolAxes xs ks ss pds ds
    let (st, t) ← poolCreate h ndim x0 x1 axs
    if st ≠ .success then return (st, out)
    match ← poolFill fuel mode h t ndim dims axs pi ps pos ph pt with
    | .inr st => return (st, out)
    | .inl _ => do
      poolFree po pi ph pt ps pos
      return (.success, t)

/-- `pooling_double`, `/repo/src/nn/pooling.c` 47-171. -/
def poolRun (fuel : Nat) (h : Ptr) (mode : String) (ksize stride padding dilation : Arr) (ndim : Int) (out : Ptr) : M (Status × Ptr) := do
  let dims ← tDimsArr h
  let po ← scratch ndim 8
  let pi ← scratch ndim 8
  let ps ← scratch ndim 8
  let pos ← scratch ndim 8
  let ph ← scratch ndim 8
  let pt ← scratch ndim 8
  poolMain fuel h mode ksize stride padding dilation dims ndim out po pi ps pos ph pt

/-- `aitisa_pooling`, `/repo/src/nn/pooling.c` 173-187. -/
def pooling (fuel : Nat) (h : Ptr) (mode : String) (ksize stride padding dilation : Arr) (out : Ptr) : M (Status × Ptr) := do
  let ndim ← tNdim h
  if ndim > 2 ∧ ndim < 6 then poolRun fuel h mode ksize stride padding dilation ndim out
  else return (.dimensionsMismatch, out)

end Aitisa
