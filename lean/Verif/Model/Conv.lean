import Verif.Model.Pooling

/-!
# Convolution

`/repo/src/nn/conv.c`.  The eight scratch arrays are allocated and freed as blocks, their contents are kept in local lists.
A pointer to scratch memory is checked where it is first written in the loop body concerned.

`aitisa_conv_float` and `aitisa_conv` have paths that end without a `return` although the function is not `void`.  Using the
value of such a call is undefined in C.  `Fall` says what happens then.
-/

namespace Aitisa

/-- What a caller gets from a function that ends without `return`: undefined behaviour (`none`, the C standard) or some
status that happens to be in the register (`some`, what a compiler does). -/
abbrev Fall := Option Status

/-- The value of a call that ended without `return`. -/
def Fall.get : Fall → M Status
  | none => ubM .missingReturn
  | some st => return st

/-- One spatial dim of the output, `/repo/src/nn/conv.c` 18-20. -/
def convOut (a : PAxis) : M Int := do
  let k ← i64 (a.k - 1)
  let dk ← i64 (a.d * k)
  let kernel ← i64 (dk + 1)
  let pp ← i32 (2 * a.p)
  let t ← i64 (a.x + pp)
  let t ← i64 (t - kernel)
  if a.s = 0 then ubM .divZero
  else do
    let q ← i64 (t.tdiv a.s)
    i64 (q + 1)

/-- All of them, `/repo/src/nn/conv.c` 17-21. -/
def convOuts : List PAxis → M (List Int)
  | [] => return []
  | a :: as => do
    let o ← convOut a
    let os ← convOuts as
    return o :: os

/-- `size_from_dim(2, dims, ndim)`, `/repo/src/core/utils.h` 20-26. -/
def sizeFrom2 (dims : Arr) (ndim : Int) : M Int :=
  loopN (fun i r => do
    let d ← dims.rd ((i : Int) + 2)
    i64 (r * d)) (toI32 ndim - 2).toNat 0 1

/-- Where the window starts, `/repo/src/nn/conv.c` 83-85: `out_coords[2 + d] * stride[d] - padding[d]`. -/
def convStart : List PAxis → List Int → M (List Int)
  | a :: as, o :: os => do
    let x ← i64 (o * a.s)
    let y ← i64 (x - a.p)
    let ys ← convStart as os
    return y :: ys
  | _, _ => return []

/-- The coordinates read in the input, none if they are outside, `/repo/src/nn/conv.c` 96-102. -/
def convProbe : List PAxis → List Int → List Int → M (Option (List Int))
  | a :: as, i :: is, f :: fs => do
    let x ← i64 (a.d * f)
    let t ← i64 (i + x)
    if t < 0 ∨ t ≥ a.x then return none
    else
      let r ← convProbe as is fs
      return r.map (t :: ·)
  | _, _, _ => return some []

/-- `tmp + x * y` on `float`s, rounded once or twice (`mac32`). -/
def convMac (fp : FloatOps) (tmp : BitVec 32) : Val → Val → BitVec 32
  | .f32 a, .f32 b => fp.mac32 tmp a b
  | _, _ => tmp

/-- The coordinates `linidx_to_coords` gives, with the first two replaced. -/
def coordsAt (h : Ptr) (idx : Int) (ndim a b : Int) : M Arr := do
  let cs ← linidxToCoords h idx (cells ndim 8)
  let cs ← cs.wr 0 a
  cs.wr 1 b

/-- `tmp += in_data[in_offset] * fil_data[fil_offset]`, `/repo/src/nn/conv.c` 106-112. -/
def convAdd (h f ip fp' : Ptr) (ndim : Int) (b ic : Int) (fc : Arr) (tmp : BitVec 32) : Option (List Int) → M (BitVec 32)
  | none => return tmp
  | some ts => do
    let oi ← coordsToOffset h (Arr.of (b :: ic :: ts)) ndim
    let of ← coordsToOffset f fc ndim
    let x ← loadElem .f32 ip oi
    let y ← loadElem .f32 fp' of
    return convMac (← getFp) tmp x y

/-- One position of the filter, `/repo/src/nn/conv.c` 91-113. -/
def convTap (h f ip fp' pf pt : Ptr) (ndim : Int) (axs : List PAxis) (start : List Int) (b oc ic : Int) (j : Nat) (tmp : BitVec 32) :
    M (BitVec 32) := do
  touch pf 0 (8 * ndim)
  let fc ← coordsAt f j ndim oc ic
  let fs ← rdAll (fc.drop 2) axs.length
  touch pt 0 (8 * ndim)
  let r ← convProbe axs start fs
  convAdd h f ip fp' ndim b ic fc tmp r

/-- One input channel, `/repo/src/nn/conv.c` 89-117: `tmp` is stored after every channel. -/
def convChan (h f t ip fp' op pf pt : Ptr) (ndim : Int) (axs : List PAxis) (start : List Int) (b oc : Int) (fsize : Nat) (ocs : Arr)
    (ic : Nat) (tmp : BitVec 32) : M (BitVec 32) := do
  let tmp ← loopN (convTap h f ip fp' pf pt ndim axs start b oc ic) fsize 0 tmp
  let oo ← coordsToOffset t ocs ndim
  storeElem .f32 op oo (.f32 tmp)
  return tmp

/-- One output element, `/repo/src/nn/conv.c` 78-118. -/
def convElem (h f t ip fp' op pc pi pf pt : Ptr) (ndim : Int) (axs : List PAxis) (fsize nic : Nat) (b oc : Int) (n : Nat) : M Unit := do
  touch pc 0 (8 * ndim)
  let ocs ← coordsAt t n ndim b oc
  let os ← rdAll (ocs.drop 2) axs.length
  touch pi 0 (8 * ndim)
  let start ← convStart axs os
  let fp ← getFp
  let _ ← loopN (convChan h f t ip fp' op pf pt ndim axs start b oc fsize ocs) nic 0 (fp.narrow (fp.ofInt64 0))
  return ()

/-- The loops, `/repo/src/nn/conv.c` 59-120; `t` is the output tensor, `odims` the array `out_dims`. -/
def convFill (h f t pi pf pc pt si sf so : Ptr) (ndim : Int) (axs : List PAxis) (odims : Arr) : M Unit := do
  touch si 0 (8 * ndim)
  let _ ← getAllStrides h (cells ndim 8)
  touch sf 0 (8 * ndim)
  let _ ← getAllStrides f (cells ndim 8)
  touch so 0 (8 * ndim)
  let _ ← getAllStrides t (cells ndim 8)
  let ip ← tData h
  let fp' ← tData f
  let op ← tData t
  let osize ← sizeFrom2 odims ndim
  let fdims ← tDimsArr f
  let fsize ← sizeFrom2 fdims ndim
  let nb ← tDim h 0
  let nic ← tDim h 1
  let noc ← tDim t 1
  loopN (fun b (_ : Unit) =>
    loopN (fun oc (_ : Unit) =>
      loopN (fun n (_ : Unit) => convElem h f t ip fp' op pc pi pf pt ndim axs fsize.toNat nic.toNat b oc n) osize.toNat 0 ())
      noc.toNat 0 ()) nb.toNat 0 ()

/-- The release of the eight arrays. -/
def rawFrees : List Ptr → M Unit
  | [] => return ()
  | p :: ps => do
    rawFree p
    rawFrees ps

/-- `/repo/src/nn/conv.c` 49-130, after the allocation of the eight arrays.  The function ends without `return`: its status
is the fall-through value. -/
def convMain (j : Fall) (h f : Ptr) (stride padding dilation dims fdims : Arr) (ndim : Int) (out : Ptr)
    (po pi pf pc pt si sf so : Ptr) : M (Status × Ptr) := do
  let n := (ndim - 2).toNat
  let x0 ← dims.rd 0
  let f0 ← fdims.rd 0
  touch po 0 (8 * max ndim 2)
  let xs ← rdAll (dims.drop 2) n
  let ks ← rdAll (fdims.drop 2) n
  let ss ← rdAll stride n
  let ps ← rdAll padding n
  let ds ← rdAll dilation n
  let axs := poolAxes xs ks ss ps ds
  let os ← convOuts axs
  let dt ← tDtype h
  let dev ← tDevice h
  let (st, t) ← create dt dev (Arr.of (x0 :: f0 :: os)) ndim .null 0 .indet
  if st ≠ .success then return (st, out)
  else do
    convFill h f t pi pf pc pt si sf so ndim axs (Arr.of (x0 :: f0 :: os))
    rawFrees [po, pi, pf, pc, si, sf, so, pt]
    let st ← j.get
    return (st, t)

/-- `aitisa_conv_float`, `/repo/src/nn/conv.c` 25-130.  `groups` is not used. -/
def convFloat (j : Fall) (h f : Ptr) (stride padding dilation : Arr) (_groups : Int) (out : Ptr) : M (Status × Ptr) := do
  let ndim ← tNdim h
  let dims ← tDimsArr h
  let fdims ← tDimsArr f
  let po ← scratch ndim 8
  let pi ← scratch ndim 8
  let pf ← scratch ndim 8
  let pc ← scratch ndim 8
  let pt ← scratch ndim 8
  let si ← scratch ndim 8
  let sf ← scratch ndim 8
  let so ← scratch ndim 8
  convMain j h f stride padding dilation dims fdims ndim out po pi pf pc pt si sf so

/-- `aitisa_conv`, `/repo/src/nn/conv.c` 136-148: after the `switch` the function ends without `return`.  `j` and `j'` are the
fall-through values of `aitisa_conv_float` and of this function. -/
def conv (j j' : Fall) (h f : Ptr) (stride padding dilation : Arr) (groups : Int) (out : Ptr) : M (Status × Ptr) := do
  let dt ← tDtype h
  if dt.code = Code.f32.toNat then
    let (st, t) ← convFloat j h f stride padding dilation groups out
    if st ≠ .success then return (st, t)
    else
      let st ← j'.get
      return (st, t)
  else return (.notSupported, out)

/-- `aitisa_conv2d`, `/repo/src/nn/conv.c` 150-160.  The lengths of the arrays are not used. -/
def conv2d (j j' : Fall) (h f : Ptr) (stride padding dilation : Arr) (groups : Int) (out : Ptr) : M (Status × Ptr) := do
  let ndim ← tNdim h
  if ndim ≠ 4 then return (.dimensionsMismatch, out)
  else conv j j' h f stride padding dilation groups out

/-- `aitisa_conv3d`, `/repo/src/nn/conv.c` 162-172. -/
def conv3d (j j' : Fall) (h f : Ptr) (stride padding dilation : Arr) (groups : Int) (out : Ptr) : M (Status × Ptr) := do
  let ndim ← tNdim h
  if ndim ≠ 5 then return (.dimensionsMismatch, out)
  else conv j j' h f stride padding dilation groups out

end Aitisa
