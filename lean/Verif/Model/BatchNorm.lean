import Verif.Model.Dot
import Verif.Model.NN

/-!
# Batch normalisation

`/repo/src/nn/batch_norm.c`.
-/

namespace Aitisa

/-- `CHECK_STATUS(x)` (`/repo/src/core/utils.h`): on any status but success return that status; otherwise go on with the
tensor that `x` produced. -/
def orRet {α : Type} (x : M (Status × Ptr)) (k : Ptr → M (α ⊕ Status)) : M (α ⊕ Status) := do
  let (st, t) ← x
  if st ≠ .success then return .inr st
  k t

/-- The status of a function that ends in `return STATUS_SUCCESS`. -/
def endStatus : Unit ⊕ Status → Status
  | .inl _ => .success
  | .inr st => st

/-- `for (uint32_t i = 0; i < n; i++)` with a 64-bit bound: beyond `UINT32_MAX` the counter wraps and never reaches the
bound.  (Modelled as no result, without the effects of the iterations.) -/
def forU32E {σ ρ : Type} (n : Int) (s : σ) (f : Nat → σ → M (σ ⊕ ρ)) : M (σ ⊕ ρ) :=
  if n ≤ 4294967295 then loopE f n.toNat 0 s else fun _ _ => .fuel

/-- `memcpy((char *)dst + off, (char *)src + from, n)` for the bases `dst`, `src` of two data blocks. -/
def memcpyTo (dst : Ptr) (off : Int) (src : Ptr) (frm : Int) (n : Nat) : M Unit := do
  let s ← derefB src
  let d ← derefB dst
  if 0 ≤ off ∧ 0 ≤ frm ∧ frm + n ≤ s.length ∧ off + n ≤ d.length then
    putBody dst (.bytes (splice d off.toNat ((s.drop frm.toNat).take n)))
  else ubM .outOfBounds

/-- The checks of one pair of parameter tensors, `/repo/src/nn/batch_norm.c` 26-40 (42-55): `num_channels` is read between the
two groups of checks of the first pair. -/
def bnPair (code : Nat) (nc : M Int) (a b : Ptr) : M Status := do
  let da ← tDtype a
  if da.code ≠ code then return .typeMismatch
  let db ← tDtype b
  if db.code ≠ code then return .typeMismatch
  let n ← nc
  let za ← tSize a
  let zb ← tSize b
  if za ≠ n ∨ zb ≠ n then return .dimensionsMismatch
  let ra ← tNdim a
  let rb ← tNdim b
  if ra ≠ 1 ∨ rb ≠ 1 then return .dimensionsMismatch
  return .success

/-- `batch_norm_check_parameters`, `/repo/src/nn/batch_norm.c` 10-62.  `axis` is an `int`. -/
def bnCheck (h : Ptr) (axis : Int) (sc bi me va : Ptr) (eps : BitVec 64) : M Status := do
  let dt ← tDtype h
  let ndim ← tNdim h
  if ndim < 2 ∨ ndim > 5 then return .dimensionsMismatch
  if axis ≠ 1 ∧ axis ≠ ndim - 1 then return .invalidArgument
  let st ← bnPair dt.code (tDim h axis) sc bi
  if st ≠ .success then return st
  let st ← bnPair dt.code (tDim h axis) me va
  if st ≠ .success then return st
  let fp ← getFp
  if fp.lt64 eps (fp.ofInt64 0) then return .invalidArgument
  return .success

/-- `batch_norm_create_output`, `/repo/src/nn/batch_norm.c` 64-77. -/
def bnCreate (h out : Ptr) : M (Status × Ptr) := do
  let dims ← tDimsArr h
  let ndim ← tNdim h
  let dt ← tDtype h
  let dev ← tDevice h
  let (st, t) ← create dt dev dims ndim .null 0 .indet
  if st ≠ .success then return (st, out)
  return (.success, t)

/-- An arithmetic operator followed by the release of the temporary `old`. -/
def bnOp {α : Type} (op : BinOp) (a b old : Ptr) (k : Ptr → M (α ⊕ Status)) : M (α ⊕ Status) :=
  orRet (binaryOp op a b .indet) fun t => orRet (destroy old) fun _ => k t

/-- The computation of one channel of one sample, `/repo/src/nn/batch_norm.c` 143-152 (227-237): the result is `temp0` (still
allocated) and `temp1`. -/
def bnChain (h : Ptr) (bg sz st : Arr) (ax : Arr) (nax : Int) (sc bi me de : Ptr) : M ((Ptr × Ptr) ⊕ Status) :=
  orRet (slice h bg sz st .indet) fun t0 =>
  orRet (squeeze t0 ax nax .indet) fun t1 =>
  orRet (destroy t0) fun _ =>
  bnOp .sub t1 me t1 fun t0 =>
  bnOp .div t0 de t0 fun t1 =>
  bnOp .mul sc t1 t1 fun t0 =>
  orRet (binaryOp .add t0 bi .indet) fun t1 =>
  return .inl (t0, t1)

/-- The copy loop of `/repo/src/nn/batch_norm.c` 155-160. -/
def bnCopy (op : Ptr) (s : Int) (t1 : Ptr) (sz : Nat) : M Unit := do
  let size ← tSize t1
  let p ← tData t1
  forI size () fun i _ => do
    let a ← i64 (s * size)
    let a ← i64 (a * sz)
    let b ← i64 ((i : Int) * sz)
    let o ← i64 (a + b)
    memcpyTo op o p b sz

/-- Two `aitisa_destroy` calls with `CHECK_STATUS` (`/repo/src/nn/batch_norm.c` 153 and 161, 243-244), the first before `x` or
after it. -/
def bnRelease (t0 t1 : Ptr) (x : M Unit) (before : Bool) : M (Unit ⊕ Status) :=
  if before then
    orRet (destroy t0) fun _ => do
      x
      orRet (destroy t1) fun _ => return .inl ()
  else do
    x
    orRet (destroy t0) fun _ => orRet (destroy t1) fun _ => return .inl ()

/-- One iteration of the loop of `batch_norm_without_channel`, `/repo/src/nn/batch_norm.c` 141-164; the state is `begin[0]`. -/
def bnRow (h sc bi me de op : Ptr) (sz : Nat) (size : List Int) (s : Nat) (b : Int) : M (Int ⊕ Status) := do
  match ← bnChain h (Arr.of [b, 0]) (Arr.of size) (Arr.of [1, 1]) (Arr.of [0]) 1 sc bi me de with
  | .inr st => return .inr st
  | .inl (t0, t1) =>
    match ← bnRelease t0 t1 (bnCopy op s t1 sz) true with
    | .inr st => return .inr st
    | .inl _ => return .inl (← i32 (b + 1))

/-- `batch_norm_without_channel`, `/repo/src/nn/batch_norm.c` 114-171; `t` is `*output`. -/
def bnPlain (h sc bi me de t : Ptr) : M (Unit ⊕ Status) := do
  let dims ← tDimsArr h
  let nb ← dims.rd 0
  let pb ← scratch 2 4
  let ps ← scratch 2 4
  let pt ← scratch 2 4
  if pb = .null ∨ ps = .null ∨ pt = .null then return .inr .allocFailed
  touch pb 0 8
  touch ps 0 8
  touch pt 0 8
  let d1 ← dims.rd 1
  let pa ← scratch 1 8
  if pa = .null then return .inr .allocFailed
  touch pa 0 8
  let dt ← tDtype h
  let op ← tData t
  match ← loopE (bnRow h sc bi me de op dt.size [1, toI32 d1]) nb.toNat 0 0 with
  | .inr st => return .inr st
  | .inl _ =>
    rawFree pb
    rawFree ps
    rawFree pt
    rawFree pa
    return .inl ()

/-- One iteration of `batch_norm_transport`, `/repo/src/nn/batch_norm.c` 92-111: `marked` are the dims of the destination with
dim 0 and the channel axis flagged (they are not advanced). -/
def bnMove (marked : List (Int × Bool)) (off : List Int) (op p : Ptr) (sz : Nat) (i : Nat) (idx : List Int) : M (List Int) := do
  let k ← linIdx idx off
  let o ← i64 (k * sz)
  let b ← i64 ((i : Int) * sz)
  memcpyTo op o p b sz
  return (odoGe marked idx).1

/-- `batch_norm_transport`, `/repo/src/nn/batch_norm.c` 83-112: gives `index_recorder`. -/
def bnTransport (src dst : Ptr) (idx off : List Int) (axis : Int) : M (List Int) := do
  let n ← tNdim dst
  let dims ← tDimsArr dst
  let ds ← rdAll dims n.toNat
  let size ← tSize src
  let dt ← tDtype src
  let p ← tData src
  let op ← tData dst
  forI size idx (bnMove (ds.zipIdx.map fun x => (x.1, decide (x.2 = 0 ∨ (x.2 : Int) = axis))) off op p dt.size)

/-- The tensors of one channel. -/
structure BnChan where
  me : Ptr
  sc : Ptr
  bi : Ptr
  de : Ptr

/-- The arrays `mean_array`, `scale_array`, `bias_array`, `denominator` and what they hold. -/
structure BnArrs where
  pm : Ptr
  ps : Ptr
  pb : Ptr
  pd : Ptr
  ch : List BnChan

/-- The entries of the arrays for channel `c`. -/
def BnArrs.get (A : BnArrs) (c : Nat) : M BnChan := do
  touch A.pm (8 * c) (8 * c + 8)
  touch A.ps (8 * c) (8 * c + 8)
  touch A.pb (8 * c) (8 * c + 8)
  touch A.pd (8 * c) (8 * c + 8)
  match A.ch[c]? with
  | some x => return x
  | none => ubM .uninit

/-- One iteration of the inner loop of `batch_norm_with_channel`, `/repo/src/nn/batch_norm.c` 223-245: the state is
`index_recorder`. -/
def bnCell (h : Ptr) (axis : Int) (A : BnArrs) (t : Ptr) (size step off : List Int) (s : Nat) (c : Nat) (idx : List Int) :
    M (List Int ⊕ Status) := do
  let bg := ((step.map fun _ => (0 : Int)).set 0 (toI32 s)).set axis.toNat (toI32 c)
  let x ← A.get c
  match ← bnChain h (Arr.of bg) (Arr.of size) (Arr.of step) (Arr.of [0, axis]) 2 x.sc x.bi x.me x.de with
  | .inr st => return .inr st
  | .inl (t0, t1) =>
    let idx ← bnTransport t1 t (idx.set axis.toNat c) off axis
    match ← bnRelease t0 t1 (pure ()) false with
    | .inr st => return .inr st
    | .inl _ => return .inl idx

/-- One iteration of the outer loop, `/repo/src/nn/batch_norm.c` 218-246. -/
def bnSample (h : Ptr) (axis : Int) (A : BnArrs) (t : Ptr) (size step off : List Int) (nc : Int) (s : Nat) (idx : List Int) :
    M (List Int ⊕ Status) :=
  loopE (bnCell h axis A t size step off s) nc.toNat 0 (idx.set 0 s)

/-- The part of `batch_norm_with_channel` after the allocations, `/repo/src/nn/batch_norm.c` 210-246. -/
def bnLoops (h : Ptr) (axis : Int) (A : BnArrs) (t : Ptr) (nb nc : Int) (ds : List Int) : M (List Int ⊕ Status) := do
  let off ← offsets ds
  loopE (bnSample h axis A t (((ds.map toI32).set 0 1).set axis.toNat 1) (ds.map fun _ => 1) off nc) nb.toNat 0 (ds.map fun _ => 0)

/-- `batch_norm_with_channel`, `/repo/src/nn/batch_norm.c` 173-255; `squeeze_axis` is not checked for null. -/
def bnChannels (h : Ptr) (axis : Int) (A : BnArrs) (t : Ptr) : M (Unit ⊕ Status) := do
  let ndim ← tNdim h
  if axis ≠ 1 ∧ axis ≠ ndim - 1 then return .inr .invalidArgument
  let dims ← tDimsArr h
  let nb ← dims.rd 0
  let nc ← dims.rd axis
  let pb ← scratch ndim 4
  let ps ← scratch ndim 4
  let pt ← scratch ndim 4
  if pb = .null ∨ ps = .null ∨ pt = .null then return .inr .allocFailed
  touch pb 0 (4 * ndim)
  touch ps 0 (4 * ndim)
  touch pt 0 (4 * ndim)
  let pa ← scratch 2 8
  touch pa 0 16
  let pi ← scratch ndim 8
  let po ← scratch ndim 8
  if pi = .null ∨ po = .null then return .inr .allocFailed
  touch pi 0 (8 * ndim)
  touch po 0 (8 * ndim)
  let ds ← rdAll dims ndim.toNat
  match ← bnLoops h axis A t nb nc ds with
  | .inr st => return .inr st
  | .inl _ =>
    rawFree pb
    rawFree ps
    rawFree pt
    rawFree pa
    rawFree pi
    rawFree po
    return .inl ()

/-- `get_intermediate_tensors` for rank 2, `/repo/src/nn/batch_norm.c` 268-284: the denominator. -/
def bnDenom (h va : Ptr) (eps : BitVec 64) : M (Ptr ⊕ Status) := do
  let dt ← tDtype h
  let dev ← tDevice h
  let dims ← tDimsArr va
  let n ← tNdim va
  orRet (full dt dev dims n eps .indet) fun e =>
  orRet (binaryOp .add va e .indet) fun t =>
  orRet (sqrt t .indet) fun d => do
    let _ ← destroy e
    let _ ← destroy t
    return .inl d

/-- The copy loop of `/repo/src/nn/batch_norm.c` 346-355 for one of the four tensors: the offsets `i * ele_size` and
`c * ele_size` are `uint32_t`.  (The four copies of an iteration are independent.) -/
def bnSpread (src dst : Ptr) (c : Nat) (size : Int) (sz : Nat) : M (Unit ⊕ Status) := do
  let q ← tData dst
  let p ← tData src
  forU32E size () fun i _ => do
    memcpyTo q (toU32 ((i : Int) * sz)) p (toU32 ((c : Int) * sz)) sz
    return .inl ()

/-- The four copies. -/
def bnSpreads (me sc bi va : Ptr) (m s b v : Ptr) (c : Nat) (size : Int) (sz : Nat) : M (Unit ⊕ Status) := do
  let _ ← bnSpread me m c size sz
  let _ ← bnSpread sc s c size sz
  let _ ← bnSpread bi b c size sz
  let _ ← bnSpread va v c size sz
  return .inl ()

/-- `aitisa_create(..., &array[c])` in the channel loop: the result is stored in entry `c` of the array `p`. -/
def bnNew {α : Type} (dt : DType) (dev : Device) (pds : Arr) (n : Int) (p : Ptr) (c : Nat) (k : Ptr → M (α ⊕ Status)) :
    M (α ⊕ Status) :=
  orRet (create dt dev pds n .null 0 .indet) fun x => do
    touch p (8 * c) (8 * c + 8)
    k x

/-- The arrays of pointers in `get_intermediate_tensors`. -/
structure BnPtrs where
  pm : Ptr
  ps : Ptr
  pb : Ptr
  pd : Ptr
  pt : Ptr
  pv : Ptr

/-- One iteration of the channel loop, `/repo/src/nn/batch_norm.c` 328-360: the state are the channels so far, with `temp[c]`. -/
def bnChan (dt : DType) (dev : Device) (pds : Arr) (n size : Int) (sc bi me va e : Ptr) (P : BnPtrs) (c : Nat)
    (l : List (BnChan × Ptr)) : M (List (BnChan × Ptr) ⊕ Status) :=
  bnNew dt dev pds n P.pm c fun m =>
  bnNew dt dev pds n P.ps c fun s =>
  bnNew dt dev pds n P.pb c fun b =>
  bnNew dt dev pds n P.pv c fun v => do
    let _ ← bnSpreads me sc bi va m s b v c size dt.size
    orRet (binaryOp .add v e .indet) fun t => do
      touch P.pt (8 * c) (8 * c + 8)
      orRet (sqrt t .indet) fun d => do
        touch P.pd (8 * c) (8 * c + 8)
        let _ ← destroy v
        return .inl (l ++ [(⟨m, s, b, d⟩, t)])

/-- `aitisa_destroy(&temp[i])`, `/repo/src/nn/batch_norm.c` 364-366. -/
def bnDropTemp (l : List (BnChan × Ptr)) (i : Nat) : M Unit := do
  match l[i]? with
  | some x => let _ ← destroy x.2
  | none => ubM .uninit

/-- The releases at the end of `get_intermediate_tensors`, `/repo/src/nn/batch_norm.c` 361-367. -/
def bnParamsEnd (e : Ptr) (P : BnPtrs) (pp : Ptr) (nc : Int) (l : List (BnChan × Ptr)) : M (BnArrs ⊕ Status) := do
  let _ ← destroy e
  rawFree P.pv
  rawFree pp
  forI nc () fun i _ => bnDropTemp l i
  rawFree P.pt
  return .inl ⟨P.pm, P.ps, P.pb, P.pd, l.map Prod.fst⟩

/-- `param_dims`, `/repo/src/nn/batch_norm.c` 295-303: the dims without dim 0 and the channel axis. -/
def bnParamDims (ds : List Int) (axis : Int) : List Int :=
  if axis = 1 then ds.drop 2 else ds.tail.dropLast

/-- The rest of `get_intermediate_tensors` for rank 3 to 5, `/repo/src/nn/batch_norm.c` 304-368.  `temp` is allocated with
`sizeof(struct _TensorImpl)` (56) bytes per channel and not checked for null. -/
def bnParamsMain (dt : DType) (dev : Device) (pp : Ptr) (pds : List Int) (nc : Int) (sc bi me va : Ptr) (eps : BitVec 64) :
    M (BnArrs ⊕ Status) :=
  orRet (full dt dev (Arr.of pds) pds.length eps .indet) fun e => do
    let size ← sizeOfDims (Arr.of pds) pds.length
    let pm ← scratch nc 8
    let ps ← scratch nc 8
    let pb ← scratch nc 8
    let pd ← scratch nc 8
    let pt ← scratch nc 56
    let pv ← scratch nc 8
    if pm = .null ∨ ps = .null ∨ pb = .null ∨ pd = .null ∨ pv = .null then return .inr .allocFailed
    let P : BnPtrs := ⟨pm, ps, pb, pd, pt, pv⟩
    match ← forU32E nc [] (bnChan dt dev (Arr.of pds) pds.length size sc bi me va e P) with
    | .inr st => return .inr st
    | .inl l => bnParamsEnd e P pp nc l

/-- `get_intermediate_tensors` for rank 3 to 5, `/repo/src/nn/batch_norm.c` 285-368. -/
def bnParams (h : Ptr) (axis : Int) (sc bi me va : Ptr) (eps : BitVec 64) : M (BnArrs ⊕ Status) := do
  let ndim ← tNdim h
  let dt ← tDtype h
  let dev ← tDevice h
  let dims ← tDimsArr h
  let nc ← tDim h axis
  let pp ← scratch (ndim - 2) 8
  if pp = .null then return .inr .allocFailed
  touch pp 0 (8 * (ndim - 2))
  let ds ← rdAll dims ndim.toNat
  bnParamsMain dt dev pp (bnParamDims ds axis) nc sc bi me va eps

/-- One iteration of the loop of `/repo/src/nn/batch_norm.c` 402-407. -/
def bnDrop (A : BnArrs) (i : Nat) : M Unit := do
  let x ← A.get i
  let _ ← destroy x.sc
  let _ ← destroy x.bi
  let _ ← destroy x.me
  let _ ← destroy x.de

/-- The releases at the end of `aitisa_batch_norm`, `/repo/src/nn/batch_norm.c` 401-411. -/
def bnEnd (h : Ptr) (axis : Int) (A : BnArrs) : M Unit := do
  let nc ← tDim h axis
  forI nc () fun i _ => bnDrop A i
  rawFree A.ps
  rawFree A.pb
  rawFree A.pm
  rawFree A.pd

/-- `aitisa_batch_norm` once the output exists, `/repo/src/nn/batch_norm.c` 382-415. -/
def bnMain (h : Ptr) (axis : Int) (sc bi me va : Ptr) (eps : BitVec 64) (t : Ptr) : M Status := do
  let ndim ← tNdim h
  if ndim = 2 then
    match ← bnDenom h va eps with
    | .inr st => return st
    | .inl d =>
      let r ← bnPlain h sc bi me d t
      let _ ← destroy d
      return endStatus r
  else if ndim > 2 ∧ ndim < 6 then
    match ← bnParams h axis sc bi me va eps with
    | .inr st => return st
    | .inl A =>
      let r ← bnChannels h axis A t
      bnEnd h axis A
      return endStatus r
  else return .dimensionsMismatch

/-- `aitisa_batch_norm`, `/repo/src/nn/batch_norm.c` 372-416. -/
def batchNorm (h : Ptr) (axis : Int) (sc bi me va : Ptr) (eps : BitVec 64) (out : Ptr) : M (Status × Ptr) := do
  let st ← bnCheck h axis sc bi me va eps
  if st ≠ .success then return (st, out)
  let (st, t) ← bnCreate h out
  if st ≠ .success then return (st, out)
  let st ← bnMain h axis sc bi me va eps t
  return (st, t)

end Aitisa
