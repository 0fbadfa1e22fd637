import Verif.Proof.Local

/-!
# The functions of the model are local
-/

namespace Aitisa

variable {rnd : Bool}

/-! ## Model/Base.lean -/

theorem Local.derefT (p : Ptr) : Local rnd (Aitisa.derefT p) := by
  exact Local.onBody p (g := fun | .tensor t => Pure.pure t | _ => ubM .typeConfusion) (by intro x; loc)
loc_add Local.derefT

theorem Local.derefS (p : Ptr) : Local rnd (Aitisa.derefS p) := by
  exact Local.onBody p (g := fun | .storage t => Pure.pure t | _ => ubM .typeConfusion) (by intro x; loc)
loc_add Local.derefS

theorem Local.derefB (p : Ptr) : Local rnd (Aitisa.derefB p) := by
  exact Local.onBody p (g := fun | .bytes t => Pure.pure t | _ => ubM .typeConfusion) (by intro x; loc)
loc_add Local.derefB

theorem Local.derefI (p : Ptr) : Local rnd (Aitisa.derefI p) := by
  exact Local.onBody p (g := fun | .i64s t => Pure.pure t | _ => ubM .typeConfusion) (by intro x; loc)
loc_add Local.derefI

theorem Local.touch (p : Ptr) (lo hi : Int) : Local rnd (Aitisa.touch p lo hi) := by
  exact Local.onBody p (g := fun | .scratch n => if 0 ≤ lo ∧ hi ≤ n then Pure.pure () else ubM .outOfBounds | _ => ubM .typeConfusion) (by intro x; loc)
loc_add Local.touch

/-! ## Model/Types.lean -/

theorem Local.loadElem (c : Code) (p : Ptr) (i : Int) : Local rnd (Aitisa.loadElem c p i) := by
  unfold Aitisa.loadElem; loc
loc_add Local.loadElem

theorem Local.storeElem (c : Code) (p : Ptr) (i : Int) (v : Val) : Local rnd (Aitisa.storeElem c p i v) := by
  unfold Aitisa.storeElem; loc
loc_add Local.storeElem

theorem Local.memcpyB (dst src : Ptr) (n : Nat) : Local rnd (Aitisa.memcpyB dst src n) := by
  unfold Aitisa.memcpyB; loc
loc_add Local.memcpyB

theorem Local.tableCode (d : DType) : Local rnd (Aitisa.tableCode d) := by
  unfold Aitisa.tableCode; loc
loc_add Local.tableCode

/-! ## Model/Core.lean -/

theorem Local.sizeOfDims (dims : Arr) (ndim : Int) : Local rnd (Aitisa.sizeOfDims dims ndim) := by
  unfold Aitisa.sizeOfDims; loc
loc_add Local.sizeOfDims

theorem Local.storeI (p : Ptr) (i : Int) (v : Int) : Local rnd (Aitisa.storeI p i v) := by
  unfold Aitisa.storeI; loc
loc_add Local.storeI

theorem Local.loadI (p : Ptr) (i : Int) : Local rnd (Aitisa.loadI p i) := by
  unfold Aitisa.loadI; loc
loc_add Local.loadI

theorem Local.createDefaultLayout (lt : LayoutType) (ndim : Int) (old : Ptr) : Local rnd (Aitisa.createDefaultLayout lt ndim old) := by
  unfold Aitisa.createDefaultLayout; loc
loc_add Local.createDefaultLayout

theorem Local.createShape (lt : LayoutType) (dims : Arr) (ndim : Int) : Local rnd (Aitisa.createShape lt dims ndim) := by
  unfold Aitisa.createShape; loc
loc_add Local.createShape

theorem Local.createStorage (dt : DType) (dev : Device) (size : Int) (data : Ptr) (old : Ptr) :
    Local rnd (Aitisa.createStorage dt dev size data old) := by
  unfold Aitisa.createStorage; loc
loc_add Local.createStorage

theorem Local.lenMismatch (len sz : Nat) (size : Int) : Local rnd (Aitisa.lenMismatch len sz size) := by
  unfold Aitisa.lenMismatch; loc
loc_add Local.lenMismatch

theorem Local.create (dt : DType) (dev : Device) (dims : Arr) (ndim : Int) (data : Ptr) (len : Nat) (out : Ptr) :
    Local rnd (Aitisa.create dt dev dims ndim data len out) := by
  unfold Aitisa.create; loc
loc_add Local.create

theorem Local.destroyShape (t : Ptr) : Local rnd (Aitisa.destroyShape t) := by
  unfold Aitisa.destroyShape; loc
loc_add Local.destroyShape

theorem Local.destroyStorage (t : Ptr) : Local rnd (Aitisa.destroyStorage t) := by
  unfold Aitisa.destroyStorage; loc
loc_add Local.destroyStorage

theorem Local.destroy (h : Ptr) : Local rnd (Aitisa.destroy h) := by
  unfold Aitisa.destroy; loc
loc_add Local.destroy

theorem Local.tNdim (h : Ptr) : Local rnd (Aitisa.tNdim h) := by
  unfold Aitisa.tNdim; loc
loc_add Local.tNdim

theorem Local.tDims (h : Ptr) : Local rnd (Aitisa.tDims h) := by
  unfold Aitisa.tDims; loc
loc_add Local.tDims

theorem Local.tDim (h : Ptr) (d : Int) : Local rnd (Aitisa.tDim h d) := by
  unfold Aitisa.tDim; loc
loc_add Local.tDim

theorem Local.tSize (h : Ptr) : Local rnd (Aitisa.tSize h) := by
  unfold Aitisa.tSize; loc
loc_add Local.tSize

theorem Local.tDtype (h : Ptr) : Local rnd (Aitisa.tDtype h) := by
  unfold Aitisa.tDtype; loc
loc_add Local.tDtype

theorem Local.tData (h : Ptr) : Local rnd (Aitisa.tData h) := by
  unfold Aitisa.tData; loc
loc_add Local.tData

theorem Local.tDevice (h : Ptr) : Local rnd (Aitisa.tDevice h) := by
  unfold Aitisa.tDevice; loc
loc_add Local.tDevice

theorem Local.tDimsArr (h : Ptr) : Local rnd (Aitisa.tDimsArr h) := by
  unfold Aitisa.tDimsArr; loc
loc_add Local.tDimsArr

theorem Local.resolve (h : Ptr) : Local rnd (Aitisa.resolve h) := by
  unfold Aitisa.resolve; loc
loc_add Local.resolve

theorem Local.setItem (h : Ptr) (idx : Int) (value : List Byte) : Local rnd (Aitisa.setItem h idx value) := by
  unfold Aitisa.setItem; loc
loc_add Local.setItem

/-! ## Model/Basic.lean -/

theorem Local.full (dt : DType) (dev : Device) (dims : Arr) (ndim : Int) (value : BitVec 64) (out : Ptr) :
    Local rnd (Aitisa.full dt dev dims ndim value out) := by
  unfold Aitisa.full; loc
loc_add Local.full

theorem Local.mapLoop (c c' : Code) (ip op : Ptr) (size : Int) (f : Val → Except UB Val) :
    Local rnd (Aitisa.mapLoop c c' ip op size f) := by
  unfold Aitisa.mapLoop; loc
loc_add Local.mapLoop

theorem Local.castTemplate (h : Ptr) (odt : DType) (t : Ptr) : Local rnd (Aitisa.castTemplate h odt t) := by
  unfold Aitisa.castTemplate; loc
loc_add Local.castTemplate

theorem Local.cast (h : Ptr) (dt : DType) (out : Ptr) : Local rnd (Aitisa.cast h dt out) := by
  unfold Aitisa.cast; loc
loc_add Local.cast

theorem Local.reshape (h : Ptr) (dims : Arr) (ndim : Int) (out : Ptr) : Local rnd (Aitisa.reshape h dims ndim out) := by
  unfold Aitisa.reshape; loc
loc_add Local.reshape

theorem Local.scratch (n : Int) (elem : Nat) : Local rnd (Aitisa.scratch n elem) := by
  unfold Aitisa.scratch; loc
loc_add Local.scratch

theorem Local.squeezeBadAxis (axis : Arr) (numAxis : Int) : Local rnd (Aitisa.squeezeBadAxis axis numAxis) := by
  unfold Aitisa.squeezeBadAxis; loc
loc_add Local.squeezeBadAxis

theorem Local.squeezeMark (inDims : Arr) (ndim : Int) (axis : Arr) (numAxis : Int) :
    Local rnd (Aitisa.squeezeMark inDims ndim axis numAxis) := by
  unfold Aitisa.squeezeMark; loc
loc_add Local.squeezeMark

theorem Local.squeezeCompact (proc : Arr) (ndim outNdim : Int) : Local rnd (Aitisa.squeezeCompact proc ndim outNdim) := by
  unfold Aitisa.squeezeCompact; loc
loc_add Local.squeezeCompact

theorem Local.squeeze (h : Ptr) (axis : Arr) (numAxis : Int) (out : Ptr) : Local rnd (Aitisa.squeeze h axis numAxis out) := by
  unfold Aitisa.squeeze; loc
loc_add Local.squeeze

theorem Local.sliceBad (inDims bg sz st : Arr) (i : Nat) : Local rnd (Aitisa.sliceBad inDims bg sz st i) := by
  unfold Aitisa.sliceBad; loc
loc_add Local.sliceBad

theorem Local.sliceCheck (inDims : Arr) (ndim : Int) (bg sz st : Arr) : Local rnd (Aitisa.sliceCheck inDims ndim bg sz st) := by
  unfold Aitisa.sliceCheck; loc
loc_add Local.sliceCheck

theorem Local.rdAll (a : Arr) (y0 : Nat) : Local rnd (Aitisa.rdAll a y0) := by
  fun_induction Aitisa.rdAll a y0 <;> loc
loc_add Local.rdAll

theorem Local.sliceTouch (po : Ptr) (outDims : List Int) : Local rnd (Aitisa.sliceTouch po outDims) := by
  unfold Aitisa.sliceTouch; loc
loc_add Local.sliceTouch

theorem Local.sliceCreate (h : Ptr) (sz st : List Int) (out : Ptr) : Local rnd (Aitisa.sliceCreate h sz st out) := by
  unfold Aitisa.sliceCreate; loc
loc_add Local.sliceCreate

theorem Local.offsets (y0 : List Int) : Local rnd (Aitisa.offsets y0) := by
  fun_induction Aitisa.offsets y0 <;> loc
loc_add Local.offsets

theorem Local.linIdx (idx off : List Int) : Local rnd (Aitisa.linIdx idx off) := by
  unfold Aitisa.linIdx; loc
loc_add Local.linIdx

theorem Local.sliceKernel (c : Code) (ip op : Ptr) (outSize : Int) (ax : List SliceAxis) (off : List Int) :
    Local rnd (Aitisa.sliceKernel c ip op outSize ax off) := by
  unfold Aitisa.sliceKernel; loc
loc_add Local.sliceKernel

theorem Local.sliceTemplate (h : Ptr) (bg sz st : List Int) (t : Ptr) : Local rnd (Aitisa.sliceTemplate h bg sz st t) := by
  unfold Aitisa.sliceTemplate; loc
loc_add Local.sliceTemplate

theorem Local.slice (h : Ptr) (bg sz st : Arr) (out : Ptr) : Local rnd (Aitisa.slice h bg sz st out) := by
  unfold Aitisa.slice; loc
loc_add Local.slice

theorem Local.duplicate (h : Ptr) (out : Ptr) : Local rnd (Aitisa.duplicate h out) := by
  unfold Aitisa.duplicate; loc
loc_add Local.duplicate

theorem Local.bcastBoth (d1 : Arr) (n1 : Int) (d2 : Arr) (n2 nOut : Int) (i : Nat) (o : Arr) :
    Local rnd (Aitisa.bcastBoth d1 n1 d2 n2 nOut i o) := by
  unfold Aitisa.bcastBoth; loc
loc_add Local.bcastBoth

theorem Local.bcastOne (d : Arr) (n nOut : Int) (i : Nat) (o : Arr) : Local rnd (Aitisa.bcastOne d n nOut i o) := by
  unfold Aitisa.bcastOne; loc
loc_add Local.bcastOne

theorem Local.broadcastArray (d1 : Arr) (n1 : Int) (d2 : Arr) (n2 : Int) (out : Arr) (nOut : Int) :
    Local rnd (Aitisa.broadcastArray d1 n1 d2 n2 out nOut) := by
  unfold Aitisa.broadcastArray; loc
loc_add Local.broadcastArray

theorem Local.tMin2maj (h : Ptr) : Local rnd (Aitisa.tMin2maj h) := by
  unfold Aitisa.tMin2maj; loc
loc_add Local.tMin2maj

theorem Local.getStride (h : Ptr) (dimension : Int) : Local rnd (Aitisa.getStride h dimension) := by
  unfold Aitisa.getStride; loc
loc_add Local.getStride

theorem Local.getAllStrides (h : Ptr) (strides : Arr) : Local rnd (Aitisa.getAllStrides h strides) := by
  unfold Aitisa.getAllStrides; loc
loc_add Local.getAllStrides

theorem Local.assertCoords (dims coords : Arr) (ndim len : Int) : Local rnd (Aitisa.assertCoords dims coords ndim len) := by
  unfold Aitisa.assertCoords
  refine Local.bind (Local.cAssert _) fun _ => Local.forI (fun i _ => Local.ifAsserts (by loc) ?_) _ _
  exact Keep.bind (Keep.rd _ _) fun _ => Keep.bind (Keep.cAssert _) fun _ => Keep.bind (Keep.rd _ _) fun _ => Keep.cAssert _
loc_add Local.assertCoords

theorem Local.coordsToLinidx (h : Ptr) (coords : Arr) (len : Int) : Local rnd (Aitisa.coordsToLinidx h coords len) := by
  unfold Aitisa.coordsToLinidx; loc
loc_add Local.coordsToLinidx

theorem Local.cDivMod (a b d : Int) : Local rnd (Aitisa.cDivMod a b d) := by
  unfold Aitisa.cDivMod; loc
loc_add Local.cDivMod

theorem Local.linidxToCoords (h : Ptr) (linidx : Int) (coords : Arr) : Local rnd (Aitisa.linidxToCoords h linidx coords) := by
  unfold Aitisa.linidxToCoords; loc
loc_add Local.linidxToCoords

theorem Local.coordsToOffset (h : Ptr) (coords : Arr) (len : Int) : Local rnd (Aitisa.coordsToOffset h coords len) := by
  unfold Aitisa.coordsToOffset; loc
loc_add Local.coordsToOffset

theorem Local.offsetToCoords (h : Ptr) (offset : Int) (coords : Arr) : Local rnd (Aitisa.offsetToCoords h offset coords) := by
  unfold Aitisa.offsetToCoords; loc
loc_add Local.offsetToCoords

/-! ## Model/Math.lean -/

theorem Local.copyElem (c : Code) (src : Ptr) (i : Int) (dst : Ptr) (j : Int) : Local rnd (Aitisa.copyElem c src i dst j) := by
  unfold Aitisa.copyElem; loc
loc_add Local.copyElem

theorem Local.binStep (c : Code) (op : BinOp) (p1 p2 a b r q : Ptr) (i : Int) : Local rnd (Aitisa.binStep c op p1 p2 a b r q i) := by
  unfold Aitisa.binStep; loc
loc_add Local.binStep

theorem Local.binLoop (dt : DType) (op : BinOp) (p1 p2 a b r q : Ptr) (size : Int) :
    Local rnd (Aitisa.binLoop dt op p1 p2 a b r q size) := by
  unfold Aitisa.binLoop; loc
loc_add Local.binLoop

theorem Local.cellAlloc (dt : DType) : Local rnd (Aitisa.cellAlloc dt) := by
  unfold Aitisa.cellAlloc; loc
loc_add Local.cellAlloc

theorem Local.dimsDiffer (d1 d2 : Arr) (n : Int) : Local rnd (Aitisa.dimsDiffer d1 d2 n) := by
  unfold Aitisa.dimsDiffer; loc
loc_add Local.dimsDiffer

theorem Local.binFill (op : BinOp) (h1 h2 : Ptr) (d1 : Arr) (n1 : Int) (out : Ptr) : Local rnd (Aitisa.binFill op h1 h2 d1 n1 out) := by
  unfold Aitisa.binFill; loc
loc_add Local.binFill

theorem Local.binaryOp (op : BinOp) (h1 h2 : Ptr) (out : Ptr) : Local rnd (Aitisa.binaryOp op h1 h2 out) := by
  unfold Aitisa.binaryOp; loc
loc_add Local.binaryOp

/-! ## Model/Matmul.lean -/

theorem Local.macStep (c : Code) (ap bp cp : Ptr) (ia ib ic : Int) : Local rnd (Aitisa.macStep c ap bp cp ia ib ic) := by
  unfold Aitisa.macStep; loc
loc_add Local.macStep

theorem Local.idx2 (i n j : Int) : Local rnd (Aitisa.idx2 i n j) := by
  unfold Aitisa.idx2; loc
loc_add Local.idx2

theorem Local.vvKernel (c : Code) (X Y Z : Ptr) (L : Int) : Local rnd (Aitisa.vvKernel c X Y Z L) := by
  unfold Aitisa.vvKernel; loc
loc_add Local.vvKernel

theorem Local.mvKernel (c : Code) (A X B : Ptr) (nM nN : Int) : Local rnd (Aitisa.mvKernel c A X B nM nN) := by
  unfold Aitisa.mvKernel; loc
loc_add Local.mvKernel

theorem Local.mmBody (c : Code) (A B C : Ptr) (oa ob oc : Int) (nK nN : Int) (i j q : Int) :
    Local rnd (Aitisa.mmBody c A B C oa ob oc nK nN i j q) := by
  unfold Aitisa.mmBody; loc
loc_add Local.mmBody

theorem Local.mmKernel (c : Code) (A B C : Ptr) (oa ob oc : Int) (nM nK nN : Int) :
    Local rnd (Aitisa.mmKernel c A B C oa ob oc nM nK nN) := by
  unfold Aitisa.mmKernel; loc
loc_add Local.mmKernel

theorem Local.withCode (dt : DType) (k : Code → M Unit) (hk : ∀ x0, Local rnd (k x0)) : Local rnd (Aitisa.withCode dt k) := by
  unfold Aitisa.withCode; loc
loc_add Local.withCode

theorem Local.matFull (h1 : Ptr) (dims : Arr) (ndim : Int) (out : Ptr) : Local rnd (Aitisa.matFull h1 dims ndim out) := by
  unfold Aitisa.matFull; loc
loc_add Local.matFull

theorem Local.matPlain (h1 h2 : Ptr) (dims : Arr) (ndim : Int) (out : Ptr) (k : Code → Ptr → Ptr → Ptr → M Unit) (hk : ∀ x0 x1 x2 x3, Local rnd (k x0 x1 x2 x3)) :
    Local rnd (Aitisa.matPlain h1 h2 dims ndim out k) := by
  unfold Aitisa.matPlain; loc
loc_add Local.matPlain

theorem Local.matVV (h1 h2 out : Ptr) : Local rnd (Aitisa.matVV h1 h2 out) := by
  unfold Aitisa.matVV; loc
loc_add Local.matVV

theorem Local.matMV (h1 h2 out : Ptr) : Local rnd (Aitisa.matMV h1 h2 out) := by
  unfold Aitisa.matMV; loc
loc_add Local.matMV

theorem Local.matMM (h1 h2 out : Ptr) : Local rnd (Aitisa.matMM h1 h2 out) := by
  unfold Aitisa.matMM; loc
loc_add Local.matMM

theorem Local.matVM (h1 h2 out : Ptr) : Local rnd (Aitisa.matVM h1 h2 out) := by
  unfold Aitisa.matVM; loc
loc_add Local.matVM

theorem Local.sizeToDim (k : Int) (dims : Arr) : Local rnd (Aitisa.sizeToDim k dims) := by
  unfold Aitisa.sizeToDim; loc
loc_add Local.sizeToDim

theorem Local.elemOff (x s : Int) (sz : Nat) : Local rnd (Aitisa.elemOff x s sz) := by
  unfold Aitisa.elemOff; loc
loc_add Local.elemOff

theorem Local.touch3 (pA pB pC : Ptr) (i : Int) : Local rnd (Aitisa.touch3 pA pB pC i) := by
  unfold Aitisa.touch3; loc
loc_add Local.touch3

theorem Local.batchPtrs (pA pB pC : Ptr) (s1 s2 s3 : Int) (sz : Nat) (nb : Int) (offs : Nat → M (Int × Int)) (hoffs : ∀ x0, Local rnd (offs x0)) :
    Local rnd (Aitisa.batchPtrs pA pB pC s1 s2 s3 sz nb offs) := by
  unfold Aitisa.batchPtrs; loc
loc_add Local.batchPtrs

theorem Local.batchKernel (c : Code) (A B C : Ptr) (l : List (Int × Int × Int)) (nM nK nN nb : Int) :
    Local rnd (Aitisa.batchKernel c A B C l nM nK nN nb) := by
  unfold Aitisa.batchKernel; loc
loc_add Local.batchKernel

theorem Local.batchRun (h1 h2 t : Ptr) (s1 s2 s3 nM nK nN nb : Int) (offs : Nat → M (Int × Int)) (hoffs : ∀ x0, Local rnd (offs x0)) :
    Local rnd (Aitisa.batchRun h1 h2 t s1 s2 s3 nM nK nN nb offs) := by
  unfold Aitisa.batchRun; loc
loc_add Local.batchRun

theorem Local.matTV (h1 h2 out : Ptr) (n1 : Int) : Local rnd (Aitisa.matTV h1 h2 out n1) := by
  unfold Aitisa.matTV; loc
loc_add Local.matTV

theorem Local.matVT (h1 h2 out : Ptr) (n2 : Int) : Local rnd (Aitisa.matVT h1 h2 out n2) := by
  unfold Aitisa.matVT; loc
loc_add Local.matVT

theorem Local.batchDim (dims : Arr) (ndim : Int) (i : Int) : Local rnd (Aitisa.batchDim dims ndim i) := by
  unfold Aitisa.batchDim; loc
loc_add Local.batchDim

theorem Local.bstrideStep (dims : Arr) (ndim nstride : Int) (i : Nat) (s : Arr × Int) :
    Local rnd (Aitisa.bstrideStep dims ndim nstride i s) := by
  unfold Aitisa.bstrideStep; loc
loc_add Local.bstrideStep

theorem Local.batchStrides (dims : Arr) (ndim nstride : Int) : Local rnd (Aitisa.batchStrides dims ndim nstride) := by
  unfold Aitisa.batchStrides; loc
loc_add Local.batchStrides

theorem Local.cMod (a b : Int) : Local rnd (Aitisa.offsStep.cMod a b) := by
  unfold Aitisa.offsStep.cMod; loc
loc_add Local.cMod

theorem Local.offsStep (bd st1 st2 : Arr) (nd : Int) (j : Nat) (s : Int × Int × Int) : Local rnd (Aitisa.offsStep bd st1 st2 nd j s) := by
  unfold Aitisa.offsStep; loc
loc_add Local.offsStep

theorem Local.batchOffs (bd st1 st2 : Arr) (nd : Int) (i : Nat) : Local rnd (Aitisa.batchOffs bd st1 st2 nd i) := by
  unfold Aitisa.batchOffs; loc
loc_add Local.batchOffs

theorem Local.matTTFill (h1 h2 t : Ptr) (d1 d2 bd : Arr) (n1 n2 nd nM nK k2 nN : Int) :
    Local rnd (Aitisa.matTTFill h1 h2 t d1 d2 bd n1 n2 nd nM nK k2 nN) := by
  unfold Aitisa.matTTFill; loc
loc_add Local.matTTFill

theorem Local.matTT (h1 h2 out : Ptr) (n1 n2 : Int) : Local rnd (Aitisa.matTT h1 h2 out n1 n2) := by
  unfold Aitisa.matTT; loc
loc_add Local.matTT

theorem Local.matmul (h1 h2 out : Ptr) : Local rnd (Aitisa.matmul h1 h2 out) := by
  unfold Aitisa.matmul; loc
loc_add Local.matmul

/-! ## Model/Dot.lean -/

theorem Local.memcpyAt (dst : Ptr) (off : Int) (src : Ptr) (n : Nat) : Local rnd (Aitisa.memcpyAt dst off src n) := by
  unfold Aitisa.memcpyAt; loc
loc_add Local.memcpyAt

theorem Local.dotKernel (c : Code) (X Y Z : Ptr) (n : Int) : Local rnd (Aitisa.dotKernel c X Y Z n) := by
  unfold Aitisa.dotKernel; loc
loc_add Local.dotKernel

theorem Local.vecDot (h1 h2 out : Ptr) : Local rnd (Aitisa.vecDot h1 h2 out) := by
  unfold Aitisa.vecDot; loc
loc_add Local.vecDot

theorem Local.dotGetValue (h : Ptr) : Local rnd (Aitisa.dotGetValue h) := by
  unfold Aitisa.dotGetValue; loc
loc_add Local.dotGetValue

theorem Local.scalarMulOf (h1 big small out : Ptr) : Local rnd (Aitisa.scalarMulOf h1 big small out) := by
  unfold Aitisa.scalarMulOf; loc
loc_add Local.scalarMulOf

theorem Local.scalarMul (h1 h2 out : Ptr) : Local rnd (Aitisa.scalarMul h1 h2 out) := by
  unfold Aitisa.scalarMul; loc
loc_add Local.scalarMul

theorem Local.Vecs_get (v : Vecs) (idx : List Int) : Local rnd (Aitisa.Vecs.get v idx) := by
  unfold Aitisa.Vecs.get; loc
loc_add Local.Vecs_get

theorem Local.dotCell (v1 v2 op : Ptr) (sz : Nat) (off : M Int) (hoff : Local rnd off) : Local rnd (Aitisa.dotCell v1 v2 op sz off) := by
  unfold Aitisa.dotCell; loc
loc_add Local.dotCell

theorem Local.dotStep (v : Vecs) (cell : Ptr → M (Status × Ptr)) (idx : List Int) (hcell : ∀ x0, Local rnd (cell x0)) :
    Local rnd (Aitisa.dotStep v cell idx) := by
  unfold Aitisa.dotStep; loc
loc_add Local.dotStep

theorem Local.tvFill (h1 h2 t : Ptr) (n1 : Int) (d1 : Arr) : Local rnd (Aitisa.tvFill h1 h2 t n1 d1) := by
  unfold Aitisa.tvFill; loc
loc_add Local.tvFill

theorem Local.dotCreate (h1 : Ptr) (o : List Int) (out : Ptr) : Local rnd (Aitisa.dotCreate h1 o out) := by
  unfold Aitisa.dotCreate; loc
loc_add Local.dotCreate

theorem Local.tvDot (h1 h2 out : Ptr) : Local rnd (Aitisa.tvDot h1 h2 out) := by
  unfold Aitisa.tvDot; loc
loc_add Local.tvDot

theorem Local.mdCount (d2 : Arr) (n2 : Int) : Local rnd (Aitisa.mdCount d2 n2) := by
  unfold Aitisa.mdCount; loc
loc_add Local.mdCount

theorem Local.mdOff (i1 nv2 i2 : Int) (sz : Nat) : Local rnd (Aitisa.mdOff i1 nv2 i2 sz) := by
  unfold Aitisa.mdOff; loc
loc_add Local.mdOff

theorem Local.mdRow (v1 v2 : Vecs) (op : Ptr) (sz : Nat) (nv2 : Int) (i1 : Nat) (s : List Int × List Int) :
    Local rnd (Aitisa.mdRow v1 v2 op sz nv2 i1 s) := by
  unfold Aitisa.mdRow; loc
loc_add Local.mdRow

theorem Local.free6 (p1 p2 p3 p4 p5 p6 : Ptr) : Local rnd (Aitisa.free6 p1 p2 p3 p4 p5 p6) := by
  unfold Aitisa.free6; loc
loc_add Local.free6

theorem Local.mdFill (h1 h2 t : Ptr) (n1 n2 : Int) (d1 d2 : Arr) : Local rnd (Aitisa.mdFill h1 h2 t n1 n2 d1 d2) := by
  unfold Aitisa.mdFill; loc
loc_add Local.mdFill

theorem Local.mdDot (h1 h2 out : Ptr) : Local rnd (Aitisa.mdDot h1 h2 out) := by
  unfold Aitisa.mdDot; loc
loc_add Local.mdDot

theorem Local.dot (h1 h2 out : Ptr) : Local rnd (Aitisa.dot h1 h2 out) := by
  unfold Aitisa.dot; loc
loc_add Local.dot

/-! ## Model/Double.lean -/

/-! ## Model/Pooling.lean -/

theorem Local.poolSpan (k d : Int) : Local rnd (Aitisa.poolSpan k d) := by
  unfold Aitisa.poolSpan; loc
loc_add Local.poolSpan

theorem Local.poolCheck (ksize padding dilation dims : Arr) (n : Nat) : Local rnd (Aitisa.poolCheck ksize padding dilation dims n) := by
  unfold Aitisa.poolCheck; loc
loc_add Local.poolCheck

theorem Local.poolOut (a : PAxis) : Local rnd (Aitisa.poolOut a) := by
  unfold Aitisa.poolOut; loc
loc_add Local.poolOut

theorem Local.poolOuts (y0 : List PAxis) : Local rnd (Aitisa.poolOuts y0) := by
  fun_induction Aitisa.poolOuts y0 <;> loc
loc_add Local.poolOuts

theorem Local.poolSize (y0 : List PAxis) (y1 : Int) : Local rnd (Aitisa.poolSize y0 y1) := by
  fun_induction Aitisa.poolSize y0 y1 <;> loc
loc_add Local.poolSize

theorem Local.poolHead (a : PAxis) : Local rnd (Aitisa.poolHead a) := by
  unfold Aitisa.poolHead; loc
loc_add Local.poolHead

theorem Local.poolHeads (y0 : List PAxis) : Local rnd (Aitisa.poolHeads y0) := by
  fun_induction Aitisa.poolHeads y0 <;> loc
loc_add Local.poolHeads

theorem Local.poolOffset (y0 : List PAxis) (y1 : List Int) (y2 : List Int) (y3 : Int) : Local rnd (Aitisa.poolOffset y0 y1 y2 y3) := by
  fun_induction Aitisa.poolOffset y0 y1 y2 y3 <;> loc
loc_add Local.poolOffset

theorem Local.poolNextElem (y0 : List PAxis) (y1 : List (Int × Int)) (y2 : List Int) : Local rnd (Aitisa.poolNextElem y0 y1 y2) := by
  fun_induction Aitisa.poolNextElem y0 y1 y2 <;> loc
loc_add Local.poolNextElem

theorem Local.poolNextWin (y0 : List PAxis) (y1 : List (Int × Int)) : Local rnd (Aitisa.poolNextWin y0 y1) := by
  fun_induction Aitisa.poolNextWin y0 y1 <;> loc
loc_add Local.poolNextWin

theorem Local.poolAcc (mode : String) (c : Code) (ip : Ptr) (o : Int) (temp : BitVec 64) : Local rnd (Aitisa.poolAcc mode c ip o temp) := by
  unfold Aitisa.poolAcc; loc
loc_add Local.poolAcc

theorem Local.poolVisit (mode : String) (oc : Option Code) (ip : Ptr) (temp : BitVec 64) (y0 : Option Int) :
    Local rnd (Aitisa.poolVisit mode oc ip temp y0) := by
  unfold Aitisa.poolVisit; loc
loc_add Local.poolVisit

theorem Local.poolElem (mode : String) (oc : Option Code) (ip : Ptr) (axs : List PAxis) (sts : List Int) (base : Int) (ws : List (Int × Int)) (s : List Int × BitVec 64) :
    Local rnd (Aitisa.poolElem mode oc ip axs sts base ws s) := by
  unfold Aitisa.poolElem; loc
loc_add Local.poolElem

theorem Local.poolStore (mode : String) (c : Code) (op : Ptr) (o : Int) (temp : BitVec 64) (size : Int) :
    Local rnd (Aitisa.poolStore mode c op o temp size) := by
  unfold Aitisa.poolStore; loc
loc_add Local.poolStore

theorem Local.poolWindow (fuel : Nat) (mode : String) (oc : Option Code) (ip op : Ptr) (axs : List PAxis) (sts : List Int) (ostr base obase size : Int) (s : List (Int × Int) × Int) :
    Local rnd (Aitisa.poolWindow fuel mode oc ip op axs sts ostr base obase size s) := by
  unfold Aitisa.poolWindow; loc
loc_add Local.poolWindow

theorem Local.poolBase (s c s0 s1 : Int) : Local rnd (Aitisa.poolBase s c s0 s1) := by
  unfold Aitisa.poolBase; loc
loc_add Local.poolBase

theorem Local.poolChannel (fuel : Nat) (mode : String) (oc : Option Code) (ip op : Ptr) (axs : List PAxis) (sI sO : List Int) (size : Int) (s c : Nat) :
    Local rnd (Aitisa.poolChannel fuel mode oc ip op axs sI sO size s c) := by
  unfold Aitisa.poolChannel; loc
loc_add Local.poolChannel

theorem Local.poolSample (pi ph pt : Ptr) (channel : Nat → M (Unit ⊕ Status)) (nc : Nat) (hchannel : ∀ x0, Local rnd (channel x0)) :
    Local rnd (Aitisa.poolSample pi ph pt channel nc) := by
  unfold Aitisa.poolSample; loc
loc_add Local.poolSample

theorem Local.poolFill (fuel : Nat) (mode : String) (h t : Ptr) (ndim : Int) (dims : Arr) (axs : List PAxis) (pi ps pos ph pt : Ptr) :
    Local rnd (Aitisa.poolFill fuel mode h t ndim dims axs pi ps pos ph pt) := by
  unfold Aitisa.poolFill; loc
loc_add Local.poolFill

theorem Local.poolFree (po pi ph pt ps pos : Ptr) : Local rnd (Aitisa.poolFree po pi ph pt ps pos) := by
  unfold Aitisa.poolFree; loc
loc_add Local.poolFree

theorem Local.poolCreate (h : Ptr) (ndim x0 x1 : Int) (axs : List PAxis) : Local rnd (Aitisa.poolCreate h ndim x0 x1 axs) := by
  unfold Aitisa.poolCreate; loc
loc_add Local.poolCreate

theorem Local.poolMain (fuel : Nat) (h : Ptr) (mode : String) (ksize stride padding dilation dims : Arr) (ndim : Int) (out : Ptr) (po pi ps pos ph pt : Ptr) :
    Local rnd (Aitisa.poolMain fuel h mode ksize stride padding dilation dims ndim out po pi ps pos ph pt) := by
  unfold Aitisa.poolMain; loc
loc_add Local.poolMain

theorem Local.poolRun (fuel : Nat) (h : Ptr) (mode : String) (ksize stride padding dilation : Arr) (ndim : Int) (out : Ptr) :
    Local rnd (Aitisa.poolRun fuel h mode ksize stride padding dilation ndim out) := by
  unfold Aitisa.poolRun; loc
loc_add Local.poolRun

theorem Local.pooling (fuel : Nat) (h : Ptr) (mode : String) (ksize stride padding dilation : Arr) (out : Ptr) :
    Local rnd (Aitisa.pooling fuel h mode ksize stride padding dilation out) := by
  unfold Aitisa.pooling; loc
loc_add Local.pooling

/-! ## Model/Conv.lean -/

theorem Local.Fall_get (y0 : Fall) : Local rnd (Aitisa.Fall.get y0) := by
  unfold Aitisa.Fall.get; loc
loc_add Local.Fall_get

theorem Local.convOut (a : PAxis) : Local rnd (Aitisa.convOut a) := by
  unfold Aitisa.convOut; loc
loc_add Local.convOut

theorem Local.convOuts (y0 : List PAxis) : Local rnd (Aitisa.convOuts y0) := by
  fun_induction Aitisa.convOuts y0 <;> loc
loc_add Local.convOuts

theorem Local.sizeFrom2 (dims : Arr) (ndim : Int) : Local rnd (Aitisa.sizeFrom2 dims ndim) := by
  unfold Aitisa.sizeFrom2; loc
loc_add Local.sizeFrom2

theorem Local.convStart (y0 : List PAxis) (y1 : List Int) : Local rnd (Aitisa.convStart y0 y1) := by
  fun_induction Aitisa.convStart y0 y1 <;> loc
loc_add Local.convStart

theorem Local.convProbe (y0 : List PAxis) (y1 : List Int) (y2 : List Int) : Local rnd (Aitisa.convProbe y0 y1 y2) := by
  fun_induction Aitisa.convProbe y0 y1 y2 <;> loc
loc_add Local.convProbe

theorem Local.coordsAt (h : Ptr) (idx : Int) (ndim a b : Int) : Local rnd (Aitisa.coordsAt h idx ndim a b) := by
  unfold Aitisa.coordsAt; loc
loc_add Local.coordsAt

theorem Local.convAdd (h f ip fp' : Ptr) (ndim : Int) (b ic : Int) (fc : Arr) (tmp : BitVec 32) (y0 : Option (List Int)) :
    Local rnd (Aitisa.convAdd h f ip fp' ndim b ic fc tmp y0) := by
  unfold Aitisa.convAdd; loc
loc_add Local.convAdd

theorem Local.convTap (h f ip fp' pf pt : Ptr) (ndim : Int) (axs : List PAxis) (start : List Int) (b oc ic : Int) (j : Nat) (tmp : BitVec 32) :
    Local rnd (Aitisa.convTap h f ip fp' pf pt ndim axs start b oc ic j tmp) := by
  unfold Aitisa.convTap; loc
loc_add Local.convTap

theorem Local.convChan (h f t ip fp' op pf pt : Ptr) (ndim : Int) (axs : List PAxis) (start : List Int) (b oc : Int) (fsize : Nat) (ocs : Arr) (ic : Nat) (tmp : BitVec 32) :
    Local rnd (Aitisa.convChan h f t ip fp' op pf pt ndim axs start b oc fsize ocs ic tmp) := by
  unfold Aitisa.convChan; loc
loc_add Local.convChan

theorem Local.convElem (h f t ip fp' op pc pi pf pt : Ptr) (ndim : Int) (axs : List PAxis) (fsize nic : Nat) (b oc : Int) (n : Nat) :
    Local rnd (Aitisa.convElem h f t ip fp' op pc pi pf pt ndim axs fsize nic b oc n) := by
  unfold Aitisa.convElem; loc
loc_add Local.convElem

theorem Local.convFill (h f t pi pf pc pt si sf so : Ptr) (ndim : Int) (axs : List PAxis) (odims : Arr) :
    Local rnd (Aitisa.convFill h f t pi pf pc pt si sf so ndim axs odims) := by
  unfold Aitisa.convFill; loc
loc_add Local.convFill

theorem Local.rawFrees (y0 : List Ptr) : Local rnd (Aitisa.rawFrees y0) := by
  fun_induction Aitisa.rawFrees y0 <;> loc
loc_add Local.rawFrees

theorem Local.convMain (j : Fall) (h f : Ptr) (stride padding dilation dims fdims : Arr) (ndim : Int) (out : Ptr) (po pi pf pc pt si sf so : Ptr) :
    Local rnd (Aitisa.convMain j h f stride padding dilation dims fdims ndim out po pi pf pc pt si sf so) := by
  unfold Aitisa.convMain; loc
loc_add Local.convMain

theorem Local.convFloat (j : Fall) (h f : Ptr) (stride padding dilation : Arr) (_x6 : Int) (out : Ptr) :
    Local rnd (Aitisa.convFloat j h f stride padding dilation _x6 out) := by
  unfold Aitisa.convFloat; loc
loc_add Local.convFloat

theorem Local.conv (j j' : Fall) (h f : Ptr) (stride padding dilation : Arr) (groups : Int) (out : Ptr) :
    Local rnd (Aitisa.conv j j' h f stride padding dilation groups out) := by
  unfold Aitisa.conv; loc
loc_add Local.conv

theorem Local.conv2d (j j' : Fall) (h f : Ptr) (stride padding dilation : Arr) (groups : Int) (out : Ptr) :
    Local rnd (Aitisa.conv2d j j' h f stride padding dilation groups out) := by
  unfold Aitisa.conv2d; loc
loc_add Local.conv2d

theorem Local.conv3d (j j' : Fall) (h f : Ptr) (stride padding dilation : Arr) (groups : Int) (out : Ptr) :
    Local rnd (Aitisa.conv3d j j' h f stride padding dilation groups out) := by
  unfold Aitisa.conv3d; loc
loc_add Local.conv3d

/-! ## Model/NN.lean -/

theorem Local.createLike (h out : Ptr) : Local rnd (Aitisa.createLike h out) := by
  unfold Aitisa.createLike; loc
loc_add Local.createLike

theorem Local.relu (h out : Ptr) : Local rnd (Aitisa.relu h out) := by
  unfold Aitisa.relu; loc
loc_add Local.relu

theorem Local.sigmoid (h out : Ptr) : Local rnd (Aitisa.sigmoid h out) := by
  unfold Aitisa.sigmoid; loc
loc_add Local.sigmoid

theorem Local.tanh (h out : Ptr) : Local rnd (Aitisa.tanh h out) := by
  unfold Aitisa.tanh; loc
loc_add Local.tanh

theorem Local.sqrtKernel (c : Code) (ip op : Ptr) (size : Int) : Local rnd (Aitisa.sqrtKernel c ip op size) := by
  unfold Aitisa.sqrtKernel; loc
loc_add Local.sqrtKernel

theorem Local.sqrt (h out : Ptr) : Local rnd (Aitisa.sqrt h out) := by
  unfold Aitisa.sqrt; loc
loc_add Local.sqrt

theorem Local.dropoutKernel (c : Code) (p : Ptr) (size rateLine : Int) : Local true (Aitisa.dropoutKernel c p size rateLine) := by
  unfold Aitisa.dropoutKernel; loc
loc_add Local.dropoutKernel

theorem Local.dropoutTemplate (t : Ptr) (rate : BitVec 64) : Local true (Aitisa.dropoutTemplate t rate) := by
  unfold Aitisa.dropoutTemplate; loc
loc_add Local.dropoutTemplate

theorem Local.dropout (h : Ptr) (rate : BitVec 64) (out : Ptr) : Local true (Aitisa.dropout h rate out) := by
  unfold Aitisa.dropout; loc
loc_add Local.dropout

theorem Local.softmaxExp (c : Code) (ip op : Ptr) (k : Int) (total : BitVec 64) : Local rnd (Aitisa.softmaxExp c ip op k total) := by
  unfold Aitisa.softmaxExp; loc
loc_add Local.softmaxExp

theorem Local.softmaxDiv (c : Code) (op : Ptr) (k : Int) (total : BitVec 64) : Local rnd (Aitisa.softmaxDiv c op k total) := by
  unfold Aitisa.softmaxDiv; loc
loc_add Local.softmaxDiv

theorem Local.softmaxRow (c : Code) (ip op : Ptr) (start stride n : Int) : Local rnd (Aitisa.softmaxRow c ip op start stride n) := by
  unfold Aitisa.softmaxRow; loc
loc_add Local.softmaxRow

theorem Local.batchSize (ds : List (Int × Bool)) : Local rnd (Aitisa.batchSize ds) := by
  unfold Aitisa.batchSize; loc
loc_add Local.batchSize

theorem Local.softmaxAxis (h : Ptr) (axis : Int) (t : Ptr) : Local rnd (Aitisa.softmaxAxis h axis t) := by
  unfold Aitisa.softmaxAxis; loc
loc_add Local.softmaxAxis

theorem Local.softmaxAll (h t : Ptr) : Local rnd (Aitisa.softmaxAll h t) := by
  unfold Aitisa.softmaxAll; loc
loc_add Local.softmaxAll

theorem Local.softmax (h : Ptr) (axis : Int) (out : Ptr) : Local rnd (Aitisa.softmax h axis out) := by
  unfold Aitisa.softmax; loc
loc_add Local.softmax

/-! ## Model/BatchNorm.lean -/

theorem Local.orRet {α : Type} {x : M (Status × Ptr)} {k : Ptr → M (α ⊕ Status)} (hx : Local rnd x) (hk : ∀ t, Local rnd (k t)) :
    Local rnd (Aitisa.orRet x k) := by
  unfold Aitisa.orRet; loc
macro_rules | `(tactic| loc_cont) => `(tactic| with_reducible refine Local.orRet ?_ (fun _ => ?_))

theorem Local.memcpyTo (dst : Ptr) (off : Int) (src : Ptr) (frm : Int) (n : Nat) : Local rnd (Aitisa.memcpyTo dst off src frm n) := by
  unfold Aitisa.memcpyTo; loc
loc_add Local.memcpyTo

theorem Local.bnPair (code : Nat) (nc : M Int) (a b : Ptr) (hnc : Local rnd nc) : Local rnd (Aitisa.bnPair code nc a b) := by
  unfold Aitisa.bnPair; loc
loc_add Local.bnPair

theorem Local.bnCheck (h : Ptr) (axis : Int) (sc bi me va : Ptr) (eps : BitVec 64) : Local rnd (Aitisa.bnCheck h axis sc bi me va eps) := by
  unfold Aitisa.bnCheck; loc
loc_add Local.bnCheck

theorem Local.bnCreate (h out : Ptr) : Local rnd (Aitisa.bnCreate h out) := by
  unfold Aitisa.bnCreate; loc
loc_add Local.bnCreate

theorem Local.bnOp {α : Type} (op : BinOp) (a b old : Ptr) {k : Ptr → M (α ⊕ Status)} (hk : ∀ t, Local rnd (k t)) :
    Local rnd (Aitisa.bnOp op a b old k) := by
  unfold Aitisa.bnOp; loc
macro_rules | `(tactic| loc_cont) => `(tactic| with_reducible refine Local.bnOp _ _ _ _ (fun _ => ?_))

theorem Local.bnChain (h : Ptr) (bg sz st : Arr) (ax : Arr) (nax : Int) (sc bi me de : Ptr) :
    Local rnd (Aitisa.bnChain h bg sz st ax nax sc bi me de) := by
  unfold Aitisa.bnChain; loc
loc_add Local.bnChain

theorem Local.bnCopy (op : Ptr) (s : Int) (t1 : Ptr) (sz : Nat) : Local rnd (Aitisa.bnCopy op s t1 sz) := by
  unfold Aitisa.bnCopy; loc
loc_add Local.bnCopy

theorem Local.bnRelease (t0 t1 : Ptr) (x : M Unit) (before : Bool) (hx : Local rnd x) : Local rnd (Aitisa.bnRelease t0 t1 x before) := by
  unfold Aitisa.bnRelease; loc
loc_add Local.bnRelease

theorem Local.bnRow (h sc bi me de op : Ptr) (sz : Nat) (size : List Int) (s : Nat) (b : Int) :
    Local rnd (Aitisa.bnRow h sc bi me de op sz size s b) := by
  unfold Aitisa.bnRow; loc
loc_add Local.bnRow

theorem Local.bnPlain (h sc bi me de t : Ptr) : Local rnd (Aitisa.bnPlain h sc bi me de t) := by
  unfold Aitisa.bnPlain; loc
loc_add Local.bnPlain

theorem Local.bnMove (marked : List (Int × Bool)) (off : List Int) (op p : Ptr) (sz : Nat) (i : Nat) (idx : List Int) :
    Local rnd (Aitisa.bnMove marked off op p sz i idx) := by
  unfold Aitisa.bnMove; loc
loc_add Local.bnMove

theorem Local.bnTransport (src dst : Ptr) (idx off : List Int) (axis : Int) : Local rnd (Aitisa.bnTransport src dst idx off axis) := by
  unfold Aitisa.bnTransport; loc
loc_add Local.bnTransport

theorem Local.BnArrs_get (A : BnArrs) (c : Nat) : Local rnd (Aitisa.BnArrs.get A c) := by
  unfold Aitisa.BnArrs.get; loc
loc_add Local.BnArrs_get

theorem Local.bnCell (h : Ptr) (axis : Int) (A : BnArrs) (t : Ptr) (size step off : List Int) (s : Nat) (c : Nat) (idx : List Int) :
    Local rnd (Aitisa.bnCell h axis A t size step off s c idx) := by
  unfold Aitisa.bnCell; loc
loc_add Local.bnCell

theorem Local.bnSample (h : Ptr) (axis : Int) (A : BnArrs) (t : Ptr) (size step off : List Int) (nc : Int) (s : Nat) (idx : List Int) :
    Local rnd (Aitisa.bnSample h axis A t size step off nc s idx) := by
  unfold Aitisa.bnSample; loc
loc_add Local.bnSample

theorem Local.bnLoops (h : Ptr) (axis : Int) (A : BnArrs) (t : Ptr) (nb nc : Int) (ds : List Int) :
    Local rnd (Aitisa.bnLoops h axis A t nb nc ds) := by
  unfold Aitisa.bnLoops; loc
loc_add Local.bnLoops

theorem Local.bnChannels (h : Ptr) (axis : Int) (A : BnArrs) (t : Ptr) : Local rnd (Aitisa.bnChannels h axis A t) := by
  unfold Aitisa.bnChannels; loc
loc_add Local.bnChannels

theorem Local.bnDenom (h va : Ptr) (eps : BitVec 64) : Local rnd (Aitisa.bnDenom h va eps) := by
  unfold Aitisa.bnDenom; loc
loc_add Local.bnDenom

theorem Local.bnSpread (src dst : Ptr) (c : Nat) (size : Int) (sz : Nat) : Local rnd (Aitisa.bnSpread src dst c size sz) := by
  unfold Aitisa.bnSpread; loc
loc_add Local.bnSpread

theorem Local.bnSpreads (me sc bi va : Ptr) (m s b v : Ptr) (c : Nat) (size : Int) (sz : Nat) :
    Local rnd (Aitisa.bnSpreads me sc bi va m s b v c size sz) := by
  unfold Aitisa.bnSpreads; loc
loc_add Local.bnSpreads

theorem Local.bnNew {α : Type} (dt : DType) (dev : Device) (pds : Arr) (n : Int) (p : Ptr) (c : Nat) {k : Ptr → M (α ⊕ Status)} (hk : ∀ t, Local rnd (k t)) :
    Local rnd (Aitisa.bnNew dt dev pds n p c k) := by
  unfold Aitisa.bnNew; loc
macro_rules | `(tactic| loc_cont) => `(tactic| with_reducible refine Local.bnNew _ _ _ _ _ _ (fun _ => ?_))

theorem Local.bnChan (dt : DType) (dev : Device) (pds : Arr) (n size : Int) (sc bi me va e : Ptr) (P : BnPtrs) (c : Nat) (l : List (BnChan × Ptr)) :
    Local rnd (Aitisa.bnChan dt dev pds n size sc bi me va e P c l) := by
  unfold Aitisa.bnChan; loc
loc_add Local.bnChan

theorem Local.bnDropTemp (l : List (BnChan × Ptr)) (i : Nat) : Local rnd (Aitisa.bnDropTemp l i) := by
  unfold Aitisa.bnDropTemp; loc
loc_add Local.bnDropTemp

theorem Local.bnParamsEnd (e : Ptr) (P : BnPtrs) (pp : Ptr) (nc : Int) (l : List (BnChan × Ptr)) :
    Local rnd (Aitisa.bnParamsEnd e P pp nc l) := by
  unfold Aitisa.bnParamsEnd; loc
loc_add Local.bnParamsEnd

theorem Local.bnParamsMain (dt : DType) (dev : Device) (pp : Ptr) (pds : List Int) (nc : Int) (sc bi me va : Ptr) (eps : BitVec 64) :
    Local rnd (Aitisa.bnParamsMain dt dev pp pds nc sc bi me va eps) := by
  unfold Aitisa.bnParamsMain; loc
loc_add Local.bnParamsMain

theorem Local.bnParams (h : Ptr) (axis : Int) (sc bi me va : Ptr) (eps : BitVec 64) :
    Local rnd (Aitisa.bnParams h axis sc bi me va eps) := by
  unfold Aitisa.bnParams; loc
loc_add Local.bnParams

theorem Local.bnDrop (A : BnArrs) (i : Nat) : Local rnd (Aitisa.bnDrop A i) := by
  unfold Aitisa.bnDrop; loc
loc_add Local.bnDrop

theorem Local.bnEnd (h : Ptr) (axis : Int) (A : BnArrs) : Local rnd (Aitisa.bnEnd h axis A) := by
  unfold Aitisa.bnEnd; loc
loc_add Local.bnEnd

theorem Local.bnMain (h : Ptr) (axis : Int) (sc bi me va : Ptr) (eps : BitVec 64) (t : Ptr) :
    Local rnd (Aitisa.bnMain h axis sc bi me va eps t) := by
  unfold Aitisa.bnMain; loc
loc_add Local.bnMain

theorem Local.batchNorm (h : Ptr) (axis : Int) (sc bi me va : Ptr) (eps : BitVec 64) (out : Ptr) :
    Local rnd (Aitisa.batchNorm h axis sc bi me va eps out) := by
  unfold Aitisa.batchNorm; loc
loc_add Local.batchNorm

end Aitisa
