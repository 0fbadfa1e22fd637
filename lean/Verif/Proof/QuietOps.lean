import Verif.Proof.Quiet

/-!
# The quiet functions of the model
-/

namespace Aitisa

variable {n : Nat}

theorem Quiet.sizeOfDims (a : Arr) (k : Int) : Quiet n (sizeOfDims a k) fun _ => True := by
  unfold Aitisa.sizeOfDims; quiet
quiet_add Quiet.sizeOfDims

theorem Quiet.lenMismatch (a b : Nat) (k : Int) : Quiet n (lenMismatch a b k) fun _ => True := by
  unfold Aitisa.lenMismatch; quiet
quiet_add Quiet.lenMismatch

theorem Quiet.mapLoop (c c' : Code) (ip : Ptr) {op : Ptr} (hp : op.New n) (size : Int) (f : Val → Except UB Val) :
    Quiet n (mapLoop c c' ip op size f) fun _ => True := by
  unfold Aitisa.mapLoop; quiet
quiet_add Quiet.mapLoop

theorem Quiet.castTemplate (h : Ptr) (dt : DType) {t : Ptr} (ht : t.New n) : Quiet n (castTemplate h dt t) fun _ => True := by
  unfold Aitisa.castTemplate; quiet
quiet_add Quiet.castTemplate

theorem Quiet.squeezeBadAxis (a : Arr) (k : Int) : Quiet n (squeezeBadAxis a k) fun _ => True := by
  unfold Aitisa.squeezeBadAxis; quiet
quiet_add Quiet.squeezeBadAxis

theorem Quiet.squeezeMark (a : Arr) (k : Int) (b : Arr) (l : Int) : Quiet n (squeezeMark a k b l) fun _ => True := by
  unfold Aitisa.squeezeMark; quiet
quiet_add Quiet.squeezeMark

theorem Quiet.squeezeCompact (a : Arr) (k l : Int) : Quiet n (squeezeCompact a k l) fun _ => True := by
  unfold Aitisa.squeezeCompact; quiet
quiet_add Quiet.squeezeCompact

theorem Quiet.sliceBad (a b c d : Arr) (i : Nat) : Quiet n (sliceBad a b c d i) fun _ => True := by
  unfold Aitisa.sliceBad; quiet
quiet_add Quiet.sliceBad

theorem Quiet.sliceCheck (a : Arr) (k : Int) (b c d : Arr) : Quiet n (sliceCheck a k b c d) fun _ => True := by
  unfold Aitisa.sliceCheck; quiet
quiet_add Quiet.sliceCheck

theorem Quiet.rdAll (a : Arr) (k : Nat) : Quiet n (rdAll a k) fun _ => True := by
  induction k with
  | zero => exact Quiet.pure trivial
  | succ k ih => exact Quiet.bind ih fun _ _ => by quiet
quiet_add Quiet.rdAll

theorem Quiet.sliceTouch (p : Ptr) (l : List Int) : Quiet n (sliceTouch p l) fun _ => True := by
  unfold Aitisa.sliceTouch; quiet
quiet_add Quiet.sliceTouch

theorem Quiet.offsets (l : List Int) : Quiet n (offsets l) fun _ => True := by
  induction l with
  | nil => exact Quiet.ub _
  | cons d l ih =>
    cases l with
    | nil => exact Quiet.pure trivial
    | cons d' r => exact Quiet.bind ih fun _ _ => by quiet
quiet_add Quiet.offsets

theorem Quiet.linIdx (a b : List Int) : Quiet n (linIdx a b) fun _ => True := by
  unfold Aitisa.linIdx; quiet
quiet_add Quiet.linIdx

theorem Quiet.sliceKernel (c : Code) (ip : Ptr) {op : Ptr} (hp : op.New n) (k : Int) (ax : List SliceAxis) (off : List Int) :
    Quiet n (sliceKernel c ip op k ax off) fun _ => True := by
  unfold Aitisa.sliceKernel; quiet
quiet_add Quiet.sliceKernel

theorem Quiet.bcastBoth (a : Arr) (k : Int) (b : Arr) (l o : Int) (i : Nat) (x : Arr) :
    Quiet n (bcastBoth a k b l o i x) fun _ => True := by
  unfold Aitisa.bcastBoth; quiet
quiet_add Quiet.bcastBoth

theorem Quiet.bcastOne (a : Arr) (k l : Int) (i : Nat) (x : Arr) : Quiet n (bcastOne a k l i x) fun _ => True := by
  unfold Aitisa.bcastOne; quiet
quiet_add Quiet.bcastOne

theorem Quiet.broadcastArray (a : Arr) (k : Int) (b : Arr) (l : Int) (x : Arr) (o : Int) :
    Quiet n (broadcastArray a k b l x o) fun _ => True := by
  unfold Aitisa.broadcastArray; quiet
quiet_add Quiet.broadcastArray

theorem Quiet.getStride (h : Ptr) (k : Int) : Quiet n (getStride h k) fun _ => True := by
  unfold Aitisa.getStride; quiet
quiet_add Quiet.getStride

theorem Quiet.getAllStrides (h : Ptr) (a : Arr) : Quiet n (getAllStrides h a) fun _ => True := by
  unfold Aitisa.getAllStrides; quiet
quiet_add Quiet.getAllStrides

theorem Quiet.assertCoords (a b : Arr) (k l : Int) : Quiet n (assertCoords a b k l) fun _ => True := by
  unfold Aitisa.assertCoords
  refine Quiet.bind (Quiet.cAssert _) fun _ _ => ?_
  refine Quiet.forI (I := fun _ => True) (fun i _ _ => ?_) _ trivial
  intro E m x m' s e
  by_cases hE : E.asserts = true
  · simp only [hE, if_true] at e
    have q : Quiet n (do
      let c ← b.rd i
      Aitisa.cAssert (c ≥ 0)
      let d ← a.rd i
      Aitisa.cAssert (c < d)) fun _ => True := by quiet
    obtain ⟨s1, -, i1⟩ := q E m x m' s e
    exact ⟨s1, trivial, fun L hL => (if_pos hE).trans (i1 L hL)⟩
  · simp only [hE] at e; cases e; exact ⟨Same.refl _ _, trivial, fun L hL => by simp only [hE]; rfl⟩
quiet_add Quiet.assertCoords

theorem Quiet.coordsToLinidx (h : Ptr) (a : Arr) (k : Int) : Quiet n (coordsToLinidx h a k) fun _ => True := by
  unfold Aitisa.coordsToLinidx; quiet
quiet_add Quiet.coordsToLinidx

theorem Quiet.cDivMod (a b d : Int) : Quiet n (cDivMod a b d) fun _ => True := by
  unfold Aitisa.cDivMod; quiet
quiet_add Quiet.cDivMod

theorem Quiet.linidxToCoords (h : Ptr) (k : Int) (a : Arr) : Quiet n (linidxToCoords h k a) fun _ => True := by
  unfold Aitisa.linidxToCoords; quiet
quiet_add Quiet.linidxToCoords

theorem Quiet.coordsToOffset (h : Ptr) (a : Arr) (k : Int) : Quiet n (coordsToOffset h a k) fun _ => True := by
  unfold Aitisa.coordsToOffset; quiet
quiet_add Quiet.coordsToOffset

theorem Quiet.offsetToCoords (h : Ptr) (k : Int) (a : Arr) : Quiet n (offsetToCoords h k a) fun _ => True := by
  unfold Aitisa.offsetToCoords; quiet
quiet_add Quiet.offsetToCoords

theorem Quiet.resolve (h : Ptr) : Quiet n (resolve h) fun _ => True := by
  unfold Aitisa.resolve; quiet
quiet_add Quiet.resolve

theorem Quiet.sqrtKernel (c : Code) (ip : Ptr) {op : Ptr} (hp : op.New n) (size : Int) :
    Quiet n (sqrtKernel c ip op size) fun _ => True := by
  unfold Aitisa.sqrtKernel; quiet
quiet_add Quiet.sqrtKernel

theorem Quiet.dropoutKernel (c : Code) {op : Ptr} (hp : op.New n) (k l : Int) :
    Quiet n (dropoutKernel c op k l) fun _ => True := by
  unfold Aitisa.dropoutKernel; quiet
quiet_add Quiet.dropoutKernel

theorem Quiet.dropoutTemplate {t : Ptr} (ht : t.New n) (r : BitVec 64) : Quiet n (dropoutTemplate t r) fun _ => True := by
  unfold Aitisa.dropoutTemplate; quiet
quiet_add Quiet.dropoutTemplate

theorem Quiet.softmaxExp (c : Code) (ip : Ptr) {op : Ptr} (hp : op.New n) (k : Int) (t : BitVec 64) :
    Quiet n (softmaxExp c ip op k t) fun _ => True := by
  unfold Aitisa.softmaxExp; quiet
quiet_add Quiet.softmaxExp

theorem Quiet.softmaxDiv (c : Code) {op : Ptr} (hp : op.New n) (k : Int) (t : BitVec 64) :
    Quiet n (softmaxDiv c op k t) fun _ => True := by
  unfold Aitisa.softmaxDiv; quiet
quiet_add Quiet.softmaxDiv

theorem Quiet.softmaxRow (c : Code) (ip : Ptr) {op : Ptr} (hp : op.New n) (a b k : Int) :
    Quiet n (softmaxRow c ip op a b k) fun _ => True := by
  unfold Aitisa.softmaxRow; quiet
quiet_add Quiet.softmaxRow

theorem Quiet.batchSize (l : List (Int × Bool)) : Quiet n (batchSize l) fun _ => True := by
  unfold Aitisa.batchSize; quiet
quiet_add Quiet.batchSize

theorem Quiet.softmaxAll (h : Ptr) {t : Ptr} (ht : t.New n) : Quiet n (softmaxAll h t) fun _ => True := by
  unfold Aitisa.softmaxAll; quiet
quiet_add Quiet.softmaxAll

theorem Quiet.copyElem (c : Code) (ip : Ptr) (i : Int) {op : Ptr} (hp : op.New n) (j : Int) :
    Quiet n (copyElem c ip i op j) fun _ => True := by
  unfold Aitisa.copyElem; quiet
quiet_add Quiet.copyElem

theorem Quiet.binStep (c : Code) (op : BinOp) (p1 p2 : Ptr) {a b r q : Ptr} (ha : a.New n) (hb : b.New n) (hr : r.New n) (hq : q.New n) (i : Int) :
    Quiet n (binStep c op p1 p2 a b r q i) fun _ => True := by
  unfold Aitisa.binStep; quiet
quiet_add Quiet.binStep

theorem Quiet.binLoop (dt : DType) (op : BinOp) (p1 p2 : Ptr) {a b r q : Ptr} (ha : a.New n) (hb : b.New n) (hr : r.New n) (hq : q.New n) (i : Int) :
    Quiet n (binLoop dt op p1 p2 a b r q i) fun _ => True := by
  unfold Aitisa.binLoop; quiet
quiet_add Quiet.binLoop

theorem Quiet.dimsDiffer (a b : Arr) (k : Int) : Quiet n (dimsDiffer a b k) fun _ => True := by
  unfold Aitisa.dimsDiffer; quiet
quiet_add Quiet.dimsDiffer

theorem Quiet.macStep (c : Code) (a b : Ptr) {r : Ptr} (hr : r.New n) (i j k : Int) :
    Quiet n (macStep c a b r i j k) fun _ => True := by
  unfold Aitisa.macStep; quiet
quiet_add Quiet.macStep

theorem Quiet.idx2 (i j k : Int) : Quiet n (idx2 i j k) fun _ => True := by
  unfold Aitisa.idx2; quiet
quiet_add Quiet.idx2

theorem Quiet.vvKernel (c : Code) (a b : Ptr) {r : Ptr} (hr : r.New n) (k : Int) :
    Quiet n (vvKernel c a b r k) fun _ => True := by
  unfold Aitisa.vvKernel; quiet
quiet_add Quiet.vvKernel

theorem Quiet.mvKernel (c : Code) (a b : Ptr) {r : Ptr} (hr : r.New n) (k l : Int) :
    Quiet n (mvKernel c a b r k l) fun _ => True := by
  unfold Aitisa.mvKernel; quiet
quiet_add Quiet.mvKernel

theorem Quiet.mmBody (c : Code) (a b : Ptr) {r : Ptr} (hr : r.New n) (oa ob oc k l i j q : Int) :
    Quiet n (mmBody c a b r oa ob oc k l i j q) fun _ => True := by
  unfold Aitisa.mmBody; quiet
quiet_add Quiet.mmBody

theorem Quiet.mmKernel (c : Code) (a b : Ptr) {r : Ptr} (hr : r.New n) (oa ob oc k l o : Int) :
    Quiet n (mmKernel c a b r oa ob oc k l o) fun _ => True := by
  unfold Aitisa.mmKernel; quiet
quiet_add Quiet.mmKernel

theorem Quiet.withCode (dt : DType) {k : Code → M Unit} (hk : ∀ c, Quiet n (k c) fun _ => True) :
    Quiet n (withCode dt k) fun _ => True := by
  unfold Aitisa.withCode; quiet
quiet_add Quiet.withCode

theorem Quiet.sizeToDim (k : Int) (a : Arr) : Quiet n (sizeToDim k a) fun _ => True := by
  unfold Aitisa.sizeToDim; quiet
quiet_add Quiet.sizeToDim

theorem Quiet.elemOff (k l : Int) (z : Nat) : Quiet n (elemOff k l z) fun _ => True := by
  unfold Aitisa.elemOff; quiet
quiet_add Quiet.elemOff

theorem Quiet.touch3 (a b c : Ptr) (i : Int) : Quiet n (touch3 a b c i) fun _ => True := by
  unfold Aitisa.touch3; quiet
quiet_add Quiet.touch3

theorem Quiet.batchPtrs (a b c : Ptr) (s1 s2 s3 : Int) (z : Nat) (nb : Int) {f : Nat → M (Int × Int)} (hf : ∀ i, Quiet n (f i) fun _ => True) :
    Quiet n (batchPtrs a b c s1 s2 s3 z nb f) fun _ => True := by
  unfold Aitisa.batchPtrs; quiet
quiet_add Quiet.batchPtrs

theorem Quiet.batchKernel (c : Code) (a b : Ptr) {r : Ptr} (hr : r.New n) (l : List (Int × Int × Int)) (i j k o : Int) :
    Quiet n (batchKernel c a b r l i j k o) fun _ => True := by
  unfold Aitisa.batchKernel; quiet
quiet_add Quiet.batchKernel

theorem Quiet.batchDim (a : Arr) (k i : Int) : Quiet n (batchDim a k i) fun _ => True := by
  unfold Aitisa.batchDim; quiet
quiet_add Quiet.batchDim

theorem Quiet.bstrideStep (a : Arr) (k l : Int) (i : Nat) (s : Arr × Int) : Quiet n (bstrideStep a k l i s) fun _ => True := by
  unfold Aitisa.bstrideStep; quiet
quiet_add Quiet.bstrideStep

theorem Quiet.batchStrides (a : Arr) (k l : Int) : Quiet n (batchStrides a k l) fun _ => True := by
  unfold Aitisa.batchStrides; quiet
quiet_add Quiet.batchStrides

theorem Quiet.cMod (a b : Int) : Quiet n (offsStep.cMod a b) fun _ => True := by unfold Aitisa.offsStep.cMod; quiet
quiet_add Quiet.cMod

theorem Quiet.offsStep (a b c : Arr) (k : Int) (j : Nat) (s : Int × Int × Int) : Quiet n (offsStep a b c k j s) fun _ => True := by
  unfold Aitisa.offsStep; quiet
quiet_add Quiet.offsStep

theorem Quiet.batchOffs (a b c : Arr) (k : Int) (i : Nat) : Quiet n (batchOffs a b c k i) fun _ => True := by
  unfold Aitisa.batchOffs; quiet
quiet_add Quiet.batchOffs

theorem Quiet.dotKernel (c : Code) (a b : Ptr) {r : Ptr} (hr : r.New n) (k : Int) :
    Quiet n (dotKernel c a b r k) fun _ => True := by
  unfold Aitisa.dotKernel; quiet
quiet_add Quiet.dotKernel

theorem Quiet.dotGetValue (h : Ptr) : Quiet n (dotGetValue h) fun _ => True := by
  unfold Aitisa.dotGetValue; quiet
quiet_add Quiet.dotGetValue

theorem Quiet.mdCount (a : Arr) (k : Int) : Quiet n (mdCount a k) fun _ => True := by
  unfold Aitisa.mdCount; quiet
quiet_add Quiet.mdCount

theorem Quiet.mdOff (a b c : Int) (z : Nat) : Quiet n (mdOff a b c z) fun _ => True := by
  unfold Aitisa.mdOff; quiet
quiet_add Quiet.mdOff

theorem Quiet.poolSpan (k d : Int) : Quiet n (poolSpan k d) fun _ => True := by
  unfold Aitisa.poolSpan; quiet
quiet_add Quiet.poolSpan

theorem Quiet.poolCheck (a b c d : Arr) (k : Nat) : Quiet n (poolCheck a b c d k) fun _ => True := by
  unfold Aitisa.poolCheck; quiet
quiet_add Quiet.poolCheck

theorem Quiet.poolOut (a : PAxis) : Quiet n (poolOut a) fun _ => True := by
  unfold Aitisa.poolOut; quiet
quiet_add Quiet.poolOut

theorem Quiet.poolOuts (l : List PAxis) : Quiet n (poolOuts l) fun _ => True := by
  induction l with
  | nil => exact Quiet.pure trivial
  | cons a l ih => unfold Aitisa.poolOuts; exact Quiet.bind (Quiet.poolOut a) fun _ _ => Quiet.bind ih fun _ _ => Quiet.pure trivial
quiet_add Quiet.poolOuts

theorem Quiet.poolSize (l : List PAxis) (w : Int) : Quiet n (poolSize l w) fun _ => True := by
  induction l generalizing w with
  | nil => exact Quiet.pure trivial
  | cons a l ih => unfold Aitisa.poolSize; exact Quiet.bind (Quiet.i64 _) fun _ _ => ih _
quiet_add Quiet.poolSize

theorem Quiet.poolHead (a : PAxis) : Quiet n (poolHead a) fun _ => True := by
  unfold Aitisa.poolHead; quiet
quiet_add Quiet.poolHead

theorem Quiet.poolHeads (l : List PAxis) : Quiet n (poolHeads l) fun _ => True := by
  induction l with
  | nil => exact Quiet.pure trivial
  | cons a l ih => unfold Aitisa.poolHeads; exact Quiet.bind (Quiet.poolHead a) fun _ _ => Quiet.bind ih fun _ _ => Quiet.pure trivial
quiet_add Quiet.poolHeads

theorem Quiet.poolOffset (l : List PAxis) (a b : List Int) (o : Int) : Quiet n (poolOffset l a b o) fun _ => True := by
  induction l generalizing a b o with
  | nil => unfold Aitisa.poolOffset; exact Quiet.pure trivial
  | cons x l ih =>
    unfold Aitisa.poolOffset
    split
    · next h => cases h; exact Quiet.ite (fun _ => Quiet.bind (Quiet.i64 _) fun _ _ => Quiet.bind (Quiet.i64 _) fun _ _ => ih _ _ _) fun _ => Quiet.pure trivial
    · exact Quiet.pure trivial
quiet_add Quiet.poolOffset

theorem Quiet.poolNextElem (l : List PAxis) (a : List (Int × Int)) (b : List Int) : Quiet n (poolNextElem l a b) fun _ => True := by
  induction l generalizing a b with
  | nil => unfold Aitisa.poolNextElem; exact Quiet.pure trivial
  | cons x l ih =>
    unfold Aitisa.poolNextElem
    split
    · next h => cases h; exact Quiet.bind (ih _ _) fun _ _ => by quiet
    · exact Quiet.pure trivial
quiet_add Quiet.poolNextElem

theorem Quiet.poolNextWin (l : List PAxis) (a : List (Int × Int)) : Quiet n (poolNextWin l a) fun _ => True := by
  induction l generalizing a with
  | nil => unfold Aitisa.poolNextWin; exact Quiet.pure trivial
  | cons x l ih =>
    unfold Aitisa.poolNextWin
    split
    · next h => cases h; exact Quiet.bind (ih _) fun _ _ => by quiet
    · exact Quiet.pure trivial
quiet_add Quiet.poolNextWin

theorem Quiet.poolAcc (s : String) (c : Code) (p : Ptr) (o : Int) (t : BitVec 64) :
    Quiet n (poolAcc s c p o t) fun _ => True := by
  unfold Aitisa.poolAcc; quiet
quiet_add Quiet.poolAcc

theorem Quiet.poolVisit (s : String) (c : Option Code) (p : Ptr) (t : BitVec 64) (o : Option Int) :
    Quiet n (poolVisit s c p t o) fun _ => True := by
  unfold Aitisa.poolVisit; quiet
quiet_add Quiet.poolVisit

theorem Quiet.poolElem (s : String) (c : Option Code) (p : Ptr) (as : List PAxis) (l : List Int) (b : Int) (w : List (Int × Int)) (x : List Int × BitVec 64) :
    Quiet n (poolElem s c p as l b w x) fun _ => True := by
  unfold Aitisa.poolElem; quiet
quiet_add Quiet.poolElem

theorem Quiet.poolStore (s : String) (c : Code) {p : Ptr} (hp : p.New n) (o : Int) (t : BitVec 64) (k : Int) :
    Quiet n (poolStore s c p o t k) fun _ => True := by
  unfold Aitisa.poolStore; quiet
quiet_add Quiet.poolStore

theorem Quiet.poolWindow (k : Nat) (s : String) (c : Option Code) (ip : Ptr) {p : Ptr} (hp : p.New n) (as : List PAxis) (l : List Int) (a b d e : Int) (x : List (Int × Int) × Int) :
    Quiet n (poolWindow k s c ip p as l a b d e x) fun _ => True := by
  unfold Aitisa.poolWindow; quiet
quiet_add Quiet.poolWindow

theorem Quiet.poolBase (a b c d : Int) : Quiet n (poolBase a b c d) fun _ => True := by
  unfold Aitisa.poolBase; quiet
quiet_add Quiet.poolBase

theorem Quiet.poolChannel (k : Nat) (s : String) (c : Option Code) (ip : Ptr) {p : Ptr} (hp : p.New n) (as : List PAxis) (l l' : List Int) (a : Int) (i j : Nat) :
    Quiet n (poolChannel k s c ip p as l l' a i j) fun _ => True := by
  unfold Aitisa.poolChannel; quiet
quiet_add Quiet.poolChannel

theorem Quiet.poolSample (a b c : Ptr) {f : Nat → M (Unit ⊕ Status)} (hf : ∀ i, Quiet n (f i) fun _ => True) (k : Nat) :
    Quiet n (poolSample a b c f k) fun _ => True := by
  unfold Aitisa.poolSample; quiet
quiet_add Quiet.poolSample

theorem Quiet.poolFill (k : Nat) (s : String) (h : Ptr) {t : Ptr} (ht : t.New n) (nd : Int) (dims : Arr) (as : List PAxis) (a b c d e : Ptr) :
    Quiet n (poolFill k s h t nd dims as a b c d e) fun _ => True := by
  unfold Aitisa.poolFill; quiet
quiet_add Quiet.poolFill

theorem Quiet.fallGet (j : Fall) : Quiet n j.get fun _ => True := by
  cases j with
  | none => exact Quiet.ub _
  | some st => exact Quiet.pure trivial
quiet_add Quiet.fallGet

theorem Quiet.convOut (a : PAxis) : Quiet n (convOut a) fun _ => True := by
  unfold Aitisa.convOut; quiet
quiet_add Quiet.convOut

theorem Quiet.convOuts (l : List PAxis) : Quiet n (convOuts l) fun _ => True := by
  induction l with
  | nil => exact Quiet.pure trivial
  | cons a l ih => unfold Aitisa.convOuts; exact Quiet.bind (Quiet.convOut a) fun _ _ => Quiet.bind ih fun _ _ => Quiet.pure trivial
quiet_add Quiet.convOuts

theorem Quiet.sizeFrom2 (a : Arr) (k : Int) : Quiet n (sizeFrom2 a k) fun _ => True := by
  unfold Aitisa.sizeFrom2; quiet
quiet_add Quiet.sizeFrom2

theorem Quiet.convStart (l : List PAxis) (a : List Int) : Quiet n (convStart l a) fun _ => True := by
  induction l generalizing a with
  | nil => unfold Aitisa.convStart; exact Quiet.pure trivial
  | cons x l ih =>
    unfold Aitisa.convStart
    split
    · next h => cases h; exact Quiet.bind (Quiet.i64 _) fun _ _ => Quiet.bind (Quiet.i64 _) fun _ _ => Quiet.bind (ih _) fun _ _ => Quiet.pure trivial
    · exact Quiet.pure trivial
quiet_add Quiet.convStart

theorem Quiet.convProbe (l : List PAxis) (a b : List Int) : Quiet n (convProbe l a b) fun _ => True := by
  induction l generalizing a b with
  | nil => unfold Aitisa.convProbe; exact Quiet.pure trivial
  | cons x l ih =>
    unfold Aitisa.convProbe
    split
    · next h =>
      cases h
      exact Quiet.bind (Quiet.i64 _) fun _ _ => Quiet.bind (Quiet.i64 _) fun _ _ =>
        Quiet.ite (fun _ => Quiet.pure trivial) fun _ => Quiet.bind (ih _ _) fun _ _ => Quiet.pure trivial
    · exact Quiet.pure trivial
quiet_add Quiet.convProbe

theorem Quiet.coordsAt (h : Ptr) (i j a b : Int) : Quiet n (coordsAt h i j a b) fun _ => True := by
  unfold Aitisa.coordsAt; quiet
quiet_add Quiet.coordsAt

theorem Quiet.convAdd (h f p q : Ptr) (nd b ic : Int) (a : Arr) (t : BitVec 32) (o : Option (List Int)) :
    Quiet n (convAdd h f p q nd b ic a t o) fun _ => True := by
  unfold Aitisa.convAdd; quiet
quiet_add Quiet.convAdd

theorem Quiet.convTap (h f p q a b : Ptr) (nd : Int) (as : List PAxis) (s : List Int) (x y z : Int) (j : Nat) (t : BitVec 32) :
    Quiet n (convTap h f p q a b nd as s x y z j t) fun _ => True := by
  unfold Aitisa.convTap; quiet
quiet_add Quiet.convTap

theorem Quiet.convChan (h f t p q : Ptr) {r : Ptr} (hr : r.New n) (a b : Ptr) (nd : Int) (as : List PAxis) (s : List Int) (x y : Int) (z : Nat) (o : Arr) (j : Nat) (u : BitVec 32) :
    Quiet n (convChan h f t p q r a b nd as s x y z o j u) fun _ => True := by
  unfold Aitisa.convChan; quiet
quiet_add Quiet.convChan

theorem Quiet.convElem (h f t p q : Ptr) {r : Ptr} (hr : r.New n) (a b c d : Ptr) (nd : Int) (as : List PAxis) (x y : Nat) (z w : Int) (j : Nat) :
    Quiet n (convElem h f t p q r a b c d nd as x y z w j) fun _ => True := by
  unfold Aitisa.convElem; quiet
quiet_add Quiet.convElem

theorem Quiet.convFill (h f : Ptr) {t : Ptr} (ht : t.New n) (a b c d e g i : Ptr) (nd : Int) (as : List PAxis) (o : Arr) :
    Quiet n (convFill h f t a b c d e g i nd as o) fun _ => True := by
  unfold Aitisa.convFill; quiet
quiet_add Quiet.convFill

theorem Quiet.bnPair (c : Nat) {k : M Int} (hk : Quiet n k fun _ => True) (a b : Ptr) :
    Quiet n (bnPair c k a b) fun _ => True := by
  unfold Aitisa.bnPair; quiet
quiet_add Quiet.bnPair

theorem Quiet.bnCheck (h : Ptr) (k : Int) (a b c d : Ptr) (e : BitVec 64) : Quiet n (bnCheck h k a b c d e) fun _ => True := by
  unfold Aitisa.bnCheck; quiet
quiet_add Quiet.bnCheck

theorem Quiet.bnCopy {p : Ptr} (hp : p.New n) (s : Int) (t : Ptr) (z : Nat) : Quiet n (bnCopy p s t z) fun _ => True := by
  unfold Aitisa.bnCopy; quiet
quiet_add Quiet.bnCopy

theorem Quiet.bnMove (k : List (Int × Bool)) (o : List Int) {p : Ptr} (hp : p.New n) (q : Ptr) (z i : Nat) (l : List Int) :
    Quiet n (bnMove k o p q z i l) fun _ => True := by
  unfold Aitisa.bnMove; quiet
quiet_add Quiet.bnMove

theorem Quiet.bnTransport (s : Ptr) {t : Ptr} (ht : t.New n) (a b : List Int) (k : Int) :
    Quiet n (bnTransport s t a b k) fun _ => True := by
  unfold Aitisa.bnTransport; quiet
quiet_add Quiet.bnTransport

theorem Quiet.bnSpread (s : Ptr) {t : Ptr} (ht : t.New n) (c : Nat) (k : Int) (z : Nat) :
    Quiet n (bnSpread s t c k z) fun _ => True := by
  unfold Aitisa.bnSpread; quiet
quiet_add Quiet.bnSpread

theorem Quiet.bnSpreads (a b c d : Ptr) {e f g h : Ptr} (he : e.New n) (hf : f.New n) (hg : g.New n) (hh : h.New n) (i : Nat) (k : Int) (z : Nat) :
    Quiet n (bnSpreads a b c d e f g h i k z) fun _ => True := by
  unfold Aitisa.bnSpreads; quiet
quiet_add Quiet.bnSpreads

end Aitisa
