import Verif.Proof.Gives

/-!
# The statuses that the functions of the model can return
-/

namespace Aitisa

variable {E : Env}

theorem GP.create (dt : DType) (dev : Device) (dims : Arr) (n : Int) (len : Nat) (out : Ptr) : GP E [.success, .allocFailed] (Aitisa.create dt dev dims n .null len out) := by
  unfold Aitisa.create; giv <;> simp_all <;> giv
giv_add GP.create

theorem GP.full (dt : DType) (dev : Device) (dims : Arr) (n : Int) (v : BitVec 64) (out : Ptr) : GP E [.success, .allocFailed] (Aitisa.full dt dev dims n v out) := by
  unfold Aitisa.full; giv
giv_add GP.full

theorem GS.castTemplate (h : Ptr) (dt : DType) (t : Ptr) : GS E [.success, .notSupported] (Aitisa.castTemplate h dt t) := by
  unfold Aitisa.castTemplate; giv
giv_add GS.castTemplate

theorem GP.cast (h : Ptr) (dt : DType) (out : Ptr) : GP E [.success, .allocFailed, .notSupported] (Aitisa.cast h dt out) := by
  unfold Aitisa.cast; giv
giv_add GP.cast

theorem GP.reshape (h : Ptr) (dims : Arr) (n : Int) (out : Ptr) : GP E [.success, .allocFailed, .dimensionsMismatch] (Aitisa.reshape h dims n out) := by
  unfold Aitisa.reshape; giv
giv_add GP.reshape

theorem GP.squeeze (h : Ptr) (ax : Arr) (n : Int) (out : Ptr) : GP E [.success, .allocFailed, .dimensionsMismatch, .invalidArgument] (Aitisa.squeeze h ax n out) := by
  unfold Aitisa.squeeze; giv
giv_add GP.squeeze

theorem GS.sliceCheck (d : Arr) (n : Int) (a b c : Arr) : GS E [.success, .invalidArgument] (Aitisa.sliceCheck d n a b c) := by
  unfold Aitisa.sliceCheck; giv
giv_add GS.sliceCheck

theorem GP.sliceCreate (h : Ptr) (a b : List Int) (out : Ptr) : GP E [.success, .allocFailed] (Aitisa.sliceCreate h a b out) := by
  unfold Aitisa.sliceCreate; giv
giv_add GP.sliceCreate

theorem GS.sliceTemplate (h : Ptr) (a b c : List Int) (t : Ptr) : GS E [.success, .allocFailed, .notSupported] (Aitisa.sliceTemplate h a b c t) := by
  unfold Aitisa.sliceTemplate; giv
giv_add GS.sliceTemplate

theorem GP.slice (h : Ptr) (a b c : Arr) (out : Ptr) : GP E [.success, .allocFailed, .notSupported, .invalidArgument] (Aitisa.slice h a b c out) := by
  unfold Aitisa.slice; giv
giv_add GP.slice

theorem GP.duplicate (h out : Ptr) : GP E [.success, .allocFailed, .notSupported, .invalidArgument] (Aitisa.duplicate h out) := by
  unfold Aitisa.duplicate; giv
giv_add GP.duplicate

theorem GP.broadcastArray (d1 : Arr) (n1 : Int) (d2 : Arr) (n2 : Int) (o : Arr) (n : Int) : GP E [.success, .dimensionsMismatch] (Aitisa.broadcastArray d1 n1 d2 n2 o n) := by
  unfold Aitisa.broadcastArray; giv
giv_add GP.broadcastArray

theorem GP.binFill (op : BinOp) (h1 h2 : Ptr) (d : Arr) (n : Int) (out : Ptr) : GP E [.success, .allocFailed] (Aitisa.binFill op h1 h2 d n out) := by
  unfold Aitisa.binFill; giv
giv_add GP.binFill

theorem GP.binaryOp (op : BinOp) (h1 h2 out : Ptr) : GP E [.success, .allocFailed, .notSupported, .invalidArgument, .typeMismatch] (Aitisa.binaryOp op h1 h2 out) := by
  unfold Aitisa.binaryOp; giv
giv_add GP.binaryOp

theorem GS.withCode (dt : DType) (k : Code → M Unit) : GS E [.success, .notSupported] (Aitisa.withCode dt k) := by
  unfold Aitisa.withCode; giv
giv_add GS.withCode

theorem GP.matFull (h : Ptr) (d : Arr) (n : Int) (out : Ptr) : GP E [.success, .allocFailed] (Aitisa.matFull h d n out) := by
  unfold Aitisa.matFull; giv
giv_add GP.matFull

theorem GP.matPlain (h1 h2 : Ptr) (d : Arr) (n : Int) (out : Ptr) (k : Code → Ptr → Ptr → Ptr → M Unit) : GP E [.success, .allocFailed, .notSupported] (Aitisa.matPlain h1 h2 d n out k) := by
  unfold Aitisa.matPlain; giv
giv_add GP.matPlain

theorem GP.matVV (h1 h2 out : Ptr) : GP E [.success, .allocFailed, .notSupported, .dimensionsMismatch] (Aitisa.matVV h1 h2 out) := by
  unfold Aitisa.matVV; giv
giv_add GP.matVV

theorem GP.matMV (h1 h2 out : Ptr) : GP E [.success, .allocFailed, .notSupported, .dimensionsMismatch] (Aitisa.matMV h1 h2 out) := by
  unfold Aitisa.matMV; giv
giv_add GP.matMV

theorem GP.matMM (h1 h2 out : Ptr) : GP E [.success, .allocFailed, .notSupported, .dimensionsMismatch] (Aitisa.matMM h1 h2 out) := by
  unfold Aitisa.matMM; giv
giv_add GP.matMM

theorem GP.matVM (h1 h2 out : Ptr) : GP E [.success, .allocFailed, .notSupported, .dimensionsMismatch] (Aitisa.matVM h1 h2 out) := by
  unfold Aitisa.matVM; giv
giv_add GP.matVM

theorem GS.batchRun (h1 h2 t : Ptr) (s1 s2 s3 nM nK nN nb : Int) (o : Nat → M (Int × Int)) : GS E [.success, .notSupported] (Aitisa.batchRun h1 h2 t s1 s2 s3 nM nK nN nb o) := by
  unfold Aitisa.batchRun; giv
giv_add GS.batchRun

theorem GP.matTV (h1 h2 out : Ptr) (n : Int) : GP E [.success, .allocFailed, .notSupported, .dimensionsMismatch] (Aitisa.matTV h1 h2 out n) := by
  unfold Aitisa.matTV; giv
giv_add GP.matTV

theorem GP.matVT (h1 h2 out : Ptr) (n : Int) : GP E [.success, .allocFailed, .notSupported, .dimensionsMismatch] (Aitisa.matVT h1 h2 out n) := by
  unfold Aitisa.matVT; giv
giv_add GP.matVT

theorem GS.matTTFill (h1 h2 t : Ptr) (d1 d2 bd : Arr) (n1 n2 nd nM nK k2 nN : Int) : GS E [.success, .notSupported] (Aitisa.matTTFill h1 h2 t d1 d2 bd n1 n2 nd nM nK k2 nN) := by
  unfold Aitisa.matTTFill; giv
giv_add GS.matTTFill

theorem GP.matTT (h1 h2 out : Ptr) (n1 n2 : Int) : GP E [.success, .allocFailed, .notSupported, .dimensionsMismatch] (Aitisa.matTT h1 h2 out n1 n2) := by
  unfold Aitisa.matTT; giv
giv_add GP.matTT

theorem GP.matmul (h1 h2 out : Ptr) : GP E [.success, .allocFailed, .notSupported, .invalidArgument, .dimensionsMismatch] (Aitisa.matmul h1 h2 out) := by
  unfold Aitisa.matmul; giv
giv_add GP.matmul

theorem GP.vecDot (h1 h2 out : Ptr) : GP E [.success, .allocFailed, .notSupported, .dimensionsMismatch] (Aitisa.vecDot h1 h2 out) := by
  unfold Aitisa.vecDot; giv
giv_add GP.vecDot

theorem GP.Vecs.get (v : Vecs) (i : List Int) : GP E [.success, .allocFailed, .notSupported, .invalidArgument] (Aitisa.Vecs.get v i) := by
  unfold Aitisa.Vecs.get; giv
giv_add GP.Vecs.get

theorem GP.dotCell (a b c : Ptr) (n : Nat) (o : M Int) : GP E [.success, .allocFailed, .notSupported, .dimensionsMismatch] (Aitisa.dotCell a b c n o) := by
  unfold Aitisa.dotCell; giv
giv_add GP.dotCell

theorem GE.dotStep (v : Vecs) {cell : Ptr → M (Status × Ptr)} (hc : ∀ p, GP E [.success, .allocFailed, .notSupported, .dimensionsMismatch] (cell p)) (i : List Int) : GE E [.allocFailed, .notSupported, .dimensionsMismatch, .invalidArgument] (Aitisa.dotStep v cell i) := by
  unfold Aitisa.dotStep
  refine GE.bindP (GP.Vecs.get v i) fun st x h => GE.ite (fun _ => by giv) fun _ => GE.bindP (hc x) fun st t h => ?_
  giv
giv_add GE.dotStep

theorem GS.tvFill (h1 h2 t : Ptr) (n : Int) (d : Arr) : GS E [.success, .allocFailed, .notSupported, .dimensionsMismatch, .invalidArgument] (Aitisa.tvFill h1 h2 t n d) := by
  unfold Aitisa.tvFill; giv
giv_add GS.tvFill

theorem GP.dotCreate (h : Ptr) (o : List Int) (out : Ptr) : GP E [.success, .allocFailed] (Aitisa.dotCreate h o out) := by
  unfold Aitisa.dotCreate; giv
giv_add GP.dotCreate

theorem GP.tvDot (h1 h2 out : Ptr) : GP E [.success, .allocFailed, .notSupported, .dimensionsMismatch, .invalidArgument] (Aitisa.tvDot h1 h2 out) := by
  unfold Aitisa.tvDot; giv
giv_add GP.tvDot

theorem GE.mdRow (v1 v2 : Vecs) (o : Ptr) (n : Nat) (nv : Int) (i : Nat) (s : List Int × List Int) : GE E [.success, .allocFailed, .notSupported, .dimensionsMismatch, .invalidArgument] (Aitisa.mdRow v1 v2 o n nv i s) := by
  unfold Aitisa.mdRow; giv
giv_add GE.mdRow

theorem GS.mdFill (h1 h2 t : Ptr) (n1 n2 : Int) (d1 d2 : Arr) : GS E [.success, .allocFailed, .notSupported, .dimensionsMismatch, .invalidArgument] (Aitisa.mdFill h1 h2 t n1 n2 d1 d2) := by
  unfold Aitisa.mdFill; giv
giv_add GS.mdFill

theorem GP.mdDot (h1 h2 out : Ptr) : GP E [.success, .allocFailed, .notSupported, .dimensionsMismatch, .invalidArgument] (Aitisa.mdDot h1 h2 out) := by
  unfold Aitisa.mdDot; giv
giv_add GP.mdDot

theorem GP.createLike (h out : Ptr) : GP E [.success, .allocFailed] (Aitisa.createLike h out) := by
  unfold Aitisa.createLike; giv
giv_add GP.createLike

theorem GP.relu (h out : Ptr) : GP E [.success, .allocFailed, .notSupported] (Aitisa.relu h out) := by
  unfold Aitisa.relu; giv
giv_add GP.relu

theorem GP.sigmoid (h out : Ptr) : GP E [.success, .allocFailed, .notSupported] (Aitisa.sigmoid h out) := by
  unfold Aitisa.sigmoid; giv
giv_add GP.sigmoid

theorem GP.tanh (h out : Ptr) : GP E [.success, .allocFailed, .notSupported] (Aitisa.tanh h out) := by
  unfold Aitisa.tanh; giv
giv_add GP.tanh

theorem GS.sqrtKernel (c : Code) (a b : Ptr) (n : Int) : GS E [.success, .mathError] (Aitisa.sqrtKernel c a b n) := by
  unfold Aitisa.sqrtKernel
  refine GS.bind fun _ => GS.bindE (L' := [.mathError]) (GE.loopE (fun _ _ => by giv) _ _ _) (fun _ => by giv) fun _ _ => ?_
  dsimp only
  giv
giv_add GS.sqrtKernel

theorem GP.sqrt (h out : Ptr) : GP E [.success, .allocFailed, .notSupported, .mathError] (Aitisa.sqrt h out) := by
  unfold Aitisa.sqrt; giv
giv_add GP.sqrt

theorem GS.dropoutTemplate (t : Ptr) (r : BitVec 64) : GS E [.success, .notSupported] (Aitisa.dropoutTemplate t r) := by
  unfold Aitisa.dropoutTemplate; giv
giv_add GS.dropoutTemplate

theorem GP.dropout (h : Ptr) (r : BitVec 64) (out : Ptr) : GP E [.success, .allocFailed, .notSupported, .invalidArgument] (Aitisa.dropout h r out) := by
  unfold Aitisa.dropout; giv
giv_add GP.dropout

theorem GS.softmaxAxis (h : Ptr) (a : Int) (t : Ptr) : GS E [.success, .allocFailed, .notSupported] (Aitisa.softmaxAxis h a t) := by
  unfold Aitisa.softmaxAxis; giv
giv_add GS.softmaxAxis

theorem GS.softmaxAll (h t : Ptr) : GS E [.success, .notSupported] (Aitisa.softmaxAll h t) := by
  unfold Aitisa.softmaxAll; giv
giv_add GS.softmaxAll

theorem GP.softmax (h : Ptr) (a : Int) (out : Ptr) : GP E [.success, .allocFailed, .notSupported] (Aitisa.softmax h a out) := by
  unfold Aitisa.softmax; dsimp only; giv
giv_add GP.softmax

theorem GE.poolVisit (mode : String) (oc : Option Code) (ip : Ptr) (t : BitVec 64) (o : Option Int) : GE E [.notSupported] (Aitisa.poolVisit mode oc ip t o) := by
  unfold Aitisa.poolVisit; giv
giv_add GE.poolVisit

theorem GE.poolElem (mode : String) (oc : Option Code) (ip : Ptr) (axs : List PAxis) (sts : List Int) (b : Int) (ws : List (Int × Int)) (s : List Int × BitVec 64) : GE E [.notSupported] (Aitisa.poolElem mode oc ip axs sts b ws s) := by
  unfold Aitisa.poolElem; giv
giv_add GE.poolElem

theorem GE.poolWindow (fuel : Nat) (mode : String) (oc : Option Code) (ip op : Ptr) (axs : List PAxis) (sts : List Int) (o b ob z : Int) (s : List (Int × Int) × Int) : GE E [.notSupported] (Aitisa.poolWindow fuel mode oc ip op axs sts o b ob z s) := by
  unfold Aitisa.poolWindow; giv
giv_add GE.poolWindow

theorem GE.poolChannel (fuel : Nat) (mode : String) (oc : Option Code) (ip op : Ptr) (axs : List PAxis) (sI sO : List Int) (z : Int) (s c : Nat) : GE E [.notSupported] (Aitisa.poolChannel fuel mode oc ip op axs sI sO z s c) := by
  unfold Aitisa.poolChannel; giv
giv_add GE.poolChannel

theorem GE.poolSample (pi ph pt : Ptr) {ch : Nat → M (Unit ⊕ Status)} (hc : ∀ c, GE E [.notSupported] (ch c)) (n : Nat) : GE E [.notSupported] (Aitisa.poolSample pi ph pt ch n) := by
  unfold Aitisa.poolSample; giv
giv_add GE.poolSample

theorem GE.poolFill (fuel : Nat) (mode : String) (h t : Ptr) (n : Int) (d : Arr) (axs : List PAxis) (pi ps pos ph pt : Ptr) : GE E [.notSupported] (Aitisa.poolFill fuel mode h t n d axs pi ps pos ph pt) := by
  unfold Aitisa.poolFill
  giv
giv_add GE.poolFill

theorem GP.poolCreate (h : Ptr) (n a b : Int) (axs : List PAxis) : GP E [.success, .allocFailed] (Aitisa.poolCreate h n a b axs) := by
  unfold Aitisa.poolCreate; giv
giv_add GP.poolCreate

theorem GP.poolMain (fuel : Nat) (h : Ptr) (mode : String) (k s p d ds : Arr) (n : Int) (out po pi ps pos ph pt : Ptr) : GP E [.success, .allocFailed, .notSupported, .invalidArgument] (Aitisa.poolMain fuel h mode k s p d ds n out po pi ps pos ph pt) := by
  unfold Aitisa.poolMain; giv
giv_add GP.poolMain

theorem GP.poolRun (fuel : Nat) (h : Ptr) (mode : String) (k s p d : Arr) (n : Int) (out : Ptr) : GP E [.success, .allocFailed, .notSupported, .invalidArgument] (Aitisa.poolRun fuel h mode k s p d n out) := by
  unfold Aitisa.poolRun; giv
giv_add GP.poolRun

theorem GP.pooling (fuel : Nat) (h : Ptr) (mode : String) (k s p d : Arr) (out : Ptr) : GP E [.success, .allocFailed, .notSupported, .invalidArgument, .dimensionsMismatch] (Aitisa.pooling fuel h mode k s p d out) := by
  unfold Aitisa.pooling; giv
giv_add GP.pooling

theorem GS.bnPair (c : Nat) (n : M Int) (a b : Ptr) : GS E [.success, .typeMismatch, .dimensionsMismatch] (Aitisa.bnPair c n a b) := by
  unfold Aitisa.bnPair; giv
giv_add GS.bnPair

theorem GS.bnCheck (h : Ptr) (ax : Int) (sc bi me va : Ptr) (e : BitVec 64) : GS E [.success, .typeMismatch, .dimensionsMismatch, .invalidArgument] (Aitisa.bnCheck h ax sc bi me va e) := by
  unfold Aitisa.bnCheck; giv
giv_add GS.bnCheck

theorem GP.bnCreate (h out : Ptr) : GP E [.success, .allocFailed] (Aitisa.bnCreate h out) := by
  unfold Aitisa.bnCreate; giv
giv_add GP.bnCreate

theorem GE.bnChain (h : Ptr) (a b c d : Arr) (n : Int) (sc bi me de : Ptr) : GE E [.allocFailed, .notSupported, .invalidArgument, .dimensionsMismatch, .typeMismatch, .mathError] (Aitisa.bnChain h a b c d n sc bi me de) := by
  unfold Aitisa.bnChain Aitisa.bnOp; giv
giv_add GE.bnChain

theorem GE.bnRelease (a b : Ptr) (x : M Unit) (c : Bool) : GE E [.allocFailed, .notSupported, .invalidArgument, .dimensionsMismatch, .typeMismatch, .mathError] (Aitisa.bnRelease a b x c) := by
  unfold Aitisa.bnRelease; giv
giv_add GE.bnRelease

theorem GE.bnRow (h sc bi me de op : Ptr) (z : Nat) (l : List Int) (s : Nat) (b : Int) : GE E [.allocFailed, .notSupported, .invalidArgument, .dimensionsMismatch, .typeMismatch, .mathError] (Aitisa.bnRow h sc bi me de op z l s b) := by
  unfold Aitisa.bnRow; giv
giv_add GE.bnRow

theorem GE.bnPlain (h sc bi me de t : Ptr) : GE E [.allocFailed, .notSupported, .invalidArgument, .dimensionsMismatch, .typeMismatch, .mathError] (Aitisa.bnPlain h sc bi me de t) := by
  unfold Aitisa.bnPlain; giv
giv_add GE.bnPlain

theorem GE.bnCell (h : Ptr) (ax : Int) (A : BnArrs) (t : Ptr) (a b c : List Int) (s d : Nat) (i : List Int) : GE E [.allocFailed, .notSupported, .invalidArgument, .dimensionsMismatch, .typeMismatch, .mathError] (Aitisa.bnCell h ax A t a b c s d i) := by
  unfold Aitisa.bnCell; giv
giv_add GE.bnCell

theorem GE.bnSample (h : Ptr) (ax : Int) (A : BnArrs) (t : Ptr) (a b c : List Int) (n : Int) (s : Nat) (i : List Int) : GE E [.allocFailed, .notSupported, .invalidArgument, .dimensionsMismatch, .typeMismatch, .mathError] (Aitisa.bnSample h ax A t a b c n s i) := by
  unfold Aitisa.bnSample; giv
giv_add GE.bnSample

theorem GE.bnLoops (h : Ptr) (ax : Int) (A : BnArrs) (t : Ptr) (nb nc : Int) (ds : List Int) : GE E [.allocFailed, .notSupported, .invalidArgument, .dimensionsMismatch, .typeMismatch, .mathError] (Aitisa.bnLoops h ax A t nb nc ds) := by
  unfold Aitisa.bnLoops; giv
giv_add GE.bnLoops

theorem GE.bnChannels (h : Ptr) (ax : Int) (A : BnArrs) (t : Ptr) : GE E [.allocFailed, .notSupported, .invalidArgument, .dimensionsMismatch, .typeMismatch, .mathError] (Aitisa.bnChannels h ax A t) := by
  unfold Aitisa.bnChannels; giv
giv_add GE.bnChannels

theorem GE.bnDenom (h va : Ptr) (e : BitVec 64) : GE E [.allocFailed, .notSupported, .invalidArgument, .dimensionsMismatch, .typeMismatch, .mathError] (Aitisa.bnDenom h va e) := by
  unfold Aitisa.bnDenom; giv
giv_add GE.bnDenom

theorem GE.bnChan (dt : DType) (dev : Device) (p : Arr) (n z : Int) (sc bi me va e : Ptr) (P : BnPtrs) (c : Nat) (l : List (BnChan × Ptr)) : GE E [.allocFailed, .notSupported, .invalidArgument, .dimensionsMismatch, .typeMismatch, .mathError] (Aitisa.bnChan dt dev p n z sc bi me va e P c l) := by
  unfold Aitisa.bnChan Aitisa.bnNew; giv
giv_add GE.bnChan

theorem GE.bnParamsEnd (e : Ptr) (P : BnPtrs) (pp : Ptr) (n : Int) (l : List (BnChan × Ptr)) : GE E [.allocFailed, .notSupported, .invalidArgument, .dimensionsMismatch, .typeMismatch, .mathError] (Aitisa.bnParamsEnd e P pp n l) := by
  unfold Aitisa.bnParamsEnd; giv
giv_add GE.bnParamsEnd

theorem GE.bnParamsMain (dt : DType) (dev : Device) (pp : Ptr) (p : List Int) (n : Int) (sc bi me va : Ptr) (e : BitVec 64) : GE E [.allocFailed, .notSupported, .invalidArgument, .dimensionsMismatch, .typeMismatch, .mathError] (Aitisa.bnParamsMain dt dev pp p n sc bi me va e) := by
  unfold Aitisa.bnParamsMain; giv
giv_add GE.bnParamsMain

theorem GE.bnParams (h : Ptr) (ax : Int) (sc bi me va : Ptr) (e : BitVec 64) : GE E [.allocFailed, .notSupported, .invalidArgument, .dimensionsMismatch, .typeMismatch, .mathError] (Aitisa.bnParams h ax sc bi me va e) := by
  unfold Aitisa.bnParams; giv
giv_add GE.bnParams

theorem GS.bnMain (h : Ptr) (ax : Int) (sc bi me va : Ptr) (e : BitVec 64) (t : Ptr) : GS E [.success, .allocFailed, .notSupported, .invalidArgument, .dimensionsMismatch, .typeMismatch, .mathError] (Aitisa.bnMain h ax sc bi me va e t) := by
  unfold Aitisa.bnMain; giv <;> dsimp only [endStatus] <;> giv
giv_add GS.bnMain

theorem GP.batchNorm (h : Ptr) (ax : Int) (sc bi me va : Ptr) (e : BitVec 64) (out : Ptr) : GP E [.success, .allocFailed, .notSupported, .invalidArgument, .dimensionsMismatch, .typeMismatch, .mathError] (Aitisa.batchNorm h ax sc bi me va e out) := by
  unfold Aitisa.batchNorm; giv
giv_add GP.batchNorm

end Aitisa
