import Verif.Spec.Tensor
import Verif.Model.BatchNorm
import Verif.Model.Conv

/-!
# Specification vocabulary: effects of a call on memory

`Call` enumerates the operators of the API, with arbitrary arguments.  `aitisa_cast` is separate because it may return success
without producing a tensor.
-/

namespace Aitisa

/-- In memory `m` the handle `p` leads to a descriptor, a storage descriptor, data, dims and layout array which are the blocks
`R`, all different and all allocated on the heap. -/
structure Leads (m : Mem) (p : Ptr) (R : Foot) : Prop where
  handle : p = R.h
  tensor : ∃ t, m.blk R.t = some ⟨.own, .tensor t⟩ ∧ t.dims = optPtr R.d ∧ t.min2maj = optPtr R.l ∧ t.storage = .blk R.s
  storage : ∃ s, m.blk R.s = some ⟨.own, .storage s⟩ ∧ s.data = .blk R.p
  data : ∃ b, m.blk R.p = some ⟨.own, b⟩
  dims : ∀ d, R.d = some d → ∃ b, m.blk d = some ⟨.own, b⟩
  layout : ∀ l, R.l = some l → ∃ b, m.blk l = some ⟨.own, b⟩
  nodup : R.list.Nodup

/-- Whenever the call completes, with whatever status, all memory that existed before is unchanged; on success the handle it
gives leads to a tensor entirely in new memory. -/
def KeepsMemory (x : M (Status × Ptr)) : Prop :=
  ∀ E m st p m', m.WF → x E m = .ok (st, p) m' →
    Frame m m' ∧ m'.WF ∧ (st = .success → ∃ R, Leads m' p R ∧ ∀ b ∈ R.list, m.next ≤ b)

/-- Whenever the call succeeds, the allocations that are live afterwards and were not before are the blocks of the tensor it
gives. -/
def LeaksNothing (x : M (Status × Ptr)) : Prop :=
  ∀ E m p m', m.WF → x E m = .ok (.success, p) m' →
    ∃ R, Leads m' p R ∧ ∀ b, (m.blk b = none ∧ m'.blk b ≠ none) ↔ b ∈ R.list

/-- The operators and their arguments. -/
inductive Call where
  | create (dt : DType) (dev : Device) (dims : Arr) (ndim : Int) (len : Nat)
  | full (dt : DType) (dev : Device) (dims : Arr) (ndim : Int) (value : BitVec 64)
  | reshape (h : Ptr) (dims : Arr) (ndim : Int)
  | squeeze (h : Ptr) (axis : Arr) (numAxis : Int)
  | slice (h : Ptr) (begin' size step : Arr)
  | duplicate (h : Ptr)
  | binary (op : BinOp) (h1 h2 : Ptr)
  | sqrt (h : Ptr)
  | matmul (h1 h2 : Ptr)
  | dot (h1 h2 : Ptr)
  | conv2d (j j' : Fall) (h f : Ptr) (stride padding dilation : Arr) (groups : Int)
  | conv3d (j j' : Fall) (h f : Ptr) (stride padding dilation : Arr) (groups : Int)
  | pooling (fuel : Nat) (h : Ptr) (mode : String) (ksize stride padding dilation : Arr)
  | relu (h : Ptr)
  | sigmoid (h : Ptr)
  | tanh (h : Ptr)
  | softmax (h : Ptr) (axis : Int)
  | dropout (h : Ptr) (rate : BitVec 64)
  | batchNorm (h : Ptr) (axis : Int) (scale bias mean variance : Ptr) (eps : BitVec 64)

/-- The call; `out` is the value of `*output` before it. -/
def Call.run (out : Ptr) : Call → M (Status × Ptr)
  | .create dt dev dims ndim len => Aitisa.create dt dev dims ndim .null len out
  | .full dt dev dims ndim v => Aitisa.full dt dev dims ndim v out
  | .reshape h dims ndim => Aitisa.reshape h dims ndim out
  | .squeeze h axis k => Aitisa.squeeze h axis k out
  | .slice h a b c => Aitisa.slice h a b c out
  | .duplicate h => Aitisa.duplicate h out
  | .binary op h1 h2 => binaryOp op h1 h2 out
  | .sqrt h => Aitisa.sqrt h out
  | .matmul h1 h2 => Aitisa.matmul h1 h2 out
  | .dot h1 h2 => Aitisa.dot h1 h2 out
  | .conv2d j j' h f s p d g => Aitisa.conv2d j j' h f s p d g out
  | .conv3d j j' h f s p d g => Aitisa.conv3d j j' h f s p d g out
  | .pooling fuel h mode k s p d => Aitisa.pooling fuel h mode k s p d out
  | .relu h => Aitisa.relu h out
  | .sigmoid h => Aitisa.sigmoid h out
  | .tanh h => Aitisa.tanh h out
  | .softmax h axis => Aitisa.softmax h axis out
  | .dropout h r => Aitisa.dropout h r out
  | .batchNorm h axis sc bi me va eps => Aitisa.batchNorm h axis sc bi me va eps out

end Aitisa
