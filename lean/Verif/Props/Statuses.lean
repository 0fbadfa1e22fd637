import Verif.Proof.GivesTop
import Verif.Props.Local
import Verif.Props.Oom

/-!
# C53: the statuses each operator can return, and C48: memory is not said to be lacking when it is not

The lists of statuses are in `Verif/Spec/Statuses.lean`.
-/

namespace Aitisa

variable {E : Env} {m m' : Mem} {st : Status} {p out : Ptr}

theorem call_sts (c : Call) (wf : m.WF) (h : c.run out E m = .ok (st, p) m') : CSts E c.operator.statuses c.register st := by
  cases c with
  | create dt dev dims n len => exact .inl (GP.create dt dev dims n len out _ _ _ h)
  | full dt dev dims n v => exact .inl (GP.full dt dev dims n v out _ _ _ h)
  | reshape t dims n => exact .inl (GP.reshape t dims n out _ _ _ h)
  | squeeze t ax n => exact .inl (GP.squeeze t ax n out _ _ _ h)
  | slice t a b c => exact .inl (GP.slice t a b c out _ _ _ h)
  | duplicate t => exact .inl (GP.duplicate t out _ _ _ h)
  | binary op t u => exact .inl (GP.binaryOp op t u out _ _ _ h)
  | sqrt t => exact .inl (GP.sqrt t out _ _ _ h)
  | matmul t u => exact .inl (GP.matmul t u out _ _ _ h)
  | dot t u => exact .inl (dot_sts wf h)
  | conv2d j j' t f s q d g => exact conv2d_sts j j' t f s q d g out _ _ _ h
  | conv3d j j' t f s q d g => exact conv3d_sts j j' t f s q d g out _ _ _ h
  | pooling n t mode k s q d => exact .inl (GP.pooling n t mode k s q d out _ _ _ h)
  | relu t => exact .inl (GP.relu t out _ _ _ h)
  | sigmoid t => exact .inl (GP.sigmoid t out _ _ _ h)
  | tanh t => exact .inl (GP.tanh t out _ _ _ h)
  | softmax t ax => exact .inl (GP.softmax t ax out _ _ _ h)
  | dropout t r => exact .inl (GP.dropout t r out _ _ _ h)
  | batchNorm t ax a b c d e => exact .inl (GP.batchNorm t ax a b c d e out _ _ _ h)

/-- C53. A completed call returns one of the statuses of the operator - whatever the arguments, the memory and the allocator - or, if
it is a convolution that ends without `return`, what is found in the register. -/
theorem C53_statuses (c : Call) (wf : m.WF) (h : c.run out E m = .ok (st, p) m') :
    st ∈ c.operator.statuses ∨ st ∈ c.register := (call_sts c wf h).imp (·.mem) id

/-- C53 for conversion. -/
theorem C53_cast (h : Ptr) (dt : DType) (e : cast h dt out E m = .ok (st, p) m') : st ∈ [.success, .allocFailed, .notSupported] :=
  (GP.cast h dt out _ _ _ e).mem

/-- C53. No operator returns `STATUS_OUT_OF_RANGE` or `STATUS_INTERNAL_ERROR`. -/
theorem C53_never (c : Call) (wf : m.WF) (hr : c.register = []) (h : c.run out E m = .ok (st, p) m') :
    st ≠ .outOfRange ∧ st ≠ .internalError := by
  have := (C53_statuses c wf h).resolve_right (by rw [hr]; exact List.not_mem_nil)
  generalize c.operator = o at this
  constructor <;> intro e <;> subst e <;> revert this <;> cases o <;> decide

theorem Env.unlimited_plenty (E : Env) : E.unlimited.Plenty := ⟨fun _ _ => rfl, fun _ _ => rfl⟩

/-- C48, the second half for all operators: a call that returns `STATUS_ALLOC_FAILED` was refused a request, whatever the arguments. -/
theorem C48_only_then (c : Call) (wf : m.WF) (hr : .allocFailed ∉ c.register) (h : c.run out E m = .ok (.allocFailed, p) m') :
    ¬ Granted m m' := fun hg =>
  ((call_sts c wf (C52_unlimited c h hg)).resolve_right hr).fed E.unlimited_plenty rfl

/-- C48, the second half for conversion. -/
theorem C48_only_then_cast (t : Ptr) (dt : DType) (h : cast t dt out E m = .ok (.allocFailed, p) m') : ¬ Granted m m' := fun hg => by
  have l := (Local.cast (rnd := false) t dt out).selfContained E m _ m' h E.unlimited _ (apart_none m)
    ⟨rfl, fun h => h, .inr ⟨hg, fun _ _ => ⟨fun _ => rfl, fun _ => rfl⟩⟩, fun _ _ _ => rfl⟩
  rw [plus_none, plus_none] at l
  exact (GP.cast t dt out _ _ _ l).fed E.unlimited_plenty rfl

/-! ## Every entry of the lists is attained -/

/-- The tensors of `exFm` and, from block 20: a vector of an unknown type, a vector on another device, a scalar, a vector of three
integers, a vector with a negative float, a tensor with extent 0, a 4-dimensional tensor of an unknown type, a 5-dimensional integer
tensor, a vector of doubles, a matrix on another device, a matrix with
extents 0 and 1. -/
def exStM : Mem := ((((((((((exFm.addT ⟨⟨10, 1⟩, ⟨DEVICE_CPU, 0⟩, [2], [some 1, some 2]⟩).addT
  ⟨Code.f32.dtype, ⟨1, 0⟩, [2], encAll .f32 ([1, 1].map .f32)⟩).addS Code.f32.dtype ⟨DEVICE_CPU, 0⟩ (encAll .f32 [.f32 1])).addT
  (tvOf .i32 [3] ([1, 2, 3].map .int))).addT (tvOf .f32 [2] ([-9, 1].map .f32))).addT (tvOf .i32 [0] [])).addT
  ⟨⟨10, 1⟩, ⟨DEVICE_CPU, 0⟩, [1, 1, 2, 2], [some 1, some 2, some 3, some 4]⟩).addT
  (tvOf .i32 [1, 1, 1, 1, 2] ([1, 1].map .int))).addT (tvOf .f64 [2] ([1, 1].map .f64))).addT
  ⟨Code.f32.dtype, ⟨1, 0⟩, [1, 2], encAll .f32 ([1, 1].map .f32)⟩).addT (tvOf .i32 [0, 1] [])


/-- Surroundings in which the request with the given number (counted from the start of the call) is refused. -/
def refusing : Option Nat → Env
  | none => okEnv
  | some k => failAt (exStM.tick + k)

/-- For every operator calls that return its statuses, in the order of the lists; the second component: the request of the call that is
refused. -/
def exStC : List (Operator × List (Call × Option Nat)) :=
  let u : Ptr := .blk 20
  let d : Ptr := .blk 25
  let s : Ptr := .blk 30
  let v3 : Ptr := .blk 33
  let n : Ptr := .blk 38
  let z : Ptr := .blk 43
  let u4 : Ptr := .blk 48
  let i5 : Ptr := .blk 53
  let g : Ptr := .blk 58
  let d2 : Ptr := .blk 63
  let i0 : Ptr := .blk 68
  let f4 : Ptr := .blk 0
  let f2 : Ptr := .blk 5
  let i6 : Ptr := .blk 10
  let f5 : Ptr := .blk 15
  let cpu : Device := ⟨DEVICE_CPU, 0⟩
  let one := [some 1, some 1]
  let pad := [some 0, some 0]
  let one3 := [some 1, some 1, some 1]
  let pad3 := [some 0, some 0, some 0]
  let pool := Call.pooling 9 f4 "max" [some 2, some 2] one pad one
  let bn := Call.batchNorm f4 1 f2 f2 f2 f2 1
  [(.create, [(.create Code.i16.dtype cpu [some 2, some 5] 2 0, none), (.create Code.i16.dtype cpu [some 2, some 5] 2 0, some 0)]),
   (.full, [(.full Code.u8.dtype cpu [some 3] 1 7, none), (.full Code.u8.dtype cpu [some 3] 1 7, some 0)]),
   (.reshape, [(.reshape i6 [some 3, some 2] 2, none), (.reshape i6 [some 3, some 2] 2, some 0), (.reshape i6 [some 3, some 3] 2, none)]),
   (.squeeze, [(.squeeze f4 [some 0] 1, none), (.squeeze f4 [some 0] 1, some 0), (.squeeze i0 [some 1, some 1] 2, none), (.squeeze f4 [some (-1)] 1, none)]),
   (.slice, [(.slice i6 [some 1, some 0] [some 1, some 2] one, none), (.slice i6 [some 1, some 0] [some 1, some 2] one, some 2),
     (.slice u [some 0] [some 1] [some 1], none), (.slice i6 [some 1, some 0] [some 5, some 2] one, none)]),
   (.duplicate, [(.duplicate i6, none), (.duplicate i6, some 0), (.duplicate u, none), (.duplicate z, none)]),
   (.binary, [(.binary .add i6 i6, none), (.binary .add i6 i6, some 0), (.binary .add d d, none), (.binary .add f2 f4, none), (.binary .add f2 g, none)]),
   (.sqrt, [(.sqrt f2, none), (.sqrt f2, some 0), (.sqrt u, none), (.sqrt n, none)]),
   (.matmul, [(.matmul f4 f2, none), (.matmul f4 f2, some 5), (.matmul d d, none), (.matmul s f2, none), (.matmul f2 v3, none)]),
   (.dot, [(.dot f4 f2, none), (.dot f4 f2, some 0), (.dot d d, none), (.dot i6 z, none), (.dot v3 z, none)]),
   (.conv2d, [(.conv2d none none f4 f4 one pad one 1, some 8), (.conv2d none none u4 u4 one pad one 1, none), (.conv2d none none f5 f4 one pad one 1, none)]),
   (.conv3d, [(.conv3d none none f5 f5 one3 pad3 one3 1, some 8), (.conv3d none none i5 i5 one3 pad3 one3 1, none),
     (.conv3d none none f4 f5 one3 pad3 one3 1, none)]),
   (.pooling, [(pool, none), (pool, some 7), (.pooling 9 u4 "max" [some 2, some 2] one pad one, none), (.pooling 9 f4 "max" [some 9, some 2] one pad one, none),
     (.pooling 9 f2 "max" [some 2, some 2] one pad one, none)]),
   (.relu, [(.relu f4, none), (.relu f4, some 0), (.relu u, none)]),
   (.sigmoid, [(.sigmoid f4, none), (.sigmoid f4, some 0), (.sigmoid u, none)]),
   (.tanh, [(.tanh f4, none), (.tanh f4, some 0), (.tanh u, none)]),
   (.softmax, [(.softmax f4 1, none), (.softmax f4 1, some 0), (.softmax u 0, none)]),
   (.dropout, [(.dropout f4 0, none), (.dropout f4 0, some 0), (.dropout u 0, none), (.dropout f4 (-1), none)]),
   (.batchNorm, [(bn, none), (bn, some 0), (.batchNorm d2 1 d d d d 1, none), (.batchNorm f4 7 f2 f2 f2 f2 1, none), (.batchNorm f2 1 f2 f2 f2 f2 1, none),
     (.batchNorm f4 1 g f2 f2 f2 1, none), (.batchNorm f4 1 f2 f2 f2 n 1, none)])]

theorem exStM_wf : exStM.WF := by
  unfold exStM exFm
  repeat first
    | with_reducible exact Mem.empty_wf
    | with_reducible apply Mem.addT_wf
    | with_reducible apply Mem.addS_wf

/-- One of the calls listed for `o` returns `st`. -/
def exStOk (o : Operator) (st : Status) : Bool :=
  exStC.any fun q => q.1 == o && q.2.any fun c => c.1.operator == o && c.1.register == [] && (c.1.run .null (refusing c.2) exStM).failsAs st

/-- C53, the lists are exact: every status on the list of an operator is returned by a completed call of it. -/
theorem C53_attained (o : Operator) (h : st ∈ o.statuses) :
    ∃ (c : Call) (E : Env) (m : Mem) (p : Ptr) (m' : Mem), c.operator = o ∧ c.register = [] ∧ m.WF ∧ c.run .null E m = .ok (st, p) m' := by
  have key : o.statuses.all (exStOk o) = true := by
    cases o <;> decide +kernel
  have hk := List.all_eq_true.1 key st h
  unfold exStOk at hk
  obtain ⟨q, -, hq⟩ := List.any_eq_true.1 hk
  rw [Bool.and_eq_true] at hq
  obtain ⟨c, -, hc⟩ := List.any_eq_true.1 hq.2
  rw [Bool.and_eq_true, Bool.and_eq_true] at hc
  have h3 := hc.2
  unfold Res.failsAs at h3
  split at h3
  · rename_i s p m' e
    exact ⟨c.1, _, _, p, m', eq_of_beq hc.1.1, eq_of_beq hc.1.2, exStM_wf, e.trans (by rw [eq_of_beq h3])⟩
  · cases h3

/-- C53 for conversion, the list is exact. -/
theorem C53_cast_attained (h : st ∈ [Status.success, .allocFailed, .notSupported]) :
    ∃ t dt E m p m', cast t dt .null E m = .ok (st, p) m' := by
  have key : [(Status.success, Code.f64.dtype, okEnv), (.allocFailed, Code.f64.dtype, refusing (some 0)), (.notSupported, ⟨77, 4⟩, okEnv)].all
      (fun q => (cast (.blk 5) q.2.1 .null q.2.2 exStM).failsAs q.1) = true := by decide +kernel
  have fin : ∀ dt E, (cast (.blk 5) dt .null E exStM).failsAs st = true → ∃ t dt E m p m', cast t dt .null E m = .ok (st, p) m' := by
    intro dt E h3
    unfold Res.failsAs at h3
    split at h3
    · rename_i s p m' e
      exact ⟨_, _, _, _, p, m', e.trans (by rw [eq_of_beq h3])⟩
    · cases h3
  simp only [List.all_cons, List.all_nil, Bool.and_true, Bool.and_eq_true] at key
  simp only [List.mem_cons, List.not_mem_nil, or_false] at h
  rcases h with rfl | rfl | rfl
  · exact fin _ _ key.1
  · exact fin _ _ key.2.1
  · exact fin _ _ key.2.2

/-- A convolution that ends without `return` gives what is found in the register, here a status no operator returns. -/
example : (Call.conv2d (some .success) (some .internalError) (.blk 0) (.blk 0) [some 1, some 1] [some 0, some 0] [some 1, some 1] 1).register =
    [.success, .internalError] := rfl
example : ((Call.conv2d (some .success) (some .internalError) (.blk 0) (.blk 0) [some 1, some 1] [some 0, some 0] [some 1, some 1] 1).run .null okEnv
    exStM).failsAs .internalError = true := by decide +kernel

end Aitisa
