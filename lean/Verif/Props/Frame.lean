import Verif.Spec.Frame
import Verif.Spec.Example
import Verif.Proof.OwnBn
import Verif.Props.Dot

/-!
# C06, C07: effects of the operators on memory
-/

namespace Aitisa

variable {E : Env} {m m' : Mem}

/-- A tensor among the tokens. -/
theorem Own.leads {k : Bool} {n : Nat} {R : Foot} (o : Own k n [.ten R] m) : Leads m R.h R where
  handle := rfl
  tensor := (o.ok _ List.mem_cons_self).tensor
  storage := (o.ok _ List.mem_cons_self).storage
  data := (o.ok _ List.mem_cons_self).data
  dims := (o.ok _ List.mem_cons_self).dims
  layout := (o.ok _ List.mem_cons_self).layout
  nodup := by simpa [tokBlocks, Tok.blocks] using o.nodup

theorem Op.keeps {x : M (Status × Ptr)} (h : Op x) : KeepsMemory x := by
  intro E m st p m' wf e
  obtain ⟨s, ag, q, -⟩ := h E m st p m' wf e
  refine ⟨⟨s.le, ag⟩, s.wf, fun hs => ?_⟩
  obtain ⟨R, rfl, o⟩ := q hs
  exact ⟨R, o.leads, fun b hb => o.fresh b (by simpa [tokBlocks, Tok.blocks] using hb)⟩

theorem Own.exact {n : Nat} {R : Foot} (wf : m.WF) (hn : n = m.next) (ag : ∀ b, b < n → m'.blk b = m.blk b) (o : Own true n [.ten R] m') (b : Nat) :
    (m.blk b = none ∧ m'.blk b ≠ none) ↔ b ∈ R.list := by
  subst hn
  constructor
  · rintro ⟨h0, h1⟩
    have hb : m.next ≤ b := Nat.le_of_not_lt fun hlt => h1 ((ag b hlt).trans h0)
    simpa [tokBlocks, Tok.blocks] using o.live rfl b hb h1
  · intro hb
    exact ⟨wf b (o.fresh b (by simpa [tokBlocks, Tok.blocks] using hb)), (o.ok _ List.mem_cons_self).live hb⟩

theorem Op.leaks {x : M (Status × Ptr)} (h : Op x) : LeaksNothing x := by
  intro E m p m' wf e
  obtain ⟨s, ag, q, -⟩ := h E m _ p m' wf e
  obtain ⟨R, rfl, o⟩ := q rfl
  exact ⟨R, o.leads, o.exact wf rfl ag⟩

theorem Call.op (c : Call) (out : Ptr) : Op (c.run out) := by
  cases c <;> unfold Call.run
  · exact Op.create _ _ _ _ _ _
  · exact Op.full _ _ _ _ _ _
  · exact Op.reshape _ _ _ _
  · exact Op.squeeze _ _ _ _
  · exact Op.slice _ _ _ _ _
  · exact Op.duplicate _ _
  · exact Op.binaryOp _ _ _ _
  · exact Op.sqrt _ _
  · exact Op.matmul _ _ _
  · exact Op.dot _ _ _
  · exact Op.conv2d _ _ _ _ _ _ _ _ _
  · exact Op.conv3d _ _ _ _ _ _ _ _ _
  · exact Op.pooling _ _ _ _ _ _ _ _
  · exact Op.relu _ _
  · exact Op.sigmoid _ _
  · exact Op.tanh _ _
  · exact Op.softmax _ _ _
  · exact Op.dropout _ _ _
  · exact Op.batchNorm _ _ _ _ _ _ _ _

/-- C06. Every operator, on any arguments, with any allocator, whatever the status: existing memory is unchanged and the tensor
given on success lies in new memory. -/
theorem C06_operators (c : Call) (out : Ptr) : KeepsMemory (c.run out) := (c.op out).keeps

/-- C06 for the operands: a tensor that existed before the call has the same value after it. -/
theorem C06_values (c : Call) (out : Ptr) {st : Status} {p : Ptr} (wf : m.WF) (h : c.run out E m = .ok (st, p) m') {R : Foot} {T : TV}
    (hR : At m R T) : At m' R T :=
  hR.frame wf (C06_operators c out E m st p m' wf h).1

/-- C06 for conversion: to the tensor's own type it returns success and no tensor (`*output` is what it was). -/
theorem C06_cast (h out : Ptr) (dt : DType) {st : Status} {p : Ptr} (wf : m.WF) (hc : cast h dt out E m = .ok (st, p) m') :
    Frame m m' ∧ m'.WF ∧ (st = .success → p = out ∨ ∃ R, Leads m' p R ∧ ∀ b ∈ R.list, m.next ≤ b) := by
  obtain ⟨s, ag, q, -⟩ := Tri.cast (n := m.next) (m0 := m) h dt out E m _ m' (Sep.self wf) (fun _ _ => rfl) (Own.self wf true) hc
  refine ⟨⟨s.le, ag⟩, s.wf, fun hs => ?_⟩
  rcases q with ⟨-, h, -⟩ | q
  · exact .inl h
  · unfold Post at q
    rw [if_pos hs] at q
    obtain ⟨R, e, o⟩ := q
    have e : p = R.h := e
    subst e
    exact .inr ⟨R, o.leads, fun b hb => o.fresh b (by simpa [tokBlocks, Tok.blocks] using hb)⟩

/-- C07. Every operator, on any arguments, with any allocator: on success nothing but the tensor remains allocated. -/
theorem C07_operators (c : Call) (out : Ptr) : LeaksNothing (c.run out) := (c.op out).leaks

/-- C07 for conversion: on success nothing remains allocated (own type) or nothing but the tensor. -/
theorem C07_cast (h out : Ptr) (dt : DType) {p : Ptr} (wf : m.WF) (hc : cast h dt out E m = .ok (.success, p) m') :
    (p = out ∧ ∀ b, m.blk b = none → m'.blk b = none) ∨
    ∃ R, Leads m' p R ∧ ∀ b, (m.blk b = none ∧ m'.blk b ≠ none) ↔ b ∈ R.list := by
  obtain ⟨s, ag, q, -⟩ := Tri.cast (n := m.next) (m0 := m) h dt out E m _ m' (Sep.self wf) (fun _ _ => rfl) (Own.self wf true) hc
  rcases q with ⟨-, h, o⟩ | q
  · refine .inl ⟨h, fun b hb => ?_⟩
    by_cases hlt : b < m.next
    · exact (ag b hlt).trans hb
    · refine Classical.not_not.1 fun hn => ?_
      have := o.live rfl b (Nat.le_of_not_lt hlt) hn
      simp [tokBlocks] at this
  · unfold Post at q
    rw [if_pos rfl] at q
    obtain ⟨R, e, o⟩ := q
    have e : p = R.h := e
    subst e
    exact .inr ⟨R, o.leads, o.exact wf rfl ag⟩

/-! ## Cases -/

/-- Four tensors: 1 by 2 by 2 by 2 floats, 2 floats, 2 by 3 integers, 1 by 1 by 1 by 1 by 2 floats. -/
def exFm : Mem := (((Mem.empty.addT (tvOf .f32 [1, 2, 2, 2] ([1, 2, 3, 4, 5, 6, 7, 8].map .f32))).addT
  (tvOf .f32 [2] ([1, 1].map .f32))).addT (tvOf .i32 [2, 3] ([1, 2, 3, 4, 5, 6].map .int))).addT
  (tvOf .f32 [1, 1, 1, 1, 2] ([3, 4].map .f32))

/-- Every operator succeeds on one of them. -/
def exCalls : List Call :=
  [.create Code.i16.dtype ⟨DEVICE_CPU, 0⟩ [some 2, some 5] 2 0, .full Code.u8.dtype ⟨DEVICE_CPU, 0⟩ [some 3] 1 7,
   .reshape (.blk 10) [some 3, some 2] 2, .squeeze (.blk 0) [some 0] 1, .slice (.blk 10) [some 1, some 0] [some 1, some 2] [some 1, some 1],
   .duplicate (.blk 10), .binary .add (.blk 10) (.blk 10), .sqrt (.blk 5), .matmul (.blk 0) (.blk 5), .dot (.blk 0) (.blk 5),
   .conv2d (some .success) (some .success) (.blk 0) (.blk 0) [some 1, some 1] [some 0, some 0] [some 1, some 1] 1,
   .conv3d (some .success) (some .success) (.blk 15) (.blk 15) [some 1, some 1, some 1] [some 0, some 0, some 0] [some 1, some 1, some 1] 1,
   .pooling 9 (.blk 0) "max" [some 2, some 2] [some 1, some 1] [some 0, some 0] [some 1, some 1],
   .relu (.blk 0), .sigmoid (.blk 0), .tanh (.blk 0), .softmax (.blk 0) 1, .dropout (.blk 0) 0,
   .batchNorm (.blk 0) 1 (.blk 5) (.blk 5) (.blk 5) (.blk 5) 1]

example : exCalls.all (fun c => (c.run .indet okEnv exFm).gives .success) = true := by decide +kernel

/-- The status, whatever the output. -/
def Res.failsAs (r : Res (Status × Ptr)) (st : Status) : Bool :=
  match r with
  | .ok (s, _) _ => s == st
  | _ => false

/-- When the second request for memory of the call fails, most of the calls report it. -/
example : (exCalls.map fun c => (c.run .indet (failAt 21) exFm).failsAs .allocFailed) =
    [true, true, true, true, false, true, true, true, true, true, false, false, false, true, true, true, true, true, true] := by
  decide +kernel

/-- Conversion to another type and to the tensor's own type. -/
example : (cast (.blk 10) Code.f64.dtype .indet okEnv exFm).gives .success = true ∧
    (cast (.blk 10) Code.i32.dtype .null okEnv exFm).failsAs .success = true := by decide +kernel

example : exFm.WF := Mem.addT_wf (Mem.addT_wf (Mem.addT_wf (Mem.addT_wf Mem.empty_wf _) _) _) _

end Aitisa
