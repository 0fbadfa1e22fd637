import Verif.Proof.Served
import Verif.Props.Frame
import Verif.Props.Core
import Verif.Props.Elementwise
import Verif.Props.Squeeze
import Verif.Props.NN

/-!
# C48: failing allocations

Proved for the operators that check every allocation; violated by the others.
-/

namespace Aitisa

variable {E : Env} {m m' : Mem} {R : Foot} {T : TV} {c c' : Code} {xs : List Val} {x : M (Status × Ptr)} {out : Ptr}

/-- The operators that check all their allocations. -/
def Call.Careful : Call → Prop
  | .create .. | .full .. | .reshape .. | .squeeze .. | .sqrt .. | .relu .. | .sigmoid .. | .tanh .. | .softmax .. => True
  | _ => False

/-- C48. These operators, on any arguments, with any allocator: the status is `STATUS_ALLOC_FAILED` exactly if a request was refused
(that existing memory is then unchanged is `C06_operators`). -/
theorem C48_reported_partial (c : Call) (h : c.Careful) (out : Ptr) : ReportsOom (c.run out) := by
  cases c <;> first | exact h.elim | skip
  · exact (Srv.create _ _ _ _ _ _ _).reports
  · exact (Srv.full _ _ _ _ _ _).reports
  · exact (Srv.reshape _ _ _ _).reports
  · exact (Srv.squeeze _ _ _ _).reports
  · exact (Srv.sqrt _ _).reports
  · exact (Srv.relu _ _).reports
  · exact (Srv.sigmoid _ _).reports
  · exact (Srv.tanh _ _).reports
  · exact (Srv.softmax _ _ _).reports

/-- C48 for conversion. -/
theorem C48_cast_reported (h out : Ptr) (dt : DType) : ReportsOom (cast h dt out) := (Srv.cast h dt out).reports

theorem Creates.survives (h : Creates E x m out T) (r : ReportsOom x) : SurvivesOom E x m out := by
  rcases h with ⟨R, m', e, P⟩ | ⟨m', e, fr, -, -⟩
  · refine ⟨_, _, m', e, P.ext.toFrame, .inl ⟨?_, by simp⟩⟩
    exact Classical.not_not.1 fun hn => by have := (r _ _ _ _ _ e).2 hn; cases this
  · exact ⟨_, _, m', e, fr, .inr ⟨(r _ _ _ _ _ e).1 rfl, rfl, rfl⟩⟩

/-- C48. Creation never crashes, whichever requests are refused. -/
theorem C48_create (wf : m.WF) (dt : DType) (dev : Device) (ds : List Nat) (hs : ShapeOK ds dt.size) (out : Ptr) :
    SurvivesOom E (create dt dev (dimsCells ds) ds.length .null 0 out) m out :=
  (C01_create wf dt dev ds hs out).survives (Srv.create _ _ _ _ _ _ _).reports

/-- C48 for a filled tensor (of a convertible value). -/
theorem C48_full (wf : m.WF) (c : Code) (dev : Device) (ds : List Nat) (hs : ShapeOK ds c.size) (hi : prod ds ≤ 2147483647)
    (value : BitVec 64) (v : Val) (hv : Converts E.fp c (.f64 value) v) (out : Ptr) :
    SurvivesOom E (full c.dtype dev (dimsCells ds) ds.length value out) m out :=
  (C10_full wf c dev ds hs hi value v hv out).creates.survives (Srv.full _ _ _ _ _ _).reports

/-- C48 for reshaping. -/
theorem C48_reshape (wf : m.WF) (h : At m R T) (ds : List Nat) (hs : ShapeOK ds T.dtype.size) (hp : prod ds = prod T.dims) (out : Ptr) :
    SurvivesOom E (reshape R.h (dimsCells ds) ds.length out) m out :=
  (C18_reshape wf h ds hs hp out).survives (Srv.reshape _ _ _ _).reports

/-- C48 for conversion to another type (of convertible elements). -/
theorem C48_cast (wf : m.WF) (h : At m R T) (he : Elems T c xs) (hne : c ≠ c') (hs : ShapeOK T.dims c'.size)
    (hd : ∀ x ∈ xs, ∃ y, Converts E.fp c' x y) (out : Ptr) : SurvivesOom E (cast R.h c'.dtype out) m out := by
  obtain ⟨ys, D, -⟩ := C11_cast wf h he hne hs hd out
  exact D.creates.survives (C48_cast_reported _ _ _)

/-- C48 for squeezing. -/
theorem C48_squeeze (wf : m.WF) (h : At m R T) (hp : ∀ d ∈ T.dims, 0 < d) {ax : List Nat} (hnd : ax.Nodup)
    (hr : ∀ a ∈ ax, a < T.dims.length) (out : Ptr) : SurvivesOom E (squeeze R.h (dimsCells ax) ax.length out) m out := by
  obtain ⟨ds, -, C⟩ := C19_squeeze (E := E) wf h hp hnd hr out
  exact C.survives (Srv.squeeze _ _ _ _).reports

/-- C48 for the square root. -/
theorem C48_sqrt (wf : m.WF) (h : At m R T) (he : Elems T c xs) (hpos : ∀ x ∈ xs, ¬ Negative E.fp x)
    (hd : ∀ x ∈ xs, ∃ y, RootOf E.fp c x y) (out : Ptr) : SurvivesOom E (sqrt R.h out) m out := by
  obtain ⟨ys, D, -⟩ := C30_sqrt wf h he hpos hd out
  exact D.creates.survives (Srv.sqrt _ _).reports

/-- C48 for relu. -/
theorem C48_relu (wf : m.WF) (h : At m R T) (he : Elems T c xs) (out : Ptr) : SurvivesOom E (relu R.h out) m out := by
  obtain ⟨ys, D, -⟩ := C35_relu wf h he out
  exact D.creates.survives (Srv.relu _ _).reports

/-- C48 for sigmoid. -/
theorem C48_sigmoid (wf : m.WF) (hc : c = .f32 ∨ c = .f64) (h : At m R T) (he : Elems T c xs) (out : Ptr) :
    SurvivesOom E (sigmoid R.h out) m out := by
  obtain ⟨ys, D, -⟩ := C36_sigmoid wf hc h he out
  exact D.creates.survives (Srv.sigmoid _ _).reports

/-- C48 for tanh. -/
theorem C48_tanh (wf : m.WF) (hc : c = .f32 ∨ c = .f64) (h : At m R T) (he : Elems T c xs) (out : Ptr) :
    SurvivesOom E (tanh R.h out) m out := by
  obtain ⟨ys, D, -⟩ := C36_tanh wf hc h he out
  exact D.creates.survives (Srv.tanh _ _).reports

/-- C48 for softmax: no crash and failure is reported, but `*output` may then be anything. -/
theorem C48_softmax_partial {axis : Int} (h : Tries E (softmax R.h axis out) m T) :
    ∃ st p m', softmax R.h axis out E m = .ok (st, p) m' ∧ Frame m m' ∧
      (Granted m m' ∧ st = .success ∨ ¬ Granted m m' ∧ st = .allocFailed) := by
  have r := (Srv.softmax R.h axis out).reports
  rcases h with ⟨R', m', e, P⟩ | ⟨-, p, m', e, fr, -⟩
  · exact ⟨_, _, m', e, P.ext.toFrame, .inl ⟨Classical.not_not.1 fun hn => (by have := (r _ _ _ _ _ e).2 hn; cases this), rfl⟩⟩
  · exact ⟨_, _, m', e, fr, .inr ⟨(r _ _ _ _ _ e).1 rfl, rfl⟩⟩

/-- If the first request of softmax is refused, `*output` becomes an indeterminate pointer. -/
theorem C48_softmax_output (h : At m R T) (hf : ∀ s, E.allocOk m.tick s = false) (axis : Int)
    (ha : -1 ≤ axis ∧ axis < T.dims.length) (out : Ptr) : ∃ m', softmax R.h axis out E m = .ok (.allocFailed, .indet) m' := by
  have hc : ¬ (axis < -1 ∨ axis > (T.dims.length : Int) - 1) := by omega
  unfold softmax createLike create
  msimp [h.tNdim, h.tDimsArr, h.tDtype, h.tDevice, hc, run_rawAlloc, hf]
  exact ⟨_, rfl⟩

theorem Res.gives_ok {r : Res (Status × Ptr)} {st : Status} (h : r.gives st = true) : ∃ p m', r = .ok (st, p) m' := by
  unfold Res.gives at h
  split at h
  · exact ⟨_, _, by rw [eq_of_beq h]⟩
  · cases h

/-- For every other operator there is a request such that its refusal makes the call dereference a null pointer. -/
def exCrash : List (Nat × Call) :=
  [(21, .slice (.blk 10) [some 1, some 0] [some 1, some 2] [some 1, some 1]), (24, .duplicate (.blk 10)),
   (25, .binary .add (.blk 10) (.blk 10)), (25, .binary .sub (.blk 10) (.blk 10)), (25, .binary .mul (.blk 10) (.blk 10)),
   (25, .binary .div (.blk 10) (.blk 10)), (20, .matmul (.blk 0) (.blk 5)), (30, .dot (.blk 0) (.blk 5)),
   (20, .conv2d (some .success) (some .success) (.blk 0) (.blk 0) [some 1, some 1] [some 0, some 0] [some 1, some 1] 1),
   (20, .conv3d (some .success) (some .success) (.blk 15) (.blk 15) [some 1, some 1, some 1] [some 0, some 0, some 0] [some 1, some 1, some 1] 1),
   (20, .pooling 9 (.blk 0) "max" [some 2, some 2] [some 1, some 1] [some 0, some 0] [some 1, some 1]),
   (24, .dropout (.blk 0) 0), (35, .batchNorm (.blk 0) 1 (.blk 5) (.blk 5) (.blk 5) (.blk 5) 1)]

/-- C48 does not hold for the operators in `exCrash`: each of these calls succeeds if all requests are granted and dereferences a null
pointer if only the request with the given number is refused. -/
theorem C48_violated : ∀ q ∈ exCrash, q.2.run .null (failAt q.1) exFm = .ub .nullDeref ∧
    ∃ p m', q.2.run .null okEnv exFm = .ok (.success, p) m' := by
  have h : exCrash.all (fun q => (q.2.run .null (failAt q.1) exFm).ubIs .nullDeref && (q.2.run .null okEnv exFm).gives .success) = true := by
    decide +kernel
  intro q hq
  have := List.all_eq_true.1 h q hq
  rw [Bool.and_eq_true] at this
  exact ⟨Res.ubIs_iff.1 this.1, Res.gives_ok this.2⟩

/-! ## Cases -/

/-- Creation with its first, ..., fifth request refused, and with none. -/
example : ([20, 21, 22, 23, 24].map fun k => (create Code.i16.dtype ⟨DEVICE_CPU, 0⟩ [some 2, some 5] 2 .null 0 .null (failAt k) exFm).failsAs .allocFailed) =
    [true, true, true, true, true] := by decide +kernel

/-- The hypotheses of the theorems hold for the tensor `exA` and an allocator that refuses the third request. -/
example : SurvivesOom (failAt 3) (relu Mem.empty.footT.h .null) exMem .null := C48_relu exMem_wf exA_at exA_elems _
example : SurvivesOom (failAt 7) (cast Mem.empty.footT.h Code.f64.dtype .null) exMem .null :=
  C48_cast (c := .i32) (c' := .f64) exMem_wf exA_at exA_elems (by decide) ⟨by decide, by decide⟩ (fun x hx => C11_total (.inr rfl) (exA_elems.wt x hx)) _

end Aitisa
