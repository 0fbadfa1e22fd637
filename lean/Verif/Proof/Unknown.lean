import Verif.Proof.Duplicate
import Verif.Proof.SoftmaxTop
import Verif.Proof.Binary
import Verif.Proof.MatmulTop
import Verif.Proof.Dropout
import Verif.Model.Dot

/-! # Operators on dtype codes outside the ten defined ones -/

namespace Aitisa

variable {E : Env} {m : Mem} {R R1 R2 : Foot} {T T1 T2 : TV}

theorem find_unknown {n : Nat} (h : 10 ≤ n) : Code.find n = none := by
  unfold Code.find; split <;> first | rfl | omega

theorem table_unknown {dt : DType} (h : 10 ≤ dt.code) (E : Env) (m : Mem) : tableCode dt E m = .ub .outOfBounds := by
  unfold tableCode
  rw [find_unknown h]
  rfl

/-! ### slice and its callers -/

theorem slice_unknown {ax : List Axis} (nf : E.NoFail) (wf : m.WF) (h : At m R T) (hc : 10 ≤ T.dtype.code)
    (h0 : T.dims ≠ []) (hf : SliceFits T.dims ax) (ha : AxFit ax) (out : Ptr) :
    ∃ (R' : Foot) (m' : Mem), slice R.h (bgs ax) (szs ax) (sts ax) out E m = .ok (.notSupported, R'.h) m' ∧ Frame m m' ∧ m'.WF := by
  have hlen := hf.length
  have hcheck : sliceCheck (dimsCells T.dims) T.dims.length (bgs ax) (szs ax) (sts ax) E m = .ok .success m := by
    unfold bgs szs sts
    rw [← of_ints (ax.map (·.bg)), ← of_ints (ax.map (·.sz)), ← of_ints (ax.map (·.st))]
    refine sliceCheck_ok h.shape.rank (by simp [hlen]) (by simp [hlen]) (by simp [hlen]) fun i hi => ?_
    have hia : i < ax.length := by omega
    have hfit := hf.getElem hia hi
    have hint := ha _ (List.getElem_mem hia)
    unfold GoodAt SumFits AxisOK
    simp only [List.getD, List.getElem?_eq_getElem hi, List.getElem?_map, List.getElem?_eq_getElem hia, Option.map_some,
      Option.getD_some]
    obtain ⟨h1, h2, h3⟩ := hfit
    refine ⟨⟨?_, ?_, ?_, ?_, ?_⟩, ?_, ?_⟩ <;> omega
  have rb : rdAll (bgs ax) T.dims.length E m = .ok (ints (ax.map (·.bg))) m := by
    have := rdAll_dims (E := E) (m := m) (ax.map (·.bg)); rwa [List.length_map, hlen] at this
  have rz : rdAll (szs ax) T.dims.length E m = .ok (ints (ax.map (·.sz))) m := by
    have := rdAll_dims (E := E) (m := m) (ax.map (·.sz)); rwa [List.length_map, hlen] at this
  have rt : rdAll (sts ax) T.dims.length E m = .ok (ints (ax.map (·.st))) m := by
    have := rdAll_dims (E := E) (m := m) (ax.map (·.st)); rwa [List.length_map, hlen] at this
  unfold slice
  rcases sliceCreate_run (E := E) wf h hf ha out with ⟨R', m1, e1, P⟩ | ⟨nf', _⟩
  · have h1 := h.frame wf P.frame
    rcases scratch3_run T.dims.length 8 E P.wf with ⟨b1, b2, b3, s1, s2, s3⟩ | ⟨_, _, _, _, _, _, _, _, _, _, _, _, nf'⟩
    · have H := ((P.holds.push b1).push b2).push b3
      obtain ⟨m4, hm4⟩ : ∃ m4, m4 = ((m1.push b1).push b2).push b3 := ⟨_, rfl⟩
      rw [← hm4] at s3 H
      have h4 : At m4 R T := h.frame wf H.ext.toFrame
      refine ⟨R', m4, ?_, H.ext.toFrame, H.ext.wf⟩
      unfold sliceTemplate
      msimp [h.tNdim, h.tDimsArr, hcheck, Int.toNat_natCast, rb, rz, rt, e1, h1.tNdim, h1.tDimsArr, s1, s2, s3,
        rdAll_dims, offsets_run h0 h.shape.prodMax_le, h4.tDtype, find_unknown hc]
    · exact absurd nf nf'
  · exact absurd nf nf'

theorem duplicate_unknown (nf : E.NoFail) (wf : m.WF) (h : At m R T) (hc : 10 ≤ T.dtype.code) (h0 : T.dims ≠ [])
    (hd : ∀ d ∈ T.dims, 0 < d ∧ 0 ≤ toI32 d) (out : Ptr) :
    ∃ m', duplicate R.h out E m = .ok (.notSupported, out) m' ∧ Frame m m' ∧ m'.WF := by
  have hrk := toI32_nat h.shape.rank
  obtain ⟨hf, ha⟩ := dupFits hd
  obtain ⟨e1, e3⟩ := dup_arrays T.dims
  have e2 := dup_sizes fun d hd' => (hd d hd').2
  unfold duplicate
  rcases scratch3_run T.dims.length 4 E wf with ⟨b1, b2, b3, s1, s2, s3⟩ | ⟨_, _, _, _, _, _, _, _, _, _, _, _, nf'⟩
  · have x3 : Ext m (((m.push b1).push b2).push b3) [m.next + 2, m.next + 1, m.next] :=
      ((((Ext.refl wf).push b1).push b2).push b3)
    have h3 : At (((m.push b1).push b2).push b3) R T := h.frame wf x3.toFrame
    obtain ⟨R', m4, e4, fr, wf4⟩ := slice_unknown nf x3.wf h3 hc h0 hf ha .indet
    obtain ⟨f1, f2, f3⟩ := free3 (E := E) fr
    refine ⟨m4.drop [m.next + 2, m.next + 1, m.next], ?_, (x3.toFrame.trans fr).dropTemps (by simp), wf4.drop _⟩
    msimp [h.tDimsArr, h.tNdim, hrk, s1, s2, s3, Int.toNat_natCast, rdAll_dims, e1, e2, e3, e4, f1, f2, f3]
  · exact absurd nf nf'

theorem dropout_unknown (nf : E.NoFail) (wf : m.WF) (h : At m R T) (hc : 10 ≤ T.dtype.code) (h0 : T.dims ≠ [])
    (hd : ∀ d ∈ T.dims, 0 < d ∧ 0 ≤ toI32 d) {rate : BitVec 64}
    (hr : ¬ (E.fp.lt64 rate (E.fp.ofInt64 0) = true ∨ E.fp.lt64 (E.fp.ofInt64 1) rate = true)) (out : Ptr) :
    ∃ m', dropout R.h rate out E m = .ok (.notSupported, out) m' ∧ Frame m m' ∧ m'.WF := by
  obtain ⟨m', e, fr, wf'⟩ := duplicate_unknown nf wf h hc h0 hd .indet
  refine ⟨m', ?_, fr, wf'⟩
  unfold dropout
  msimp [hr, e]

/-! ### softmax -/

theorem softmax_unknown (nf : E.NoFail) (wf : m.WF) (h : At m R T) (hc : 10 ≤ T.dtype.code) (axis : Int) (out : Ptr) :
    ∃ o m', softmax R.h axis out E m = .ok (.notSupported, o) m' ∧ Frame m m' ∧ m'.WF := by
  by_cases hx : axis < -1 ∨ (T.dims.length : Int) ≤ axis
  · exact ⟨out, m, softmax_refuse h hx out, Frame.refl m, wf⟩
  have hg : ¬ (axis < -1 ∨ axis > (T.dims.length : Int) - 1) := by omega
  unfold softmax
  rcases createLike_run (E := E) wf h .indet with ⟨R', m1, e1, P⟩ | ⟨_, _, _, _, nf'⟩
  · have h1 := h.frame wf P.frame
    by_cases ha : axis = -1
    · subst ha
      refine ⟨R'.h, m1, ?_, P.frame, P.wf⟩
      unfold softmaxAll
      msimp [h.tNdim, hg, e1, h1.tDtype, find_unknown hc]
    · obtain ⟨a, rfl⟩ : ∃ a : Nat, axis = (a : Int) := ⟨axis.toNat, by omega⟩
      have hal : a < T.dims.length := by omega
      have h0 : T.dims ≠ [] := by intro hn; rw [hn] at hal; simp at hal
      have hmark : ∀ ds : List Nat, ((ints ds).zipIdx.map fun p => (p.1, decide ((p.2 : Int) = (a : Int)))) =
          (markAt a ds).map castMark := fun ds => markAt_cast a ds
      obtain ⟨p1, m2, s1, f1, w1, ⟨_, nf'⟩ | ⟨rfl, b1, rfl⟩⟩ := scratch_any (T.dims.length : Int) 8 E P.wf
      · exact absurd nf nf'
      obtain ⟨p2, m3, s2, f2, w2, ⟨_, nf'⟩ | ⟨rfl, b2, rfl⟩⟩ := scratch_any (T.dims.length : Int) 8 E w1
      · exact absurd nf nf'
      obtain ⟨m4, hm4⟩ : ∃ m4, m4 = (m1.push b1).push b2 := ⟨_, rfl⟩
      rw [← hm4] at s2 f2 w2
      have fr : Frame m m4 := P.frame.trans (f1.trans f2)
      have h4 : At m4 R T := h.frame wf fr
      have hst : (Arr.of (ints (strides T.dims))).rd (a : Int) E m4 = .ok (prod (T.dims.drop (a + 1)) : Int) m4 := by
        refine run_rd ?_ E m4
        have hs : a < (strides T.dims).length := by rw [strides_length]; exact hal
        simp [Arr.of, hs, strides_get]
      refine ⟨R'.h, m4, ?_, fr, w2⟩
      unfold softmaxAxis
      msimp [h.tNdim, hg, e1, ha, h1.tDimsArr, h1.tNdim, Int.toNat_natCast, rdAll_dims, hmark, batch_axis h.shape, s1, s2,
        offsets_run h0 h.shape.prodMax_le, hst, h4.tDtype, find_unknown hc]
  · exact absurd nf nf'

/-! ### Function tables without a bounds check -/

theorem full_unknown {dt : DType} (nf : E.NoFail) (wf : m.WF) (hc : 10 ≤ dt.code) (dev : Device) {ds : List Nat}
    (hs : ShapeOK ds dt.size) (value : BitVec 64) (out : Ptr) :
    full dt dev (dimsCells ds) ds.length value out E m = .ub .outOfBounds := by
  unfold full
  rcases create_run (E := E) wf dt dev hs 0 .indet with ⟨R', m1, e, P⟩ | ⟨_, _, _, _, nf'⟩
  · msimp [e, P.tensor.tSize, table_unknown hc]
  · exact absurd nf nf'

theorem matFull_unknown (nf : E.NoFail) (wf : m.WF) (h : At m R T) (hc : 10 ≤ T.dtype.code) {ds : List Nat}
    (hs : ShapeOK ds T.dtype.size) (out : Ptr) : matFull R.h (dimsCells ds) ds.length out E m = .ub .outOfBounds := by
  unfold matFull
  msimp [h.tDtype, h.tDevice, full_unknown nf wf hc T.device hs]

theorem matPlain_unknown (nf : E.NoFail) (wf : m.WF) (h : At m R T) (hc : 10 ≤ T.dtype.code) {ds : List Nat}
    (hs : ShapeOK ds T.dtype.size) (h2 out : Ptr) (k) : matPlain R.h h2 (dimsCells ds) ds.length out k E m = .ub .outOfBounds := by
  unfold matPlain
  msimp [matFull_unknown nf wf h hc hs out]

theorem binaryOp_unknown {op : BinOp} (nf : E.NoFail) (mf : E.MallocOK) (wf : m.WF) (h1 : At m R1 T1)
    (h2 : At m R2 T2) (hc : 10 ≤ T1.dtype.code) (hd1 : T1.device.type = 0) (hd2 : T2.device.type = 0)
    (ht : T1.dtype.code = T2.dtype.code) (hd : T2.dims = T1.dims) (hp : 0 < prod T1.dims) (hi : prod T1.dims ≤ 2147483647) (out : Ptr) :
    binaryOp op R1.h R2.h out E m = .ub .outOfBounds := by
  rw [binaryOp_pass h1 h2 hd1 hd2 ht hd out]
  unfold binFill
  rcases create_run (E := E) wf T1.dtype T1.device h1.shape 0 out with ⟨R', m1, e1, P⟩ | ⟨_, _, _, _, nf'⟩
  · have H := P.holds
    obtain ⟨pa, ma, ea, Ha, fa, ⟨_, hx⟩ | ⟨rfl, rfl⟩⟩ := cellAlloc_run (E := E) T1.dtype H
    · exact absurd mf hx
    obtain ⟨pb, mb, eb, Hb, fb, ⟨_, hx⟩ | ⟨rfl, rfl⟩⟩ := cellAlloc_run (E := E) T1.dtype Ha
    · exact absurd mf hx
    obtain ⟨pr, mr, er, Hr, fr, ⟨_, hx⟩ | ⟨rfl, hmr⟩⟩ := cellAlloc_run (E := E) T1.dtype Hb
    · exact absurd mf hx
    have g1 := h1.frame wf P.frame
    have g2 := h2.frame wf P.frame
    have hc' : (prod T1.dims : Int) ≤ I32_MAX := by unfold I32_MAX; omega
    msimp [h1.tDtype, h1.tDevice, e1, g1.tSize, g1.tData, g2.tData, P.tensor.tData, ea, eb, er]
    unfold binLoop forI32
    simp only [if_pos hc', Int.toNat_natCast]
    rw [loopN_first hp (u := .outOfBounds) (by msimp [table_unknown hc])]
    rfl
  · exact absurd nf nf'

/-! ### matmul and dot -/

section
variable (nf : E.NoFail) (wf : m.WF) (h1 : At m R1 T1) (h2 : At m R2 T2) (hc : 10 ≤ T1.dtype.code) (c1 : T1.device.type = 0)
  (c2 : T2.device.type = 0) {nM nK nN : Nat} {out : Ptr}
include nf wf h1 h2 hc c1 c2

theorem matVV_unknown (s1 : T1.dims = [nK]) (s2 : T2.dims = [nK]) (hs : ShapeOK [1] T1.dtype.size) :
    matmul R1.h R2.h out E m = .ub .outOfBounds := by
  rw [matmul_vv h1 h2 c1 c2 (by simp [s1]) (by simp [s2])]
  unfold matVV
  msimp [h1.dimI (k := 0) (i := 0) (d := nK) rfl (by simp [s1]), h2.dimI (k := 0) (i := 0) (d := nK) rfl (by simp [s2])]
  exact matPlain_unknown nf wf h1 hc hs _ _ _

theorem matMV_unknown (s1 : T1.dims = [nM, nK]) (s2 : T2.dims = [nK]) (hs : ShapeOK [nM] T1.dtype.size) :
    matmul R1.h R2.h out E m = .ub .outOfBounds := by
  rw [matmul_mv h1 h2 c1 c2 (by simp [s1]) (by simp [s2])]
  unfold matMV
  msimp [h1.dimI (k := 0) (i := 0) (d := nM) rfl (by simp [s1]), h1.dimI (k := 1) (i := 1) (d := nK) rfl (by simp [s1]),
    h2.dimI (k := 0) (i := 0) (d := nK) rfl (by simp [s2])]
  exact matPlain_unknown nf wf h1 hc hs _ _ _

theorem matMM_unknown (s1 : T1.dims = [nM, nK]) (s2 : T2.dims = [nK, nN]) (hs : ShapeOK [nM, nN] T1.dtype.size) :
    matmul R1.h R2.h out E m = .ub .outOfBounds := by
  rw [matmul_mm h1 h2 c1 c2 (by simp [s1]) (by simp [s2])]
  unfold matMM
  msimp [h1.dimI (k := 0) (i := 0) (d := nM) rfl (by simp [s1]), h1.dimI (k := 1) (i := 1) (d := nK) rfl (by simp [s1]),
    h2.dimI (k := 0) (i := 0) (d := nK) rfl (by simp [s2]), h2.dimI (k := 1) (i := 1) (d := nN) rfl (by simp [s2])]
  exact matPlain_unknown nf wf h1 hc hs _ _ _

theorem matVM_unknown (s1 : T1.dims = [nK]) (s2 : T2.dims = [nK, nN]) (hs : ShapeOK [nN] T1.dtype.size) :
    matmul R1.h R2.h out E m = .ub .outOfBounds := by
  rw [matmul_vm h1 h2 c1 c2 (by simp [s1]) (by simp [s2])]
  unfold matVM
  msimp [h1.dimI (k := 0) (i := 0) (d := nK) rfl (by simp [s1]),
    h2.dimI (k := 0) (i := 0) (d := nK) rfl (by simp [s2]), h2.dimI (k := 1) (i := 1) (d := nN) rfl (by simp [s2])]
  exact matPlain_unknown nf wf h1 hc hs _ _ _

theorem dotVV_unknown (ht : T1.dtype.code = T2.dtype.code) (s1 : T1.dims = [nK]) (s2 : T2.dims = [nK])
    (hs : ShapeOK [1] T1.dtype.size) : dot R1.h R2.h out E m = .ub .outOfBounds := by
  have l1 : T1.dims.length = 1 := by simp [s1]
  have l2 : T2.dims.length = 1 := by simp [s2]
  unfold dot vecDot
  msimp [h1.tDevice, h2.tDevice, c1, c2, DEVICE_CPU, h1.tDtype, h2.tDtype, ht, h1.tNdim, h2.tNdim, l1, l2, h1.dimI (k := 0) (i := 0) (d := nK) rfl (by simp [s1]),
    h2.dimI (k := 0) (i := 0) (d := nK) rfl (by simp [s2]), h1.tSize]
  exact matPlain_unknown nf wf h1 hc hs _ _ _

end

/-- dot with a scalar: the value of the scalar is read through the dispatch macro. -/
theorem dotScalar_unknown (h1 : At m R1 T1) (h2 : At m R2 T2) (hc : 10 ≤ T1.dtype.code)
    (s : T1.dims = [] ∨ T2.dims = []) (out : Ptr) : dot R1.h R2.h out E m = .ok (.notSupported, out) m := by
  unfold dot
  by_cases hd : T1.device.type ≠ DEVICE_CPU ∨ T2.device.type ≠ DEVICE_CPU
  · msimp [h1.tDevice, h2.tDevice, hd]
  by_cases ht : T1.dtype.code = T2.dtype.code
  · have hc2 : 10 ≤ T2.dtype.code := by omega
    have z : ¬ ((T1.dims.length : Int) = 1 ∧ (T2.dims.length : Int) = 1) ∧ ¬ ((T1.dims.length : Int) = 2 ∧ (T2.dims.length : Int) = 2) ∧
        ((T1.dims.length : Int) = 0 ∨ (T2.dims.length : Int) = 0) := by
      rcases s with s | s <;> simp [s]
    unfold scalarMul scalarMulOf dotGetValue
    by_cases hr : (T1.dims.length : Int) > T2.dims.length
    · msimp [h1.tDevice, h2.tDevice, hd, h1.tDtype, h2.tDtype, ht, h1.tNdim, h2.tNdim, z.1, z.2.1, z.2.2, hr, h1.tDimsArr,
        find_unknown hc2]
    · msimp [h1.tDevice, h2.tDevice, hd, h1.tDtype, h2.tDtype, ht, h1.tNdim, h2.tNdim, z.1, z.2.1, z.2.2, hr, h2.tDimsArr,
        find_unknown hc2]
  · msimp [h1.tDevice, h2.tDevice, hd, h1.tDtype, h2.tDtype, ht]

end Aitisa
