import Verif.Props.Math
import Verif.Props.Oom
import Verif.Props.NN
import Verif.Props.Slice
import Verif.Props.PoolLaws
import Verif.Props.Conv
import Verif.Proof.MatmulBig
import Verif.Props.Dot
import Verif.Props.BatchNorm

/-!
# C48: what careless operators do if a request is refused
-/

namespace Aitisa

variable {E : Env} {m : Mem} {R1 R2 : Foot} {T1 T2 : TV} {c : Code} {op : BinOp} {xs ys : List Val}

theorem cellAlloc_refused (hm : ∀ t s, E.mallocOk t s = false) (dt : DType) (m : Mem) : cellAlloc dt E m = .ok .null m.miss := by
  unfold cellAlloc
  rw [run_cMalloc, hm]; rfl

/-- C48 is violated by `aitisa_add`, `aitisa_sub`, `aitisa_mul` and `aitisa_div` on all operands they are meant for: if `malloc` refuses, the call does not report
it but dereferences a null pointer, whatever the tensors, unless they have no elements. -/
theorem C48_binary_crash (nf : E.NoFail) (hm : ∀ t s, E.mallocOk t s = false) (wf : m.WF) (h1 : At m R1 T1) (he1 : Elems T1 c xs) (h2 : At m R2 T2)
    (he2 : Elems T2 c ys) (hd1 : T1.device.type = 0) (hd2 : T2.device.type = 0) (hd : T2.dims = T1.dims) (hi : prod T1.dims ≤ 2147483647)
    (hpos : 0 < prod T1.dims) (hz : ∀ (_ : 0 < xs.length) (_ : 0 < ys.length), ∃ z, OpResult E.fp c op xs[0] ys[0] z) (out : Ptr) :
    binaryOp op R1.h R2.h out E m = .ub .nullDeref := by
  have hN := he1.len
  have hN2 := he2.len
  rw [hd] at hN2
  rw [binaryOp_pass h1 h2 hd1 hd2 (by rw [he1.dtype, he2.dtype]) hd out]
  unfold binFill
  rcases create_run (E := E) wf T1.dtype T1.device h1.shape 0 out with ⟨R', m1, e1, P⟩ | ⟨_, _, _, _, nf'⟩
  · rw [he1.dtype] at e1
    have ea := cellAlloc_refused hm c.dtype m1
    have eb := cellAlloc_refused hm c.dtype m1.miss
    have er := cellAlloc_refused hm c.dtype m1.miss.miss
    have g1 := h1.frame wf P.frame
    have g2 := h2.frame wf P.frame
    have f : Frame m1 m1.miss.miss.miss := ((Frame.miss _).trans (Frame.miss _)).trans (Frame.miss _)
    have el := binLoop_null (E := E) (op := op) (p1 := .null) (p2 := .null) (p3 := .null) (q := .blk R'.p) (g1.frame P.wf f) he1 (g2.frame P.wf f) he2
      (by omega) (by omega) (by omega) (fun u hu => by
        obtain ⟨z, h⟩ := hz (by omega) (by omega)
        rw [(opResult_iff (he1.wt _ (List.getElem_mem _)) (he2.wt _ (List.getElem_mem _))).1 h] at hu
        cases hu) (.inl rfl) (.inl rfl) (.inl rfl)
    rw [hN] at el
    msimp [h1.tDtype, h1.tDevice, e1, g1.tSize, g1.tData, g2.tData, P.tensor.tData, he1.dtype, ea, eb, er, el]
  · exact absurd nf nf'

/-- With an allocator that grants everything and a `malloc` that grants nothing. -/
example : binaryOp .add Mem.empty.footT.h (Mem.empty.addT exB1).footT.h .null { okEnv with mallocOk := fun _ _ => false } exBMem = .ub .nullDeref :=
  C48_binary_crash (fun _ _ => rfl) (fun _ _ => rfl) exBMem_wf exB1_at exB1_elems exB2_at exB2_elems rfl rfl rfl (by decide) (by decide)
    (fun _ _ => ⟨.int (-56), (opResult_iff (exB1_elems.wt _ (List.getElem_mem _)) (exB2_elems.wt _ (List.getElem_mem _))).2 rfl⟩) _

/-! ### slice, duplicate, dropout -/

-- unfolding it during unification computes with unary numbers
attribute [local irreducible] toI32

variable {R : Foot} {T : TV}

theorem scratch_granted {n : Int} {k : Nat} (h : ∀ s, E.allocOk m.tick s = true) : ∃ b, scratch n k E m = .ok (.blk m.next) (m.push b) := by
  unfold scratch
  rw [run_rawAlloc, h]; exact ⟨_, rfl⟩

theorem scratch_refused {n : Int} {k : Nat} (h : ∀ s, E.allocOk m.tick s = false) : scratch n k E m = .ok .null m.miss := by
  unfold scratch
  rw [run_rawAlloc, h]; rfl

/-- C48 is violated by `aitisa_slice` on every valid request whose output has dims: if the first request for memory is granted and the second refused, the
call dereferences a null pointer. -/
theorem C48_slice_crash {ax : List Axis} (h : At m R T) (hf : SliceFits T.dims ax) (ha : AxFit ax) (hne : sliceDims ax ≠ [])
    (a1 : ∀ s, E.allocOk m.tick s = true) (a2 : ∀ s, E.allocOk (m.tick + 1) s = false) (out : Ptr) :
    slice R.h (bgs ax) (szs ax) (sts ax) out E m = .ub .nullDeref := by
  have hlen := hf.length
  have hcheck : sliceCheck (dimsCells T.dims) T.dims.length (bgs ax) (szs ax) (sts ax) E m = .ok .success m := by
    unfold bgs szs sts
    rw [← of_ints (ax.map (·.bg)), ← of_ints (ax.map (·.sz)), ← of_ints (ax.map (·.st))]
    refine sliceCheck_ok h.shape.rank (by simp [hlen]) (by simp [hlen]) (by simp [hlen]) fun i hi => ?_
    have hia : i < ax.length := by omega
    have hfit := hf.getElem hia hi
    have hint := ha _ (List.getElem_mem hia)
    unfold GoodAt SumFits AxisOK
    simp only [List.getD, List.getElem?_eq_getElem hi, List.getElem?_map, List.getElem?_eq_getElem hia, Option.map_some,
      Option.getD_some]
    obtain ⟨h1, h2, h3⟩ := hfit
    refine ⟨⟨?_, ?_, ?_, ?_, ?_⟩, ?_, ?_⟩ <;> omega
  have rb : rdAll (bgs ax) T.dims.length E m = .ok (ints (ax.map (·.bg))) m := by
    have := rdAll_dims (E := E) (m := m) (ax.map (·.bg)); rwa [List.length_map, hlen] at this
  have rz : rdAll (szs ax) T.dims.length E m = .ok (ints (ax.map (·.sz))) m := by
    have := rdAll_dims (E := E) (m := m) (ax.map (·.sz)); rwa [List.length_map, hlen] at this
  have rt : rdAll (sts ax) T.dims.length E m = .ok (ints (ax.map (·.st))) m := by
    have := rdAll_dims (E := E) (m := m) (ax.map (·.st)); rwa [List.length_map, hlen] at this
  have hcr : sliceCreate R.h (ints (ax.map (·.sz))) (ints (ax.map (·.st))) out E m = .ub .nullDeref := by
    have hod := outDims_eq hf ha
    have hl : ((ints (sliceDims ax)).length : Int) = ((sliceDims ax).length : Nat) := by simp
    obtain ⟨b1, e1⟩ := scratch_granted (E := E) (n := T.dims.length) (k := 4) a1
    have e2 : scratch ((sliceDims ax).length : Nat) 8 E (m.push b1) = .ok .null (m.push b1).miss := scratch_refused a2
    have ht : sliceTouch .null (ints (sliceDims ax)) E (m.push b1).miss = .ub .nullDeref := by
      unfold sliceTouch; rw [if_neg (by simpa [ints] using hne)]; rfl
    unfold sliceCreate
    msimp [h.tNdim, e1, hod, hl, e2, ht]
  unfold slice
  msimp [h.tNdim, h.tDimsArr, hcheck, Int.toNat_natCast, rb, rz, rt, hcr]

/-- C48 is violated by `aitisa_duplicate` on every tensor that it can copy: if its first four requests are granted and the fifth refused, the call
dereferences a null pointer. -/
theorem C48_duplicate_crash (wf : m.WF) (h : At m R T) (h0 : T.dims ≠ []) (hd : ∀ d ∈ T.dims, 0 < d) (hi : prod T.dims ≤ 2147483647)
    (a1 : ∀ t s, t < m.tick + 4 → E.allocOk t s = true) (a2 : ∀ s, E.allocOk (m.tick + 4) s = false) (out : Ptr) :
    duplicate R.h out E m = .ub .nullDeref := by
  have hle : ∀ d ∈ T.dims, 0 < d ∧ d ≤ 2147483647 := fun d hd' => ⟨hd d hd', Nat.le_trans (le_prod hd hd') hi⟩
  have hs := sliceDims_dup hle
  have hdd : ∀ d ∈ T.dims, 0 < d ∧ 0 ≤ toI32 d := fun d hd' => ⟨hd d hd', by rw [toI32_nat (hle d hd').2]; omega⟩
  have hrk := toI32_nat h.shape.rank
  obtain ⟨hf, ha⟩ := dupFits hdd
  obtain ⟨e1, e3⟩ := dup_arrays T.dims
  have e2 := dup_sizes fun d hd' => (hdd d hd').2
  obtain ⟨b1, s1⟩ := scratch_granted (E := E) (m := m) (n := T.dims.length) (k := 4) (fun s => a1 _ s (by omega))
  obtain ⟨b2, s2⟩ := scratch_granted (E := E) (m := m.push b1) (n := T.dims.length) (k := 4) (fun s => a1 _ s (by show m.tick + 1 < _; omega))
  obtain ⟨b3, s3⟩ := scratch_granted (E := E) (m := (m.push b1).push b2) (n := T.dims.length) (k := 4) (fun s => a1 _ s (by show m.tick + 1 + 1 < _; omega))
  have x3 : Ext m (((m.push b1).push b2).push b3) [m.next + 2, m.next + 1, m.next] := ((((Ext.refl wf).push b1).push b2).push b3)
  have h3 : At (((m.push b1).push b2).push b3) R T := h.frame wf x3.toFrame
  have e4 := C48_slice_crash (E := E) h3 hf ha (by rw [hs]; exact h0) (fun s => a1 _ s (by show m.tick + 1 + 1 + 1 < _; omega)) a2 .indet
  unfold duplicate
  msimp [h.tDimsArr, h.tNdim, hrk, s1, s2, s3, Int.toNat_natCast, rdAll_dims, e1, e2, e3, e4]

/-- C48 is violated likewise by `aitisa_dropout`, which copies its input first. -/
theorem C48_dropout_crash {rate : BitVec 64} (wf : m.WF) (h : At m R T) (h0 : T.dims ≠ []) (hd : ∀ d ∈ T.dims, 0 < d) (hi : prod T.dims ≤ 2147483647)
    (hr : RateOK E.fp rate) (a1 : ∀ t s, t < m.tick + 4 → E.allocOk t s = true) (a2 : ∀ s, E.allocOk (m.tick + 4) s = false) (out : Ptr) :
    dropout R.h rate out E m = .ub .nullDeref := by
  have hcond : ¬ (E.fp.lt64 rate (E.fp.ofInt64 0) = true ∨ E.fp.lt64 (E.fp.ofInt64 1) rate = true) := by
    rw [hr.1, hr.2]; simp
  have e := C48_duplicate_crash (E := E) wf h h0 hd hi a1 a2 .indet
  unfold dropout
  msimp [hcond, e]

/-- Copying `exB1` if the fifth request is refused. -/
example : duplicate Mem.empty.footT.h .null (failAt (exBMem.tick + 4)) exBMem = .ub .nullDeref :=
  C48_duplicate_crash exBMem_wf exB1_at (by decide) (by decide) (by decide) (fun t s ht => by
    show decide (t ≠ _) = true
    exact decide_eq_true (by omega)) (fun s => by show decide (exBMem.tick + 4 ≠ exBMem.tick + 4) = false; simp) _

/-- The second column of `exB1`, if the second request is refused. -/
example : slice Mem.empty.footT.h (bgs [⟨0, 2, 1⟩, ⟨1, 1, 1⟩]) (szs [⟨0, 2, 1⟩, ⟨1, 1, 1⟩]) (sts [⟨0, 2, 1⟩, ⟨1, 1, 1⟩]) .null (failAt (exBMem.tick + 1)) exBMem =
    .ub .nullDeref :=
  C48_slice_crash exB1_at (by simp [SliceFits, Axis.Fits, exB1, tvOf]) (by simp [AxFit]) (by simp [sliceDims, ceilDiv]) (fun s => by
    show decide (exBMem.tick ≠ exBMem.tick + 1) = true
    exact decide_eq_true (by omega)) (fun s => by show decide (exBMem.tick + 1 ≠ exBMem.tick + 1) = false; simp) _

/-- dropout of `exB1`, likewise. -/
example : dropout Mem.empty.footT.h 0#64 .null (failAt (exBMem.tick + 4)) exBMem = .ub .nullDeref :=
  C48_dropout_crash exBMem_wf exB1_at (by decide) (by decide) (by decide) ⟨by decide +kernel, by decide +kernel⟩ (fun t s ht => by
    show decide (t ≠ _) = true
    exact decide_eq_true (by omega)) (fun s => by show decide (exBMem.tick + 4 ≠ exBMem.tick + 4) = false; simp) _

/-! ### pooling, convolution -/

theorem scratch_ends (n : Int) (k : Nat) (E : Env) (m : Mem) : ∃ p m', scratch n k E m = .ok p m' := by
  rcases scratch_run n k E m with ⟨b, e⟩ | ⟨e, -⟩
  · exact ⟨_, _, e⟩
  · exact ⟨_, _, e⟩

/-- C48 is violated by `aitisa_pooling` on every tensor with all windows that fit and any mode: if its first request is refused, the call dereferences a
null pointer. -/
theorem C48_pooling_crash {ws : List Win} {B C fuel : Nat} {mode : String} (h : At m R T) (hs : T.dims = B :: C :: ws.map Win.x) (hw : 1 ≤ ws.length)
    (hw' : ws.length ≤ 3) (hf : ∀ w ∈ ws, w.Fits ∧ w.Small) (a1 : ∀ s, E.allocOk m.tick s = false) (out : Ptr) :
    pooling fuel R.h mode (dimsCells (ws.map Win.k)) (dimsCells (ws.map Win.s)) (dimsCells (ws.map Win.p)) (dimsCells (ws.map Win.d)) out E m =
      .ub .nullDeref := by
  have hl : T.dims.length = ws.length + 2 := by rw [hs]; simp
  have n2 : (((ws.length + 2 : Nat) : Int) - 2).toNat = ws.length := by omega
  have e1 : scratch ((ws.length + 2 : Nat) : Int) 8 E m = .ok .null m.miss := scratch_refused a1
  obtain ⟨p2, m2, e2⟩ := scratch_ends ((ws.length + 2 : Nat) : Int) 8 E m.miss
  obtain ⟨p3, m3, e3⟩ := scratch_ends ((ws.length + 2 : Nat) : Int) 8 E m2
  obtain ⟨p4, m4, e4⟩ := scratch_ends ((ws.length + 2 : Nat) : Int) 8 E m3
  obtain ⟨p5, m5, e5⟩ := scratch_ends ((ws.length + 2 : Nat) : Int) 8 E m4
  obtain ⟨p6, m6, e6⟩ := scratch_ends ((ws.length + 2 : Nat) : Int) 8 E m5
  have hch := poolCheck_run (E := E) (m := m6) hf hs
  unfold pooling
  msimp [h.tNdim, hl]
  rw [if_pos (by omega)]
  unfold poolRun poolMain
  msimp [h.tDimsArr, e1, e2, e3, e4, e5, e6, n2, hch, touch_null]

theorem conv_crash {j j' : Fall} {stride padding dilation : Arr} {groups : Int} (h1 : At m R1 T1) (h2 : At m R2 T2) (hd : T1.dtype = Code.f32.dtype)
    (r1 : T1.dims ≠ []) (r2 : T2.dims ≠ []) (a1 : ∀ s, E.allocOk m.tick s = false) (out : Ptr) :
    conv j j' R1.h R2.h stride padding dilation groups out E m = .ub .nullDeref := by
  have e1 : scratch (T1.dims.length : Int) 8 E m = .ok .null m.miss := scratch_refused a1
  obtain ⟨p2, m2, e2⟩ := scratch_ends (T1.dims.length : Int) 8 E m.miss
  obtain ⟨p3, m3, e3⟩ := scratch_ends (T1.dims.length : Int) 8 E m2
  obtain ⟨p4, m4, e4⟩ := scratch_ends (T1.dims.length : Int) 8 E m3
  obtain ⟨p5, m5, e5⟩ := scratch_ends (T1.dims.length : Int) 8 E m4
  obtain ⟨p6, m6, e6⟩ := scratch_ends (T1.dims.length : Int) 8 E m5
  obtain ⟨p7, m7, e7⟩ := scratch_ends (T1.dims.length : Int) 8 E m6
  obtain ⟨p8, m8, e8⟩ := scratch_ends (T1.dims.length : Int) 8 E m7
  have q1 := rd_dims (E := E) (m := m8) (ds := T1.dims) (i := 0) (List.length_pos_iff.2 r1)
  have q2 := rd_dims (E := E) (m := m8) (ds := T2.dims) (i := 0) (List.length_pos_iff.2 r2)
  rw [show ((0 : Nat) : Int) = 0 from rfl] at q1 q2
  have hc : Code.f32.dtype.code = Code.f32.toNat := rfl
  have e : convFloat j R1.h R2.h stride padding dilation groups out E m = .ub .nullDeref := by
    unfold convFloat convMain
    msimp [h1.tNdim, h1.tDimsArr, h2.tDimsArr, e1, e2, e3, e4, e5, e6, e7, e8, q1, q2, touch_null]
  unfold conv
  msimp [h1.tDtype, hd, hc, e]

/-- C48 is violated by `aitisa_conv2d` on every `float` tensor of rank 4, whatever the filters (of rank at least 1) and the other arguments: if its first
request is refused, the call dereferences a null pointer. -/
theorem C48_conv2d_crash {j j' : Fall} {stride padding dilation : Arr} {groups : Int} (h1 : At m R1 T1) (h2 : At m R2 T2) (hd : T1.dtype = Code.f32.dtype)
    (r1 : T1.dims.length = 4) (r2 : T2.dims ≠ []) (a1 : ∀ s, E.allocOk m.tick s = false) (out : Ptr) :
    conv2d j j' R1.h R2.h stride padding dilation groups out E m = .ub .nullDeref := by
  have e := conv_crash (j := j) (j' := j') (stride := stride) (padding := padding) (dilation := dilation) (groups := groups) h1 h2 hd
    (by rintro h; rw [h] at r1; cases r1) r2 a1 out
  unfold conv2d
  msimp [h1.tNdim, r1, e]
  rfl

/-- C48 is violated likewise by `aitisa_conv3d` on every `float` tensor of rank 5. -/
theorem C48_conv3d_crash {j j' : Fall} {stride padding dilation : Arr} {groups : Int} (h1 : At m R1 T1) (h2 : At m R2 T2) (hd : T1.dtype = Code.f32.dtype)
    (r1 : T1.dims.length = 5) (r2 : T2.dims ≠ []) (a1 : ∀ s, E.allocOk m.tick s = false) (out : Ptr) :
    conv3d j j' R1.h R2.h stride padding dilation groups out E m = .ub .nullDeref := by
  have e := conv_crash (j := j) (j' := j') (stride := stride) (padding := padding) (dilation := dilation) (groups := groups) h1 h2 hd
    (by rintro h; rw [h] at r1; cases r1) r2 a1 out
  unfold conv3d
  msimp [h1.tNdim, r1, e]
  rfl

/-- Pooling `exPl` in windows of `exTwice` if the first request is refused. -/
example : pooling 10 Mem.empty.footT.h "avg" (dimsCells ([exTwice.first].map Win.k)) (dimsCells ([exTwice.first].map Win.s)) (dimsCells ([exTwice.first].map Win.p))
    (dimsCells ([exTwice.first].map Win.d)) .null (failAt (Mem.empty.addT (tvOf .f32 [1, 1, 5] exPl)).tick) (Mem.empty.addT (tvOf .f32 [1, 1, 5] exPl)) =
      .ub .nullDeref :=
  C48_pooling_crash (B := 1) (C := 1) (T := tvOf .f32 [1, 1, 5] exPl) (tvOf_at _ (by simp) rfl ⟨by decide, by decide⟩) rfl (by decide) (by decide)
    (exFirst (c := .f32) ⟨by decide, by decide⟩).fits (fun s => by
      show decide ((Mem.empty.addT (tvOf .f32 [1, 1, 5] exPl)).tick ≠ (Mem.empty.addT (tvOf .f32 [1, 1, 5] exPl)).tick) = false; simp) _

/-- A convolution of two images with themselves, likewise. -/
example : conv2d none none Mem.empty.footT.h Mem.empty.footT.h [some 1, some 1] [some 0, some 0] [some 1, some 1] 1 .null
    (failAt (Mem.empty.addT (tvOf .f32 [1, 1, 1, 2] [.f32 3, .f32 4])).tick) (Mem.empty.addT (tvOf .f32 [1, 1, 1, 2] [.f32 3, .f32 4])) = .ub .nullDeref :=
  have h := tvOf_at (c := .f32) (dims := [1, 1, 1, 2]) (xs := [.f32 3, .f32 4]) Mem.empty (by simp) rfl ⟨by decide, by decide⟩
  C48_conv2d_crash h h rfl rfl (by decide) (fun s => by
    show decide ((Mem.empty.addT (tvOf .f32 [1, 1, 1, 2] [.f32 3, .f32 4])).tick ≠ (Mem.empty.addT (tvOf .f32 [1, 1, 1, 2] [.f32 3, .f32 4])).tick) = false
    simp) _

/-- The same in three dimensions. -/
example : conv3d none none Mem.empty.footT.h Mem.empty.footT.h [some 1, some 1, some 1] [some 0, some 0, some 0] [some 1, some 1, some 1] 1 .null
    (failAt (Mem.empty.addT (tvOf .f32 [1, 1, 1, 1, 2] [.f32 3, .f32 4])).tick) (Mem.empty.addT (tvOf .f32 [1, 1, 1, 1, 2] [.f32 3, .f32 4])) = .ub .nullDeref :=
  have h := tvOf_at (c := .f32) (dims := [1, 1, 1, 1, 2]) (xs := [.f32 3, .f32 4]) Mem.empty (by simp) rfl ⟨by decide, by decide⟩
  C48_conv3d_crash h h rfl rfl (by decide) (fun s => by
    show decide ((Mem.empty.addT (tvOf .f32 [1, 1, 1, 1, 2] [.f32 3, .f32 4])).tick ≠ (Mem.empty.addT (tvOf .f32 [1, 1, 1, 1, 2] [.f32 3, .f32 4])).tick) = false
    simp) _

/-! ### products of tensors -/

/-- C48 is violated by `aitisa_matmul` on all operands that can be multiplied and one of which has rank 3 or more: if its first request is refused, the call
dereferences a null pointer. -/
theorem C48_matmul_crash {ds : List Nat} (h1 : At m R1 T1) (h2 : At m R2 T2) (c1 : T1.device.type = 0) (c2 : T2.device.type = 0)
    (ht : MatShape T1.dims T2.dims ds) (hr : 3 ≤ T1.dims.length ∨ 3 ≤ T2.dims.length) (a1 : ∀ s, E.allocOk m.tick s = false) (out : Ptr) :
    matmul R1.h R2.h out E m = .ub .nullDeref := by
  have e1 : ∀ n, scratch n 8 E m = .ok .null m.miss := fun n => scratch_refused a1
  generalize s1 : T1.dims = D1 at ht
  generalize s2 : T2.dims = D2 at ht
  cases ht with
  | vv k => simp [s1, s2] at hr
  | mv n k => simp [s1, s2] at hr
  | mm n k l => simp [s1, s2] at hr
  | vm k l => simp [s1, s2] at hr
  | @tv bs nM nK hb =>
    have hbl : 0 < bs.length := List.length_pos_iff.2 hb
    have hl : T1.dims.length = bs.length + 2 := by simp [s1]
    have e0 := matmul_tv (out := out) (E := E) h1 h2 c1 c2 (by omega) (by simp [s2])
    have d1 := h1.dimI (E := E) (k := (bs.length : Int)) (i := bs.length) (d := nM) (by omega) (by simp [s1])
    have d2 := h1.dimI (E := E) (k := ((bs.length + 1 : Nat) : Int)) (i := bs.length + 1) (d := nK) (by omega) (by simp [s1])
    have d3 := h2.dimI (E := E) (k := 0) (i := 0) (d := nK) rfl (by simp [s2])
    have ee : ((bs.length + 2 : Nat) : Int) - 1 = ((bs.length + 1 : Nat) : Int) := by omega
    have ee2 : ((bs.length + 2 : Nat) : Int) - 2 = (bs.length : Int) := by omega
    rw [e0, hl]
    unfold matTV
    rw [ee, ee2]
    msimp [d1, d2, d3, e1, touch_null]
  | @vt bs nK nN hb =>
    have hbl : 0 < bs.length := List.length_pos_iff.2 hb
    have hl : T2.dims.length = bs.length + 2 := by simp [s2]
    have e0 := matmul_vt (out := out) (E := E) h1 h2 c1 c2 (by simp [s1]) (by omega)
    have d1 := h1.dimI (E := E) (k := 0) (i := 0) (d := nK) rfl (by simp [s1])
    have d2 := h2.dimI (E := E) (k := (bs.length : Int)) (i := bs.length) (d := nK) (by omega) (by simp [s2])
    have d3 := h2.dimI (E := E) (k := ((bs.length + 1 : Nat) : Int)) (i := bs.length + 1) (d := nN) (by omega) (by simp [s2])
    have ee : ((bs.length + 2 : Nat) : Int) - 1 = ((bs.length + 1 : Nat) : Int) := by omega
    have ee2 : ((bs.length + 2 : Nat) : Int) - 2 = (bs.length : Int) := by omega
    rw [e0, hl]
    unfold matVT
    rw [ee, ee2]
    msimp [d1, d2, d3, e1, touch_null]
  | @tt b1 b2 bd nM nK nN hb hbc =>
    have l1 : T1.dims.length = b1.length + 2 := by simp [s1]
    have l2 : T2.dims.length = b2.length + 2 := by simp [s2]
    have e0 := matmul_tt (out := out) (E := E) h1 h2 c1 c2 (by omega) (by omega) hr
    have d1 := h1.dimI (E := E) (k := ((b1.length + 2 : Nat) : Int) - 2) (i := b1.length) (d := nM) (by omega) (by simp [s1])
    have d2 := h1.dimI (E := E) (k := ((b1.length + 2 : Nat) : Int) - 1) (i := b1.length + 1) (d := nK) (by omega) (by simp [s1])
    have d3 := h2.dimI (E := E) (k := ((b2.length + 2 : Nat) : Int) - 2) (i := b2.length) (d := nK) (by omega) (by simp [s2])
    have d4 := h2.dimI (E := E) (k := ((b2.length + 2 : Nat) : Int) - 1) (i := b2.length + 1) (d := nN) (by omega) (by simp [s2])
    rw [e0, l1, l2]
    unfold matTT
    msimp [d1, d2, d3, d4, e1, touch_null]

/-- The product of a tensor of rank 3 and a vector, likewise. -/
example : matmul Mem.empty.footT.h (Mem.empty.addT (tvOf .f32 [1, 1, 2] [.f32 3, .f32 4])).footT.h .null
    (failAt ((Mem.empty.addT (tvOf .f32 [1, 1, 2] [.f32 3, .f32 4])).addT (tvOf .f32 [2] [.f32 5, .f32 6])).tick)
    ((Mem.empty.addT (tvOf .f32 [1, 1, 2] [.f32 3, .f32 4])).addT (tvOf .f32 [2] [.f32 5, .f32 6])) = .ub .nullDeref :=
  have h := tvOf_at (c := .f32) (dims := [1, 1, 2]) (xs := [.f32 3, .f32 4]) Mem.empty (by simp) rfl ⟨by decide, by decide⟩
  C48_matmul_crash (addT_old (Mem.addT_wf Mem.empty_wf _) h _) (tvOf_at (c := .f32) (dims := [2]) (xs := [.f32 5, .f32 6]) _ (by simp) rfl ⟨by decide, by decide⟩) rfl rfl
    (MatShape.tv (bs := [1]) 1 2 (by simp)) (.inl (by decide)) (fun s => by
      show decide (((Mem.empty.addT (tvOf .f32 [1, 1, 2] [.f32 3, .f32 4])).addT (tvOf .f32 [2] [.f32 5, .f32 6])).tick ≠
        ((Mem.empty.addT (tvOf .f32 [1, 1, 2] [.f32 3, .f32 4])).addT (tvOf .f32 [2] [.f32 5, .f32 6])).tick) = false
      simp) _

/-! ### products with a scalar -/

theorem scalarMulOf_crash {s v : Val} {Rb Rs : Foot} {Tb Ts : TV} (nf : E.NoFail) (hm : ∀ t s, E.mallocOk t s = false) (wf : m.WF) (h1 : At m R1 T1)
    (hb : At m Rb Tb) (heb : Elems Tb c xs) (hsm : At m Rs Ts) (hes : Elems Ts c [s]) (hd1 : T1.dtype = c.dtype) (c1 : T1.device.type = 0)
    (cb : Tb.device.type = 0) (hi : prod Tb.dims ≤ 2147483647) (hpos : 0 < prod Tb.dims) (hv : ThroughDouble E.fp c s v)
    (hz : ∀ _ : 0 < xs.length, ∃ z, OpResult E.fp c .mul v xs[0] z) (out : Ptr) : scalarMulOf R1.h Rb.h Rs.h out E m = .ub .nullDeref := by
  obtain ⟨d, hd, hv⟩ := hv
  rw [converts_iff] at hd hv
  have hv' : cCast E.fp c (.f64 (toDouble E.fp s)) = .ok v := by
    rw [← hv]; cases s <;> simp [cCast] at hd <;> simp [toDouble, hd]
  have hsh : ShapeOK Tb.dims c.size := by have := hb.shape; rw [heb.dtype] at this; exact this
  unfold scalarMulOf
  rcases full_run (E := E) wf c T1.device hsh hi (toDouble E.fp s) hv' .indet with ⟨Rt, ma, e, P⟩ | ⟨_, _, _, _, nf'⟩
  · have gb := hb.frame wf P.ext.toFrame
    have het : Elems ⟨c.dtype, T1.device, Tb.dims, encAll c (List.replicate (prod Tb.dims) v)⟩ c (List.replicate (prod Tb.dims) v) :=
      ⟨rfl, rfl, fun x hx => by rw [(List.mem_replicate.1 hx).2]; exact cCast_WT hv', by simp⟩
    have e2 := C48_binary_crash (op := .mul) nf hm P.ext.wf P.tensor het gb heb c1 cb rfl hi hpos
      (fun _ hy => by rw [List.getElem_replicate]; exact hz hy) out
    msimp [h1.tDtype, hd1, h1.tDevice, hb.tNdim, hb.tDimsArr, dotGetValue_run (E := E) hsm hes, e, e2]
  · exact absurd nf nf'

/-- C48 is violated by `aitisa_dot` on a scalar and any tensor it can scale, unless it has no elements: if `malloc` refuses, the call dereferences a null
pointer. -/
theorem C48_dot_left_crash {s v : Val} (nf : E.NoFail) (hm : ∀ t s, E.mallocOk t s = false) (wf : m.WF) (h1 : At m R1 T1) (he1 : Elems T1 c [s])
    (h2 : At m R2 T2) (he2 : Elems T2 c ys) (c1 : T1.device.type = 0) (c2 : T2.device.type = 0) (s1 : T1.dims = []) (hv : ThroughDouble E.fp c s v)
    (hi : prod T2.dims ≤ 2147483647) (hpos : 0 < prod T2.dims) (hz : ∀ _ : 0 < ys.length, ∃ z, OpResult E.fp c .mul v ys[0] z) (out : Ptr) :
    dot R1.h R2.h out E m = .ub .nullDeref := by
  have e : dot R1.h R2.h out E m = scalarMulOf R1.h R2.h R1.h out E m := by
    rw [dot_pass h1 h2 c1 c2 (by rw [he1.dtype, he2.dtype]), s1]
    rw [show (([] : List Nat).length : Int) = 0 from rfl, if_neg (by omega), if_neg (by omega), if_pos (.inl rfl)]
    unfold scalarMul
    msimp [h1.tNdim, h2.tNdim, s1]
    rw [if_neg (by simp)]
  rw [e]
  exact scalarMulOf_crash nf hm wf h1 h2 he2 h1 he1 he1.dtype c1 c2 hi hpos hv hz out

/-- C48 is violated likewise if the scalar is on the right. -/
theorem C48_dot_right_crash {s v : Val} (nf : E.NoFail) (hm : ∀ t s, E.mallocOk t s = false) (wf : m.WF) (h1 : At m R1 T1) (he1 : Elems T1 c xs)
    (h2 : At m R2 T2) (he2 : Elems T2 c [s]) (c1 : T1.device.type = 0) (c2 : T2.device.type = 0) (s1 : T1.dims ≠ []) (s2 : T2.dims = [])
    (hv : ThroughDouble E.fp c s v) (hi : prod T1.dims ≤ 2147483647) (hpos : 0 < prod T1.dims)
    (hz : ∀ _ : 0 < xs.length, ∃ z, OpResult E.fp c .mul v xs[0] z) (out : Ptr) : dot R1.h R2.h out E m = .ub .nullDeref := by
  have hl : 0 < T1.dims.length := List.length_pos_iff.2 s1
  have e : dot R1.h R2.h out E m = scalarMulOf R1.h R1.h R2.h out E m := by
    rw [dot_pass h1 h2 c1 c2 (by rw [he1.dtype, he2.dtype]), s2]
    rw [show (([] : List Nat).length : Int) = 0 from rfl, if_neg (by omega), if_neg (by omega), if_pos (.inr rfl)]
    unfold scalarMul
    msimp [h1.tNdim, h2.tNdim, s2]
    rw [if_pos (by simp; omega)]
  rw [e]
  exact scalarMulOf_crash nf hm wf h1 h1 he1 h2 he2 he1.dtype c1 c1 hi hpos hv hz out

/-- 7 * [3, -4] and [3, -4] * 7 if `malloc` grants nothing. -/
example : dot (Mem.empty.addT (tvOf .i8 [2] [.int 3, .int (-4)])).footS.h exH1.h .indet { okEnv with mallocOk := fun _ _ => false } exDS = .ub .nullDeref :=
  C48_dot_left_crash (c := .i8) (T2 := tvOf .i8 [2] [.int 3, .int (-4)]) (ys := [.int 3, .int (-4)]) (s := .int 7) (v := .int 7) (fun _ _ => rfl) (fun _ _ => rfl)
    (Mem.addS_wf (Mem.addT_wf Mem.empty_wf _) _ _ _) (addS_at _ _ _ _ rfl (by decide)) ⟨rfl, rfl, by decide, rfl⟩
    ((tvOf_at _ (by simp) rfl ⟨by decide, by decide⟩).frame (Mem.addT_wf Mem.empty_wf _) ((((Ext.refl (Mem.addT_wf Mem.empty_wf _)).push _).push _).push _).toFrame)
    (tvOf_elems (by decide) rfl) rfl rfl rfl ⟨_, rfl, converts_iff.2 rfl⟩ (by decide) (by decide)
    (fun _ => ⟨.int 21, (opResult_iff (by decide) (show (Val.int 3).WT .i8 by decide)).2 rfl⟩) _
example : dot exH1.h (Mem.empty.addT (tvOf .i8 [2] [.int 3, .int (-4)])).footS.h .indet { okEnv with mallocOk := fun _ _ => false } exDS = .ub .nullDeref :=
  C48_dot_right_crash (c := .i8) (T1 := tvOf .i8 [2] [.int 3, .int (-4)]) (xs := [.int 3, .int (-4)]) (s := .int 7) (v := .int 7) (fun _ _ => rfl) (fun _ _ => rfl)
    (Mem.addS_wf (Mem.addT_wf Mem.empty_wf _) _ _ _)
    ((tvOf_at _ (by simp) rfl ⟨by decide, by decide⟩).frame (Mem.addT_wf Mem.empty_wf _) ((((Ext.refl (Mem.addT_wf Mem.empty_wf _)).push _).push _).push _).toFrame)
    (tvOf_elems (by decide) rfl) (addS_at _ _ _ _ rfl (by decide)) ⟨rfl, rfl, by decide, rfl⟩ rfl rfl (by simp [tvOf]) rfl ⟨_, rfl, converts_iff.2 rfl⟩
    (by decide) (by decide) (fun _ => ⟨.int 21, (opResult_iff (by decide) (show (Val.int 3).WT .i8 by decide)).2 rfl⟩) _

/-! ### batch normalisation -/

/-- C48 is violated by `aitisa_batch_norm` on all arguments it accepts whose input has rank 2, unless there are no channels: if `malloc` refuses, the call
dereferences a null pointer.  (The hypotheses on `e` and `t` say that epsilon can be added to the first variance.) -/
theorem C48_batchNorm_crash {Rs Rb Rm Rv : Foot} {Sc Bi Me Va : TV} {vs : List Val} {axis : Int} {eps : BitVec 64} {e : Val} (nf : E.NoFail)
    (hm : ∀ t s, E.mallocOk t s = false) (wf : m.WF) (h : At m R T) (hs : At m Rs Sc) (hb : At m Rb Bi) (hme : At m Rm Me) (hv : At m Rv Va)
    (hx : T.dtype = c.dtype) (ev : Elems Va c vs) (hdev : T.device.type = 0) (dv : Va.device.type = 0)
    (hreq : ∀ p ∈ bnRequires E.fp T axis Sc Bi Me Va eps, p.1) (hr : T.dims.length = 2) (hi : prod Va.dims ≤ 2147483647) (hpos : 0 < prod Va.dims)
    (he : Converts E.fp c (.f64 eps) e) (ht : ∀ _ : 0 < vs.length, ∃ t, OpResult E.fp c .add vs[0] e t) (out : Ptr) :
    batchNorm R.h axis Rs.h Rb.h Rm.h Rv.h eps out E m = .ub .nullDeref := by
  obtain ⟨st, hck, hc⟩ := bnCheck_run (E := E) (axis := axis) (eps := eps) h hs hb hme hv
  rcases hc with hc | ⟨rfl, -⟩
  · exact absurd hreq hc.not_all
  rcases create_run (E := E) wf T.dtype T.device h.shape 0 .indet with ⟨Ro, m1, e1, P⟩ | ⟨_, _, _, _, nf'⟩
  swap
  · exact absurd nf nf'
  have hcr : bnCreate R.h out E m = .ok (.success, Ro.h) m1 := by
    unfold bnCreate
    msimp [h.tDimsArr, h.tNdim, h.tDtype, h.tDevice, e1]
  have g := h.frame wf P.frame
  have gv := hv.frame wf P.frame
  have hsh : ShapeOK Va.dims c.size := by have := hv.shape; rw [ev.dtype] at this; exact this
  have hc := converts_iff.1 he
  rcases full_run (E := E) P.wf c T.device hsh hi eps hc .indet with ⟨Rt, ma, e2, Q⟩ | ⟨_, _, _, _, nf'⟩
  swap
  · exact absurd nf nf'
  have gv' := gv.frame P.wf Q.ext.toFrame
  have het : Elems ⟨c.dtype, T.device, Va.dims, encAll c (List.replicate (prod Va.dims) e)⟩ c (List.replicate (prod Va.dims) e) :=
    ⟨rfl, rfl, fun x hx => by rw [(List.mem_replicate.1 hx).2]; exact cCast_WT hc, by simp⟩
  have e3 := C48_binary_crash (op := .add) nf hm Q.ext.wf gv' ev Q.tensor het dv hdev rfl hi hpos
    (fun hy _ => by rw [List.getElem_replicate]; exact ht hy) .indet
  unfold batchNorm
  msimp [hck, hcr]
  suffices hm : bnMain R.h axis Rs.h Rb.h Rm.h Rv.h eps Ro.h E m1 = .ub .nullDeref by rw [hm]; rfl
  unfold bnMain
  msimp [g.tNdim]
  rw [if_pos (by omega)]
  unfold bnDenom orRet
  msimp [g.tDtype, hx, g.tDevice, gv.tDimsArr, gv.tNdim, e2, e3]

/-- Two samples of two channels if `malloc` grants nothing. -/
example : batchNorm Mem.empty.footT.h 1 (Mem.empty.addT exNx).footT.h (Mem.empty.addT exNx).footT.h (Mem.empty.addT exNx).footT.h
    (Mem.empty.addT exNx).footT.h 1 .indet { okEnv with mallocOk := fun _ _ => false } exNm = .ub .nullDeref := by
  have ep : Elems exNp .f32 _ := tvOf_elems (by decide) rfl
  refine C48_batchNorm_crash (E := { okEnv with mallocOk := fun _ _ => false }) (axis := 1) (eps := 1) (fun _ _ => rfl) (fun _ _ => rfl) exNm_wf exNx_at exNp_at exNp_at exNp_at exNp_at rfl ep rfl rfl
    (by
      simp only [bnRequires, List.forall_mem_cons]
      exact ⟨by decide, by decide, by decide, by decide, by decide, by decide, by simp [Negative, okEnv, toyFp], by simp⟩)
    rfl (by decide) (by decide) (converts_iff.2 rfl) (fun _ => ⟨_, (opResult_iff (ep.wt _ (List.getElem_mem _)) (cCast_WT (fp := okEnv.fp) (c := .f32) (v := .f64 1) rfl)).2 rfl⟩) _

end Aitisa
