import Verif.Proof.Batch

/-!
# Property C62: parts of a batch are processed independently

Selecting samples first and processing them gives what processing everything and selecting from the result gives.
-/

namespace Aitisa

section
variable {E : Env} {m m1 m2 m3 m4 : Mem} {R R1 R2 : Foot} {T T1 T2 : TV} {c : Code} {xs ys zs : List Val}
  {out1 out2 out3 out4 h1 h2 h3 h4 : Ptr} {B C O b n st : Nat} {ws : List Win} {fuel : Nat}

/-- What a slice of rows gives. -/
theorem rows_yields {ds : List Nat} (wf : m.WF) (h : At m R T) (he : Elems T c xs) (hs : T.dims = B :: ds) (hn : n ≠ 0)
    (hv : (Move.slice (rowsOf b n st ds)).Fits (B :: ds) c.size) (out : Ptr) :
    MakesIf E ((Move.slice (rowsOf b n st ds)).run R.h out) m
      ⟨c.dtype, T.device, ceilDiv n st :: ds, encAll c (sliceElems (B :: ds) (rowsOf b n st ds) xs)⟩ ∧
    Elems ⟨c.dtype, T.device, ceilDiv n st :: ds, encAll c (sliceElems (B :: ds) (rowsOf b n st ds) xs)⟩ c
      (sliceElems (B :: ds) (rowsOf b n st ds) xs) := by
  obtain ⟨v1, v2, v3, v4⟩ := hv
  have hl := he.len
  rw [hs] at hl
  have := (slice_run (E := E) wf h he (by rw [hs]; exact v1) (by rw [hs]; exact v2) v3 v4 out).yields
  rw [rows_dims hn v2, hs] at this
  refine ⟨this, rfl, rfl, fun y hy => he.wt y (sliceElems_mem v2 hl y hy), ?_⟩
  rw [sliceElems_length, rows_dims hn v2]

/-- Four calls: the operator `x`, selection from its result, selection from its argument, the operator. -/
theorem parts_same {x : Ptr → Ptr → M (Status × Ptr)} {ds ds' : List Nat} {c' : Code} (wf : m.WF) (h : At m R T) (he : Elems T c xs)
    (hs : T.dims = B :: ds) (hn : n ≠ 0) (hv : (Move.slice (rowsOf b n st ds)).Fits (B :: ds) c.size)
    (hv' : (Move.slice (rowsOf b n st ds')).Fits (B :: ds') c'.size) (hwt : ∀ z ∈ zs, z.WT c') (hl : zs.length = prod (B :: ds'))
    (hx : ∀ out, MakesIf E (x R.h out) m ⟨c'.dtype, T.device, B :: ds', encAll c' zs⟩)
    (hx' : ∀ m' R' out, m'.WF → Frame m m' →
      At m' R' ⟨c.dtype, T.device, ceilDiv n st :: ds, encAll c (sliceElems (B :: ds) (rowsOf b n st ds) xs)⟩ →
      Elems ⟨c.dtype, T.device, ceilDiv n st :: ds, encAll c (sliceElems (B :: ds) (rowsOf b n st ds) xs)⟩ c
        (sliceElems (B :: ds) (rowsOf b n st ds) xs) →
      MakesIf E (x R'.h out) m' ⟨c'.dtype, T.device, ceilDiv n st :: ds', encAll c' (sliceElems (B :: ds') (rowsOf b n st ds') zs)⟩) :
    PartsIndependent E m x R.h (rowsOf b n st ds) (rowsOf b n st ds') := by
  constructor
  · intro out1 out2 out3 out4 h1 h2 h3 h4 m1 m2 m3 m4 r1 r2 r3 r4
    obtain ⟨Ra, rfl, P1⟩ := (hx out1).only r1
    obtain ⟨Rb, rfl, P2⟩ := (rows_yields P1.ext.wf P1.tensor ⟨rfl, rfl, hwt, hl⟩ rfl hn hv' out2).1.only r2
    have f2 : Frame m m2 := P1.ext.toFrame.trans P2.ext.toFrame
    obtain ⟨y3, e3⟩ := rows_yields (E := E) (out := out3) P2.ext.wf (h.frame wf f2) he hs hn hv
    obtain ⟨Rc, rfl, P3⟩ := y3.only r3
    obtain ⟨Rd, rfl, P4⟩ := (hx' _ Rc out4 P3.ext.wf (f2.trans P3.ext.toFrame) P3.tensor e3).only r4
    exact sameTensor_of P3.ext.wf (P2.tensor.frame P2.ext.wf P3.ext.toFrame) P4
  · intro nf ma out1 out2 out3 out4
    obtain ⟨Ra, m1, r1, P1⟩ := (hx out1).runs nf ma
    obtain ⟨Rb, m2, r2, P2⟩ := (rows_yields P1.ext.wf P1.tensor ⟨rfl, rfl, hwt, hl⟩ rfl hn hv' out2).1.runs nf ma
    have f2 : Frame m m2 := P1.ext.toFrame.trans P2.ext.toFrame
    obtain ⟨y3, e3⟩ := rows_yields (E := E) (out := out3) P2.ext.wf (h.frame wf f2) he hs hn hv
    obtain ⟨Rc, m3, r3, P3⟩ := y3.runs nf ma
    obtain ⟨Rd, m4, r4, P4⟩ := (hx' _ Rc out4 P3.ext.wf (f2.trans P3.ext.toFrame) P3.tensor e3).runs nf ma
    exact ⟨_, _, _, _, _, _, _, _, r1, r2, r3, r4, sameTensor_of P3.ext.wf (P2.tensor.frame P2.ext.wf P3.ext.toFrame) P4⟩

/-- C62. Average pooling: pooling the selected samples gives the selected samples of the pooled tensor. -/
theorem C62_avg_pooling (wf : m.WF) (h : At m R T) (he : Elems T c xs) (hs : T.dims = B :: C :: ws.map Win.x)
    (hw : 1 ≤ ws.length) (hw' : ws.length ≤ 3) (hf : ∀ w ∈ ws, w.Fits ∧ w.Small) (hso : ShapeOK (B :: C :: ws.map Win.out) c.size)
    (hi : prod (ws.map Win.out) ≤ 2147483647) (hK : prod (ws.map Win.k) ≤ 9223372036854775807)
    (hfu : prod (ws.map Win.k) ≤ fuel) (hfu' : prod (ws.map Win.out) ≤ fuel)
    (hz : ∀ b ch os, InRange (B :: C :: ws.map Win.out) (b :: ch :: os) →
      ∃ z, AvgOf E.fp c (prod (ws.map Win.k)) (winElems T.dims xs ws b ch os) z)
    (hn : n ≠ 0) (hv : (Move.slice (rowsOf b n st (C :: ws.map Win.x))).Fits (B :: C :: ws.map Win.x) c.size)
    (hv' : (Move.slice (rowsOf b n st (C :: ws.map Win.out))).Fits (B :: C :: ws.map Win.out) c.size) :
    PartsIndependent E m (fun h out => pooling fuel h "avg" (dimsCells (ws.map Win.k)) (dimsCells (ws.map Win.s)) (dimsCells (ws.map Win.p)) (dimsCells (ws.map Win.d)) out) R.h
      (rowsOf b n st (C :: ws.map Win.x)) (rowsOf b n st (C :: ws.map Win.out)) := by
  obtain ⟨zs, hl, hz⟩ := exists_grid hz
  have hxl := he.len
  rw [hs] at hxl
  refine parts_same (x := fun h out => pooling fuel h "avg" (dimsCells (ws.map Win.k)) (dimsCells (ws.map Win.s)) (dimsCells (ws.map Win.p))
    (dimsCells (ws.map Win.d)) out) wf h he hs hn hv hv' (zs := zs) ?_ hl
    (fun out => (C38_avg wf h he hs hw hw' hf hso hi hK hfu hfu' hl hz out).yields)
    (fun m' R' out wf' fr h' he' => (C38_avg wf' h' he' rfl hw hw' hf (shape_first (rows_le hv.2.1) hso) hi hK hfu hfu' ?_ ?_ out).yields)
  · exact all_grid hl fun b ch os ho => by
      obtain ⟨t, -, h⟩ := hz b ch os ho
      exact cCast_WT (converts_iff.1 h)
  · rw [sliceElems_length, rows_dims hn hv'.2.1]
  · intro k ch os ho
    rw [rows_elem hn hv'.2.1 ho hl, rows_win hn hv.2.1 hxl ho.1 ho.2.1 (by have := ho.2.2.length; simpa using this), ← hs]
    exact hz _ _ _ (rows_inRange hv'.2.1 ho)

/-- C62. Max pooling: likewise, pooling the selected samples gives the selected samples of the pooled tensor. -/
theorem C62_max_pooling (wf : m.WF) (h : At m R T) (he : Elems T c xs) (hs : T.dims = B :: C :: ws.map Win.x)
    (hw : 1 ≤ ws.length) (hw' : ws.length ≤ 3) (hf : ∀ w ∈ ws, w.Fits ∧ w.Small) (hso : ShapeOK (B :: C :: ws.map Win.out) c.size)
    (hi : prod (ws.map Win.out) ≤ 2147483647) (hK : prod (ws.map Win.k) ≤ 9223372036854775807)
    (hfu : prod (ws.map Win.k) ≤ fuel) (hfu' : prod (ws.map Win.out) ≤ fuel)
    (hz : ∀ b ch os, InRange (B :: C :: ws.map Win.out) (b :: ch :: os) →
      ∃ z, ScanOf E.fp c (winElems T.dims xs ws b ch os) z)
    (hn : n ≠ 0) (hv : (Move.slice (rowsOf b n st (C :: ws.map Win.x))).Fits (B :: C :: ws.map Win.x) c.size)
    (hv' : (Move.slice (rowsOf b n st (C :: ws.map Win.out))).Fits (B :: C :: ws.map Win.out) c.size) :
    PartsIndependent E m (fun h out => pooling fuel h "max" (dimsCells (ws.map Win.k)) (dimsCells (ws.map Win.s)) (dimsCells (ws.map Win.p)) (dimsCells (ws.map Win.d)) out) R.h
      (rowsOf b n st (C :: ws.map Win.x)) (rowsOf b n st (C :: ws.map Win.out)) := by
  obtain ⟨zs, hl, hz⟩ := exists_grid hz
  have hxl := he.len
  rw [hs] at hxl
  refine parts_same (x := fun h out => pooling fuel h "max" (dimsCells (ws.map Win.k)) (dimsCells (ws.map Win.s)) (dimsCells (ws.map Win.p))
    (dimsCells (ws.map Win.d)) out) wf h he hs hn hv hv' (zs := zs) ?_ hl
    (fun out => (C38_max wf h he hs hw hw' hf hso hi hK hfu hfu' hl hz out).yields)
    (fun m' R' out wf' fr h' he' => (C38_max wf' h' he' rfl hw hw' hf (shape_first (rows_le hv.2.1) hso) hi hK hfu hfu' ?_ ?_ out).yields)
  · exact all_grid hl fun b ch os ho => by
      obtain ⟨t, -, h⟩ := hz b ch os ho
      exact cCast_WT (converts_iff.1 h)
  · rw [sliceElems_length, rows_dims hn hv'.2.1]
  · intro k ch os ho
    rw [rows_elem hn hv'.2.1 ho hl, rows_win hn hv.2.1 hxl ho.1 ho.2.1 (by have := ho.2.2.length; simpa using this), ← hs]
    exact hz _ _ _ (rows_inRange hv'.2.1 ho)

theorem convOf_WT {fp : FloatOps} {l : List (Val × Val)} {y : Val} (h : ConvOf fp l y) : y.WT .f32 := by
  obtain ⟨z, hz, hd⟩ := h
  replace hz : z.WT .f32 := cCast_WT (converts_iff.1 hz)
  induction l generalizing z with
  | nil => rw [show y = z from hd]; exact hz
  | cons p l ih =>
    obtain ⟨v, hv, hd⟩ := hd
    refine ih v hd ?_
    match z, p, hv with
    | .f32 _, (.f32 _, .f32 _), hv => rw [show v = _ from hv]; trivial

/-- C62. Convolution: convolving the selected samples gives the selected samples of the convolved tensor. The status, which the
code leaves undefined, may be any. -/
theorem C62_conv {st1 st2 s1 s4 : Status} {g : Int} (nf : E.NoFail) (wf : m.WF) (h : At m R1 T1) (hF : At m R2 T2) (he : Elems T1 .f32 xs)
    (heF : Elems T2 .f32 ys) (hs : T1.dims = B :: C :: ws.map Win.x) (hsF : T2.dims = O :: C :: ws.map Win.k)
    (hf : ∀ w ∈ ws, w.Fits ∧ w.Wide) (hso : ShapeOK (B :: O :: ws.map Win.out) 4) (hC : 0 < C)
    (hn : n ≠ 0) (hv : (Move.slice (rowsOf b n st (C :: ws.map Win.x))).Fits (B :: C :: ws.map Win.x) 4)
    (hv' : (Move.slice (rowsOf b n st (O :: ws.map Win.out))).Fits (B :: O :: ws.map Win.out) 4)
    (r1 : conv (some st1) (some st2) R1.h R2.h (dimsCells (ws.map Win.s)) (dimsCells (ws.map Win.p)) (dimsCells (ws.map Win.d)) g out1 E m =
      .ok (s1, h1) m1)
    (r2 : (Move.slice (rowsOf b n st (O :: ws.map Win.out))).run h1 out2 E m1 = .ok (.success, h2) m2)
    (r3 : (Move.slice (rowsOf b n st (C :: ws.map Win.x))).run R1.h out3 E m2 = .ok (.success, h3) m3)
    (r4 : conv (some st1) (some st2) h3 R2.h (dimsCells (ws.map Win.s)) (dimsCells (ws.map Win.p)) (dimsCells (ws.map Win.d)) g out4 E m3 =
      .ok (s4, h4) m4) : SameTensor m4 h2 h4 := by
  have hxl := he.len
  rw [hs] at hxl
  obtain ⟨zs, hl, hz, L1⟩ := C40_conv (E := E) wf h hF he heF hs hsF hf hso hC st1 st2 g out1
  rcases L1 with ⟨Ra, m1', e1, P1⟩ | ⟨nf', -⟩
  rotate_left
  · exact absurd nf nf'
  rw [e1] at r1
  cases r1
  have hwt : ∀ z ∈ zs, z.WT .f32 := all_grid hl fun b ch os ho => convOf_WT (hz b ch os ho)
  obtain ⟨Rb, rfl, P2⟩ := (rows_yields (c := .f32) P1.ext.wf P1.tensor ⟨rfl, rfl, hwt, hl⟩ rfl hn hv' out2).1.only r2
  have f2 : Frame m m2 := P1.ext.toFrame.trans P2.ext.toFrame
  obtain ⟨y3, e3⟩ := rows_yields (E := E) (out := out3) P2.ext.wf (h.frame wf f2) he hs hn hv
  obtain ⟨Rc, rfl, P3⟩ := y3.only r3
  have f3 : Frame m m3 := f2.trans P3.ext.toFrame
  obtain ⟨zs', hl', hz', L4⟩ := C40_conv (E := E) P3.ext.wf P3.tensor (hF.frame wf f3) e3 heF rfl hsF hf
    (shape_first (rows_le hv.2.1) hso) hC st1 st2 g out4
  rcases L4 with ⟨Rd, m4', e4, P4⟩ | ⟨nf', -⟩
  rotate_left
  · exact absurd nf nf'
  rw [e4] at r4
  cases r4
  have hd := rows_dims hn hv'.2.1
  have hzz : zs' = sliceElems (B :: O :: ws.map Win.out) (rowsOf b n st (O :: ws.map Win.out)) zs := by
    refine elems_ext hl' (by rw [sliceElems_length, hd]) fun cs hc => ?_
    match cs, hc with
    | k :: oc :: os, hc =>
      rw [rows_elem hn hv'.2.1 hc hl]
      have := hz' k oc os hc
      rw [rows_conv hn hv.2.1 hxl hc.1 (by have := hc.2.2.length; simpa using this), ← hs] at this
      exact C40_unique this (hz _ _ _ (rows_inRange hv'.2.1 hc))
  rw [hzz] at P4
  exact sameTensor_of P3.ext.wf (P2.tensor.frame P2.ext.wf P3.ext.toFrame) P4

/-- C62. Convolution: the four calls of `C62_conv` give their tensors if no allocation fails, with the slices reporting success. -/
theorem C62_conv_total {st1 st2 : Status} {g : Int} (nf : E.NoFail) (ma : E.MallocOK) (wf : m.WF) (h : At m R1 T1) (hF : At m R2 T2)
    (he : Elems T1 .f32 xs) (heF : Elems T2 .f32 ys) (hs : T1.dims = B :: C :: ws.map Win.x) (hsF : T2.dims = O :: C :: ws.map Win.k)
    (hf : ∀ w ∈ ws, w.Fits ∧ w.Wide) (hso : ShapeOK (B :: O :: ws.map Win.out) 4) (hC : 0 < C)
    (hn : n ≠ 0) (hv : (Move.slice (rowsOf b n st (C :: ws.map Win.x))).Fits (B :: C :: ws.map Win.x) 4)
    (hv' : (Move.slice (rowsOf b n st (O :: ws.map Win.out))).Fits (B :: O :: ws.map Win.out) 4) :
    ∃ s1 s4 h1 h2 h3 h4 m1 m2 m3 m4,
      conv (some st1) (some st2) R1.h R2.h (dimsCells (ws.map Win.s)) (dimsCells (ws.map Win.p)) (dimsCells (ws.map Win.d)) g out1 E m =
        .ok (s1, h1) m1 ∧
      (Move.slice (rowsOf b n st (O :: ws.map Win.out))).run h1 out2 E m1 = .ok (.success, h2) m2 ∧
      (Move.slice (rowsOf b n st (C :: ws.map Win.x))).run R1.h out3 E m2 = .ok (.success, h3) m3 ∧
      conv (some st1) (some st2) h3 R2.h (dimsCells (ws.map Win.s)) (dimsCells (ws.map Win.p)) (dimsCells (ws.map Win.d)) g out4 E m3 =
        .ok (s4, h4) m4 ∧ SameTensor m4 h2 h4 := by
  obtain ⟨zs, hl, hz, L1⟩ := C40_conv (E := E) wf h hF he heF hs hsF hf hso hC st1 st2 g out1
  rcases L1 with ⟨Ra, m1, r1, P1⟩ | ⟨nf', -⟩
  rotate_left
  · exact absurd nf nf'
  have hwt : ∀ z ∈ zs, z.WT .f32 := all_grid hl fun b ch os ho => convOf_WT (hz b ch os ho)
  obtain ⟨Rb, m2, r2, P2⟩ := (rows_yields (c := .f32) P1.ext.wf P1.tensor ⟨rfl, rfl, hwt, hl⟩ rfl hn hv' out2).1.runs nf ma
  have f2 : Frame m m2 := P1.ext.toFrame.trans P2.ext.toFrame
  obtain ⟨y3, e3⟩ := rows_yields (E := E) (out := out3) P2.ext.wf (h.frame wf f2) he hs hn hv
  obtain ⟨Rc, m3, r3, P3⟩ := y3.runs nf ma
  obtain ⟨zs', -, -, L4⟩ := C40_conv (E := E) P3.ext.wf P3.tensor (hF.frame wf (f2.trans P3.ext.toFrame)) e3 heF rfl hsF hf
    (shape_first (rows_le hv.2.1) hso) hC st1 st2 g out4
  rcases L4 with ⟨Rd, m4, r4, P4⟩ | ⟨nf', -⟩
  rotate_left
  · exact absurd nf nf'
  exact ⟨_, _, _, _, _, _, _, _, _, _, r1, r2, r3, r4, C62_conv nf wf h hF he heF hs hsF hf hso hC hn hv hv' r1 r2 r3 r4⟩

/-- C62. Product of matrices: the selected rows of the product are the product of the selected rows of the left matrix. -/
theorem C62_matmul_rows {nK nN : Nat} {z : Val} (wf : m.WF) (h : At m R1 T1) (he : Elems T1 c xs) (h2' : At m R2 T2) (he2 : Elems T2 c ys)
    (c1 : T1.device.type = DEVICE_CPU) (c2 : T2.device.type = DEVICE_CPU) (hz : ZeroOf E.fp c z) (hs : T1.dims = [B, nK])
    (hs2 : T2.dims = [nK, nN]) (hso : ShapeOK [B, nN] c.size) (hM : B ≤ 2147483647) (hK : nK ≤ 2147483647) (hN : nN ≤ 2147483647)
    (hi : B * nN ≤ 2147483647)
    (hd : ∀ i j, i < B → j < nN → ∃ w, DotTo E.fp c z ((List.range nK).map fun q => (elemAt T1.dims xs [i, q], elemAt T2.dims ys [q, j])) w)
    (hn : n ≠ 0) (hv : (Move.slice (rowsOf b n st [nK])).Fits [B, nK] c.size) (hv' : (Move.slice (rowsOf b n st [nN])).Fits [B, nN] c.size) :
    PartsIndependent E m (fun h out => matmul h R2.h out) R1.h
      (rowsOf b n st [nK]) (rowsOf b n st [nN]) := by
  obtain ⟨zs, hl, hzs⟩ := exists_grid (B := B) (C := nN) (ds := []) (P := fun i j _ w => DotTo E.fp c z ((List.range nK).map fun q =>
    (elemAt T1.dims xs [i, q], elemAt T2.dims ys [q, j])) w) fun i j _ ho => hd i j ho.1 ho.2.1
  have hxl := he.len
  rw [hs] at hxl
  have D := fun out => C31_matrix_matrix wf h he h2' he2 c1 c2 hz hs hs2 hso hM hK hN hi (by simpa [prod] using hl)
    (fun i j p q => hzs i j [] ⟨p, q, trivial⟩) out
  have hle := rows_le hv.2.1
  refine parts_same (x := fun h out => matmul h R2.h out) wf h he hs hn hv hv' (D .null).wt hl (fun out => (D out).creates.yields)
    (fun m' R' out wf' fr h' he' => ((C31_matrix_matrix wf' h' he' (h2'.frame wf fr) he2 c1 c2 hz rfl hs2 (shape_first hle hso)
      (by omega) hK hN (Nat.le_trans (Nat.mul_le_mul_right _ hle) hi) ?_ ?_ out).creates.yields))
  · rw [sliceElems_length, rows_dims hn hv'.2.1]; simp [prod]
  · intro i j p q
    rw [rows_elem hn hv'.2.1 (cs := [j]) ⟨p, q, trivial⟩ hl]
    have := hzs (b + st * i) j [] ⟨rows_lt hv.2.1 p, q, trivial⟩
    rw [show (List.range nK).map (fun k => (elemAt [ceilDiv n st, nK] (sliceElems [B, nK] (rowsOf b n st [nK]) xs) [i, k], elemAt T2.dims ys [k, j]))
      = (List.range nK).map (fun k => (elemAt T1.dims xs [b + st * i, k], elemAt T2.dims ys [k, j])) from
      List.map_congr_left fun k hk => by
        rw [rows_elem hn hv.2.1 (cs := [k]) ⟨p, List.mem_range.1 hk, trivial⟩ hxl, hs]]
    exact this

/-- C62. Softmax along another axis than the first: softmax of the selected samples gives the selected samples of the softmax. -/
theorem C62_softmax {ds : List Nat} {a : Nat} {es : List Val} (wf : m.WF) (h : At m R T) (he : Elems T c xs) (hs : T.dims = B :: ds)
    (ha : a < ds.length) (hsz : prod T.dims < 4611686018427387904) (hes : Pointwise (ExpOf E.fp c) xs es)
    (hys : ∀ cs, InRange T.dims cs → ∃ y, ShareOf E.fp c (lineAt T.dims (a + 1) es cs) (elemAt T.dims es cs) y)
    (hn : n ≠ 0) (hv : (Move.slice (rowsOf b n st ds)).Fits (B :: ds) c.size) :
    PartsIndependent E m (fun h out => softmax h (a + 1 : Nat) out) R.h
      (rowsOf b n st ds) (rowsOf b n st ds) := by
  obtain ⟨ys, hl, hys⟩ := exists_elems hys
  have hxl := he.len
  have hy := fun out => C37_axis (E := E) (a := a + 1) wf h he (by rw [hs]; simpa using ha) hsz hes (by rw [hxl, hl]) hys out
  rw [hs] at hxl hl hys
  simp only [hs, he.dtype] at hy
  have hel : es.length = prod (B :: ds) := by rw [← hes.1]; exact hxl
  have hle := rows_le hv.2.1
  refine parts_same (x := fun h out => softmax h (a + 1 : Nat) out) wf h he hs hn hv hv (zs := ys) ?_ hl (fun out => (hy out).yields)
    (fun m' R' out wf' fr h' he' => (C37_axis wf' h' he' (a := a + 1) (es := sliceElems (B :: ds) (rowsOf b n st ds) es) (by simpa using ha) ?_ ?_ ?_ ?_
      out).yields)
  · exact elems_all hl fun cs hc => cCast_WT (shareOf_iff.1 (hys cs hc))
  · rw [hs] at hsz
    exact Nat.lt_of_le_of_lt (Nat.mul_le_mul_right _ hle) hsz
  · have hd := rows_dims hn hv.2.1
    refine ⟨by rw [sliceElems_length, sliceElems_length], fun i p q => ?_⟩
    have hi : i < prod (ceilDiv n st :: ds) := by rw [sliceElems_length, hd] at p; exact p
    have hu := unlin_inRange hi
    have e : ∀ {l : List Val} (_ : l.length = prod (B :: ds)) (p : i < (sliceElems (B :: ds) (rowsOf b n st ds) l).length),
        ∃ (w : Nat) (hw : w < l.length), w = lin (B :: ds) ((b + st * (unlin (ceilDiv n st :: ds) i).getD 0 0) :: (unlin (ceilDiv n st :: ds) i).drop 1) ∧
          (sliceElems (B :: ds) (rowsOf b n st ds) l)[i] = l[w] := by
      intro l hl p
      have hr : ∃ k cs, unlin (ceilDiv n st :: ds) i = k :: cs := by
        cases hc : unlin (ceilDiv n st :: ds) i with
        | nil => rw [hc] at hu; exact hu.elim
        | cons k cs => exact ⟨k, cs, rfl⟩
      obtain ⟨k, cs, hc⟩ := hr
      rw [hc] at hu
      have h1 := rows_elem hn hv.2.1 hu hl
      have hlt := lin_lt (rows_inRange hv.2.1 hu)
      rw [← hl] at hlt
      rw [← hc] at h1
      refine ⟨_, by rw [hc]; exact hlt, rfl, ?_⟩
      simp only [elemAt, lin_unlin hi, List.getD, p, hlt, List.getElem?_eq_getElem, Option.getD_some] at h1
      rw [h1]
      simp [hc]
    obtain ⟨w, hw, e1, e2⟩ := e hxl p
    obtain ⟨w', hw', e1', e2'⟩ := e hel q
    subst e1'
    subst e1
    rw [e2, e2']
    exact hes.2 _ _ _
  · rw [sliceElems_length, sliceElems_length]
  · intro cs hc
    match cs, hc with
    | k :: cs, hc =>
      have := hys _ (rows_inRange hv.2.1 hc)
      have e : lineAt (ceilDiv n st :: ds) (a + 1) (sliceElems (B :: ds) (rowsOf b n st ds) es) (k :: cs) =
          lineAt (B :: ds) (a + 1) es ((b + st * k) :: cs) := by
        simp only [lineAt, List.getD_cons_succ, List.set_cons_succ]
        refine List.map_congr_left fun j hj => ?_
        refine rows_elem hn hv.2.1 ⟨hc.1, ?_⟩ hel
        have hj : j < ds[a] := by simpa [List.getD, ha] using hj
        have := inRange_set ha (inRange_set0 (a := a) hc.2) hj
        simpa using this
      rw [e, rows_elem hn hv.2.1 hc hel, rows_elem hn hv.2.1 hc hl]
      exact this

theorem normTo_WT {fp : FloatOps} {eps : BitVec 64} {sc bi me va x r : Val} (hs : sc.WT c) (hb : bi.WT c) (hm : me.WT c)
    (hx : x.WT c) (h : NormTo fp c eps sc bi me va x r) : r.WT c := by
  obtain ⟨e, t, d, a, p, q, h1, h2, h3, h4, h5, h6, h7, h8⟩ := h
  have hdw : d.WT c := by
    have := rootOf_iff.1 h4
    unfold sqrtF at this
    exact cCast_WT this
  have wa := cBin_WT hx hm ((opResult_iff hx hm).1 h5)
  have wp := cBin_WT wa hdw ((opResult_iff wa hdw).1 h6)
  have wq := cBin_WT hs wp ((opResult_iff hs wp).1 h7)
  exact cBin_WT wq hb ((opResult_iff wq hb).1 h8)

/-- C62. Batch normalisation (with the statistics given): normalising the selected samples gives the selected samples of the
normalised tensor. -/
theorem C62_batch_norm {Rs Rb Rm Rv : Foot} {Sc Bi Me Va : TV} {ss bs ms vs : List Val} {ds : List Nat} {a : Nat} {eps : BitVec 64}
    (wf : m.WF) (h : At m R T) (hsc : At m Rs Sc) (hbi : At m Rb Bi) (hme : At m Rm Me) (hva : At m Rv Va)
    (he : Elems T c xs) (es : Elems Sc c ss) (eb : Elems Bi c bs) (em : Elems Me c ms) (ev : Elems Va c vs)
    (hdev : T.device.type = 0) (gs : Sc.device.type = 0) (gb : Bi.device.type = 0) (gm : Me.device.type = 0) (gv : Va.device.type = 0)
    (hs : T.dims = B :: ds) (hreq : ∀ p ∈ bnRequires E.fp T (a + 1 : Nat) Sc Bi Me Va eps, p.1) (hsm : BnSmall T (a + 1) c)
    (hden : ∀ ch, ch < T.dims.getD (a + 1) 0 → ∃ e t r, Converts E.fp c (.f64 eps) e ∧ OpResult E.fp c .add (vs.getD ch (.int 0)) e t ∧
      ¬ Negative E.fp t ∧ RootOf E.fp c t r)
    (hnt : ∀ cs, InRange T.dims cs → ∃ r, NormTo E.fp c eps (ss.getD (cs.getD (a + 1) 0) (.int 0)) (bs.getD (cs.getD (a + 1) 0) (.int 0))
      (ms.getD (cs.getD (a + 1) 0) (.int 0)) (vs.getD (cs.getD (a + 1) 0) (.int 0)) (elemAt T.dims xs cs) r)
    (hn : n ≠ 0) (hv : (Move.slice (rowsOf b n st ds)).Fits (B :: ds) c.size) :
    PartsIndependent E m (fun h out => batchNorm h (a + 1 : Nat) Rs.h Rb.h Rm.h Rv.h eps out) R.h
      (rowsOf b n st ds) (rowsOf b n st ds) := by
  have hpos := full_pos hv.2.1.2
  have hxl := he.len
  obtain ⟨zs, hl, hz⟩ := exists_elems hnt
  have hq := hreq
  simp only [bnRequires, List.forall_mem_cons, Int.toNat_natCast] at hq
  obtain ⟨q1, q2, q3, ⟨q4, q4'⟩, q5, ⟨q6, q6'⟩, q7, -⟩ := hq
  have wt : ∀ {S : TV} {l : List Val}, Elems S c l → S.dims = [T.dims.getD (a + 1) 0] → ∀ cs, InRange T.dims cs → a < ds.length →
      (l.getD (cs.getD (a + 1) 0) (.int 0)).WT c := by
    intro S l hE hS cs hc hlt
    refine wt_getD (N := T.dims.getD (a + 1) 0) hE.wt (by rw [hE.len, hS]; simp [prod]) ?_
    have hci := inRange_iff.1 hc
    have h1 : a + 1 < T.dims.length := by rw [hs]; simpa using hlt
    have h2 : a + 1 < cs.length := by rw [hci.1]; exact h1
    simpa [List.getD, h1, h2] using hci.2 (a + 1) h2 h1
  have hal : a < ds.length := by
    rw [hs] at q1 q2
    simp only [List.length_cons] at q1 q2
    omega
  have wz := elems_all hl fun cs hc => normTo_WT (wt es q4 cs hc hal) (wt eb q4' cs hc hal) (wt em q6 cs hc hal) (elemAt_WT he rfl hc) (hz cs hc)
  have hle := rows_le hv.2.1
  have A : ∀ out, AttemptsMalloc E (batchNorm R.h (a + 1 : Nat) Rs.h Rb.h Rm.h Rv.h eps out) m ⟨c.dtype, T.device, T.dims, encAll c zs⟩ := by
    intro out
    obtain ⟨zs', hl', hz', A⟩ := C44_batchNorm_partial (E := E) wf h hsc hbi hme hva he es eb em ev hdev gs gb gm gv (a + 1) eps out hreq
      (by rw [hs]; exact hpos) hsm hden hnt
    rwa [elems_ext hl' hl fun cs hc => C44_unique (wt es q4 cs hc hal) (wt eb q4' cs hc hal) (wt em q6 cs hc hal) (wt ev q6' cs hc hal)
      (elemAt_WT he rfl hc) (hz' cs hc) (hz cs hc)] at A
  simp only [hs] at A
  rw [hs] at hxl hl
  refine parts_same (x := fun h out => batchNorm h (a + 1 : Nat) Rs.h Rb.h Rm.h Rv.h eps out) wf h he hs hn hv hv wz hl (fun out => (A out).yields) ?_
  intro m' R' out wf' fr h' he'
  have key : ∀ cs, InRange (ceilDiv n st :: ds) cs → ∃ cs', InRange T.dims cs' ∧ cs'.getD (a + 1) 0 = cs.getD (a + 1) 0 ∧
      elemAt (ceilDiv n st :: ds) (sliceElems (B :: ds) (rowsOf b n st ds) xs) cs = elemAt T.dims xs cs' ∧
      elemAt (ceilDiv n st :: ds) (sliceElems (B :: ds) (rowsOf b n st ds) zs) cs = elemAt T.dims zs cs' := by
    intro cs hc
    match cs, hc with
    | k :: cs, hc =>
      rw [hs]
      exact ⟨_, rows_inRange hv.2.1 hc, by simp, rows_elem hn hv.2.1 hc hxl, rows_elem hn hv.2.1 hc hl⟩
  have hgd : T.dims.getD (a + 1) 0 = (ceilDiv n st :: ds).getD (a + 1) 0 := by rw [hs]; simp
  obtain ⟨zs', hl', hz', A'⟩ := C44_batchNorm_partial (E := E) wf' h' (hsc.frame wf fr) (hbi.frame wf fr) (hme.frame wf fr) (hva.frame wf fr)
    he' es eb em ev hdev gs gb gm gv (a + 1) eps out (by
      simp only [bnRequires, List.forall_mem_cons, Int.toNat_natCast]
      rw [hs] at q1 q2
      rw [he.dtype] at q3 q5
      rw [hgd] at q4 q4' q6 q6'
      exact ⟨q1, q2, q3, ⟨q4, q4'⟩, q5, ⟨q6, q6'⟩, q7, by simp⟩) hpos (by
      obtain ⟨b1, b2, b3, b4, b5⟩ := hsm
      rw [hs] at b1 b2 b3 b4 b5
      simp only [List.getD_cons_zero, List.getD_cons_succ, List.eraseIdx_cons_succ, List.drop_succ_cons] at b1 b2 b3 b4 b5
      refine ⟨?_, ?_, ?_, ?_, ?_⟩ <;>
        simp only [List.getD_cons_zero, List.getD_cons_succ, List.eraseIdx_cons_succ, List.drop_succ_cons] <;>
        first | assumption | omega) (by rw [hgd] at hden; exact hden) (by
      intro cs hc
      obtain ⟨cs', g1, g2, g3, -⟩ := key cs hc
      have := hnt cs' g1
      rw [g2, ← g3] at this
      exact this)
  have hzz : zs' = sliceElems (B :: ds) (rowsOf b n st ds) zs := by
    refine elems_ext hl' (by rw [sliceElems_length, rows_dims hn hv.2.1]) fun cs hc => ?_
    obtain ⟨cs', g1, g2, g3, g4⟩ := key cs hc
    have t1 := hz' cs hc
    have t2 := hz cs' g1
    simp only [g3, ← g2] at t1
    rw [← g4] at t2
    exact C44_unique (wt es q4 cs' g1 hal) (wt eb q4' cs' g1 hal) (wt em q6 cs' g1 hal) (wt ev q6' cs' g1 hal) (elemAt_WT he rfl g1) t1 t2
  rw [hzz] at A'
  exact A'.yields

end

/-! ## Examples: the second of two samples -/

example : PartsIndependent okEnv (Mem.empty.addT exSm) (fun h out => softmax h (0 + 1 : Nat) out) Mem.empty.footT.h (rowsOf 1 1 1 [2]) (rowsOf 1 1 1 [2]) :=
  C62_softmax (E := okEnv) (B := 2) (Mem.addT_wf Mem.empty_wf _) exSm_at exSm_elems rfl (by decide) (by decide) exSm_exp
    (by
      intro cs hc
      have hc : InRange [2, 2] cs := hc
      match cs, hc with
      | [i, j], ⟨h1, h2, _⟩ =>
        simp only [shareOf_iff]
        exact ⟨_, rfl⟩) (by decide)
    ⟨by decide, ⟨⟨by decide, by decide, by decide⟩, ⟨by decide, by decide, by decide⟩, trivial⟩, by unfold AxFit; decide, by decide⟩

example : PartsIndependent okEnv (exM .i32 [2, 2] [1, 2, 3, 4] [2, 2] [5, 6, 7, 8]) (fun h out => matmul h (exH2 .i32 [2, 2] [1, 2, 3, 4]).h out) exH1.h
    (rowsOf 1 1 1 [2]) (rowsOf 1 1 1 [2]) :=
  C62_matmul_rows (E := okEnv) (c := .i32) (T1 := tvOf .i32 [2, 2] ([1, 2, 3, 4].map .int)) (T2 := tvOf .i32 [2, 2] ([5, 6, 7, 8].map .int))
    (Mem.addT_wf (Mem.addT_wf Mem.empty_wf _) _)
    (addT_old (Mem.addT_wf Mem.empty_wf _) (tvOf_at _ (by simp) rfl ⟨by decide, by decide⟩) _) (tvOf_elems (by decide) rfl)
    (tvOf_at _ (by simp) rfl ⟨by decide, by decide⟩) (tvOf_elems (by decide) rfl) rfl rfl exZero rfl rfl ⟨by decide, by decide⟩ (by omega) (by omega)
    (by omega) (by omega)
    (by
      intro i j hi hj
      refine ⟨elemAt [2, 2] ([19, 22, 43, 50].map .int) [i, j], ?_⟩
      apply exDot; revert j; revert i; decide) (by decide)
    ⟨by decide, ⟨⟨by decide, by decide, by decide⟩, ⟨by decide, by decide, by decide⟩, trivial⟩, by unfold AxFit; decide, by decide⟩
    ⟨by decide, ⟨⟨by decide, by decide, by decide⟩, ⟨by decide, by decide, by decide⟩, trivial⟩, by unfold AxFit; decide, by decide⟩

/-- Two samples of one channel of four numbers. -/
def exTwo : TV := tvOf .i32 [2, 1, 4] ([6, 2, 9, 5, 1, 7, 3, 9].map .int)

example : PartsIndependent okEnv (Mem.empty.addT exTwo)
    (fun h out => pooling 10 h "avg" (dimsCells [2]) (dimsCells [2]) (dimsCells [1]) (dimsCells [2]) out) Mem.empty.footT.h
    (rowsOf 1 1 1 [1, 4]) (rowsOf 1 1 1 [1, 2]) :=
  C62_avg_pooling (E := okEnv) (ws := [exWin]) (B := 2) (C := 1) (c := .i32) (T := exTwo) (Mem.addT_wf Mem.empty_wf _)
    (tvOf_at _ (by simp) rfl ⟨by decide, by decide⟩) (tvOf_elems (by decide) rfl) rfl (by decide)
    (by decide) exWin_ok ⟨by decide, by decide⟩ (by decide) (by decide) (by decide) (by decide) (by
      intro b ch os ho
      match os, ho with
      | [o], ⟨h1, h2, h3, _⟩ =>
        have h3 : o < 2 := h3
        obtain rfl : ch = 0 := by omega
        simp only [avgOf_iff]
        match b, o, h1, h3 with
        | 0, 0, _, _ => exact ⟨_, rfl⟩
        | 0, 1, _, _ => exact ⟨_, rfl⟩
        | 1, 0, _, _ => exact ⟨_, rfl⟩
        | 1, 1, _, _ => exact ⟨_, rfl⟩) (by decide)
    ⟨by decide, ⟨⟨by decide, by decide, by decide⟩, ⟨by decide, by decide, by decide⟩, ⟨by decide, by decide, by decide⟩, trivial⟩, by unfold AxFit; decide, by decide⟩
    ⟨by decide, ⟨⟨by decide, by decide, by decide⟩, ⟨by decide, by decide, by decide⟩, ⟨by decide, by decide, by decide⟩, trivial⟩, by unfold AxFit; decide, by decide⟩

/-- Two samples of one channel of three numbers, and a filter. -/
def exTwoF : TV := tvOf .f32 [2, 1, 3] ([1, 2, 3, 4, 5, 6].map .f32)

example : ∃ s1 s4 h1 h2 h3 h4 m1 m2 m3 m4,
    conv (some .success) (some .success) Mem.empty.footT.h (Mem.empty.addT exTwoF).footT.h (dimsCells [2]) (dimsCells [1]) (dimsCells [1]) 1 .indet okEnv
      ((Mem.empty.addT exTwoF).addT exCf) = .ok (s1, h1) m1 ∧
    (Move.slice (rowsOf 1 1 1 [1, 2])).run h1 .indet okEnv m1 = .ok (.success, h2) m2 ∧
    (Move.slice (rowsOf 1 1 1 [1, 3])).run Mem.empty.footT.h .indet okEnv m2 = .ok (.success, h3) m3 ∧
    conv (some .success) (some .success) h3 (Mem.empty.addT exTwoF).footT.h (dimsCells [2]) (dimsCells [1]) (dimsCells [1]) 1 .indet okEnv m3 =
      .ok (s4, h4) m4 ∧ SameTensor m4 h2 h4 :=
  C62_conv_total (E := okEnv) (ws := [exCw]) (B := 2) (C := 1) (O := 1) (T1 := exTwoF) (T2 := exCf) okEnv_noFail okEnv_malloc
    (Mem.addT_wf (Mem.addT_wf Mem.empty_wf _) _)
    (addT_old (Mem.addT_wf Mem.empty_wf _) (tvOf_at _ (by simp) rfl ⟨by decide, by decide⟩) _) (tvOf_at _ (by simp) rfl ⟨by decide, by decide⟩)
    (tvOf_elems (by decide) rfl) (tvOf_elems (by decide) rfl) rfl rfl exCw_ok ⟨by decide, by decide⟩ (by decide) (by decide)
    ⟨by decide, ⟨⟨by decide, by decide, by decide⟩, ⟨by decide, by decide, by decide⟩, ⟨by decide, by decide, by decide⟩, trivial⟩, by unfold AxFit; decide, by decide⟩
    ⟨by decide, ⟨⟨by decide, by decide, by decide⟩, ⟨by decide, by decide, by decide⟩, ⟨by decide, by decide, by decide⟩, trivial⟩, by unfold AxFit; decide, by decide⟩

/-- Two samples of two channels. -/
example : PartsIndependent okEnv exNm (fun h out => batchNorm h (0 + 1 : Nat) (Mem.empty.addT exNx).footT.h (Mem.empty.addT exNx).footT.h
    (Mem.empty.addT exNx).footT.h (Mem.empty.addT exNx).footT.h 1 out) Mem.empty.footT.h (rowsOf 1 1 1 [2]) (rowsOf 1 1 1 [2]) := by
  have ex : Elems exNx .f32 _ := tvOf_elems (by decide) rfl
  have ep : Elems exNp .f32 _ := tvOf_elems (by decide) rfl
  exact C62_batch_norm (E := okEnv) (B := 2) exNm_wf exNx_at exNp_at exNp_at exNp_at exNp_at ex ep ep ep ep rfl rfl rfl rfl rfl rfl
    (by
      simp only [bnRequires, List.forall_mem_cons]
      exact ⟨by decide, by decide, by decide, by decide, by decide, by decide, by simp [Negative, okEnv, toyFp], by simp⟩)
    ⟨by decide, by decide, by decide, by decide, by decide⟩
    (fun ch hc => by
      match ch, hc with
      | 0, _ => exact den_f32 (by simp [Negative, okEnv, toyFp])
      | 1, _ => exact den_f32 (by simp [Negative, okEnv, toyFp]))
    (fun cs hc => by
      obtain ⟨x, hx⟩ := wt_f32 (elemAt_WT ex rfl hc)
      rw [hx]
      match cs, hc with
      | [_, 0], _ => exact normTo_f32 (by simp [Negative, okEnv, toyFp])
      | [_, 1], _ => exact normTo_f32 (by simp [Negative, okEnv, toyFp])
      | [_, n + 2], hc => exact absurd hc.2.1 (by omega)) (by decide)
    ⟨by decide, ⟨⟨by decide, by decide, by decide⟩, ⟨by decide, by decide, by decide⟩, trivial⟩, by unfold AxFit; decide, by decide⟩

end Aitisa
