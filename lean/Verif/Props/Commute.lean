import Verif.Proof.Commute

/-!
# Property C61: selecting and computing can be interchanged
-/

namespace Aitisa

section
variable {E : Env} {m m1 m2 m3 m4 m5 : Mem} {R R1 R2 : Foot} {T T1 T2 : TV} {c : Code} {xs ys zs : List Val}
  {out1 out2 out3 out4 out5 h1 h2 h3 h4 h5 : Ptr}

/-- C61. Relu, sigmoid, tanh, square root and cast commute with reshape, squeeze, slice and duplicate: whenever all four calls
succeed, computing and then selecting gives the same tensor as selecting and then computing. -/
theorem C61_each (o : Each) (v : Move) (wf : m.WF) (h : At m R T) (he : Elems T c xs) (ha : o.Accepts c)
    (ht : ∀ x ∈ xs, o.Takes E.fp c x) (hs : ShapeOK T.dims (o.code c).size) (hv : v.Fits T.dims c.size)
    (hv' : v.Fits T.dims (o.code c).size)
    (r1 : o.run R.h out1 E m = .ok (.success, h1) m1) (r2 : v.run h1 out2 E m1 = .ok (.success, h2) m2)
    (r3 : v.run R.h out3 E m2 = .ok (.success, h3) m3) (r4 : o.run h3 out4 E m3 = .ok (.success, h4) m4) :
    SameTensor m4 h2 h4 := by
  obtain ⟨ys, hy⟩ := Each.defined ha ht
  obtain ⟨ds', idx, hi, hl, -, hm⟩ := v.yields T.dims
  have hyl := (mapM_ok hy).1
  have hix : ∀ i ∈ idx, i < xs.length := fun i h => by rw [he.len]; exact hi i h
  obtain ⟨R1, rfl, P1⟩ := (Each.yields wf h he ha ht hs hy out1).only r1
  have he1 : Elems ⟨(o.code c).dtype, T.device, T.dims, encAll (o.code c) ys⟩ (o.code c) ys :=
    ⟨rfl, rfl, mapM_mem hy fun x hx y => Each.f_WT (he.wt x hx) ha, by rw [hyl, he.len]⟩
  obtain ⟨R2, rfl, P2⟩ := (hm out2 P1.ext.wf P1.tensor he1 rfl hv').only r2
  have h2 := (h.frame wf P1.ext.toFrame).frame P1.ext.wf P2.ext.toFrame
  obtain ⟨R3, rfl, P3⟩ := (hm out3 P2.ext.wf h2 he rfl hv).only r3
  have he3 : Elems ⟨T.dtype, T.device, ds', encAll c (pick idx xs)⟩ c (pick idx xs) :=
    ⟨he.dtype, rfl, fun y hy => he.wt y (pick_mem hix y hy), by simp [pick, hl]⟩
  obtain ⟨R4, rfl, P4⟩ := (Each.yields P3.ext.wf P3.tensor he3 ha (fun x hx => ht x (pick_mem hix x hx)) P2.tensor.shape
    (pick_mapM hix hy) out4).only r4
  exact sameTensor_of P3.ext.wf (P2.tensor.frame P2.ext.wf P3.ext.toFrame) P4

/-- C61. If no allocation fails, the four calls succeed. -/
theorem C61_each_total (o : Each) (v : Move) (nf : E.NoFail) (mf : E.MallocOK) (wf : m.WF) (h : At m R T) (he : Elems T c xs)
    (ha : o.Accepts c) (ht : ∀ x ∈ xs, o.Takes E.fp c x) (hs : ShapeOK T.dims (o.code c).size) (hv : v.Fits T.dims c.size)
    (hv' : v.Fits T.dims (o.code c).size) (out1 out2 out3 out4 : Ptr) :
    ∃ h1 m1 h2 m2 h3 m3 h4 m4, o.run R.h out1 E m = .ok (.success, h1) m1 ∧ v.run h1 out2 E m1 = .ok (.success, h2) m2 ∧
      v.run R.h out3 E m2 = .ok (.success, h3) m3 ∧ o.run h3 out4 E m3 = .ok (.success, h4) m4 ∧ SameTensor m4 h2 h4 := by
  obtain ⟨ys, hy⟩ := Each.defined ha ht
  obtain ⟨ds', idx, hi, hl, -, hm⟩ := v.yields T.dims
  have hyl := (mapM_ok hy).1
  have hix : ∀ i ∈ idx, i < xs.length := fun i h => by rw [he.len]; exact hi i h
  obtain ⟨R1, m1, r1, P1⟩ := (Each.yields wf h he ha ht hs hy out1).runs nf mf
  have he1 : Elems ⟨(o.code c).dtype, T.device, T.dims, encAll (o.code c) ys⟩ (o.code c) ys :=
    ⟨rfl, rfl, mapM_mem hy fun x hx y => Each.f_WT (he.wt x hx) ha, by rw [hyl, he.len]⟩
  obtain ⟨R2, m2, r2, P2⟩ := (hm out2 P1.ext.wf P1.tensor he1 rfl hv').runs nf mf
  have h2 := (h.frame wf P1.ext.toFrame).frame P1.ext.wf P2.ext.toFrame
  obtain ⟨R3, m3, r3, P3⟩ := (hm out3 P2.ext.wf h2 he rfl hv).runs nf mf
  have he3 : Elems ⟨T.dtype, T.device, ds', encAll c (pick idx xs)⟩ c (pick idx xs) :=
    ⟨he.dtype, rfl, fun y hy => he.wt y (pick_mem hix y hy), by simp [pick, hl]⟩
  obtain ⟨R4, m4, r4, P4⟩ := (Each.yields P3.ext.wf P3.tensor he3 ha (fun x hx => ht x (pick_mem hix x hx)) P2.tensor.shape
    (pick_mapM hix hy) out4).runs nf mf
  exact ⟨_, _, _, _, _, _, _, _, r1, r2, r3, r4, C61_each o v wf h he ha ht hs hv hv' r1 r2 r3 r4⟩

/-- C61. The same for add, sub, mul and div: selecting from the result is computing with what is selected from the operands. -/
theorem C61_binary (op : BinOp) (v : Move) (wf : m.WF) (hA : At m R1 T1) (heA : Elems T1 c xs) (hB : At m R2 T2)
    (heB : Elems T2 c ys) (hd1 : T1.device.type = 0) (hd2 : T2.device.type = 0) (hd : T2.dims = T1.dims)
    (hi : prod T1.dims ≤ 2147483647) (hzl : zs.length = xs.length)
    (hz : ∀ i (_ : i < xs.length) (_ : i < ys.length) (_ : i < zs.length), OpResult E.fp c op xs[i] ys[i] zs[i])
    (hv : v.Fits T1.dims c.size)
    (r1 : binaryOp op R1.h R2.h out1 E m = .ok (.success, h1) m1) (r2 : v.run h1 out2 E m1 = .ok (.success, h2) m2)
    (r3 : v.run R1.h out3 E m2 = .ok (.success, h3) m3) (r4 : v.run R2.h out4 E m3 = .ok (.success, h4) m4)
    (r5 : binaryOp op h3 h4 out5 E m4 = .ok (.success, h5) m5) : SameTensor m5 h2 h5 := by
  obtain ⟨ds', idx, hi', hl, hb, hm⟩ := v.yields T1.dims
  have hyl : ys.length = xs.length := by rw [heA.len, heB.len, hd]
  have hix : ∀ i ∈ idx, i < xs.length := fun i h => by rw [heA.len]; exact hi' i h
  have hiy : ∀ i ∈ idx, i < ys.length := fun i h => by rw [hyl]; exact hix i h
  have hiz : ∀ i ∈ idx, i < zs.length := fun i h => by rw [hzl]; exact hix i h
  have D1 := C26_binary wf hA heA hB heB hd1 hd2 hd hi hzl hz out1
  obtain ⟨Ra, rfl, P1⟩ := D1.yields.only r1
  have he1 : Elems ⟨c.dtype, T1.device, T1.dims, encAll c zs⟩ c zs := by
    rcases D1 with D | ⟨-, e⟩
    · exact ⟨rfl, rfl, D.wt, D.len⟩
    · rw [e] at r1; cases r1
  obtain ⟨Rb, rfl, P2⟩ := (hm out2 P1.ext.wf P1.tensor he1 rfl hv).only r2
  have hA2 := (hA.frame wf P1.ext.toFrame).frame P1.ext.wf P2.ext.toFrame
  have hB2 := (hB.frame wf P1.ext.toFrame).frame P1.ext.wf P2.ext.toFrame
  obtain ⟨Rc, rfl, P3⟩ := (hm out3 P2.ext.wf hA2 heA rfl hv).only r3
  obtain ⟨Rd, rfl, P4⟩ := (hm out4 P3.ext.wf (hB2.frame P2.ext.wf P3.ext.toFrame) heB hd hv).only r4
  have he3 : Elems ⟨T1.dtype, T1.device, ds', encAll c (pick idx xs)⟩ c (pick idx xs) :=
    ⟨heA.dtype, rfl, fun y hy => heA.wt y (pick_mem hix y hy), by simp [pick, hl]⟩
  have he4 : Elems ⟨T2.dtype, T2.device, ds', encAll c (pick idx ys)⟩ c (pick idx ys) :=
    ⟨heB.dtype, rfl, fun y hy => heB.wt y (pick_mem hiy y hy), by simp [pick, hl]⟩
  have hA4 := P3.tensor.frame P3.ext.wf P4.ext.toFrame
  obtain ⟨Re, rfl, P5⟩ := (C26_binary (op := op) (zs := pick idx zs) P4.ext.wf hA4 he3 P4.tensor he4 hd1 hd2 rfl (hb _ hv hi)
    (by simp [pick]) (fun k a b d => by
      have hk : k < idx.length := by simpa [pick] using a
      rw [pick_get hix hk, pick_get hiy hk, pick_get hiz hk]
      exact hz _ _ _ _) out5).yields.only r5
  exact sameTensor_of P4.ext.wf ((P2.tensor.frame P2.ext.wf P3.ext.toFrame).frame P3.ext.wf P4.ext.toFrame) P5

/-- C61. If no allocation fails, the five calls succeed. -/
theorem C61_binary_total (op : BinOp) (v : Move) (nf : E.NoFail) (mf : E.MallocOK) (wf : m.WF) (hA : At m R1 T1)
    (heA : Elems T1 c xs) (hB : At m R2 T2) (heB : Elems T2 c ys) (hd1 : T1.device.type = 0) (hd2 : T2.device.type = 0)
    (hd : T2.dims = T1.dims) (hi : prod T1.dims ≤ 2147483647) (hzl : zs.length = xs.length)
    (hz : ∀ i (_ : i < xs.length) (_ : i < ys.length) (_ : i < zs.length), OpResult E.fp c op xs[i] ys[i] zs[i])
    (hv : v.Fits T1.dims c.size) (out1 out2 out3 out4 out5 : Ptr) :
    ∃ h1 m1 h2 m2 h3 m3 h4 m4 h5 m5, binaryOp op R1.h R2.h out1 E m = .ok (.success, h1) m1 ∧
      v.run h1 out2 E m1 = .ok (.success, h2) m2 ∧ v.run R1.h out3 E m2 = .ok (.success, h3) m3 ∧
      v.run R2.h out4 E m3 = .ok (.success, h4) m4 ∧ binaryOp op h3 h4 out5 E m4 = .ok (.success, h5) m5 ∧
      SameTensor m5 h2 h5 := by
  obtain ⟨ds', idx, hi', hl, hb, hm⟩ := v.yields T1.dims
  have hyl : ys.length = xs.length := by rw [heA.len, heB.len, hd]
  have hix : ∀ i ∈ idx, i < xs.length := fun i h => by rw [heA.len]; exact hi' i h
  have hiy : ∀ i ∈ idx, i < ys.length := fun i h => by rw [hyl]; exact hix i h
  have hiz : ∀ i ∈ idx, i < zs.length := fun i h => by rw [hzl]; exact hix i h
  have D1 := C26_binary wf hA heA hB heB hd1 hd2 hd hi hzl hz out1
  obtain ⟨Ra, ma, r1, P1⟩ := D1.yields.runs nf mf
  have he1 : Elems ⟨c.dtype, T1.device, T1.dims, encAll c zs⟩ c zs := by
    rcases D1 with D | ⟨-, e⟩
    · exact ⟨rfl, rfl, D.wt, D.len⟩
    · rw [e] at r1; cases r1
  obtain ⟨Rb, mb, r2, P2⟩ := (hm out2 P1.ext.wf P1.tensor he1 rfl hv).runs nf mf
  have hA2 := (hA.frame wf P1.ext.toFrame).frame P1.ext.wf P2.ext.toFrame
  have hB2 := (hB.frame wf P1.ext.toFrame).frame P1.ext.wf P2.ext.toFrame
  obtain ⟨Rc, mc, r3, P3⟩ := (hm out3 P2.ext.wf hA2 heA rfl hv).runs nf mf
  obtain ⟨Rd, md, r4, P4⟩ := (hm out4 P3.ext.wf (hB2.frame P2.ext.wf P3.ext.toFrame) heB hd hv).runs nf mf
  have he3 : Elems ⟨T1.dtype, T1.device, ds', encAll c (pick idx xs)⟩ c (pick idx xs) :=
    ⟨heA.dtype, rfl, fun y hy => heA.wt y (pick_mem hix y hy), by simp [pick, hl]⟩
  have he4 : Elems ⟨T2.dtype, T2.device, ds', encAll c (pick idx ys)⟩ c (pick idx ys) :=
    ⟨heB.dtype, rfl, fun y hy => heB.wt y (pick_mem hiy y hy), by simp [pick, hl]⟩
  have hA4 := P3.tensor.frame P3.ext.wf P4.ext.toFrame
  obtain ⟨Re, me, r5, P5⟩ := (C26_binary (op := op) (zs := pick idx zs) P4.ext.wf hA4 he3 P4.tensor he4 hd1 hd2 rfl (hb _ hv hi)
    (by simp [pick]) (fun k a b d => by
      have hk : k < idx.length := by simpa [pick] using a
      rw [pick_get hix hk, pick_get hiy hk, pick_get hiz hk]
      exact hz _ _ _ _) out5).yields.runs nf mf
  exact ⟨_, _, _, _, _, _, _, _, _, _, r1, r2, r3, r4, r5,
    C61_binary op v wf hA heA hB heB hd1 hd2 hd hi hzl hz hv r1 r2 r3 r4 r5⟩

/-- C61. A slice of a slice is a slice: it is what a single call gives whose begin, size and step are composed axis by axis. -/
theorem C61_slice_of_slice {as bs : List Axis} (wf : m.WF) (h : At m R T) (he : Elems T c xs)
    (hv1 : (Move.slice as).Fits T.dims c.size) (hv2 : (Move.slice bs).Fits (sliceDims as) c.size)
    (hf : AxFit (sliceAfter as bs))
    (r1 : (Move.slice as).run R.h out1 E m = .ok (.success, h1) m1)
    (r2 : (Move.slice bs).run h1 out2 E m1 = .ok (.success, h2) m2)
    (r3 : (Move.slice (sliceAfter as bs)).run R.h out3 E m2 = .ok (.success, h3) m3) : SameTensor m3 h2 h3 := by
  obtain ⟨v1, v2, v3, v4⟩ := hv1
  obtain ⟨w1, w2, w3, w4⟩ := hv2
  obtain ⟨g1, g2, g3⟩ := slice_after v2 w2
  obtain ⟨R1, rfl, P1⟩ := (slice_run wf h he v1 v2 v3 v4 out1).yields.only r1
  have he1 : Elems ⟨c.dtype, T.device, sliceDims as, encAll c (sliceElems T.dims as xs)⟩ c (sliceElems T.dims as xs) :=
    ⟨rfl, rfl, fun y hy => he.wt y (sliceElems_mem v2 he.len y hy), sliceElems_length ..⟩
  obtain ⟨R2, rfl, P2⟩ := (slice_run P1.ext.wf P1.tensor he1 w1 w2 w3 w4 out2).yields.only r2
  have h2 := (h.frame wf P1.ext.toFrame).frame P1.ext.wf P2.ext.toFrame
  obtain ⟨R3, rfl, P3⟩ := (slice_run P2.ext.wf h2 he v1 g1 hf (by rw [g2]; exact w4) out3).yields.only r3
  rw [g2, ← sliceElems_after v2 w2] at P3
  exact sameTensor_of P2.ext.wf P2.tensor P3

/-- C61. If no allocation fails, the three calls succeed. -/
theorem C61_slice_of_slice_total {as bs : List Axis} (nf : E.NoFail) (mf : E.MallocOK) (wf : m.WF) (h : At m R T)
    (he : Elems T c xs) (hv1 : (Move.slice as).Fits T.dims c.size) (hv2 : (Move.slice bs).Fits (sliceDims as) c.size)
    (hf : AxFit (sliceAfter as bs)) (out1 out2 out3 : Ptr) :
    ∃ h1 m1 h2 m2 h3 m3, (Move.slice as).run R.h out1 E m = .ok (.success, h1) m1 ∧
      (Move.slice bs).run h1 out2 E m1 = .ok (.success, h2) m2 ∧
      (Move.slice (sliceAfter as bs)).run R.h out3 E m2 = .ok (.success, h3) m3 ∧ SameTensor m3 h2 h3 := by
  obtain ⟨v1, v2, v3, v4⟩ := hv1
  obtain ⟨w1, w2, w3, w4⟩ := hv2
  obtain ⟨g1, g2, g3⟩ := slice_after v2 w2
  obtain ⟨R1, ma, r1, P1⟩ := (slice_run wf h he v1 v2 v3 v4 out1).yields.runs nf mf
  have he1 : Elems ⟨c.dtype, T.device, sliceDims as, encAll c (sliceElems T.dims as xs)⟩ c (sliceElems T.dims as xs) :=
    ⟨rfl, rfl, fun y hy => he.wt y (sliceElems_mem v2 he.len y hy), sliceElems_length ..⟩
  obtain ⟨R2, mb, r2, P2⟩ := (slice_run P1.ext.wf P1.tensor he1 w1 w2 w3 w4 out2).yields.runs nf mf
  have h2 := (h.frame wf P1.ext.toFrame).frame P1.ext.wf P2.ext.toFrame
  obtain ⟨R3, mc, r3, P3⟩ := (slice_run P2.ext.wf h2 he v1 g1 hf (by rw [g2]; exact w4) out3).yields.runs nf mf
  exact ⟨_, _, _, _, _, _, r1, r2, r3, C61_slice_of_slice wf h he ⟨v1, v2, v3, v4⟩ ⟨w1, w2, w3, w4⟩ hf r1 r2 r3⟩

/-- C61. The composed request selects the positions selected by the second request among those selected by the first. -/
theorem C61_composed {ds : List Nat} {as bs : List Axis} (h1 : SliceFits ds as) (h2 : SliceFits (sliceDims as) bs) :
    SliceFits ds (sliceAfter as bs) ∧ sliceDims (sliceAfter as bs) = sliceDims bs ∧
      ∀ cs, source (sliceAfter as bs) cs = source as (source bs cs) := slice_after h1 h2

/-- C61. Working on a copy is working on the original: any of the calls gives the same tensor for both. -/
theorem C61_copy (o : Each) (wf : m.WF) (h : At m R T) (he : Elems T c xs) (ha : o.Accepts c)
    (ht : ∀ x ∈ xs, o.Takes E.fp c x) (hs : ShapeOK T.dims (o.code c).size) (hv : Move.duplicate.Fits T.dims c.size)
    (r1 : o.run R.h out1 E m = .ok (.success, h1) m1) (r2 : duplicate R.h out2 E m1 = .ok (.success, h2) m2)
    (r3 : o.run h2 out3 E m2 = .ok (.success, h3) m3) : SameTensor m3 h1 h3 := by
  obtain ⟨ys, hy⟩ := Each.defined ha ht
  obtain ⟨R1, rfl, P1⟩ := (Each.yields wf h he ha ht hs hy out1).only r1
  obtain ⟨R2, rfl, P2⟩ := (makesIf_or ((duplicate_run P1.ext.wf (h.frame wf P1.ext.toFrame) he hv.1 hv.2.1 hv.2.2 out2).imp
    Creates.yields id) fun p q _ => p q).only r2
  obtain ⟨R3, rfl, P3⟩ := (Each.yields P2.ext.wf P2.tensor he ha ht hs hy out3).only r3
  exact sameTensor_of P2.ext.wf (P1.tensor.frame P1.ext.wf P2.ext.toFrame) P3

/-- C61. Any of the calls on a copy of the tensor gives the same tensor as on the tensor itself. -/
theorem C61_copy_move (v : Move) (wf : m.WF) (h : At m R T) (he : Elems T c xs) (hv : Move.duplicate.Fits T.dims c.size)
    (hv' : v.Fits T.dims c.size)
    (r1 : v.run R.h out1 E m = .ok (.success, h1) m1) (r2 : duplicate R.h out2 E m1 = .ok (.success, h2) m2)
    (r3 : v.run h2 out3 E m2 = .ok (.success, h3) m3) : SameTensor m3 h1 h3 := by
  obtain ⟨ds', idx, hi, hl, -, hm⟩ := v.yields T.dims
  obtain ⟨R1, rfl, P1⟩ := (hm out1 wf h he rfl hv').only r1
  obtain ⟨R2, rfl, P2⟩ := (makesIf_or ((duplicate_run P1.ext.wf (h.frame wf P1.ext.toFrame) he hv.1 hv.2.1 hv.2.2 out2).imp
    Creates.yields id) fun p q _ => p q).only r2
  obtain ⟨R3, rfl, P3⟩ := (hm out3 P2.ext.wf P2.tensor he rfl hv').only r3
  exact sameTensor_of P2.ext.wf (P1.tensor.frame P1.ext.wf P2.ext.toFrame) P3

end

/-! ### Examples -/

/-- Rows 1, 3 of five, then every second of three columns, then the second row: the composed request. -/
example : sliceAfter [⟨1, 3, 2⟩, ⟨0, 3, 2⟩] [⟨1, 0, 1⟩, ⟨0, 2, 1⟩] = [⟨3, 0, 1⟩, ⟨0, 3, 2⟩] := by decide

/-- Relu and slice on the 2x3 tensor `1 -2 3 -4 5 -6`: the four calls succeed and give the same tensor. -/
example : ∃ h1 m1 h2 m2 h3 m3 h4 m4,
    Each.relu.run Mem.empty.footT.h .indet okEnv exMem = .ok (.success, h1) m1 ∧
    (Move.slice [⟨1, 0, 1⟩, ⟨0, 3, 2⟩]).run h1 .indet okEnv m1 = .ok (.success, h2) m2 ∧
    (Move.slice [⟨1, 0, 1⟩, ⟨0, 3, 2⟩]).run Mem.empty.footT.h .indet okEnv m2 = .ok (.success, h3) m3 ∧
    Each.relu.run h3 .indet okEnv m3 = .ok (.success, h4) m4 ∧ SameTensor m4 h2 h4 :=
  C61_each_total .relu (.slice [⟨1, 0, 1⟩, ⟨0, 3, 2⟩]) okEnv_noFail okEnv_malloc exMem_wf exA_at exA_elems trivial (fun _ _ => trivial) ⟨by decide, by decide⟩
    ⟨by decide, by simp [exA, tvOf, SliceFits, Axis.Fits], by simp [AxFit], by decide⟩
    ⟨by decide, by simp [exA, tvOf, SliceFits, Axis.Fits], by simp [AxFit], by decide⟩ _ _ _ _

/-- The second and third column, of these the second: the calls give what a single call gives. -/
example : ∃ h1 m1 h2 m2 h3 m3,
    (Move.slice [⟨0, 2, 1⟩, ⟨1, 2, 1⟩]).run Mem.empty.footT.h .indet okEnv exMem = .ok (.success, h1) m1 ∧
    (Move.slice [⟨0, 2, 1⟩, ⟨1, 0, 1⟩]).run h1 .indet okEnv m1 = .ok (.success, h2) m2 ∧
    (Move.slice (sliceAfter [⟨0, 2, 1⟩, ⟨1, 2, 1⟩] [⟨0, 2, 1⟩, ⟨1, 0, 1⟩])).run Mem.empty.footT.h .indet okEnv m2 = .ok (.success, h3) m3 ∧
    SameTensor m3 h2 h3 :=
  C61_slice_of_slice_total okEnv_noFail okEnv_malloc exMem_wf exA_at exA_elems
    ⟨by decide, by simp [exA, tvOf, SliceFits, Axis.Fits], by simp [AxFit], by decide⟩
    ⟨by decide, by simp [exA, tvOf, SliceFits, Axis.Fits, sliceDims, ceilDiv], by simp [AxFit], by decide⟩
    (by simp [AxFit, sliceAfter, Axis.after, ceilDiv]) _ _ _

/-- Adding the two `int8_t` tensors of C26 and reshaping to a row. -/
example : ∃ h1 m1 h2 m2 h3 m3 h4 m4 h5 m5,
    binaryOp .add Mem.empty.footT.h (Mem.empty.addT exB1).footT.h .indet okEnv exBMem = .ok (.success, h1) m1 ∧
    (Move.reshape [4]).run h1 .indet okEnv m1 = .ok (.success, h2) m2 ∧
    (Move.reshape [4]).run Mem.empty.footT.h .indet okEnv m2 = .ok (.success, h3) m3 ∧
    (Move.reshape [4]).run (Mem.empty.addT exB1).footT.h .indet okEnv m3 = .ok (.success, h4) m4 ∧
    binaryOp .add h3 h4 .indet okEnv m4 = .ok (.success, h5) m5 ∧ SameTensor m5 h2 h5 :=
  C61_binary_total .add (.reshape [4]) (zs := [-56, -5, 0, 127].map .int) okEnv_noFail okEnv_malloc exBMem_wf exB1_at exB1_elems exB2_at
    exB2_elems rfl rfl rfl (by decide) rfl (by
      intro i h1 h2 h3
      rw [opResult_iff (exB1_elems.wt _ (List.getElem_mem h1)) (exB2_elems.wt _ (List.getElem_mem h2))]
      have : i < 4 := h1
      match i, this with
      | 0, _ => decide +revert
      | 1, _ => decide +revert
      | 2, _ => decide +revert
      | 3, _ => decide +revert) ⟨⟨by decide, by decide⟩, by decide⟩ _ _ _ _ _

/-- Relu of the tensor and of a copy of it. -/
example : ∃ h1 m1 h2 m2 h3 m3, Each.relu.run Mem.empty.footT.h .indet okEnv exMem = .ok (.success, h1) m1 ∧
    duplicate Mem.empty.footT.h .indet okEnv m1 = .ok (.success, h2) m2 ∧
    Each.relu.run h2 .indet okEnv m2 = .ok (.success, h3) m3 ∧ SameTensor m3 h1 h3 := by
  have hv : Move.duplicate.Fits exA.dims Code.i32.size := ⟨by decide, by decide, by decide⟩
  obtain ⟨ys, hy⟩ := Each.defined (fp := okEnv.fp) (o := .relu) (c := .i32) (xs := [1, -2, 3, -4, 5, -6].map .int) trivial fun _ _ => trivial
  obtain ⟨R1, m1, r1, P1⟩ := (Each.yields (E := okEnv) (o := .relu) exMem_wf exA_at exA_elems trivial (fun _ _ => trivial) exA_at.shape hy
    .indet).runs okEnv_noFail okEnv_malloc
  obtain ⟨R2, m2, r2, P2⟩ := (makesIf_or ((duplicate_run (E := okEnv) P1.ext.wf (exA_at.frame exMem_wf P1.ext.toFrame) exA_elems hv.1 hv.2.1
    hv.2.2 .indet).imp Creates.yields id) fun p q _ => p q).runs okEnv_noFail okEnv_malloc
  obtain ⟨R3, m3, r3, P3⟩ := (Each.yields (E := okEnv) (o := .relu) P2.ext.wf P2.tensor exA_elems trivial (fun _ _ => trivial) exA_at.shape hy
    .indet).runs okEnv_noFail okEnv_malloc
  exact ⟨_, _, _, _, _, _, r1, r2, r3, C61_copy .relu exMem_wf exA_at exA_elems trivial (fun _ _ => trivial) exA_at.shape hv r1 r2 r3⟩

end Aitisa
