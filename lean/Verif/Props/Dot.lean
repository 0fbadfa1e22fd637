import Verif.Proof.DotTop
import Verif.Props.Matmul

/-!
# C34: the dot product
-/

namespace Aitisa

variable {E : Env} {m : Mem} {R1 R2 : Foot} {T1 T2 : TV} {c : Code} {xs ys zs : List Val} {z z0 : Val} {nK : Nat}
  {bs b1 b2 : List Nat} {K l : Nat}

theorem dotTo_run {f g : Nat → Val} {w : Val} (wz : z.WT c) (hf : ∀ q, q < K → (f q).WT c) (hg : ∀ q, q < K → (g q).WT c)
    (h : DotTo E.fp c z ((List.range K).map fun q => (f q, g q)) w) : dotRun E.fp c z ((List.range K).map fun q => (f q, g q)) = .ok w ∧ w.WT c := by
  have := (dotTo_iff wz (by
    intro p hp
    simp only [List.mem_map, List.mem_range] at hp
    obtain ⟨q, hq, rfl⟩ := hp
    exact ⟨hf q hq, hg q hq⟩)).1 h
  exact ⟨this, dotRun_WT wz this⟩

theorem elemAt_WT {T : TV} {ds cs : List Nat} (he : Elems T c xs) (hs : T.dims = ds) (h : InRange ds cs) : (elemAt ds xs cs).WT c :=
  elem_WT he (by have := lin_lt h; rw [← hs, ← he.len] at this; rw [← hs]; exact this)

theorem dot_pass (h1 : At m R1 T1) (h2 : At m R2 T2) (c1 : T1.device.type = DEVICE_CPU) (c2 : T2.device.type = DEVICE_CPU)
    (ht : T1.dtype.code = T2.dtype.code) (out : Ptr) :
    dot R1.h R2.h out E m =
      (if (T1.dims.length : Int) = 1 ∧ (T2.dims.length : Int) = 1 then vecDot R1.h R2.h out
      else if (T1.dims.length : Int) = 2 ∧ (T2.dims.length : Int) = 2 then matmul R1.h R2.h out
      else if (T1.dims.length : Int) = 0 ∨ (T2.dims.length : Int) = 0 then scalarMul R1.h R2.h out
      else if (T2.dims.length : Int) = 1 then tvDot R1.h R2.h out
      else if (T1.dims.length : Int) > 2 ∧ (T2.dims.length : Int) > 2 then mdDot R1.h R2.h out
      else pure (.invalidArgument, out)) E m := by
  unfold dot
  msimp [h1.tDevice, h2.tDevice, c1, c2, h1.tDtype, h2.tDtype, ht, h1.tNdim, h2.tNdim]

/-! ## C34 -/

section
variable (wf : m.WF) (h1 : At m R1 T1) (he1 : Elems T1 c xs) (h2 : At m R2 T2) (he2 : Elems T2 c ys)
  (c1 : T1.device.type = DEVICE_CPU) (c2 : T2.device.type = DEVICE_CPU)
include wf h1 he1 h2 he2 c1 c2

/-- C34, two vectors: one element, the sum of the products from 0. -/
theorem C34_vector_vector (hz0 : ZeroOf E.fp c z0) (hz : Converts E.fp c (.int 0) z) (s1 : T1.dims = [K]) (s2 : T2.dims = [K])
    (hK : K ≤ 2147483647) {w : Val}
    (hdot : DotTo E.fp c z ((List.range K).map fun q => (elemAt T1.dims xs [q], elemAt T2.dims ys [q])) w) (out : Ptr) :
    Delivers E (dot R1.h R2.h out) m out c T1.device [1] [w] := by
  have hz' := converts_iff.1 hz
  rw [s1, s2] at hdot
  have hr := dotTo_run (cCast_WT hz') (fun q hq => elemAt_WT (cs := [q]) he1 s1 ⟨hq, trivial⟩)
    (fun q hq => elemAt_WT (cs := [q]) he2 s2 ⟨hq, trivial⟩) hdot
  simp only [elemAt, lin_one] at hr
  have := vecDot_run wf h1 he1 h2 he2 hz0 hz' s1 s2 hK (shape1 (by omega)) hr.1 out
  refine ⟨?_, this.wt, this.len⟩
  have e := this.creates
  unfold Creates at e ⊢
  rw [dot_pass h1 h2 c1 c2 (by rw [he1.dtype, he2.dtype]), s1, s2]
  exact e

/-- C34, two matrices: the same run as that of `aitisa_matmul` (C31, C32, C33). -/
theorem C34_matrix_matrix (s1 : T1.dims.length = 2) (s2 : T2.dims.length = 2) (out : Ptr) :
    dot R1.h R2.h out E m = matmul R1.h R2.h out E m := by
  rw [dot_pass h1 h2 c1 c2 (by rw [he1.dtype, he2.dtype]), s1, s2]; rfl

/-- C34 (partial), a scalar on the left scales the tensor.  The scalar passes through `double` first (`ThroughDouble`).
Missing: scalars that `double` cannot represent (`C34_scalar_rounded_violated`), more than `INT_MAX` elements. -/
theorem C34_scalar_left_partial {s v : Val} (hs : xs = [s]) (s1 : T1.dims = []) (hv : ThroughDouble E.fp c s v)
    (hi : prod T2.dims ≤ 2147483647) (hzl : zs.length = ys.length)
    (hz : ∀ i (_ : i < ys.length) (_ : i < zs.length), OpResult E.fp c .mul v ys[i] zs[i]) (out : Ptr) :
    DeliversMalloc E (dot R1.h R2.h out) m out c T1.device T2.dims zs := by
  subst hs
  obtain ⟨d, hd, hv⟩ := hv
  rw [converts_iff] at hd hv
  have hv' : cCast E.fp c (.f64 (toDouble E.fp s)) = .ok v := by
    rw [← hv]; cases s <;> simp [cCast] at hd <;> simp [toDouble, hd]
  have hz' := fun i a b => (opResult_iff (cCast_WT hv) (he2.wt _ (List.getElem_mem a))).1 (hz i a b)
  have hzw : ∀ y ∈ zs, y.WT c := fun y hy => by
    obtain ⟨k, hk, rfl⟩ := List.getElem_of_mem hy
    exact cBin_WT (cCast_WT hv) (he2.wt _ (List.getElem_mem (by omega))) (hz' k (by omega) hk)
  have hzn : zs.length = prod T2.dims := by rw [hzl, he2.len]
  have e : dot R1.h R2.h out E m = scalarMulOf R1.h R2.h R1.h out E m := by
    rw [dot_pass h1 h2 c1 c2 (by rw [he1.dtype, he2.dtype]), s1]
    rw [show (([] : List Nat).length : Int) = 0 from rfl, if_neg (by omega), if_neg (by omega), if_pos (.inl rfl)]
    unfold scalarMul
    msimp [h1.tNdim, h2.tNdim, s1]
    rw [if_neg (by simp)]
  have := scalarMulOf_run wf h1 h2 he2 h1 he1 he1.dtype c1 c2 hi hv' hz' hzl out
  unfold TriesMalloc Creates at this
  rw [← e] at this
  rcases this with h | h
  · exact .inl ⟨h, hzw, hzn⟩
  · exact .inr h

/-- C34, a scalar on the right of a tensor of rank at least 1. -/
theorem C34_scalar_right_partial {s v : Val} (hs : ys = [s]) (s1 : T1.dims ≠ []) (s2 : T2.dims = []) (hv : ThroughDouble E.fp c s v)
    (hi : prod T1.dims ≤ 2147483647) (hzl : zs.length = xs.length)
    (hz : ∀ i (_ : i < xs.length) (_ : i < zs.length), OpResult E.fp c .mul v xs[i] zs[i]) (out : Ptr) :
    DeliversMalloc E (dot R1.h R2.h out) m out c T1.device T1.dims zs := by
  subst hs
  obtain ⟨d, hd, hv⟩ := hv
  rw [converts_iff] at hd hv
  have hv' : cCast E.fp c (.f64 (toDouble E.fp s)) = .ok v := by
    rw [← hv]; cases s <;> simp [cCast] at hd <;> simp [toDouble, hd]
  have hz' := fun i a b => (opResult_iff (cCast_WT hv) (he1.wt _ (List.getElem_mem a))).1 (hz i a b)
  have hzw : ∀ y ∈ zs, y.WT c := fun y hy => by
    obtain ⟨k, hk, rfl⟩ := List.getElem_of_mem hy
    exact cBin_WT (cCast_WT hv) (he1.wt _ (List.getElem_mem (by omega))) (hz' k (by omega) hk)
  have hzn : zs.length = prod T1.dims := by rw [hzl, he1.len]
  have hpos : 0 < T1.dims.length := List.length_pos_iff.2 s1
  have e : dot R1.h R2.h out E m = scalarMulOf R1.h R1.h R2.h out E m := by
    rw [dot_pass h1 h2 c1 c2 (by rw [he1.dtype, he2.dtype]), s2]
    rw [show (([] : List Nat).length : Int) = 0 from rfl, if_neg (by omega), if_neg (by omega), if_pos (.inr rfl)]
    unfold scalarMul
    msimp [h1.tNdim, h2.tNdim, s2]
    rw [if_pos (by simp; omega)]
  have := scalarMulOf_run wf h1 h1 he1 h2 he2 he1.dtype c1 c1 hi hv' hz' hzl out
  unfold TriesMalloc Creates at this
  rw [← e] at this
  rcases this with h | h
  · exact .inl ⟨h, hzw, hzn⟩
  · exact .inr h

/-- C34 (partial), a tensor of rank at least 2 and a vector: the last axis is contracted.  Missing: an empty inner dim
(`C34_empty_inner_violated`), outputs of more than `INT_MAX` bytes. -/
theorem C34_tensor_vector_partial (hz0 : ZeroOf E.fp c z0) (hz : Converts E.fp c (.int 0) z) (s1 : T1.dims = bs ++ [K]) (hb : bs ≠ [])
    (s2 : T2.dims = [K]) (hK : K ≤ 2147483647) (hn : prod bs * c.size ≤ 2147483647) (h0 : 0 < prod bs → 0 < K)
    (hzl : zs.length = prod bs)
    (hdot : ∀ cs, InRange bs cs → DotTo E.fp c z ((List.range K).map fun q =>
      (elemAt T1.dims xs (cs ++ [q]), elemAt T2.dims ys [q])) (elemAt bs zs cs)) (out : Ptr) :
    Attempts E (dot R1.h R2.h out) m ⟨c.dtype, T1.device, bs, encAll c zs⟩ := by
  have hz' := converts_iff.1 hz
  have hpos : 0 < bs.length := List.length_pos_iff.2 hb
  have e : dot R1.h R2.h out E m = tvDot R1.h R2.h out E m := by
    rw [dot_pass h1 h2 c1 c2 (by rw [he1.dtype, he2.dtype]), s1, s2]
    simp only [List.length_append, List.length_singleton]
    rw [if_neg (by omega), if_neg (by omega), if_neg (by omega), if_pos (by omega)]
  have := tvDot_run wf h1 he1 h2 he2 hz0 hz' s1 s2 hK hn h0 hzl (fun i hi => by
    have hc := unlin_inRange hi
    have h := hdot _ hc
    rw [s1, s2] at h
    have hr := dotTo_run (cCast_WT hz') (fun q hq => elemAt_WT (cs := unlin bs i ++ [q]) he1 s1 (inRange_append hc ⟨hq, trivial⟩))
      (fun q hq => elemAt_WT (cs := [q]) he2 s2 ⟨hq, trivial⟩) h
    rw [elemAt, lin_unlin hi] at hr
    rw [← hr.1]
    congr 1
    apply List.map_congr_left
    intro q hq
    rw [vecAt_getD _ _ _ _ (List.mem_range.1 hq)]
    simp [elemAt, lin_one, prod, unlin]) out
  unfold Attempts at this ⊢
  rwa [e]

/-- C34 (partial), two tensors of rank at least 3: the last axis of the first is contracted with the last but one of the
second.  Missing: an empty inner dim (`C34_empty_inner_division_violated`), outputs of more than `INT_MAX` bytes. -/
theorem C34_tensor_tensor_partial (hz0 : ZeroOf E.fp c z0) (hz : Converts E.fp c (.int 0) z) (s1 : T1.dims = b1 ++ [K]) (s2 : T2.dims = b2 ++ [K, l])
    (hb1 : 2 ≤ b1.length) (hb2 : b2 ≠ []) (h0 : 0 < K) (hK : K ≤ 2147483647) (hn1 : prod b1 ≤ 2147483647) (hn2 : prod b2 * l ≤ 2147483647)
    (hs : ShapeOK (b1 ++ b2 ++ [l]) c.size) (hzl : zs.length = prod (b1 ++ b2 ++ [l]))
    (hdot : ∀ cs ds j, InRange b1 cs → InRange b2 ds → j < l → DotTo E.fp c z ((List.range K).map fun q =>
      (elemAt T1.dims xs (cs ++ [q]), elemAt T2.dims ys (ds ++ [q, j]))) (elemAt (b1 ++ b2 ++ [l]) zs (cs ++ ds ++ [j]))) (out : Ptr) :
    Attempts E (dot R1.h R2.h out) m ⟨c.dtype, T1.device, b1 ++ b2 ++ [l], encAll c zs⟩ := by
  have hz' := converts_iff.1 hz
  have hpos : 0 < b2.length := List.length_pos_iff.2 hb2
  have hp : prod (b1 ++ b2 ++ [l]) = prod b1 * (prod b2 * l) := by simp [prod_append, prod, Nat.mul_assoc]
  have e : dot R1.h R2.h out E m = mdDot R1.h R2.h out E m := by
    rw [dot_pass h1 h2 c1 c2 (by rw [he1.dtype, he2.dtype]), s1, s2]
    simp only [List.length_append, List.length_singleton, List.length_cons, List.length_nil]
    rw [if_neg (by omega), if_neg (by omega), if_neg (by omega), if_neg (by omega), if_pos (by omega)]
  have := mdDot_run wf h1 he1 h2 he2 hz0 hz' s1 s2 h0 hK hn1 hn2 hs (hzl.trans hp) (fun i hi j hj => by
    have hc := unlin_inRange hi
    have hl : 0 < l := Nat.pos_of_ne_zero fun h => by simp [h] at hj
    have hd := unlin_inRange (ds := b2) (i := j / l) (by rw [Nat.div_lt_iff_lt_mul hl]; exact hj)
    have hm := Nat.mod_lt j hl
    have h := hdot _ _ _ hc hd hm
    rw [s1, s2] at h
    have hr := dotTo_run (cCast_WT hz') (fun q hq => elemAt_WT (cs := unlin b1 i ++ [q]) he1 s1 (inRange_append hc ⟨hq, trivial⟩))
      (fun q hq => elemAt_WT (cs := unlin b2 (j / l) ++ [q, j % l]) he2 s2 (inRange_append hd ⟨hq, hm, trivial⟩)) h
    have hlin : lin (b1 ++ b2 ++ [l]) (unlin b1 i ++ unlin b2 (j / l) ++ [j % l]) = i * (prod b2 * l) + j := by
      rw [List.append_assoc, List.append_assoc, lin_append (unlin_length ..), lin_append (unlin_length ..), lin_unlin hi,
        lin_unlin (by rw [Nat.div_lt_iff_lt_mul hl]; exact hj), lin_one]
      simp only [prod_append, prod, Nat.mul_one]
      rw [Nat.mul_comm (j / l), Nat.div_add_mod]
    rw [elemAt, hlin] at hr
    rw [← hr.1]
    congr 1
    apply List.map_congr_left
    intro q hq
    rw [vecAt_getD _ _ _ _ (List.mem_range.1 hq), vecAt_getD _ _ _ _ (List.mem_range.1 hq)]
    simp [prod, unlin]) out
  unfold Attempts at this ⊢
  rwa [e]

end

/-- C34, any other pair of ranks: `STATUS_INVALID_ARGUMENT`. -/
theorem C34_otherwise (h1 : At m R1 T1) (h2 : At m R2 T2) (c1 : T1.device.type = DEVICE_CPU) (c2 : T2.device.type = DEVICE_CPU)
    (ht : T1.dtype.code = T2.dtype.code) (hr1 : T1.dims.length ≠ 0) (hr2 : 2 ≤ T2.dims.length)
    (hr : T1.dims.length = 1 ∨ (T1.dims.length = 2 ∧ 2 < T2.dims.length) ∨ (2 < T1.dims.length ∧ T2.dims.length = 2)) (out : Ptr) :
    dot R1.h R2.h out E m = .ok (.invalidArgument, out) m := by
  rw [dot_pass h1 h2 c1 c2 ht]
  rw [if_neg (by omega), if_neg (by omega), if_neg (by omega), if_neg (by omega), if_neg (by omega)]
  rfl

/-- Not on the CPU, or different element types: `STATUS_NOT_SUPPORTED`. -/
theorem C34_unsupported (h1 : At m R1 T1) (h2 : At m R2 T2)
    (h : T1.device.type ≠ DEVICE_CPU ∨ T2.device.type ≠ DEVICE_CPU ∨ T1.dtype.code ≠ T2.dtype.code) (out : Ptr) :
    dot R1.h R2.h out E m = .ok (.notSupported, out) m := by
  unfold dot
  by_cases hc : T1.device.type ≠ DEVICE_CPU ∨ T2.device.type ≠ DEVICE_CPU
  · msimp [h1.tDevice, h2.tDevice, hc]
  · have ht : T1.dtype.code ≠ T2.dtype.code := by
      rcases h with h | h | h
      · exact absurd (.inl h) hc
      · exact absurd (.inr h) hc
      · exact h
    msimp [h1.tDevice, h2.tDevice, hc, h1.tDtype, h2.tDtype, ht]

/-- Vectors of different lengths: `STATUS_DIMENSIONS_MISMATCH`. -/
theorem C34_vector_mismatch (h1 : At m R1 T1) (h2 : At m R2 T2) (c1 : T1.device.type = DEVICE_CPU) (c2 : T2.device.type = DEVICE_CPU)
    (ht : T1.dtype.code = T2.dtype.code) {k1 k2 : Nat} (s1 : T1.dims = [k1]) (s2 : T2.dims = [k2]) (hk : k1 ≠ k2) (out : Ptr) :
    dot R1.h R2.h out E m = .ok (.dimensionsMismatch, out) m := by
  have hk' : (k1 : Int) ≠ k2 := by omega
  rw [dot_pass h1 h2 c1 c2 ht]
  rw [if_pos (by simp [s1, s2])]
  unfold vecDot
  msimp [h1.dimI (k := 0) (i := 0) (d := k1) rfl (by simp [s1]), h2.dimI (k := 0) (i := 0) (d := k2) rfl (by simp [s2]), hk']

/-- A tensor and a vector with different inner dims: `STATUS_INVALID_ARGUMENT`. -/
theorem C34_tensor_vector_mismatch (h1 : At m R1 T1) (h2 : At m R2 T2) (c1 : T1.device.type = DEVICE_CPU)
    (c2 : T2.device.type = DEVICE_CPU) (ht : T1.dtype.code = T2.dtype.code) {k1 k2 : Nat} (s1 : T1.dims = bs ++ [k1]) (hb : bs ≠ [])
    (s2 : T2.dims = [k2]) (hk : k1 ≠ k2) (out : Ptr) :
    dot R1.h R2.h out E m = .ok (.invalidArgument, out) m := by
  have hk' : (k1 : Int) ≠ k2 := by omega
  have hpos : 0 < bs.length := List.length_pos_iff.2 hb
  have hlen : T1.dims.length = bs.length + 1 := by rw [s1]; simp
  have r1 : (dimsCells T1.dims).rd (((bs.length + 1 : Nat) : Int) - 1) E m = .ok (k1 : Int) m := by
    rw [show ((bs.length + 1 : Nat) : Int) - 1 = ((bs.length : Nat) : Int) by omega, rd_dims (by omega)]
    simp [s1]
  have r2 : (dimsCells T2.dims).rd 0 E m = .ok (k2 : Int) m := by
    have := rd_dims (E := E) (m := m) (ds := T2.dims) (i := 0) (by simp [s2])
    rw [show ((0 : Nat) : Int) = 0 from rfl] at this
    rw [this]; simp [s2]
  rw [dot_pass h1 h2 c1 c2 ht, hlen, s2, show ([k2] : List Nat).length = 1 from rfl]
  rw [if_neg (by omega), if_neg (by omega), if_neg (by omega), if_pos (by omega)]
  unfold tvDot
  msimp [h1.tNdim, hlen, h1.tDimsArr, h2.tDimsArr, r1, r2, hk']

/-- Two tensors with different inner dims: `STATUS_INVALID_ARGUMENT`. -/
theorem C34_tensor_tensor_mismatch (h1 : At m R1 T1) (h2 : At m R2 T2) (c1 : T1.device.type = DEVICE_CPU)
    (c2 : T2.device.type = DEVICE_CPU) (ht : T1.dtype.code = T2.dtype.code) {k1 k2 : Nat} (s1 : T1.dims = b1 ++ [k1])
    (s2 : T2.dims = b2 ++ [k2, l]) (hb1 : 2 ≤ b1.length) (hb2 : b2 ≠ []) (hk : k1 ≠ k2) (out : Ptr) :
    dot R1.h R2.h out E m = .ok (.invalidArgument, out) m := by
  have hk' : (k1 : Int) ≠ k2 := by omega
  have hpos : 0 < b2.length := List.length_pos_iff.2 hb2
  have hlen1 : T1.dims.length = b1.length + 1 := by rw [s1]; simp
  have hlen2 : T2.dims.length = b2.length + 2 := by rw [s2]; simp
  have r1 : (dimsCells T1.dims).rd (((b1.length + 1 : Nat) : Int) - 1) E m = .ok (k1 : Int) m := by
    rw [show ((b1.length + 1 : Nat) : Int) - 1 = ((b1.length : Nat) : Int) by omega, rd_dims (by omega)]
    simp [s1]
  have r2 : (dimsCells T2.dims).rd (((b2.length + 2 : Nat) : Int) - 2) E m = .ok (k2 : Int) m := by
    rw [show ((b2.length + 2 : Nat) : Int) - 2 = ((b2.length : Nat) : Int) by omega, rd_dims (by omega)]
    simp [s2]
  rw [dot_pass h1 h2 c1 c2 ht, hlen1, hlen2]
  rw [if_neg (by omega), if_neg (by omega), if_neg (by omega), if_neg (by omega), if_pos (by omega)]
  unfold mdDot
  msimp [h1.tNdim, h2.tNdim, hlen1, hlen2, h1.tDimsArr, h2.tDimsArr, r1, r2, hk']

/-! ### Instances -/

/-- The toy conversion of 0 to `int32_t`. -/
theorem exInt0 : Converts okEnv.fp .i32 (.int 0) (.int 0) := converts_iff.2 (by rfl)

/-- 1*4 + 2*5 + 3*6. -/
example : Delivers okEnv (dot exH1.h (exH2 .i32 [3] [1, 2, 3]).h .indet) (exM .i32 [3] [1, 2, 3] [3] [4, 5, 6]) .indet .i32
    ⟨DEVICE_CPU, 0⟩ [1] [.int 32] :=
  C34_vector_vector (E := okEnv) (c := .i32) (T1 := tvOf .i32 [3] ([1, 2, 3].map .int)) (T2 := tvOf .i32 [3] ([4, 5, 6].map .int))
    (Mem.addT_wf (Mem.addT_wf Mem.empty_wf _) _)
    (addT_old (Mem.addT_wf Mem.empty_wf _) (tvOf_at _ (by simp) rfl ⟨by decide, by decide⟩) _) (tvOf_elems (by decide) rfl)
    (tvOf_at _ (by simp) rfl ⟨by decide, by decide⟩) (tvOf_elems (by decide) rfl) rfl rfl exZero exInt0 rfl rfl (by omega) (exDot (by decide)) _

/-- A 2x2 matrix and a 2x1 matrix. -/
example : dot exH1.h (exH2 .i32 [2, 2] [1, 2, 3, 4]).h .indet okEnv (exM .i32 [2, 2] [1, 2, 3, 4] [2, 1] [5, 6]) =
    matmul exH1.h (exH2 .i32 [2, 2] [1, 2, 3, 4]).h .indet okEnv (exM .i32 [2, 2] [1, 2, 3, 4] [2, 1] [5, 6]) :=
  C34_matrix_matrix (E := okEnv) (c := .i32) (T1 := tvOf .i32 [2, 2] ([1, 2, 3, 4].map .int)) (T2 := tvOf .i32 [2, 1] ([5, 6].map .int))
    (Mem.addT_wf (Mem.addT_wf Mem.empty_wf _) _)
    (addT_old (Mem.addT_wf Mem.empty_wf _) (tvOf_at _ (by simp) rfl ⟨by decide, by decide⟩) _) (tvOf_elems (by decide) rfl)
    (tvOf_at _ (by simp) rfl ⟨by decide, by decide⟩) (tvOf_elems (by decide) rfl) rfl rfl rfl rfl _

/-- A tensor and a scalar 7 in memory. -/
def exDS : Mem := (Mem.empty.addT (tvOf .i8 [2] [.int 3, .int (-4)])).addS Code.i8.dtype ⟨DEVICE_CPU, 0⟩ [some 7]

/-- 7 * [3, -4]. -/
example : DeliversMalloc okEnv (dot (Mem.empty.addT (tvOf .i8 [2] [.int 3, .int (-4)])).footS.h exH1.h .indet) exDS .indet .i8
    ⟨DEVICE_CPU, 0⟩ [2] [.int 21, .int (-28)] :=
  C34_scalar_left_partial (E := okEnv) (c := .i8) (T2 := tvOf .i8 [2] [.int 3, .int (-4)]) (xs := [.int 7]) (ys := [.int 3, .int (-4)]) (s := .int 7) (v := .int 7)
    (zs := [.int 21, .int (-28)])
    (Mem.addS_wf (Mem.addT_wf Mem.empty_wf _) _ _ _) (addS_at _ _ _ _ rfl (by decide)) ⟨rfl, rfl, by decide, rfl⟩
    ((tvOf_at _ (by simp) rfl ⟨by decide, by decide⟩).frame (Mem.addT_wf Mem.empty_wf _) ((((Ext.refl (Mem.addT_wf Mem.empty_wf _)).push _).push _).push _).toFrame) (tvOf_elems (by decide) rfl)
    rfl rfl rfl rfl ⟨_, rfl, converts_iff.2 rfl⟩ (by decide) rfl
    (by intro i h1 h2; apply (opResult_iff ?_ ?_).2 <;> (revert i; decide)) _

/-- [3, -4] * 7. -/
example : DeliversMalloc okEnv (dot exH1.h (Mem.empty.addT (tvOf .i8 [2] [.int 3, .int (-4)])).footS.h .indet) exDS .indet .i8
    ⟨DEVICE_CPU, 0⟩ [2] [.int 21, .int (-28)] :=
  C34_scalar_right_partial (E := okEnv) (c := .i8) (T1 := tvOf .i8 [2] [.int 3, .int (-4)]) (ys := [.int 7]) (xs := [.int 3, .int (-4)]) (s := .int 7) (v := .int 7)
    (zs := [.int 21, .int (-28)])
    (Mem.addS_wf (Mem.addT_wf Mem.empty_wf _) _ _ _)
    ((tvOf_at _ (by simp) rfl ⟨by decide, by decide⟩).frame (Mem.addT_wf Mem.empty_wf _) ((((Ext.refl (Mem.addT_wf Mem.empty_wf _)).push _).push _).push _).toFrame) (tvOf_elems (by decide) rfl)
    (addS_at _ _ _ _ rfl (by decide)) ⟨rfl, rfl, by decide, rfl⟩
    rfl rfl rfl (by simp [tvOf]) rfl ⟨_, rfl, converts_iff.2 rfl⟩ (by decide) rfl
    (by intro i h1 h2; apply (opResult_iff ?_ ?_).2 <;> (revert i; decide)) _

/-- A 2x1x2 tensor and a vector. -/
example : Attempts okEnv (dot exH1.h (exH2 .i32 [2, 1, 2] [1, 2, 3, 4]).h .indet) (exM .i32 [2, 1, 2] [1, 2, 3, 4] [2] [10, 1])
    ⟨Code.i32.dtype, ⟨DEVICE_CPU, 0⟩, [2, 1], encAll .i32 ([12, 34].map .int)⟩ :=
  C34_tensor_vector_partial (E := okEnv) (c := .i32) (T1 := tvOf .i32 [2, 1, 2] ([1, 2, 3, 4].map .int)) (T2 := tvOf .i32 [2] ([10, 1].map .int))
    (zs := [12, 34].map .int) (bs := [2, 1]) (K := 2)
    (Mem.addT_wf (Mem.addT_wf Mem.empty_wf _) _)
    (addT_old (Mem.addT_wf Mem.empty_wf _) (tvOf_at _ (by simp) rfl ⟨by decide, by decide⟩) _) (tvOf_elems (by decide) rfl)
    (tvOf_at _ (by simp) rfl ⟨by decide, by decide⟩) (tvOf_elems (by decide) rfl) rfl rfl exZero exInt0 rfl (by simp) rfl (by omega) (by decide)
    (by decide) rfl (by intro cs hc; apply exDot; revert cs; refine all_coords ?_; decide) _

/-- Two tensors: the output has the axes of both but the contracted ones. -/
example : Attempts okEnv (dot exH1.h (exH2 .i32 [2, 1, 2] [1, 2, 3, 4]).h .indet) (exM .i32 [2, 1, 2] [1, 2, 3, 4] [2, 2, 1] [1, 10, 5, -1])
    ⟨Code.i32.dtype, ⟨DEVICE_CPU, 0⟩, [2, 1] ++ [2] ++ [1], encAll .i32 ([21, 3, 43, 11].map .int)⟩ :=
  C34_tensor_tensor_partial (E := okEnv) (c := .i32) (T1 := tvOf .i32 [2, 1, 2] ([1, 2, 3, 4].map .int)) (T2 := tvOf .i32 [2, 2, 1] ([1, 10, 5, -1].map .int))
    (zs := [21, 3, 43, 11].map .int) (b1 := [2, 1]) (b2 := [2]) (K := 2) (l := 1)
    (Mem.addT_wf (Mem.addT_wf Mem.empty_wf _) _)
    (addT_old (Mem.addT_wf Mem.empty_wf _) (tvOf_at _ (by simp) rfl ⟨by decide, by decide⟩) _) (tvOf_elems (by decide) rfl)
    (tvOf_at _ (by simp) rfl ⟨by decide, by decide⟩) (tvOf_elems (by decide) rfl) rfl rfl exZero exInt0 rfl rfl (by simp) (by simp) (by omega)
    (by omega) (by decide) (by decide) ⟨by decide, by decide⟩ rfl
    (by
      intro cs ds j hc hd hj; apply exDot; revert j; revert ds; revert cs
      refine all_coords ?_
      intro b hb ds hd
      revert ds
      refine all_coords ?_
      revert b; decide) _

/-- A vector and a matrix. -/
example : dot exH1.h (exH2 .i32 [2] [1, 2]).h .indet okEnv (exM .i32 [2] [1, 2] [2, 2] [1, 2, 3, 4]) =
    .ok (.invalidArgument, .indet) (exM .i32 [2] [1, 2] [2, 2] [1, 2, 3, 4]) :=
  C34_otherwise (T1 := tvOf .i32 [2] ([1, 2].map .int)) (T2 := tvOf .i32 [2, 2] ([1, 2, 3, 4].map .int))
    (addT_old (Mem.addT_wf Mem.empty_wf _) (tvOf_at _ (by simp) rfl ⟨by decide, by decide⟩) _)
    (tvOf_at _ (by simp) rfl ⟨by decide, by decide⟩) rfl rfl rfl (by decide) (by decide) (by decide) _

/-- Different element types. -/
example : dot Mem.empty.footT.h (Mem.empty.addT (tvOf .i32 [1] [.int 1])).footT.h .indet okEnv
      ((Mem.empty.addT (tvOf .i32 [1] [.int 1])).addT (tvOf .u32 [1] [.int 1])) =
    .ok (.notSupported, .indet) ((Mem.empty.addT (tvOf .i32 [1] [.int 1])).addT (tvOf .u32 [1] [.int 1])) :=
  C34_unsupported (T1 := tvOf .i32 [1] [.int 1]) (T2 := tvOf .u32 [1] [.int 1])
    (addT_old (Mem.addT_wf Mem.empty_wf _) (tvOf_at _ (by simp) rfl ⟨by decide, by decide⟩) _)
    (tvOf_at _ (by simp) rfl ⟨by decide, by decide⟩) (by decide) _

/-- Lengths 2 and 3. -/
example : dot exH1.h (exH2 .i32 [2] [1, 2]).h .indet okEnv (exM .i32 [2] [1, 2] [3] [1, 2, 3]) =
    .ok (.dimensionsMismatch, .indet) (exM .i32 [2] [1, 2] [3] [1, 2, 3]) :=
  C34_vector_mismatch (T1 := tvOf .i32 [2] ([1, 2].map .int)) (T2 := tvOf .i32 [3] ([1, 2, 3].map .int))
    (addT_old (Mem.addT_wf Mem.empty_wf _) (tvOf_at _ (by simp) rfl ⟨by decide, by decide⟩) _)
    (tvOf_at _ (by simp) rfl ⟨by decide, by decide⟩) rfl rfl rfl rfl rfl (by decide) _

/-- 1x2 and 3. -/
example : dot exH1.h (exH2 .i32 [1, 2] [1, 2]).h .indet okEnv (exM .i32 [1, 2] [1, 2] [3] [1, 2, 3]) =
    .ok (.invalidArgument, .indet) (exM .i32 [1, 2] [1, 2] [3] [1, 2, 3]) :=
  C34_tensor_vector_mismatch (T1 := tvOf .i32 [1, 2] ([1, 2].map .int)) (T2 := tvOf .i32 [3] ([1, 2, 3].map .int)) (bs := [1])
    (addT_old (Mem.addT_wf Mem.empty_wf _) (tvOf_at _ (by simp) rfl ⟨by decide, by decide⟩) _)
    (tvOf_at _ (by simp) rfl ⟨by decide, by decide⟩) rfl rfl rfl rfl (by simp) rfl (by decide) _

/-- 1x1x2 and 1x1x2. -/
example : dot exH1.h (exH2 .i32 [1, 1, 2] [1, 2]).h .indet okEnv (exM .i32 [1, 1, 2] [1, 2] [1, 1, 2] [1, 2]) =
    .ok (.invalidArgument, .indet) (exM .i32 [1, 1, 2] [1, 2] [1, 1, 2] [1, 2]) :=
  C34_tensor_tensor_mismatch (T1 := tvOf .i32 [1, 1, 2] ([1, 2].map .int)) (T2 := tvOf .i32 [1, 1, 2] ([1, 2].map .int)) (b1 := [1, 1]) (b2 := [1])
    (addT_old (Mem.addT_wf Mem.empty_wf _) (tvOf_at _ (by simp) rfl ⟨by decide, by decide⟩) _)
    (tvOf_at _ (by simp) rfl ⟨by decide, by decide⟩) rfl rfl rfl rfl rfl (by simp) (by simp) (by decide) _

/-! ### Violations -/

/-- C34, violated: a scalar that `double` cannot represent is rounded before it scales (the hypothesis on the conversions
holds in IEEE arithmetic: 2^53 + 1 rounds to 2^53). -/
theorem C34_scalar_rounded_violated (wf : m.WF) (h1 : At m R1 T1) (he1 : Elems T1 .i64 [.int 9007199254740993]) (h2 : At m R2 T2)
    (he2 : Elems T2 .i64 [.int 1]) (c1 : T1.device.type = DEVICE_CPU) (c2 : T2.device.type = DEVICE_CPU) (s1 : T1.dims = [])
    (s2 : T2.dims = [1]) (hfp : E.fp.trunc64 (E.fp.ofInt64 9007199254740993) = some 9007199254740992) (out : Ptr) :
    DeliversMalloc E (dot R1.h R2.h out) m out .i64 T1.device T2.dims [.int 9007199254740992] ∧
    ¬ OpResult E.fp .i64 .mul (.int 9007199254740993) (.int 1) (.int 9007199254740992) := by
  refine ⟨C34_scalar_left_partial wf h1 he1 h2 he2 c1 c2 (s := .int 9007199254740993) (v := .int 9007199254740992) (zs := [.int 9007199254740992]) rfl s1
    ⟨_, rfl, ⟨_, rfl, hfp, _, _, rfl, by omega, by omega⟩⟩ (by simp [s2, prod]) rfl ?_ out, ?_⟩
  · intro i h1 h2
    obtain rfl : i = 0 := by simp at h1; omega
    exact ⟨_, _, rfl, rfl, rfl, _, _, rfl, by omega, by omega⟩
  · rintro ⟨e, r, h, he, hr, -⟩
    injection h with h
    have he : e = 9007199254740993 * 1 := he
    omega

/-- Status and whether the output was set. -/
def Res.gives (r : Res (Status × Ptr)) (st : Status) : Bool :=
  match r with
  | .ok (s, .blk _) _ => s == st
  | _ => false

/-- C34, violated: with an inner dim 0 the sums are empty, but the call on a tensor and a vector reports
`STATUS_INVALID_ARGUMENT`, after having set the output. -/
theorem C34_empty_inner_violated :
    ∃ (m : Mem) (R1 R2 : Foot) (T1 T2 : TV), m.WF ∧ At m R1 T1 ∧ Elems T1 .i8 [] ∧ At m R2 T2 ∧ Elems T2 .i8 [] ∧
      T1.dims = [2, 0] ∧ T2.dims = [0] ∧ okEnv.NoFail ∧ (dot R1.h R2.h .indet okEnv m).gives .invalidArgument = true :=
  ⟨(Mem.empty.addT (tvOf .i8 [2, 0] [])).addT (tvOf .i8 [0] []), Mem.empty.footT, (Mem.empty.addT (tvOf .i8 [2, 0] [])).footT,
    tvOf .i8 [2, 0] [], tvOf .i8 [0] [], Mem.addT_wf (Mem.addT_wf Mem.empty_wf _) _,
    addT_old (Mem.addT_wf Mem.empty_wf _) (tvOf_at _ (by simp) rfl ⟨by decide, by decide⟩) _, tvOf_elems (by decide) rfl,
    tvOf_at _ (by simp) rfl ⟨by decide, by decide⟩, tvOf_elems (by decide) rfl, rfl, rfl, okEnv_noFail, by decide +kernel⟩

/-- C34, violated: with an inner dim 0 the call on two tensors divides by zero. -/
theorem C34_empty_inner_division_violated :
    ∃ (m : Mem) (R1 R2 : Foot) (T1 T2 : TV), m.WF ∧ At m R1 T1 ∧ Elems T1 .i8 [] ∧ At m R2 T2 ∧ Elems T2 .i8 [] ∧
      T1.dims = [1, 1, 0] ∧ T2.dims = [1, 0, 1] ∧ okEnv.NoFail ∧ dot R1.h R2.h .indet okEnv m = .ub .divZero :=
  ⟨(Mem.empty.addT (tvOf .i8 [1, 1, 0] [])).addT (tvOf .i8 [1, 0, 1] []), Mem.empty.footT, (Mem.empty.addT (tvOf .i8 [1, 1, 0] [])).footT,
    tvOf .i8 [1, 1, 0] [], tvOf .i8 [1, 0, 1] [], Mem.addT_wf (Mem.addT_wf Mem.empty_wf _) _,
    addT_old (Mem.addT_wf Mem.empty_wf _) (tvOf_at _ (by simp) rfl ⟨by decide, by decide⟩) _, tvOf_elems (by decide) rfl,
    tvOf_at _ (by simp) rfl ⟨by decide, by decide⟩, tvOf_elems (by decide) rfl, rfl, rfl, okEnv_noFail, Res.ubIs_iff.1 (by decide +kernel)⟩

end Aitisa
