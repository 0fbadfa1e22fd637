import Verif.Proof.DotTop
import Verif.Proof.MatmulTT
import Verif.Proof.MatmulTV
import Verif.Proof.BatchNorm7
import Verif.Proof.Unknown

/-!
# Unknown dtype codes: dot, batched matmul, batch normalisation
-/

namespace Aitisa

variable {E : Env} {m m1 : Mem} {R R1 R2 : Foot} {T T1 T2 : TV}

theorem vecGet_unknown {a b : List Nat} {i K : Nat} (nf : E.NoFail) (wf : m.WF) (h : At m R T) (hc : 10 ≤ T.dtype.code) (hs : T.dims = a ++ K :: b)
    (hi : i < prod a * prod b) (hn : prod a * prod b ≤ 2147483647) (h0 : 0 < K) (hK : K ≤ 2147483647) :
    ∃ (R' : Foot) (m' : Mem), (vecsOf R.h (ints T.dims) a.length).get (ints (vecIdx a b i)) E m = .ok (.notSupported, R'.h) m' ∧
      Frame m m' ∧ m'.WF := by
  have hb : 0 < prod b := by
    rcases Nat.eq_zero_or_pos (prod b) with h | h
    · rw [h] at hi; omega
    · exact h
  have hp := unlin_inRange (ds := a) (i := i / prod b) (by rw [Nat.div_lt_iff_lt_mul hb]; exact hi)
  have hq := unlin_inRange (ds := b) (i := i % prod b) (Nat.mod_lt _ hb)
  have ha : 0 < prod a := by have := lin_lt hp; omega
  have lpa : prod a ≤ prod a * prod b := Nat.le_mul_of_pos_right _ hb
  have lpb : prod b ≤ prod a * prod b := Nat.le_mul_of_pos_left _ ha
  have H := slice_unknown (E := E) (ax := lineAx (unlin a (i / prod b)) K (unlin b (i % prod b))) nf wf h hc (by rw [hs]; simp)
    (by rw [hs]; exact lineAx_fits hp hq h0) (by
      intro x hx
      simp only [lineAx, dropAx, List.mem_append, List.mem_cons, List.mem_map] at hx
      rcases hx with ⟨y, hy, rfl⟩ | rfl | ⟨y, hy, rfl⟩
      · have := inRange_lt hp y hy; simp; omega
      · simp; omega
      · have := inRange_lt hq y hy; simp; omega) .indet
  rw [hs, vecsOf_eq _ _ _ hK]
  unfold Vecs.get
  rw [of_ints, of_ints, of_ints]
  have e2 : bgs (lineAx (unlin a (i / prod b)) K (unlin b (i % prod b))) = dimsCells (vecIdx a b i) := by
    simp [bgs, lineAx, vecIdx, dropAx, Function.comp_def]
  have la : (unlin a (i / prod b)).length = a.length := unlin_length ..
  have lb : (unlin b (i % prod b)).length = b.length := unlin_length ..
  have e3 : szs (lineAx (unlin a (i / prod b)) K (unlin b (i % prod b))) = dimsCells (a.map (fun _ => 0) ++ K :: b.map fun _ => 0) := by
    simp [szs, lineAx, dropAx, Function.comp_def, la, lb, List.map_const']
  have e4 : sts (lineAx (unlin a (i / prod b)) K (unlin b (i % prod b))) = dimsCells ((a ++ K :: b).map fun _ => 1) := by
    simp [sts, lineAx, dropAx, Function.comp_def, la, lb, List.map_const']
  rw [← e2, ← e3, ← e4]
  exact H

/-- A loop that leaves at its first iteration. -/
theorem loopE_first {σ ρ : Type} {f : Nat → σ → M (σ ⊕ ρ)} {n : Nat} {s : σ} {r : ρ} {m' : Mem} (hn : 0 < n) (e : f 0 s E m = .ok (.inr r) m') :
    loopE f n 0 s E m = .ok (.inr r) m' := by
  obtain ⟨n, rfl⟩ : ∃ k, n = k + 1 := ⟨n - 1, by omega⟩
  unfold loopE
  msimp [e]

theorem tvDot_unknown {bs : List Nat} {K : Nat} (nf : E.NoFail) (wf : m.WF) (h1 : At m R1 T1) (h2 : At m R2 T2) (hc : 10 ≤ T1.dtype.code)
    (s1 : T1.dims = bs ++ [K]) (s2 : T2.dims = [K]) (hK : K ≤ 2147483647) (hn : prod bs ≤ 2147483647) (hp : 0 < prod bs) (h0 : 0 < K)
    (out : Ptr) : ∃ o m', tvDot R1.h R2.h out E m = .ok (.notSupported, o) m' ∧ Frame m m' ∧ m'.WF := by
  have hlen : T1.dims.length = bs.length + 1 := by rw [s1]; simp
  have r1 : (dimsCells T1.dims).rd (((bs.length + 1 : Nat) : Int) - 1) E m = .ok (K : Int) m := by
    rw [show ((bs.length + 1 : Nat) : Int) - 1 = ((bs.length : Nat) : Int) by omega, rd_dims (by omega)]
    simp [s1]
  have r2 : (dimsCells T2.dims).rd 0 E m = .ok (K : Int) m := by
    have := rd_dims (E := E) (m := m) (ds := T2.dims) (i := 0) (by simp [s2])
    rw [show ((0 : Nat) : Int) = 0 from rfl] at this
    rw [this]; simp [s2]
  have r3 : rdAll (dimsCells T1.dims) (((bs.length + 1 : Nat) : Int) - 1).toNat E m = .ok (ints bs) m := by
    rw [show (((bs.length + 1 : Nat) : Int) - 1).toNat = bs.length by omega, rdAll_prefix _ (by omega), s1]
    simp
  have hs : ShapeOK bs T1.dtype.size := by
    refine ⟨Nat.le_trans (Nat.mul_le_mul_right _ ?_) h1.shape.fits, by have := h1.shape.rank; omega⟩
    rw [s1, prodMax_append]; exact Nat.le_mul_of_pos_right _ (prodMax_pos _)
  rcases dotCreate_run (E := E) wf h1 hs out with ⟨R, ma, e, P⟩ | ⟨m', e, f, wf', nf'⟩
  swap
  · exact absurd nf nf'
  obtain ⟨pA, mA, KA, eA, HA, tA, kA, nA, fA⟩ := P.holds.scratch (E := E) ((bs.length + 1 : Nat) : Int) 4
  obtain ⟨pB, mB, KB, eB, HB, tB, kB, nB, fB⟩ := HA.scratch (E := E) ((bs.length + 1 : Nat) : Int) 4
  obtain ⟨pC, mC, KC, eC, HC, tC, kC, nC, fC⟩ := HB.scratch (E := E) ((bs.length + 1 : Nat) : Int) 4
  have hnull : ¬ (pA = .null ∨ pB = .null ∨ pC = .null) := by
    rintro (h | h | h)
    · exact nA h nf
    · exact nB h nf
    · exact nC h nf
  have g1 := h1.frame wf HC.ext.toFrame
  have hpm : prodMax T1.dims ≤ 9223372036854775807 := h1.shape.prodMax_le
  have hrank : bs.length ≤ 2147483647 := by have := h1.shape.rank; omega
  have hsz : sizeToDim (((bs.length + 1 : Nat) : Int) - 1) (dimsCells T1.dims) E mC = .ok ((prod bs : Nat) : Int) mC := by
    rw [show ((bs.length + 1 : Nat) : Int) - 1 = (bs.length : Int) by omega]
    exact sizeToDim_run (fun hk => dimsCells_prefix s1 hk) hrank (by
      rw [s1, prodMax_append] at hpm; exact Nat.le_trans (Nat.le_mul_of_pos_right _ (prodMax_pos _)) hpm)
  have hrd : rdAll (dimsCells T1.dims) (((bs.length + 1 : Nat) : Int)).toNat E mC = .ok (ints T1.dims) mC := by
    rw [Int.toNat_natCast, ← hlen]; exact rdAll_dims _
  have hp1 : prod bs * prod ([] : List Nat) = prod bs := by simp [prod]
  obtain ⟨Rx, mx, ex, fx, wx⟩ := vecGet_unknown (a := bs) (b := []) (i := 0) (K := K) nf HC.ext.wf g1 hc s1 (by omega) (by omega) h0 hK
  have hz : (ints T1.dims).map (fun _ => (0 : Int)) = ints (vecIdx bs [] 0) := by rw [s1, ← vecIdx_zero]
  have hl : loopE (fun (i : Nat) (idx : List Int) => dotStep (vecsOf R1.h (ints T1.dims) bs.length)
      (fun v => dotCell v R2.h (.blk R.p) T1.dtype.size (i32 ((i : Int) * T1.dtype.size))) idx) (prod bs) 0
      ((ints T1.dims).map fun _ => (0 : Int)) E mC = .ok (.inr .notSupported) mx := by
    refine loopE_first hp ?_
    unfold dotStep
    rw [hz]
    msimp [ex]
  refine ⟨R.h, mx, ?_, HC.ext.toFrame.trans fx, wx⟩
  unfold tvDot tvFill
  msimp [h1.tNdim, hlen, h1.tDimsArr, h2.tDimsArr, r1, r2, r3, e, eA, eB, eC, hnull, hrd, hsz, HC.tensor.tData, HC.tensor.tDtype, run_forI32E hn]
  rw [show (((bs.length + 1 : Nat) : Int) - 1).toNat = bs.length by omega, hl]
  rfl

theorem mdDot_unknown {b1 b2 : List Nat} {K l : Nat} (nf : E.NoFail) (wf : m.WF) (h1 : At m R1 T1) (h2 : At m R2 T2) (hc : 10 ≤ T1.dtype.code)
    (s1 : T1.dims = b1 ++ [K]) (s2 : T2.dims = b2 ++ [K, l]) (hs : ShapeOK (b1 ++ b2 ++ [l]) T1.dtype.size) (h0 : 0 < K) (hK : K ≤ 2147483647)
    (hn1 : prod b1 ≤ 2147483647) (hp : 0 < prod b1) (out : Ptr) :
    ∃ o m', mdDot R1.h R2.h out E m = .ok (.notSupported, o) m' ∧ Frame m m' ∧ m'.WF := by
  have hlen1 : T1.dims.length = b1.length + 1 := by rw [s1]; simp
  have hlen2 : T2.dims.length = b2.length + 2 := by rw [s2]; simp
  have r1 : (dimsCells T1.dims).rd (((b1.length + 1 : Nat) : Int) - 1) E m = .ok (K : Int) m := by
    rw [show ((b1.length + 1 : Nat) : Int) - 1 = ((b1.length : Nat) : Int) by omega, rd_dims (by omega)]
    simp [s1]
  have r2 : (dimsCells T2.dims).rd (((b2.length + 2 : Nat) : Int) - 2) E m = .ok (K : Int) m := by
    rw [show ((b2.length + 2 : Nat) : Int) - 2 = ((b2.length : Nat) : Int) by omega, rd_dims (by omega)]
    simp [s2]
  have r3 : rdAll (dimsCells T1.dims) (((b1.length + 1 : Nat) : Int) - 1).toNat E m = .ok (ints b1) m := by
    rw [show (((b1.length + 1 : Nat) : Int) - 1).toNat = b1.length by omega, rdAll_prefix _ (by omega), s1]
    simp
  have r4 : rdAll (dimsCells T2.dims) (((b2.length + 2 : Nat) : Int) - 2).toNat E m = .ok (ints b2) m := by
    rw [show (((b2.length + 2 : Nat) : Int) - 2).toNat = b2.length by omega, rdAll_prefix _ (by omega), s2]
    simp
  have r5 : (dimsCells T2.dims).rd (((b2.length + 2 : Nat) : Int) - 1) E m = .ok (l : Int) m := by
    rw [show ((b2.length + 2 : Nat) : Int) - 1 = ((b2.length + 1 : Nat) : Int) by omega, rd_dims (by omega)]
    simp [s2]
  have hcr := dotCreate_run (E := E) wf h1 hs out
  rw [show ints (b1 ++ b2 ++ [l]) = ints b1 ++ ints b2 ++ [(l : Int)] by simp] at hcr
  rcases hcr with ⟨R, ma, e, P⟩ | ⟨m', e, f, wf', nf'⟩
  swap
  · exact absurd nf nf'
  obtain ⟨pA, mA, KA, eA, HA, tA, kA, nA, fA⟩ := P.holds.scratch (E := E) ((b1.length + 1 : Nat) : Int) 4
  obtain ⟨pB, mB, KB, eB, HB, tB, kB, nB, fB⟩ := HA.scratch (E := E) ((b2.length + 2 : Nat) : Int) 4
  obtain ⟨pC, mC, KC, eC, HC, tC, kC, nC, fC⟩ := HB.scratch (E := E) ((b1.length + 1 : Nat) : Int) 4
  obtain ⟨pD, mD, KD, eD, HD, tD, kD, nD, fD⟩ := HC.scratch (E := E) ((b2.length + 2 : Nat) : Int) 4
  obtain ⟨pE, mE, KE, eE, HE, tE, kE, nE, fE⟩ := HD.scratch (E := E) ((b1.length + 1 : Nat) : Int) 4
  obtain ⟨pF, mF, KF, eF, HF, tF, kF, nF, fF⟩ := HE.scratch (E := E) ((b2.length + 2 : Nat) : Int) 4
  have hnull : ¬ (pA = .null ∨ pB = .null ∨ pC = .null ∨ pD = .null ∨ pE = .null ∨ pF = .null) := by
    rintro (h | h | h | h | h | h)
    · exact nA h nf
    · exact nB h nf
    · exact nC h nf
    · exact nD h nf
    · exact nE h nf
    · exact nF h nf
  have g1 := h1.frame wf HF.ext.toFrame
  have hpm : prodMax T1.dims ≤ 9223372036854775807 := h1.shape.prodMax_le
  have hrank : b1.length ≤ 2147483647 := by have := h1.shape.rank; omega
  have hsz : sizeToDim (((b1.length + 1 : Nat) : Int) - 1) (dimsCells T1.dims) E mF = .ok ((prod b1 : Nat) : Int) mF := by
    rw [show ((b1.length + 1 : Nat) : Int) - 1 = (b1.length : Int) by omega]
    exact sizeToDim_run (fun hk => dimsCells_prefix s1 hk) hrank (by
      rw [s1, prodMax_append] at hpm; exact Nat.le_trans (Nat.le_mul_of_pos_right _ (prodMax_pos _)) hpm)
  have hrd1 : rdAll (dimsCells T1.dims) (((b1.length + 1 : Nat) : Int)).toNat E mF = .ok (ints T1.dims) mF := by
    rw [Int.toNat_natCast, ← hlen1]; exact rdAll_dims _
  have hrd2 : rdAll (dimsCells T2.dims) (((b2.length + 2 : Nat) : Int)).toNat E mF = .ok (ints T2.dims) mF := by
    rw [Int.toNat_natCast, ← hlen2]; exact rdAll_dims _
  obtain ⟨nv2, hcount⟩ : ∃ nv2, mdCount (dimsCells T2.dims) ((b2.length + 2 : Nat) : Int) E mF = .ok nv2 mF := by
    unfold mdCount
    have hso := sizeOfDims_run (ds := T2.dims) h2.shape.rank (fun k _ => h2.shape.prefix k) E mF
    have hr : (dimsCells T2.dims).rd (((b2.length + 2 : Nat) : Int) - 2) E mF = .ok (K : Int) mF := by
      rw [show ((b2.length + 2 : Nat) : Int) - 2 = ((b2.length : Nat) : Int) by omega, rd_dims (by omega)]
      simp [s2]
    rw [hlen2] at hso
    msimp [hso, hr]
    rw [if_neg (by omega)]
    exact ⟨_, rfl⟩
  have hp1 : prod b1 * prod ([] : List Nat) = prod b1 := by simp [prod]
  obtain ⟨Rx, mx, ex, fx, wx⟩ := vecGet_unknown (a := b1) (b := []) (i := 0) (K := K) nf HF.ext.wf g1 hc s1 (by omega) (by omega) h0 hK
  have hz : (ints T1.dims).map (fun _ => (0 : Int)) = ints (vecIdx b1 [] 0) := by rw [s1, ← vecIdx_zero]
  have hl : loopE (mdRow (vecsOf R1.h (ints T1.dims) b1.length) (vecsOf R2.h (ints T2.dims) b2.length) (.blk R.p) T1.dtype.size nv2) (prod b1) 0
      ((ints T1.dims).map fun _ => (0 : Int), (ints T2.dims).map fun _ => (0 : Int)) E mF = .ok (.inr .notSupported) mx := by
    refine loopE_first hp ?_
    unfold mdRow
    rw [hz]
    msimp [ex]
  refine ⟨R.h, mx, ?_, HF.ext.toFrame.trans fx, wx⟩
  unfold mdDot mdFill
  msimp [h1.tNdim, h2.tNdim, hlen1, hlen2, h1.tDimsArr, h2.tDimsArr, r1, r2, r3, r4, r5, e, eA, eB, eC, eD, eE, eF, hnull, hrd1, hrd2, hsz, hcount,
    HF.tensor.tData, HF.tensor.tDtype, run_forI32E hn1]
  rw [show (((b1.length + 1 : Nat) : Int) - 1).toNat = b1.length by omega, show (((b2.length + 2 : Nat) : Int) - 2).toNat = b2.length by omega, hl]
  rfl

/-! ### Batched matmul -/

section
variable {b1 b2 bd : List Nat} {nM nK nN : Nat} (nf : E.NoFail) (wf : m.WF) (h1 : At m R1 T1) (h2 : At m R2 T2) (hc : 10 ≤ T1.dtype.code)
  (c1 : T1.device.type = DEVICE_CPU) (c2 : T2.device.type = DEVICE_CPU)
include nf wf h1 h2 hc c1 c2

theorem matTV_unknown (hb : b1 ≠ []) (s1 : T1.dims = b1 ++ [nM, nK]) (s2 : T2.dims = [nK]) (hs : ShapeOK (b1 ++ [nM]) T1.dtype.size) (out : Ptr) :
    matmul R1.h R2.h out E m = .ub .outOfBounds := by
  have hb0 := List.length_pos_iff.2 hb
  have l1 : T1.dims.length = b1.length + 2 := by simp [s1]
  have hr := h1.shape.rank
  rw [matmul_tv h1 h2 c1 c2 (by omega) (by simp [s2]), l1]
  have d1 := h1.dimI (E := E) (k := ((b1.length + 2 : Nat) : Int) - 2) (i := b1.length) (d := nM) (by omega) (by simp [s1])
  have d2 := h1.dimI (E := E) (k := ((b1.length + 2 : Nat) : Int) - 1) (i := b1.length + 1) (d := nK) (by omega) (by simp [s1])
  have d3 := h2.dimI (E := E) (k := 0) (i := 0) (d := nK) rfl (by simp [s2])
  have ee : ((b1.length + 2 : Nat) : Int) - 1 = ((b1.length + 1 : Nat) : Int) := by omega
  have ee2 : ((b1.length + 2 : Nat) : Int) - 2 = (b1.length : Int) := by omega
  rcases scratch_touch (n := b1.length + 1) (by omega) E m with ⟨b, e1, t1⟩ | ⟨e1, nf'⟩
  swap
  · exact absurd nf nf'
  have g1 := h1.frame wf ((Ext.refl wf).push b).toFrame
  have rda : rdAll (dimsCells T1.dims) (b1.length + 1) E (m.push b) = .ok (ints (b1 ++ [nM])) (m.push b) := by
    rw [rdAll_prefix _ (by omega), s1]
    congr 2
    rw [List.take_append, List.take_of_length_le (by omega)]; simp
  have hfull := matFull_unknown nf (wf.push b) g1 hc hs out
  rw [List.length_append, List.length_singleton] at hfull
  unfold matTV
  rw [ee2] at d1
  rw [ee] at d2
  rw [ee, ee2]
  msimp [d1, d2, d3, e1, t1, g1.tDimsArr, Int.toNat_natCast, rda, of_ints, hfull]

theorem matVT_unknown (hb : b2 ≠ []) (s1 : T1.dims = [nK]) (s2 : T2.dims = b2 ++ [nK, nN]) (hs : ShapeOK (b2 ++ [nN]) T1.dtype.size) (out : Ptr) :
    matmul R1.h R2.h out E m = .ub .outOfBounds := by
  have hb0 := List.length_pos_iff.2 hb
  have l2 : T2.dims.length = b2.length + 2 := by simp [s2]
  have hr := h2.shape.rank
  rw [matmul_vt h1 h2 c1 c2 (by simp [s1]) (by omega), l2]
  have d1 := h2.dimI (E := E) (k := ((b2.length + 2 : Nat) : Int) - 2) (i := b2.length) (d := nK) (by omega) (by simp [s2])
  have d2 := h2.dimI (E := E) (k := ((b2.length + 2 : Nat) : Int) - 1) (i := b2.length + 1) (d := nN) (by omega) (by simp [s2])
  have d3 := h1.dimI (E := E) (k := 0) (i := 0) (d := nK) rfl (by simp [s1])
  have ee : ((b2.length + 2 : Nat) : Int) - 1 = ((b2.length + 1 : Nat) : Int) := by omega
  have ee2 : ((b2.length + 2 : Nat) : Int) - 2 = (b2.length : Int) := by omega
  rcases scratch_touch (n := b2.length + 1) (by omega) E m with ⟨b, e1, t1⟩ | ⟨e1, nf'⟩
  swap
  · exact absurd nf nf'
  have g1 := h1.frame wf ((Ext.refl wf).push b).toFrame
  have g2 := h2.frame wf ((Ext.refl wf).push b).toFrame
  have rda : rdAll (dimsCells T2.dims) b2.length E (m.push b) = .ok (ints b2) (m.push b) := by
    rw [rdAll_prefix _ (by omega), s2, List.take_left]
  have hof : Arr.of (ints b2 ++ [(nN : Int)]) = dimsCells (b2 ++ [nN]) := by rw [← of_ints]; simp [ints]
  have hfull := matFull_unknown nf (wf.push b) g1 hc hs out
  rw [List.length_append, List.length_singleton] at hfull
  unfold matVT
  rw [ee2] at d1
  rw [ee] at d2
  rw [ee, ee2]
  msimp [d1, d2, d3, e1, t1, g2.tDimsArr, Int.toNat_natCast, rda, hof, hfull]

theorem matTT_unknown (s1 : T1.dims = b1 ++ [nM, nK]) (s2 : T2.dims = b2 ++ [nK, nN]) (hbc : Broadcasts b1 b2 bd)
    (hl : bd.length = max b1.length b2.length) (hp : 0 < bd.length) (hs : ShapeOK (bd ++ [nM, nN]) T1.dtype.size) (out : Ptr) :
    matmul R1.h R2.h out E m = .ub .outOfBounds := by
  have l1 : T1.dims.length = b1.length + 2 := by simp [s1]
  have l2 : T2.dims.length = b2.length + 2 := by simp [s2]
  have hr := hs.rank
  rw [List.length_append, show ([nM, nN] : List Nat).length = 2 from rfl] at hr
  rw [matmul_tt h1 h2 c1 c2 (by omega) (by omega) (by omega), l1, l2]
  have d1 := h1.dimI (E := E) (k := ((b1.length + 2 : Nat) : Int) - 2) (i := b1.length) (d := nM) (by omega) (by simp [s1])
  have d2 := h1.dimI (E := E) (k := ((b1.length + 2 : Nat) : Int) - 1) (i := b1.length + 1) (d := nK) (by omega) (by simp [s1])
  have d3 := h2.dimI (E := E) (k := ((b2.length + 2 : Nat) : Int) - 2) (i := b2.length) (d := nK) (by omega) (by simp [s2])
  have d4 := h2.dimI (E := E) (k := ((b2.length + 2 : Nat) : Int) - 1) (i := b2.length + 1) (d := nN) (by omega) (by simp [s2])
  have em : max ((b1.length + 2 : Nat) : Int) ((b2.length + 2 : Nat) : Int) = ((bd.length + 2 : Nat) : Int) := by omega
  have em2 : ((bd.length + 2 : Nat) : Int) - 2 = (bd.length : Int) := by omega
  have ex1 : max (((b1.length + 2 : Nat) : Int) - 2) 0 = (b1.length : Int) := by omega
  have ex2 : max (((b2.length + 2 : Nat) : Int) - 2) 0 = (b2.length : Int) := by omega
  have ebc : ∀ m', broadcastArray (dimsCells T1.dims) b1.length (dimsCells T2.dims) b2.length (List.replicate bd.length none) bd.length E m' =
      .ok (.success, dimsCells bd) m' := by
    intro m'
    obtain ⟨c', hc', e⟩ := broadcastArray_run (E := E) (m := m') (a := b1) (b := b2) (d1 := dimsCells T1.dims) (d2 := dimsCells T2.dims)
      (buf := List.replicate bd.length none) (fun hk => dimsCells_prefix s1 hk) (fun hk => dimsCells_prefix s2 hk) (by simp [hl]) hbc.1
    rw [List.length_replicate] at e
    rw [e, Broadcasts.unique hc' hbc]
  rcases scratch_touch (n := bd.length + 2) (by omega) E m with ⟨b, e1, t1⟩ | ⟨e1, nf'⟩
  swap
  · exact absurd nf nf'
  have g1 := h1.frame wf ((Ext.refl wf).push b).toFrame
  have g2 := h2.frame wf ((Ext.refl wf).push b).toFrame
  have hcells : dimsCells bd ++ [some (nM : Int), some (nN : Int)] = dimsCells (bd ++ [nM, nN]) := by simp [dimsCells]
  have hfull := matFull_unknown nf (wf.push b) g1 hc hs out
  rw [List.length_append, show ([nM, nN] : List Nat).length = 2 from rfl] at hfull
  unfold matTT
  rw [em, em2, cells_nat (by omega), ex1, ex2]
  msimp [d1, d2, d3, d4, e1, t1, g1.tDimsArr, g2.tDimsArr, ebc, hcells, hfull]

end

/-! ### Batch normalisation -/

theorem batchNorm_unknown {Rs Rb Rm Rv : Foot} {Va : TV} {axis : Int} {eps : BitVec 64} {pre post : List Nat} {d C : Nat} (nf : E.NoFail) (wf : m.WF)
    (h : At m R T) (hv : At m Rv Va) (hc : 10 ≤ T.dtype.code) (hck : bnCheck R.h axis Rs.h Rb.h Rm.h Rv.h eps E m = .ok .success m)
    (hds : T.dims = d :: (pre ++ C :: post)) (hax : pre = [] ∨ post = []) (ha : axis = ((1 + pre.length : Nat) : Int)) (hr : T.dims.length ≤ 5)
    (hs : ShapeOK Va.dims T.dtype.size) (out : Ptr) :
    batchNorm R.h axis Rs.h Rb.h Rm.h Rv.h eps out E m = .ub .outOfBounds := by
  rcases create_run (E := E) wf T.dtype T.device h.shape 0 .indet with ⟨Ro, m1, e, P⟩ | ⟨m', e, f, w, nf'⟩
  swap
  · exact absurd nf nf'
  have hcr : bnCreate R.h out E m = .ok (.success, Ro.h) m1 := by
    unfold bnCreate
    msimp [h.tDimsArr, h.tNdim, h.tDtype, h.tDevice, e]
  have g := h.frame wf P.frame
  have gv := hv.frame wf P.frame
  unfold batchNorm
  msimp [hck, hcr]
  suffices hm : bnMain R.h axis Rs.h Rb.h Rm.h Rv.h eps Ro.h E m1 = .ub .outOfBounds by rw [hm]; rfl
  unfold bnMain
  have hl : T.dims.length = 2 + pre.length + post.length := by rw [hds]; simp; omega
  msimp [g.tNdim]
  by_cases h2 : T.dims.length = 2
  · rw [if_pos (by omega)]
    unfold bnDenom orRet
    msimp [g.tDtype, g.tDevice, gv.tDimsArr, gv.tNdim, full_unknown nf P.wf hc T.device hs eps .indet]
  · rw [if_neg (by omega), if_pos (by omega)]
    subst ha
    obtain ⟨n, hn⟩ : ∃ n, n = T.dims.length := ⟨_, rfl⟩
    have hg : T.dims[1 + pre.length]? = some C := by
      rw [hds, Nat.add_comm, List.getElem?_cons_succ, List.getElem?_append_right (Nat.le_refl _), Nat.sub_self]; rfl
    have hD : tDim R.h ((1 + pre.length : Nat) : Int) E m1 = .ok (C : Int) m1 := g.dimI rfl hg
    obtain ⟨pp, Kp, mp, ep, Pp, np, _⟩ := (Pool.nil P.wf).scratch (E := E) ((n : Int) - 2) 8
    have hp : pp ≠ .null := fun h => np h nf
    have hz : toSizeT ((8 : Nat) * ((n : Int) - 2)) = 8 * (n - 2) := by
      have := toSizeT_nat (n := 8 * (n - 2)) (by omega)
      rw [← this]; congr 1; omega
    rw [hz] at Pp
    have t := (Pp.temp (p := pp) (K := Kp) (n := 8 * (n - 2)) (by simp)).touch (E := E) hp (lo := 0) (hi := 8 * ((n : Int) - 2)) (by omega) (by omega)
    have hrd : rdAll (dimsCells T.dims) n E mp = .ok (ints T.dims) mp := by rw [hn]; exact rdAll_dims _
    have hs' := h.shape
    rw [hds] at hs'
    have hfull := full_unknown (E := E) nf Pp.ext.wf hc T.device hs'.params eps .indet
    unfold bnParams
    msimp [g.tNdim, g.tDtype, g.tDevice, g.tDimsArr, hD, ← hn, ep, hp, t]
    rw [Int.toNat_natCast]
    msimp [hrd]
    rw [hds, paramDims_eq hax]
    unfold bnParamsMain orRet
    rw [of_ints]
    have hil : (ints (pre ++ post)).length = (pre ++ post).length := by simp
    rw [hil]
    msimp [hfull]

end Aitisa
