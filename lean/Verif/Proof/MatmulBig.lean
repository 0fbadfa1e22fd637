import Verif.Proof.MatmulTT

/-! # Matrix products with more than `INT_MAX` elements

`aitisa_full`, which creates the output, counts its elements with an `int`. -/

namespace Aitisa

variable {E : Env} {m m' : Mem} {R R1 R2 : Foot} {T1 T2 : TV} {c : Code} {xs ys : List Val} {out : Ptr} {ds bd b1 b2 bs : List Nat} {z : Val}

/-- An allocation failure, reported or not, or an integer overflow. -/
def TooBig (E : Env) (x : M (Status × Ptr)) (m : Mem) (out : Ptr) : Prop :=
  (∃ m', x E m = .ok (.allocFailed, out) m' ∧ Frame m m' ∧ m'.WF ∧ ¬ E.NoFail) ∨ (¬ E.NoFail ∧ x E m = .ub .nullDeref) ∨ x E m = .ub .overflow

theorem TooBig.safe {x : M (Status × Ptr)} (h : TooBig E x m out) (wz : z.WT c) (dev : Device) (ds : List Nat) :
    SafeProduct E x m out c dev ds := by
  rcases h with h | h | h
  · exact .inl ⟨List.replicate (prod ds) z, .inl ⟨.inr h, by intro v hv; rw [(List.mem_replicate.1 hv).2]; exact wz, by simp⟩⟩
  · exact .inl ⟨[], .inr h⟩
  · exact .inr h

theorem TooBig.overflow {x : M (Status × Ptr)} (h : TooBig E x m out) (nf : E.NoFail) : x E m = .ub .overflow := by
  rcases h with ⟨_, _, _, _, h⟩ | ⟨h, _⟩ | h
  · exact absurd nf h
  · exact absurd nf h
  · exact h

theorem matFull_big (wf : m.WF) (h1 : At m R1 T1) (hd : T1.dtype = c.dtype) (hs : ShapeOK ds c.size) (hi : 2147483647 < prod ds)
    (hz : ZeroOf E.fp c z) (out : Ptr) :
    (∃ m', matFull R1.h (dimsCells ds) ds.length out E m = .ok (.allocFailed, out) m' ∧ Frame m m' ∧ m'.WF ∧ ¬ E.NoFail) ∨
      matFull R1.h (dimsCells ds) ds.length out E m = .ub .overflow := by
  have hcr := create_run (E := E) wf c.dtype T1.device (ds := ds) hs 0 .indet
  obtain ⟨rest, hcell⟩ := fullCell_ok (converts_iff.1 hz)
  unfold Creates at hcr
  unfold matFull full
  rcases hcr with ⟨R', m1, e, P⟩ | ⟨m1, e, fr, wf1, nf'⟩
  · right
    have htab : tableCode c.dtype = pure c := by unfold tableCode; rw [find_dtype]
    have h32 : ¬ ((prod ds : Int) ≤ I32_MAX) := by unfold I32_MAX; omega
    msimp [h1.tDtype, h1.tDevice, hd, e, P.tensor.tSize, htab, hcell, forI32, h32]
  · left
    refine ⟨m1, ?_, fr, wf1, nf'⟩
    msimp [h1.tDtype, h1.tDevice, hd, e]

section
variable (wf : m.WF) (h1 : At m R1 T1) (he1 : Elems T1 c xs) (h2 : At m R2 T2)
  (c1 : T1.device.type = DEVICE_CPU) (c2 : T2.device.type = DEVICE_CPU) (hz : ZeroOf E.fp c z) {nM nK nN : Nat}
include wf h1 he1 hz

theorem matPlain_big (hs : ShapeOK ds c.size) (hi : 2147483647 < prod ds) (k : Code → Ptr → Ptr → Ptr → M Unit) :
    TooBig E (matPlain R1.h R2.h (dimsCells ds) ds.length out k) m out := by
  rcases matFull_big (E := E) wf h1 he1.dtype hs hi hz out with ⟨m', e, fr⟩ | e
  · left
    refine ⟨m', ?_, fr⟩
    unfold matPlain
    msimp [e]
  · right; right
    unfold matPlain
    msimp [e]

include h2 c1 c2

theorem matMV_big (s1 : T1.dims = [nM, nK]) (s2 : T2.dims = [nK]) (hs : ShapeOK [nM] c.size) (hi : 2147483647 < prod [nM]) :
    TooBig E (matmul R1.h R2.h out) m out := by
  have e : matmul R1.h R2.h out E m =
      matPlain R1.h R2.h (dimsCells [nM]) ([nM] : List Nat).length out (fun c ap bp cp => mvKernel c ap bp cp nM nK) E m := by
    rw [matmul_mv h1 h2 c1 c2 (by simp [s1]) (by simp [s2])]
    unfold matMV
    msimp [h1.dimI (k := 0) (i := 0) (d := nM) rfl (by simp [s1]), h1.dimI (k := 1) (i := 1) (d := nK) rfl (by simp [s1]),
      h2.dimI (k := 0) (i := 0) (d := nK) rfl (by simp [s2])]
    rfl
  have := matPlain_big (out := out) (R2 := R2) wf h1 he1 hz hs hi (fun c ap bp cp => mvKernel c ap bp cp nM nK)
  unfold TooBig at this ⊢
  rw [e]; exact this

theorem matMM_big (s1 : T1.dims = [nM, nK]) (s2 : T2.dims = [nK, nN]) (hs : ShapeOK [nM, nN] c.size) (hi : 2147483647 < prod [nM, nN]) :
    TooBig E (matmul R1.h R2.h out) m out := by
  have e : matmul R1.h R2.h out E m =
      matPlain R1.h R2.h (dimsCells [nM, nN]) ([nM, nN] : List Nat).length out (fun c ap bp cp => mmKernel c ap bp cp 0 0 0 nM nK nN) E m := by
    rw [matmul_mm h1 h2 c1 c2 (by simp [s1]) (by simp [s2])]
    unfold matMM
    msimp [h1.dimI (k := 0) (i := 0) (d := nM) rfl (by simp [s1]), h1.dimI (k := 1) (i := 1) (d := nK) rfl (by simp [s1]),
      h2.dimI (k := 0) (i := 0) (d := nK) rfl (by simp [s2]), h2.dimI (k := 1) (i := 1) (d := nN) rfl (by simp [s2])]
    rfl
  have := matPlain_big (out := out) (R2 := R2) wf h1 he1 hz hs hi (fun c ap bp cp => mmKernel c ap bp cp 0 0 0 nM nK nN)
  unfold TooBig at this ⊢
  rw [e]; exact this

theorem matVM_big (s1 : T1.dims = [nK]) (s2 : T2.dims = [nK, nN]) (hs : ShapeOK [nN] c.size) (hi : 2147483647 < prod [nN]) :
    TooBig E (matmul R1.h R2.h out) m out := by
  have e : matmul R1.h R2.h out E m =
      matPlain R1.h R2.h (dimsCells [nN]) ([nN] : List Nat).length out (fun c ap bp cp => mmKernel c ap bp cp 0 0 0 1 nK nN) E m := by
    rw [matmul_vm h1 h2 c1 c2 (by simp [s1]) (by simp [s2])]
    unfold matVM
    msimp [h1.dimI (k := 0) (i := 0) (d := nK) rfl (by simp [s1]),
      h2.dimI (k := 0) (i := 0) (d := nK) rfl (by simp [s2]), h2.dimI (k := 1) (i := 1) (d := nN) rfl (by simp [s2])]
    rfl
  have := matPlain_big (out := out) (R2 := R2) wf h1 he1 hz hs hi (fun c ap bp cp => mmKernel c ap bp cp 0 0 0 1 nK nN)
  unfold TooBig at this ⊢
  rw [e]; exact this

theorem matTV_big (s1 : T1.dims = bs ++ [nM, nK]) (hb : bs ≠ []) (s2 : T2.dims = [nK]) (hs : ShapeOK (bs ++ [nM]) c.size)
    (hi : 2147483647 < prod (bs ++ [nM])) : TooBig E (matmul R1.h R2.h out) m out := by
  have hbl : 0 < bs.length := List.length_pos_iff.2 hb
  have hl : T1.dims.length = bs.length + 2 := by simp [s1]
  have hr := h1.shape.rank
  have e0 := matmul_tv (out := out) (E := E) h1 h2 c1 c2 (by omega) (by simp [s2])
  have d1 := h1.dimI (E := E) (k := (bs.length : Int)) (i := bs.length) (d := nM) (by omega) (by simp [s1])
  have d2 := h1.dimI (E := E) (k := ((bs.length + 1 : Nat) : Int)) (i := bs.length + 1) (d := nK) (by omega) (by simp [s1])
  have d3 := h2.dimI (E := E) (k := 0) (i := 0) (d := nK) rfl (by simp [s2])
  have ee : ((bs.length + 2 : Nat) : Int) - 1 = ((bs.length + 1 : Nat) : Int) := by omega
  have ee2 : ((bs.length + 2 : Nat) : Int) - 2 = (bs.length : Int) := by omega
  unfold TooBig
  rcases scratch_touch (n := bs.length + 1) (by omega) E m with ⟨b, e1, t1⟩ | ⟨e1, nf⟩
  · obtain ⟨m1, hm1⟩ : ∃ m1, m1 = m.push b := ⟨_, rfl⟩
    rw [← hm1] at e1 t1
    have wf1 : m1.WF := hm1 ▸ wf.push b
    have x1 : Ext m m1 [m.next] := hm1 ▸ (Ext.refl wf).push b
    have g1 := h1.frame wf x1.toFrame
    have rda : rdAll (dimsCells T1.dims) (bs.length + 1) E m1 = .ok (ints (bs ++ [nM])) m1 := by
      rw [rdAll_prefix _ (by omega), s1]
      congr 2
      rw [List.take_append, List.take_of_length_le (by omega)]; simp
    have hfull := matFull_big (E := E) wf1 g1 he1.dtype hs hi hz out
    rw [List.length_append, List.length_singleton] at hfull
    rcases hfull with ⟨m', e, fr, wf', nf⟩ | e
    · left
      refine ⟨m', ?_, x1.toFrame.trans fr, wf', nf⟩
      rw [e0, hl]
      unfold matTV
      rw [ee, ee2]
      msimp [d1, d2, d3, e1, t1, g1.tDimsArr, Int.toNat_natCast, rda, of_ints, e]
    · right; right
      rw [e0, hl]
      unfold matTV
      rw [ee, ee2]
      msimp [d1, d2, d3, e1, t1, g1.tDimsArr, Int.toNat_natCast, rda, of_ints, e]
  · right; left
    refine ⟨nf, ?_⟩
    rw [e0, hl]
    unfold matTV
    rw [ee, ee2]
    msimp [d1, d2, d3, e1, touch_null]

theorem matVT_big (s1 : T1.dims = [nK]) (s2 : T2.dims = bs ++ [nK, nN]) (hb : bs ≠ []) (hs : ShapeOK (bs ++ [nN]) c.size)
    (hi : 2147483647 < prod (bs ++ [nN])) : TooBig E (matmul R1.h R2.h out) m out := by
  have hbl : 0 < bs.length := List.length_pos_iff.2 hb
  have hl : T2.dims.length = bs.length + 2 := by simp [s2]
  have hr := h2.shape.rank
  have e0 := matmul_vt (out := out) (E := E) h1 h2 c1 c2 (by simp [s1]) (by omega)
  have d1 := h1.dimI (E := E) (k := 0) (i := 0) (d := nK) rfl (by simp [s1])
  have d2 := h2.dimI (E := E) (k := (bs.length : Int)) (i := bs.length) (d := nK) (by omega) (by simp [s2])
  have d3 := h2.dimI (E := E) (k := ((bs.length + 1 : Nat) : Int)) (i := bs.length + 1) (d := nN) (by omega) (by simp [s2])
  have ee : ((bs.length + 2 : Nat) : Int) - 1 = ((bs.length + 1 : Nat) : Int) := by omega
  have ee2 : ((bs.length + 2 : Nat) : Int) - 2 = (bs.length : Int) := by omega
  unfold TooBig
  rcases scratch_touch (n := bs.length + 1) (by omega) E m with ⟨b, e1, t1⟩ | ⟨e1, nf⟩
  · obtain ⟨m1, hm1⟩ : ∃ m1, m1 = m.push b := ⟨_, rfl⟩
    rw [← hm1] at e1 t1
    have wf1 : m1.WF := hm1 ▸ wf.push b
    have x1 : Ext m m1 [m.next] := hm1 ▸ (Ext.refl wf).push b
    have g1 := h1.frame wf x1.toFrame
    have g2 := h2.frame wf x1.toFrame
    have rda : rdAll (dimsCells T2.dims) bs.length E m1 = .ok (ints bs) m1 := by
      rw [rdAll_prefix _ (by omega), s2, List.take_left]
    have hof : Arr.of (ints bs ++ [(nN : Int)]) = dimsCells (bs ++ [nN]) := by rw [← of_ints]; simp [ints]
    have hfull := matFull_big (E := E) wf1 g1 he1.dtype hs hi hz out
    rw [List.length_append, List.length_singleton] at hfull
    rcases hfull with ⟨m', e, fr, wf', nf⟩ | e
    · left
      refine ⟨m', ?_, x1.toFrame.trans fr, wf', nf⟩
      rw [e0, hl]
      unfold matVT
      rw [ee, ee2]
      msimp [d1, d2, d3, e1, t1, g2.tDimsArr, Int.toNat_natCast, rda, hof, e]
    · right; right
      rw [e0, hl]
      unfold matVT
      rw [ee, ee2]
      msimp [d1, d2, d3, e1, t1, g2.tDimsArr, Int.toNat_natCast, rda, hof, e]
  · right; left
    refine ⟨nf, ?_⟩
    rw [e0, hl]
    unfold matVT
    rw [ee, ee2]
    msimp [d1, d2, d3, e1, touch_null]

theorem matTT_big (s1 : T1.dims = b1 ++ [nM, nK]) (s2 : T2.dims = b2 ++ [nK, nN]) (hb : b1 ≠ [] ∨ b2 ≠ []) (hbc : Broadcasts b1 b2 bd)
    (hs : ShapeOK (bd ++ [nM, nN]) c.size) (hi : 2147483647 < prod (bd ++ [nM, nN])) : TooBig E (matmul R1.h R2.h out) m out := by
  have hl := hbc.length
  have hp : 0 < bd.length := by
    have : 0 < b1.length ∨ 0 < b2.length := hb.imp List.length_pos_iff.2 List.length_pos_iff.2
    omega
  have a10 : bd.length + 2 ≤ 2147483647 := by have := hs.rank; simpa using this
  have l1 : T1.dims.length = b1.length + 2 := by simp [s1]
  have l2 : T2.dims.length = b2.length + 2 := by simp [s2]
  have e0 := matmul_tt (out := out) (E := E) h1 h2 c1 c2 (by omega) (by omega) (by omega)
  have d1 := h1.dimI (E := E) (k := ((b1.length + 2 : Nat) : Int) - 2) (i := b1.length) (d := nM) (by omega) (by simp [s1])
  have d2 := h1.dimI (E := E) (k := ((b1.length + 2 : Nat) : Int) - 1) (i := b1.length + 1) (d := nK) (by omega) (by simp [s1])
  have d3 := h2.dimI (E := E) (k := ((b2.length + 2 : Nat) : Int) - 2) (i := b2.length) (d := nK) (by omega) (by simp [s2])
  have d4 := h2.dimI (E := E) (k := ((b2.length + 2 : Nat) : Int) - 1) (i := b2.length + 1) (d := nN) (by omega) (by simp [s2])
  have em : max ((b1.length + 2 : Nat) : Int) ((b2.length + 2 : Nat) : Int) = ((bd.length + 2 : Nat) : Int) := by omega
  have em2 : ((bd.length + 2 : Nat) : Int) - 2 = (bd.length : Int) := by omega
  have ex1 : max (((b1.length + 2 : Nat) : Int) - 2) 0 = (b1.length : Int) := by omega
  have ex2 : max (((b2.length + 2 : Nat) : Int) - 2) 0 = (b2.length : Int) := by omega
  have ebc : ∀ m', broadcastArray (dimsCells T1.dims) b1.length (dimsCells T2.dims) b2.length (List.replicate bd.length none) bd.length E m' =
      .ok (.success, dimsCells bd) m' := by
    intro m'
    obtain ⟨c', hc', e⟩ := broadcastArray_run (E := E) (m := m') (a := b1) (b := b2) (d1 := dimsCells T1.dims) (d2 := dimsCells T2.dims)
      (buf := List.replicate bd.length none) (fun hk => dimsCells_prefix s1 hk) (fun hk => dimsCells_prefix s2 hk) (by simp [hl]) hbc.1
    rw [List.length_replicate] at e
    rw [e, Broadcasts.unique hc' hbc]
  unfold TooBig
  rcases scratch_touch (n := bd.length + 2) (by omega) E m with ⟨b, e1, t1⟩ | ⟨e1, nf⟩
  · obtain ⟨m1, hm1⟩ : ∃ m1, m1 = m.push b := ⟨_, rfl⟩
    rw [← hm1] at e1 t1
    have wf1 : m1.WF := hm1 ▸ wf.push b
    have x1 : Ext m m1 [m.next] := hm1 ▸ (Ext.refl wf).push b
    have g1 := h1.frame wf x1.toFrame
    have g2 := h2.frame wf x1.toFrame
    have hfull := matFull_big (E := E) wf1 g1 he1.dtype hs hi hz out
    have hcells : dimsCells bd ++ [some (nM : Int), some (nN : Int)] = dimsCells (bd ++ [nM, nN]) := by simp [dimsCells]
    rw [List.length_append, show ([nM, nN] : List Nat).length = 2 from rfl] at hfull
    rcases hfull with ⟨m', e, fr, wf', nf⟩ | e
    · left
      refine ⟨m', ?_, x1.toFrame.trans fr, wf', nf⟩
      rw [e0, l1, l2]
      unfold matTT
      rw [em, em2, cells_nat (by omega), ex1, ex2]
      msimp [d1, d2, d3, d4, e1, t1, g1.tDimsArr, g2.tDimsArr, ebc, hcells, e]
    · right; right
      rw [e0, l1, l2]
      unfold matTT
      rw [em, em2, cells_nat (by omega), ex1, ex2]
      msimp [d1, d2, d3, d4, e1, t1, g1.tDimsArr, g2.tDimsArr, ebc, hcells, e]
  · right; left
    refine ⟨nf, ?_⟩
    rw [e0, l1, l2]
    unfold matTT
    rw [em]
    msimp [d1, d2, d3, d4, e1, touch_null]

end

/-- All shapes together. -/
theorem matmul_big (wf : m.WF) (h1 : At m R1 T1) (he1 : Elems T1 c xs) (h2 : At m R2 T2)
    (c1 : T1.device.type = DEVICE_CPU) (c2 : T2.device.type = DEVICE_CPU) (hz : ZeroOf E.fp c z) (ht : MatShape T1.dims T2.dims ds)
    (hs : ShapeOK ds c.size) (hi : 2147483647 < prod ds) : TooBig E (matmul R1.h R2.h out) m out := by
  generalize hd1 : T1.dims = D1 at ht
  generalize hd2 : T2.dims = D2 at ht
  cases ht with
  | vv k => simp [prod] at hi
  | mv n k => exact matMV_big wf h1 he1 h2 c1 c2 hz hd1 hd2 hs hi
  | mm n k l => exact matMM_big wf h1 he1 h2 c1 c2 hz hd1 hd2 hs hi
  | vm k l => exact matVM_big wf h1 he1 h2 c1 c2 hz hd1 hd2 hs hi
  | tv n k hb => exact matTV_big wf h1 he1 h2 c1 c2 hz hd1 hb hd2 hs hi
  | vt k l hb => exact matVT_big wf h1 he1 h2 c1 c2 hz hd1 hd2 hb hs hi
  | tt n k l hb hbc => exact matTT_big wf h1 he1 h2 c1 c2 hz hd1 hd2 hb hbc hs hi

theorem pos_of_prod {ds : List Nat} (h : 0 < prod ds) : ∀ d ∈ ds, 0 < d := by
  induction ds with
  | nil => simp
  | cons d ds ih =>
    simp only [prod] at h
    intro e he
    rcases List.mem_cons.1 he with rfl | he
    · exact Nat.pos_of_mul_pos_right h
    · exact ih (Nat.pos_of_mul_pos_left h) e he

theorem prodMax_of_pos {ds : List Nat} (h : 0 < prod ds) : prodMax ds = prod ds := by
  induction ds with
  | nil => rfl
  | cons d ds ih =>
    simp only [prod] at h
    have := Nat.pos_of_mul_pos_right h
    simp only [prod, prodMax, ih (Nat.pos_of_mul_pos_left h), Nat.max_eq_left this]

/-- Undefined behaviour of the kernel is undefined behaviour of the product. -/
theorem KernelCall.ub {x : M (Status × Ptr)} {kern : Nat → M Unit} {u : UB} (h : KernelCall E x m out R1 R2 T1 T2 c xs ys ds z kern) (nf : E.NoFail)
    (hk : ∀ p mk, KCtx mk R1 R2 T1 T2 c xs ys p → kern p E (mk.arr p c (prod ds) fun _ => some z) = .ub u) : x E m = .ub u := by
  rcases h with ⟨_, _, _, _, h⟩ | ⟨h, _⟩ | ⟨R, mk, X, ha, -, hu⟩
  · exact absurd nf h
  · exact absurd nf h
  · refine hu u ?_
    have := hk R.p mk X
    rwa [ha] at this

theorem mm_terms {A B C : Ptr} {oa ob oc : Int} {M K N : Nat} (hM : 0 < M) (hN : 0 < N) (hM' : M ≤ 2147483647) (hN' : N ≤ 2147483647)
    (hK : 2147483647 < K) : mmKernel c A B C oa ob oc M K N E m = .ub .overflow := by
  unfold mmKernel
  rw [run_forI32 hM']
  refine loopN_first hM ?_
  rw [run_forI32 hN']
  refine loopN_first hN ?_
  exact forI32_big (by omega) _ _ _ _

theorem batch_terms {A B C : Ptr} {s1 s2 s3 nb nM nK nN : Nat} {aOf bOf : Nat → Nat} (hb : 0 < nb) (hM : 0 < nM) (hN : 0 < nN)
    (hM' : nM ≤ 2147483647) (hN' : nN ≤ 2147483647) (hK : 2147483647 < nK) :
    batchKernel c A B C (batchList nb s1 s2 s3 aOf bOf) nM nK nN nb E m = .ub .overflow := by
  unfold batchKernel forI
  rw [Int.toNat_natCast]
  refine loopN_first hb ?_
  simp only [batchList_get hb]
  exact mm_terms hM hN hM' hN' hK

theorem factors {a b : Nat} (h : 0 < a * b) (h' : a * b ≤ 2147483647) : 0 < a ∧ a ≤ 2147483647 ∧ 0 < b ∧ b ≤ 2147483647 := by
  have ha := Nat.pos_of_mul_pos_right h
  have hb := Nat.pos_of_mul_pos_left h
  exact ⟨ha, Nat.le_trans (Nat.le_mul_of_pos_right _ hb) h', hb, Nat.le_trans (Nat.le_mul_of_pos_left _ ha) h'⟩

/-- More than `INT_MAX` terms. -/
theorem matmul_terms (nf : E.NoFail) (wf : m.WF) (h1 : At m R1 T1) (he1 : Elems T1 c xs) (h2 : At m R2 T2) (he2 : ReadsAs T2 c ys)
    (c1 : T1.device.type = DEVICE_CPU) (c2 : T2.device.type = DEVICE_CPU) (hz : ZeroOf E.fp c z) (ht : MatShape T1.dims T2.dims ds)
    (hs : ShapeOK ds c.size) (h0 : 0 < prod ds) (hi : prod ds ≤ 2147483647) (hK : 2147483647 < T1.dims.getLastD 0) :
    matmul R1.h R2.h out E m = .ub .overflow := by
  generalize hd1 : T1.dims = D1 at ht hK
  generalize hd2 : T2.dims = D2 at ht
  cases ht with
  | vv k =>
    refine (KernelCall.of (matVV_top wf h1 he1 h2 he2 c1 c2 hz hd1 hd2 hs)).ub nf fun p mk X => ?_
    exact forI32_big (by simpa using hK) _ _ _ _
  | mv n k =>
    simp [prod] at hi h0 hK
    refine (KernelCall.of (matMV_top wf h1 he1 h2 he2 c1 c2 hz hd1 hd2 hs hi)).ub nf fun p mk X => ?_
    unfold mvKernel
    rw [run_forI32 hi]
    exact loopN_first h0 (forI32_big (by omega) _ _ _ _)
  | mm n k l =>
    simp only [prod, Nat.mul_one] at hi h0
    simp at hK
    obtain ⟨a, a', b, b'⟩ := factors h0 hi
    exact (KernelCall.of (matMM_top wf h1 he1 h2 he2 c1 c2 hz hd1 hd2 hs hi)).ub nf fun p mk X => mm_terms a b a' b' hK
  | vm k l =>
    simp [prod] at hi h0 hK
    exact (KernelCall.of (matVM_top wf h1 he1 h2 he2 c1 c2 hz hd1 hd2 hs hi)).ub nf fun p mk X =>
      mm_terms (M := 1) (by omega) h0 (by omega) hi hK
  | @tv bs n k hb =>
    rw [prod_snoc1] at hi h0
    simp at hK
    obtain ⟨a, a', b, b'⟩ := factors h0 hi
    exact (matTV_top wf h1 he1 h2 he2 c1 c2 hz hd1 hb hd2 hs hi a').ub nf fun p mk X => batch_terms a b (by omega) b' (by omega) hK
  | @vt bs k l hb =>
    rw [prod_snoc1] at hi h0
    simp at hK
    obtain ⟨a, a', b, b'⟩ := factors h0 hi
    exact (matVT_top wf h1 he1 h2 he2 c1 c2 hz hd1 hd2 hb hs hi a').ub nf fun p mk X => batch_terms a (by omega) b (by omega) b' hK
  | @tt b1 b2 bd n k l hb hbc =>
    rw [prod_snoc2] at hi h0
    simp at hK
    obtain ⟨a, a', b, b'⟩ := factors h0 hi
    obtain ⟨d, d', e, e'⟩ := factors b b'
    have hl := hbc.length
    have S : TTShape T1 T2 c b1 b2 bd n k l := ⟨hd1, hd2, hbc.near, hbc.symm.near, hl, by
      have : 0 < b1.length ∨ 0 < b2.length := hb.imp List.length_pos_iff.2 List.length_pos_iff.2
      omega, hs, a'⟩
    exact (matTT_top wf h1 he1 h2 he2 c1 c2 hz S hbc hi).ub nf fun p mk X => batch_terms a d e d' e' hK

/-- The first batch of the output is the first batch of an operand. -/
theorem batchOf_zero {b : List Nat} (h : Near b bd) (h0 : 0 < prod bd) : batchOf b bd 0 = 0 := by
  unfold batchOf
  rw [lin_under h.1 h0]
  have : ∀ n, sumN (fun t => coordR bd 0 t * bst b t) n = 0 := by
    intro n
    induction n with
    | zero => rfl
    | succ n ih =>
      have h0 : coordR bd 0 n = 0 := by unfold coordR; simp
      rw [sumN, ih, h0]; simp
  exact this _

theorem matmul_empty (nf : E.NoFail) (wf : m.WF) (h1 : At m R1 T1) (he1 : Elems T1 c xs) (h2 : At m R2 T2) (he2 : ReadsAs T2 c ys)
    (c1 : T1.device.type = DEVICE_CPU) (c2 : T2.device.type = DEVICE_CPU) (hz : ZeroOf E.fp c z) (ht : MatShape T1.dims T2.dims ds)
    (hs : ShapeOK ds c.size) (h0 : 0 < prod ds) (hi : prod ds ≤ 2147483647) (hK : 0 < T1.dims.getLastD 0) (hK' : T1.dims.getLastD 0 ≤ 2147483647)
    (he : prod T1.dims = 0 ∨ prod T2.dims = 0)
    (hx : xs = [] ∨ T2.bytes = []) : matmul R1.h R2.h out E m = .ub .outOfBounds := by
  generalize hd1 : T1.dims = D1 at ht hK hK' he
  generalize hd2 : T2.dims = D2 at ht he
  cases ht with
  | vv k => simp [prod] at he hK; omega
  | mv n k =>
    simp only [prod, Nat.mul_one] at he h0
    simp at hK
    have := Nat.mul_pos h0 hK
    omega
  | mm n k l =>
    simp only [prod, Nat.mul_one] at he h0
    simp at hK
    obtain ⟨a, a', b, b'⟩ := factors h0 (by simpa [prod] using hi)
    have := Nat.mul_pos a hK
    have := Nat.mul_pos hK b
    omega
  | vm k l =>
    simp only [prod, Nat.mul_one] at he h0
    simp at hK
    have := Nat.mul_pos hK h0
    omega
  | @tv bs n k hb =>
    rw [prod_snoc1] at hi h0
    rw [prod_snoc2] at he
    simp at hK
    simp only [prod, Nat.mul_one] at he
    obtain ⟨a, a', b, b'⟩ := factors h0 hi
    have := Nat.mul_pos a (Nat.mul_pos b hK)
    omega
  | @vt bs k l hb =>
    rw [prod_snoc1] at hi h0
    rw [prod_snoc2] at he
    simp at hK
    simp only [prod, Nat.mul_one] at he
    obtain ⟨a, a', b, b'⟩ := factors h0 hi
    have := Nat.mul_pos a (Nat.mul_pos hK b)
    omega
  | @tt b1 b2 bd n k l hb hbc =>
    have h00 := h0
    rw [prod_snoc2] at hi h0
    simp at hK hK'
    obtain ⟨a, a', b, b'⟩ := factors h0 hi
    obtain ⟨d, d', e, e'⟩ := factors b b'
    have hl := hbc.length
    have S : TTShape T1 T2 c b1 b2 bd n k l := ⟨hd1, hd2, hbc.near, hbc.symm.near, hl, by
      have : 0 < b1.length ∨ 0 < b2.length := hb.imp List.length_pos_iff.2 List.length_pos_iff.2
      omega, hs, a'⟩
    exact (matTT_top wf h1 he1 h2 he2 c1 c2 hz S hbc hi).ub nf fun p mk X =>
      X.batch_empty a d e hK d' e' hK' hz.wt h00 (batchOf_zero S.f1 a) hx

end Aitisa
