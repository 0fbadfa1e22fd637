import Verif.Proof.MatmulTV

/-! # Matrix products of two tensors -/

namespace Aitisa

variable {E : Env} {m m' : Mem} {R R1 R2 : Foot} {T T1 T2 : TV} {L : List Nat} {c : Code} {xs ys zs : List Val} {q P : Nat}
  {out : Ptr} {ds bd b1 b2 : List Nat} {z : Val}

/-- The batch number of an operand with batch dims `ds` for output batch `i`. -/
def batchOf (ds bd : List Nat) (i : Nat) : Nat := lin ds (under ds (unlin bd i))

theorem batchOf_lt {ds : List Nat} (f : Fits ds bd) {i : Nat} (hi : i < prod bd) : batchOf ds bd i < prod ds :=
  lin_lt (under_inRange f (unlin_inRange hi))

section
variable (wf : m.WF) (h1 : At m R1 T1) (he1 : Elems T1 c xs) (h2 : At m R2 T2) (he2 : ReadsAs T2 c ys)
  (c1 : T1.device.type = DEVICE_CPU) (c2 : T2.device.type = DEVICE_CPU) (hz : ZeroOf E.fp c z) {nM nK nN : Nat}
include wf h1 he1 h2 he2

/-- Facts about the shapes of the operands and the output. -/
structure TTShape (T1 T2 : TV) (c : Code) (b1 b2 bd : List Nat) (nM nK nN : Nat) : Prop where
  s1 : T1.dims = b1 ++ [nM, nK]
  s2 : T2.dims = b2 ++ [nK, nN]
  f1 : Near b1 bd
  f2 : Near b2 bd
  len : bd.length = max b1.length b2.length
  pos : 0 < bd.length
  out : ShapeOK (bd ++ [nM, nN]) c.size
  batches : prod bd ≤ 2147483647

omit wf he1 h2 he2 in
theorem TTShape.arith (S : TTShape T1 T2 c b1 b2 bd nM nK nN) (hd1 : T1.dtype = c.dtype) (k2 : ShapeOK T2.dims c.size) :
    prodMax b1 ≤ 9223372036854775807 ∧ prodMax b2 ≤ 9223372036854775807 ∧ prodMax bd ≤ 9223372036854775807 ∧
    nM * nK ≤ 9223372036854775807 ∧ nK * nN ≤ 9223372036854775807 ∧ nM * nN ≤ 9223372036854775807 ∧
    prodMax b1 * (nM * nK) * c.size ≤ 9223372036854775807 ∧ prodMax b2 * (nK * nN) * c.size ≤ 9223372036854775807 ∧
    prodMax bd * (nM * nN) * c.size ≤ 9223372036854775807 ∧ bd.length + 2 ≤ 2147483647 := by
  have key : ∀ {bs : List Nat} {a b : Nat} {sz : Nat}, ShapeOK (bs ++ [a, b]) sz → prodMax bs ≤ 9223372036854775807 ∧
      a * b ≤ 9223372036854775807 ∧ prodMax bs * (a * b) * sz ≤ 9223372036854775807 ∧ bs.length + 2 ≤ 2147483647 := by
    intro bs a b sz h
    have hm := h.prodMax_le
    refine ⟨?_, ?_, ?_, ?_⟩
    · have := prodMax_take_le (bs ++ [a, b]) bs.length
      rw [List.take_left] at this; omega
    · have := prod_drop_le (bs ++ [a, b]) bs.length
      rw [List.drop_left] at this
      simp [prod] at this; omega
    · refine Nat.le_trans ?_ h.fits
      rw [prodMax_append]
      refine Nat.mul_le_mul (Nat.mul_le_mul_left _ ?_) (by omega)
      simp only [prodMax, Nat.mul_one]
      exact Nat.mul_le_mul (by omega) (by omega)
    · have := h.rank; simpa using this
  have k1 := h1.shape
  rw [S.s1, hd1] at k1
  rw [S.s2] at k2
  obtain ⟨a1, a2, a3, a4⟩ := key k1
  obtain ⟨a5, a6, a7, a8⟩ := key k2
  obtain ⟨a9, a10, a11, a12⟩ := key S.out
  exact ⟨a1, a5, a9, a2, a6, a10, a3, a7, a11, a12⟩

theorem matTTFill_top (S : TTShape T1 T2 c b1 b2 bd nM nK nN) (H : Holds m m' R T L) (hLt : ∀ b ∈ L, b < m'.next) {P : Nat}
    (hbytes : T.bytes = encAll c (List.replicate P z)) :
    (matTTFill R1.h R2.h R.h (dimsCells T1.dims) (dimsCells T2.dims) (dimsCells bd) ((b1.length + 2 : Nat) : Int) ((b2.length + 2 : Nat) : Int)
      bd.length nM nK nK nN E m' = .ub .nullDeref ∧ ¬ E.NoFail) ∨
    ∃ mk, KCtx mk R1 R2 T1 T2 c xs ys R.p ∧ (mk.arr R.p c P fun _ => some z) = mk ∧
      (∀ G : Nat → Val, batchKernel c (.blk R1.p) (.blk R2.p) (.blk R.p)
          (batchList (prod bd) (nM * nK) (nK * nN) (nM * nN) (batchOf b1 bd) (batchOf b2 bd)) nM nK nN (prod bd) E mk =
          .ok () (mk.arr R.p c P fun k => some (G k)) →
        ∃ m2, matTTFill R1.h R2.h R.h (dimsCells T1.dims) (dimsCells T2.dims) (dimsCells bd) ((b1.length + 2 : Nat) : Int) ((b2.length + 2 : Nat) : Int)
            bd.length nM nK nK nN E m' = .ok .success m2 ∧
          Holds m m2 R { T with bytes := encAll c (tab P G) } L ∧ ∀ k ∈ L, m2.blk k = m'.blk k) ∧
      (∀ u, batchKernel c (.blk R1.p) (.blk R2.p) (.blk R.p)
          (batchList (prod bd) (nM * nK) (nK * nN) (nM * nN) (batchOf b1 bd) (batchOf b2 bd)) nM nK nN (prod bd) E mk = .ub u →
        matTTFill R1.h R2.h R.h (dimsCells T1.dims) (dimsCells T2.dims) (dimsCells bd) ((b1.length + 2 : Nat) : Int) ((b2.length + 2 : Nat) : Int)
            bd.length nM nK nK nN E m' = .ub u) := by
  obtain ⟨a1, a2, a3, a4, a5, a6, a7, a8, a9, a10⟩ := S.arith h1 he1.dtype he2.shape
  have hp := S.pos
  obtain ⟨pA, mA, KA, eA, HA, tA, kA, nA, fA⟩ := H.scratch (E := E) (bd.length : Int) 8
  obtain ⟨pB, mB, KB, eB, HB, tB, kB, nB, fB⟩ := HA.scratch (E := E) (bd.length : Int) 8
  have hsz : toSizeT ((8 : Nat) * (bd.length : Int)) = 8 * bd.length := by unfold toSizeT; omega
  rw [hsz] at tA tB
  replace tA := tA.congr (m' := mB) fun k hk => fB.same k (kA k hk).2
  have e2 : ((b1.length + 2 : Nat) : Int) - 2 = (b1.length : Int) := by omega
  have e3 : ((b2.length + 2 : Nat) : Int) - 2 = (b2.length : Int) := by omega
  have st1 := batchStrides_run (E := E) (m := mB) (d := dimsCells T1.dims) (nd := bd.length) (fun hk => dimsCells_prefix S.s1 hk) (by omega) a1
  have st2 := batchStrides_run (E := E) (m := mB) (d := dimsCells T2.dims) (nd := bd.length) (fun hk => dimsCells_prefix S.s2 hk) (by omega) a2
  have sz := sizeToDim_run (E := E) (m := mB) (ds := bd) (d := dimsCells bd)
    (fun hk => dimsCells_prefix (rest := []) (by simp) hk) (by omega) a3
  by_cases hA : pA = .null
  · left
    refine ⟨?_, nA hA⟩
    unfold matTTFill
    msimp [eA, eB, hA, touch_null]
  · have tc1 := tA.touch (E := E) hA (lo := 0) (hi := 8 * bd.length) (by omega) (by omega)
    by_cases hB : pB = .null
    · left
      refine ⟨?_, nB hB⟩
      unfold matTTFill
      rw [e2]
      msimp [eA, eB, tc1, st1, hB, touch_null]
    · have tc2 := tB.touch (E := E) hB (lo := 0) (hi := 8 * bd.length) (by omega) (by omega)
      have hLt2 : ∀ b ∈ KB ++ (KA ++ L), b < mB.next := by
        intro b hb
        simp at hb
        have := fA.next
        have := fB.next
        rcases hb with h | h | h
        · exact (kB b h).2
        · have := (kA b h).2; omega
        · have := hLt b h; omega
      rcases batchRun_top (E := E) (nM := nM) (nK := nK) (nN := nN) (s1 := nM * nK) (s2 := nK * nN) (s3 := nM * nN) (nb := prod bd)
        (aOf := batchOf b1 bd) (bOf := batchOf b2 bd)
        (offs := batchOffs (dimsCells bd) (bcState (List.replicate bd.length none) (bst b1) bd.length)
          (bcState (List.replicate bd.length none) (bst b2) bd.length) bd.length) (P := P)
        wf h1 he1 h2 he2 HB hLt2 hbytes S.batches
        (fun i m' hi => batchOffs_run (by omega) S.f1 S.f2 (Nat.le_trans (prod_le_prodMax _) a3) a1 a2 hi)
        (fun i hi => Nat.le_trans (Nat.mul_le_mul_right _ (Nat.mul_le_mul_right _ (Nat.le_of_lt (lin_under_lt S.f1 hi)))) a7)
        (fun i hi => Nat.le_trans (Nat.mul_le_mul_right _ (Nat.mul_le_mul_right _ (Nat.le_of_lt (lin_under_lt S.f2 hi)))) a8)
        (fun i hi => Nat.le_trans (Nat.mul_le_mul_right _ (Nat.mul_le_mul_right _ (Nat.le_trans (Nat.le_of_lt hi) (prod_le_prodMax _)))) a9)
        with ⟨eb, nf⟩ | ⟨mk, X, hc0, hG, hu⟩
      · left
        refine ⟨?_, nf⟩
        unfold matTTFill
        rw [e2, e3]
        msimp [eA, eB, tc1, st1, tc2, st2, sz, mul_i64 a4, mul_i64 a5, mul_i64 a6, eb]
      · right
        refine ⟨mk, X, hc0, fun G hk => ?_, fun u hk => ?_⟩
        · obtain ⟨m2, eb, H2, hL⟩ := hG G hk
          have uA := tA.congr (m' := m2) fun k hk => hL k (by simp [hk])
          have uB := tB.congr (m' := m2) fun k hk => hL k (by simp [hk])
          have rB := uB.free (E := E) (D := []) (by simp)
          rw [show m2.drop [] = m2 from by simp [Mem.drop]] at rB
          have rA := uA.free (E := E) (D := KB ++ []) (by
            intro k hk h; simp at h; have := kB k h; have := kA k hk; omega)
          have HL : Holds m (m2.drop (KA ++ (KB ++ []))) R { T with bytes := encAll c (tab P G) } L := by
            have HK' : Holds m m2 R { T with bytes := encAll c (tab P G) } ((KB ++ KA) ++ L) := by simpa using H2
            refine HK'.drop ?_ ?_
            · intro b hb; simp at hb ⊢; rcases hb with h | h <;> simp [h]
            · intro b hb; simp at hb ⊢; rcases hb with h | h <;> simp [h]
          refine ⟨_, ?_, HL, ?_⟩
          · unfold matTTFill
            rw [e2, e3]
            msimp [eA, eB, tc1, st1, tc2, st2, sz, mul_i64 a4, mul_i64 a5, mul_i64 a6, eb, rB, rA]
          · intro k hk
            have hlt := hLt k hk
            have := fA.next
            rw [Mem.drop_blk, if_neg, hL k (by simp [hk]), (fA.trans fB).same k hlt]
            intro h; simp at h
            rcases h with h | h
            · have := kA k h; omega
            · have := kB k h; omega
        · have eb := hu u hk
          unfold matTTFill
          rw [e2, e3]
          msimp [eA, eB, tc1, st1, tc2, st2, sz, mul_i64 a4, mul_i64 a5, mul_i64 a6, eb]

include c1 c2 hz

theorem matTT_top (S : TTShape T1 T2 c b1 b2 bd nM nK nN) (hbc : Broadcasts b1 b2 bd) (hi : prod bd * (nM * nN) ≤ 2147483647) :
    KernelCall E (matmul R1.h R2.h out) m out R1 R2 T1 T2 c xs ys (bd ++ [nM, nN]) z
      (fun p => batchKernel c (.blk R1.p) (.blk R2.p) (.blk p)
        (batchList (prod bd) (nM * nK) (nK * nN) (nM * nN) (batchOf b1 bd) (batchOf b2 bd)) nM nK nN (prod bd)) := by
  obtain ⟨a1, a2, a3, a4, a5, a6, a7, a8, a9, a10⟩ := S.arith h1 he1.dtype he2.shape
  have hl := S.len
  have hp := S.pos
  have l1 : T1.dims.length = b1.length + 2 := by simp [S.s1]
  have l2 : T2.dims.length = b2.length + 2 := by simp [S.s2]
  have e0 := matmul_tt (out := out) (E := E) h1 h2 c1 c2 (by omega) (by omega) (by omega)
  have d1 := h1.dimI (E := E) (k := ((b1.length + 2 : Nat) : Int) - 2) (i := b1.length) (d := nM) (by omega) (by simp [S.s1])
  have d2 := h1.dimI (E := E) (k := ((b1.length + 2 : Nat) : Int) - 1) (i := b1.length + 1) (d := nK) (by omega) (by simp [S.s1])
  have d3 := h2.dimI (E := E) (k := ((b2.length + 2 : Nat) : Int) - 2) (i := b2.length) (d := nK) (by omega) (by simp [S.s2])
  have d4 := h2.dimI (E := E) (k := ((b2.length + 2 : Nat) : Int) - 1) (i := b2.length + 1) (d := nN) (by omega) (by simp [S.s2])
  have em : max ((b1.length + 2 : Nat) : Int) ((b2.length + 2 : Nat) : Int) = ((bd.length + 2 : Nat) : Int) := by omega
  have em2 : ((bd.length + 2 : Nat) : Int) - 2 = (bd.length : Int) := by omega
  have ex1 : max (((b1.length + 2 : Nat) : Int) - 2) 0 = (b1.length : Int) := by omega
  have ex2 : max (((b2.length + 2 : Nat) : Int) - 2) 0 = (b2.length : Int) := by omega
  have ebc : ∀ m', broadcastArray (dimsCells T1.dims) b1.length (dimsCells T2.dims) b2.length (List.replicate bd.length none) bd.length E m' =
      .ok (.success, dimsCells bd) m' := by
    intro m'
    obtain ⟨c', hc', e⟩ := broadcastArray_run (E := E) (m := m') (a := b1) (b := b2) (d1 := dimsCells T1.dims) (d2 := dimsCells T2.dims)
      (buf := List.replicate bd.length none) (fun hk => dimsCells_prefix S.s1 hk) (fun hk => dimsCells_prefix S.s2 hk) (by simp [hl]) hbc.1
    rw [List.length_replicate] at e
    rw [e, Broadcasts.unique hc' hbc]
  unfold KernelCall
  rcases scratch_touch (n := bd.length + 2) (by omega) E m with ⟨b, e1, t1⟩ | ⟨e1, nf⟩
  · obtain ⟨m1, hm1⟩ : ∃ m1, m1 = m.push b := ⟨_, rfl⟩
    rw [← hm1] at e1 t1
    have wf1 : m1.WF := hm1 ▸ wf.push b
    have x1 : Ext m m1 [m.next] := hm1 ▸ (Ext.refl wf).push b
    have hn1 : m1.next = m.next + 1 := by rw [hm1]; simp
    have hk1 : m1.blk m.next = some ⟨.own, b⟩ := by rw [hm1]; simp
    have g1 := h1.frame wf x1.toFrame
    have g2 := h2.frame wf x1.toFrame
    have hfull := matFull_run (E := E) wf1 g1 he1.dtype S.out (by rw [prod_snoc2]; exact hi) hz out
    have hcells : dimsCells bd ++ [some (nM : Int), some (nN : Int)] = dimsCells (bd ++ [nM, nN]) := by simp [dimsCells]
    rw [List.length_append, show ([nM, nN] : List Nat).length = 2 from rfl] at hfull
    unfold Creates at hfull
    rcases hfull with ⟨R, mk, e, P⟩ | ⟨m', e, fr, wf', nf⟩
    · have H := P.after x1 (by simp [hn1])
      rcases matTTFill_top (E := E) (P := prod (bd ++ [nM, nN])) wf h1 he1 h2 he2 S H (by simp; have := P.ext.next; omega) rfl
        with ⟨eb, nf⟩ | ⟨mk2, X, hc0, hG, hu⟩
      · right; left
        refine ⟨nf, ?_⟩
        rw [e0, l1, l2]
        unfold matTT
        rw [em, em2, cells_nat (by omega), ex1, ex2]
        msimp [d1, d2, d3, d4, e1, t1, g1.tDimsArr, g2.tDimsArr, ebc, hcells, e, eb]
      · right; right
        refine ⟨R, mk2, X, hc0, fun G hk => ?_, fun u hk => ?_⟩
        · obtain ⟨m2, eb, H2, hL⟩ := hG G hk
          refine ⟨m2.drop [m.next], ?_, H2.done (by simp) (by simp)⟩
          have hb2 : m2.blk m.next = some ⟨.own, b⟩ := by
            rw [hL _ (by simp), P.ext.same _ (by omega), hk1]
          rw [e0, l1, l2]
          unfold matTT
          rw [em, em2, cells_nat (by omega), ex1, ex2]
          msimp [d1, d2, d3, d4, e1, t1, g1.tDimsArr, g2.tDimsArr, ebc, hcells, e, eb, free_first hb2]
        · have eb := hu u hk
          rw [e0, l1, l2]
          unfold matTT
          rw [em, em2, cells_nat (by omega), ex1, ex2]
          msimp [d1, d2, d3, d4, e1, t1, g1.tDimsArr, g2.tDimsArr, ebc, hcells, e, eb]
    · left
      refine ⟨m', ?_, x1.toFrame.trans fr, wf', nf⟩
      rw [e0, l1, l2]
      unfold matTT
      rw [em, em2, cells_nat (by omega), ex1, ex2]
      msimp [d1, d2, d3, d4, e1, t1, g1.tDimsArr, g2.tDimsArr, ebc, hcells, e]
  · right; left
    refine ⟨nf, ?_⟩
    rw [e0, l1, l2]
    unfold matTT
    rw [em]
    msimp [d1, d2, d3, d4, e1, touch_null]

end

end Aitisa
