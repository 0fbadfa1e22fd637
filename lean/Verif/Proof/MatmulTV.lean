import Verif.Proof.MatmulBatch

/-! # Matrix products of tensors -/

namespace Aitisa

variable {E : Env} {m m' : Mem} {R R1 R2 : Foot} {T T1 T2 : TV} {L : List Nat} {c : Code} {xs ys zs : List Val} {q P : Nat}
  {out : Ptr} {ds bd bs : List Nat} {z : Val}

theorem sizeToDim_run {d : Arr} (h : ∀ {k : Nat} (hk : k < ds.length), d[k]? = some (some (ds[k] : Int))) (hl : ds.length ≤ 2147483647)
    (hp : prodMax ds ≤ 9223372036854775807) : sizeToDim ds.length d E m = .ok ((prod ds : Nat) : Int) m := by
  unfold sizeToDim
  rw [run_forI32 hl]
  have := loopN_fn (E := E) (fun i r => do
    let d ← Arr.rd d i
    i64 (r * d)) (fun i => ((prod (ds.take i) : Nat) : Int)) (fun _ => m) ds.length (by
      intro i hi
      have hle : prod (ds.take (i + 1)) ≤ 9223372036854775807 := Nat.le_trans (prod_take_le _ _) hp
      rw [prod_take_succ _ _ hi] at hle
      msimp [run_rd (h hi), mul_i64 hle]
      rw [prod_take_succ _ _ hi])
  simpa [prod] using this

theorem At.bytesLe (h : At m R T) (he : Elems T c xs) : prod T.dims * c.size ≤ 9223372036854775807 := by
  have := h.shape.bytes_le
  rwa [he.dtype] at this

theorem prod_snoc2 (bs : List Nat) (a b : Nat) : prod (bs ++ [a, b]) = prod bs * (a * b) := by
  simp [prod_append, prod]

theorem prod_snoc1 (bs : List Nat) (a : Nat) : prod (bs ++ [a]) = prod bs * a := by
  simp [prod_append, prod]

theorem rdAll_prefix (l : List Nat) {k : Nat} (hk : k ≤ l.length) : rdAll (dimsCells l) k E m = .ok (ints (l.take k)) m := by
  induction k with
  | zero => rfl
  | succ k ih =>
    have hc : (dimsCells l)[k]? = some (some (l[k] : Int)) := by
      simp only [dimsCells, List.getElem?_map, List.getElem?_eq_getElem (show k < l.length by omega)]; rfl
    unfold rdAll
    msimp [ih (by omega), run_rd hc]
    rw [List.take_succ_eq_append_getElem (by omega)]
    simp only [List.map_append, List.map_cons, List.map_nil]

theorem dimsCells_prefix {l : List Nat} {bs rest : List Nat} (h : l = bs ++ rest) {k : Nat} (hk : k < bs.length) :
    (dimsCells l)[k]? = some (some (bs[k] : Int)) := by
  have : k < l.length := by rw [h]; simp; omega
  subst h
  simp only [dimsCells, List.getElem?_map, List.getElem?_append_left hk, List.getElem?_eq_getElem hk]; rfl

section
variable (wf : m.WF) (h1 : At m R1 T1) (he1 : Elems T1 c xs) (h2 : At m R2 T2) (he2 : ReadsAs T2 c ys)
  (c1 : T1.device.type = DEVICE_CPU) (c2 : T2.device.type = DEVICE_CPU) (hz : ZeroOf E.fp c z) {nM nK nN : Nat}
include wf h1 he1 h2 he2 c1 c2 hz

theorem matTV_top (s1 : T1.dims = bs ++ [nM, nK]) (hb : bs ≠ []) (s2 : T2.dims = [nK]) (hs : ShapeOK (bs ++ [nM]) c.size)
    (hi : prod bs * nM ≤ 2147483647) (hnb : prod bs ≤ 2147483647) :
    KernelCall E (matmul R1.h R2.h out) m out R1 R2 T1 T2 c xs ys (bs ++ [nM]) z
      (fun p => batchKernel c (.blk R1.p) (.blk R2.p) (.blk p) (batchList (prod bs) (nM * nK) 0 (nM * 1) (fun i => i) (fun _ => 0))
        nM nK (1 : Nat) (prod bs)) := by
  have hbl : 0 < bs.length := List.length_pos_iff.2 hb
  have hl : T1.dims.length = bs.length + 2 := by simp [s1]
  have hr := h1.shape.rank
  have e0 := matmul_tv (out := out) (E := E) h1 h2 c1 c2 (by omega) (by simp [s2])
  have d1 := h1.dimI (E := E) (k := (bs.length : Int)) (i := bs.length) (d := nM) (by omega) (by simp [s1])
  have d2 := h1.dimI (E := E) (k := ((bs.length + 1 : Nat) : Int)) (i := bs.length + 1) (d := nK) (by omega) (by simp [s1])
  have d3 := h2.dimI (E := E) (k := 0) (i := 0) (d := nK) rfl (by simp [s2])
  have ee : ((bs.length + 2 : Nat) : Int) - 1 = ((bs.length + 1 : Nat) : Int) := by omega
  have ee2 : ((bs.length + 2 : Nat) : Int) - 2 = (bs.length : Int) := by omega
  have hp1 := h1.bytesLe he1
  rw [s1, prod_snoc2] at hp1
  have hp3 := hs.bytes_le
  rw [prod_snoc1] at hp3
  have hcs := c.size_pos
  have hpm : prodMax T1.dims ≤ 9223372036854775807 := h1.shape.prodMax_le
  have hpb : prodMax bs ≤ 9223372036854775807 := by
    have := prodMax_take_le T1.dims bs.length
    rw [s1, List.take_left] at this
    rw [s1] at hpm; omega
  have hmk : nM * nK ≤ 9223372036854775807 := by
    have := prod_drop_le T1.dims bs.length
    rw [s1, List.drop_left] at this
    rw [s1] at hpm
    simp [prod] at this; omega
  have hm1' : nM * 1 ≤ 9223372036854775807 := by
    have := prod_drop_le (bs ++ [nM]) bs.length
    rw [List.drop_left] at this
    have h := hs.prodMax_le
    simp [prod] at this; omega
  have hi1 : ∀ m', i64 ((nM : Int) * 1) E m' = .ok ((nM * 1 : Nat) : Int) m' := fun m' => mul_i64 (b := 1) hm1' E m'
  have c0 : ((0 : Nat) : Int) = 0 := rfl
  have c01 : ((1 : Nat) : Int) = 1 := rfl
  unfold KernelCall
  rcases scratch_touch (n := bs.length + 1) (by omega) E m with ⟨b, e1, t1⟩ | ⟨e1, nf⟩
  · obtain ⟨m1, hm1⟩ : ∃ m1, m1 = m.push b := ⟨_, rfl⟩
    rw [← hm1] at e1 t1
    have wf1 : m1.WF := hm1 ▸ wf.push b
    have x1 : Ext m m1 [m.next] := hm1 ▸ (Ext.refl wf).push b
    have hn1 : m1.next = m.next + 1 := by rw [hm1]; simp
    have hk1 : m1.blk m.next = some ⟨.own, b⟩ := by rw [hm1]; simp
    have g1 := h1.frame wf x1.toFrame
    have rda : rdAll (dimsCells T1.dims) (bs.length + 1) E m1 = .ok (ints (bs ++ [nM])) m1 := by
      rw [rdAll_prefix _ (by omega), s1]
      congr 2
      rw [List.take_append, List.take_of_length_le (by omega)]; simp
    have sz : ∀ m', sizeToDim bs.length (dimsCells T1.dims) E m' = .ok ((prod bs : Nat) : Int) m' := fun m' =>
      sizeToDim_run (fun hk => dimsCells_prefix s1 hk) (by omega) hpb
    have hfull := matFull_run (E := E) wf1 g1 he1.dtype hs (by rw [prod_snoc1]; exact hi) hz out
    rw [List.length_append, List.length_singleton] at hfull
    unfold Creates at hfull
    rcases hfull with ⟨R, mk, e, P⟩ | ⟨m', e, fr, wf', nf⟩
    · have H := P.after x1 (by simp [hn1])
      rcases batchRun_top (E := E) (nM := nM) (nK := nK) (nN := 1) (s1 := nM * nK) (s2 := 0) (s3 := nM * 1) (nb := prod bs)
        (aOf := fun i => i) (bOf := fun _ => 0) (offs := fun i => pure ((i : Int), 0)) (P := prod (bs ++ [nM]))
        wf h1 he1 h2 he2 H (by simp; have := P.ext.next; omega) rfl hnb (fun i m' hi => rfl)
        (fun i hi => Nat.le_trans (Nat.mul_le_mul_right _ (Nat.mul_le_mul_right _ (by omega))) hp1) (by simp)
        (fun i hi => Nat.le_trans (Nat.mul_le_mul_right _ (by rw [Nat.mul_one]; exact Nat.mul_le_mul_right _ (by omega))) hp3)
        with ⟨eb, nf⟩ | ⟨mk2, X, hc0, hG, hu⟩
      · right; left
        refine ⟨nf, ?_⟩
        rw [c0, c01] at eb
        rw [e0, hl]
        unfold matTV
        rw [ee, ee2]
        msimp [d1, d2, d3, e1, t1, g1.tDimsArr, Int.toNat_natCast, rda, of_ints, e, sz,
          mul_i64 hmk, hi1, eb]
      · right; right
        refine ⟨R, mk2, X, hc0, fun G hk => ?_, fun u hk => ?_⟩
        · obtain ⟨m2, eb, H2, hL⟩ := hG G hk
          refine ⟨m2.drop [m.next], ?_, H2.done (by simp) (by simp)⟩
          have hb2 : m2.blk m.next = some ⟨.own, b⟩ := by
            rw [hL _ (by simp), P.ext.same _ (by omega), hk1]
          rw [c0, c01] at eb
          rw [e0, hl]
          unfold matTV
          rw [ee, ee2]
          msimp [d1, d2, d3, e1, t1, g1.tDimsArr, Int.toNat_natCast, rda, of_ints, e, sz,
            mul_i64 hmk, hi1, eb, free_first hb2]
        · have eb := hu u hk
          rw [c0, c01] at eb
          rw [e0, hl]
          unfold matTV
          rw [ee, ee2]
          msimp [d1, d2, d3, e1, t1, g1.tDimsArr, Int.toNat_natCast, rda, of_ints, e, sz,
            mul_i64 hmk, hi1, eb]
    · left
      refine ⟨m', ?_, x1.toFrame.trans fr, wf', nf⟩
      rw [e0, hl]
      unfold matTV
      rw [ee, ee2]
      msimp [d1, d2, d3, e1, t1, g1.tDimsArr, Int.toNat_natCast, rda, of_ints, e]
  · right; left
    refine ⟨nf, ?_⟩
    rw [e0, hl]
    unfold matTV
    rw [ee, ee2]
    msimp [d1, d2, d3, e1, touch_null]

theorem matVT_top (s1 : T1.dims = [nK]) (s2 : T2.dims = bs ++ [nK, nN]) (hb : bs ≠ []) (hs : ShapeOK (bs ++ [nN]) c.size)
    (hi : prod bs * nN ≤ 2147483647) (hnb : prod bs ≤ 2147483647) :
    KernelCall E (matmul R1.h R2.h out) m out R1 R2 T1 T2 c xs ys (bs ++ [nN]) z
      (fun p => batchKernel c (.blk R1.p) (.blk R2.p) (.blk p) (batchList (prod bs) 0 (nK * nN) (1 * nN) (fun _ => 0) (fun i => i))
        (1 : Nat) nK nN (prod bs)) := by
  have hbl : 0 < bs.length := List.length_pos_iff.2 hb
  have hl : T2.dims.length = bs.length + 2 := by simp [s2]
  have hr := h2.shape.rank
  have e0 := matmul_vt (out := out) (E := E) h1 h2 c1 c2 (by simp [s1]) (by omega)
  have d1 := h1.dimI (E := E) (k := 0) (i := 0) (d := nK) rfl (by simp [s1])
  have d2 := h2.dimI (E := E) (k := (bs.length : Int)) (i := bs.length) (d := nK) (by omega) (by simp [s2])
  have d3 := h2.dimI (E := E) (k := ((bs.length + 1 : Nat) : Int)) (i := bs.length + 1) (d := nN) (by omega) (by simp [s2])
  have ee : ((bs.length + 2 : Nat) : Int) - 1 = ((bs.length + 1 : Nat) : Int) := by omega
  have ee2 : ((bs.length + 2 : Nat) : Int) - 2 = (bs.length : Int) := by omega
  have hp1 := he2.shape.bytes_le
  rw [s2, prod_snoc2] at hp1
  have hp3 := hs.bytes_le
  rw [prod_snoc1] at hp3
  have hcs := c.size_pos
  have hpm : prodMax T2.dims ≤ 9223372036854775807 := h2.shape.prodMax_le
  have hpb : prodMax bs ≤ 9223372036854775807 := by
    have := prodMax_take_le T2.dims bs.length
    rw [s2, List.take_left] at this
    rw [s2] at hpm; omega
  have hmk : nK * nN ≤ 9223372036854775807 := by
    have := prod_drop_le T2.dims bs.length
    rw [s2, List.drop_left] at this
    rw [s2] at hpm
    simp [prod] at this; omega
  have hm1' : 1 * nN ≤ 9223372036854775807 := by
    have := prod_drop_le (bs ++ [nN]) bs.length
    rw [List.drop_left] at this
    have h := hs.prodMax_le
    simp [prod] at this; omega
  have hi1 : ∀ m', i64 (1 * (nN : Int)) E m' = .ok ((1 * nN : Nat) : Int) m' := fun m' => mul_i64 (a := 1) hm1' E m'
  have c0 : ((0 : Nat) : Int) = 0 := rfl
  have c01 : ((1 : Nat) : Int) = 1 := rfl
  unfold KernelCall
  rcases scratch_touch (n := bs.length + 1) (by omega) E m with ⟨b, e1, t1⟩ | ⟨e1, nf⟩
  · obtain ⟨m1, hm1⟩ : ∃ m1, m1 = m.push b := ⟨_, rfl⟩
    rw [← hm1] at e1 t1
    have wf1 : m1.WF := hm1 ▸ wf.push b
    have x1 : Ext m m1 [m.next] := hm1 ▸ (Ext.refl wf).push b
    have hn1 : m1.next = m.next + 1 := by rw [hm1]; simp
    have hk1 : m1.blk m.next = some ⟨.own, b⟩ := by rw [hm1]; simp
    have g1 := h1.frame wf x1.toFrame
    have g2 := h2.frame wf x1.toFrame
    have rda : rdAll (dimsCells T2.dims) bs.length E m1 = .ok (ints bs) m1 := by
      rw [rdAll_prefix _ (by omega), s2, List.take_left]
    have hof : Arr.of (ints bs ++ [(nN : Int)]) = dimsCells (bs ++ [nN]) := by rw [← of_ints]; simp [ints]
    have sz : ∀ m', sizeToDim bs.length (dimsCells T2.dims) E m' = .ok ((prod bs : Nat) : Int) m' := fun m' =>
      sizeToDim_run (fun hk => dimsCells_prefix s2 hk) (by omega) hpb
    have hfull := matFull_run (E := E) wf1 g1 he1.dtype hs (by rw [prod_snoc1]; exact hi) hz out
    rw [List.length_append, List.length_singleton] at hfull
    unfold Creates at hfull
    rcases hfull with ⟨R, mk, e, P⟩ | ⟨m', e, fr, wf', nf⟩
    · have H := P.after x1 (by simp [hn1])
      rcases batchRun_top (E := E) (nM := 1) (nK := nK) (nN := nN) (s1 := 0) (s2 := nK * nN) (s3 := 1 * nN) (nb := prod bs)
        (aOf := fun _ => 0) (bOf := fun i => i) (offs := fun i => pure (0, (i : Int))) (P := prod (bs ++ [nN]))
        wf h1 he1 h2 he2 H (by simp; have := P.ext.next; omega) rfl hnb (fun i m' hi => rfl)
        (by simp) (fun i hi => Nat.le_trans (Nat.mul_le_mul_right _ (Nat.mul_le_mul_right _ (by omega))) hp1)
        (fun i hi => Nat.le_trans (Nat.mul_le_mul_right _ (by rw [Nat.one_mul]; exact Nat.mul_le_mul_right _ (by omega))) hp3)
        with ⟨eb, nf⟩ | ⟨mk2, X, hc0, hG, hu⟩
      · right; left
        refine ⟨nf, ?_⟩
        rw [c0, c01] at eb
        rw [e0, hl]
        unfold matVT
        rw [ee, ee2]
        msimp [d1, d2, d3, e1, t1, g2.tDimsArr, Int.toNat_natCast, rda, hof, e, sz,
          mul_i64 hmk, hi1, eb]
      · right; right
        refine ⟨R, mk2, X, hc0, fun G hk => ?_, fun u hk => ?_⟩
        · obtain ⟨m2, eb, H2, hL⟩ := hG G hk
          refine ⟨m2.drop [m.next], ?_, H2.done (by simp) (by simp)⟩
          have hb2 : m2.blk m.next = some ⟨.own, b⟩ := by
            rw [hL _ (by simp), P.ext.same _ (by omega), hk1]
          rw [c0, c01] at eb
          rw [e0, hl]
          unfold matVT
          rw [ee, ee2]
          msimp [d1, d2, d3, e1, t1, g2.tDimsArr, Int.toNat_natCast, rda, hof, e, sz,
            mul_i64 hmk, hi1, eb, free_first hb2]
        · have eb := hu u hk
          rw [c0, c01] at eb
          rw [e0, hl]
          unfold matVT
          rw [ee, ee2]
          msimp [d1, d2, d3, e1, t1, g2.tDimsArr, Int.toNat_natCast, rda, hof, e, sz,
            mul_i64 hmk, hi1, eb]
    · left
      refine ⟨m', ?_, x1.toFrame.trans fr, wf', nf⟩
      rw [e0, hl]
      unfold matVT
      rw [ee, ee2]
      msimp [d1, d2, d3, e1, t1, g2.tDimsArr, Int.toNat_natCast, rda, hof, e]
  · right; left
    refine ⟨nf, ?_⟩
    rw [e0, hl]
    unfold matVT
    rw [ee, ee2]
    msimp [d1, d2, d3, e1, touch_null]

end

end Aitisa
