import Verif.Proof.DotFill
import Verif.Proof.MatmulTV
import Verif.Proof.Binary

/-! # Dot product of a tensor and a vector, and of two tensors -/

namespace Aitisa

variable {E : Env} {m m' m0 m1 mi : Mem} {R R1 R2 Rv : Foot} {T T1 T2 Tv : TV} {c : Code} {xs ys zs : List Val} {z z0 w : Val}
  {L bs b1 b2 : List Nat} {q N i K l : Nat} {G : Nat → Option Val} {out : Ptr}

theorem dotCreate_run {ds : List Nat} (wf : m.WF) (h : At m R T) (hs : ShapeOK ds T.dtype.size) (out : Ptr) :
    Creates E (dotCreate R.h (ints ds) out) m out ⟨T.dtype, T.device, ds, List.replicate (prod ds * T.dtype.size) none⟩ := by
  unfold Creates dotCreate
  rw [of_ints, List.length_map]
  rcases scratch_run ds.length 8 E m with ⟨b, e⟩ | ⟨e, nf⟩
  · obtain ⟨ma, hma⟩ : ∃ ma, ma = m.push b := ⟨_, rfl⟩
    rw [← hma] at e
    have wfa : ma.WF := hma ▸ wf.push b
    have fa : Frame m ma := hma ▸ Frame.push _ _
    have ha := h.frame wf fa
    rcases create_run (E := E) wfa T.dtype T.device hs 0 .indet with ⟨R', m', ec, P⟩ | ⟨m', ec, f, wf', nf⟩
    · left
      have hb : m'.blk m.next = some ⟨.own, b⟩ := by rw [P.ext.same _ (by rw [hma]; simp), hma]; simp
      refine ⟨R', m'.drop [m.next], ?_, ?_⟩
      · msimp [e, ha.tDtype, ha.tDevice, ec, free_first (E := E) hb]
      · exact P.temps (L := [m.next]) (hma ▸ (by simpa using (Ext.refl wf).push b)) (by simp [hma]) (by simp)
    · right
      refine ⟨m', ?_, fa.trans f, wf', nf⟩
      msimp [e, ha.tDtype, ha.tDevice, ec]
  · right
    refine ⟨m.miss, ?_, Frame.miss _, wf.miss, nf⟩
    msimp [e]

/-- Outcomes of the filling of a created output. -/
def FillRuns (E : Env) (x : M Status) (m m1 : Mem) (R : Foot) (T : TV) : Prop :=
  (∃ m', x E m1 = .ok .success m' ∧ Produces m m' R T) ∨
  (¬ E.NoFail ∧ ((∃ m', x E m1 = .ok .allocFailed m' ∧ Frame m m' ∧ m'.WF) ∨ x E m1 = .ub .nullDeref))

theorem Holds.fill (H : Holds m m0 R T L) (F : Fill m0 m' R.p c N G) (hl : (encOpt c (tab N G)).length = T.bytes.length) :
    Holds m m' R { T with bytes := encOpt c (tab N G) } L where
  ext := by
    have hq := H.fresh R.p (by simp [mem_foot])
    refine ⟨⟨Nat.le_trans H.ext.next F.next, fun b hb => ?_⟩, F.wf, fun b hb hn => ?_⟩
    · have := H.ext.next
      rw [F.same b (by omega) (by omega), H.ext.same b hb]
    · by_cases h : m0.next ≤ b
      · exact absurd (F.clean b h) hn
      · by_cases e : b = R.p
        · simp [e, mem_foot]
        · rw [F.same b (by omega) e] at hn
          exact H.ext.live b hb hn
  tensor := by
    have := H.tensor.setData (bs := encOpt c (tab N G)) hl
    refine this.congr fun b hb => ?_
    by_cases e : b = R.p
    · rw [e, F.data]; simp
    · rw [Mem.set_blk_ne _ _ e, F.same b (H.tensor.lt H.ext.wf hb) e]
  fresh := H.fresh
  temps := H.temps

theorem Lost.toFrame (F : Lost m0 m' q) (f : Frame m m0) (hq : m.next ≤ q) : Frame m m' :=
  ⟨Nat.le_trans f.next F.next, fun b hb => by
    have := f.next
    rw [F.same b (by omega) (by omega), f.same b hb]⟩

theorem upTo_all {n : Nat} (hl : zs.length = n) : encOpt c (tab n (upTo (fun i => zs.getD i (.int 0)) n)) = encAll c zs := by
  rw [tab_congr (H := fun i => some (zs.getD i (.int 0))) (fun i hi => by simp [upTo, hi]), tab_some, tab_list hl, encAll_eq]

theorem upTo_zero (W : Nat → Val) (n : Nat) : encOpt c (tab n (upTo W 0)) = List.replicate (n * c.size) none := by
  rw [show upTo W 0 = fun _ => none by funext k; simp [upTo], tab_none, encOpt_replicate]

theorem run_forI32E {σ ρ : Type} {n : Nat} (h : n ≤ 2147483647) (s : σ) (f : Nat → σ → M (σ ⊕ ρ)) :
    forI32E (n : Int) s f = loopE f n 0 s := by
  unfold forI32E
  rw [if_pos (by unfold I32_MAX; omega), Int.toNat_natCast]

theorem vecAt_getD (a b : List Nat) (xs : List Val) (i : Nat) {k : Nat} (h : k < K) :
    (vecAt a K b xs i).getD k (.int 0) = elemAt (a ++ K :: b) xs (unlin a (i / prod b) ++ k :: unlin b (i % prod b)) := by
  simp [vecAt, h]

/-! ### Tensor and vector -/

theorem tvFill_run (wf : m.WF) (h1 : At m R1 T1) (he1 : Elems T1 c xs) (h2 : At m R2 T2) (he2 : Elems T2 c ys)
    (hz0 : ZeroOf E.fp c z0) (hz : cCast E.fp c (.int 0) = .ok z) (s1 : T1.dims = bs ++ [K]) (s2 : T2.dims = [K])
    (hK : K ≤ 2147483647) (hn : prod bs * c.size ≤ 2147483647) (h0 : 0 < prod bs → 0 < K) (hl : zs.length = prod bs)
    (hdot : ∀ i, i < prod bs → dotRun E.fp c z ((List.range K).map fun k =>
      ((vecAt bs K [] xs i).getD k (.int 0), ys.getD k (.int 0))) = .ok (zs.getD i (.int 0)))
    (P : Produces m m1 R ⟨c.dtype, T1.device, bs, List.replicate (prod bs * c.size) none⟩) :
    FillRuns E (tvFill R1.h R2.h R.h ((bs.length + 1 : Nat) : Int) (dimsCells T1.dims)) m m1 R ⟨c.dtype, T1.device, bs, encAll c zs⟩ := by
  obtain ⟨W, hW⟩ : ∃ W : Nat → Val, W = fun i => zs.getD i (.int 0) := ⟨_, rfl⟩
  have hcs := c.size_pos
  have hnb : prod bs ≤ 2147483647 := Nat.le_trans (Nat.le_mul_of_pos_right _ hcs) hn
  obtain ⟨pA, mA, KA, eA, HA, tA, kA, nA, fA⟩ := P.holds.scratch (E := E) ((bs.length + 1 : Nat) : Int) 4
  obtain ⟨pB, mB, KB, eB, HB, tB, kB, nB, fB⟩ := HA.scratch (E := E) ((bs.length + 1 : Nat) : Int) 4
  obtain ⟨pC, mC, KC, eC, HC, tC, kC, nC, fC⟩ := HB.scratch (E := E) ((bs.length + 1 : Nat) : Int) 4
  replace tA := tA.congr (m' := mC) fun k hk => (fB.trans fC).same k (kA k hk).2
  replace tB := tB.congr (m' := mC) fun k hk => fC.same k (kB k hk).2
  by_cases hnull : pA = .null ∨ pB = .null ∨ pC = .null
  · right
    refine ⟨by rcases hnull with h | h | h <;> [exact nA h; exact nB h; exact nC h], .inl ⟨mC, ?_, HC.ext.toFrame, HC.ext.wf⟩⟩
    unfold tvFill
    msimp [eA, eB, eC, hnull]
  have g1 := h1.frame wf HC.ext.toFrame
  have g2 := h2.frame wf HC.ext.toFrame
  have hq : R.p < mC.next := HC.tensor.lt HC.ext.wf (by simp [mem_foot])
  have hqm : m.next ≤ R.p := P.fresh R.p (by simp [mem_foot])
  have hq1 : R.p ∉ R1.list := fun h => by have := h1.lt wf h; omega
  have hq2 : R.p ∉ R2.list := fun h => by have := h2.lt wf h; omega
  have hpm : prodMax T1.dims ≤ 9223372036854775807 := h1.shape.prodMax_le
  have hlen : T1.dims.length = bs.length + 1 := by rw [s1]; simp
  have hrank : bs.length ≤ 2147483647 := by have := h1.shape.rank; omega
  have hsz : sizeToDim (((bs.length + 1 : Nat) : Int) - 1) (dimsCells T1.dims) E mC = .ok ((prod bs : Nat) : Int) mC := by
    rw [show ((bs.length + 1 : Nat) : Int) - 1 = (bs.length : Int) by omega]
    exact sizeToDim_run (fun hk => dimsCells_prefix s1 hk) hrank (by
      rw [s1, prodMax_append] at hpm; exact Nat.le_trans (Nat.le_mul_of_pos_right _ (prodMax_pos _)) hpm)
  have hrd : rdAll (dimsCells T1.dims) (((bs.length + 1 : Nat) : Int)).toNat E mC = .ok (ints T1.dims) mC := by
    rw [Int.toNat_natCast, ← hlen]; exact rdAll_dims _
  have hF0 : Fill mC mC R.p c (prod bs) (upTo W 0) := Fill.refl HC.ext.wf (by
    rw [upTo_zero]; exact HC.tensor.data)
  have hp1 : prod bs * prod ([] : List Nat) = prod bs := by simp [prod]
  have hloop := loopE_cut (E := E) (m0 := mC) (q := R.p)
    (fun (i : Nat) (idx : List Int) => dotStep (vecsOf R1.h (ints T1.dims) (((bs.length + 1 : Nat) : Int) - 1).toNat)
      (fun v => dotCell v R2.h (.blk R.p) c.size (i32 ((i : Int) * c.size))) idx)
    (fun i s m' => s = ints (vecIdx bs [] (if i < prod bs then i else 0)) ∧ Fill mC m' R.p c (prod bs) (upTo W i)) (prod bs)
    (s := (ints T1.dims).map fun _ => (0 : Int)) (m := mC) (by
      rintro i s mi hi ⟨rfl, F⟩
      rw [if_pos hi, show (((bs.length + 1 : Nat) : Int) - 1).toNat = bs.length by omega]
      have hoff : ∀ m' : Mem, i32 ((i : Int) * c.size) E m' = .ok ((i * c.size : Nat) : Int) m' := fun m' => by
        rw [← Int.natCast_mul]
        refine run_i32 ?_ E m'
        have : i * c.size ≤ prod bs * c.size := Nat.mul_le_mul_right _ (by omega)
        unfold I32_MIN I32_MAX; omega
      have := dotStep_run (E := E) (a := bs) (b := []) (K := K) (j := i) (i := i) (w := W i) (N := prod bs) (mi := mi)
        (cell := fun v => dotCell v R2.h (.blk R.p) c.size (i32 ((i : Int) * c.size))) HC.ext.wf g1 he1 hq hq1 s1
        (by rw [hp1]; exact hi) (by rw [hp1]; exact hnb) (h0 (by omega)) hK F (by
          intro Ry my Py
          have hv := vecAt_WT (a := bs) (b := []) (K := K) (i := i) he1 s1 (by rw [hp1]; exact hi)
          refine dotCell_run Py.ext.wf Py.tensor ⟨rfl, rfl, hv.1, by simpa [prod] using hv.2⟩
            ((F.at HC.ext.wf g2 hq2).frame F.wf Py.ext.toFrame) he2 hz0 hz rfl s2 hK ?_ hi hoff (by rw [hW]; exact hdot i hi)
          rw [Py.ext.same _ (by have := F.next; omega), F.data])
      rw [hp1, upTo_succ] at this
      rcases this with ⟨m', e, F'⟩ | hc
      · exact .inl ⟨_, m', e, rfl, F'⟩
      · exact .inr hc)
    ⟨by rw [s1, ite_self]; exact (vecIdx_zero _ _ _).symm, hF0⟩
  have hrun : ∀ r, loopE (fun (i : Nat) (idx : List Int) => dotStep (vecsOf R1.h (ints T1.dims) (((bs.length + 1 : Nat) : Int) - 1).toNat)
      (fun v => dotCell v R2.h (.blk R.p) c.size (i32 ((i : Int) * c.size))) idx) (prod bs) 0
      ((ints T1.dims).map fun _ => (0 : Int)) E mC = r →
      tvFill R1.h R2.h R.h ((bs.length + 1 : Nat) : Int) (dimsCells T1.dims) E m1 = r.andThen fun a m' => (match a with
        | .inr st => pure st
        | .inl _ => do
          rawFree pA
          rawFree pB
          rawFree pC
          return Status.success) E m' := by
    intro r hr
    unfold tvFill
    msimp [eA, eB, eC, hnull, hrd, hsz, HC.tensor.tData, HC.tensor.tDtype, run_forI32E hnb, show c.dtype.size = c.size from rfl]
    rw [hr]; try rfl
  rcases hloop with ⟨s, m5, e, -, F⟩ | ⟨nf, ⟨m', e, hL⟩ | e⟩
  · left
    have H5 := HC.fill F (by rw [hW, upTo_all hl, encAll_length, hl]; simp)
    rw [hW, upTo_all hl] at H5
    have tm : ∀ k ∈ KC ++ (KB ++ (KA ++ [])), m5.blk k = mC.blk k := fun k hk =>
      F.same k (by
        have := fA.next; have := fB.next; have := fC.next
        simp at hk
        rcases hk with h | h | h
        · exact (kC k h).2
        · have := (kB k h).2; omega
        · have := (kA k h).2; omega) (fun e => (HC.temps k hk).2 (by simp [mem_foot, e]))
    have uA := tA.congr (m' := m5) fun k hk => tm k (by simp [hk])
    have uB := tB.congr (m' := m5) fun k hk => tm k (by simp [hk])
    have uC := tC.congr (m' := m5) fun k hk => tm k (by simp [hk])
    have rA := uA.free (E := E) (D := []) (by simp)
    rw [show m5.drop [] = m5 from by simp [Mem.drop]] at rA
    have rB := uB.free (E := E) (D := KA ++ []) (by
      intro k hk h; simp at h; have := kB k hk; have := kA k h; omega)
    have nxB := fB.next
    have rC := uC.free (E := E) (D := KB ++ (KA ++ [])) (by
      intro k hk h; simp at h
      rcases h with h | h
      · have := kB k h; have := kC k hk; omega
      · have := kA k h; have := kC k hk; omega)
    refine ⟨m5.drop (KC ++ (KB ++ (KA ++ []))), ?_, H5.done (by simp) (by simp)⟩
    rw [hrun _ e]
    msimp [rA, rB, rC]
  · right
    exact ⟨nf, .inl ⟨m', by rw [hrun _ e]; rfl, hL.toFrame HC.ext.toFrame hqm, hL.wf⟩⟩
  · right
    exact ⟨nf, .inr (by rw [hrun _ e]; rfl)⟩

theorem tvDot_run (wf : m.WF) (h1 : At m R1 T1) (he1 : Elems T1 c xs) (h2 : At m R2 T2) (he2 : Elems T2 c ys)
    (hz0 : ZeroOf E.fp c z0) (hz : cCast E.fp c (.int 0) = .ok z) (s1 : T1.dims = bs ++ [K]) (s2 : T2.dims = [K])
    (hK : K ≤ 2147483647) (hn : prod bs * c.size ≤ 2147483647) (h0 : 0 < prod bs → 0 < K) (hl : zs.length = prod bs)
    (hdot : ∀ i, i < prod bs → dotRun E.fp c z ((List.range K).map fun k =>
      ((vecAt bs K [] xs i).getD k (.int 0), ys.getD k (.int 0))) = .ok (zs.getD i (.int 0))) (out : Ptr) :
    Attempts E (tvDot R1.h R2.h out) m ⟨c.dtype, T1.device, bs, encAll c zs⟩ := by
  have hlen : T1.dims.length = bs.length + 1 := by rw [s1]; simp
  have r1 : (dimsCells T1.dims).rd (((bs.length + 1 : Nat) : Int) - 1) E m = .ok (K : Int) m := by
    rw [show ((bs.length + 1 : Nat) : Int) - 1 = ((bs.length : Nat) : Int) by omega, rd_dims (by omega)]
    simp [s1]
  have r2 : (dimsCells T2.dims).rd 0 E m = .ok (K : Int) m := by
    have := rd_dims (E := E) (m := m) (ds := T2.dims) (i := 0) (by simp [s2])
    rw [show ((0 : Nat) : Int) = 0 from rfl] at this
    rw [this]; simp [s2]
  have r3 : rdAll (dimsCells T1.dims) (((bs.length + 1 : Nat) : Int) - 1).toNat E m = .ok (ints bs) m := by
    rw [show (((bs.length + 1 : Nat) : Int) - 1).toNat = bs.length by omega, rdAll_prefix _ (by omega), s1]
    simp
  have hs : ShapeOK bs T1.dtype.size := by
    refine ⟨Nat.le_trans (Nat.mul_le_mul_right _ ?_) h1.shape.fits, by have := h1.shape.rank; omega⟩
    rw [s1, prodMax_append]; exact Nat.le_mul_of_pos_right _ (prodMax_pos _)
  have hcr := dotCreate_run (E := E) wf h1 hs out
  rw [he1.dtype] at hcr
  unfold Attempts tvDot
  rcases hcr with ⟨R, ma, e, P⟩ | ⟨m', e, f, wf', nf⟩
  · rcases tvFill_run wf h1 he1 h2 he2 hz0 hz s1 s2 hK hn h0 hl hdot P with ⟨m', ef, P'⟩ | ⟨nf, ⟨m', ef, f, wf'⟩ | ef⟩
    · left
      refine ⟨R, m', ?_, P'⟩
      msimp [h1.tNdim, hlen, h1.tDimsArr, h2.tDimsArr, r1, r2, r3, e, ef]
    · right
      refine ⟨nf, .inl ⟨R.h, m', ?_, f, wf'⟩⟩
      msimp [h1.tNdim, hlen, h1.tDimsArr, h2.tDimsArr, r1, r2, r3, e, ef]
    · right
      refine ⟨nf, .inr ?_⟩
      msimp [h1.tNdim, hlen, h1.tDimsArr, h2.tDimsArr, r1, r2, r3, e, ef]
  · right
    refine ⟨nf, .inl ⟨out, m', ?_, f, wf'⟩⟩
    msimp [h1.tNdim, hlen, h1.tDimsArr, h2.tDimsArr, r1, r2, r3, e]

/-! ### Two tensors -/

theorem mdOff_run {i1 nv2 i2 sz : Nat} (h : (i1 * nv2 + i2) * sz ≤ 9223372036854775807) (hsz : 0 < sz) :
    mdOff i1 nv2 i2 sz E m = .ok (((i1 * nv2 + i2) * sz : Nat) : Int) m := by
  have h' : i1 * nv2 + i2 ≤ (i1 * nv2 + i2) * sz := Nat.le_mul_of_pos_right _ hsz
  unfold mdOff
  msimp [mul_i64 (a := i1) (b := nv2) (by omega), add_i64 (a := i1 * nv2) (b := i2) (by omega), mul_i64 (a := i1 * nv2 + i2) (b := sz) h]

theorem mdRow_run {W : Nat → Val} {nv2 i1 : Nat} (wf : m0.WF) (h1 : At m0 R1 T1) (he1 : Elems T1 c xs) (h2 : At m0 R2 T2)
    (he2 : Elems T2 c ys)
    (hz0 : ZeroOf E.fp c z0) (hz : cCast E.fp c (.int 0) = .ok z) (s1 : T1.dims = b1 ++ [K]) (s2 : T2.dims = b2 ++ [K, l])
    (h0 : 0 < K) (hK : K ≤ 2147483647) (hn1 : prod b1 ≤ 2147483647) (hnv : nv2 = prod b2 * l) (hn2 : nv2 ≤ 2147483647)
    (hb : prod b1 * nv2 * c.size ≤ 9223372036854775807) (hi : i1 < prod b1)
    (hq : q < m0.next) (hq1 : q ∉ R1.list) (hq2 : q ∉ R2.list)
    (hdot : ∀ j, j < nv2 → dotRun E.fp c z ((List.range K).map fun k =>
      ((vecAt b1 K [] xs i1).getD k (.int 0), (vecAt b2 K [l] ys j).getD k (.int 0))) = .ok (W (i1 * nv2 + j)))
    (F : Fill m0 mi q c (prod b1 * nv2) (upTo W (i1 * nv2))) :
    (∃ m', mdRow (vecsOf R1.h (ints T1.dims) b1.length) (vecsOf R2.h (ints T2.dims) b2.length) (.blk q) c.size (nv2 : Int) i1
        (ints (vecIdx b1 [] i1), ints (vecIdx b2 [l] 0)) E mi =
        .ok (.inl (ints (vecIdx b1 [] (if i1 + 1 < prod b1 then i1 + 1 else 0)), ints (vecIdx b2 [l] 0))) m' ∧
      Fill m0 m' q c (prod b1 * nv2) (upTo W ((i1 + 1) * nv2))) ∨
    Cut E m0 q (mdRow (vecsOf R1.h (ints T1.dims) b1.length) (vecsOf R2.h (ints T2.dims) b2.length) (.blk q) c.size (nv2 : Int) i1
        (ints (vecIdx b1 [] i1), ints (vecIdx b2 [l] 0)) E mi) := by
  have hp1 : prod b1 * prod ([] : List Nat) = prod b1 := by simp [prod]
  have hp2 : prod b2 * prod [l] = nv2 := by rw [hnv]; simp [prod]
  have hcs := c.size_pos
  unfold mdRow
  rcases vecGet_run (E := E) (i := i1) F.wf (F.at wf h1 hq1) he1 s1 (by rw [hp1]; exact hi) (by rw [hp1]; exact hn1) h0 hK with
    ⟨Rx, mx, ex, Px⟩ | ⟨nf, ⟨o, m', e, f, wf'⟩ | e⟩
  · have hv1 := vecAt_WT (a := b1) (b := []) (K := K) (i := i1) he1 s1 (by rw [hp1]; exact hi)
    have hqx : q < mx.next := by have := F.next; have := Px.ext.next; omega
    have hqX : q ∉ Rx.list := fun h => by have := Px.fresh q h; have := F.next; omega
    have g2 := (F.at wf h2 hq2).frame F.wf Px.ext.toFrame
    have hF0 : Fill mx mx q c (prod b1 * nv2) (upTo W (i1 * nv2 + 0)) := Fill.refl Px.ext.wf (by
      rw [Px.ext.same q (by have := F.next; omega), F.data]; rfl)
    have hloop := loopE_cut (E := E) (m0 := mx) (q := q)
      (fun (i2 : Nat) (idx : List Int) => dotStep (vecsOf R2.h (ints T2.dims) b2.length)
        (fun y => dotCell Rx.h y (.blk q) c.size (mdOff (i1 : Int) (nv2 : Int) (i2 : Int) c.size)) idx)
      (fun j s m' => s = ints (vecIdx b2 [l] (if j < nv2 then j else 0)) ∧ Fill mx m' q c (prod b1 * nv2) (upTo W (i1 * nv2 + j))) nv2
      (s := ints (vecIdx b2 [l] 0)) (m := mx) (by
        rintro j s mj hj ⟨rfl, Fj⟩
        rw [if_pos hj]
        have hle : i1 * nv2 + j < prod b1 * nv2 := by
          have : (i1 + 1) * nv2 ≤ prod b1 * nv2 := Nat.mul_le_mul_right _ hi
          rw [Nat.succ_mul] at this; omega
        have hoff : ∀ m' : Mem, mdOff (i1 : Int) (nv2 : Int) (j : Int) c.size E m' = .ok (((i1 * nv2 + j) * c.size : Nat) : Int) m' := fun m' =>
          mdOff_run (Nat.le_trans (Nat.mul_le_mul_right _ (Nat.le_of_lt hle)) hb) hcs
        have := dotStep_run (E := E) (a := b2) (b := [l]) (K := K) (j := j) (i := i1 * nv2 + j) (w := W (i1 * nv2 + j))
          (N := prod b1 * nv2) (mi := mj)
          (cell := fun y => dotCell Rx.h y (.blk q) c.size (mdOff (i1 : Int) (nv2 : Int) (j : Int) c.size)) Px.ext.wf g2 he2 hqx hq2 s2
          (by rw [hp2]; exact hj) (by rw [hp2]; exact hn2) h0 hK Fj (by
            intro Ry my Py
            have hv := vecAt_WT (a := b2) (b := [l]) (K := K) (i := j) he2 s2 (by rw [hp2]; exact hj)
            refine dotCell_run Py.ext.wf ((Fj.at Px.ext.wf Px.tensor hqX).frame Fj.wf Py.ext.toFrame)
              ⟨rfl, rfl, hv1.1, by simpa [prod] using hv1.2⟩
              Py.tensor ⟨rfl, rfl, hv.1, by simpa [prod] using hv.2⟩ hz0 hz rfl rfl hK ?_ hle hoff (hdot j hj)
            rw [Py.ext.same _ (by have := Fj.next; omega), Fj.data])
        rw [hp2, upTo_succ] at this
        rcases this with ⟨m', e, F'⟩ | hc
        · exact .inl ⟨_, m', e, rfl, F'⟩
        · exact .inr hc)
      ⟨by rw [ite_self], hF0⟩
    rcases hloop with ⟨s, m5, e, hs, F5⟩ | ⟨nf, ⟨m', e, hL⟩ | e⟩
    · left
      rw [if_neg (Nat.lt_irrefl _)] at hs
      obtain ⟨ed, Fd⟩ := F.release (E := E) Px F5 hq
      refine ⟨m5.drop Rx.list, ?_, by rw [Nat.succ_mul]; exact Fd⟩
      have hvn := vecNext (a := b1) (b := []) (i := i1) (K := K) (by rw [hp1]; exact hi) R1.h hK
      rw [hp1, ← s1] at hvn
      msimp [ex, run_forI32E hn2, e, ed]
      rw [hvn, hs]
    · right
      refine ⟨nf, .inl ⟨m', ?_, (F.toLost.frame Px.ext.toFrame Px.ext.wf).trans hL⟩⟩
      msimp [ex, run_forI32E hn2, e]
    · right
      refine ⟨nf, .inr ?_⟩
      msimp [ex, run_forI32E hn2, e]
  · right
    refine ⟨nf, .inl ⟨m', ?_, F.toLost.frame f wf'⟩⟩
    msimp [e]
  · right
    refine ⟨nf, .inr ?_⟩
    msimp [e]

theorem mdFill_run (wf : m.WF) (h1 : At m R1 T1) (he1 : Elems T1 c xs) (h2 : At m R2 T2) (he2 : Elems T2 c ys)
    (hz0 : ZeroOf E.fp c z0) (hz : cCast E.fp c (.int 0) = .ok z) (s1 : T1.dims = b1 ++ [K]) (s2 : T2.dims = b2 ++ [K, l])
    (h0 : 0 < K) (hK : K ≤ 2147483647) (hn1 : prod b1 ≤ 2147483647) (hn2 : prod b2 * l ≤ 2147483647)
    (hb : prod b1 * (prod b2 * l) * c.size ≤ 9223372036854775807) (hl : zs.length = prod b1 * (prod b2 * l))
    (hdot : ∀ i, i < prod b1 → ∀ j, j < prod b2 * l → dotRun E.fp c z ((List.range K).map fun k =>
      ((vecAt b1 K [] xs i).getD k (.int 0), (vecAt b2 K [l] ys j).getD k (.int 0))) = .ok (zs.getD (i * (prod b2 * l) + j) (.int 0)))
    {ds : List Nat} (hds : prod ds = prod b1 * (prod b2 * l))
    (P : Produces m m1 R ⟨c.dtype, T1.device, ds, List.replicate (prod ds * c.size) none⟩) :
    FillRuns E (mdFill R1.h R2.h R.h ((b1.length + 1 : Nat) : Int) ((b2.length + 2 : Nat) : Int) (dimsCells T1.dims) (dimsCells T2.dims))
      m m1 R ⟨c.dtype, T1.device, ds, encAll c zs⟩ := by
  obtain ⟨W, hW⟩ : ∃ W : Nat → Val, W = fun i => zs.getD i (.int 0) := ⟨_, rfl⟩
  obtain ⟨nv2, hnv⟩ : ∃ nv2, nv2 = prod b2 * l := ⟨_, rfl⟩
  rw [← hnv] at hn2 hb hl hdot hds
  obtain ⟨pA, mA, KA, eA, HA, tA, kA, nA, fA⟩ := P.holds.scratch (E := E) ((b1.length + 1 : Nat) : Int) 4
  obtain ⟨pB, mB, KB, eB, HB, tB, kB, nB, fB⟩ := HA.scratch (E := E) ((b2.length + 2 : Nat) : Int) 4
  obtain ⟨pC, mC, KC, eC, HC, tC, kC, nC, fC⟩ := HB.scratch (E := E) ((b1.length + 1 : Nat) : Int) 4
  obtain ⟨pD, mD, KD, eD, HD, tD, kD, nD, fD⟩ := HC.scratch (E := E) ((b2.length + 2 : Nat) : Int) 4
  obtain ⟨pE, mE, KE, eE, HE, tE, kE, nE, fE⟩ := HD.scratch (E := E) ((b1.length + 1 : Nat) : Int) 4
  obtain ⟨pF, mF, KF, eF, HF, tF, kF, nF, fF⟩ := HE.scratch (E := E) ((b2.length + 2 : Nat) : Int) 4
  replace tA := tA.congr (m' := mF) fun k hk => (fB.trans (fC.trans (fD.trans (fE.trans fF)))).same k (kA k hk).2
  replace tB := tB.congr (m' := mF) fun k hk => (fC.trans (fD.trans (fE.trans fF))).same k (kB k hk).2
  replace tC := tC.congr (m' := mF) fun k hk => (fD.trans (fE.trans fF)).same k (kC k hk).2
  replace tD := tD.congr (m' := mF) fun k hk => (fE.trans fF).same k (kD k hk).2
  replace tE := tE.congr (m' := mF) fun k hk => fF.same k (kE k hk).2
  have xA := fA.next
  have xB := fB.next
  have xC := fC.next
  have xD := fD.next
  have xE := fE.next
  have xF := fF.next
  by_cases hnull : pA = .null ∨ pB = .null ∨ pC = .null ∨ pD = .null ∨ pE = .null ∨ pF = .null
  · right
    refine ⟨by rcases hnull with h | h | h | h | h | h <;> [exact nA h; exact nB h; exact nC h; exact nD h; exact nE h; exact nF h],
      .inl ⟨mF, ?_, HF.ext.toFrame, HF.ext.wf⟩⟩
    unfold mdFill
    msimp [eA, eB, eC, eD, eE, eF, hnull]
  have g1 := h1.frame wf HF.ext.toFrame
  have g2 := h2.frame wf HF.ext.toFrame
  have hq : R.p < mF.next := HF.tensor.lt HF.ext.wf (by simp [mem_foot])
  have hqm : m.next ≤ R.p := P.fresh R.p (by simp [mem_foot])
  have hq1 : R.p ∉ R1.list := fun h => by have := h1.lt wf h; omega
  have hq2 : R.p ∉ R2.list := fun h => by have := h2.lt wf h; omega
  have hpm : prodMax T1.dims ≤ 9223372036854775807 := h1.shape.prodMax_le
  have hlen1 : T1.dims.length = b1.length + 1 := by rw [s1]; simp
  have hlen2 : T2.dims.length = b2.length + 2 := by rw [s2]; simp
  have hrank : b1.length ≤ 2147483647 := by have := h1.shape.rank; omega
  have hsz : sizeToDim (((b1.length + 1 : Nat) : Int) - 1) (dimsCells T1.dims) E mF = .ok ((prod b1 : Nat) : Int) mF := by
    rw [show ((b1.length + 1 : Nat) : Int) - 1 = (b1.length : Int) by omega]
    exact sizeToDim_run (fun hk => dimsCells_prefix s1 hk) hrank (by
      rw [s1, prodMax_append] at hpm; exact Nat.le_trans (Nat.le_mul_of_pos_right _ (prodMax_pos _)) hpm)
  have hrd1 : rdAll (dimsCells T1.dims) (((b1.length + 1 : Nat) : Int)).toNat E mF = .ok (ints T1.dims) mF := by
    rw [Int.toNat_natCast, ← hlen1]; exact rdAll_dims _
  have hrd2 : rdAll (dimsCells T2.dims) (((b2.length + 2 : Nat) : Int)).toNat E mF = .ok (ints T2.dims) mF := by
    rw [Int.toNat_natCast, ← hlen2]; exact rdAll_dims _
  have hcount : mdCount (dimsCells T2.dims) ((b2.length + 2 : Nat) : Int) E mF = .ok (nv2 : Int) mF := by
    unfold mdCount
    have hso := sizeOfDims_run (ds := T2.dims) h2.shape.rank (fun k _ => h2.shape.prefix k) E mF
    have hr : (dimsCells T2.dims).rd (((b2.length + 2 : Nat) : Int) - 2) E mF = .ok (K : Int) mF := by
      rw [show ((b2.length + 2 : Nat) : Int) - 2 = ((b2.length : Nat) : Int) by omega, rd_dims (by omega)]
      simp [s2]
    rw [hlen2] at hso
    msimp [hso, hr]
    rw [if_neg (by omega), s2, show prod (b2 ++ [K, l]) = prod b2 * l * K by
      simp only [prod_append, prod, Nat.mul_one]; rw [Nat.mul_assoc, Nat.mul_comm K], ← hnv]
    rw [Int.natCast_mul, Int.mul_tdiv_cancel _ (by omega)]
  have hF0 : Fill mF mF R.p c (prod b1 * nv2) (upTo W (0 * nv2)) := Fill.refl HF.ext.wf (by
    rw [Nat.zero_mul, upTo_zero, ← hds]; exact HF.tensor.data)
  obtain ⟨V1, hV1⟩ : ∃ V, V = vecsOf R1.h (ints T1.dims) (((b1.length + 1 : Nat) : Int) - 1).toNat := ⟨_, rfl⟩
  obtain ⟨V2, hV2⟩ : ∃ V, V = vecsOf R2.h (ints T2.dims) (((b2.length + 2 : Nat) : Int) - 2).toNat := ⟨_, rfl⟩
  have hloop := loopE_cut (E := E) (m0 := mF) (q := R.p) (mdRow V1 V2 (.blk R.p) c.size (nv2 : Int))
    (fun i s m' => s = (ints (vecIdx b1 [] (if i < prod b1 then i else 0)), ints (vecIdx b2 [l] 0)) ∧
      Fill mF m' R.p c (prod b1 * nv2) (upTo W (i * nv2))) (prod b1)
    (s := ((ints T1.dims).map fun _ => (0 : Int), (ints T2.dims).map fun _ => (0 : Int))) (m := mF) (by
      rintro i s mi hi ⟨rfl, F⟩
      rw [if_pos hi, hV1, hV2, show (((b1.length + 1 : Nat) : Int) - 1).toNat = b1.length by omega,
        show (((b2.length + 2 : Nat) : Int) - 2).toNat = b2.length by omega]
      rcases mdRow_run (E := E) (W := W) (nv2 := nv2) (i1 := i) HF.ext.wf g1 he1 g2 he2 hz0 hz s1 s2 h0 hK hn1 hnv hn2 hb hi hq hq1 hq2
        (by rw [hW]; exact hdot i hi) F with ⟨m', e, F'⟩ | hc
      · exact .inl ⟨_, m', e, rfl, F'⟩
      · exact .inr hc)
    ⟨by rw [s1, s2, ite_self]; rw [← vecIdx_zero, ← vecIdx_zero], hF0⟩
  have hrun : ∀ r, loopE (mdRow V1 V2 (.blk R.p) c.size (nv2 : Int)) (prod b1) 0
      ((ints T1.dims).map fun _ => (0 : Int), (ints T2.dims).map fun _ => (0 : Int)) E mF = r →
      mdFill R1.h R2.h R.h ((b1.length + 1 : Nat) : Int) ((b2.length + 2 : Nat) : Int) (dimsCells T1.dims) (dimsCells T2.dims) E m1 =
        r.andThen fun a m' => (match a with
        | .inr st => pure st
        | .inl _ => do
          free6 pA pB pC pD pE pF
          return Status.success) E m' := by
    intro r hr
    unfold mdFill
    msimp [eA, eB, eC, eD, eE, eF, hnull, hrd1, hrd2, hsz, hcount, HF.tensor.tData, HF.tensor.tDtype, run_forI32E hn1,
      show c.dtype.size = c.size from rfl]
    rw [← hV1, ← hV2, hr]; try rfl
  rcases hloop with ⟨s, m5, e, -, F⟩ | ⟨nf, ⟨m', e, hL⟩ | e⟩
  · left
    rw [← hds] at F
    have H5 := HF.fill F (by rw [hW, upTo_all (hl.trans hds.symm), encAll_length, hl, hds]; simp)
    rw [hW, upTo_all (hl.trans hds.symm)] at H5
    have tm : ∀ k ∈ KF ++ (KE ++ (KD ++ (KC ++ (KB ++ (KA ++ []))))), m5.blk k = mF.blk k := fun k hk =>
      F.same k (by
        simp at hk
        rcases hk with h | h | h | h | h | h
        · have := (kF k h).2; omega
        · have := (kE k h).2; omega
        · have := (kD k h).2; omega
        · have := (kC k h).2; omega
        · have := (kB k h).2; omega
        · have := (kA k h).2; omega) (fun e => (HF.temps k hk).2 (by simp [mem_foot, e]))
    have uA := tA.congr (m' := m5) fun k hk => tm k (by simp [hk])
    have uB := tB.congr (m' := m5) fun k hk => tm k (by simp [hk])
    have uC := tC.congr (m' := m5) fun k hk => tm k (by simp [hk])
    have uD := tD.congr (m' := m5) fun k hk => tm k (by simp [hk])
    have uE := tE.congr (m' := m5) fun k hk => tm k (by simp [hk])
    have uF := tF.congr (m' := m5) fun k hk => tm k (by simp [hk])
    have rA := uA.free (E := E) (D := []) (by simp)
    rw [show m5.drop [] = m5 from by simp [Mem.drop]] at rA
    have rC := uC.free (E := E) (D := (KA ++ [])) (by
      intro k hk h; simp at h; have := kC k hk
      have := kA k h; omega)
    have rE := uE.free (E := E) (D := (KC ++ (KA ++ []))) (by
      intro k hk h; simp at h; have := kE k hk
      rcases h with h | h
      · have := kC k h; omega
      · have := kA k h; omega)
    have rB := uB.free (E := E) (D := (KE ++ (KC ++ (KA ++ [])))) (by
      intro k hk h; simp at h; have := kB k hk
      rcases h with h | h | h
      · have := kE k h; omega
      · have := kC k h; omega
      · have := kA k h; omega)
    have rD := uD.free (E := E) (D := (KB ++ (KE ++ (KC ++ (KA ++ []))))) (by
      intro k hk h; simp at h; have := kD k hk
      rcases h with h | h | h | h
      · have := kB k h; omega
      · have := kE k h; omega
      · have := kC k h; omega
      · have := kA k h; omega)
    have rF := uF.free (E := E) (D := (KD ++ (KB ++ (KE ++ (KC ++ (KA ++ [])))))) (by
      intro k hk h; simp at h; have := kF k hk
      rcases h with h | h | h | h | h
      · have := kD k h; omega
      · have := kB k h; omega
      · have := kE k h; omega
      · have := kC k h; omega
      · have := kA k h; omega)
    refine ⟨m5.drop (KF ++ (KD ++ (KB ++ (KE ++ (KC ++ (KA ++ [])))))), ?_, H5.done (by
      intro b hb; simp at hb ⊢; rcases hb with h | h | h | h | h | h <;> simp [h]) (by
      intro b hb; simp at hb ⊢; rcases hb with h | h | h | h | h | h <;> simp [h])⟩
    rw [hrun _ e]
    unfold free6
    msimp [rA, rC, rE, rB, rD, rF]
  · right
    exact ⟨nf, .inl ⟨m', by rw [hrun _ e]; rfl, hL.toFrame HF.ext.toFrame hqm, hL.wf⟩⟩
  · right
    exact ⟨nf, .inr (by rw [hrun _ e]; rfl)⟩

theorem mdDot_run (wf : m.WF) (h1 : At m R1 T1) (he1 : Elems T1 c xs) (h2 : At m R2 T2) (he2 : Elems T2 c ys)
    (hz0 : ZeroOf E.fp c z0) (hz : cCast E.fp c (.int 0) = .ok z) (s1 : T1.dims = b1 ++ [K]) (s2 : T2.dims = b2 ++ [K, l])
    (h0 : 0 < K) (hK : K ≤ 2147483647) (hn1 : prod b1 ≤ 2147483647) (hn2 : prod b2 * l ≤ 2147483647)
    (hs : ShapeOK (b1 ++ b2 ++ [l]) c.size) (hl : zs.length = prod b1 * (prod b2 * l))
    (hdot : ∀ i, i < prod b1 → ∀ j, j < prod b2 * l → dotRun E.fp c z ((List.range K).map fun k =>
      ((vecAt b1 K [] xs i).getD k (.int 0), (vecAt b2 K [l] ys j).getD k (.int 0))) = .ok (zs.getD (i * (prod b2 * l) + j) (.int 0)))
    (out : Ptr) :
    Attempts E (mdDot R1.h R2.h out) m ⟨c.dtype, T1.device, b1 ++ b2 ++ [l], encAll c zs⟩ := by
  have hlen1 : T1.dims.length = b1.length + 1 := by rw [s1]; simp
  have hlen2 : T2.dims.length = b2.length + 2 := by rw [s2]; simp
  have hds : prod (b1 ++ b2 ++ [l]) = prod b1 * (prod b2 * l) := by simp [prod_append, prod, Nat.mul_assoc]
  have r1 : (dimsCells T1.dims).rd (((b1.length + 1 : Nat) : Int) - 1) E m = .ok (K : Int) m := by
    rw [show ((b1.length + 1 : Nat) : Int) - 1 = ((b1.length : Nat) : Int) by omega, rd_dims (by omega)]
    simp [s1]
  have r2 : (dimsCells T2.dims).rd (((b2.length + 2 : Nat) : Int) - 2) E m = .ok (K : Int) m := by
    rw [show ((b2.length + 2 : Nat) : Int) - 2 = ((b2.length : Nat) : Int) by omega, rd_dims (by omega)]
    simp [s2]
  have r3 : rdAll (dimsCells T1.dims) (((b1.length + 1 : Nat) : Int) - 1).toNat E m = .ok (ints b1) m := by
    rw [show (((b1.length + 1 : Nat) : Int) - 1).toNat = b1.length by omega, rdAll_prefix _ (by omega), s1]
    simp
  have r4 : rdAll (dimsCells T2.dims) (((b2.length + 2 : Nat) : Int) - 2).toNat E m = .ok (ints b2) m := by
    rw [show (((b2.length + 2 : Nat) : Int) - 2).toNat = b2.length by omega, rdAll_prefix _ (by omega), s2]
    simp
  have r5 : (dimsCells T2.dims).rd (((b2.length + 2 : Nat) : Int) - 1) E m = .ok (l : Int) m := by
    rw [show ((b2.length + 2 : Nat) : Int) - 1 = ((b2.length + 1 : Nat) : Int) by omega, rd_dims (by omega)]
    simp [s2]
  have hcr := dotCreate_run (E := E) wf h1 (ds := b1 ++ b2 ++ [l]) (by rw [he1.dtype]; exact hs) out
  rw [he1.dtype, show ints (b1 ++ b2 ++ [l]) = ints b1 ++ ints b2 ++ [(l : Int)] by simp] at hcr
  unfold Attempts mdDot
  rcases hcr with ⟨R, ma, e, P⟩ | ⟨m', e, f, wf', nf⟩
  · rcases mdFill_run wf h1 he1 h2 he2 hz0 hz s1 s2 h0 hK hn1 hn2 (by rw [← hds]; exact hs.bytes_le) hl hdot hds P with
      ⟨m', ef, P'⟩ | ⟨nf, ⟨m', ef, f, wf'⟩ | ef⟩
    · left
      refine ⟨R, m', ?_, P'⟩
      msimp [h1.tNdim, h2.tNdim, hlen1, hlen2, h1.tDimsArr, h2.tDimsArr, r1, r2, r3, r4, r5, e, ef]
    · right
      refine ⟨nf, .inl ⟨R.h, m', ?_, f, wf'⟩⟩
      msimp [h1.tNdim, h2.tNdim, hlen1, hlen2, h1.tDimsArr, h2.tDimsArr, r1, r2, r3, r4, r5, e, ef]
    · right
      refine ⟨nf, .inr ?_⟩
      msimp [h1.tNdim, h2.tNdim, hlen1, hlen2, h1.tDimsArr, h2.tDimsArr, r1, r2, r3, r4, r5, e, ef]
  · right
    refine ⟨nf, .inl ⟨out, m', ?_, f, wf'⟩⟩
    msimp [h1.tNdim, h2.tNdim, hlen1, hlen2, h1.tDimsArr, h2.tDimsArr, r1, r2, r3, r4, r5, e]

/-! ### Scalar and tensor -/

theorem dotGetValue_run {s : Val} (h : At m R T) (he : Elems T c [s]) : dotGetValue R.h E m = .ok (some (toDouble E.fp s)) m := by
  have ld := h.load (E := E) he (i := 0) (by simp)
  rw [show ((0 : Nat) : Int) = 0 from rfl] at ld
  unfold dotGetValue
  msimp [h.tDtype, he.dtype, find_dtype, h.tData, ld]
  rfl

theorem scalarMulOf_run {s v : Val} {Rb Rs : Foot} {Tb Ts : TV} (wf : m.WF) (h1 : At m R1 T1) (hb : At m Rb Tb) (heb : Elems Tb c xs)
    (hsm : At m Rs Ts) (hes : Elems Ts c [s]) (hd1 : T1.dtype = c.dtype) (c1 : T1.device.type = 0) (cb : Tb.device.type = 0)
    (hi : prod Tb.dims ≤ 2147483647) (hv : cCast E.fp c (.f64 (toDouble E.fp s)) = .ok v)
    (hz : ∀ i (_ : i < xs.length) (_ : i < zs.length), cBin E.fp c .mul v xs[i] = .ok zs[i])
    (hzl : zs.length = xs.length) (out : Ptr) :
    TriesMalloc E (scalarMulOf R1.h Rb.h Rs.h out) m out ⟨c.dtype, T1.device, Tb.dims, encAll c zs⟩ := by
  have hN := heb.len
  have hsh : ShapeOK Tb.dims c.size := by have := hb.shape; rw [heb.dtype] at this; exact this
  unfold scalarMulOf
  rcases full_run (E := E) wf c T1.device hsh hi (toDouble E.fp s) hv .indet with ⟨Rt, ma, e, P⟩ | ⟨m', e, f, wf', nf⟩
  · have gb := hb.frame wf P.ext.toFrame
    have het : Elems ⟨c.dtype, T1.device, Tb.dims, encAll c (List.replicate (prod Tb.dims) v)⟩ c (List.replicate (prod Tb.dims) v) :=
      ⟨rfl, rfl, fun x hx => by rw [(List.mem_replicate.1 hx).2]; exact cCast_WT hv, by simp⟩
    rcases binaryOp_run (E := E) (op := .mul) (zs := zs) P.ext.wf P.tensor het gb heb c1 cb rfl hi
        (fun i h1 h2 h3 => by rw [List.getElem_replicate]; exact hz i h2 h3) (by rw [hzl, hN]; simp) out with
      (⟨R, m2, e2, P2⟩ | ⟨m2, e2, f2, wf2, nf⟩) | ⟨nm, e2⟩
    · left; left
      have g := P.tensor.frame P.ext.wf P2.ext.toFrame
      have H := P2.after P.ext (fun b hb => ⟨P.fresh b hb, P.tensor.lt P.ext.wf hb⟩)
      refine ⟨R, m2.drop Rt.list, ?_, H.done (fun _ h => h) (fun _ h => h)⟩
      msimp [h1.tDtype, hd1, h1.tDevice, hb.tNdim, hb.tDimsArr, dotGetValue_run (E := E) hsm hes, e, e2, destroy_run (E := E) g]
    · left; right
      have g := P.tensor.frame P.ext.wf f2
      refine ⟨m2.drop Rt.list, ?_, (P.ext.toFrame.trans f2).dropTemps P.fresh, wf2.drop _, nf⟩
      msimp [h1.tDtype, hd1, h1.tDevice, hb.tNdim, hb.tDimsArr, dotGetValue_run (E := E) hsm hes, e, e2, destroy_run (E := E) g]
    · right
      refine ⟨nm, ?_⟩
      msimp [h1.tDtype, hd1, h1.tDevice, hb.tNdim, hb.tDimsArr, dotGetValue_run (E := E) hsm hes, e, e2]
  · left; right
    refine ⟨m', ?_, f, wf', nf⟩
    msimp [h1.tDtype, hd1, h1.tDevice, hb.tNdim, hb.tDimsArr, dotGetValue_run (E := E) hsm hes, e]

end Aitisa
