import Verif.Proof.MatmulBig

/-! # Matrix products of operands of different dtypes

The kernels read both operands with the dtype of the first. -/

namespace Aitisa

variable {E : Env} {m m' : Mem} {R R1 R2 : Foot} {T T1 T2 : TV} {c c' : Code} {xs ys ws : List Val} {q P : Nat} {out : Ptr}
  {ds bd b1 b2 bs : List Nat} {z : Val}

/-- The elements of type `c` that the data of a tensor of type `c'` hold. -/
theorem reads_any (he : Elems T c' ws) (c : Code) : ∃ ys : List Val, (∀ i (h : i < ys.length), rdElem c T.bytes i = .ok ys[i]) ∧
    (∀ y ∈ ys, y.WT c) ∧ ys.length = prod T.dims * c'.size / c.size := by
  have hb : T.bytes = (ws.flatMap fun x => encVal c' x).map some := by
    rw [he.bytes]; simp [encAll, List.map_flatMap]
  obtain ⟨l, hl⟩ : ∃ l, l = ws.flatMap fun x => encVal c' x := ⟨_, rfl⟩
  rw [← hl] at hb
  have hlen : l.length = prod T.dims * c'.size := by
    have : T.bytes.length = prod T.dims * c'.size := by rw [he.bytes, encAll_length, he.len]
    rw [← this, hb, List.length_map]
  have hcs := c.size_pos
  refine ⟨tab (l.length / c.size) fun i => decVal c ((l.drop (i * c.size)).take c.size), ?_, ?_, ?_⟩
  · intro i hi
    rw [tab_length] at hi
    have h1 : (i + 1) * c.size ≤ l.length := by
      exact Nat.le_trans (Nat.mul_le_mul_right _ hi) (Nat.div_mul_le_self _ _)
    unfold rdElem
    rw [if_pos, hb, Int.toNat_natCast, ← List.map_drop, ← List.map_take, allInit_map]
    · simp [tab]
    · refine ⟨Int.natCast_nonneg _, ?_⟩
      rw [hb, List.length_map]
      have : (((i + 1) * c.size : Nat) : Int) ≤ (l.length : Int) := Int.ofNat_le.2 h1
      rw [Int.natCast_mul] at this
      simpa using this
  · intro y hy
    simp only [tab, List.mem_map] at hy
    obtain ⟨k, _, rfl⟩ := hy
    exact decVal_WT _ _
  · rw [tab_length, hlen]

/-- A second operand of elements at least as large. -/
theorem reads_all (h : At m R T) (he : Elems T c' ws) (hsz : c.size ≤ c'.size) : ∃ ys, ReadsAs T c ys ∧ ys.length = prod T.dims := by
  obtain ⟨ys, hrd, hwt, hl⟩ := reads_any he c
  have hcs := c.size_pos
  have hle : prod T.dims ≤ ys.length := by
    rw [hl, Nat.le_div_iff_mul_le hcs]; exact Nat.mul_le_mul_left _ hsz
  refine ⟨ys.take (prod T.dims), ⟨fun i hi => ?_, fun y hy => hwt y (List.mem_of_mem_take hy), ?_⟩, by simp; omega⟩
  · rw [List.getElem_take]; exact hrd i _
  · have := h.shape
    rw [he.dtype] at this
    refine ⟨Nat.le_trans (Nat.mul_le_mul_left _ ?_) this.fits, this.rank⟩
    show max c.size 1 ≤ max c'.size 1
    omega

/-! ### A second operand of smaller elements -/

/-- A loop with a step that fails whenever it is reached. -/
theorem loopN_hits {σ : Type} {f : Nat → σ → M σ} {Inv : σ → Mem → Prop} {Bad : UB → Prop} {n i0 : Nat} (h0 : i0 < n)
    (step : ∀ i s m, i < n → Inv s m → (∃ s' m', f i s E m = .ok s' m' ∧ Inv s' m') ∨ ∃ u, f i s E m = .ub u ∧ Bad u)
    (hit : ∀ s m, Inv s m → ∃ u, f i0 s E m = .ub u ∧ Bad u) {s : σ} {m : Mem} (h : Inv s m) : ∃ u, loopN f n 0 s E m = .ub u ∧ Bad u := by
  suffices H : ∀ k i s m, i + k = n → i ≤ i0 → Inv s m → ∃ u, loopN f k i s E m = .ub u ∧ Bad u from H n 0 s m (by omega) (by omega) h
  intro k
  induction k with
  | zero => intro i s m _ _ h; omega
  | succ k ih =>
    intro i s m hi hle h
    rcases Nat.eq_or_lt_of_le hle with rfl | hlt
    · obtain ⟨u, e, hu⟩ := hit s m h
      exact ⟨u, by msimp [loopN_succ, e], hu⟩
    · rcases step i s m (by omega) h with ⟨s', m', e, h'⟩ | ⟨u, e, hu⟩
      · obtain ⟨u, e2, hu⟩ := ih (i + 1) s' m' (by omega) hlt h'
        exact ⟨u, by msimp [loopN_succ, e, e2], hu⟩
      · exact ⟨u, by msimp [loopN_succ, e], hu⟩

/-- What can go wrong: an overflow, or a read outside the data. -/
def Wrong (u : UB) : Prop := u = .overflow ∨ u = .outOfBounds

/-- One step, whatever the index of the second operand. -/
theorem KCtx.step_any (X : KCtx m R1 R2 T1 T2 c xs ys q) (hmax : ∀ i, ys.length ≤ i → rdElem c T2.bytes (i : Nat) = .error .outOfBounds)
    {ia ib ic : Nat} (ha : ia < xs.length) (hc : ic < P) (F : Full m q c P m') :
    (∃ m2, macStep c (.blk R1.p) (.blk R2.p) (.blk q) ia ib ic E m' = .ok () m2 ∧ Full m q c P m2 ∧ ib < ys.length) ∨
      ∃ u, macStep c (.blk R1.p) (.blk R2.p) (.blk q) ia ib ic E m' = .ub u ∧ Wrong u := by
  obtain ⟨G, hG, rfl⟩ := F
  rcases Nat.lt_or_ge ib ys.length with hb | hb
  · have hs := X.step (E := E) (P := P) (G := fun k => some (G k)) ha hb hc rfl (hG ic)
    cases hm : cMac E.fp c (G ic) (xs.getD ia (.int 0)) (ys.getD ib (.int 0)) with
    | error u =>
      rw [hm] at hs
      exact .inr ⟨u, hs, .inl (cMac_error (hG ic) (X.x1 ha) (X.x2 hb) hm)⟩
    | ok w =>
      rw [hm] at hs
      refine .inl ⟨_, hs, ⟨upd G ic w, fun k => ?_, Mem.arr_congr _ _ _ fun j _ => ?_⟩, hb⟩
      · by_cases hk : k = ic
        · rw [hk]; simp only [upd_same]; exact cMac_WT (hG ic) hm
        · rw [upd_ne _ _ hk]; exact hG k
      · by_cases hj : j = ic
        · rw [hj]; simp
        · rw [upd_ne _ _ hj, upd_ne _ _ hj]
  · refine .inr ⟨_, ?_, .inr rfl⟩
    have l1 := loadArr (E := E) (m := m) (q := q) (G := fun k => some (G k)) hc rfl (hG ic)
    have l2 := (X.h1.set_ne X.n1 (some ⟨.own, .bytes (encOpt c (tab P fun k => some (G k)))⟩)).load (E := E) X.he1 ha
    have g := X.h2.set_ne X.n2 (some ⟨.own, .bytes (encOpt c (tab P fun k => some (G k)))⟩)
    have l3 : loadElem c (.blk R2.p) (ib : Int) E (m.set q (some ⟨.own, .bytes (encOpt c (tab P fun k => some (G k)))⟩)) = .ub .outOfBounds := by
      unfold loadElem
      msimp [g.derefB, hmax ib hb]
    unfold macStep
    unfold Mem.arr at l1 ⊢
    msimp [l1, l2, l3]

section
variable (X : KCtx m R1 R2 T1 T2 c xs ys q) (hmax : ∀ i, ys.length ≤ i → rdElem c T2.bytes (i : Nat) = .error .outOfBounds)
include X hmax

theorem KCtx.vv_short {L : Nat} (h0 : 0 < L) (ha : L ≤ xs.length) (hb : ys.length < L) (hP : 0 < P) (F : Full m q c P m') :
    ∃ u, vvKernel c (.blk R1.p) (.blk R2.p) (.blk q) L E m' = .ub u ∧ Wrong u := by
  unfold vvKernel
  by_cases hL : L ≤ 2147483647
  case neg => exact ⟨_, forI32_big hL _ _ _ _, .inl rfl⟩
  rw [run_forI32 hL]
  refine loopN_hits (Inv := fun _ => Full m q c P) (i0 := L - 1) (by omega) (fun i s m' hi F => ?_) (fun s m' F => ?_) F
  · rcases X.step_any (E := E) hmax (ia := i) (ib := i) (ic := 0) (by omega) hP F with ⟨m2, e, F2, _⟩ | h
    · exact .inl ⟨_, m2, e, F2⟩
    · exact .inr h
  · rcases X.step_any (E := E) hmax (ia := L - 1) (ib := L - 1) (ic := 0) (by omega) hP F with ⟨m2, e, F2, _⟩ | h
    · omega
    · exact h

theorem KCtx.mv_short {M N : Nat} (hM0 : 0 < M) (hN0 : 0 < N) (ha : M * N ≤ xs.length) (hb : ys.length < N) (hc : M ≤ P)
    (h1 : xs.length ≤ 9223372036854775807) (F : Full m q c P m') :
    ∃ u, mvKernel c (.blk R1.p) (.blk R2.p) (.blk q) M N E m' = .ub u ∧ Wrong u := by
  unfold mvKernel
  by_cases hM : M ≤ 2147483647
  case neg => exact ⟨_, forI32_big hM _ _ _ _, .inl rfl⟩
  rw [run_forI32 hM]
  have key : ∀ i m', i < M → Full m q c P m' →
      ∃ u, (forI32 (N : Int) () fun j _ => do
        let ia ← idx2 i N j
        macStep c (.blk R1.p) (.blk R2.p) (.blk q) ia j i) E m' = .ub u ∧ Wrong u := by
    intro i m' hi F
    by_cases hN : N ≤ 2147483647
    case neg => exact ⟨_, forI32_big hN _ _ _ _, .inl rfl⟩
    rw [run_forI32 hN]
    have st : ∀ k m', k < N → Full m q c P m' → (∃ m2, (do
        let ia ← idx2 i N k
        macStep c (.blk R1.p) (.blk R2.p) (.blk q) ia k i) E m' = .ok () m2 ∧ Full m q c P m2 ∧ k < ys.length) ∨
        ∃ u, (do
        let ia ← idx2 i N k
        macStep c (.blk R1.p) (.blk R2.p) (.blk q) ia k i) E m' = .ub u ∧ Wrong u := by
      intro k m' hk F
      have hik := cell_lt hi hk
      msimp [idx2_run (E := E) (m := m') (i := i) (n := N) (j := k) (by omega)]
      exact X.step_any hmax (by omega) (by omega) F
    refine loopN_hits (Inv := fun _ => Full m q c P) (i0 := N - 1) (by omega) (fun k s m' hk F => ?_) (fun s m' F => ?_) F
    · rcases st k m' hk F with ⟨m2, e, F2, _⟩ | h
      · exact .inl ⟨_, m2, e, F2⟩
      · exact .inr h
    · rcases st (N - 1) m' (by omega) F with ⟨m2, e, F2, _⟩ | h
      · omega
      · exact h
  exact loopN_hits (Inv := fun _ => Full m q c P) (i0 := 0) hM0 (fun i s m' hi F => .inr (key i m' hi F)) (fun s m' F => key 0 m' hM0 F) F

/-- A matrix product either succeeds within the data or goes wrong, and goes wrong if the last element of the second operand
lies outside. -/
theorem KCtx.mm_short {oa ob oc M K N : Nat} (ha : oa + M * K ≤ xs.length) (hc : oc + M * N ≤ P)
    (h1 : xs.length ≤ 9223372036854775807) (h2 : K * N ≤ 9223372036854775807) (hP : P ≤ 9223372036854775807) (F : Full m q c P m') :
    (((∃ s m2, mmKernel c (.blk R1.p) (.blk R2.p) (.blk q) oa ob oc M K N E m' = .ok s m2 ∧ Full m q c P m2) ∨
      ∃ u, mmKernel c (.blk R1.p) (.blk R2.p) (.blk q) oa ob oc M K N E m' = .ub u ∧ Wrong u)) ∧
    (0 < M → 0 < N → 0 < K → ys.length < ob + K * N →
      ∃ u, mmKernel c (.blk R1.p) (.blk R2.p) (.blk q) oa ob oc M K N E m' = .ub u ∧ Wrong u) := by
  have st : ∀ i j k m', i < M → j < N → k < K → Full m q c P m' →
      (∃ m2, mmBody c (.blk R1.p) (.blk R2.p) (.blk q) oa ob oc K N i j k E m' = .ok () m2 ∧ Full m q c P m2 ∧ ob + (k * N + j) < ys.length) ∨
      ∃ u, mmBody c (.blk R1.p) (.blk R2.p) (.blk q) oa ob oc K N i j k E m' = .ub u ∧ Wrong u := by
    intro i j k m' hi hj hk F
    have hij := cell_lt hi hj
    have hik := cell_lt hi hk
    have hkj := cell_lt hk hj
    unfold mmBody
    msimp [idx2_run (E := E) (m := m') (i := i) (n := N) (j := j) (by omega), idx2_run (E := E) (m := m') (i := i) (n := K) (j := k) (by omega),
      idx2_run (E := E) (m := m') (i := k) (n := N) (j := j) (by omega)]
    rw [← Int.natCast_add, ← Int.natCast_add, ← Int.natCast_add]
    exact X.step_any hmax (by omega) (by omega) F
  have inner : ∀ i j m', i < M → j < N → Full m q c P m' →
      ((∃ s m2, (forI32 (K : Int) () fun k _ => mmBody c (.blk R1.p) (.blk R2.p) (.blk q) oa ob oc K N i j k) E m' = .ok s m2 ∧ Full m q c P m2) ∨
        ∃ u, (forI32 (K : Int) () fun k _ => mmBody c (.blk R1.p) (.blk R2.p) (.blk q) oa ob oc K N i j k) E m' = .ub u ∧ Wrong u) ∧
      (0 < K → ys.length ≤ ob + ((K - 1) * N + j) →
        ∃ u, (forI32 (K : Int) () fun k _ => mmBody c (.blk R1.p) (.blk R2.p) (.blk q) oa ob oc K N i j k) E m' = .ub u ∧ Wrong u) := by
    intro i j m' hi hj F
    by_cases hK : K ≤ 2147483647
    case neg => exact ⟨.inr ⟨_, forI32_big hK _ _ _ _, .inl rfl⟩, fun _ _ => ⟨_, forI32_big hK _ _ _ _, .inl rfl⟩⟩
    rw [run_forI32 hK]
    have s0 : ∀ k (s : Unit) m', k < K → Full m q c P m' →
        (∃ s' m2, mmBody c (.blk R1.p) (.blk R2.p) (.blk q) oa ob oc K N i j k E m' = .ok s' m2 ∧ Full m q c P m2) ∨
        ∃ u, mmBody c (.blk R1.p) (.blk R2.p) (.blk q) oa ob oc K N i j k E m' = .ub u ∧ Wrong u := by
      intro k s m' hk F
      rcases st i j k m' hi hj hk F with ⟨m2, e, F2, _⟩ | h
      · exact .inl ⟨_, m2, e, F2⟩
      · exact .inr h
    refine ⟨loopN_safe (Inv := fun _ => Full m q c P) s0 F, fun hK0 hy => ?_⟩
    refine loopN_hits (Inv := fun _ => Full m q c P) (i0 := K - 1) (by omega) s0 (fun s m' F => ?_) F
    rcases st i j (K - 1) m' hi hj (by omega) F with ⟨m2, e, F2, _⟩ | h
    · omega
    · exact h
  have row : ∀ i m', i < M → Full m q c P m' →
      ((∃ s m2, (forI32 (N : Int) () fun j _ => forI32 (K : Int) () fun k _ => mmBody c (.blk R1.p) (.blk R2.p) (.blk q) oa ob oc K N i j k) E m' =
          .ok s m2 ∧ Full m q c P m2) ∨
        ∃ u, (forI32 (N : Int) () fun j _ => forI32 (K : Int) () fun k _ => mmBody c (.blk R1.p) (.blk R2.p) (.blk q) oa ob oc K N i j k) E m' =
          .ub u ∧ Wrong u) ∧
      (0 < N → 0 < K → ys.length < ob + K * N →
        ∃ u, (forI32 (N : Int) () fun j _ => forI32 (K : Int) () fun k _ => mmBody c (.blk R1.p) (.blk R2.p) (.blk q) oa ob oc K N i j k) E m' =
          .ub u ∧ Wrong u) := by
    intro i m' hi F
    by_cases hN : N ≤ 2147483647
    case neg => exact ⟨.inr ⟨_, forI32_big hN _ _ _ _, .inl rfl⟩, fun _ _ _ => ⟨_, forI32_big hN _ _ _ _, .inl rfl⟩⟩
    rw [run_forI32 hN]
    refine ⟨loopN_safe (Inv := fun _ => Full m q c P) (fun j s m' hj F => (inner i j m' hi hj F).1) F, fun hN0 hK0 hy => ?_⟩
    refine loopN_hits (Inv := fun _ => Full m q c P) (i0 := N - 1) (by omega) (fun j s m' hj F => (inner i j m' hi hj F).1) (fun s m' F => ?_) F
    refine (inner i (N - 1) m' hi (by omega) F).2 hK0 ?_
    have : (K - 1) * N + N = K * N := by rw [← Nat.succ_mul]; congr 1; omega
    omega
  unfold mmKernel
  by_cases hM : M ≤ 2147483647
  case neg => exact ⟨.inr ⟨_, forI32_big hM _ _ _ _, .inl rfl⟩, fun _ _ _ _ => ⟨_, forI32_big hM _ _ _ _, .inl rfl⟩⟩
  rw [run_forI32 hM]
  refine ⟨loopN_safe (Inv := fun _ => Full m q c P) (fun i s m' hi F => (row i m' hi F).1) F, fun hM0 hN0 hK0 hy => ?_⟩
  exact loopN_hits (Inv := fun _ => Full m q c P) (i0 := 0) hM0 (fun i s m' hi F => (row i m' hi F).1)
    (fun s m' F => (row 0 m' hM0 F).2 hN0 hK0 hy) F

theorem KCtx.batch_short {s1 s2 nb nM nK nN : Nat} {aOf bOf : Nat → Nat}
    (ha : ∀ b, b < nb → aOf b * s1 + nM * nK ≤ xs.length) (hM0 : 0 < nM) (hN0 : 0 < nN) (hK0 : 0 < nK)
    {b0 : Nat} (hb0 : b0 < nb) (hb : ys.length < bOf b0 * s2 + nK * nN)
    (h1 : xs.length ≤ 9223372036854775807) (h2 : nK * nN ≤ 9223372036854775807) (hP : nb * (nM * nN) ≤ 9223372036854775807)
    (F : Full m q c (nb * (nM * nN)) m') :
    ∃ u, batchKernel c (.blk R1.p) (.blk R2.p) (.blk q) (batchList nb s1 s2 (nM * nN) aOf bOf) nM nK nN nb E m' = .ub u ∧ Wrong u := by
  have hle : ∀ b, b < nb → b * (nM * nN) + nM * nN ≤ nb * (nM * nN) := by
    intro b hb'
    rw [← Nat.succ_mul]; exact Nat.mul_le_mul_right _ hb'
  unfold batchKernel forI
  rw [Int.toNat_natCast]
  refine loopN_hits (Inv := fun _ => Full m q c (nb * (nM * nN))) hb0 (fun b s m' hb' F => ?_) (fun s m' F => ?_) F
  · simp only [batchList_get hb']
    exact (X.mm_short (E := E) hmax (ha b hb') (hle b hb') h1 h2 hP F).1
  · simp only [batchList_get hb0]
    exact (X.mm_short (E := E) hmax (ha b0 hb0) (hle b0 hb0) h1 h2 hP F).2 hM0 hN0 hK0 hb

end

/-! ### All shapes -/

theorem lin_last {ds : List Nat} (h : ∀ d ∈ ds, 0 < d) : lin ds (ds.map (· - 1)) + 1 = prod ds := by
  induction ds with
  | nil => rfl
  | cons d ds ih =>
    have := ih fun e he => h e (by simp [he])
    have hd := h d (by simp)
    simp only [List.map_cons, lin, prod]
    rw [Nat.add_assoc, this, ← Nat.succ_mul]
    congr 1; omega

theorem inRange_last {ds : List Nat} (h : ∀ d ∈ ds, 0 < d) : InRange ds (ds.map (· - 1)) := by
  induction ds with
  | nil => trivial
  | cons d ds ih => exact ⟨Nat.sub_lt (h d (by simp)) Nat.one_pos, ih fun e he => h e (by simp [he])⟩

/-- Some batch of the output uses the last batch of an operand. -/
theorem batchOf_last (f : Fits bs bd) (hb : ∀ d ∈ bs, 0 < d) (hd : 0 < prod bd) : ∃ i, i < prod bd ∧ batchOf bs bd i + 1 = prod bs := by
  have hp := pos_of_prod hd
  refine ⟨lin bd (bd.map (· - 1)), lin_lt (inRange_last hp), ?_⟩
  unfold batchOf
  rw [unlin_lin (inRange_last hp)]
  have e : under bs (bd.map (· - 1)) = bs.map (· - 1) := by
    have hl : (under bs (bd.map (· - 1))).length = bs.length := under_length (by simpa using f.1)
    refine List.ext_getElem (by simpa using hl) fun k h1 h2 => ?_
    have hk : k < bs.length := by rw [← hl]; exact h1
    have := under_get (ds := bs) (cs := bd.map (· - 1)) (by simpa using f.1) hk
    have f0 := f.1
    have hb2 : bd.length - bs.length + k < bd.length := by omega
    have fk := f.2 k hk
    simp only [List.getD, List.getElem?_eq_getElem h1, List.getElem?_eq_getElem hk, Option.getD_some, List.length_map, List.getElem?_map,
      List.getElem?_eq_getElem hb2, Option.map_some] at this fk
    rw [this, List.getElem_map]
    split
    · omega
    · have := fk.resolve_left ‹_›; omega
  rw [e, lin_last hb]

theorem KernelCall.wrong {x : M (Status × Ptr)} {kern : Nat → M Unit} (h : KernelCall E x m out R1 R2 T1 T2 c xs ys ds z kern) (nf : E.NoFail)
    (wz : z.WT c)
    (hk : ∀ p mk, KCtx mk R1 R2 T1 T2 c xs ys p → ∀ m', Full mk p c (prod ds) m' → ∃ u, kern p E m' = .ub u ∧ Wrong u) :
    ∃ u, x E m = .ub u ∧ Wrong u := by
  rcases h with ⟨_, _, _, _, h⟩ | ⟨h, _⟩ | ⟨R, mk, X, ha, -, hu⟩
  · exact absurd nf h
  · exact absurd nf h
  · obtain ⟨u, e, w⟩ := hk R.p mk X mk ⟨fun _ => z, fun _ => wz, ha.symm⟩
    exact ⟨u, hu u e, w⟩

theorem matmul_short (nf : E.NoFail) (wf : m.WF) (h1 : At m R1 T1) (he1 : Elems T1 c xs) (h2 : At m R2 T2) (he2 : Elems T2 c' ws)
    (c1 : T1.device.type = DEVICE_CPU) (c2 : T2.device.type = DEVICE_CPU) (hz : ZeroOf E.fp c z) (ht : MatShape T1.dims T2.dims ds)
    (hs : ShapeOK ds c.size) (hsh : ShapeOK T2.dims c.size) (hsz : c'.size < c.size) (h0 : 0 < prod ds) (hK : 0 < T1.dims.getLastD 0) :
    ∃ u, matmul R1.h R2.h out E m = .ub u ∧ Wrong u := by
  rcases Nat.lt_or_ge 2147483647 (prod ds) with hi | hi
  · exact ⟨_, (matmul_big wf h1 he1 h2 c1 c2 hz ht hs hi).overflow nf, .inl rfl⟩
  obtain ⟨ys, hrd, hwt, hylen⟩ := reads_any he2 c
  have r2 : ReadsAs T2 c ys := ⟨hrd, hwt, hsh⟩
  have hcs := c.size_pos
  have hbl : T2.bytes.length = prod T2.dims * c'.size := by rw [he2.bytes, encAll_length, he2.len]
  have hmax : ∀ i, ys.length ≤ i → rdElem c T2.bytes (i : Nat) = .error .outOfBounds := by
    intro i hi
    refine rdElem_oob ?_
    rw [hylen] at hi
    rw [hbl]
    exact (Nat.div_lt_iff_lt_mul hcs).1 (by omega)
  by_cases hemp : prod T1.dims = 0 ∨ prod T2.dims = 0
  · rcases Nat.lt_or_ge 2147483647 (T1.dims.getLastD 0) with hk | hk
    · exact ⟨_, matmul_terms nf wf h1 he1 h2 r2 c1 c2 hz ht hs h0 hi hk, .inl rfl⟩
    · refine ⟨_, matmul_empty nf wf h1 he1 h2 r2 c1 c2 hz ht hs h0 hi hK hk hemp ?_, .inr rfl⟩
      rcases hemp with h | h
      · exact .inl (List.length_eq_zero_iff.1 (by rw [he1.len, h]))
      · exact .inr (List.length_eq_zero_iff.1 (by rw [hbl, h]; simp))
  have p1 : 0 < prod T1.dims := by omega
  have p2 : 0 < prod T2.dims := by omega
  have hylt : ys.length < prod T2.dims := by
    rw [hylen, Nat.div_lt_iff_lt_mul hcs]
    exact Nat.mul_lt_mul_of_pos_left hsz p2
  have n1 : xs.length ≤ 9223372036854775807 := by
    have := h1.shape.bytes_le
    rw [he1.dtype, ← he1.len] at this
    exact Nat.le_trans (Nat.le_mul_of_pos_right _ hcs) this
  have l1 := he1.len
  have hsh' := hsh.prodMax_le
  generalize hd1 : T1.dims = D1 at ht hK l1 p1
  generalize hd2 : T2.dims = D2 at ht hylt p2 hsh'
  cases ht with
  | vv k =>
    simp [prod] at l1 hylt p2
    refine (KernelCall.of (matVV_top wf h1 he1 h2 r2 c1 c2 hz hd1 hd2 hs)).wrong nf hz.wt fun p mk X m' F => ?_
    exact X.vv_short hmax p2 (by omega) (by omega) (by simp [prod]) F
  | mv n k =>
    simp [prod] at l1 hylt p2 hi h0
    refine (KernelCall.of (matMV_top wf h1 he1 h2 r2 c1 c2 hz hd1 hd2 hs hi)).wrong nf hz.wt fun p mk X m' F => ?_
    exact X.mv_short hmax h0 p2 (by omega) (by omega) (by simp [prod]) n1 F
  | mm n k l =>
    simp only [prod, Nat.mul_one] at l1 hylt p2 hi h0
    have a := Nat.pos_of_mul_pos_right h0
    have b := Nat.pos_of_mul_pos_left h0
    have d := Nat.pos_of_mul_pos_right p2
    have hkl : k * l ≤ 9223372036854775807 := by have := prod_le_prodMax [k, l]; simp only [prod, Nat.mul_one] at this; omega
    refine (KernelCall.of (matMM_top wf h1 he1 h2 r2 c1 c2 hz hd1 hd2 hs hi)).wrong nf hz.wt fun p mk X m' F => ?_
    exact (X.mm_short (E := E) hmax (oa := 0) (ob := 0) (oc := 0) (by omega) (by simp [prod]) n1 hkl (by simp only [prod, Nat.mul_one]; omega) F).2
      a b d (by omega)
  | vm k l =>
    simp only [prod, Nat.mul_one] at l1 hylt p2 hi h0
    have d := Nat.pos_of_mul_pos_right p2
    have hkl : k * l ≤ 9223372036854775807 := by have := prod_le_prodMax [k, l]; simp only [prod, Nat.mul_one] at this; omega
    refine (KernelCall.of (matVM_top wf h1 he1 h2 r2 c1 c2 hz hd1 hd2 hs hi)).wrong nf hz.wt fun p mk X m' F => ?_
    exact (X.mm_short (E := E) hmax (oa := 0) (ob := 0) (oc := 0) (M := 1) (by omega) (by simp [prod]) n1 hkl (by simp only [prod, Nat.mul_one]; omega) F).2
      (by omega) h0 d (by omega)
  | @tv bs n k hb =>
    rw [prod_snoc2] at l1
    simp only [prod, Nat.mul_one] at hylt p2
    rw [prod_snoc1] at hi h0
    obtain ⟨a, a', b, b'⟩ := factors h0 hi
    have hkl : k * 1 ≤ 9223372036854775807 := by have := prod_le_prodMax [k]; simp only [prod, Nat.mul_one] at this ⊢; omega
    refine (matTV_top wf h1 he1 h2 r2 c1 c2 hz hd1 hb hd2 hs hi a').wrong nf hz.wt fun p mk X m' F => ?_
    rw [prod_snoc1, show prod bs * n = prod bs * (n * 1) by rw [Nat.mul_one]] at F
    refine X.batch_short hmax (nN := 1) (fun i hi => ?_) b (by omega) p2 (b0 := 0) a (by omega) n1 hkl (by rw [Nat.mul_one]; omega) F
    rw [l1, ← Nat.succ_mul]; exact Nat.mul_le_mul_right _ hi
  | @vt bs k l hb =>
    rw [prod_snoc2] at hylt p2
    simp only [prod, Nat.mul_one] at l1 p1
    rw [prod_snoc1] at hi h0
    obtain ⟨a, a', b, b'⟩ := factors h0 hi
    have hkl : k * l ≤ 9223372036854775807 := by
      have h := prod_le_prodMax (bs ++ [k, l])
      rw [prod_snoc2] at h
      have := Nat.le_mul_of_pos_left (k * l) a
      omega
    refine (matVT_top wf h1 he1 h2 r2 c1 c2 hz hd1 hd2 hb hs hi a').wrong nf hz.wt fun p mk X m' F => ?_
    rw [prod_snoc1, show prod bs * l = prod bs * (1 * l) by rw [Nat.one_mul]] at F
    refine X.batch_short hmax (nM := 1) (fun i hi => by omega) (by omega) b p1 (b0 := prod bs - 1) (by omega) ?_ n1 hkl
      (by rw [Nat.one_mul]; omega) F
    rw [← Nat.succ_mul, show (prod bs - 1).succ = prod bs by omega]; exact hylt
  | @tt b1 b2 bd n k l hb hbc =>
    rw [prod_snoc2] at l1 hylt p1 p2 hi h0
    simp at hK
    obtain ⟨a, a', b, b'⟩ := factors h0 hi
    have d := Nat.pos_of_mul_pos_right b
    have e := Nat.pos_of_mul_pos_left b
    have hb1 := pos_of_prod (Nat.pos_of_mul_pos_right p1)
    have hb2 := pos_of_prod (Nat.pos_of_mul_pos_right p2)
    have f1 := hbc.fits hb1
    have f2 := hbc.symm.fits hb2
    obtain ⟨i0, hi0, hlast⟩ := batchOf_last f2 hb2 a
    have hl := hbc.length
    have S : TTShape T1 T2 c b1 b2 bd n k l := ⟨hd1, hd2, hbc.near, hbc.symm.near, hl, by
      have : 0 < b1.length ∨ 0 < b2.length := hb.imp List.length_pos_iff.2 List.length_pos_iff.2
      omega, hs, a'⟩
    have hkl : k * l ≤ 9223372036854775807 := by
      have h := prod_le_prodMax (b2 ++ [k, l])
      rw [prod_snoc2] at h
      have := Nat.le_mul_of_pos_left (k * l) (Nat.pos_of_mul_pos_right p2)
      omega
    refine (matTT_top wf h1 he1 h2 r2 c1 c2 hz S hbc hi).wrong nf hz.wt fun p mk X m' F => ?_
    rw [prod_snoc2] at F
    refine X.batch_short hmax (fun i hi => ?_) d e hK hi0 ?_ n1 hkl (by omega) F
    · rw [l1, ← Nat.succ_mul]; exact Nat.mul_le_mul_right _ (batchOf_lt f1 hi)
    · rw [← Nat.succ_mul, Nat.succ_eq_add_one, hlast]; exact hylt

end Aitisa
