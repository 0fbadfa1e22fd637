import Verif.Proof.Matmul

/-! # Matrix products without batches -/

namespace Aitisa

variable {E : Env} {m m' : Mem} {R R1 R2 : Foot} {T T1 T2 : TV} {L : List Nat} {c : Code} {xs ys zs : List Val} {q P : Nat}
  {out : Ptr} {ds : List Nat} {z : Val}

theorem tab_list {xs : List Val} {N : Nat} (h : xs.length = N) (z : Val) : tab N (fun i => xs.getD i z) = xs := by
  refine List.ext_getElem? fun i => ?_
  by_cases hi : i < N
  · rw [tab_get _ hi]; simp [List.getD, h ▸ hi]
  · rw [List.getElem?_eq_none (by rw [tab_length]; omega), List.getElem?_eq_none (by omega)]

theorem tab_some {α} (N : Nat) (G : Nat → α) : tab N (fun k => some (G k)) = (tab N G).map some := by
  simp [tab]

theorem tab_const {α} (N : Nat) (z : α) : tab N (fun _ => z) = List.replicate N z := by
  simp [tab, List.map_const']

theorem tab_WT {N : Nat} {G : Nat → Val} (h : ∀ k, (G k).WT c) : ∀ v ∈ tab N G, v.WT c := by
  intro v hv
  simp only [tab, List.mem_map] at hv
  obtain ⟨k, _, rfl⟩ := hv
  exact h k

/-- A tensor filled with `z`, as an array. -/
theorem const_arr (h : m.blk q = some ⟨.own, .bytes (encAll c (List.replicate P z))⟩) : (m.arr q c P fun _ => some z) = m := by
  unfold Mem.arr
  rw [tab_some, tab_const, ← encAll_eq]
  exact Mem.set_self _ _ _ h

theorem done_zero (W : Nat → Val) (z : Val) : done W z 0 = fun _ => some z := by
  funext k; simp [done]

theorem arr_done_all (W : Nat → Val) (z : Val) : m.arr q c P (done W z P) = m.arr q c P fun k => some (W k) :=
  Mem.arr_congr _ _ _ fun j hj => by simp [done, hj]

theorem matFull_run (wf : m.WF) (h1 : At m R1 T1) (hd : T1.dtype = c.dtype) (hs : ShapeOK ds c.size) (hi : prod ds ≤ 2147483647)
    (hz : ZeroOf E.fp c z) (out : Ptr) :
    Creates E (matFull R1.h (dimsCells ds) ds.length out) m out
      ⟨c.dtype, T1.device, ds, encAll c (List.replicate (prod ds) z)⟩ := by
  have := full_run (E := E) wf c T1.device hs hi (E.fp.ofInt64 0) (v := z) (converts_iff.1 hz) out
  unfold Creates at this ⊢
  have e : matFull R1.h (dimsCells ds) ds.length out E m =
      full c.dtype T1.device (dimsCells ds) ds.length (E.fp.ofInt64 0) out E m := by
    unfold matFull
    msimp [h1.tDtype, h1.tDevice, hd]
  rw [e]; exact this

theorem ZeroOf.wt (h : ZeroOf E.fp c z) : z.WT c := cCast_WT (converts_iff.1 h)

/-- Outcome of a product that calls a kernel, by the outcome of the kernel. -/
def ByKernel (E : Env) (x : M (Status × Ptr)) (m : Mem) (R1 R2 : Foot) (T1 T2 : TV) (c : Code) (xs ys : List Val) (ds : List Nat)
    (z : Val) (kern : Nat → M Unit) : Prop :=
  ∃ R mk, KCtx mk R1 R2 T1 T2 c xs ys R.p ∧ (mk.arr R.p c (prod ds) fun _ => some z) = mk ∧
    (∀ G : Nat → Val, kern R.p E mk = .ok () (mk.arr R.p c (prod ds) fun k => some (G k)) →
      ∃ m', x E m = .ok (.success, R.h) m' ∧ Produces m m' R ⟨c.dtype, T1.device, ds, encAll c (tab (prod ds) G)⟩) ∧
    (∀ u, kern R.p E mk = .ub u → x E m = .ub u)

theorem ByKernel.congr {x x' : M (Status × Ptr)} {kern : Nat → M Unit} (h : ByKernel E x m R1 R2 T1 T2 c xs ys ds z kern) (e : x' E m = x E m) :
    ByKernel E x' m R1 R2 T1 T2 c xs ys ds z kern := by
  obtain ⟨R, mk, h1, h2, h3, h4⟩ := h
  exact ⟨R, mk, h1, h2, by rw [e]; exact h3, by rw [e]; exact h4⟩

theorem matPlain_top (wf : m.WF) (h1 : At m R1 T1) (he1 : Elems T1 c xs) (h2 : At m R2 T2) (he2 : ReadsAs T2 c ys)
    (hs : ShapeOK ds c.size) (hi : prod ds ≤ 2147483647) (hz : ZeroOf E.fp c z) (k : Code → Ptr → Ptr → Ptr → M Unit) :
    (∃ m', matPlain R1.h R2.h (dimsCells ds) ds.length out k E m = .ok (.allocFailed, out) m' ∧ Frame m m' ∧ m'.WF ∧ ¬ E.NoFail) ∨
    ByKernel E (matPlain R1.h R2.h (dimsCells ds) ds.length out k) m R1 R2 T1 T2 c xs ys ds z
      (fun p => k c (.blk R1.p) (.blk R2.p) (.blk p)) := by
  have hfull := matFull_run (E := E) wf h1 he1.dtype hs hi hz out
  unfold Creates at hfull
  rcases hfull with ⟨R, mk, e, P⟩ | ⟨m', e, fr, wf', nf⟩
  · right
    have g1 := h1.frame wf P.ext.toFrame
    have g2 := h2.frame wf P.ext.toFrame
    refine ⟨R, mk, ⟨g1, he1, g2, he2, P.disjoint wf h1 (by simp [mem_foot]), P.disjoint wf h2 (by simp [mem_foot])⟩,
      const_arr P.tensor.data, ?_, ?_⟩
    · intro G hk
      have hb : (encOpt c (tab (prod ds) fun k => some (G k))) = encAll c (tab (prod ds) G) := by rw [tab_some, ← encAll_eq]
      have hP := P.setData (bs := encAll c (tab (prod ds) G)) (by simp [encAll_length, tab_length])
      refine ⟨_, ?_, hP⟩
      unfold matPlain withCode
      msimp [e, g1.tDtype, g1.tData, g2.tData, P.tensor.tData, he1.dtype, find_dtype, hk]
      simp [Mem.arr, hb]
    · intro u hk
      unfold matPlain withCode
      msimp [e, g1.tDtype, g1.tData, g2.tData, P.tensor.tData, he1.dtype, find_dtype, hk]
  · left
    refine ⟨m', ?_, fr, wf', nf⟩
    unfold matPlain
    msimp [e]

/-- From a kernel that computes the elements to the delivery of the tensor. -/
theorem ByKernel.delivers {x : M (Status × Ptr)} {kern : Nat → M Unit} (h : ByKernel E x m R1 R2 T1 T2 c xs ys ds z kern)
    (hl : zs.length = prod ds) (hw : ∀ v ∈ zs, v.WT c)
    (hk : ∀ p mk, KCtx mk R1 R2 T1 T2 c xs ys p → kern p E (mk.arr p c (prod ds) (done (fun i => zs.getD i (.int 0)) z 0)) =
      .ok () (mk.arr p c (prod ds) (done (fun i => zs.getD i (.int 0)) z (prod ds)))) :
    Delivers E x m out c T1.device ds zs := by
  obtain ⟨R, mk, X, ha, hG, -⟩ := h
  refine ⟨?_, hw, hl⟩
  have := hk R.p mk X
  rw [done_zero, ha, arr_done_all] at this
  obtain ⟨m', e, P⟩ := hG _ this
  rw [tab_list hl] at P
  exact .inl ⟨R, m', e, P⟩

theorem ByKernel.safe {x : M (Status × Ptr)} {kern : Nat → M Unit} (h : ByKernel E x m R1 R2 T1 T2 c xs ys ds z kern) (wz : z.WT c)
    (hk : ∀ p mk, KCtx mk R1 R2 T1 T2 c xs ys p → ∀ m', Full mk p c (prod ds) m' →
      (∃ s m2, kern p E m' = .ok s m2 ∧ Full mk p c (prod ds) m2) ∨ ∃ u, kern p E m' = .ub u ∧ u = .overflow) :
    SafeProduct E x m out c T1.device ds := by
  obtain ⟨R, mk, X, ha, hG, hu⟩ := h
  rcases hk R.p mk X mk ⟨fun _ => z, fun _ => wz, ha.symm⟩ with ⟨s, m2, e, G, hGw, rfl⟩ | ⟨u, e, rfl⟩
  · obtain ⟨m', e', P⟩ := hG G e
    exact .inl ⟨_, .inl ⟨.inl ⟨R, m', e', P⟩, tab_WT hGw, tab_length _ _⟩⟩
  · exact .inr (hu _ e)

/-! ### The four cases without batches -/

section
variable (wf : m.WF) (h1 : At m R1 T1) (he1 : Elems T1 c xs) (h2 : At m R2 T2) (he2 : ReadsAs T2 c ys)
  (c1 : T1.device.type = DEVICE_CPU) (c2 : T2.device.type = DEVICE_CPU)
include h1 h2 c1 c2

theorem matmul_vv (l1 : T1.dims.length = 1) (l2 : T2.dims.length = 1) :
    matmul R1.h R2.h out E m = matVV R1.h R2.h out E m := by
  unfold matmul
  msimp [h1.tDevice, h2.tDevice, h1.tNdim, h2.tNdim, c1, c2, l1, l2]
  simp

theorem matmul_mv (l1 : T1.dims.length = 2) (l2 : T2.dims.length = 1) :
    matmul R1.h R2.h out E m = matMV R1.h R2.h out E m := by
  unfold matmul
  msimp [h1.tDevice, h2.tDevice, h1.tNdim, h2.tNdim, c1, c2, l1, l2]
  simp

theorem matmul_mm (l1 : T1.dims.length = 2) (l2 : T2.dims.length = 2) :
    matmul R1.h R2.h out E m = matMM R1.h R2.h out E m := by
  unfold matmul
  msimp [h1.tDevice, h2.tDevice, h1.tNdim, h2.tNdim, c1, c2, l1, l2]
  simp

theorem matmul_vm (l1 : T1.dims.length = 1) (l2 : T2.dims.length = 2) :
    matmul R1.h R2.h out E m = matVM R1.h R2.h out E m := by
  unfold matmul
  msimp [h1.tDevice, h2.tDevice, h1.tNdim, h2.tNdim, c1, c2, l1, l2]
  simp

theorem matmul_tv (l1 : 3 ≤ T1.dims.length) (l2 : T2.dims.length = 1) :
    matmul R1.h R2.h out E m = matTV R1.h R2.h out T1.dims.length E m := by
  unfold matmul
  msimp [h1.tDevice, h2.tDevice, h1.tNdim, h2.tNdim, c1, c2, l2]
  rw [if_neg (by omega), if_neg (by omega), if_neg (by omega), if_neg (by omega), if_pos (by omega)]

theorem matmul_vt (l1 : T1.dims.length = 1) (l2 : 3 ≤ T2.dims.length) :
    matmul R1.h R2.h out E m = matVT R1.h R2.h out T2.dims.length E m := by
  unfold matmul
  msimp [h1.tDevice, h2.tDevice, h1.tNdim, h2.tNdim, c1, c2, l1]
  rw [if_neg (by omega), if_neg (by omega), if_neg (by omega), if_neg (by omega), if_neg (by omega), if_pos (by omega)]

theorem matmul_tt (l1 : 2 ≤ T1.dims.length) (l2 : 2 ≤ T2.dims.length) (l3 : 3 ≤ T1.dims.length ∨ 3 ≤ T2.dims.length) :
    matmul R1.h R2.h out E m = matTT R1.h R2.h out T1.dims.length T2.dims.length E m := by
  unfold matmul
  msimp [h1.tDevice, h2.tDevice, h1.tNdim, h2.tNdim, c1, c2]
  rw [if_neg (by omega), if_neg (by omega), if_neg (by omega), if_neg (by omega), if_neg (by omega), if_neg (by omega),
    if_pos (by omega)]

/-- A rank-0 operand. -/
theorem matmul_rank0 (h0 : T1.dims.length = 0 ∨ T2.dims.length = 0) :
    matmul R1.h R2.h out E m = .ok (.invalidArgument, out) m := by
  unfold matmul
  msimp [h1.tDevice, h2.tDevice, h1.tNdim, h2.tNdim, c1, c2]
  rw [if_neg (by omega), if_neg (by omega), if_neg (by omega), if_neg (by omega), if_neg (by omega), if_neg (by omega),
    if_neg (by omega)]

omit c1 c2

theorem matmul_device (h : T1.device.type ≠ DEVICE_CPU ∨ T2.device.type ≠ DEVICE_CPU) :
    matmul R1.h R2.h out E m = .ok (.notSupported, out) m := by
  unfold matmul
  msimp [h1.tDevice, h2.tDevice]
  rw [if_pos h]

end

theorem At.dimI (h : At m R T) {k : Int} {i d : Nat} (hk : k = i) (hd : T.dims[i]? = some d) : Aitisa.tDim R.h k E m = .ok (d : Int) m := by
  obtain ⟨hi, e⟩ := List.getElem?_eq_some_iff.1 hd
  rw [hk, h.tDim hi, e]

/-- A reported allocation failure, or the outcome by the kernel. -/
def KernelCall (E : Env) (x : M (Status × Ptr)) (m : Mem) (out : Ptr) (R1 R2 : Foot) (T1 T2 : TV) (c : Code) (xs ys : List Val)
    (ds : List Nat) (z : Val) (kern : Nat → M Unit) : Prop :=
  (∃ m', x E m = .ok (.allocFailed, out) m' ∧ Frame m m' ∧ m'.WF ∧ ¬ E.NoFail) ∨
    (¬ E.NoFail ∧ x E m = .ub .nullDeref) ∨ ByKernel E x m R1 R2 T1 T2 c xs ys ds z kern

theorem KernelCall.delivers {x : M (Status × Ptr)} {kern : Nat → M Unit} (h : KernelCall E x m out R1 R2 T1 T2 c xs ys ds z kern)
    (hl : zs.length = prod ds) (hw : ∀ v ∈ zs, v.WT c)
    (hk : ∀ p mk, KCtx mk R1 R2 T1 T2 c xs ys p → kern p E (mk.arr p c (prod ds) (done (fun i => zs.getD i (.int 0)) z 0)) =
      .ok () (mk.arr p c (prod ds) (done (fun i => zs.getD i (.int 0)) z (prod ds)))) :
    DeliversCareless E x m out c T1.device ds zs := by
  rcases h with h | h | h
  · exact .inl ⟨.inr h, hw, hl⟩
  · exact .inr h
  · exact .inl (h.delivers hl hw hk)

theorem KernelCall.safe {x : M (Status × Ptr)} {kern : Nat → M Unit} (h : KernelCall E x m out R1 R2 T1 T2 c xs ys ds z kern) (wz : z.WT c)
    (hk : ∀ p mk, KCtx mk R1 R2 T1 T2 c xs ys p → ∀ m', Full mk p c (prod ds) m' →
      (∃ s m2, kern p E m' = .ok s m2 ∧ Full mk p c (prod ds) m2) ∨ ∃ u, kern p E m' = .ub u ∧ u = .overflow) :
    SafeProduct E x m out c T1.device ds := by
  rcases h with h | h | h
  · exact .inl ⟨List.replicate (prod ds) z, .inl ⟨.inr h, by intro v hv; rw [(List.mem_replicate.1 hv).2]; exact wz, by simp⟩⟩
  · exact .inl ⟨[], .inr h⟩
  · exact h.safe wz hk

section
variable (wf : m.WF) (h1 : At m R1 T1) (he1 : Elems T1 c xs) (h2 : At m R2 T2) (he2 : ReadsAs T2 c ys)
  (c1 : T1.device.type = DEVICE_CPU) (c2 : T2.device.type = DEVICE_CPU) (hz : ZeroOf E.fp c z) {nM nK nN : Nat}
include wf h1 he1 h2 he2 c1 c2 hz

theorem matVV_top (s1 : T1.dims = [nK]) (s2 : T2.dims = [nK]) (hs : ShapeOK [1] c.size) :
    (∃ m', matmul R1.h R2.h out E m = .ok (.allocFailed, out) m' ∧ Frame m m' ∧ m'.WF ∧ ¬ E.NoFail) ∨
    ByKernel E (matmul R1.h R2.h out) m R1 R2 T1 T2 c xs ys [1] z (fun p => vvKernel c (.blk R1.p) (.blk R2.p) (.blk p) nK) := by
  have e : matmul R1.h R2.h out E m =
      matPlain R1.h R2.h (dimsCells [1]) ([1] : List Nat).length out (fun c ap bp cp => vvKernel c ap bp cp nK) E m := by
    rw [matmul_vv h1 h2 c1 c2 (by simp [s1]) (by simp [s2])]
    unfold matVV
    msimp [h1.dimI (k := 0) (i := 0) (d := nK) rfl (by simp [s1]), h2.dimI (k := 0) (i := 0) (d := nK) rfl (by simp [s2])]
    rfl
  rcases matPlain_top (out := out) wf h1 he1 h2 he2 hs (by simp [prod]) hz (fun c ap bp cp => vvKernel c ap bp cp nK) with h | h
  · rw [← e] at h; exact .inl h
  · exact .inr (h.congr e)

theorem matMV_top (s1 : T1.dims = [nM, nK]) (s2 : T2.dims = [nK]) (hs : ShapeOK [nM] c.size) (hi : nM ≤ 2147483647) :
    (∃ m', matmul R1.h R2.h out E m = .ok (.allocFailed, out) m' ∧ Frame m m' ∧ m'.WF ∧ ¬ E.NoFail) ∨
    ByKernel E (matmul R1.h R2.h out) m R1 R2 T1 T2 c xs ys [nM] z (fun p => mvKernel c (.blk R1.p) (.blk R2.p) (.blk p) nM nK) := by
  have e : matmul R1.h R2.h out E m =
      matPlain R1.h R2.h (dimsCells [nM]) ([nM] : List Nat).length out (fun c ap bp cp => mvKernel c ap bp cp nM nK) E m := by
    rw [matmul_mv h1 h2 c1 c2 (by simp [s1]) (by simp [s2])]
    unfold matMV
    msimp [h1.dimI (k := 0) (i := 0) (d := nM) rfl (by simp [s1]), h1.dimI (k := 1) (i := 1) (d := nK) rfl (by simp [s1]),
      h2.dimI (k := 0) (i := 0) (d := nK) rfl (by simp [s2])]
    rfl
  rcases matPlain_top (out := out) wf h1 he1 h2 he2 hs (by simp [prod]; omega) hz (fun c ap bp cp => mvKernel c ap bp cp nM nK) with h | h
  · rw [← e] at h; exact .inl h
  · exact .inr (h.congr e)

theorem matMM_top (s1 : T1.dims = [nM, nK]) (s2 : T2.dims = [nK, nN]) (hs : ShapeOK [nM, nN] c.size) (hi : nM * nN ≤ 2147483647) :
    (∃ m', matmul R1.h R2.h out E m = .ok (.allocFailed, out) m' ∧ Frame m m' ∧ m'.WF ∧ ¬ E.NoFail) ∨
    ByKernel E (matmul R1.h R2.h out) m R1 R2 T1 T2 c xs ys [nM, nN] z
      (fun p => mmKernel c (.blk R1.p) (.blk R2.p) (.blk p) 0 0 0 nM nK nN) := by
  have e : matmul R1.h R2.h out E m =
      matPlain R1.h R2.h (dimsCells [nM, nN]) ([nM, nN] : List Nat).length out (fun c ap bp cp => mmKernel c ap bp cp 0 0 0 nM nK nN) E m := by
    rw [matmul_mm h1 h2 c1 c2 (by simp [s1]) (by simp [s2])]
    unfold matMM
    msimp [h1.dimI (k := 0) (i := 0) (d := nM) rfl (by simp [s1]), h1.dimI (k := 1) (i := 1) (d := nK) rfl (by simp [s1]),
      h2.dimI (k := 0) (i := 0) (d := nK) rfl (by simp [s2]), h2.dimI (k := 1) (i := 1) (d := nN) rfl (by simp [s2])]
    rfl
  rcases matPlain_top (out := out) wf h1 he1 h2 he2 hs (by simp [prod]; omega) hz (fun c ap bp cp => mmKernel c ap bp cp 0 0 0 nM nK nN) with h | h
  · rw [← e] at h; exact .inl h
  · exact .inr (h.congr e)

theorem matVM_top (s1 : T1.dims = [nK]) (s2 : T2.dims = [nK, nN]) (hs : ShapeOK [nN] c.size) (hi : nN ≤ 2147483647) :
    (∃ m', matmul R1.h R2.h out E m = .ok (.allocFailed, out) m' ∧ Frame m m' ∧ m'.WF ∧ ¬ E.NoFail) ∨
    ByKernel E (matmul R1.h R2.h out) m R1 R2 T1 T2 c xs ys [nN] z
      (fun p => mmKernel c (.blk R1.p) (.blk R2.p) (.blk p) 0 0 0 1 nK nN) := by
  have e : matmul R1.h R2.h out E m =
      matPlain R1.h R2.h (dimsCells [nN]) ([nN] : List Nat).length out (fun c ap bp cp => mmKernel c ap bp cp 0 0 0 1 nK nN) E m := by
    rw [matmul_vm h1 h2 c1 c2 (by simp [s1]) (by simp [s2])]
    unfold matVM
    msimp [h1.dimI (k := 0) (i := 0) (d := nK) rfl (by simp [s1]),
      h2.dimI (k := 0) (i := 0) (d := nK) rfl (by simp [s2]), h2.dimI (k := 1) (i := 1) (d := nN) rfl (by simp [s2])]
    rfl
  rcases matPlain_top (out := out) wf h1 he1 h2 he2 hs (by simp [prod]; omega) hz (fun c ap bp cp => mmKernel c ap bp cp 0 0 0 1 nK nN) with h | h
  · rw [← e] at h; exact .inl h
  · exact .inr (h.congr e)

end

/-- The plain cases with a reported allocation failure. -/
theorem ByKernel.orFail {x : M (Status × Ptr)} {kern : Nat → M Unit}
    (h : (∃ m', x E m = .ok (.allocFailed, out) m' ∧ Frame m m' ∧ m'.WF ∧ ¬ E.NoFail) ∨ ByKernel E x m R1 R2 T1 T2 c xs ys ds z kern)
    (hl : zs.length = prod ds) (hw : ∀ v ∈ zs, v.WT c)
    (hk : ∀ p mk, KCtx mk R1 R2 T1 T2 c xs ys p → kern p E (mk.arr p c (prod ds) (done (fun i => zs.getD i (.int 0)) z 0)) =
      .ok () (mk.arr p c (prod ds) (done (fun i => zs.getD i (.int 0)) z (prod ds)))) :
    Delivers E x m out c T1.device ds zs := by
  rcases h with h | h
  · exact ⟨.inr h, hw, hl⟩
  · exact h.delivers hl hw hk

theorem KernelCall.of {x : M (Status × Ptr)} {kern : Nat → M Unit}
    (h : (∃ m', x E m = .ok (.allocFailed, out) m' ∧ Frame m m' ∧ m'.WF ∧ ¬ E.NoFail) ∨ ByKernel E x m R1 R2 T1 T2 c xs ys ds z kern) :
    KernelCall E x m out R1 R2 T1 T2 c xs ys ds z kern := h.elim .inl fun h => .inr (.inr h)

end Aitisa
