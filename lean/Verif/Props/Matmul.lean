import Verif.Proof.MatmulMixed
import Verif.Spec.Example

/-!
# C31, C32, C33: the matrix product
-/

namespace Aitisa

variable {E : Env} {m : Mem} {R1 R2 : Foot} {T1 T2 : TV} {c : Code} {xs ys zs : List Val} {z : Val} {nM nK nN : Nat}
  {bs b1 b2 bd : List Nat}

/-! ### Indexing -/

theorem lin_append {a : List Nat} {x : List Nat} (h : x.length = a.length) (b y : List Nat) :
    lin (a ++ b) (x ++ y) = lin a x * prod b + lin b y := by
  induction a generalizing x with
  | nil => cases x with
    | nil => simp [lin]
    | cons => simp at h
  | cons d a ih => cases x with
    | nil => simp at h
    | cons i x =>
      simp only [List.cons_append, lin, ih (x := x) (by simpa using h), prod_append]
      rw [Nat.add_mul, Nat.mul_assoc]; omega

theorem lin_pair (n k i j : Nat) : lin [n, k] [i, j] = i * k + j := by simp [lin, prod]

theorem lin_one (n i : Nat) : lin [n] [i] = i := by simp [lin, prod]

theorem elems_WT (hl : zs.length = n) (h : ∀ k, k < n → (zs.getD k (.int 0)).WT c) : ∀ v ∈ zs, v.WT c := by
  intro v hv
  obtain ⟨k, hk, rfl⟩ := List.getElem_of_mem hv
  have := h k (by omega)
  simpa [List.getD, hk] using this

/-- From the sums in terms of coordinates to the hypothesis of the kernels. -/
theorem dot_run {K : Nat} {f g : Nat → Nat} {w : Val} (he1 : Elems T1 c xs) (he2 : Elems T2 c ys) (wz : z.WT c)
    (hf : ∀ q, q < K → f q < xs.length) (hg : ∀ q, q < K → g q < ys.length)
    (h : DotTo E.fp c z ((List.range K).map fun q => (xs.getD (f q) (.int 0), ys.getD (g q) (.int 0))) w) :
    dotRun E.fp c z ((List.range K).map fun q => (xs.getD (f q) (.int 0), ys.getD (g q) (.int 0))) = .ok w ∧ w.WT c := by
  have := (dotTo_iff wz (by
    intro p hp
    simp only [List.mem_map, List.mem_range] at hp
    obtain ⟨q, hq, rfl⟩ := hp
    have a := hf q hq
    have b := hg q hq
    simp only [List.getD, List.getElem?_eq_getElem a, List.getElem?_eq_getElem b, Option.getD_some]
    exact ⟨he1.wt _ (List.getElem_mem a), he2.wt _ (List.getElem_mem b)⟩)).1 h
  exact ⟨this, dotRun_WT wz this⟩

theorem shape1 {n : Nat} (h : n ≤ 2147483647) : ShapeOK [n] c.size := by
  have := c.size_pos
  have : c.size ≤ 8 := by cases c <;> decide
  have h3 : max n 1 * c.size ≤ 2147483647 * 8 := Nat.mul_le_mul (by omega) this
  refine ⟨?_, Nat.le_of_ble_eq_true rfl⟩
  rw [show prodMax [n] = max n 1 from Nat.mul_one _, show max c.size 1 = c.size by omega]
  omega

theorem lenLe (h1 : At m R1 T1) (he1 : Elems T1 c xs) : xs.length ≤ 9223372036854775807 := by
  rw [he1.len]; exact h1.shape.prod_le

/-! ## C31 -/

section
variable (wf : m.WF) (h1 : At m R1 T1) (he1 : Elems T1 c xs) (h2 : At m R2 T2) (he2 : Elems T2 c ys)
  (c1 : T1.device.type = DEVICE_CPU) (c2 : T2.device.type = DEVICE_CPU) (hz : ZeroOf E.fp c z)
include wf h1 he1 h2 he2 c1 c2 hz

/-- C31, vector times vector: one element, the sum of the products. -/
theorem C31_vector_vector (s1 : T1.dims = [nK]) (s2 : T2.dims = [nK]) (hK : nK ≤ 2147483647) {w : Val}
    (hdot : DotTo E.fp c z ((List.range nK).map fun q => (elemAt T1.dims xs [q], elemAt T2.dims ys [q])) w) (out : Ptr) :
    Delivers E (matmul R1.h R2.h out) m out c T1.device [1] [w] := by
  have l1 := he1.len
  have l2 := he2.len
  simp only [s1, s2, elemAt, lin_one] at hdot
  rw [s1] at l1
  rw [s2] at l2
  simp [prod] at l1 l2
  obtain ⟨hr, hw⟩ := dot_run (f := fun q => q) (g := fun q => q) he1 he2 hz.wt (fun q hq => by omega) (fun q hq => by omega) hdot
  refine ByKernel.orFail (matVV_top wf h1 he1 h2 (he2.reads h2) c1 c2 hz s1 s2 (shape1 (by omega))) rfl (by simpa using hw) ?_
  intro p mk X
  exact X.vv (P := 1) hz.wt hK (by omega) (by omega) (by omega) (by simpa using hr)

/-- C31, matrix times vector. -/
theorem C31_matrix_vector (s1 : T1.dims = [nM, nK]) (s2 : T2.dims = [nK]) (hM : nM ≤ 2147483647) (hK : nK ≤ 2147483647)
    (hzl : zs.length = nM)
    (hdot : ∀ i, i < nM → DotTo E.fp c z ((List.range nK).map fun q => (elemAt T1.dims xs [i, q], elemAt T2.dims ys [q])) (elemAt [nM] zs [i]))
    (out : Ptr) : Delivers E (matmul R1.h R2.h out) m out c T1.device [nM] zs := by
  have l1 := he1.len
  have l2 := he2.len
  simp only [s1, s2, elemAt, lin_one, lin_pair] at hdot
  rw [s1] at l1
  rw [s2] at l2
  simp [prod] at l1 l2
  have hr := fun i hi => dot_run (f := fun q => i * nK + q) (g := fun q => q) he1 he2 hz.wt
    (fun q hq => by have := cell_lt hi hq; omega) (fun q hq => by omega) (hdot i hi)
  refine ByKernel.orFail (matMV_top wf h1 he1 h2 (he2.reads h2) c1 c2 hz s1 s2 (shape1 hM) hM) (by simp [prod, hzl])
    (elems_WT hzl fun k hk => (hr k hk).2) ?_
  · intro p mk X
    simpa [prod] using X.mv (P := nM) hz.wt hM hK (by omega) (by omega) (by omega) (lenLe h1 he1) (fun i hi => (hr i hi).1)

/-- C31, matrix times matrix. -/
theorem C31_matrix_matrix (s1 : T1.dims = [nM, nK]) (s2 : T2.dims = [nK, nN]) (hs : ShapeOK [nM, nN] c.size)
    (hM : nM ≤ 2147483647) (hK : nK ≤ 2147483647) (hN : nN ≤ 2147483647) (hi : nM * nN ≤ 2147483647) (hzl : zs.length = nM * nN)
    (hdot : ∀ i j, i < nM → j < nN → DotTo E.fp c z ((List.range nK).map fun q =>
      (elemAt T1.dims xs [i, q], elemAt T2.dims ys [q, j])) (elemAt [nM, nN] zs [i, j]))
    (out : Ptr) : Delivers E (matmul R1.h R2.h out) m out c T1.device [nM, nN] zs := by
  have l1 := he1.len
  have l2 := he2.len
  simp only [s1, s2, elemAt, lin_pair] at hdot
  rw [s1] at l1
  rw [s2] at l2
  simp [prod] at l1 l2
  have hr := fun i j hi hj => dot_run (f := fun q => i * nK + q) (g := fun q => q * nN + j) he1 he2 hz.wt
    (fun q hq => by have := cell_lt hi hq; omega) (fun q hq => by have := cell_lt hq hj; omega) (hdot i j hi hj)
  refine ByKernel.orFail (matMM_top wf h1 he1 h2 (he2.reads h2) c1 c2 hz s1 s2 hs hi) (by simp [prod, hzl])
    (elems_WT hzl fun k hk => ?_) ?_
  · have hn : 0 < nN := Nat.pos_of_ne_zero fun h => by simp [h] at hk
    have := (hr (k / nN) (k % nN) (Nat.div_lt_of_lt_mul (by rwa [Nat.mul_comm])) (Nat.mod_lt _ hn)).2
    rwa [Nat.mul_comm, Nat.div_add_mod] at this
  · intro p mk X
    have := X.mm (E := E) (P := nM * nN) (oa := 0) (ob := 0) (oc := 0) (W := fun i => zs.getD i (.int 0)) hz.wt hM hK hN (by omega) (by omega)
      (by omega) (lenLe h1 he1) (lenLe h2 he2) (by omega) (fun i j hi hj => by simpa using (hr i j hi hj).1)
    simpa [prod] using this

/-- C31, vector times matrix. -/
theorem C31_vector_matrix (s1 : T1.dims = [nK]) (s2 : T2.dims = [nK, nN]) (hK : nK ≤ 2147483647) (hN : nN ≤ 2147483647)
    (hzl : zs.length = nN)
    (hdot : ∀ j, j < nN → DotTo E.fp c z ((List.range nK).map fun q => (elemAt T1.dims xs [q], elemAt T2.dims ys [q, j])) (elemAt [nN] zs [j]))
    (out : Ptr) : Delivers E (matmul R1.h R2.h out) m out c T1.device [nN] zs := by
  have l1 := he1.len
  have l2 := he2.len
  simp only [s1, s2, elemAt, lin_one, lin_pair] at hdot
  rw [s1] at l1
  rw [s2] at l2
  simp [prod] at l1 l2
  have hr := fun j hj => dot_run (f := fun q => q) (g := fun q => q * nN + j) he1 he2 hz.wt
    (fun q hq => by omega) (fun q hq => by have := cell_lt hq hj; omega) (hdot j hj)
  refine ByKernel.orFail (matVM_top wf h1 he1 h2 (he2.reads h2) c1 c2 hz s1 s2 (shape1 hN) hN) (by simp [prod, hzl])
    (elems_WT hzl fun k hk => (hr k hk).2) ?_
  · intro p mk X
    have := X.mm (E := E) (P := nN) (oa := 0) (ob := 0) (oc := 0) (M := 1) (W := fun i => zs.getD i (.int 0)) hz.wt (by omega) hK hN (by omega)
      (by omega) (by omega) (lenLe h1 he1) (lenLe h2 he2) (by omega) (fun i j hi hj => by
        have hi : i = 0 := by omega
        subst hi; simpa using (hr j hj).1)
    simpa [prod] using this

/-- The batched product, in terms of batch numbers. -/
theorem batched (hK : nK ≤ 2147483647) (hM : nM ≤ 2147483647) (hN : nN ≤ 2147483647) {nb s1 s2 : Nat} {aOf bOf : Nat → Nat} {ds : List Nat} {out : Ptr}
    (K : KernelCall E (matmul R1.h R2.h out) m out R1 R2 T1 T2 c xs ys ds z (fun p => batchKernel c (.blk R1.p) (.blk R2.p) (.blk p)
      (batchList nb s1 s2 (nM * nN) aOf bOf) nM nK nN nb)) (hp : prod ds = nb * (nM * nN)) (hP : nb * (nM * nN) ≤ 9223372036854775807)
    (ha : ∀ b, b < nb → aOf b * s1 + nM * nK ≤ xs.length) (hb : ∀ b, b < nb → bOf b * s2 + nK * nN ≤ ys.length)
    (hzl : zs.length = prod ds)
    (hdot : ∀ b i j, b < nb → i < nM → j < nN → DotTo E.fp c z ((List.range nK).map fun q =>
      (xs.getD (aOf b * s1 + (i * nK + q)) (.int 0), ys.getD (bOf b * s2 + (q * nN + j)) (.int 0))) (zs.getD (b * (nM * nN) + (i * nN + j)) (.int 0))) :
    DeliversCareless E (matmul R1.h R2.h out) m out c T1.device ds zs := by
  have hr := fun b i j hb' hi hj => dot_run (f := fun q => aOf b * s1 + (i * nK + q)) (g := fun q => bOf b * s2 + (q * nN + j)) he1 he2 hz.wt
    (fun q hq => by have := cell_lt hi hq; have := ha b hb'; omega) (fun q hq => by have := cell_lt hq hj; have := hb b hb'; omega)
    (hdot b i j hb' hi hj)
  refine K.delivers hzl (elems_WT (hzl.trans hp) fun k hk => ?_) ?_
  · have hmn : 0 < nM * nN := Nat.pos_of_ne_zero fun h => by rw [h] at hk; simp at hk
    have hn : 0 < nN := Nat.pos_of_ne_zero fun h => by simp [h] at hmn
    have h1 : k / (nM * nN) < nb := Nat.div_lt_of_lt_mul (by rwa [Nat.mul_comm])
    have h2 : k % (nM * nN) < nM * nN := Nat.mod_lt _ hmn
    have := (hr (k / (nM * nN)) (k % (nM * nN) / nN) (k % (nM * nN) % nN) h1 (Nat.div_lt_of_lt_mul (by rwa [Nat.mul_comm] at h2 ⊢))
      (Nat.mod_lt _ hn)).2
    rwa [Nat.mul_comm (k % (nM * nN) / nN), Nat.div_add_mod, Nat.mul_comm (k / (nM * nN)), Nat.div_add_mod] at this
  · intro p mk X
    rw [hp]
    exact X.batch hz.wt hM hK hN ha hb (lenLe h1 he1) (lenLe h2 he2) hP fun b i j hb' hi hj => (hr b i j hb' hi hj).1

/-- C31, tensor times vector: the vector is multiplied by each matrix. -/
theorem C31_tensor_vector (s1 : T1.dims = bs ++ [nM, nK]) (hb : bs ≠ []) (s2 : T2.dims = [nK]) (hs : ShapeOK (bs ++ [nM]) c.size)
    (hM : nM ≤ 2147483647) (hK : nK ≤ 2147483647) (hnb : prod bs ≤ 2147483647) (hi : prod (bs ++ [nM]) ≤ 2147483647)
    (hzl : zs.length = prod (bs ++ [nM]))
    (hdot : ∀ cs i, InRange bs cs → i < nM → DotTo E.fp c z ((List.range nK).map fun q =>
      (elemAt T1.dims xs (cs ++ [i, q]), elemAt T2.dims ys [q])) (elemAt (bs ++ [nM]) zs (cs ++ [i])))
    (out : Ptr) : DeliversCareless E (matmul R1.h R2.h out) m out c T1.device (bs ++ [nM]) zs := by
  have l1 := he1.len
  have l2 := he2.len
  rw [s1, prod_snoc2] at l1
  rw [s2] at l2
  simp [prod] at l2
  rw [prod_snoc1] at hi
  refine batched wf h1 he1 h2 he2 c1 c2 hz (nN := 1) hK hM (by omega) (matTV_top wf h1 he1 h2 (he2.reads h2) c1 c2 hz s1 hb s2 hs hi hnb)
    (by rw [prod_snoc1, Nat.mul_one]) (by rw [Nat.mul_one]; omega) ?_ ?_ hzl ?_
  · intro b hb'
    rw [l1, ← Nat.succ_mul]; exact Nat.mul_le_mul_right _ hb'
  · intro b _; omega
  · intro b i j hb' hi' hj
    have hj0 : j = 0 := by omega
    have := hdot (unlin bs b) i (unlin_inRange hb') hi'
    have hlen : (unlin bs b).length = bs.length := unlin_length ..
    simpa [s1, s2, elemAt, lin_append hlen, lin_pair, lin_one, lin_unlin hb', prod, hj0] using this

/-- C31, vector times tensor. -/
theorem C31_vector_tensor (s1 : T1.dims = [nK]) (s2 : T2.dims = bs ++ [nK, nN]) (hb : bs ≠ []) (hs : ShapeOK (bs ++ [nN]) c.size)
    (hK : nK ≤ 2147483647) (hN : nN ≤ 2147483647) (hnb : prod bs ≤ 2147483647) (hi : prod (bs ++ [nN]) ≤ 2147483647)
    (hzl : zs.length = prod (bs ++ [nN]))
    (hdot : ∀ cs j, InRange bs cs → j < nN → DotTo E.fp c z ((List.range nK).map fun q =>
      (elemAt T1.dims xs [q], elemAt T2.dims ys (cs ++ [q, j]))) (elemAt (bs ++ [nN]) zs (cs ++ [j])))
    (out : Ptr) : DeliversCareless E (matmul R1.h R2.h out) m out c T1.device (bs ++ [nN]) zs := by
  have l1 := he1.len
  have l2 := he2.len
  rw [s2, prod_snoc2] at l2
  rw [s1] at l1
  simp [prod] at l1
  rw [prod_snoc1] at hi
  refine batched wf h1 he1 h2 he2 c1 c2 hz (nM := 1) hK (by omega) hN (matVT_top wf h1 he1 h2 (he2.reads h2) c1 c2 hz s1 s2 hb hs hi hnb)
    (by rw [prod_snoc1, Nat.one_mul]) (by rw [Nat.one_mul]; omega) ?_ ?_ hzl ?_
  · intro b _; omega
  · intro b hb'
    rw [l2, ← Nat.succ_mul]; exact Nat.mul_le_mul_right _ hb'
  · intro b i j hb' hi' hj
    have hi0 : i = 0 := by omega
    have := hdot (unlin bs b) j (unlin_inRange hb') hj
    have hlen : (unlin bs b).length = bs.length := unlin_length ..
    simpa [s1, s2, elemAt, lin_append hlen, lin_pair, lin_one, lin_unlin hb', prod, hi0] using this

/-- C31, tensor times tensor: the batch dims are broadcast, and each output matrix is the product of the matrices found at
the broadcast batch coordinates. -/
theorem C31_tensor_tensor (s1 : T1.dims = b1 ++ [nM, nK]) (s2 : T2.dims = b2 ++ [nK, nN]) (hb : b1 ≠ [] ∨ b2 ≠ [])
    (hp1 : ∀ d ∈ b1, 0 < d) (hp2 : ∀ d ∈ b2, 0 < d) (hbc : Broadcasts b1 b2 bd) (hs : ShapeOK (bd ++ [nM, nN]) c.size)
    (hM : nM ≤ 2147483647) (hK : nK ≤ 2147483647) (hN : nN ≤ 2147483647) (hnb : prod bd ≤ 2147483647)
    (hi : prod (bd ++ [nM, nN]) ≤ 2147483647) (hzl : zs.length = prod (bd ++ [nM, nN]))
    (hdot : ∀ cs i j, InRange bd cs → i < nM → j < nN → DotTo E.fp c z ((List.range nK).map fun q =>
      (elemAt T1.dims xs (under b1 cs ++ [i, q]), elemAt T2.dims ys (under b2 cs ++ [q, j]))) (elemAt (bd ++ [nM, nN]) zs (cs ++ [i, j])))
    (out : Ptr) : DeliversCareless E (matmul R1.h R2.h out) m out c T1.device (bd ++ [nM, nN]) zs := by
  have l1 := he1.len
  have l2 := he2.len
  rw [s1, prod_snoc2] at l1
  rw [s2, prod_snoc2] at l2
  rw [prod_snoc2] at hi
  have hl := hbc.length
  have f1 := hbc.fits hp1
  have f2 := hbc.symm.fits hp2
  have S : TTShape T1 T2 c b1 b2 bd nM nK nN := ⟨s1, s2, f1.near, f2.near, hl, by
    have : 0 < b1.length ∨ 0 < b2.length := hb.imp List.length_pos_iff.2 List.length_pos_iff.2
    omega, hs, hnb⟩
  refine batched wf h1 he1 h2 he2 c1 c2 hz hK hM hN (matTT_top wf h1 he1 h2 (he2.reads h2) c1 c2 hz S hbc hi)
    (by rw [prod_snoc2]) (by omega) ?_ ?_ hzl ?_
  · intro b hb'
    rw [l1, ← Nat.succ_mul]; exact Nat.mul_le_mul_right _ (batchOf_lt f1 hb')
  · intro b hb'
    rw [l2, ← Nat.succ_mul]; exact Nat.mul_le_mul_right _ (batchOf_lt f2 hb')
  · intro b i j hb' hi' hj
    have := hdot (unlin bd b) i j (unlin_inRange hb') hi' hj
    have hlen : (unlin bd b).length = bd.length := unlin_length ..
    have hu1 : (under b1 (unlin bd b)).length = b1.length := under_length (by omega)
    have hu2 : (under b2 (unlin bd b)).length = b2.length := under_length (by omega)
    simpa [s1, s2, elemAt, lin_append hlen, lin_append hu1, lin_append hu2, lin_pair, lin_unlin hb', prod, batchOf] using this

end

/-! ### Examples -/

theorem all_coords {ds : List Nat} {Q : List Nat → Prop} (h : ∀ b, b < prod ds → Q (unlin ds b)) : ∀ cs, InRange ds cs → Q cs := by
  intro cs hc
  have := h (lin ds cs) (lin_lt hc)
  rwa [unlin_lin hc] at this

/-- The toy conversion of 0.0 to `int32_t`. -/
theorem exZero : ZeroOf okEnv.fp .i32 (.int 0) := converts_iff.2 (by rfl)

/-- The toy conversion of 0.0 to `int8_t`. -/
theorem exZeroB : ZeroOf okEnv.fp .i8 (.int 0) := converts_iff.2 (by rfl)

theorem exDot {l : List (Val × Val)} {w : Val} (h : (∀ p ∈ l, p.1.WT .i32 ∧ p.2.WT .i32) ∧ dotRun okEnv.fp .i32 (.int 0) l = .ok w) :
    DotTo okEnv.fp .i32 (.int 0) l w := (dotTo_iff (by decide) h.1).2 h.2

/-- Two tensors in memory. -/
def exM (c : Code) (d1 : List Nat) (x1 : List Int) (d2 : List Nat) (x2 : List Int) : Mem :=
  (Mem.empty.addT (tvOf c d1 (x1.map .int))).addT (tvOf c d2 (x2.map .int))

/-- Handle of the first. -/
abbrev exH1 : Foot := Mem.empty.footT

/-- Handle of the second. -/
abbrev exH2 (c : Code) (d1 : List Nat) (x1 : List Int) : Foot := (Mem.empty.addT (tvOf c d1 (x1.map .int))).footT

/-- `[1 2 3] · [4 5 6] = 32`. -/
example : Delivers okEnv (matmul exH1.h (exH2 .i32 [3] [1, 2, 3]).h .indet) (exM .i32 [3] [1, 2, 3] [3] [4, 5, 6]) .indet .i32
    ⟨DEVICE_CPU, 0⟩ [1] [.int 32] :=
  C31_vector_vector (E := okEnv) (c := .i32) (T1 := tvOf .i32 [3] ([1, 2, 3].map .int)) (T2 := tvOf .i32 [3] ([4, 5, 6].map .int))
    (Mem.addT_wf (Mem.addT_wf Mem.empty_wf _) _)
    (addT_old (Mem.addT_wf Mem.empty_wf _) (tvOf_at _ (by simp) rfl ⟨by decide, by decide⟩) _) (tvOf_elems (by decide) rfl)
    (tvOf_at _ (by simp) rfl ⟨by decide, by decide⟩) (tvOf_elems (by decide) rfl) rfl rfl exZero rfl rfl (by omega) (exDot (by decide)) _

/-- A 2x3 matrix times a vector. -/
example : Delivers okEnv (matmul exH1.h (exH2 .i32 [2, 3] [1, 2, 3, 4, 5, 6]).h .indet) (exM .i32 [2, 3] [1, 2, 3, 4, 5, 6] [3] [1, 0, -1]) .indet .i32
    ⟨DEVICE_CPU, 0⟩ [2] ([-2, -2].map .int) :=
  C31_matrix_vector (E := okEnv) (c := .i32) (T1 := tvOf .i32 [2, 3] ([1, 2, 3, 4, 5, 6].map .int)) (T2 := tvOf .i32 [3] ([1, 0, -1].map .int))
    (zs := [-2, -2].map .int)
    (Mem.addT_wf (Mem.addT_wf Mem.empty_wf _) _)
    (addT_old (Mem.addT_wf Mem.empty_wf _) (tvOf_at _ (by simp) rfl ⟨by decide, by decide⟩) _) (tvOf_elems (by decide) rfl)
    (tvOf_at _ (by simp) rfl ⟨by decide, by decide⟩) (tvOf_elems (by decide) rfl) rfl rfl exZero rfl rfl (by omega) (by omega) rfl
    (by intro i hi; apply exDot; revert i; decide) _

/-- A 2x2 matrix times a 2x2 matrix. -/
example : Delivers okEnv (matmul exH1.h (exH2 .i32 [2, 2] [1, 2, 3, 4]).h .indet) (exM .i32 [2, 2] [1, 2, 3, 4] [2, 2] [5, 6, 7, 8]) .indet .i32
    ⟨DEVICE_CPU, 0⟩ [2, 2] ([19, 22, 43, 50].map .int) :=
  C31_matrix_matrix (E := okEnv) (c := .i32) (T1 := tvOf .i32 [2, 2] ([1, 2, 3, 4].map .int)) (T2 := tvOf .i32 [2, 2] ([5, 6, 7, 8].map .int))
    (zs := [19, 22, 43, 50].map .int)
    (Mem.addT_wf (Mem.addT_wf Mem.empty_wf _) _)
    (addT_old (Mem.addT_wf Mem.empty_wf _) (tvOf_at _ (by simp) rfl ⟨by decide, by decide⟩) _) (tvOf_elems (by decide) rfl)
    (tvOf_at _ (by simp) rfl ⟨by decide, by decide⟩) (tvOf_elems (by decide) rfl) rfl rfl exZero rfl rfl ⟨by decide, by decide⟩ (by omega) (by omega)
    (by omega) (by omega) rfl
    (by intro i j hi hj; apply exDot; revert j; revert i; decide) _

/-- A vector times a 2x3 matrix. -/
example : Delivers okEnv (matmul exH1.h (exH2 .i32 [2] [1, -1]).h .indet) (exM .i32 [2] [1, -1] [2, 3] [1, 2, 3, 4, 6, 8]) .indet .i32
    ⟨DEVICE_CPU, 0⟩ [3] ([-3, -4, -5].map .int) :=
  C31_vector_matrix (E := okEnv) (c := .i32) (T1 := tvOf .i32 [2] ([1, -1].map .int)) (T2 := tvOf .i32 [2, 3] ([1, 2, 3, 4, 6, 8].map .int))
    (zs := [-3, -4, -5].map .int)
    (Mem.addT_wf (Mem.addT_wf Mem.empty_wf _) _)
    (addT_old (Mem.addT_wf Mem.empty_wf _) (tvOf_at _ (by simp) rfl ⟨by decide, by decide⟩) _) (tvOf_elems (by decide) rfl)
    (tvOf_at _ (by simp) rfl ⟨by decide, by decide⟩) (tvOf_elems (by decide) rfl) rfl rfl exZero rfl rfl (by omega) (by omega) rfl
    (by intro j hj; apply exDot; revert j; decide) _

/-- Two 1x2 matrices times a vector. -/
example : DeliversCareless okEnv (matmul exH1.h (exH2 .i32 [2, 1, 2] [1, 2, 3, 4]).h .indet) (exM .i32 [2, 1, 2] [1, 2, 3, 4] [2] [10, 1]) .indet .i32
    ⟨DEVICE_CPU, 0⟩ ([2] ++ [1]) ([12, 34].map .int) :=
  C31_tensor_vector (E := okEnv) (c := .i32) (T1 := tvOf .i32 [2, 1, 2] ([1, 2, 3, 4].map .int)) (T2 := tvOf .i32 [2] ([10, 1].map .int))
    (zs := [12, 34].map .int) (bs := [2]) (nM := 1) (nK := 2)
    (Mem.addT_wf (Mem.addT_wf Mem.empty_wf _) _)
    (addT_old (Mem.addT_wf Mem.empty_wf _) (tvOf_at _ (by simp) rfl ⟨by decide, by decide⟩) _) (tvOf_elems (by decide) rfl)
    (tvOf_at _ (by simp) rfl ⟨by decide, by decide⟩) (tvOf_elems (by decide) rfl) rfl rfl exZero rfl (by simp) rfl ⟨by decide, by decide⟩ (by omega)
    (by omega) (by decide) (by decide) rfl
    (by intro cs i hc hi; apply exDot; revert i; revert cs; refine all_coords ?_; decide) _

/-- A vector times two 2x1 matrices. -/
example : DeliversCareless okEnv (matmul exH1.h (exH2 .i32 [2] [10, 1]).h .indet) (exM .i32 [2] [10, 1] [2, 2, 1] [1, 2, 3, 4]) .indet .i32
    ⟨DEVICE_CPU, 0⟩ ([2] ++ [1]) ([12, 34].map .int) :=
  C31_vector_tensor (E := okEnv) (c := .i32) (T1 := tvOf .i32 [2] ([10, 1].map .int)) (T2 := tvOf .i32 [2, 2, 1] ([1, 2, 3, 4].map .int))
    (zs := [12, 34].map .int) (bs := [2]) (nN := 1) (nK := 2)
    (Mem.addT_wf (Mem.addT_wf Mem.empty_wf _) _)
    (addT_old (Mem.addT_wf Mem.empty_wf _) (tvOf_at _ (by simp) rfl ⟨by decide, by decide⟩) _) (tvOf_elems (by decide) rfl)
    (tvOf_at _ (by simp) rfl ⟨by decide, by decide⟩) (tvOf_elems (by decide) rfl) rfl rfl exZero rfl rfl (by simp) ⟨by decide, by decide⟩ (by omega)
    (by omega) (by decide) (by decide) rfl
    (by intro cs j hc hj; apply exDot; revert j; revert cs; refine all_coords ?_; decide) _

theorem exBcast : Broadcasts [2, 1] [3] [2, 3] := by
  refine ⟨fun i => ?_, fun i => ?_⟩ <;>
    match i with
    | 0 => simp [fromRight, Compatible, larger]
    | 1 => simp [fromRight, Compatible, larger]
    | i + 2 => simp [fromRight, Compatible, larger]

/-- Batches `[2, 1]` against `[3]`: six products of 1x2 and 2x1 matrices. -/
example : DeliversCareless okEnv (matmul exH1.h (exH2 .i32 [2, 1, 1, 2] [1, 2, 3, 4]).h .indet)
    (exM .i32 [2, 1, 1, 2] [1, 2, 3, 4] [3, 2, 1] [1, 0, 0, 1, 10, 1]) .indet .i32
    ⟨DEVICE_CPU, 0⟩ ([2, 3] ++ [1, 1]) ([1, 2, 12, 3, 4, 34].map .int) :=
  C31_tensor_tensor (E := okEnv) (c := .i32) (T1 := tvOf .i32 [2, 1, 1, 2] ([1, 2, 3, 4].map .int))
    (T2 := tvOf .i32 [3, 2, 1] ([1, 0, 0, 1, 10, 1].map .int))
    (zs := [1, 2, 12, 3, 4, 34].map .int) (b1 := [2, 1]) (b2 := [3]) (nM := 1) (nN := 1) (nK := 2)
    (Mem.addT_wf (Mem.addT_wf Mem.empty_wf _) _)
    (addT_old (Mem.addT_wf Mem.empty_wf _) (tvOf_at _ (by simp) rfl ⟨by decide, by decide⟩) _) (tvOf_elems (by decide) rfl)
    (tvOf_at _ (by simp) rfl ⟨by decide, by decide⟩) (tvOf_elems (by decide) rfl) rfl rfl exZero rfl rfl (by simp) (by simp) (by simp) exBcast
    ⟨by decide, by decide⟩ (by omega) (by omega) (by omega) (by decide) (by decide) rfl
    (by intro cs i j hc hi hj; apply exDot; revert j; revert i; revert cs; refine all_coords ?_; decide) _

/-! ## C32 -/

/-- C32: an operand that is not on the CPU. -/
theorem C32_device (h1 : At m R1 T1) (h2 : At m R2 T2) (h : T1.device.type ≠ DEVICE_CPU ∨ T2.device.type ≠ DEVICE_CPU) (out : Ptr) :
    matmul R1.h R2.h out E m = .ok (.notSupported, out) m := matmul_device h1 h2 h

/-- C32: an operand of rank 0. -/
theorem C32_rank0 (h1 : At m R1 T1) (h2 : At m R2 T2) (c1 : T1.device.type = DEVICE_CPU) (c2 : T2.device.type = DEVICE_CPU)
    (h : T1.dims = [] ∨ T2.dims = []) (out : Ptr) :
    matmul R1.h R2.h out E m = .ok (.invalidArgument, out) m :=
  matmul_rank0 h1 h2 c1 c2 (h.imp (fun h => by rw [h]; rfl) (fun h => by rw [h]; rfl))

/-- C32: inner dims that differ, for every combination of ranks. -/
theorem C32_inner_dims (h1 : At m R1 T1) (h2 : At m R2 T2) (c1 : T1.device.type = DEVICE_CPU) (c2 : T2.device.type = DEVICE_CPU)
    {k1 k2 : Nat} (i1 : T1.dims.getLast? = some k1) (i2 : innerRight T2.dims = some k2) (hne : k1 ≠ k2) (out : Ptr) :
    matmul R1.h R2.h out E m = .ok (.dimensionsMismatch, out) m := by
  have hk1 : T1.dims[T1.dims.length - 1]? = some k1 := by rw [← List.getLast?_eq_getElem?]; exact i1
  have hne' : (k1 : Int) ≠ (k2 : Int) := by omega
  have g1 : 0 < T1.dims.length := by
    rcases Nat.eq_zero_or_pos T1.dims.length with h | h
    · rw [List.length_eq_zero_iff.1 h] at i1; cases i1
    · exact h
  have last := h1.dimI (E := E) (k := (T1.dims.length : Int) - 1) (i := T1.dims.length - 1) (by omega) hk1
  have dimAny : ∀ {R T} (h : At m R T) (i : Nat), i < T.dims.length → ∀ k : Int, k = i → tDim R.h k E m = .ok ((T.dims.getD i 0 : Nat) : Int) m := by
    intro R T h i hi k hk
    exact h.dimI hk (by simp [List.getD, hi])
  by_cases r2 : T2.dims.length = 1
  · have hk2 : T2.dims[0]? = some k2 := by simpa [innerRight, r2] using i2
    have d0 := h2.dimI (E := E) (k := 0) (i := 0) rfl hk2
    by_cases r1 : T1.dims.length = 1
    · rw [r1] at last
      rw [matmul_vv h1 h2 c1 c2 r1 r2]
      unfold matVV
      rw [show (((1 : Nat) : Int) - 1) = 0 from rfl] at last
      msimp [last, d0]; rw [if_pos hne']
    · by_cases r1' : T1.dims.length = 2
      · rw [r1'] at last
        rw [matmul_mv h1 h2 c1 c2 r1' r2]
        unfold matMV
        rw [show (((2 : Nat) : Int) - 1) = 1 from rfl] at last
        msimp [dimAny h1 0 (by omega) 0 rfl, last, d0]; rw [if_pos hne']
      · rw [matmul_tv h1 h2 c1 c2 (by omega) r2]
        unfold matTV
        msimp [dimAny h1 (T1.dims.length - 2) (by omega) ((T1.dims.length : Int) - 2) (by omega), last, d0]; rw [if_pos hne']
  · have hk2 : T2.dims[T2.dims.length - 2]? = some k2 := by simpa [innerRight, r2] using i2
    have g2 : 2 ≤ T2.dims.length := by
      rcases Nat.eq_zero_or_pos T2.dims.length with h | h
      · rw [List.length_eq_zero_iff.1 h] at hk2; cases hk2
      · omega
    have d0 := h2.dimI (E := E) (k := (T2.dims.length : Int) - 2) (i := T2.dims.length - 2) (by omega) hk2
    have d1 := dimAny h2 (T2.dims.length - 1) (by omega) ((T2.dims.length : Int) - 1) (by omega)
    by_cases r1 : T1.dims.length = 1
    · rw [r1] at last
      rw [show (((1 : Nat) : Int) - 1) = 0 from rfl] at last
      by_cases r2' : T2.dims.length = 2
      · rw [matmul_vm h1 h2 c1 c2 r1 r2']
        unfold matVM
        have e : (((2 : Nat) : Int) - 2) = 0 := rfl
        have e' : (((2 : Nat) : Int) - 1) = 1 := rfl
        rw [r2', e] at d0
        msimp [last, d0, dimAny h2 1 (by omega) 1 rfl]; rw [if_pos hne']
      · rw [matmul_vt h1 h2 c1 c2 r1 (by omega)]
        unfold matVT
        msimp [last, d0, d1]; rw [if_pos hne']
    · by_cases r12 : T1.dims.length = 2 ∧ T2.dims.length = 2
      · rw [matmul_mm h1 h2 c1 c2 r12.1 r12.2]
        unfold matMM
        rw [r12.1, show (((2 : Nat) : Int) - 1) = 1 from rfl] at last
        rw [r12.2, show (((2 : Nat) : Int) - 2) = 0 from rfl] at d0
        msimp [dimAny h1 0 (by omega) 0 rfl, last, d0, dimAny h2 1 (by omega) 1 rfl]; rw [if_pos hne']
      · rw [matmul_tt h1 h2 c1 c2 (by omega) g2 (by omega)]
        unfold matTT
        msimp [dimAny h1 (T1.dims.length - 2) (by omega) ((T1.dims.length : Int) - 2) (by omega), last, d0, d1]; rw [if_pos hne']

/-- C32: batch dims that cannot be broadcast.  Existing memory is unchanged and `*output` keeps its value (the array with
the output dims is not released); a failed allocation of that array is not noticed. -/
theorem C32_batch_dims (wf : m.WF) (h1 : At m R1 T1) (h2 : At m R2 T2) (c1 : T1.device.type = DEVICE_CPU) (c2 : T2.device.type = DEVICE_CPU)
    (s1 : T1.dims = b1 ++ [nM, nK]) (s2 : T2.dims = b2 ++ [nK, nN]) (h : ¬ ∀ i, Compatible (fromRight b1 i) (fromRight b2 i)) (out : Ptr) :
    (∃ m', matmul R1.h R2.h out E m = .ok (.dimensionsMismatch, out) m' ∧ Frame m m' ∧ m'.WF) ∨
    (¬ E.NoFail ∧ matmul R1.h R2.h out E m = .ub .nullDeref) := by
  have l1 : T1.dims.length = b1.length + 2 := by simp [s1]
  have l2 : T2.dims.length = b2.length + 2 := by simp [s2]
  have r1 := h1.shape.rank
  have r2 := h2.shape.rank
  have hpos : 0 < b1.length ∨ 0 < b2.length := by
    apply Classical.byContradiction
    intro hn
    have e1 : b1 = [] := List.length_eq_zero_iff.1 (by omega)
    have e2 : b2 = [] := List.length_eq_zero_iff.1 (by omega)
    subst e1 e2
    exact h fun i => by simp [fromRight, Compatible]
  have e0 := matmul_tt (out := out) (E := E) h1 h2 c1 c2 (by omega) (by omega) (by omega)
  have d1 := h1.dimI (E := E) (k := ((b1.length + 2 : Nat) : Int) - 2) (i := b1.length) (d := nM) (by omega) (by simp [s1])
  have d2 := h1.dimI (E := E) (k := ((b1.length + 2 : Nat) : Int) - 1) (i := b1.length + 1) (d := nK) (by omega) (by simp [s1])
  have d3 := h2.dimI (E := E) (k := ((b2.length + 2 : Nat) : Int) - 2) (i := b2.length) (d := nK) (by omega) (by simp [s2])
  have d4 := h2.dimI (E := E) (k := ((b2.length + 2 : Nat) : Int) - 1) (i := b2.length + 1) (d := nN) (by omega) (by simp [s2])
  obtain ⟨nd, hnd⟩ : ∃ nd, nd = max b1.length b2.length := ⟨_, rfl⟩
  have em : max ((b1.length + 2 : Nat) : Int) ((b2.length + 2 : Nat) : Int) = ((nd + 2 : Nat) : Int) := by omega
  have em2 : ((nd + 2 : Nat) : Int) - 2 = (nd : Int) := by omega
  have ex1 : max (((b1.length + 2 : Nat) : Int) - 2) 0 = (b1.length : Int) := by omega
  have ex2 : max (((b2.length + 2 : Nat) : Int) - 2) 0 = (b2.length : Int) := by omega
  rcases scratch_touch (n := nd + 2) (by omega) E m with ⟨b, e1, t1⟩ | ⟨e1, nf⟩
  · left
    have x1 : Ext m (m.push b) [m.next] := (Ext.refl wf).push b
    have g1 := h1.frame wf x1.toFrame
    have g2 := h2.frame wf x1.toFrame
    obtain ⟨o, ebc⟩ := broadcastArray_mismatch (E := E) (m := m.push b) (a := b1) (b := b2) (d1 := dimsCells T1.dims) (d2 := dimsCells T2.dims)
      (buf := List.replicate nd none) (fun hk => dimsCells_prefix s1 hk) (fun hk => dimsCells_prefix s2 hk) (by simp [hnd]) h
    rw [List.length_replicate] at ebc
    refine ⟨m.push b, ?_, x1.toFrame, x1.wf⟩
    rw [e0, l1, l2]
    unfold matTT
    rw [em, em2, cells_nat (by omega), ex1, ex2]
    msimp [d1, d2, d3, d4, e1, t1, g1.tDimsArr, g2.tDimsArr, ebc]
  · right
    refine ⟨nf, ?_⟩
    rw [e0, l1, l2]
    unfold matTT
    rw [em]
    msimp [d1, d2, d3, d4, e1, touch_null]

/-! ### Examples -/

/-- A 2x3 matrix times a 2x2 matrix. -/
example : matmul exH1.h (exH2 .i32 [2, 3] [1, 2, 3, 4, 5, 6]).h .indet okEnv (exM .i32 [2, 3] [1, 2, 3, 4, 5, 6] [2, 2] [1, 2, 3, 4]) =
    .ok (.dimensionsMismatch, .indet) (exM .i32 [2, 3] [1, 2, 3, 4, 5, 6] [2, 2] [1, 2, 3, 4]) :=
  C32_inner_dims (T1 := tvOf .i32 [2, 3] ([1, 2, 3, 4, 5, 6].map .int)) (T2 := tvOf .i32 [2, 2] ([1, 2, 3, 4].map .int))
    (addT_old (Mem.addT_wf Mem.empty_wf _) (tvOf_at _ (by simp) rfl ⟨by decide, by decide⟩) _)
    (tvOf_at _ (by simp) rfl ⟨by decide, by decide⟩) rfl rfl (k1 := 3) (k2 := 2) rfl rfl (by decide) _

/-- A scalar. -/
example : matmul exH1.h (Mem.empty.addT (tvOf .i8 [2] [.int 1, .int 2])).footS.h .indet okEnv
      ((Mem.empty.addT (tvOf .i8 [2] [.int 1, .int 2])).addS Code.i8.dtype ⟨DEVICE_CPU, 0⟩ [some 7]) =
    .ok (.invalidArgument, .indet) ((Mem.empty.addT (tvOf .i8 [2] [.int 1, .int 2])).addS Code.i8.dtype ⟨DEVICE_CPU, 0⟩ [some 7]) :=
  C32_rank0 (T1 := tvOf .i8 [2] [.int 1, .int 2])
    ((tvOf_at _ (by simp) rfl ⟨by decide, by decide⟩).frame (Mem.addT_wf Mem.empty_wf _)
      ((((Ext.refl (Mem.addT_wf Mem.empty_wf _)).push _).push _).push _).toFrame)
    (addS_at _ _ _ _ rfl (by decide)) rfl rfl (.inr rfl) _

/-- Batch dims 2 and 3. -/
example : (∃ m', matmul exH1.h (exH2 .i32 [2, 1, 1] [1, 2]).h .indet okEnv (exM .i32 [2, 1, 1] [1, 2] [3, 1, 1] [1, 2, 3]) =
      .ok (.dimensionsMismatch, .indet) m' ∧ Frame (exM .i32 [2, 1, 1] [1, 2] [3, 1, 1] [1, 2, 3]) m' ∧ m'.WF) ∨
    (¬ okEnv.NoFail ∧ matmul exH1.h (exH2 .i32 [2, 1, 1] [1, 2]).h .indet okEnv (exM .i32 [2, 1, 1] [1, 2] [3, 1, 1] [1, 2, 3]) = .ub .nullDeref) :=
  C32_batch_dims (T1 := tvOf .i32 [2, 1, 1] ([1, 2].map .int)) (T2 := tvOf .i32 [3, 1, 1] ([1, 2, 3].map .int)) (b1 := [2]) (b2 := [3])
    (Mem.addT_wf (Mem.addT_wf Mem.empty_wf _) _)
    (addT_old (Mem.addT_wf Mem.empty_wf _) (tvOf_at _ (by simp) rfl ⟨by decide, by decide⟩) _)
    (tvOf_at _ (by simp) rfl ⟨by decide, by decide⟩) rfl rfl rfl rfl (fun h => by simpa [fromRight, Compatible] using h 0) _

/-! ## C31, limits -/

/-- C31, the limit is real: an output of more than `INT_MAX` elements, or sums of more than `INT_MAX` terms, overflow the
`int` counters. -/
theorem C31_int_limit (nf : E.NoFail) (wf : m.WF) (h1 : At m R1 T1) (he1 : Elems T1 c xs) (h2 : At m R2 T2) (he2 : Elems T2 c ys)
    (c1 : T1.device.type = DEVICE_CPU) (c2 : T2.device.type = DEVICE_CPU) (hz : ZeroOf E.fp c z) {ds : List Nat}
    (ht : MatShape T1.dims T2.dims ds) (hs : ShapeOK ds c.size) (h0 : 0 < prod ds)
    (hi : 2147483647 < prod ds ∨ 2147483647 < T1.dims.getLastD 0) (out : Ptr) : matmul R1.h R2.h out E m = .ub .overflow := by
  rcases Nat.lt_or_ge 2147483647 (prod ds) with h | h
  · exact (matmul_big wf h1 he1 h2 c1 c2 hz ht hs h).overflow nf
  · exact matmul_terms nf wf h1 he1 h2 (he2.reads h2) c1 c2 hz ht hs h0 h (hi.resolve_left (by omega))

/-- A column of 65536 elements times a row of 65536 elements. -/
example : matmul exH1.h (exH2 .i8 [65536, 1] (List.replicate 65536 1)).h .indet okEnv
    (exM .i8 [65536, 1] (List.replicate 65536 1) [1, 65536] (List.replicate 65536 1)) = .ub .overflow :=
  have len : ((List.replicate 65536 (1 : Int)).map Val.int).length = 65536 := by rw [List.length_map, List.length_replicate]
  have wt : ∀ v ∈ (List.replicate 65536 (1 : Int)).map Val.int, v.WT .i8 := by
    intro v hv
    rw [List.map_replicate] at hv
    rw [(List.mem_replicate.1 hv).2]
    exact ⟨by decide, by decide⟩
  C31_int_limit (T1 := tvOf .i8 [65536, 1] ((List.replicate 65536 1).map .int)) (T2 := tvOf .i8 [1, 65536] ((List.replicate 65536 1).map .int))
    okEnv_noFail (Mem.addT_wf (Mem.addT_wf Mem.empty_wf _) _)
    (addT_old (Mem.addT_wf Mem.empty_wf _) (tvOf_at _ (by simp) len ⟨by decide, by decide⟩) _) (tvOf_elems wt len)
    (tvOf_at _ (by simp) len ⟨by decide, by decide⟩) (tvOf_elems wt len) rfl rfl exZeroB
    (MatShape.mm 65536 1 65536) ⟨by decide, by decide⟩ (by decide) (.inl (by decide)) _

/-! ## C33 -/

/-- C33 (partial): operands whose shapes follow the documented table are processed without any access outside a block, for
all values and all sizes, if an element of the second operand is at least as large as one of the first (in particular for
operands of one dtype).  The only undefined behaviour left is signed overflow, of element values or of the `int` counters,
and the use of a temporary whose allocation failed.  Missing: the violations below, which are a second operand of smaller
elements and an operand without elements whose product has terms, and outputs without elements whose other dims multiply
to more than `INT_MAX`. -/
theorem C33_safe_partial {c' : Code} (wf : m.WF) (h1 : At m R1 T1) (he1 : Elems T1 c xs) (h2 : At m R2 T2) (he2 : Elems T2 c' ws)
    (c1 : T1.device.type = DEVICE_CPU) (c2 : T2.device.type = DEVICE_CPU) (hz : ZeroOf E.fp c z) {ds : List Nat}
    (ht : MatShape T1.dims T2.dims ds) (hsz : c.size ≤ c'.size)
    (hne : 0 < prod ds → 0 < T1.dims.getLastD 0 → 0 < prod T1.dims ∧ 0 < prod T2.dims)
    (hs : ShapeOK ds c.size) (hbig : prod ds = 0 → prodMax ds ≤ 2147483647) (out : Ptr) :
    SafeProduct E (matmul R1.h R2.h out) m out c T1.device ds := by
  rcases Nat.lt_or_ge 2147483647 (prod ds) with hi | hi
  · exact (matmul_big wf h1 he1 h2 c1 c2 hz ht hs hi).safe hz.wt _ _
  have n1 := lenLe h1 he1
  have l1 := he1.len
  obtain ⟨ys, r2, l2⟩ := reads_all h2 he2 hsz
  have n2 : ys.length ≤ 9223372036854775807 := by
    have := r2.shape.prodMax_le
    have := prod_le_prodMax T2.dims
    omega
  have hpm : prodMax ds ≤ 2147483647 := by
    rcases Nat.eq_zero_or_pos (prod ds) with h | h
    · exact hbig h
    · rw [prodMax_of_pos h]; exact hi
  have first : ∀ {b r : List Nat}, prodMax (b ++ r) ≤ 2147483647 → prod b ≤ 2147483647 := fun {b r} h => by
    rw [prodMax_append] at h
    have h1 := prod_le_prodMax b
    have := Nat.mul_le_mul_left (prodMax b) (prodMax_pos r)
    omega
  generalize hd1 : T1.dims = D1 at ht hne l1
  generalize hd2 : T2.dims = D2 at ht hne l2
  cases ht with
  | vv k =>
    simp [prod] at l1 l2
    refine (KernelCall.of (matVV_top wf h1 he1 h2 r2 c1 c2 hz hd1 hd2 hs)).safe hz.wt ?_
    intro p mk X m' F
    exact X.vv_safe (by omega) (by omega) (by simp [prod]) F
  | mv n k =>
    simp [prod] at l1 l2 hi
    refine (KernelCall.of (matMV_top wf h1 he1 h2 r2 c1 c2 hz hd1 hd2 hs hi)).safe hz.wt ?_
    intro p mk X m' F
    exact X.mv_safe (by omega) (by omega) (by simp [prod]) n1 F
  | mm n k l =>
    simp [prod] at l1 l2 hi
    refine (KernelCall.of (matMM_top wf h1 he1 h2 r2 c1 c2 hz hd1 hd2 hs (by simpa using hi))).safe hz.wt ?_
    intro p mk X m' F
    exact X.mm_safe (oa := 0) (ob := 0) (oc := 0) (by omega) (by omega) (by simp [prod]) n1 n2 (by simp [prod]; omega) F
  | vm k l =>
    simp [prod] at l1 l2 hi
    refine (KernelCall.of (matVM_top wf h1 he1 h2 r2 c1 c2 hz hd1 hd2 hs hi)).safe hz.wt ?_
    intro p mk X m' F
    exact X.mm_safe (oa := 0) (ob := 0) (oc := 0) (M := 1) (by omega) (by omega) (by simp [prod]) n1 n2
      (by simp [prod]; omega) F
  | @tv bs n k hb =>
    rw [prod_snoc2] at l1
    simp [prod] at l2
    rw [prod_snoc1] at hi
    refine (matTV_top wf h1 he1 h2 r2 c1 c2 hz hd1 hb hd2 hs hi (first hpm)).safe hz.wt ?_
    intro p mk X m' F
    rw [prod_snoc1, show prod bs * n = prod bs * (n * 1) by rw [Nat.mul_one]] at F ⊢
    refine X.batch_safe (nN := 1) (fun i hi => ?_) (fun i hi => by omega) n1 n2 (by rw [Nat.mul_one]; omega) F
    rw [l1, ← Nat.succ_mul]; exact Nat.mul_le_mul_right _ hi
  | @vt bs k l hb =>
    rw [prod_snoc2] at l2
    simp [prod] at l1
    rw [prod_snoc1] at hi
    refine (matVT_top wf h1 he1 h2 r2 c1 c2 hz hd1 hd2 hb hs hi (first hpm)).safe hz.wt ?_
    intro p mk X m' F
    rw [prod_snoc1, show prod bs * l = prod bs * (1 * l) by rw [Nat.one_mul]] at F ⊢
    refine X.batch_safe (nM := 1) (fun i hi => by omega) (fun i hi => ?_) n1 n2 (by rw [Nat.one_mul]; omega) F
    rw [l2, ← Nat.succ_mul]; exact Nat.mul_le_mul_right _ hi
  | @tt b1 b2 bd n k l hb hbc =>
    rw [prod_snoc2] at l1 l2 hi
    have hl := hbc.length
    have S : TTShape T1 T2 c b1 b2 bd n k l := ⟨hd1, hd2, hbc.near, hbc.symm.near, hl, by
      have : 0 < b1.length ∨ 0 < b2.length := hb.imp List.length_pos_iff.2 List.length_pos_iff.2
      omega, hs, first hpm⟩
    refine (matTT_top wf h1 he1 h2 r2 c1 c2 hz S hbc hi).safe hz.wt ?_
    intro p mk X m' F
    by_cases hidle : n = 0 ∨ l = 0 ∨ k = 0
    · exact batch_idle hidle F
    rw [prod_snoc2] at F ⊢
    rcases Nat.eq_zero_or_pos (prod bd) with h0 | h0
    · rw [h0] at F ⊢
      exact X.batch_safe (fun i hi => by omega) (fun i hi => by omega) n1 n2 (by omega) F
    · have hpos := hne (by rw [prod_snoc2]; exact Nat.mul_pos h0 (Nat.mul_pos (by omega) (by omega))) (by simp; omega)
      rw [prod_snoc2, prod_snoc2] at hpos
      have f1 := hbc.fits (pos_of_prod (Nat.pos_of_mul_pos_right hpos.1))
      have f2 := hbc.symm.fits (pos_of_prod (Nat.pos_of_mul_pos_right hpos.2))
      refine X.batch_safe (fun i hi => ?_) (fun i hi => ?_) n1 n2 (by omega) F
      · rw [l1, ← Nat.succ_mul]; exact Nat.mul_le_mul_right _ (batchOf_lt f1 hi)
      · rw [l2, ← Nat.succ_mul]; exact Nat.mul_le_mul_right _ (batchOf_lt f2 hi)

/-- Shapes of the example with batches. -/
example : SafeProduct okEnv (matmul exH1.h (exH2 .i32 [2, 1, 1, 2] [1, 2, 3, 4]).h .indet)
    (exM .i32 [2, 1, 1, 2] [1, 2, 3, 4] [3, 2, 1] [1, 0, 0, 1, 10, 1]) .indet .i32 ⟨DEVICE_CPU, 0⟩ ([2, 3] ++ [1, 1]) :=
  C33_safe_partial (T1 := tvOf .i32 [2, 1, 1, 2] ([1, 2, 3, 4].map .int)) (T2 := tvOf .i32 [3, 2, 1] ([1, 0, 0, 1, 10, 1].map .int))
    (Mem.addT_wf (Mem.addT_wf Mem.empty_wf _) _)
    (addT_old (Mem.addT_wf Mem.empty_wf _) (tvOf_at _ (by simp) rfl ⟨by decide, by decide⟩) _) (tvOf_elems (by decide) rfl)
    (tvOf_at _ (by simp) rfl ⟨by decide, by decide⟩) (tvOf_elems (by decide) rfl) rfl rfl exZero
    (MatShape.tt (b1 := [2, 1]) (b2 := [3]) (bd := [2, 3]) 1 2 1 (.inl (by simp)) exBcast) (by decide) (by decide) ⟨by decide, by decide⟩
    (by decide) _

/-- C33, violated: the dtypes of the operands are not compared.  For vectors of one element the second operand is read
with the element size of the first; if that is larger, the read leaves its data. -/
theorem C33_mixed_dtypes_violated (nf : E.NoFail) (wf : m.WF) (h1 : At m R1 T1) (he1 : Elems T1 c xs) (h2 : At m R2 T2)
    (c1 : T1.device.type = DEVICE_CPU) (c2 : T2.device.type = DEVICE_CPU) (hz : ZeroOf E.fp c z)
    (s1 : T1.dims = [1]) (s2 : T2.dims = [1]) (hsz : T2.dtype.size < c.size) (out : Ptr) :
    matmul R1.h R2.h out E m = .ub .outOfBounds := by
  have hfull := matFull_run (E := E) wf h1 he1.dtype (shape1 (n := 1) (by omega)) (by simp [prod]) hz out
  unfold Creates at hfull
  rcases hfull with ⟨R, mk, e, P⟩ | ⟨_, _, _, _, hn⟩
  · have g1 := h1.frame wf P.ext.toFrame
    have g2 := h2.frame wf P.ext.toFrame
    have q1 := P.disjoint wf h1 (show R.p ∈ R.list by simp [mem_foot])
    have l1 := he1.len
    rw [s1] at l1
    have l1' : 0 < xs.length := by rw [l1]; decide
    have ld := g1.load (E := E) he1 l1'
    have lz : loadElem c (.blk R.p) 0 E mk = .ok z mk := by
      have := P.tensor.load (E := E) (c := c) (xs := List.replicate 1 z) ⟨rfl, rfl, by
        intro x hx; rw [(List.mem_replicate.1 hx).2]; exact hz.wt, rfl⟩ (i := 0) (by simp)
      simpa using this
    have hlen : T2.bytes.length = T2.dtype.size := by
      have := h2.len
      rw [s2] at this
      simpa [prod] using this
    have ly : loadElem c (.blk R2.p) 0 E mk = .ub .outOfBounds := by
      unfold loadElem
      have : rdElem c T2.bytes 0 = .error .outOfBounds := rdElem_oob (i := 0) (by rw [hlen]; omega)
      msimp [g2.derefB, this]
    rw [matmul_vv h1 h2 c1 c2 (by simp [s1]) (by simp [s2])]
    have e' : matFull R1.h [some 1] 1 out E m = .ok (.success, R.h) mk := e
    have hstep : macStep c (.blk R1.p) (.blk R2.p) (.blk R.p) (0 : Nat) (0 : Nat) 0 E mk = .ub .outOfBounds := by
      unfold macStep
      rw [show ((0 : Nat) : Int) = 0 from rfl] at ld ⊢
      msimp [lz, ld, ly]
    have hk : vvKernel c (.blk R1.p) (.blk R2.p) (.blk R.p) 1 E mk = .ub .outOfBounds := by
      unfold vvKernel
      have := run_forI32 (n := 1) (by omega) () (fun i (_ : Unit) => macStep c (.blk R1.p) (.blk R2.p) (.blk R.p) i i 0) E mk
      rw [show ((1 : Nat) : Int) = 1 from rfl] at this
      rw [this]
      exact loopN_first (by omega) hstep
    unfold matVV matPlain withCode
    msimp [h1.dimI (k := 0) (i := 0) (d := 1) rfl (by simp [s1]), h2.dimI (k := 0) (i := 0) (d := 1) rfl (by simp [s2]), e',
      g1.tDtype, g1.tData, g2.tData, P.tensor.tData, he1.dtype, find_dtype]
    rw [show ((1 : Nat) : Int) = 1 from rfl, hk]
    rfl
  · exact absurd nf hn

/-- An `int32_t` vector times an `int8_t` vector. -/
example : matmul exH1.h (Mem.empty.addT (tvOf .i32 [1] [.int 5])).footT.h .indet okEnv
    ((Mem.empty.addT (tvOf .i32 [1] [.int 5])).addT (tvOf .i8 [1] [.int 3])) = .ub .outOfBounds :=
  C33_mixed_dtypes_violated (T1 := tvOf .i32 [1] [.int 5]) (T2 := tvOf .i8 [1] [.int 3]) okEnv_noFail
    (Mem.addT_wf (Mem.addT_wf Mem.empty_wf _) _)
    (addT_old (Mem.addT_wf Mem.empty_wf _) (tvOf_at _ (by simp) rfl ⟨by decide, by decide⟩) _) (tvOf_elems (by decide) rfl)
    (tvOf_at _ (by simp) rfl ⟨by decide, by decide⟩) rfl rfl exZero rfl rfl (by decide) _

/-- The outcome is a given undefined behaviour. -/
def Res.ubIs {α} : Res α → UB → Bool
  | .ub u, v => u = v
  | _, _ => false

theorem Res.ubIs_iff {α} {r : Res α} {u : UB} : r.ubIs u = true ↔ r = .ub u := by
  cases r <;> simp [Res.ubIs]

/-- Operands of shapes `[0, 1, 1]` and `[1, 1, 1]`. -/
def exM0 : TV := tvOf .i8 [0, 1, 1] []
def exM1 : TV := tvOf .i8 [1, 1, 1] [.int 3]

/-- C33, violated: the dtypes of the operands are not compared, for no shape.  Whenever the output has elements and each of
them is a sum of terms, a second operand of smaller elements is read outside its data, unless a sum overflows before. -/
theorem C33_smaller_dtype_violated {c' : Code} (nf : E.NoFail) (wf : m.WF) (h1 : At m R1 T1) (he1 : Elems T1 c xs) (h2 : At m R2 T2)
    (he2 : Elems T2 c' ws) (hsh : ShapeOK T2.dims c.size)
    (c1 : T1.device.type = DEVICE_CPU) (c2 : T2.device.type = DEVICE_CPU) (hz : ZeroOf E.fp c z) {ds : List Nat}
    (ht : MatShape T1.dims T2.dims ds) (hs : ShapeOK ds c.size) (hsz : c'.size < c.size) (h0 : 0 < prod ds) (hK : 0 < T1.dims.getLastD 0)
    (out : Ptr) : matmul R1.h R2.h out E m = .ub .outOfBounds ∨ matmul R1.h R2.h out E m = .ub .overflow := by
  obtain ⟨u, e, rfl | rfl⟩ := matmul_short (out := out) nf wf h1 he1 h2 he2 c1 c2 hz ht hs hsh hsz h0 hK
  · exact .inr e
  · exact .inl e

/-- An `int32_t` vector times a 3x1 matrix of `int8_t`. -/
example :
    let M := (Mem.empty.addT (tvOf .i32 [3] [.int 5, .int 6, .int 7])).addT (tvOf .i8 [3, 1] [.int 1, .int 2, .int 3])
    let H := (Mem.empty.addT (tvOf .i32 [3] [.int 5, .int 6, .int 7])).footT.h
    matmul exH1.h H .indet okEnv M = .ub .outOfBounds ∨ matmul exH1.h H .indet okEnv M = .ub .overflow :=
  C33_smaller_dtype_violated (T1 := tvOf .i32 [3] [.int 5, .int 6, .int 7]) (T2 := tvOf .i8 [3, 1] [.int 1, .int 2, .int 3]) okEnv_noFail
    (Mem.addT_wf (Mem.addT_wf Mem.empty_wf _) _)
    (addT_old (Mem.addT_wf Mem.empty_wf _) (tvOf_at _ (by simp) rfl ⟨by decide, by decide⟩) _) (tvOf_elems (by decide) rfl)
    (tvOf_at _ (by simp) rfl ⟨by decide, by decide⟩) (tvOf_elems (by decide) rfl) ⟨by decide, by decide⟩ rfl rfl exZero
    (MatShape.vm 3 1) ⟨by decide, by decide⟩ (by decide) (by decide) (by decide) _

/-- C33, violated: a batch dim 0 against a batch dim 1 gives an output with one batch.  Whenever the output has elements
and each of them is a sum of terms, but an operand has no elements, that operand is read outside its data.  With
`C33_safe_partial` this says exactly which products of operands of one dtype are safe; with `C33_smaller_dtype_violated` it
says so for all dtypes. -/
theorem C33_empty_operand_violated {c' : Code} (nf : E.NoFail) (wf : m.WF) (h1 : At m R1 T1) (he1 : Elems T1 c xs) (h2 : At m R2 T2)
    (he2 : Elems T2 c' ws) (hsh : ShapeOK T2.dims c.size)
    (c1 : T1.device.type = DEVICE_CPU) (c2 : T2.device.type = DEVICE_CPU) (hz : ZeroOf E.fp c z) {ds : List Nat}
    (ht : MatShape T1.dims T2.dims ds) (hs : ShapeOK ds c.size) (h0 : 0 < prod ds) (hi : prod ds ≤ 2147483647)
    (hK : 0 < T1.dims.getLastD 0) (hK' : T1.dims.getLastD 0 ≤ 2147483647) (he : prod T1.dims = 0 ∨ prod T2.dims = 0) (out : Ptr) :
    matmul R1.h R2.h out E m = .ub .outOfBounds := by
  obtain ⟨ys, hrd, hwt, -⟩ := reads_any he2 c
  refine matmul_empty nf wf h1 he1 h2 ⟨hrd, hwt, hsh⟩ c1 c2 hz ht hs h0 hi hK hK' he ?_
  rcases he with h | h
  · exact .inl (List.length_eq_zero_iff.1 (by rw [he1.len, h]))
  · exact .inr (List.length_eq_zero_iff.1 (by rw [he2.bytes, encAll_length, he2.len, h]; simp))

/-- Batch dims 0 and 1. -/
example : matmul exH1.h (exH2 .i8 [0, 1, 1] []).h .indet okEnv (exM .i8 [0, 1, 1] [] [1, 1, 1] [3]) = .ub .outOfBounds :=
  C33_empty_operand_violated (T1 := tvOf .i8 [0, 1, 1] []) (T2 := tvOf .i8 [1, 1, 1] ([3].map .int)) okEnv_noFail
    (Mem.addT_wf (Mem.addT_wf Mem.empty_wf _) _)
    (addT_old (Mem.addT_wf Mem.empty_wf _) (tvOf_at _ (by simp) rfl ⟨by decide, by decide⟩) _) (tvOf_elems (by decide) rfl)
    (tvOf_at _ (by simp) rfl ⟨by decide, by decide⟩) (tvOf_elems (by decide) rfl) ⟨by decide, by decide⟩ rfl rfl exZeroB
    (MatShape.tt (b1 := [0]) (b2 := [1]) (bd := [1]) 1 1 1 (.inl (by simp))
      ⟨fun i => by cases i <;> simp [fromRight, Compatible], fun i => by cases i <;> simp [fromRight, larger]⟩) ⟨by decide, by decide⟩ (by decide) (by decide)
    (by decide) (by decide) (.inl rfl) _

/-- C33, violated: a batch dim 0 against a batch dim 1 gives an output with one batch, for which the empty operand is
read. -/
theorem C33_empty_batch_violated :
    ∃ (m : Mem) (R1 R2 : Foot) (T1 T2 : TV) (xs ys : List Val), m.WF ∧ At m R1 T1 ∧ Elems T1 .i8 xs ∧ At m R2 T2 ∧ Elems T2 .i8 ys ∧
      T1.dims = [0, 1, 1] ∧ T2.dims = [1, 1, 1] ∧ okEnv.NoFail ∧ matmul R1.h R2.h .indet okEnv m = .ub .outOfBounds :=
  ⟨(Mem.empty.addT exM0).addT exM1, Mem.empty.footT, (Mem.empty.addT exM0).footT, exM0, exM1, [], [.int 3],
    Mem.addT_wf (Mem.addT_wf Mem.empty_wf _) _,
    addT_old (Mem.addT_wf Mem.empty_wf _) (tvOf_at _ (by simp) rfl ⟨by decide, by decide⟩) _, tvOf_elems (by decide) rfl,
    tvOf_at _ (by simp) rfl ⟨by decide, by decide⟩, tvOf_elems (by decide) rfl, rfl, rfl, okEnv_noFail,
    Res.ubIs_iff.1 (by decide +kernel)⟩

end Aitisa
