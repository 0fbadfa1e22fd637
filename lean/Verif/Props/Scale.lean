import Verif.Proof.Scale
import Verif.Proof.ScaleRoot
import Verif.Props.Nearest
import Verif.Props.Order

/-!
# C86: scaling by powers of two

On machines that do not fuse (binary32 and binary64): if the elements of tensors are multiplied by powers of two, the results are multiplied by a power of
two, exactly, although each of them is rounded, unless a product falls below the range of full precision or a result is beyond the range.
-/

namespace Aitisa

variable {E : Env} {m m' : Mem} {R R' R1 R2 R1' R2' : Foot} {T T' T1 T2 T1' T2' : TV} {c c' : Code} {xs ys xs' ys' : List Val}
  {k nM nK nN : Nat} {bs b1 b2 bd : List Nat} {ws : List Win} {fuel : Nat}

/-! ## Element by element -/

section
variable (hE : Machine E.fp) (wf : m.WF) (wf' : m'.WF) (h : At m R T) (h' : At m' R' T') (he : Elems T c xs) (he' : Elems T' c xs')
  (hc : c = .f32 ∨ c = .f64)
include hE wf wf' h h' he he' hc

/-- C86, relu. -/
theorem C86_relu (ht : Pointwise (Scaled k) xs xs') (out out' : Ptr) :
    ∃ ys ys', Delivers E (relu R.h out) m out c T.device T.dims ys ∧ Delivers E (relu R'.h out') m' out' c T'.device T'.dims ys' ∧
      Pointwise (Scaled k) ys ys' := by
  obtain ⟨ys, hd, hl, hp⟩ := C35_relu (E := E) wf h he out
  obtain ⟨ys', hd', hl', hp'⟩ := C35_relu (E := E) wf' h' he' out'
  have := ht.1
  refine ⟨ys, ys', hd, hd', by omega, fun i h1 h2 => ?_⟩
  have e := hp i (by omega) h1
  have e' := hp' i (by omega) h2
  rw [hE.clamped] at e e'
  exact clamp_scales hc (he.wt _ (List.getElem_mem _)) (he'.wt _ (List.getElem_mem _)) (ht.2 i _ _) e e'

omit hE wf h wf' h' he' in
theorem no_negative (hE : Machine E.fp) (hx : ∀ x ∈ xs, ∃ a, x.rat = some a ∧ 0 ≤ a) : ∀ x ∈ xs, ¬ Negative E.fp x := fun x hm => by
  obtain ⟨a, ha, h0⟩ := hx x hm
  have hw := he.wt x hm
  on_machine hE
  rcases hc with rfl | rfl
  · cases x <;> simp only [Val.WT] at hw
    rename_i b
    have := rat_not_negative b32_ok (bits32 b) ha h0
    show ¬ b32.lt b.toNat (BitVec.ofNat 32 (b32.ofInt 0)).toNat = true
    rw [of32 (ofInt_lt b32_ok _), this]; simp
  · cases x <;> simp only [Val.WT] at hw
    rename_i b
    have := rat_not_negative b64_ok (bits64 b) ha h0
    show ¬ b64.lt b.toNat (BitVec.ofNat 64 (b64.ofInt 0)).toNat = true
    rw [of64 (ofInt_lt b64_ok _), this]; simp

/-- C86, square roots: elements multiplied by `4 ^ k` have roots multiplied by `2 ^ k`, always. -/
theorem C86_sqrt (hx : ∀ x ∈ xs, ∃ a, x.rat = some a ∧ 0 ≤ a) (ht : Pointwise (Scaled (2 * k)) xs xs') (out out' : Ptr) :
    ∃ ys ys', Delivers E (sqrt R.h out) m out c T.device T.dims ys ∧ Delivers E (sqrt R'.h out') m' out' c T'.device T'.dims ys' ∧
      Pointwise (Scaled k) ys ys' := by
  have hl0 := ht.1
  have hx' : ∀ x ∈ xs', ∃ a, x.rat = some a ∧ 0 ≤ a := fun x hm => by
    obtain ⟨i, hi, rfl⟩ := List.getElem_of_mem hm
    obtain ⟨q, e, e'⟩ := ht.2 i (by omega) hi
    obtain ⟨a, ea, ha⟩ := hx xs[i] (List.getElem_mem _)
    rw [e] at ea
    cases ea
    exact ⟨_, e', Rat.mul_nonneg ha (Rat.le_of_lt (Rat.pow_pos (by decide)))⟩
  obtain ⟨ys, hd, hl, hp⟩ := C30_sqrt (E := E) wf h he (no_negative he hc hE hx) (fun x hm => by rcases hc with rfl | rfl <;> exact ⟨_, _, rfl, rfl⟩) out
  obtain ⟨ys', hd', hl', hp'⟩ := C30_sqrt (E := E) wf' h' he' (no_negative he' hc hE hx') (fun x hm => by rcases hc with rfl | rfl <;> exact ⟨_, _, rfl, rfl⟩) out'
  refine ⟨ys, ys', hd, hd', by omega, fun i h1 h2 => ?_⟩
  have e := hp i (by omega) h1
  have e' := hp' i (by omega) h2
  rw [hE.root] at e e'
  obtain ⟨a, ha, h0⟩ := hx (xs[i]'(by omega)) (List.getElem_mem _)
  exact rootOf_scales hc (he.wt _ (List.getElem_mem _)) (he'.wt _ (List.getElem_mem _)) ha h0 (ht.2 i _ _) e e'

/-- C86, conversions between `float` and `double`. -/
theorem C86_cast (ht : Pointwise (Scaled k) xs xs') (ha : ∀ x ∈ xs, ∀ q, x.rat = some q → Ample c' q) (hc' : c' = .f32 ∨ c' = .f64) (hne : c ≠ c') (hs : ShapeOK T.dims c'.size) (hs' : ShapeOK T'.dims c'.size) (out out' : Ptr) :
    ∃ ys ys', Delivers E (cast R.h c'.dtype out) m out c' T.device T.dims ys ∧ Delivers E (cast R'.h c'.dtype out') m' out' c' T'.device T'.dims ys' ∧
      Pointwise (Scales k) ys ys' := by
  have ex : ∀ {xs : List Val}, (∀ x ∈ xs, x.WT c) → ∀ x ∈ xs, ∃ y, Converts E.fp c' x y := fun {xs} wt x hx => by
    have hw := wt x hx
    rcases hc with rfl | rfl <;> rcases hc' with rfl | rfl <;> cases x <;> first | exact hw.elim | exact ⟨_, rfl⟩
  obtain ⟨ys, hd, hl, hp⟩ := C11_cast (E := E) wf h he hne hs (ex he.wt) out
  obtain ⟨ys', hd', hl', hp'⟩ := C11_cast (E := E) wf' h' he' hne hs' (ex he'.wt) out'
  have := ht.1
  refine ⟨ys, ys', hd, hd', by omega, fun i h1 h2 => ?_⟩
  have e := hp i (by omega) h1
  have e' := hp' i (by omega) h2
  rw [hE.converts] at e e'
  exact converts_scales (he.wt _ (List.getElem_mem _)) (he'.wt _ (List.getElem_mem _)) hc hc' (ht.2 i _ _) (ha _ (List.getElem_mem _)) e e'

end

/-- C86, `+`, `-`, `*` and `/`. -/
theorem C86_binary {op : BinOp} (hE : Machine E.fp) (hc : c = .f32 ∨ c = .f64) (wf : m.WF) (wf' : m'.WF)
    (h1 : At m R1 T1) (he1 : Elems T1 c xs) (h2 : At m R2 T2) (he2 : Elems T2 c ys)
    (h1' : At m' R1' T1') (he1' : Elems T1' c xs') (h2' : At m' R2' T2') (he2' : Elems T2' c ys')
    (c1 : T1.device.type = 0) (c2 : T2.device.type = 0) (c1' : T1'.device.type = 0) (c2' : T2'.device.type = 0)
    (hd : T2.dims = T1.dims) (hd1 : T1'.dims = T1.dims) (hd2 : T2'.dims = T1.dims) (hi : prod T1.dims ≤ 2147483647)
    (hr : ∀ i (_ : i < xs.length) (_ : i < ys.length) (_ : i < xs'.length) (_ : i < ys'.length), OpScales c k op xs[i] ys[i] xs'[i] ys'[i]) (out out' : Ptr) :
    ∃ zs zs', DeliversMalloc E (binaryOp op R1.h R2.h out) m out c T1.device T1.dims zs ∧
      DeliversMalloc E (binaryOp op R1'.h R2'.h out') m' out' c T1'.device T1.dims zs' ∧ Pointwise (Scales k) zs zs' := by
  have ex : ∀ {xs ys : List Val}, (∀ x ∈ xs, x.WT c) → (∀ y ∈ ys, y.WT c) → xs.length = ys.length → ∃ zs : List Val, zs.length = xs.length ∧
      ∀ i (_ : i < xs.length) (_ : i < ys.length) (_ : i < zs.length), OpResult E.fp c op xs[i] ys[i] zs[i] := fun {xs ys} hx hy hl => by
    have one : ∀ {x y : Val}, x.WT c → y.WT c → ∃ z, OpResult E.fp c op x y z := fun {x y} hx hy => by
      rcases hc with rfl | rfl <;> cases x <;> try exact hx.elim
      all_goals (cases y <;> try exact hy.elim)
      all_goals exact ⟨_, rfl⟩
    classical
    refine ⟨(List.range xs.length).map fun i => if hi : i < xs.length then (one (hx _ (List.getElem_mem hi)) (hy _ (List.getElem_mem (hl ▸ hi)))).choose else .int 0,
      by simp, fun i h1 h2 h3 => ?_⟩
    simp only [List.getElem_map, List.getElem_range, h1, dif_pos]
    exact (one (hx _ (List.getElem_mem h1)) (hy _ (List.getElem_mem h2))).choose_spec
  have l1 := he1.len
  have l2 := he2.len
  have l1' := he1'.len
  have l2' := he2'.len
  rw [hd] at l2
  rw [hd1] at l1'
  rw [hd2] at l2'
  obtain ⟨zs, hzl, hz⟩ := ex he1.wt he2.wt (by omega)
  obtain ⟨zs', hzl', hz'⟩ := ex he1'.wt he2'.wt (by omega)
  have := C26_binary (E := E) wf' h1' he1' h2' he2' c1' c2' (hd2.trans hd1.symm) (hd1 ▸ hi) hzl' hz' out'
  rw [hd1] at this
  refine ⟨zs, zs', C26_binary (E := E) wf h1 he1 h2 he2 c1 c2 hd hi hzl hz out, this, by omega, fun i k1 k2 => ?_⟩
  have e := hz i (by omega) (by omega) k1
  have e' := hz' i (by omega) (by omega) k2
  rw [hE.op] at e e'
  exact op_scales (he1.wt _ (List.getElem_mem _)) (he2.wt _ (List.getElem_mem _)) (he1'.wt _ (List.getElem_mem _)) (he2'.wt _ (List.getElem_mem _)) hc
    (hr i (by omega) (by omega) (by omega) (by omega)) e e'

/-! ## Sums of products -/

theorem scaled_at {ds x : List Nat} (hl : xs.length = prod ds) (h : Pointwise (Scaled k) xs xs') (hx : InRange ds x) : Scaled k (elemAt ds xs x) (elemAt ds xs' x) := by
  have hlt := lin_lt hx
  have := h.1
  have := h.2 (lin ds x) (by omega) (by omega)
  have e1 : elemAt ds xs x = xs[lin ds x]'(by omega) := by simp [elemAt, hl, hlt]
  have e2 : elemAt ds xs' x = xs'[lin ds x]'(by omega) := by simp [elemAt, show lin ds x < xs'.length by omega]
  rwa [e1, e2]

theorem terms_scale (he1 : Elems T1 c xs) (he2 : Elems T2 c ys) (he1' : Elems T1' c xs') (he2' : Elems T2' c ys') (d1 : T1'.dims = T1.dims)
    (d2 : T2'.dims = T2.dims) (hr : FactorsScale c k xs ys xs' ys') {x y : List Nat} (hx : InRange T1.dims x) (hy : InRange T2.dims y) :
    ((elemAt T1.dims xs x).WT c ∧ (elemAt T2.dims ys y).WT c) ∧ ((elemAt T1'.dims xs' x).WT c ∧ (elemAt T2'.dims ys' y).WT c) ∧
    TermScales c k (elemAt T1.dims xs x, elemAt T2.dims ys y) (elemAt T1'.dims xs' x, elemAt T2'.dims ys' y) := by
  refine ⟨⟨elemAt_WT he1 rfl hx, elemAt_WT he2 rfl hy⟩, ⟨elemAt_WT he1' rfl (d1 ▸ hx), elemAt_WT he2' rfl (d2 ▸ hy)⟩, ?_⟩
  rw [d1, d2]
  obtain ⟨i, j, hij, h1, h2, h3⟩ := hr
  exact ⟨i, j, hij, scaled_at he1.len h1 hx, scaled_at he2.len h2 hy, h3 _ (elemAt_mem he1.len hx) _ (elemAt_mem he2.len hy)⟩

theorem dots_scale (hE : Unfused E.fp) (hc : c = .f32 ∨ c = .f64) (he1 : Elems T1 c xs) (he2 : Elems T2 c ys) (he1' : Elems T1' c xs')
    (he2' : Elems T2' c ys') (d1 : T1'.dims = T1.dims) (d2 : T2'.dims = T2.dims) (hr : FactorsScale c k xs ys xs' ys') {K : Nat} {f g : Nat → List Nat}
    (hf : ∀ q, q < K → InRange T1.dims (f q)) (hg : ∀ q, q < K → InRange T2.dims (g q)) {w w' : Val}
    (hd : DotTo E.fp c (zeroVal c) ((List.range K).map fun q => (elemAt T1.dims xs (f q), elemAt T2.dims ys (g q))) w)
    (hd' : DotTo E.fp c (zeroVal c) ((List.range K).map fun q => (elemAt T1'.dims xs' (f q), elemAt T2'.dims ys' (g q))) w') : Scales k w w' := by
  refine dotTo_scales hE hc (fun q hq => ?_) hd hd'
  rw [List.mem_range] at hq
  exact terms_scale he1 he2 he1' he2' d1 d2 hr (hf q hq) (hg q hq)

section
variable (hE : Unfused E.fp) (hc : c = .f32 ∨ c = .f64) (wf : m.WF) (wf' : m'.WF)
  (h1 : At m R1 T1) (he1 : Elems T1 c xs) (h2 : At m R2 T2) (he2 : Elems T2 c ys)
  (h1' : At m' R1' T1') (he1' : Elems T1' c xs') (h2' : At m' R2' T2') (he2' : Elems T2' c ys')
  (c1 : T1.device.type = DEVICE_CPU) (c2 : T2.device.type = DEVICE_CPU) (c1' : T1'.device.type = DEVICE_CPU) (c2' : T2'.device.type = DEVICE_CPU)
  (d1 : T1'.dims = T1.dims) (d2 : T2'.dims = T2.dims) (hr : FactorsScale c k xs ys xs' ys')
include hE hc wf wf' h1 he1 h2 he2 h1' he1' h2' he2' c1 c2 c1' c2' d1 d2 hr

/-- C86, vector times vector. -/
theorem C86_vector_vector (s1 : T1.dims = [nK]) (s2 : T2.dims = [nK]) (hK : nK ≤ 2147483647) (out out' : Ptr) :
    ∃ w w', Delivers E (matmul R1.h R2.h out) m out c T1.device [1] [w] ∧
      Delivers E (matmul R1'.h R2'.h out') m' out' c T1'.device [1] [w'] ∧
      Scales k w w' := by
  obtain ⟨w, hd, hv⟩ := dots_vector_vector hE.1 hc wf h1 he1 h2 he2 c1 c2 s1 s2 hK out
  obtain ⟨w', hd', hv'⟩ := dots_vector_vector hE.1 hc wf' h1' he1' h2' he2' c1' c2' (d1.trans s1) (d2.trans s2) hK out'
  exact ⟨w, w', hd, hd', dots_scale hE hc he1 he2 he1' he2' d1 d2 hr (fun q hq => by rw [s1]; exact ⟨hq, trivial⟩)
    (fun q hq => by rw [s2]; exact ⟨hq, trivial⟩) (hv ) (hv' )⟩

/-- C86, matrix times vector. -/
theorem C86_matrix_vector (s1 : T1.dims = [nM, nK]) (s2 : T2.dims = [nK]) (hM : nM ≤ 2147483647) (hK : nK ≤ 2147483647) (out out' : Ptr) :
    ∃ zs zs', Delivers E (matmul R1.h R2.h out) m out c T1.device [nM] zs ∧
      Delivers E (matmul R1'.h R2'.h out') m' out' c T1'.device [nM] zs' ∧
      ∀ i, i < nM → Scales k (elemAt [nM] zs [i]) (elemAt [nM] zs' [i]) := by
  obtain ⟨zs, hd, hv⟩ := dots_matrix_vector hE.1 hc wf h1 he1 h2 he2 c1 c2 s1 s2 hM hK out
  obtain ⟨zs', hd', hv'⟩ := dots_matrix_vector hE.1 hc wf' h1' he1' h2' he2' c1' c2' (d1.trans s1) (d2.trans s2) hM hK out'
  exact ⟨zs, zs', hd, hd', fun i r1 => dots_scale hE hc he1 he2 he1' he2' d1 d2 hr (fun q hq => by rw [s1]; exact ⟨r1, hq, trivial⟩)
    (fun q hq => by rw [s2]; exact ⟨hq, trivial⟩) (hv i r1) (hv' i r1)⟩

/-- C86, vector times matrix. -/
theorem C86_vector_matrix (s1 : T1.dims = [nK]) (s2 : T2.dims = [nK, nN]) (hK : nK ≤ 2147483647) (hN : nN ≤ 2147483647) (out out' : Ptr) :
    ∃ zs zs', Delivers E (matmul R1.h R2.h out) m out c T1.device [nN] zs ∧
      Delivers E (matmul R1'.h R2'.h out') m' out' c T1'.device [nN] zs' ∧
      ∀ j, j < nN → Scales k (elemAt [nN] zs [j]) (elemAt [nN] zs' [j]) := by
  obtain ⟨zs, hd, hv⟩ := dots_vector_matrix hE.1 hc wf h1 he1 h2 he2 c1 c2 s1 s2 hK hN out
  obtain ⟨zs', hd', hv'⟩ := dots_vector_matrix hE.1 hc wf' h1' he1' h2' he2' c1' c2' (d1.trans s1) (d2.trans s2) hK hN out'
  exact ⟨zs, zs', hd, hd', fun j r1 => dots_scale hE hc he1 he2 he1' he2' d1 d2 hr (fun q hq => by rw [s1]; exact ⟨hq, trivial⟩)
    (fun q hq => by rw [s2]; exact ⟨hq, r1, trivial⟩) (hv j r1) (hv' j r1)⟩

/-- C86, matrix times matrix. -/
theorem C86_matrix_matrix (s1 : T1.dims = [nM, nK]) (s2 : T2.dims = [nK, nN]) (hs : ShapeOK [nM, nN] c.size)
    (hM : nM ≤ 2147483647) (hK : nK ≤ 2147483647) (hN : nN ≤ 2147483647) (hi : nM * nN ≤ 2147483647) (out out' : Ptr) :
    ∃ zs zs', Delivers E (matmul R1.h R2.h out) m out c T1.device [nM, nN] zs ∧
      Delivers E (matmul R1'.h R2'.h out') m' out' c T1'.device [nM, nN] zs' ∧
      ∀ i j, i < nM → j < nN → Scales k (elemAt [nM, nN] zs [i, j]) (elemAt [nM, nN] zs' [i, j]) := by
  obtain ⟨zs, hd, hv⟩ := dots_matrix_matrix hE.1 hc wf h1 he1 h2 he2 c1 c2 s1 s2 hs hM hK hN hi out
  obtain ⟨zs', hd', hv'⟩ := dots_matrix_matrix hE.1 hc wf' h1' he1' h2' he2' c1' c2' (d1.trans s1) (d2.trans s2) hs hM hK hN hi out'
  exact ⟨zs, zs', hd, hd', fun i j r1 r2 => dots_scale hE hc he1 he2 he1' he2' d1 d2 hr (fun q hq => by rw [s1]; exact ⟨r1, hq, trivial⟩)
    (fun q hq => by rw [s2]; exact ⟨hq, r2, trivial⟩) (hv i j r1 r2) (hv' i j r1 r2)⟩

/-- C86, tensor times vector. -/
theorem C86_tensor_vector (s1 : T1.dims = bs ++ [nM, nK]) (hb : bs ≠ []) (s2 : T2.dims = [nK]) (hs : ShapeOK (bs ++ [nM]) c.size)
    (hM : nM ≤ 2147483647) (hK : nK ≤ 2147483647) (hnb : prod bs ≤ 2147483647) (hi : prod (bs ++ [nM]) ≤ 2147483647) (out out' : Ptr) :
    ∃ zs zs', DeliversCareless E (matmul R1.h R2.h out) m out c T1.device (bs ++ [nM]) zs ∧
      DeliversCareless E (matmul R1'.h R2'.h out') m' out' c T1'.device (bs ++ [nM]) zs' ∧
      ∀ cs i, InRange bs cs → i < nM → Scales k (elemAt (bs ++ [nM]) zs (cs ++ [i])) (elemAt (bs ++ [nM]) zs' (cs ++ [i])) := by
  obtain ⟨zs, hd, hv⟩ := dots_tensor_vector hE.1 hc wf h1 he1 h2 he2 c1 c2 s1 hb s2 hs hM hK hnb hi out
  obtain ⟨zs', hd', hv'⟩ := dots_tensor_vector hE.1 hc wf' h1' he1' h2' he2' c1' c2' (d1.trans s1) hb (d2.trans s2) hs hM hK hnb hi out'
  exact ⟨zs, zs', hd, hd', fun cs i r1 r2 => dots_scale hE hc he1 he2 he1' he2' d1 d2 hr (fun q hq => by rw [s1]; exact inRange_append r1 ⟨r2, hq, trivial⟩)
    (fun q hq => by rw [s2]; exact ⟨hq, trivial⟩) (hv cs i r1 r2) (hv' cs i r1 r2)⟩

/-- C86, vector times tensor. -/
theorem C86_vector_tensor (s1 : T1.dims = [nK]) (s2 : T2.dims = bs ++ [nK, nN]) (hb : bs ≠ []) (hs : ShapeOK (bs ++ [nN]) c.size)
    (hK : nK ≤ 2147483647) (hN : nN ≤ 2147483647) (hnb : prod bs ≤ 2147483647) (hi : prod (bs ++ [nN]) ≤ 2147483647) (out out' : Ptr) :
    ∃ zs zs', DeliversCareless E (matmul R1.h R2.h out) m out c T1.device (bs ++ [nN]) zs ∧
      DeliversCareless E (matmul R1'.h R2'.h out') m' out' c T1'.device (bs ++ [nN]) zs' ∧
      ∀ cs j, InRange bs cs → j < nN → Scales k (elemAt (bs ++ [nN]) zs (cs ++ [j])) (elemAt (bs ++ [nN]) zs' (cs ++ [j])) := by
  obtain ⟨zs, hd, hv⟩ := dots_vector_tensor hE.1 hc wf h1 he1 h2 he2 c1 c2 s1 s2 hb hs hK hN hnb hi out
  obtain ⟨zs', hd', hv'⟩ := dots_vector_tensor hE.1 hc wf' h1' he1' h2' he2' c1' c2' (d1.trans s1) (d2.trans s2) hb hs hK hN hnb hi out'
  exact ⟨zs, zs', hd, hd', fun cs j r1 r2 => dots_scale hE hc he1 he2 he1' he2' d1 d2 hr (fun q hq => by rw [s1]; exact ⟨hq, trivial⟩)
    (fun q hq => by rw [s2]; exact inRange_append r1 ⟨hq, r2, trivial⟩) (hv cs j r1 r2) (hv' cs j r1 r2)⟩

/-- C86, tensor times tensor, with broadcasting of the batch dims. -/
theorem C86_tensor_tensor (s1 : T1.dims = b1 ++ [nM, nK]) (s2 : T2.dims = b2 ++ [nK, nN]) (hb : b1 ≠ [] ∨ b2 ≠ [])
    (hp1 : ∀ d ∈ b1, 0 < d) (hp2 : ∀ d ∈ b2, 0 < d) (hbc : Broadcasts b1 b2 bd) (hs : ShapeOK (bd ++ [nM, nN]) c.size)
    (hM : nM ≤ 2147483647) (hK : nK ≤ 2147483647) (hN : nN ≤ 2147483647) (hnb : prod bd ≤ 2147483647)
    (hi : prod (bd ++ [nM, nN]) ≤ 2147483647) (out out' : Ptr) :
    ∃ zs zs', DeliversCareless E (matmul R1.h R2.h out) m out c T1.device (bd ++ [nM, nN]) zs ∧
      DeliversCareless E (matmul R1'.h R2'.h out') m' out' c T1'.device (bd ++ [nM, nN]) zs' ∧
      ∀ cs i j, InRange bd cs → i < nM → j < nN → Scales k (elemAt (bd ++ [nM, nN]) zs (cs ++ [i, j])) (elemAt (bd ++ [nM, nN]) zs' (cs ++ [i, j])) := by
  obtain ⟨zs, hd, hv⟩ := dots_tensor_tensor hE.1 hc wf h1 he1 h2 he2 c1 c2 s1 s2 hb hp1 hp2 hbc hs hM hK hN hnb hi out
  obtain ⟨zs', hd', hv'⟩ := dots_tensor_tensor hE.1 hc wf' h1' he1' h2' he2' c1' c2' (d1.trans s1) (d2.trans s2) hb hp1 hp2 hbc hs hM hK hN hnb hi out'
  exact ⟨zs, zs', hd, hd', fun cs i j r1 r2 r3 => dots_scale hE hc he1 he2 he1' he2' d1 d2 hr (fun q hq => by rw [s1]; exact inRange_append (under_inRange (hbc.fits hp1) r1) ⟨r2, hq, trivial⟩)
    (fun q hq => by rw [s2]; exact inRange_append (under_inRange (hbc.symm.fits hp2) r1) ⟨hq, r3, trivial⟩) (hv cs i j r1 r2 r3) (hv' cs i j r1 r2 r3)⟩

/-- C86, `dot` of two vectors. -/
theorem C86_dot_vectors (s1 : T1.dims = [nK]) (s2 : T2.dims = [nK]) (hK : nK ≤ 2147483647) (out out' : Ptr) :
    ∃ w w', Delivers E (dot R1.h R2.h out) m out c T1.device [1] [w] ∧
      Delivers E (dot R1'.h R2'.h out') m' out' c T1'.device [1] [w'] ∧
      Scales k w w' := by
  obtain ⟨w, hd, hv⟩ := dots_dot_vectors hE.1 hc wf h1 he1 h2 he2 c1 c2 s1 s2 hK out
  obtain ⟨w', hd', hv'⟩ := dots_dot_vectors hE.1 hc wf' h1' he1' h2' he2' c1' c2' (d1.trans s1) (d2.trans s2) hK out'
  exact ⟨w, w', hd, hd', dots_scale hE hc he1 he2 he1' he2' d1 d2 hr (fun q hq => by rw [s1]; exact ⟨hq, trivial⟩)
    (fun q hq => by rw [s2]; exact ⟨hq, trivial⟩) (hv ) (hv' )⟩

/-- C86, `dot` of a tensor and a vector. -/
theorem C86_dot_tensor_vector (s1 : T1.dims = bs ++ [nK]) (hb : bs ≠ []) (s2 : T2.dims = [nK]) (hK : nK ≤ 2147483647)
    (hn : prod bs * c.size ≤ 2147483647) (h0 : 0 < prod bs → 0 < nK) (out out' : Ptr) :
    ∃ zs zs', Attempts E (dot R1.h R2.h out) m ⟨c.dtype, T1.device, bs, encAll c zs⟩ ∧
      Attempts E (dot R1'.h R2'.h out') m' ⟨c.dtype, T1'.device, bs, encAll c zs'⟩ ∧
      ∀ cs, InRange bs cs → Scales k (elemAt bs zs cs) (elemAt bs zs' cs) := by
  obtain ⟨zs, hd, hv⟩ := dots_dot_tensor_vector hE.1 hc wf h1 he1 h2 he2 c1 c2 s1 hb s2 hK hn h0 out
  obtain ⟨zs', hd', hv'⟩ := dots_dot_tensor_vector hE.1 hc wf' h1' he1' h2' he2' c1' c2' (d1.trans s1) hb (d2.trans s2) hK hn h0 out'
  exact ⟨zs, zs', hd, hd', fun cs r1 => dots_scale hE hc he1 he2 he1' he2' d1 d2 hr (fun q hq => by rw [s1]; exact inRange_append r1 ⟨hq, trivial⟩)
    (fun q hq => by rw [s2]; exact ⟨hq, trivial⟩) (hv cs r1) (hv' cs r1)⟩

/-- C86, `dot` of two tensors of rank at least 3. -/
theorem C86_dot_tensors {l : Nat} (s1 : T1.dims = b1 ++ [nK]) (s2 : T2.dims = b2 ++ [nK, l])
    (hb1 : 2 ≤ b1.length) (hb2 : b2 ≠ []) (h0 : 0 < nK) (hK : nK ≤ 2147483647) (hn1 : prod b1 ≤ 2147483647) (hn2 : prod b2 * l ≤ 2147483647)
    (hs : ShapeOK (b1 ++ b2 ++ [l]) c.size) (out out' : Ptr) :
    ∃ zs zs', Attempts E (dot R1.h R2.h out) m ⟨c.dtype, T1.device, b1 ++ b2 ++ [l], encAll c zs⟩ ∧
      Attempts E (dot R1'.h R2'.h out') m' ⟨c.dtype, T1'.device, b1 ++ b2 ++ [l], encAll c zs'⟩ ∧
      ∀ cs ds j, InRange b1 cs → InRange b2 ds → j < l → Scales k (elemAt (b1 ++ b2 ++ [l]) zs (cs ++ ds ++ [j])) (elemAt (b1 ++ b2 ++ [l]) zs' (cs ++ ds ++ [j])) := by
  obtain ⟨zs, hd, hv⟩ := dots_dot_tensors hE.1 hc wf h1 he1 h2 he2 c1 c2 s1 s2 hb1 hb2 h0 hK hn1 hn2 hs out
  obtain ⟨zs', hd', hv'⟩ := dots_dot_tensors hE.1 hc wf' h1' he1' h2' he2' c1' c2' (d1.trans s1) (d2.trans s2) hb1 hb2 h0 hK hn1 hn2 hs out'
  exact ⟨zs, zs', hd, hd', fun cs ds j r1 r2 r3 => dots_scale hE hc he1 he2 he1' he2' d1 d2 hr (fun q hq => by rw [s1]; exact inRange_append r1 ⟨hq, trivial⟩)
    (fun q hq => by rw [s2]; exact inRange_append r2 ⟨hq, r3, trivial⟩) (hv cs ds j r1 r2 r3) (hv' cs ds j r1 r2 r3)⟩

end

/-- C86, convolution. -/
theorem C86_conv {B C O : Nat} (hE : Unfused E.fp) (wf : m.WF) (wf' : m'.WF) (h1 : At m R1 T1) (h2 : At m R2 T2) (e1 : Elems T1 .f32 xs)
    (e2 : Elems T2 .f32 ys) (h1' : At m' R1' T1') (h2' : At m' R2' T2') (e1' : Elems T1' .f32 xs') (e2' : Elems T2' .f32 ys')
    (s1 : T1.dims = B :: C :: ws.map Win.x) (s2 : T2.dims = O :: C :: ws.map Win.k) (d1 : T1'.dims = T1.dims) (d2 : T2'.dims = T2.dims)
    (h : ∀ w ∈ ws, w.Fits ∧ w.Wide) (hso : ShapeOK (B :: O :: ws.map Win.out) 4) (hC : 0 < C) (hr : FactorsScale .f32 k xs ys xs' ys')
    (st st' : Status) (groups : Int) (out out' : Ptr) :
    ∃ zs zs' : List Val,
      Leaves E (conv (some st) (some st') R1.h R2.h (dimsCells (ws.map Win.s)) (dimsCells (ws.map Win.p)) (dimsCells (ws.map Win.d)) groups out) m out
        (if st = .success then st' else st) ⟨Code.f32.dtype, T1.device, B :: O :: ws.map Win.out, encAll .f32 zs⟩ ∧
      Leaves E (conv (some st) (some st') R1'.h R2'.h (dimsCells (ws.map Win.s)) (dimsCells (ws.map Win.p)) (dimsCells (ws.map Win.d)) groups out') m' out'
        (if st = .success then st' else st) ⟨Code.f32.dtype, T1'.device, B :: O :: ws.map Win.out, encAll .f32 zs'⟩ ∧
      ∀ b oc os, InRange (B :: O :: ws.map Win.out) (b :: oc :: os) →
        Scales k (elemAt (B :: O :: ws.map Win.out) zs (b :: oc :: os)) (elemAt (B :: O :: ws.map Win.out) zs' (b :: oc :: os)) := by
  obtain ⟨zs, hl, hz, hv⟩ := C40_conv (E := E) wf h1 h2 e1 e2 s1 s2 h hso hC st st' groups out
  obtain ⟨zs', hl', hz', hv'⟩ := C40_conv (E := E) wf' h1' h2' e1' e2' (d1.trans s1) (d2.trans s2) h hso hC st st' groups out'
  refine ⟨zs, zs', hv, hv', fun b oc os hio => ?_⟩
  have hlen : ws.length = os.length := by have := hio.2.2.length; simpa using this.symm
  have zero : ∀ {z}, ZeroOf E.fp .f32 z → z = zeroVal .f32 := fun {z} hz0 => by
    have := hE.1.zero .f32
    rw [ZeroOf, converts_iff] at hz0 this
    rw [hz0] at this
    cases this; rfl
  obtain ⟨z, hz0, hy⟩ := hz b oc os hio
  obtain ⟨z', hz0', hy'⟩ := hz' b oc os hio
  cases zero hz0
  cases zero hz0'
  refine dotTo_scales hE (.inl rfl) (l := (List.range C).flatMap fun ic => (List.range (prod (ws.map Win.k))).filterMap fun j =>
      (winAt ws os (unlin (ws.map Win.k) j)).map fun cs => (b :: ic :: cs, oc :: ic :: unlin (ws.map Win.k) j))
    (u := fun p => (elemAt T1.dims xs p.1, elemAt T2.dims ys p.2)) (u' := fun p => (elemAt T1'.dims xs' p.1, elemAt T2'.dims ys' p.2)) (fun p hp => ?_)
    (by simpa [convTerms, List.map_flatMap, List.map_filterMap, Option.map_map, Function.comp_def] using hy)
    (by simpa [convTerms, List.map_flatMap, List.map_filterMap, Option.map_map, Function.comp_def] using hy')
  simp only [List.mem_flatMap, List.mem_range, List.mem_filterMap, Option.map_eq_some_iff] at hp
  obtain ⟨ic, hic, j, hj, cs, hw, rfl⟩ := hp
  refine terms_scale e1 e2 e1' e2' d1 d2 hr ?_ ?_
  · rw [s1]; exact ⟨hio.1, hic, winAt_inRange hlen (by rw [unlin_length]; simp) hw⟩
  · rw [s2]; exact ⟨hio.2.1, hic, unlin_inRange hj⟩

/-! ## Pooling -/

section
variable {B C : Nat} (hE : Machine E.fp) (wf : m.WF) (wf' : m'.WF) (h1 : At m R T) (he : Elems T c xs) (h1' : At m' R' T') (he' : Elems T' c xs')
  (hs : T.dims = B :: C :: ws.map Win.x) (hs' : T'.dims = T.dims) (hw : 1 ≤ ws.length)
  (hw' : ws.length ≤ 3) (h : ∀ w ∈ ws, w.Fits ∧ w.Small) (hso : ShapeOK (B :: C :: ws.map Win.out) c.size)
  (hi : prod (ws.map Win.out) ≤ 2147483647) (hK : prod (ws.map Win.k) < 9007199254740992)
  (hf : prod (ws.map Win.k) ≤ fuel) (hf' : prod (ws.map Win.out) ≤ fuel) (ht : Pointwise (Scaled k) xs xs')
include hE wf wf' h1 he h1' he' hs hs' hw hw' h hso hi hK hf hf' ht

/-- C86, max pooling. -/
theorem C86_max_pooling (hc : c = .f32 ∨ c = .f64) (out out' : Ptr) :
    ∃ zs zs' : List Val, Attempts E (pooling fuel R.h "max" (dimsCells (ws.map Win.k)) (dimsCells (ws.map Win.s)) (dimsCells (ws.map Win.p))
        (dimsCells (ws.map Win.d)) out) m ⟨c.dtype, T.device, B :: C :: ws.map Win.out, encAll c zs⟩ ∧
      Attempts E (pooling fuel R'.h "max" (dimsCells (ws.map Win.k)) (dimsCells (ws.map Win.s)) (dimsCells (ws.map Win.p))
        (dimsCells (ws.map Win.d)) out') m' ⟨c.dtype, T'.device, B :: C :: ws.map Win.out, encAll c zs'⟩ ∧
      ∀ b ch os, InRange (B :: C :: ws.map Win.out) (b :: ch :: os) →
        Scaled k (elemAt (B :: C :: ws.map Win.out) zs (b :: ch :: os)) (elemAt (B :: C :: ws.map Win.out) zs' (b :: ch :: os)) := by
  have ex : ∀ (ds : List Nat) (xs : List Val),
      ∃ zs : List Val, zs.length = prod (B :: C :: ws.map Win.out) ∧ ∀ b ch os, InRange (B :: C :: ws.map Win.out) (b :: ch :: os) →
        ScanOf E.fp c (winElems ds xs ws b ch os) (elemAt (B :: C :: ws.map Win.out) zs (b :: ch :: os)) := fun ds xs => by
    obtain ⟨zs, hl, hz⟩ := exists_elems (ds := B :: C :: ws.map Win.out) (P := fun x w => ∀ b ch os, x = b :: ch :: os →
      ScanOf E.fp c (winElems ds xs ws b ch os) w) (fun x hx => by
      match x, hx with
      | b :: ch :: os, hio =>
        obtain ⟨y, hy⟩ : ∃ w, ScanOf E.fp c (winElems ds xs ws b ch os) w := by
          rcases hc with rfl | rfl
          · exact ⟨_, _, scansTo_iff.2 rfl, rfl⟩
          · exact ⟨_, _, scansTo_iff.2 rfl, rfl⟩
        exact ⟨y, by rintro _ _ _ ⟨⟩; exact hy⟩)
    exact ⟨zs, hl, fun b ch os hio => hz _ hio b ch os rfl⟩
  obtain ⟨zs, hl, hz⟩ := ex T.dims xs
  obtain ⟨zs', hl', hz'⟩ := ex T'.dims xs'
  refine ⟨zs, zs', C38_max wf h1 he hs hw hw' h hso hi (by omega) hf hf' hl hz out,
    C38_max wf' h1' he' (hs'.trans hs) hw hw' h hso hi (by omega) hf hf' hl' hz' out', fun b ch os hio => ?_⟩
  have hlen : ws.length = os.length := by have := hio.2.2.length; simpa using this.symm
  have e := hz b ch os hio
  have e' := hz' b ch os hio
  rw [hE.scan] at e e'
  refine scanOf_scales (c := c) hc (l := (List.range (prod (ws.map Win.k))).filterMap fun j => (winAt ws os (unlin (ws.map Win.k) j)).map fun cs => b :: ch :: cs)
    (u := elemAt T.dims xs) (u' := elemAt T'.dims xs') (fun p hp => ?_)
    (by simpa only [winElems, List.map_filterMap, Option.map_map, Function.comp_def] using e)
    (by simpa only [winElems, List.map_filterMap, Option.map_map, Function.comp_def] using e')
  simp only [List.mem_range, List.mem_filterMap, Option.map_eq_some_iff] at hp
  obtain ⟨j, hj, cs, hcs, rfl⟩ := hp
  have hin : InRange T.dims (b :: ch :: cs) := by
    rw [hs]; exact ⟨hio.1, hio.2.1, winAt_inRange hlen (by rw [unlin_length]; simp) hcs⟩
  exact ⟨elemAt_WT he rfl hin, elemAt_WT he' rfl (hs' ▸ hin), by rw [hs']; exact scaled_at he.len ht hin⟩

/-- C86, average pooling. -/
theorem C86_avg_pooling (hc : c = .f32 ∨ c = .f64) (out out' : Ptr) :
    ∃ zs zs' : List Val, Attempts E (pooling fuel R.h "avg" (dimsCells (ws.map Win.k)) (dimsCells (ws.map Win.s)) (dimsCells (ws.map Win.p))
        (dimsCells (ws.map Win.d)) out) m ⟨c.dtype, T.device, B :: C :: ws.map Win.out, encAll c zs⟩ ∧
      Attempts E (pooling fuel R'.h "avg" (dimsCells (ws.map Win.k)) (dimsCells (ws.map Win.s)) (dimsCells (ws.map Win.p))
        (dimsCells (ws.map Win.d)) out') m' ⟨c.dtype, T'.device, B :: C :: ws.map Win.out, encAll c zs'⟩ ∧
      ∀ b ch os, InRange (B :: C :: ws.map Win.out) (b :: ch :: os) →
        Above c (elemAt (B :: C :: ws.map Win.out) zs (b :: ch :: os)) → Scales k (elemAt (B :: C :: ws.map Win.out) zs (b :: ch :: os)) (elemAt (B :: C :: ws.map Win.out) zs' (b :: ch :: os)) := by
  have hk0 : 0 < prod (ws.map Win.k) := prod_pos (by
    intro d hd
    obtain ⟨w, hw, rfl⟩ := List.mem_map.1 hd
    have := (h w hw).1.k
    omega)
  have ex : ∀ (ds : List Nat) (xs : List Val),
      ∃ zs : List Val, zs.length = prod (B :: C :: ws.map Win.out) ∧ ∀ b ch os, InRange (B :: C :: ws.map Win.out) (b :: ch :: os) →
        AvgOf E.fp c (prod (ws.map Win.k)) (winElems ds xs ws b ch os) (elemAt (B :: C :: ws.map Win.out) zs (b :: ch :: os)) := fun ds xs => by
    obtain ⟨zs, hl, hz⟩ := exists_elems (ds := B :: C :: ws.map Win.out) (P := fun x w => ∀ b ch os, x = b :: ch :: os →
      AvgOf E.fp c (prod (ws.map Win.k)) (winElems ds xs ws b ch os) w) (fun x hx => by
      match x, hx with
      | b :: ch :: os, hio =>
        obtain ⟨y, hy⟩ : ∃ w, AvgOf E.fp c (prod (ws.map Win.k)) (winElems ds xs ws b ch os) w := by
          rcases hc with rfl | rfl
          · exact ⟨_, _, sumsTo_iff.2 rfl, rfl⟩
          · exact ⟨_, _, sumsTo_iff.2 rfl, rfl⟩
        exact ⟨y, by rintro _ _ _ ⟨⟩; exact hy⟩)
    exact ⟨zs, hl, fun b ch os hio => hz _ hio b ch os rfl⟩
  obtain ⟨zs, hl, hz⟩ := ex T.dims xs
  obtain ⟨zs', hl', hz'⟩ := ex T'.dims xs'
  refine ⟨zs, zs', C38_avg wf h1 he hs hw hw' h hso hi (by omega) hf hf' hl hz out,
    C38_avg wf' h1' he' (hs'.trans hs) hw hw' h hso hi (by omega) hf hf' hl' hz' out', fun b ch os hio hab => ?_⟩
  have htn : ws.length = os.length := by have := hio.2.2.length; simpa using this.symm
  have e := hz b ch os hio
  have e' := hz' b ch os hio
  rw [hE.avg] at e e'
  refine avgOf_scales hK hc (l := (List.range (prod (ws.map Win.k))).filterMap fun j => (winAt ws os (unlin (ws.map Win.k) j)).map fun cs => b :: ch :: cs)
    (u := elemAt T.dims xs) (u' := elemAt T'.dims xs') (fun p hp => ?_)
    (by simpa only [winElems, List.map_filterMap, Option.map_map, Function.comp_def] using e)
    (by simpa only [winElems, List.map_filterMap, Option.map_map, Function.comp_def] using e') hab
  simp only [List.mem_range, List.mem_filterMap, Option.map_eq_some_iff] at hp
  obtain ⟨j, hj, cs, hcs, rfl⟩ := hp
  have hin : InRange T.dims (b :: ch :: cs) := by
    rw [hs]; exact ⟨hio.1, hio.2.1, winAt_inRange htn (by rw [unlin_length]; simp) hcs⟩
  exact ⟨elemAt_WT he rfl hin, elemAt_WT he' rfl (hs' ▸ hin), by rw [hs']; exact scaled_at he.len ht hin⟩

end

/-! ## Examples -/

/-- -4 and 0.4 (rounded), 4 times -1 and 0.1 (rounded). -/
def exQ : List Val := [.f32 0xC0800000, .f32 0x3ECCCCCD]

theorem exO_rat : (Val.f32 0xBF800000).rat = some (-1) ∧ (Val.f32 0x3DCCCCCD).rat = some ((13421773 : Rat) / (2 : Rat) ^ 27) := ⟨by decide +kernel, by decide +kernel⟩
theorem exQ_rat : (Val.f32 0xC0800000).rat = some ((-1 : Rat) * (2 : Rat) ^ 2) ∧ (Val.f32 0x3ECCCCCD).rat = some ((13421773 : Rat) / (2 : Rat) ^ 27 * (2 : Rat) ^ 2) :=
  ⟨by decide +kernel, by decide +kernel⟩
theorem exW_rat : (Val.f32 0x3F000000).rat = some (1 / 2) ∧ (Val.f32 0x40400000).rat = some 3 := ⟨by decide +kernel, by decide +kernel⟩
theorem exW_rat' : (Val.f32 0x3F000000).rat = some ((1 : Rat) / 2 * (2 : Rat) ^ 0) ∧ (Val.f32 0x40400000).rat = some ((3 : Rat) * (2 : Rat) ^ 0) := ⟨by decide +kernel, by decide +kernel⟩

theorem exQ_scaled : Pointwise (Scaled 2) exO exQ := by
  refine ⟨rfl, fun i h1 h2 => ?_⟩
  obtain _ | _ | i := i
  · exact ⟨-1, exO_rat.1, exQ_rat.1⟩
  · exact ⟨13421773 / 2 ^ 27, exO_rat.2, exQ_rat.2⟩
  · exact absurd h1 (by simp [exO])

theorem exW_scaled : Pointwise (Scaled 0) exW exW := by
  refine ⟨rfl, fun i h1 h2 => ?_⟩
  obtain _ | _ | i := i
  · exact ⟨1 / 2, exW_rat.1, exW_rat'.1⟩
  · exact ⟨3, exW_rat.2, exW_rat'.2⟩
  · exact absurd h1 (by simp [exW])

theorem ample_of {x y : Val} {q r : Rat} (hx : x.rat = some q) (hy : y.rat = some r) (h : Ample c (q * r)) : AmpleProduct c x y := by
  intro q' r' h1 h2
  rw [hx] at h1; rw [hy] at h2
  cases h1; cases h2
  exact h

theorem exOW_ample : ∀ x ∈ exO, ∀ y ∈ exW, AmpleProduct .f32 x y := by
  intro x hx y hy
  simp only [exO, exW, List.mem_cons, List.not_mem_nil, or_false] at hx hy
  rcases hx with rfl | rfl <;> rcases hy with rfl | rfl
  · exact ample_of (q := -1) (r := 1 / 2) (by decide +kernel) (by decide +kernel) (.inr (by decide +kernel))
  · exact ample_of (q := -1) (r := 3) (by decide +kernel) (by decide +kernel) (.inr (by decide +kernel))
  · exact ample_of (q := 13421773 / 2 ^ 27) (r := 1 / 2) (by decide +kernel) (by decide +kernel) (.inr (by decide +kernel))
  · exact ample_of (q := 13421773 / 2 ^ 27) (r := 3) (by decide +kernel) (by decide +kernel) (.inr (by decide +kernel))

theorem ieee_unfused : Unfused ieee := ⟨ieee_machine, rfl, rfl⟩

/-- The relation is not void: 1 is not twice 1, and it says something of a result that is finite. -/
example : ¬ Scales 1 (.f32 0x3F800000) (.f32 0x3F800000) := fun h => by
  obtain ⟨q, h1, h2⟩ := h (by decide +kernel)
  have h0 : (Val.f32 0x3F800000).rat = some 1 := by decide +kernel
  rw [h0] at h1 h2
  cases h1
  exact absurd h2 (by decide +kernel)

/-- Products that fall below the range are not scaled: the smallest positive `float` times 0.5 is rounded to 0, but twice of it times 0.5 is not. -/
example : OpResult ieee .f32 .mul (.f32 1) (.f32 0x3F000000) (.f32 0) ∧ OpResult ieee .f32 .mul (.f32 2) (.f32 0x3F000000) (.f32 1) ∧
    Scaled 1 (.f32 1) (.f32 2) ∧ ¬ Scales 1 (.f32 0) (.f32 1) := by
  refine ⟨congrArg Val.f32 (by decide +kernel), congrArg Val.f32 (by decide +kernel), ⟨1 / 2 ^ 149, by decide +kernel, by decide +kernel⟩, fun h => ?_⟩
  obtain ⟨q, h1, h2⟩ := h (by decide +kernel)
  have h0 : (Val.f32 0).rat = some 0 := by decide +kernel
  rw [h0] at h1
  cases h1
  exact absurd h2 (by decide +kernel)

/-- To `double`. -/
example : ∃ ys ys', Delivers ieeeEnv (cast Mem.empty.footT.h Code.f64.dtype .indet) (Mem.empty.addT (tvOf .f32 [2] exO)) .indet .f64 ⟨DEVICE_CPU, 0⟩ [2] ys ∧
    Delivers ieeeEnv (cast Mem.empty.footT.h Code.f64.dtype .indet) (Mem.empty.addT (tvOf .f32 [2] exQ)) .indet .f64 ⟨DEVICE_CPU, 0⟩ [2] ys' ∧ Pointwise (Scales 2) ys ys' :=
  C86_cast (T := tvOf .f32 [2] exO) (T' := tvOf .f32 [2] exQ) (c := .f32) (c' := .f64) ieee_machine (Mem.addT_wf Mem.empty_wf _) (Mem.addT_wf Mem.empty_wf _)
    (tvOf_at _ (by simp) rfl ⟨by decide, by decide⟩) (tvOf_at _ (by simp) rfl ⟨by decide, by decide⟩) (tvOf_elems (by decide) rfl)
    (tvOf_elems (by decide) rfl) (.inl rfl) exQ_scaled (by
      intro x hx q hq
      simp only [exO, List.mem_cons, List.not_mem_nil, or_false] at hx
      rcases hx with rfl | rfl <;> exact ample_widen hq) (.inr rfl) (by decide) ⟨by decide, by decide⟩ ⟨by decide, by decide⟩
    .indet .indet

/-- 2 and 12, four times `exW`. -/
def exW4 : List Val := [.f32 0x40000000, .f32 0x41400000]

theorem exW_pos : ∀ x ∈ exW, ∃ a, x.rat = some a ∧ 0 ≤ a := by
  intro x hx
  simp only [exW, List.mem_cons, List.not_mem_nil, or_false] at hx
  rcases hx with rfl | rfl
  · exact ⟨1 / 2, by decide +kernel, by decide +kernel⟩
  · exact ⟨3, by decide +kernel, by decide +kernel⟩

theorem exW4_rat : (Val.f32 0x3F000000).rat = some (1 / 2) ∧ (Val.f32 0x40000000).rat = some ((1 / 2 : Rat) * (2 : Rat) ^ (2 * 1)) ∧
    (Val.f32 0x40400000).rat = some 3 ∧ (Val.f32 0x41400000).rat = some ((3 : Rat) * (2 : Rat) ^ (2 * 1)) :=
  ⟨by decide +kernel, by decide +kernel, by decide +kernel, by decide +kernel⟩

theorem exW4_scaled : Pointwise (Scaled (2 * 1)) exW exW4 := by
  refine ⟨rfl, fun i h1 h2 => ?_⟩
  obtain _ | _ | i := i
  · exact ⟨1 / 2, exW4_rat.1, exW4_rat.2.1⟩
  · exact ⟨3, exW4_rat.2.2.1, exW4_rat.2.2.2⟩
  · exact absurd (show i + 2 < 2 from h1) (by omega)

/-- The roots of 0.5 and 3 (neither is exact) and of four times these numbers. -/
example : ∃ ys ys', Delivers ieeeEnv (sqrt Mem.empty.footT.h .indet) (Mem.empty.addT (tvOf .f32 [2] exW)) .indet .f32 ⟨DEVICE_CPU, 0⟩ [2] ys ∧
    Delivers ieeeEnv (sqrt Mem.empty.footT.h .indet) (Mem.empty.addT (tvOf .f32 [2] exW4)) .indet .f32 ⟨DEVICE_CPU, 0⟩ [2] ys' ∧ Pointwise (Scaled 1) ys ys' :=
  C86_sqrt (T := tvOf .f32 [2] exW) (T' := tvOf .f32 [2] exW4) (c := .f32) (k := 1) ieee_machine (Mem.addT_wf Mem.empty_wf _) (Mem.addT_wf Mem.empty_wf _)
    (tvOf_at _ (by simp) rfl ⟨by decide, by decide⟩) (tvOf_at _ (by simp) rfl ⟨by decide, by decide⟩) (tvOf_elems (by decide) rfl)
    (tvOf_elems (by decide) rfl) (.inl rfl) exW_pos exW4_scaled .indet .indet

/-- Quotients by 0.5 and 3. -/
example : ∃ zs zs', DeliversMalloc ieeeEnv (binaryOp .div Mem.empty.footT.h (Mem.empty.addT (tvOf .f32 [2] exO)).footT.h .indet)
      ((Mem.empty.addT (tvOf .f32 [2] exO)).addT (tvOf .f32 [2] exW)) .indet .f32 ⟨DEVICE_CPU, 0⟩ [2] zs ∧
    DeliversMalloc ieeeEnv (binaryOp .div Mem.empty.footT.h (Mem.empty.addT (tvOf .f32 [2] exQ)).footT.h .indet)
      ((Mem.empty.addT (tvOf .f32 [2] exQ)).addT (tvOf .f32 [2] exW)) .indet .f32 ⟨DEVICE_CPU, 0⟩ [2] zs' ∧ Pointwise (Scales 2) zs zs' :=
  C86_binary (T1 := tvOf .f32 [2] exO) (T1' := tvOf .f32 [2] exQ) (T2 := tvOf .f32 [2] exW) (T2' := tvOf .f32 [2] exW) (c := .f32) (op := .div) ieee_machine (.inl rfl)
    (Mem.addT_wf (Mem.addT_wf Mem.empty_wf _) _) (Mem.addT_wf (Mem.addT_wf Mem.empty_wf _) _)
    (addT_old (Mem.addT_wf Mem.empty_wf _) (tvOf_at _ (by simp) rfl ⟨by decide, by decide⟩) _) (tvOf_elems (by decide) rfl)
    (tvOf_at _ (by simp) rfl ⟨by decide, by decide⟩) (tvOf_elems (by decide) rfl)
    (addT_old (Mem.addT_wf Mem.empty_wf _) (tvOf_at _ (by simp) rfl ⟨by decide, by decide⟩) _) (tvOf_elems (by decide) rfl)
    (tvOf_at _ (by simp) rfl ⟨by decide, by decide⟩) (tvOf_elems (by decide) rfl) rfl rfl rfl rfl rfl rfl rfl (by decide)
    (fun i h1 h2 h3 h4 => by
      refine ⟨exQ_scaled.2 i h1 h3, rfl, ?_⟩
      obtain _ | _ | i := i
      · exact ⟨-1, 1 / 2, exO_rat.1, exW_rat.1, .inr (by decide +kernel)⟩
      · exact ⟨13421773 / 2 ^ 27, 3, exO_rat.2, exW_rat.2, .inr (by decide +kernel)⟩
      · exact absurd h1 (by simp [exO])) .indet .indet

/-- The product with 0.5 and 3. -/
example : ∃ w w', Delivers ieeeEnv (matmul Mem.empty.footT.h (Mem.empty.addT (tvOf .f32 [2] exO)).footT.h .indet)
      ((Mem.empty.addT (tvOf .f32 [2] exO)).addT (tvOf .f32 [2] exW)) .indet .f32 ⟨DEVICE_CPU, 0⟩ [1] [w] ∧
    Delivers ieeeEnv (matmul Mem.empty.footT.h (Mem.empty.addT (tvOf .f32 [2] exQ)).footT.h .indet)
      ((Mem.empty.addT (tvOf .f32 [2] exQ)).addT (tvOf .f32 [2] exW)) .indet .f32 ⟨DEVICE_CPU, 0⟩ [1] [w'] ∧ Scales 2 w w' :=
  C86_vector_vector (T1 := tvOf .f32 [2] exO) (T1' := tvOf .f32 [2] exQ) (T2 := tvOf .f32 [2] exW) (T2' := tvOf .f32 [2] exW) (c := .f32) (nK := 2) ieee_unfused (.inl rfl)
    (Mem.addT_wf (Mem.addT_wf Mem.empty_wf _) _) (Mem.addT_wf (Mem.addT_wf Mem.empty_wf _) _)
    (addT_old (Mem.addT_wf Mem.empty_wf _) (tvOf_at _ (by simp) rfl ⟨by decide, by decide⟩) _) (tvOf_elems (by decide) rfl)
    (tvOf_at _ (by simp) rfl ⟨by decide, by decide⟩) (tvOf_elems (by decide) rfl)
    (addT_old (Mem.addT_wf Mem.empty_wf _) (tvOf_at _ (by simp) rfl ⟨by decide, by decide⟩) _) (tvOf_elems (by decide) rfl)
    (tvOf_at _ (by simp) rfl ⟨by decide, by decide⟩) (tvOf_elems (by decide) rfl) rfl rfl rfl rfl rfl rfl ⟨2, 0, rfl, exQ_scaled, exW_scaled, exOW_ample⟩ rfl rfl
    (by decide) .indet .indet

/-- Filter 0.5, 3. -/
example : ∃ zs zs' : List Val,
    Leaves ieeeEnv (conv (some .success) (some .success) Mem.empty.footT.h (Mem.empty.addT (tvOf .f32 [1, 1, 2] exO)).footT.h (dimsCells [1]) (dimsCells [0])
      (dimsCells [1]) 1 .indet) ((Mem.empty.addT (tvOf .f32 [1, 1, 2] exO)).addT (tvOf .f32 [1, 1, 2] exW)) .indet .success
      ⟨Code.f32.dtype, ⟨DEVICE_CPU, 0⟩, [1, 1, 1], encAll .f32 zs⟩ ∧
    Leaves ieeeEnv (conv (some .success) (some .success) Mem.empty.footT.h (Mem.empty.addT (tvOf .f32 [1, 1, 2] exQ)).footT.h (dimsCells [1]) (dimsCells [0])
      (dimsCells [1]) 1 .indet) ((Mem.empty.addT (tvOf .f32 [1, 1, 2] exQ)).addT (tvOf .f32 [1, 1, 2] exW)) .indet .success
      ⟨Code.f32.dtype, ⟨DEVICE_CPU, 0⟩, [1, 1, 1], encAll .f32 zs'⟩ ∧
    ∀ b oc os, InRange [1, 1, 1] (b :: oc :: os) → Scales 2 (elemAt [1, 1, 1] zs (b :: oc :: os)) (elemAt [1, 1, 1] zs' (b :: oc :: os)) :=
  C86_conv (T1 := tvOf .f32 [1, 1, 2] exO) (T1' := tvOf .f32 [1, 1, 2] exQ) (T2 := tvOf .f32 [1, 1, 2] exW) (T2' := tvOf .f32 [1, 1, 2] exW)
    (ws := [⟨2, 2, 1, 0, 1⟩]) (B := 1) (O := 1) (C := 1) ieee_unfused
    (Mem.addT_wf (Mem.addT_wf Mem.empty_wf _) _) (Mem.addT_wf (Mem.addT_wf Mem.empty_wf _) _)
    (addT_old (Mem.addT_wf Mem.empty_wf _) (tvOf_at _ (by simp) rfl ⟨by decide, by decide⟩) _) (tvOf_at _ (by simp) rfl ⟨by decide, by decide⟩)
    (tvOf_elems (by decide) rfl) (tvOf_elems (by decide) rfl)
    (addT_old (Mem.addT_wf Mem.empty_wf _) (tvOf_at _ (by simp) rfl ⟨by decide, by decide⟩) _) (tvOf_at _ (by simp) rfl ⟨by decide, by decide⟩)
    (tvOf_elems (by decide) rfl) (tvOf_elems (by decide) rfl) rfl rfl rfl rfl (by
      intro w hw
      simp only [List.mem_singleton] at hw
      subst hw
      exact ⟨⟨by decide, by decide, by decide, by decide⟩, ⟨by decide, by decide, by decide, by decide, by decide⟩⟩)
    ⟨by decide, by decide⟩ (by omega) ⟨2, 0, rfl, exQ_scaled, exW_scaled, exOW_ample⟩ .success .success 1 .indet .indet

example : ∃ zs zs' : List Val, Attempts ieeeEnv (pooling 10 Mem.empty.footT.h "avg" (dimsCells [2]) (dimsCells [1]) (dimsCells [0]) (dimsCells [1]) .indet)
      (Mem.empty.addT (tvOf .f32 [1, 1, 2] exO)) ⟨Code.f32.dtype, ⟨DEVICE_CPU, 0⟩, [1, 1, 1], encAll .f32 zs⟩ ∧
    Attempts ieeeEnv (pooling 10 Mem.empty.footT.h "avg" (dimsCells [2]) (dimsCells [1]) (dimsCells [0]) (dimsCells [1]) .indet)
      (Mem.empty.addT (tvOf .f32 [1, 1, 2] exQ)) ⟨Code.f32.dtype, ⟨DEVICE_CPU, 0⟩, [1, 1, 1], encAll .f32 zs'⟩ ∧
    ∀ b ch os, InRange [1, 1, 1] (b :: ch :: os) → Above .f32 (elemAt [1, 1, 1] zs (b :: ch :: os)) → Scales 2 (elemAt [1, 1, 1] zs (b :: ch :: os)) (elemAt [1, 1, 1] zs' (b :: ch :: os)) :=
  C86_avg_pooling (T := tvOf .f32 [1, 1, 2] exO) (T' := tvOf .f32 [1, 1, 2] exQ) (c := .f32) (ws := [⟨2, 2, 1, 0, 1⟩]) (B := 1) (C := 1) (fuel := 10) ieee_machine
    (Mem.addT_wf Mem.empty_wf _) (Mem.addT_wf Mem.empty_wf _) (tvOf_at _ (by simp) rfl ⟨by decide, by decide⟩) (tvOf_elems (by decide) rfl)
    (tvOf_at _ (by simp) rfl ⟨by decide, by decide⟩) (tvOf_elems (by decide) rfl) rfl rfl (by simp) (by simp) (by
      intro w hw
      simp only [List.mem_singleton] at hw
      subst hw
      exact ⟨⟨by decide, by decide, by decide, by decide⟩, ⟨by decide, by decide, by decide⟩⟩)
    ⟨by decide, by decide⟩ (by decide) (by decide) (by decide) (by decide) exQ_scaled (.inl rfl) .indet .indet

example : ∃ zs zs' : List Val, Attempts ieeeEnv (pooling 10 Mem.empty.footT.h "max" (dimsCells [2]) (dimsCells [1]) (dimsCells [0]) (dimsCells [1]) .indet)
      (Mem.empty.addT (tvOf .f32 [1, 1, 2] exO)) ⟨Code.f32.dtype, ⟨DEVICE_CPU, 0⟩, [1, 1, 1], encAll .f32 zs⟩ ∧
    Attempts ieeeEnv (pooling 10 Mem.empty.footT.h "max" (dimsCells [2]) (dimsCells [1]) (dimsCells [0]) (dimsCells [1]) .indet)
      (Mem.empty.addT (tvOf .f32 [1, 1, 2] exQ)) ⟨Code.f32.dtype, ⟨DEVICE_CPU, 0⟩, [1, 1, 1], encAll .f32 zs'⟩ ∧
    ∀ b ch os, InRange [1, 1, 1] (b :: ch :: os) → Scaled 2 (elemAt [1, 1, 1] zs (b :: ch :: os)) (elemAt [1, 1, 1] zs' (b :: ch :: os)) :=
  C86_max_pooling (T := tvOf .f32 [1, 1, 2] exO) (T' := tvOf .f32 [1, 1, 2] exQ) (c := .f32) (ws := [⟨2, 2, 1, 0, 1⟩]) (B := 1) (C := 1) (fuel := 10) ieee_machine
    (Mem.addT_wf Mem.empty_wf _) (Mem.addT_wf Mem.empty_wf _) (tvOf_at _ (by simp) rfl ⟨by decide, by decide⟩) (tvOf_elems (by decide) rfl)
    (tvOf_at _ (by simp) rfl ⟨by decide, by decide⟩) (tvOf_elems (by decide) rfl) rfl rfl (by simp) (by simp) (by
      intro w hw
      simp only [List.mem_singleton] at hw
      subst hw
      exact ⟨⟨by decide, by decide, by decide, by decide⟩, ⟨by decide, by decide, by decide⟩⟩)
    ⟨by decide, by decide⟩ (by decide) (by decide) (by decide) (by decide) exQ_scaled (.inl rfl) .indet .indet

example : ∃ ys ys', Delivers ieeeEnv (relu Mem.empty.footT.h .indet) (Mem.empty.addT (tvOf .f32 [2] exO)) .indet .f32 ⟨DEVICE_CPU, 0⟩ [2] ys ∧
    Delivers ieeeEnv (relu Mem.empty.footT.h .indet) (Mem.empty.addT (tvOf .f32 [2] exQ)) .indet .f32 ⟨DEVICE_CPU, 0⟩ [2] ys' ∧ Pointwise (Scaled 2) ys ys' :=
  C86_relu (T := tvOf .f32 [2] exO) (T' := tvOf .f32 [2] exQ) (c := .f32) ieee_machine (Mem.addT_wf Mem.empty_wf _) (Mem.addT_wf Mem.empty_wf _)
    (tvOf_at _ (by simp) rfl ⟨by decide, by decide⟩) (tvOf_at _ (by simp) rfl ⟨by decide, by decide⟩) (tvOf_elems (by decide) rfl)
    (tvOf_elems (by decide) rfl) (.inl rfl) exQ_scaled .indet .indet

end Aitisa
