import Verif.Proof.OrderVal
import Verif.Props.Exact
import Verif.Props.Range

/-!
# C78: operators keep the order

On the usual machines (binary32 and binary64): if no element of one tensor exceeds the corresponding element of another, rounding does not reverse the
order of the results.
-/

namespace Aitisa

variable {E : Env} {m m' : Mem} {R R' R1 R2 R1' R2' : Foot} {T T' T1 T2 T1' T2' : TV} {c c' : Code} {xs ys xs' ys' : List Val}
  {nM nK nN : Nat} {bs b1 b2 bd : List Nat} {ws : List Win} {fuel : Nat}

/-! ## Element by element -/

section
variable (hE : Machine E.fp) (wf : m.WF) (wf' : m'.WF) (h : At m R T) (h' : At m' R' T') (he : Elems T c xs) (he' : Elems T' c xs') (hle : Below xs xs')
include hE wf wf' h h' he he' hle

/-- C78, relu, all ten element types. -/
theorem C78_relu (out out' : Ptr) :
    ∃ ys ys', Delivers E (relu R.h out) m out c T.device T.dims ys ∧ Delivers E (relu R'.h out') m' out' c T'.device T'.dims ys' ∧ Below ys ys' := by
  obtain ⟨ys, hd, hl, hp⟩ := C35_relu (E := E) wf h he out
  obtain ⟨ys', hd', hl', hp'⟩ := C35_relu (E := E) wf' h' he' out'
  have := hle.1
  refine ⟨ys, ys', hd, hd', by omega, fun i h1 h2 => ?_⟩
  have e := hp i (by omega) h1
  have e' := hp' i (by omega) h2
  rw [hE.clamped] at e e'
  exact clamp_le (hle.2 i _ _) e e'

/-- C78, conversions, except from an integer type to another (where the value may wrap around). -/
theorem C78_cast (hne : c ≠ c') (hc : c.isInt = false ∨ c'.isInt = false) (hs : ShapeOK T.dims c'.size) (hs' : ShapeOK T'.dims c'.size)
    (hd : ∀ x ∈ xs, ∃ y, Converts E.fp c' x y) (hd' : ∀ x ∈ xs', ∃ y, Converts E.fp c' x y) (out out' : Ptr) :
    ∃ ys ys', Delivers E (cast R.h c'.dtype out) m out c' T.device T.dims ys ∧ Delivers E (cast R'.h c'.dtype out') m' out' c' T'.device T'.dims ys' ∧
      Below ys ys' := by
  obtain ⟨ys, hd, hl, hp⟩ := C11_cast (E := E) wf h he hne hs hd out
  obtain ⟨ys', hd', hl', hp'⟩ := C11_cast (E := E) wf' h' he' hne hs' hd' out'
  have := hle.1
  refine ⟨ys, ys', hd, hd', by omega, fun i h1 h2 => ?_⟩
  have e := hp i (by omega) h1
  have e' := hp' i (by omega) h2
  rw [hE.converts] at e e'
  exact converts_le (he.wt _ (List.getElem_mem _)) (he'.wt _ (List.getElem_mem _)) hc (hle.2 i _ _) e e'

/-- C78, square roots of elements none of which is negative. -/
theorem C78_sqrt (hpos : ∀ x ∈ xs, ¬ Negative E.fp x) (hpos' : ∀ x ∈ xs', ¬ Negative E.fp x) (hd : ∀ x ∈ xs, ∃ y, RootOf E.fp c x y)
    (hd' : ∀ x ∈ xs', ∃ y, RootOf E.fp c x y) (out out' : Ptr) :
    ∃ ys ys', Delivers E (sqrt R.h out) m out c T.device T.dims ys ∧ Delivers E (sqrt R'.h out') m' out' c T'.device T'.dims ys' ∧ Below ys ys' := by
  obtain ⟨ys, hd, hl, hp⟩ := C30_sqrt (E := E) wf h he hpos hd out
  obtain ⟨ys', hd', hl', hp'⟩ := C30_sqrt (E := E) wf' h' he' hpos' hd' out'
  have := hle.1
  refine ⟨ys, ys', hd, hd', by omega, fun i h1 h2 => ?_⟩
  have e := hp i (by omega) h1
  have e' := hp' i (by omega) h2
  have n := hpos xs[i] (List.getElem_mem _)
  rw [hE.root] at e e'
  rw [hE.negative] at n
  exact rootOf_le (he.wt _ (List.getElem_mem _)) (he'.wt _ (List.getElem_mem _)) (hle.2 i _ _) n e e'

/-- C78, sigmoid, if `exp` keeps the order. -/
theorem C78_sigmoid (ho : ExpOK E.fp.exp64) (hm : ExpMono E.fp.exp64) (hc : c = .f32 ∨ c = .f64) (out out' : Ptr) :
    ∃ ys ys', Delivers E (sigmoid R.h out) m out c T.device T.dims ys ∧ Delivers E (sigmoid R'.h out') m' out' c T'.device T'.dims ys' ∧ Below ys ys' := by
  obtain ⟨ys, hd, hl, hp⟩ := C36_sigmoid (E := E) wf hc h he out
  obtain ⟨ys', hd', hl', hp'⟩ := C36_sigmoid (E := E) wf' hc h' he' out'
  have := hle.1
  refine ⟨ys, ys', hd, hd', by omega, fun i h1 h2 => ?_⟩
  have hi := hp i (by omega) h1
  have hj := hp' i (by omega) h2
  simp only [hE.sigmoid] at hi hj
  have hx := he.wt xs[i] (List.getElem_mem _)
  have hx' := he'.wt xs'[i] (List.getElem_mem _)
  have ht := sigmoid_through hx hc hi
  have ht' := sigmoid_through hx' hc hj
  obtain ⟨n1, n2, -, ho2⟩ := double_order hx hx' hc (hle.2 i _ _)
  have k1 := (double_not_nan hx hc n1).2
  have k2 := (double_not_nan hx' hc n2).2
  have hle := expMono_bits hm ho k2 k1 ho2
  have hone := (one_mag b64_ok).1
  refine out_order hc (sg_anti (ho.plus _ k1) hle) ?_ ht ht'
  have := sg_unit (ho.plus _ k2)
  omega

end

/-- C78, `+`, `-`, `*` and `/`: sums rise with both operands, differences with the first and against the second, products by numbers that are not negative
and quotients by positive numbers with the first. -/
theorem C78_binary {op : BinOp} (hE : Machine E.fp) (hc : c = .f32 ∨ c = .f64) (wf : m.WF) (wf' : m'.WF)
    (h1 : At m R1 T1) (he1 : Elems T1 c xs) (h2 : At m R2 T2) (he2 : Elems T2 c ys)
    (h1' : At m' R1' T1') (he1' : Elems T1' c xs') (h2' : At m' R2' T2') (he2' : Elems T2' c ys')
    (c1 : T1.device.type = 0) (c2 : T2.device.type = 0) (c1' : T1'.device.type = 0) (c2' : T2'.device.type = 0)
    (hd : T2.dims = T1.dims) (hd1 : T1'.dims = T1.dims) (hd2 : T2'.dims = T1.dims) (hi : prod T1.dims ≤ 2147483647)
    (hr : ∀ i (_ : i < xs.length) (_ : i < ys.length) (_ : i < xs'.length) (_ : i < ys'.length), OpRises op xs[i] ys[i] xs'[i] ys'[i]) (out out' : Ptr) :
    ∃ zs zs', DeliversMalloc E (binaryOp op R1.h R2.h out) m out c T1.device T1.dims zs ∧
      DeliversMalloc E (binaryOp op R1'.h R2'.h out') m' out' c T1'.device T1.dims zs' ∧ Pointwise InOrder zs zs' := by
  have ex : ∀ {xs ys : List Val}, (∀ x ∈ xs, x.WT c) → (∀ y ∈ ys, y.WT c) → xs.length = ys.length → ∃ zs : List Val, zs.length = xs.length ∧
      ∀ i (_ : i < xs.length) (_ : i < ys.length) (_ : i < zs.length), OpResult E.fp c op xs[i] ys[i] zs[i] := fun {xs ys} hx hy hl => by
    have one : ∀ {x y : Val}, x.WT c → y.WT c → ∃ z, OpResult E.fp c op x y z := fun {x y} hx hy => by
      rcases hc with rfl | rfl <;> cases x <;> try exact hx.elim
      all_goals (cases y <;> try exact hy.elim)
      all_goals exact ⟨_, rfl⟩
    classical
    refine ⟨(List.range xs.length).map fun i => if hi : i < xs.length then (one (hx _ (List.getElem_mem hi)) (hy _ (List.getElem_mem (hl ▸ hi)))).choose else .int 0,
      by simp, fun i h1 h2 h3 => ?_⟩
    simp only [List.getElem_map, List.getElem_range, h1, dif_pos]
    exact (one (hx _ (List.getElem_mem h1)) (hy _ (List.getElem_mem h2))).choose_spec
  have l1 := he1.len
  have l2 := he2.len
  have l1' := he1'.len
  have l2' := he2'.len
  rw [hd] at l2
  rw [hd1] at l1'
  rw [hd2] at l2'
  obtain ⟨zs, hzl, hz⟩ := ex he1.wt he2.wt (by omega)
  obtain ⟨zs', hzl', hz'⟩ := ex he1'.wt he2'.wt (by omega)
  have := C26_binary (E := E) wf' h1' he1' h2' he2' c1' c2' (hd2.trans hd1.symm) (hd1 ▸ hi) hzl' hz' out'
  rw [hd1] at this
  refine ⟨zs, zs', C26_binary (E := E) wf h1 he1 h2 he2 c1 c2 hd hi hzl hz out, this, by omega, fun i k1 k2 n1 n2 => ?_⟩
  have e := hz i (by omega) (by omega) k1
  have e' := hz' i (by omega) (by omega) k2
  rw [hE.op] at e e'
  exact op_le (he1.wt _ (List.getElem_mem _)) (he2.wt _ (List.getElem_mem _)) (he1'.wt _ (List.getElem_mem _)) (he2'.wt _ (List.getElem_mem _)) hc
    (hr i (by omega) (by omega) (by omega) (by omega)) e e' n1 n2

/-! ## Sums of products -/

theorem below_at {ds x : List Nat} (hl : xs.length = prod ds) (h : Below xs xs') (hx : InRange ds x) : AtMost (elemAt ds xs x) (elemAt ds xs' x) := by
  have hlt := lin_lt hx
  have := h.1
  have := h.2 (lin ds x) (by omega) (by omega)
  have e1 : elemAt ds xs x = xs[lin ds x]'(by omega) := by simp [elemAt, hl, hlt]
  have e2 : elemAt ds xs' x = xs'[lin ds x]'(by omega) := by simp [elemAt, show lin ds x < xs'.length by omega]
  rwa [e1, e2]

theorem elemAt_mem {ds x : List Nat} (hl : xs.length = prod ds) (hx : InRange ds x) : elemAt ds xs x ∈ xs := by
  have hlt := lin_lt hx
  have e : elemAt ds xs x = xs[lin ds x]'(by omega) := by simp [elemAt, hl, hlt]
  rw [e]
  exact List.getElem_mem _

theorem terms_rise (he1 : Elems T1 c xs) (he2 : Elems T2 c ys) (he1' : Elems T1' c xs') (he2' : Elems T2' c ys') (d1 : T1'.dims = T1.dims)
    (d2 : T2'.dims = T2.dims) (hr : FactorsRise xs ys xs' ys') {x y : List Nat} (hx : InRange T1.dims x) (hy : InRange T2.dims y) :
    ((elemAt T1.dims xs x).WT c ∧ (elemAt T2.dims ys y).WT c) ∧ ((elemAt T1'.dims xs' x).WT c ∧ (elemAt T2'.dims ys' y).WT c) ∧
    TermRises (elemAt T1.dims xs x, elemAt T2.dims ys y) (elemAt T1'.dims xs' x, elemAt T2'.dims ys' y) := by
  refine ⟨⟨elemAt_WT he1 rfl hx, elemAt_WT he2 rfl hy⟩, ⟨elemAt_WT he1' rfl (d1 ▸ hx), elemAt_WT he2' rfl (d2 ▸ hy)⟩, ?_⟩
  rw [d1, d2]
  rcases hr with ⟨hb, rfl, hn⟩ | ⟨hb, rfl, hn⟩
  · exact .inl ⟨below_at he1.len hb hx, rfl, hn _ (elemAt_mem he2.len hy)⟩
  · exact .inr ⟨below_at he2.len hb hy, rfl, hn _ (elemAt_mem he1.len hx)⟩

theorem dots_rise (hE : Uniform E.fp) (hc : c = .f32 ∨ c = .f64) (he1 : Elems T1 c xs) (he2 : Elems T2 c ys) (he1' : Elems T1' c xs')
    (he2' : Elems T2' c ys') (d1 : T1'.dims = T1.dims) (d2 : T2'.dims = T2.dims) (hr : FactorsRise xs ys xs' ys') {K : Nat} {f g : Nat → List Nat}
    (hf : ∀ q, q < K → InRange T1.dims (f q)) (hg : ∀ q, q < K → InRange T2.dims (g q)) {w w' : Val}
    (hd : DotTo E.fp c (zeroVal c) ((List.range K).map fun q => (elemAt T1.dims xs (f q), elemAt T2.dims ys (g q))) w)
    (hd' : DotTo E.fp c (zeroVal c) ((List.range K).map fun q => (elemAt T1'.dims xs' (f q), elemAt T2'.dims ys' (g q))) w') : InOrder w w' := by
  refine dotTo_le hE hc (fun q hq => ?_) hd hd'
  rw [List.mem_range] at hq
  exact terms_rise he1 he2 he1' he2' d1 d2 hr (hf q hq) (hg q hq)

theorem dot_exists {K : Nat} {f g : Nat → List Nat} (hc : c = .f32 ∨ c = .f64) (he1 : Elems T1 c xs) (he2 : Elems T2 c ys)
    (hf : ∀ q, q < K → InRange T1.dims (f q)) (hg : ∀ q, q < K → InRange T2.dims (g q)) :
    ∃ w, DotTo E.fp c (zeroVal c) ((List.range K).map fun q => (elemAt T1.dims xs (f q), elemAt T2.dims ys (g q))) w := by
  refine dotTo_floats hc (zeroVal_WT c) fun p hp => ?_
  simp only [List.mem_map, List.mem_range] at hp
  obtain ⟨q, hq, rfl⟩ := hp
  exact ⟨elemAt_WT he1 rfl (hf q hq), elemAt_WT he2 rfl (hg q hq)⟩

section
variable (hE : Machine E.fp) (hc : c = .f32 ∨ c = .f64) (wf : m.WF) (h1 : At m R1 T1) (he1 : Elems T1 c xs) (h2 : At m R2 T2) (he2 : Elems T2 c ys)
  (c1 : T1.device.type = DEVICE_CPU) (c2 : T2.device.type = DEVICE_CPU)
include hE hc wf h1 he1 h2 he2 c1 c2

theorem dots_vector_vector (s1 : T1.dims = [nK]) (s2 : T2.dims = [nK]) (hK : nK ≤ 2147483647) (out : Ptr) :
    ∃ w, Delivers E (matmul R1.h R2.h out) m out c T1.device [1] [w] ∧ DotTo E.fp c (zeroVal c) ((List.range nK).map fun q =>
        (elemAt T1.dims xs [q], elemAt T2.dims ys [q])) w := by
  obtain ⟨w, hd⟩ := dot_exists hc (f := fun q => [q]) (g := fun q => [q]) he1 he2 (fun q hq => by rw [s1]; exact ⟨hq, trivial⟩)
    (fun q hq => by rw [s2]; exact ⟨hq, trivial⟩)
  exact ⟨w, C31_vector_vector wf h1 he1 h2 he2 c1 c2 (hE.zero c) s1 s2 hK (hd) out, hd⟩

theorem dots_matrix_vector (s1 : T1.dims = [nM, nK]) (s2 : T2.dims = [nK]) (hM : nM ≤ 2147483647) (hK : nK ≤ 2147483647) (out : Ptr) :
    ∃ zs, Delivers E (matmul R1.h R2.h out) m out c T1.device [nM] zs ∧
      ∀ i, i < nM → DotTo E.fp c (zeroVal c) ((List.range nK).map fun q =>
        (elemAt T1.dims xs [i, q], elemAt T2.dims ys [q])) (elemAt [nM] zs [i]) := by
  obtain ⟨zs, hl, hz⟩ := exists_elems (ds := [nM]) (P := fun x w =>
      DotTo E.fp c (zeroVal c) ((List.range nK).map fun q => (elemAt T1.dims xs (x ++ [q]), elemAt T2.dims ys [q])) w) (fun x hx => by
    match x, hx with
    | [i], hx =>
      exact dot_exists hc (f := fun q => [i] ++ [q]) (g := fun q => [q]) he1 he2 (fun q hq => by rw [s1]; exact ⟨hx.1, hq, trivial⟩)
        (fun q hq => by rw [s2]; exact ⟨hq, trivial⟩))
  exact ⟨zs, C31_matrix_vector wf h1 he1 h2 he2 c1 c2 (hE.zero c) s1 s2 hM hK (by simpa [prod] using hl)
    (fun i hi => by exact hz [i] ⟨hi, trivial⟩) out, fun i hi => hz [i] ⟨hi, trivial⟩⟩

theorem dots_vector_matrix (s1 : T1.dims = [nK]) (s2 : T2.dims = [nK, nN]) (hK : nK ≤ 2147483647) (hN : nN ≤ 2147483647) (out : Ptr) :
    ∃ zs, Delivers E (matmul R1.h R2.h out) m out c T1.device [nN] zs ∧
      ∀ j, j < nN → DotTo E.fp c (zeroVal c) ((List.range nK).map fun q =>
        (elemAt T1.dims xs [q], elemAt T2.dims ys [q, j])) (elemAt [nN] zs [j]) := by
  obtain ⟨zs, hl, hz⟩ := exists_elems (ds := [nN]) (P := fun x w =>
      DotTo E.fp c (zeroVal c) ((List.range nK).map fun q => (elemAt T1.dims xs [q], elemAt T2.dims ys (q :: x))) w) (fun x hx => by
    match x, hx with
    | [j], hx =>
      exact dot_exists hc (f := fun q => [q]) (g := fun q => [q, j]) he1 he2 (fun q hq => by rw [s1]; exact ⟨hq, trivial⟩)
        (fun q hq => by rw [s2]; exact ⟨hq, hx.1, trivial⟩))
  exact ⟨zs, C31_vector_matrix wf h1 he1 h2 he2 c1 c2 (hE.zero c) s1 s2 hK hN (by simpa [prod] using hl)
    (fun i hi => by exact hz [i] ⟨hi, trivial⟩) out, fun i hi => hz [i] ⟨hi, trivial⟩⟩

theorem dots_matrix_matrix (s1 : T1.dims = [nM, nK]) (s2 : T2.dims = [nK, nN]) (hs : ShapeOK [nM, nN] c.size)
    (hM : nM ≤ 2147483647) (hK : nK ≤ 2147483647) (hN : nN ≤ 2147483647) (hi : nM * nN ≤ 2147483647) (out : Ptr) :
    ∃ zs, Delivers E (matmul R1.h R2.h out) m out c T1.device [nM, nN] zs ∧
      ∀ i j, i < nM → j < nN → DotTo E.fp c (zeroVal c) ((List.range nK).map fun q =>
        (elemAt T1.dims xs [i, q], elemAt T2.dims ys [q, j])) (elemAt [nM, nN] zs [i, j]) := by
  obtain ⟨zs, hl, hz⟩ := exists_elems2 (a := [nM]) (b := [nN]) (P := fun x y w =>
      DotTo E.fp c (zeroVal c) ((List.range nK).map fun q => (elemAt T1.dims xs (x ++ [q]), elemAt T2.dims ys (q :: y))) w) (fun x y hx hy => by
    match x, hx, y, hy with
    | [i], hx, [j], hy =>
      exact dot_exists hc (f := fun q => [i] ++ [q]) (g := fun q => [q, j]) he1 he2
        (fun q hq => by rw [s1]; exact ⟨hx.1, hq, trivial⟩) (fun q hq => by rw [s2]; exact ⟨hq, hy.1, trivial⟩))
  exact ⟨zs, C31_matrix_matrix wf h1 he1 h2 he2 c1 c2 (hE.zero c) s1 s2 hs hM hK hN hi (by simpa [prod] using hl)
    (fun i j hi hj => by exact hz [i] [j] ⟨hi, trivial⟩ ⟨hj, trivial⟩) out, fun i j hi hj => hz [i] [j] ⟨hi, trivial⟩ ⟨hj, trivial⟩⟩

theorem dots_tensor_vector (s1 : T1.dims = bs ++ [nM, nK]) (hb : bs ≠ []) (s2 : T2.dims = [nK]) (hs : ShapeOK (bs ++ [nM]) c.size)
    (hM : nM ≤ 2147483647) (hK : nK ≤ 2147483647) (hnb : prod bs ≤ 2147483647) (hi : prod (bs ++ [nM]) ≤ 2147483647) (out : Ptr) :
    ∃ zs, DeliversCareless E (matmul R1.h R2.h out) m out c T1.device (bs ++ [nM]) zs ∧
      ∀ cs i, InRange bs cs → i < nM → DotTo E.fp c (zeroVal c) ((List.range nK).map fun q =>
        (elemAt T1.dims xs (cs ++ [i, q]), elemAt T2.dims ys [q])) (elemAt (bs ++ [nM]) zs (cs ++ [i])) := by
  obtain ⟨zs, hl, hz⟩ := exists_elems2 (a := bs) (b := [nM]) (P := fun x y w =>
      DotTo E.fp c (zeroVal c) ((List.range nK).map fun q => (elemAt T1.dims xs (x ++ (y ++ [q])), elemAt T2.dims ys [q])) w) (fun x y hx hy => by
    match y, hy with
    | [i], hy =>
      exact dot_exists hc (f := fun q => x ++ ([i] ++ [q])) (g := fun q => [q]) he1 he2
        (fun q hq => by rw [s1]; exact inRange_append hx ⟨hy.1, hq, trivial⟩) (fun q hq => by rw [s2]; exact ⟨hq, trivial⟩))
  exact ⟨zs, C31_tensor_vector wf h1 he1 h2 he2 c1 c2 (hE.zero c) s1 hb s2 hs hM hK hnb hi hl
    (fun cs i hc hi => by exact hz cs [i] hc ⟨hi, trivial⟩) out, fun cs i hc hi => hz cs [i] hc ⟨hi, trivial⟩⟩

theorem dots_vector_tensor (s1 : T1.dims = [nK]) (s2 : T2.dims = bs ++ [nK, nN]) (hb : bs ≠ []) (hs : ShapeOK (bs ++ [nN]) c.size)
    (hK : nK ≤ 2147483647) (hN : nN ≤ 2147483647) (hnb : prod bs ≤ 2147483647) (hi : prod (bs ++ [nN]) ≤ 2147483647) (out : Ptr) :
    ∃ zs, DeliversCareless E (matmul R1.h R2.h out) m out c T1.device (bs ++ [nN]) zs ∧
      ∀ cs j, InRange bs cs → j < nN → DotTo E.fp c (zeroVal c) ((List.range nK).map fun q =>
        (elemAt T1.dims xs [q], elemAt T2.dims ys (cs ++ [q, j]))) (elemAt (bs ++ [nN]) zs (cs ++ [j])) := by
  obtain ⟨zs, hl, hz⟩ := exists_elems2 (a := bs) (b := [nN]) (P := fun x y w =>
      DotTo E.fp c (zeroVal c) ((List.range nK).map fun q => (elemAt T1.dims xs [q], elemAt T2.dims ys (x ++ (q :: y)))) w) (fun x y hx hy => by
    match y, hy with
    | [j], hy =>
      exact dot_exists hc (f := fun q => [q]) (g := fun q => x ++ [q, j]) he1 he2
        (fun q hq => by rw [s1]; exact ⟨hq, trivial⟩) (fun q hq => by rw [s2]; exact inRange_append hx ⟨hq, hy.1, trivial⟩))
  exact ⟨zs, C31_vector_tensor wf h1 he1 h2 he2 c1 c2 (hE.zero c) s1 s2 hb hs hK hN hnb hi hl
    (fun cs i hc hi => by exact hz cs [i] hc ⟨hi, trivial⟩) out, fun cs i hc hi => hz cs [i] hc ⟨hi, trivial⟩⟩

theorem dots_tensor_tensor (s1 : T1.dims = b1 ++ [nM, nK]) (s2 : T2.dims = b2 ++ [nK, nN]) (hb : b1 ≠ [] ∨ b2 ≠ [])
    (hp1 : ∀ d ∈ b1, 0 < d) (hp2 : ∀ d ∈ b2, 0 < d) (hbc : Broadcasts b1 b2 bd) (hs : ShapeOK (bd ++ [nM, nN]) c.size)
    (hM : nM ≤ 2147483647) (hK : nK ≤ 2147483647) (hN : nN ≤ 2147483647) (hnb : prod bd ≤ 2147483647)
    (hi : prod (bd ++ [nM, nN]) ≤ 2147483647) (out : Ptr) :
    ∃ zs, DeliversCareless E (matmul R1.h R2.h out) m out c T1.device (bd ++ [nM, nN]) zs ∧
      ∀ cs i j, InRange bd cs → i < nM → j < nN → DotTo E.fp c (zeroVal c) ((List.range nK).map fun q =>
        (elemAt T1.dims xs (under b1 cs ++ [i, q]), elemAt T2.dims ys (under b2 cs ++ [q, j]))) (elemAt (bd ++ [nM, nN]) zs (cs ++ [i, j])) := by
  have f1 := hbc.fits hp1
  have f2 := hbc.symm.fits hp2
  obtain ⟨zs, hl, hz⟩ := exists_elems2 (a := bd) (b := [nM, nN]) (P := fun x y w =>
      DotTo E.fp c (zeroVal c) ((List.range nK).map fun q =>
        (elemAt T1.dims xs (under b1 x ++ (y.take 1 ++ [q])), elemAt T2.dims ys (under b2 x ++ (q :: y.drop 1)))) w) (fun x y hx hy => by
    match y, hy with
    | [i, j], hy =>
      exact dot_exists hc (f := fun q => under b1 x ++ [i, q]) (g := fun q => under b2 x ++ [q, j]) he1 he2
        (fun q hq => by rw [s1]; exact inRange_append (under_inRange f1 hx) ⟨hy.1, hq, trivial⟩)
        (fun q hq => by rw [s2]; exact inRange_append (under_inRange f2 hx) ⟨hq, hy.2.1, trivial⟩))
  exact ⟨zs, C31_tensor_tensor wf h1 he1 h2 he2 c1 c2 (hE.zero c) s1 s2 hb hp1 hp2 hbc hs hM hK hN hnb hi hl
    (fun cs i j hc hi hj => by exact hz cs [i, j] hc ⟨hi, hj, trivial⟩) out, fun cs i j hc hi hj => hz cs [i, j] hc ⟨hi, hj, trivial⟩⟩

theorem dots_dot_vectors (s1 : T1.dims = [nK]) (s2 : T2.dims = [nK]) (hK : nK ≤ 2147483647) (out : Ptr) :
    ∃ w, Delivers E (dot R1.h R2.h out) m out c T1.device [1] [w] ∧ DotTo E.fp c (zeroVal c) ((List.range nK).map fun q =>
        (elemAt T1.dims xs [q], elemAt T2.dims ys [q])) w := by
  obtain ⟨w, hd⟩ := dot_exists hc (f := fun q => [q]) (g := fun q => [q]) he1 he2 (fun q hq => by rw [s1]; exact ⟨hq, trivial⟩)
    (fun q hq => by rw [s2]; exact ⟨hq, trivial⟩)
  exact ⟨w, C34_vector_vector wf h1 he1 h2 he2 c1 c2 (hE.zero c) (hE.zero' c) s1 s2 hK
    (hd) out, hd⟩

theorem dots_dot_tensor_vector (s1 : T1.dims = bs ++ [nK]) (hb : bs ≠ []) (s2 : T2.dims = [nK]) (hK : nK ≤ 2147483647)
    (hn : prod bs * c.size ≤ 2147483647) (h0 : 0 < prod bs → 0 < nK) (out : Ptr) :
    ∃ zs, Attempts E (dot R1.h R2.h out) m ⟨c.dtype, T1.device, bs, encAll c zs⟩ ∧
      ∀ cs, InRange bs cs → DotTo E.fp c (zeroVal c) ((List.range nK).map fun q =>
        (elemAt T1.dims xs (cs ++ [q]), elemAt T2.dims ys [q])) (elemAt bs zs cs) := by
  obtain ⟨zs, hl, hz⟩ := exists_elems (ds := bs) (P := fun x w =>
      DotTo E.fp c (zeroVal c) ((List.range nK).map fun q => (elemAt T1.dims xs (x ++ [q]), elemAt T2.dims ys [q])) w) (fun x hx =>
    dot_exists hc (f := fun q => x ++ [q]) (g := fun q => [q]) he1 he2
        (fun q hq => by rw [s1]; exact inRange_append hx ⟨hq, trivial⟩) (fun q hq => by rw [s2]; exact ⟨hq, trivial⟩))
  exact ⟨zs, C34_tensor_vector_partial wf h1 he1 h2 he2 c1 c2 (hE.zero c) (hE.zero' c) s1 hb s2 hK hn h0 hl
    (fun cs hr => by exact hz cs hr) out, fun cs hr => hz cs hr⟩

theorem dots_dot_tensors {l : Nat} (s1 : T1.dims = b1 ++ [nK]) (s2 : T2.dims = b2 ++ [nK, l])
    (hb1 : 2 ≤ b1.length) (hb2 : b2 ≠ []) (h0 : 0 < nK) (hK : nK ≤ 2147483647) (hn1 : prod b1 ≤ 2147483647) (hn2 : prod b2 * l ≤ 2147483647)
    (hs : ShapeOK (b1 ++ b2 ++ [l]) c.size) (out : Ptr) :
    ∃ zs, Attempts E (dot R1.h R2.h out) m ⟨c.dtype, T1.device, b1 ++ b2 ++ [l], encAll c zs⟩ ∧
      ∀ cs ds j, InRange b1 cs → InRange b2 ds → j < l → DotTo E.fp c (zeroVal c) ((List.range nK).map fun q =>
        (elemAt T1.dims xs (cs ++ [q]), elemAt T2.dims ys (ds ++ [q, j]))) (elemAt (b1 ++ b2 ++ [l]) zs (cs ++ ds ++ [j])) := by
  obtain ⟨zs, hl, hz⟩ := exists_elems2 (a := b1 ++ b2) (b := [l]) (P := fun x y w =>
      DotTo E.fp c (zeroVal c) ((List.range nK).map fun q =>
        (elemAt T1.dims xs (x.take b1.length ++ [q]), elemAt T2.dims ys (x.drop b1.length ++ (q :: y)))) w) (fun x y hx hy => by
    obtain ⟨hx1, hx2⟩ := inRange_split hx
    match y, hy with
    | [j], hy =>
      exact dot_exists hc (f := fun q => x.take b1.length ++ [q]) (g := fun q => x.drop b1.length ++ [q, j]) he1 he2
        (fun q hq => by rw [s1]; exact inRange_append hx1 ⟨hq, trivial⟩)
        (fun q hq => by rw [s2]; exact inRange_append hx2 ⟨hq, hy.1, trivial⟩))
  have hz' : ∀ cs ds j, InRange b1 cs → InRange b2 ds → j < l →
      DotTo E.fp c (zeroVal c) ((List.range nK).map fun q => (elemAt T1.dims xs (cs ++ [q]), elemAt T2.dims ys (ds ++ [q, j])))
        (elemAt (b1 ++ b2 ++ [l]) zs (cs ++ ds ++ [j])) := by
    intro cs ds j hc hd hj
    have := hz (cs ++ ds) [j] (inRange_append hc hd) ⟨hj, trivial⟩
    rwa [List.take_left' hc.length, List.drop_left' hc.length] at this
  exact ⟨zs, C34_tensor_tensor_partial wf h1 he1 h2 he2 c1 c2 (hE.zero c) (hE.zero' c) s1 s2 hb1 hb2 h0 hK hn1
    hn2 hs hl (fun cs ds j hc hd hj => by exact hz' cs ds j hc hd hj) out, fun cs ds j hc hd hj => hz' cs ds j hc hd hj⟩

end

section
variable (hE : Uniform E.fp) (hc : c = .f32 ∨ c = .f64) (wf : m.WF) (wf' : m'.WF)
  (h1 : At m R1 T1) (he1 : Elems T1 c xs) (h2 : At m R2 T2) (he2 : Elems T2 c ys)
  (h1' : At m' R1' T1') (he1' : Elems T1' c xs') (h2' : At m' R2' T2') (he2' : Elems T2' c ys')
  (c1 : T1.device.type = DEVICE_CPU) (c2 : T2.device.type = DEVICE_CPU) (c1' : T1'.device.type = DEVICE_CPU) (c2' : T2'.device.type = DEVICE_CPU)
  (d1 : T1'.dims = T1.dims) (d2 : T2'.dims = T2.dims) (hr : FactorsRise xs ys xs' ys')
include hE hc wf wf' h1 he1 h2 he2 h1' he1' h2' he2' c1 c2 c1' c2' d1 d2 hr

/-- C78, vector times vector. -/
theorem C78_vector_vector (s1 : T1.dims = [nK]) (s2 : T2.dims = [nK]) (hK : nK ≤ 2147483647) (out out' : Ptr) :
    ∃ w w', Delivers E (matmul R1.h R2.h out) m out c T1.device [1] [w] ∧
      Delivers E (matmul R1'.h R2'.h out') m' out' c T1'.device [1] [w'] ∧
      InOrder w w' := by
  obtain ⟨w, hd, hv⟩ := dots_vector_vector hE.1 hc wf h1 he1 h2 he2 c1 c2 s1 s2 hK out
  obtain ⟨w', hd', hv'⟩ := dots_vector_vector hE.1 hc wf' h1' he1' h2' he2' c1' c2' (d1.trans s1) (d2.trans s2) hK out'
  exact ⟨w, w', hd, hd', dots_rise hE hc he1 he2 he1' he2' d1 d2 hr (fun q hq => by rw [s1]; exact ⟨hq, trivial⟩)
    (fun q hq => by rw [s2]; exact ⟨hq, trivial⟩) (hv ) (hv' )⟩

/-- C78, matrix times vector. -/
theorem C78_matrix_vector (s1 : T1.dims = [nM, nK]) (s2 : T2.dims = [nK]) (hM : nM ≤ 2147483647) (hK : nK ≤ 2147483647) (out out' : Ptr) :
    ∃ zs zs', Delivers E (matmul R1.h R2.h out) m out c T1.device [nM] zs ∧
      Delivers E (matmul R1'.h R2'.h out') m' out' c T1'.device [nM] zs' ∧
      ∀ i, i < nM → InOrder (elemAt [nM] zs [i]) (elemAt [nM] zs' [i]) := by
  obtain ⟨zs, hd, hv⟩ := dots_matrix_vector hE.1 hc wf h1 he1 h2 he2 c1 c2 s1 s2 hM hK out
  obtain ⟨zs', hd', hv'⟩ := dots_matrix_vector hE.1 hc wf' h1' he1' h2' he2' c1' c2' (d1.trans s1) (d2.trans s2) hM hK out'
  exact ⟨zs, zs', hd, hd', fun i r1 => dots_rise hE hc he1 he2 he1' he2' d1 d2 hr (fun q hq => by rw [s1]; exact ⟨r1, hq, trivial⟩)
    (fun q hq => by rw [s2]; exact ⟨hq, trivial⟩) (hv i r1) (hv' i r1)⟩

/-- C78, vector times matrix. -/
theorem C78_vector_matrix (s1 : T1.dims = [nK]) (s2 : T2.dims = [nK, nN]) (hK : nK ≤ 2147483647) (hN : nN ≤ 2147483647) (out out' : Ptr) :
    ∃ zs zs', Delivers E (matmul R1.h R2.h out) m out c T1.device [nN] zs ∧
      Delivers E (matmul R1'.h R2'.h out') m' out' c T1'.device [nN] zs' ∧
      ∀ j, j < nN → InOrder (elemAt [nN] zs [j]) (elemAt [nN] zs' [j]) := by
  obtain ⟨zs, hd, hv⟩ := dots_vector_matrix hE.1 hc wf h1 he1 h2 he2 c1 c2 s1 s2 hK hN out
  obtain ⟨zs', hd', hv'⟩ := dots_vector_matrix hE.1 hc wf' h1' he1' h2' he2' c1' c2' (d1.trans s1) (d2.trans s2) hK hN out'
  exact ⟨zs, zs', hd, hd', fun j r1 => dots_rise hE hc he1 he2 he1' he2' d1 d2 hr (fun q hq => by rw [s1]; exact ⟨hq, trivial⟩)
    (fun q hq => by rw [s2]; exact ⟨hq, r1, trivial⟩) (hv j r1) (hv' j r1)⟩

/-- C78, matrix times matrix. -/
theorem C78_matrix_matrix (s1 : T1.dims = [nM, nK]) (s2 : T2.dims = [nK, nN]) (hs : ShapeOK [nM, nN] c.size)
    (hM : nM ≤ 2147483647) (hK : nK ≤ 2147483647) (hN : nN ≤ 2147483647) (hi : nM * nN ≤ 2147483647) (out out' : Ptr) :
    ∃ zs zs', Delivers E (matmul R1.h R2.h out) m out c T1.device [nM, nN] zs ∧
      Delivers E (matmul R1'.h R2'.h out') m' out' c T1'.device [nM, nN] zs' ∧
      ∀ i j, i < nM → j < nN → InOrder (elemAt [nM, nN] zs [i, j]) (elemAt [nM, nN] zs' [i, j]) := by
  obtain ⟨zs, hd, hv⟩ := dots_matrix_matrix hE.1 hc wf h1 he1 h2 he2 c1 c2 s1 s2 hs hM hK hN hi out
  obtain ⟨zs', hd', hv'⟩ := dots_matrix_matrix hE.1 hc wf' h1' he1' h2' he2' c1' c2' (d1.trans s1) (d2.trans s2) hs hM hK hN hi out'
  exact ⟨zs, zs', hd, hd', fun i j r1 r2 => dots_rise hE hc he1 he2 he1' he2' d1 d2 hr (fun q hq => by rw [s1]; exact ⟨r1, hq, trivial⟩)
    (fun q hq => by rw [s2]; exact ⟨hq, r2, trivial⟩) (hv i j r1 r2) (hv' i j r1 r2)⟩

/-- C78, tensor times vector. -/
theorem C78_tensor_vector (s1 : T1.dims = bs ++ [nM, nK]) (hb : bs ≠ []) (s2 : T2.dims = [nK]) (hs : ShapeOK (bs ++ [nM]) c.size)
    (hM : nM ≤ 2147483647) (hK : nK ≤ 2147483647) (hnb : prod bs ≤ 2147483647) (hi : prod (bs ++ [nM]) ≤ 2147483647) (out out' : Ptr) :
    ∃ zs zs', DeliversCareless E (matmul R1.h R2.h out) m out c T1.device (bs ++ [nM]) zs ∧
      DeliversCareless E (matmul R1'.h R2'.h out') m' out' c T1'.device (bs ++ [nM]) zs' ∧
      ∀ cs i, InRange bs cs → i < nM → InOrder (elemAt (bs ++ [nM]) zs (cs ++ [i])) (elemAt (bs ++ [nM]) zs' (cs ++ [i])) := by
  obtain ⟨zs, hd, hv⟩ := dots_tensor_vector hE.1 hc wf h1 he1 h2 he2 c1 c2 s1 hb s2 hs hM hK hnb hi out
  obtain ⟨zs', hd', hv'⟩ := dots_tensor_vector hE.1 hc wf' h1' he1' h2' he2' c1' c2' (d1.trans s1) hb (d2.trans s2) hs hM hK hnb hi out'
  exact ⟨zs, zs', hd, hd', fun cs i r1 r2 => dots_rise hE hc he1 he2 he1' he2' d1 d2 hr (fun q hq => by rw [s1]; exact inRange_append r1 ⟨r2, hq, trivial⟩)
    (fun q hq => by rw [s2]; exact ⟨hq, trivial⟩) (hv cs i r1 r2) (hv' cs i r1 r2)⟩

/-- C78, vector times tensor. -/
theorem C78_vector_tensor (s1 : T1.dims = [nK]) (s2 : T2.dims = bs ++ [nK, nN]) (hb : bs ≠ []) (hs : ShapeOK (bs ++ [nN]) c.size)
    (hK : nK ≤ 2147483647) (hN : nN ≤ 2147483647) (hnb : prod bs ≤ 2147483647) (hi : prod (bs ++ [nN]) ≤ 2147483647) (out out' : Ptr) :
    ∃ zs zs', DeliversCareless E (matmul R1.h R2.h out) m out c T1.device (bs ++ [nN]) zs ∧
      DeliversCareless E (matmul R1'.h R2'.h out') m' out' c T1'.device (bs ++ [nN]) zs' ∧
      ∀ cs j, InRange bs cs → j < nN → InOrder (elemAt (bs ++ [nN]) zs (cs ++ [j])) (elemAt (bs ++ [nN]) zs' (cs ++ [j])) := by
  obtain ⟨zs, hd, hv⟩ := dots_vector_tensor hE.1 hc wf h1 he1 h2 he2 c1 c2 s1 s2 hb hs hK hN hnb hi out
  obtain ⟨zs', hd', hv'⟩ := dots_vector_tensor hE.1 hc wf' h1' he1' h2' he2' c1' c2' (d1.trans s1) (d2.trans s2) hb hs hK hN hnb hi out'
  exact ⟨zs, zs', hd, hd', fun cs j r1 r2 => dots_rise hE hc he1 he2 he1' he2' d1 d2 hr (fun q hq => by rw [s1]; exact ⟨hq, trivial⟩)
    (fun q hq => by rw [s2]; exact inRange_append r1 ⟨hq, r2, trivial⟩) (hv cs j r1 r2) (hv' cs j r1 r2)⟩

/-- C78, tensor times tensor, with broadcasting of the batch dims. -/
theorem C78_tensor_tensor (s1 : T1.dims = b1 ++ [nM, nK]) (s2 : T2.dims = b2 ++ [nK, nN]) (hb : b1 ≠ [] ∨ b2 ≠ [])
    (hp1 : ∀ d ∈ b1, 0 < d) (hp2 : ∀ d ∈ b2, 0 < d) (hbc : Broadcasts b1 b2 bd) (hs : ShapeOK (bd ++ [nM, nN]) c.size)
    (hM : nM ≤ 2147483647) (hK : nK ≤ 2147483647) (hN : nN ≤ 2147483647) (hnb : prod bd ≤ 2147483647)
    (hi : prod (bd ++ [nM, nN]) ≤ 2147483647) (out out' : Ptr) :
    ∃ zs zs', DeliversCareless E (matmul R1.h R2.h out) m out c T1.device (bd ++ [nM, nN]) zs ∧
      DeliversCareless E (matmul R1'.h R2'.h out') m' out' c T1'.device (bd ++ [nM, nN]) zs' ∧
      ∀ cs i j, InRange bd cs → i < nM → j < nN → InOrder (elemAt (bd ++ [nM, nN]) zs (cs ++ [i, j])) (elemAt (bd ++ [nM, nN]) zs' (cs ++ [i, j])) := by
  obtain ⟨zs, hd, hv⟩ := dots_tensor_tensor hE.1 hc wf h1 he1 h2 he2 c1 c2 s1 s2 hb hp1 hp2 hbc hs hM hK hN hnb hi out
  obtain ⟨zs', hd', hv'⟩ := dots_tensor_tensor hE.1 hc wf' h1' he1' h2' he2' c1' c2' (d1.trans s1) (d2.trans s2) hb hp1 hp2 hbc hs hM hK hN hnb hi out'
  exact ⟨zs, zs', hd, hd', fun cs i j r1 r2 r3 => dots_rise hE hc he1 he2 he1' he2' d1 d2 hr (fun q hq => by rw [s1]; exact inRange_append (under_inRange (hbc.fits hp1) r1) ⟨r2, hq, trivial⟩)
    (fun q hq => by rw [s2]; exact inRange_append (under_inRange (hbc.symm.fits hp2) r1) ⟨hq, r3, trivial⟩) (hv cs i j r1 r2 r3) (hv' cs i j r1 r2 r3)⟩

/-- C78, `dot` of two vectors. -/
theorem C78_dot_vectors (s1 : T1.dims = [nK]) (s2 : T2.dims = [nK]) (hK : nK ≤ 2147483647) (out out' : Ptr) :
    ∃ w w', Delivers E (dot R1.h R2.h out) m out c T1.device [1] [w] ∧
      Delivers E (dot R1'.h R2'.h out') m' out' c T1'.device [1] [w'] ∧
      InOrder w w' := by
  obtain ⟨w, hd, hv⟩ := dots_dot_vectors hE.1 hc wf h1 he1 h2 he2 c1 c2 s1 s2 hK out
  obtain ⟨w', hd', hv'⟩ := dots_dot_vectors hE.1 hc wf' h1' he1' h2' he2' c1' c2' (d1.trans s1) (d2.trans s2) hK out'
  exact ⟨w, w', hd, hd', dots_rise hE hc he1 he2 he1' he2' d1 d2 hr (fun q hq => by rw [s1]; exact ⟨hq, trivial⟩)
    (fun q hq => by rw [s2]; exact ⟨hq, trivial⟩) (hv ) (hv' )⟩

/-- C78, `dot` of a tensor and a vector. -/
theorem C78_dot_tensor_vector (s1 : T1.dims = bs ++ [nK]) (hb : bs ≠ []) (s2 : T2.dims = [nK]) (hK : nK ≤ 2147483647)
    (hn : prod bs * c.size ≤ 2147483647) (h0 : 0 < prod bs → 0 < nK) (out out' : Ptr) :
    ∃ zs zs', Attempts E (dot R1.h R2.h out) m ⟨c.dtype, T1.device, bs, encAll c zs⟩ ∧
      Attempts E (dot R1'.h R2'.h out') m' ⟨c.dtype, T1'.device, bs, encAll c zs'⟩ ∧
      ∀ cs, InRange bs cs → InOrder (elemAt bs zs cs) (elemAt bs zs' cs) := by
  obtain ⟨zs, hd, hv⟩ := dots_dot_tensor_vector hE.1 hc wf h1 he1 h2 he2 c1 c2 s1 hb s2 hK hn h0 out
  obtain ⟨zs', hd', hv'⟩ := dots_dot_tensor_vector hE.1 hc wf' h1' he1' h2' he2' c1' c2' (d1.trans s1) hb (d2.trans s2) hK hn h0 out'
  exact ⟨zs, zs', hd, hd', fun cs r1 => dots_rise hE hc he1 he2 he1' he2' d1 d2 hr (fun q hq => by rw [s1]; exact inRange_append r1 ⟨hq, trivial⟩)
    (fun q hq => by rw [s2]; exact ⟨hq, trivial⟩) (hv cs r1) (hv' cs r1)⟩

/-- C78, `dot` of two tensors of rank at least 3. -/
theorem C78_dot_tensors {l : Nat} (s1 : T1.dims = b1 ++ [nK]) (s2 : T2.dims = b2 ++ [nK, l])
    (hb1 : 2 ≤ b1.length) (hb2 : b2 ≠ []) (h0 : 0 < nK) (hK : nK ≤ 2147483647) (hn1 : prod b1 ≤ 2147483647) (hn2 : prod b2 * l ≤ 2147483647)
    (hs : ShapeOK (b1 ++ b2 ++ [l]) c.size) (out out' : Ptr) :
    ∃ zs zs', Attempts E (dot R1.h R2.h out) m ⟨c.dtype, T1.device, b1 ++ b2 ++ [l], encAll c zs⟩ ∧
      Attempts E (dot R1'.h R2'.h out') m' ⟨c.dtype, T1'.device, b1 ++ b2 ++ [l], encAll c zs'⟩ ∧
      ∀ cs ds j, InRange b1 cs → InRange b2 ds → j < l → InOrder (elemAt (b1 ++ b2 ++ [l]) zs (cs ++ ds ++ [j])) (elemAt (b1 ++ b2 ++ [l]) zs' (cs ++ ds ++ [j])) := by
  obtain ⟨zs, hd, hv⟩ := dots_dot_tensors hE.1 hc wf h1 he1 h2 he2 c1 c2 s1 s2 hb1 hb2 h0 hK hn1 hn2 hs out
  obtain ⟨zs', hd', hv'⟩ := dots_dot_tensors hE.1 hc wf' h1' he1' h2' he2' c1' c2' (d1.trans s1) (d2.trans s2) hb1 hb2 h0 hK hn1 hn2 hs out'
  exact ⟨zs, zs', hd, hd', fun cs ds j r1 r2 r3 => dots_rise hE hc he1 he2 he1' he2' d1 d2 hr (fun q hq => by rw [s1]; exact inRange_append r1 ⟨hq, trivial⟩)
    (fun q hq => by rw [s2]; exact inRange_append r2 ⟨hq, r3, trivial⟩) (hv cs ds j r1 r2 r3) (hv' cs ds j r1 r2 r3)⟩

end

/-- C78, convolution. -/
theorem C78_conv {B C O : Nat} (hE : Uniform E.fp) (wf : m.WF) (wf' : m'.WF) (h1 : At m R1 T1) (h2 : At m R2 T2) (e1 : Elems T1 .f32 xs)
    (e2 : Elems T2 .f32 ys) (h1' : At m' R1' T1') (h2' : At m' R2' T2') (e1' : Elems T1' .f32 xs') (e2' : Elems T2' .f32 ys')
    (s1 : T1.dims = B :: C :: ws.map Win.x) (s2 : T2.dims = O :: C :: ws.map Win.k) (d1 : T1'.dims = T1.dims) (d2 : T2'.dims = T2.dims)
    (h : ∀ w ∈ ws, w.Fits ∧ w.Wide) (hso : ShapeOK (B :: O :: ws.map Win.out) 4) (hC : 0 < C) (hr : FactorsRise xs ys xs' ys')
    (st st' : Status) (groups : Int) (out out' : Ptr) :
    ∃ zs zs' : List Val,
      Leaves E (conv (some st) (some st') R1.h R2.h (dimsCells (ws.map Win.s)) (dimsCells (ws.map Win.p)) (dimsCells (ws.map Win.d)) groups out) m out
        (if st = .success then st' else st) ⟨Code.f32.dtype, T1.device, B :: O :: ws.map Win.out, encAll .f32 zs⟩ ∧
      Leaves E (conv (some st) (some st') R1'.h R2'.h (dimsCells (ws.map Win.s)) (dimsCells (ws.map Win.p)) (dimsCells (ws.map Win.d)) groups out') m' out'
        (if st = .success then st' else st) ⟨Code.f32.dtype, T1'.device, B :: O :: ws.map Win.out, encAll .f32 zs'⟩ ∧
      ∀ b oc os, InRange (B :: O :: ws.map Win.out) (b :: oc :: os) →
        InOrder (elemAt (B :: O :: ws.map Win.out) zs (b :: oc :: os)) (elemAt (B :: O :: ws.map Win.out) zs' (b :: oc :: os)) := by
  obtain ⟨zs, hl, hz, hv⟩ := C40_conv (E := E) wf h1 h2 e1 e2 s1 s2 h hso hC st st' groups out
  obtain ⟨zs', hl', hz', hv'⟩ := C40_conv (E := E) wf' h1' h2' e1' e2' (d1.trans s1) (d2.trans s2) h hso hC st st' groups out'
  refine ⟨zs, zs', hv, hv', fun b oc os hio => ?_⟩
  have hlen : ws.length = os.length := by have := hio.2.2.length; simpa using this.symm
  have zero : ∀ {z}, ZeroOf E.fp .f32 z → z = zeroVal .f32 := fun {z} hz0 => by
    have := hE.1.zero .f32
    rw [ZeroOf, converts_iff] at hz0 this
    rw [hz0] at this
    cases this; rfl
  obtain ⟨z, hz0, hy⟩ := hz b oc os hio
  obtain ⟨z', hz0', hy'⟩ := hz' b oc os hio
  cases zero hz0
  cases zero hz0'
  refine dotTo_le hE (.inl rfl) (l := (List.range C).flatMap fun ic => (List.range (prod (ws.map Win.k))).filterMap fun j =>
      (winAt ws os (unlin (ws.map Win.k) j)).map fun cs => (b :: ic :: cs, oc :: ic :: unlin (ws.map Win.k) j))
    (u := fun p => (elemAt T1.dims xs p.1, elemAt T2.dims ys p.2)) (u' := fun p => (elemAt T1'.dims xs' p.1, elemAt T2'.dims ys' p.2)) (fun p hp => ?_)
    (by simpa [convTerms, List.map_flatMap, List.map_filterMap, Option.map_map, Function.comp_def] using hy)
    (by simpa [convTerms, List.map_flatMap, List.map_filterMap, Option.map_map, Function.comp_def] using hy')
  simp only [List.mem_flatMap, List.mem_range, List.mem_filterMap, Option.map_eq_some_iff] at hp
  obtain ⟨ic, hic, j, hj, cs, hw, rfl⟩ := hp
  refine terms_rise e1 e2 e1' e2' d1 d2 hr ?_ ?_
  · rw [s1]; exact ⟨hio.1, hic, winAt_inRange hlen (by rw [unlin_length]; simp) hw⟩
  · rw [s2]; exact ⟨hio.2.1, hic, unlin_inRange hj⟩

/-! ## Pooling -/

section
variable {B C : Nat} (hE : Machine E.fp) (wf : m.WF) (wf' : m'.WF) (h1 : At m R T) (he : Elems T c xs) (h1' : At m' R' T') (he' : Elems T' c xs')
  (hs : T.dims = B :: C :: ws.map Win.x) (hs' : T'.dims = T.dims) (hw : 1 ≤ ws.length)
  (hw' : ws.length ≤ 3) (h : ∀ w ∈ ws, w.Fits ∧ w.Small) (hso : ShapeOK (B :: C :: ws.map Win.out) c.size)
  (hi : prod (ws.map Win.out) ≤ 2147483647) (hK : prod (ws.map Win.k) < 9007199254740992)
  (hf : prod (ws.map Win.k) ≤ fuel) (hf' : prod (ws.map Win.out) ≤ fuel) (hle : Below xs xs')
include hE wf wf' h1 he h1' he' hs hs' hw hw' h hso hi hK hf hf' hle

/-- C78, max pooling, for every element type in which the maxima are representable (always so for `float` and `double`). -/
theorem C78_max_pooling
    (hd : ∀ b ch os, InRange (B :: C :: ws.map Win.out) (b :: ch :: os) → ∃ y, ScanOf E.fp c (winElems T.dims xs ws b ch os) y)
    (hd' : ∀ b ch os, InRange (B :: C :: ws.map Win.out) (b :: ch :: os) → ∃ y, ScanOf E.fp c (winElems T'.dims xs' ws b ch os) y) (out out' : Ptr) :
    ∃ zs zs' : List Val, Attempts E (pooling fuel R.h "max" (dimsCells (ws.map Win.k)) (dimsCells (ws.map Win.s)) (dimsCells (ws.map Win.p))
        (dimsCells (ws.map Win.d)) out) m ⟨c.dtype, T.device, B :: C :: ws.map Win.out, encAll c zs⟩ ∧
      Attempts E (pooling fuel R'.h "max" (dimsCells (ws.map Win.k)) (dimsCells (ws.map Win.s)) (dimsCells (ws.map Win.p))
        (dimsCells (ws.map Win.d)) out') m' ⟨c.dtype, T'.device, B :: C :: ws.map Win.out, encAll c zs'⟩ ∧
      ∀ b ch os, InRange (B :: C :: ws.map Win.out) (b :: ch :: os) →
        AtMost (elemAt (B :: C :: ws.map Win.out) zs (b :: ch :: os)) (elemAt (B :: C :: ws.map Win.out) zs' (b :: ch :: os)) := by
  have ex : ∀ {ds : List Nat} {xs : List Val},
      (∀ b ch os, InRange (B :: C :: ws.map Win.out) (b :: ch :: os) → ∃ y, ScanOf E.fp c (winElems ds xs ws b ch os) y) →
      ∃ zs : List Val, zs.length = prod (B :: C :: ws.map Win.out) ∧ ∀ b ch os, InRange (B :: C :: ws.map Win.out) (b :: ch :: os) →
        ScanOf E.fp c (winElems ds xs ws b ch os) (elemAt (B :: C :: ws.map Win.out) zs (b :: ch :: os)) := fun {ds xs} hd => by
    obtain ⟨zs, hl, hz⟩ := exists_elems (ds := B :: C :: ws.map Win.out) (P := fun x w => ∀ b ch os, x = b :: ch :: os →
      ScanOf E.fp c (winElems ds xs ws b ch os) w) (fun x hx => by
      match x, hx with
      | b :: ch :: os, hio =>
        obtain ⟨y, hy⟩ := hd b ch os hio
        exact ⟨y, by rintro _ _ _ ⟨⟩; exact hy⟩)
    exact ⟨zs, hl, fun b ch os hio => hz _ hio b ch os rfl⟩
  obtain ⟨zs, hl, hz⟩ := ex hd
  obtain ⟨zs', hl', hz'⟩ := ex hd'
  refine ⟨zs, zs', C38_max wf h1 he hs hw hw' h hso hi (by omega) hf hf' hl hz out,
    C38_max wf' h1' he' (hs'.trans hs) hw hw' h hso hi (by omega) hf hf' hl' hz' out', fun b ch os hio => ?_⟩
  have hlen : ws.length = os.length := by have := hio.2.2.length; simpa using this.symm
  have e := hz b ch os hio
  have e' := hz' b ch os hio
  rw [hE.scan] at e e'
  refine scanOf_le (c := c) (l := (List.range (prod (ws.map Win.k))).filterMap fun j => (winAt ws os (unlin (ws.map Win.k) j)).map fun cs => b :: ch :: cs)
    (u := elemAt T.dims xs) (u' := elemAt T'.dims xs') (fun p hp => ?_)
    (by simpa only [winElems, List.map_filterMap, Option.map_map, Function.comp_def] using e)
    (by simpa only [winElems, List.map_filterMap, Option.map_map, Function.comp_def] using e')
  simp only [List.mem_range, List.mem_filterMap, Option.map_eq_some_iff] at hp
  obtain ⟨j, hj, cs, hcs, rfl⟩ := hp
  have hin : InRange T.dims (b :: ch :: cs) := by
    rw [hs]; exact ⟨hio.1, hio.2.1, winAt_inRange hlen (by rw [unlin_length]; simp) hcs⟩
  exact ⟨elemAt_WT he rfl hin, elemAt_WT he' rfl (hs' ▸ hin), by rw [hs']; exact below_at he.len hle hin⟩

/-- C78, average pooling. -/
theorem C78_avg_pooling (hc : c = .f32 ∨ c = .f64) (out out' : Ptr) :
    ∃ zs zs' : List Val, Attempts E (pooling fuel R.h "avg" (dimsCells (ws.map Win.k)) (dimsCells (ws.map Win.s)) (dimsCells (ws.map Win.p))
        (dimsCells (ws.map Win.d)) out) m ⟨c.dtype, T.device, B :: C :: ws.map Win.out, encAll c zs⟩ ∧
      Attempts E (pooling fuel R'.h "avg" (dimsCells (ws.map Win.k)) (dimsCells (ws.map Win.s)) (dimsCells (ws.map Win.p))
        (dimsCells (ws.map Win.d)) out') m' ⟨c.dtype, T'.device, B :: C :: ws.map Win.out, encAll c zs'⟩ ∧
      ∀ b ch os, InRange (B :: C :: ws.map Win.out) (b :: ch :: os) →
        InOrder (elemAt (B :: C :: ws.map Win.out) zs (b :: ch :: os)) (elemAt (B :: C :: ws.map Win.out) zs' (b :: ch :: os)) := by
  have hk0 : 0 < prod (ws.map Win.k) := prod_pos (by
    intro d hd
    obtain ⟨w, hw, rfl⟩ := List.mem_map.1 hd
    have := (h w hw).1.k
    omega)
  have ex : ∀ (ds : List Nat) (xs : List Val),
      ∃ zs : List Val, zs.length = prod (B :: C :: ws.map Win.out) ∧ ∀ b ch os, InRange (B :: C :: ws.map Win.out) (b :: ch :: os) →
        AvgOf E.fp c (prod (ws.map Win.k)) (winElems ds xs ws b ch os) (elemAt (B :: C :: ws.map Win.out) zs (b :: ch :: os)) := fun ds xs => by
    obtain ⟨zs, hl, hz⟩ := exists_elems (ds := B :: C :: ws.map Win.out) (P := fun x w => ∀ b ch os, x = b :: ch :: os →
      AvgOf E.fp c (prod (ws.map Win.k)) (winElems ds xs ws b ch os) w) (fun x hx => by
      match x, hx with
      | b :: ch :: os, hio =>
        obtain ⟨y, hy⟩ : ∃ w, AvgOf E.fp c (prod (ws.map Win.k)) (winElems ds xs ws b ch os) w := by
          rcases hc with rfl | rfl
          · exact ⟨_, _, sumsTo_iff.2 rfl, rfl⟩
          · exact ⟨_, _, sumsTo_iff.2 rfl, rfl⟩
        exact ⟨y, by rintro _ _ _ ⟨⟩; exact hy⟩)
    exact ⟨zs, hl, fun b ch os hio => hz _ hio b ch os rfl⟩
  obtain ⟨zs, hl, hz⟩ := ex T.dims xs
  obtain ⟨zs', hl', hz'⟩ := ex T'.dims xs'
  refine ⟨zs, zs', C38_avg wf h1 he hs hw hw' h hso hi (by omega) hf hf' hl hz out,
    C38_avg wf' h1' he' (hs'.trans hs) hw hw' h hso hi (by omega) hf hf' hl' hz' out', fun b ch os hio => ?_⟩
  have hlen : ws.length = os.length := by have := hio.2.2.length; simpa using this.symm
  have e := hz b ch os hio
  have e' := hz' b ch os hio
  rw [hE.avg] at e e'
  refine avgOf_le hc hk0 hK (l := (List.range (prod (ws.map Win.k))).filterMap fun j => (winAt ws os (unlin (ws.map Win.k) j)).map fun cs => b :: ch :: cs)
    (u := elemAt T.dims xs) (u' := elemAt T'.dims xs') (fun p hp => ?_)
    (by simpa only [winElems, List.map_filterMap, Option.map_map, Function.comp_def] using e)
    (by simpa only [winElems, List.map_filterMap, Option.map_map, Function.comp_def] using e')
  simp only [List.mem_range, List.mem_filterMap, Option.map_eq_some_iff] at hp
  obtain ⟨j, hj, cs, hcs, rfl⟩ := hp
  have hin : InRange T.dims (b :: ch :: cs) := by
    rw [hs]; exact ⟨hio.1, hio.2.1, winAt_inRange hlen (by rw [unlin_length]; simp) hcs⟩
  exact ⟨elemAt_WT he rfl hin, elemAt_WT he' rfl (hs' ▸ hin), by rw [hs']; exact below_at he.len hle hin⟩

end

/-! ## Fused and separate operations must not be mixed -/

/-- A machine that fuses `z + a * b` for `z = 2^-30` only. -/
def mixed : FloatOps := { ieee with mac32 := fun z a b => if z = 0x30800000 then fused.mac32 z a b else ieee.mac32 z a b }

theorem mixed_machine : Machine mixed := ⟨rfl, fun z a b => by
  by_cases h : z = 0x30800000
  · exact .inr (if_pos h)
  · exact .inl (if_neg h), fun _ _ _ => .inl rfl⟩

/-- C78, why a machine must fuse always or never: on one that fuses for some operands only, 2^-30 * 1 + a * a with a = 1 + 2^-12 exceeds
2^-29 * 1 + a * a. -/
theorem C78_mixed : ∃ fp w w', Machine fp ∧ TermRises (.f32 0x30800000, .f32 0x3F800000) (.f32 0x31000000, .f32 0x3F800000) ∧
    TermRises (.f32 0x3F800800, .f32 0x3F800800) (.f32 0x3F800800, .f32 0x3F800800) ∧
    DotTo fp .f32 (.f32 0) [(.f32 0x30800000, .f32 0x3F800000), (.f32 0x3F800800, .f32 0x3F800800)] w ∧
    DotTo fp .f32 (.f32 0) [(.f32 0x31000000, .f32 0x3F800000), (.f32 0x3F800800, .f32 0x3F800800)] w' ∧ ¬ InOrder w w' := by
  refine ⟨mixed, .f32 0x3F801001, .f32 0x3F801000, mixed_machine, .inl ⟨⟨by decide, by decide, by decide +kernel⟩, rfl, 1, by decide +kernel, by decide⟩,
    .inl ⟨⟨by decide, by decide, by decide +kernel⟩, rfl, 1 + 1 / 4096, by decide +kernel, by decide +kernel⟩,
    ⟨.f32 0x30800000, congrArg Val.f32 (by decide +kernel), .f32 0x3F801001, congrArg Val.f32 (by decide +kernel), rfl⟩,
    ⟨.f32 0x31000000, congrArg Val.f32 (by decide +kernel), .f32 0x3F801000, congrArg Val.f32 (by decide +kernel), rfl⟩, ?_⟩
  intro h
  exact absurd (h (by decide) (by decide)).2.2 (by decide +kernel)

theorem ieee_uniform : Uniform ieee := ⟨ieee_machine, .inl rfl, .inl rfl⟩

theorem fused_uniform : Uniform fused := ⟨fused_machine, .inr rfl, .inr rfl⟩

/-! ## Examples -/

theorem below_nil : Below [] [] := ⟨rfl, fun i h => absurd h (by simp)⟩

theorem below_cons {x y : Val} (h : AtMost x y) (h' : Below xs ys) : Below (x :: xs) (y :: ys) :=
  ⟨by simp [h'.1], fun i h1 h2 => by
    cases i with
    | zero => exact h
    | succ i => exact h'.2 i (by simpa using h1) (by simpa using h2)⟩

/-- -1 and 0.1 as `float`. -/
def exO : List Val := [.f32 0xBF800000, .f32 0x3DCCCCCD]

/-- -1 and 0.3. -/
def exO' : List Val := [.f32 0xBF800000, .f32 0x3E99999A]

/-- 0.5 and 3. -/
def exW : List Val := [.f32 0x3F000000, .f32 0x40400000]

theorem exO_below : Below exO exO' :=
  below_cons ⟨by decide, by decide, by decide +kernel⟩ (below_cons ⟨by decide, by decide, by decide +kernel⟩ below_nil)

theorem exW_nonNeg : ∀ y ∈ exW, NonNeg y := by
  intro y hy
  simp only [exW, List.mem_cons, List.not_mem_nil, or_false] at hy
  rcases hy with rfl | rfl
  · exact ⟨1 / 2, by decide +kernel, by decide +kernel⟩
  · exact ⟨3, by decide +kernel, by decide +kernel⟩

example : ∃ ys ys', Delivers ieeeEnv (relu Mem.empty.footT.h .indet) (Mem.empty.addT (tvOf .f32 [2] exO)) .indet .f32 ⟨DEVICE_CPU, 0⟩ [2] ys ∧
    Delivers ieeeEnv (relu Mem.empty.footT.h .indet) (Mem.empty.addT (tvOf .f32 [2] exO')) .indet .f32 ⟨DEVICE_CPU, 0⟩ [2] ys' ∧ Below ys ys' :=
  C78_relu (T := tvOf .f32 [2] exO) (T' := tvOf .f32 [2] exO') (c := .f32) ieee_machine (Mem.addT_wf Mem.empty_wf _) (Mem.addT_wf Mem.empty_wf _)
    (tvOf_at _ (by simp) rfl ⟨by decide, by decide⟩) (tvOf_at _ (by simp) rfl ⟨by decide, by decide⟩) (tvOf_elems (by decide) rfl)
    (tvOf_elems (by decide) rfl) exO_below .indet .indet

/-- To `double`. -/
example : ∃ ys ys', Delivers ieeeEnv (cast Mem.empty.footT.h Code.f64.dtype .indet) (Mem.empty.addT (tvOf .f32 [2] exO)) .indet .f64 ⟨DEVICE_CPU, 0⟩ [2] ys ∧
    Delivers ieeeEnv (cast Mem.empty.footT.h Code.f64.dtype .indet) (Mem.empty.addT (tvOf .f32 [2] exO')) .indet .f64 ⟨DEVICE_CPU, 0⟩ [2] ys' ∧ Below ys ys' :=
  C78_cast (T := tvOf .f32 [2] exO) (T' := tvOf .f32 [2] exO') (c := .f32) (c' := .f64) ieee_machine (Mem.addT_wf Mem.empty_wf _) (Mem.addT_wf Mem.empty_wf _)
    (tvOf_at _ (by simp) rfl ⟨by decide, by decide⟩) (tvOf_at _ (by simp) rfl ⟨by decide, by decide⟩) (tvOf_elems (by decide) rfl)
    (tvOf_elems (by decide) rfl) exO_below (by decide) (.inl rfl) ⟨by decide, by decide⟩ ⟨by decide, by decide⟩ (fun _ _ => ⟨_, rfl⟩) (fun _ _ => ⟨_, rfl⟩)
    .indet .indet

/-- Of 0.5 and 3. -/
example : ∃ ys ys', Delivers ieeeEnv (sqrt Mem.empty.footT.h .indet) (Mem.empty.addT (tvOf .f32 [2] exW)) .indet .f32 ⟨DEVICE_CPU, 0⟩ [2] ys ∧
    Delivers ieeeEnv (sqrt Mem.empty.footT.h .indet) (Mem.empty.addT (tvOf .f32 [2] [.f32 0x3F800000, .f32 0x40400000])) .indet .f32 ⟨DEVICE_CPU, 0⟩ [2] ys' ∧
    Below ys ys' := by
  have pos : ∀ x, x ∈ exW ∨ x ∈ [Val.f32 0x3F800000, .f32 0x40400000] → ¬ Negative ieee x := by
    intro x hx
    simp only [exW, List.mem_cons, List.not_mem_nil, or_false] at hx
    rcases hx with (rfl | rfl) | (rfl | rfl) <;> simp only [Negative] <;> decide +kernel
  exact C78_sqrt (T := tvOf .f32 [2] exW) (T' := tvOf .f32 [2] [.f32 0x3F800000, .f32 0x40400000]) (c := .f32) ieee_machine (Mem.addT_wf Mem.empty_wf _)
    (Mem.addT_wf Mem.empty_wf _) (tvOf_at _ (by simp) rfl ⟨by decide, by decide⟩) (tvOf_at _ (by simp) rfl ⟨by decide, by decide⟩)
    (tvOf_elems (by decide) rfl) (tvOf_elems (by decide) rfl)
    (below_cons ⟨by decide, by decide, by decide +kernel⟩ (below_cons ⟨by decide, by decide, by decide +kernel⟩ below_nil))
    (fun x hx => pos x (.inl hx)) (fun x hx => pos x (.inr hx)) (fun x _ => ⟨_, _, rfl, rfl⟩) (fun x _ => ⟨_, _, rfl, rfl⟩) .indet .indet

example : ∃ ys ys', Delivers ieeeEnv (sigmoid Mem.empty.footT.h .indet) (Mem.empty.addT (tvOf .f32 [2] exO)) .indet .f32 ⟨DEVICE_CPU, 0⟩ [2] ys ∧
    Delivers ieeeEnv (sigmoid Mem.empty.footT.h .indet) (Mem.empty.addT (tvOf .f32 [2] exO')) .indet .f32 ⟨DEVICE_CPU, 0⟩ [2] ys' ∧ Below ys ys' :=
  C78_sigmoid (T := tvOf .f32 [2] exO) (T' := tvOf .f32 [2] exO') (c := .f32) ieee_machine (Mem.addT_wf Mem.empty_wf _) (Mem.addT_wf Mem.empty_wf _)
    (tvOf_at _ (by simp) rfl ⟨by decide, by decide⟩) (tvOf_at _ (by simp) rfl ⟨by decide, by decide⟩) (tvOf_elems (by decide) rfl)
    (tvOf_elems (by decide) rfl) exO_below C59_exp.1 C59_exp.2.1 (.inl rfl) .indet .indet

/-- Quotients by 0.5 and 3. -/
example : ∃ zs zs', DeliversMalloc ieeeEnv (binaryOp .div Mem.empty.footT.h (Mem.empty.addT (tvOf .f32 [2] exO)).footT.h .indet)
      ((Mem.empty.addT (tvOf .f32 [2] exO)).addT (tvOf .f32 [2] exW)) .indet .f32 ⟨DEVICE_CPU, 0⟩ [2] zs ∧
    DeliversMalloc ieeeEnv (binaryOp .div Mem.empty.footT.h (Mem.empty.addT (tvOf .f32 [2] exO')).footT.h .indet)
      ((Mem.empty.addT (tvOf .f32 [2] exO')).addT (tvOf .f32 [2] exW)) .indet .f32 ⟨DEVICE_CPU, 0⟩ [2] zs' ∧ Pointwise InOrder zs zs' :=
  C78_binary (T1 := tvOf .f32 [2] exO) (T1' := tvOf .f32 [2] exO') (T2 := tvOf .f32 [2] exW) (T2' := tvOf .f32 [2] exW) (c := .f32) (op := .div) ieee_machine (.inl rfl)
    (Mem.addT_wf (Mem.addT_wf Mem.empty_wf _) _) (Mem.addT_wf (Mem.addT_wf Mem.empty_wf _) _)
    (addT_old (Mem.addT_wf Mem.empty_wf _) (tvOf_at _ (by simp) rfl ⟨by decide, by decide⟩) _) (tvOf_elems (by decide) rfl)
    (tvOf_at _ (by simp) rfl ⟨by decide, by decide⟩) (tvOf_elems (by decide) rfl)
    (addT_old (Mem.addT_wf Mem.empty_wf _) (tvOf_at _ (by simp) rfl ⟨by decide, by decide⟩) _) (tvOf_elems (by decide) rfl)
    (tvOf_at _ (by simp) rfl ⟨by decide, by decide⟩) (tvOf_elems (by decide) rfl) rfl rfl rfl rfl rfl rfl rfl (by decide)
    (fun i h1 h2 h3 h4 => ⟨exO_below.2 i h1 h3, rfl, by
      obtain _ | _ | i := i
      · exact ⟨1 / 2, show (Val.f32 0x3F000000).rat = _ by decide +kernel, by decide +kernel⟩
      · exact ⟨3, show (Val.f32 0x40400000).rat = _ by decide +kernel, by decide +kernel⟩
      · exact absurd h2 (by simp [exW])⟩) .indet .indet

/-- The product with 0.5 and 3, on a machine that fuses. -/
example : ∃ w w', Delivers fusedEnv (matmul Mem.empty.footT.h (Mem.empty.addT (tvOf .f32 [2] exO)).footT.h .indet)
      ((Mem.empty.addT (tvOf .f32 [2] exO)).addT (tvOf .f32 [2] exW)) .indet .f32 ⟨DEVICE_CPU, 0⟩ [1] [w] ∧
    Delivers fusedEnv (matmul Mem.empty.footT.h (Mem.empty.addT (tvOf .f32 [2] exO')).footT.h .indet)
      ((Mem.empty.addT (tvOf .f32 [2] exO')).addT (tvOf .f32 [2] exW)) .indet .f32 ⟨DEVICE_CPU, 0⟩ [1] [w'] ∧ InOrder w w' :=
  C78_vector_vector (T1 := tvOf .f32 [2] exO) (T1' := tvOf .f32 [2] exO') (T2 := tvOf .f32 [2] exW) (T2' := tvOf .f32 [2] exW) (c := .f32) (nK := 2) fused_uniform (.inl rfl)
    (Mem.addT_wf (Mem.addT_wf Mem.empty_wf _) _) (Mem.addT_wf (Mem.addT_wf Mem.empty_wf _) _)
    (addT_old (Mem.addT_wf Mem.empty_wf _) (tvOf_at _ (by simp) rfl ⟨by decide, by decide⟩) _) (tvOf_elems (by decide) rfl)
    (tvOf_at _ (by simp) rfl ⟨by decide, by decide⟩) (tvOf_elems (by decide) rfl)
    (addT_old (Mem.addT_wf Mem.empty_wf _) (tvOf_at _ (by simp) rfl ⟨by decide, by decide⟩) _) (tvOf_elems (by decide) rfl)
    (tvOf_at _ (by simp) rfl ⟨by decide, by decide⟩) (tvOf_elems (by decide) rfl) rfl rfl rfl rfl rfl rfl (.inl ⟨exO_below, rfl, exW_nonNeg⟩) rfl rfl
    (by decide) .indet .indet

/-- The products are numbers (-0.2 and 0.4), so the order is not vacuous. -/
example : DotTo fused .f32 (.f32 0) [(.f32 0xBF800000, .f32 0x3F000000), (.f32 0x3DCCCCCD, .f32 0x40400000)] (.f32 0xBE4CCCCC) := by
  refine ⟨.f32 0xBF000000, ?_, .f32 0xBE4CCCCC, ?_, rfl⟩ <;> exact congrArg Val.f32 (by decide +kernel)

/-- Filter 0.5, 3. -/
example : ∃ zs zs' : List Val,
    Leaves ieeeEnv (conv (some .success) (some .success) Mem.empty.footT.h (Mem.empty.addT (tvOf .f32 [1, 1, 2] exO)).footT.h (dimsCells [1]) (dimsCells [0])
      (dimsCells [1]) 1 .indet) ((Mem.empty.addT (tvOf .f32 [1, 1, 2] exO)).addT (tvOf .f32 [1, 1, 2] exW)) .indet .success
      ⟨Code.f32.dtype, ⟨DEVICE_CPU, 0⟩, [1, 1, 1], encAll .f32 zs⟩ ∧
    Leaves ieeeEnv (conv (some .success) (some .success) Mem.empty.footT.h (Mem.empty.addT (tvOf .f32 [1, 1, 2] exO')).footT.h (dimsCells [1]) (dimsCells [0])
      (dimsCells [1]) 1 .indet) ((Mem.empty.addT (tvOf .f32 [1, 1, 2] exO')).addT (tvOf .f32 [1, 1, 2] exW)) .indet .success
      ⟨Code.f32.dtype, ⟨DEVICE_CPU, 0⟩, [1, 1, 1], encAll .f32 zs'⟩ ∧
    ∀ b oc os, InRange [1, 1, 1] (b :: oc :: os) → InOrder (elemAt [1, 1, 1] zs (b :: oc :: os)) (elemAt [1, 1, 1] zs' (b :: oc :: os)) :=
  C78_conv (T1 := tvOf .f32 [1, 1, 2] exO) (T1' := tvOf .f32 [1, 1, 2] exO') (T2 := tvOf .f32 [1, 1, 2] exW) (T2' := tvOf .f32 [1, 1, 2] exW)
    (ws := [⟨2, 2, 1, 0, 1⟩]) (B := 1) (O := 1) (C := 1) ieee_uniform
    (Mem.addT_wf (Mem.addT_wf Mem.empty_wf _) _) (Mem.addT_wf (Mem.addT_wf Mem.empty_wf _) _)
    (addT_old (Mem.addT_wf Mem.empty_wf _) (tvOf_at _ (by simp) rfl ⟨by decide, by decide⟩) _) (tvOf_at _ (by simp) rfl ⟨by decide, by decide⟩)
    (tvOf_elems (by decide) rfl) (tvOf_elems (by decide) rfl)
    (addT_old (Mem.addT_wf Mem.empty_wf _) (tvOf_at _ (by simp) rfl ⟨by decide, by decide⟩) _) (tvOf_at _ (by simp) rfl ⟨by decide, by decide⟩)
    (tvOf_elems (by decide) rfl) (tvOf_elems (by decide) rfl) rfl rfl rfl rfl (by
      intro w hw
      simp only [List.mem_singleton] at hw
      subst hw
      exact ⟨⟨by decide, by decide, by decide, by decide⟩, ⟨by decide, by decide, by decide, by decide, by decide⟩⟩)
    ⟨by decide, by decide⟩ (by omega) (.inl ⟨exO_below, rfl, exW_nonNeg⟩) .success .success 1 .indet .indet

example : ∃ zs zs' : List Val, Attempts ieeeEnv (pooling 10 Mem.empty.footT.h "max" (dimsCells [2]) (dimsCells [1]) (dimsCells [0]) (dimsCells [1]) .indet)
      (Mem.empty.addT (tvOf .f32 [1, 1, 2] exO)) ⟨Code.f32.dtype, ⟨DEVICE_CPU, 0⟩, [1, 1, 1], encAll .f32 zs⟩ ∧
    Attempts ieeeEnv (pooling 10 Mem.empty.footT.h "max" (dimsCells [2]) (dimsCells [1]) (dimsCells [0]) (dimsCells [1]) .indet)
      (Mem.empty.addT (tvOf .f32 [1, 1, 2] exO')) ⟨Code.f32.dtype, ⟨DEVICE_CPU, 0⟩, [1, 1, 1], encAll .f32 zs'⟩ ∧
    ∀ b ch os, InRange [1, 1, 1] (b :: ch :: os) → AtMost (elemAt [1, 1, 1] zs (b :: ch :: os)) (elemAt [1, 1, 1] zs' (b :: ch :: os)) :=
  C78_max_pooling (T := tvOf .f32 [1, 1, 2] exO) (T' := tvOf .f32 [1, 1, 2] exO') (c := .f32) (ws := [⟨2, 2, 1, 0, 1⟩]) (B := 1) (C := 1) (fuel := 10) ieee_machine
    (Mem.addT_wf Mem.empty_wf _) (Mem.addT_wf Mem.empty_wf _) (tvOf_at _ (by simp) rfl ⟨by decide, by decide⟩) (tvOf_elems (by decide) rfl)
    (tvOf_at _ (by simp) rfl ⟨by decide, by decide⟩) (tvOf_elems (by decide) rfl) rfl rfl (by simp) (by simp) (by
      intro w hw
      simp only [List.mem_singleton] at hw
      subst hw
      exact ⟨⟨by decide, by decide, by decide, by decide⟩, ⟨by decide, by decide, by decide⟩⟩)
    ⟨by decide, by decide⟩ (by decide) (by decide) (by decide) (by decide) exO_below (fun _ _ _ _ => ⟨_, _, scansTo_iff.2 rfl, rfl⟩)
    (fun _ _ _ _ => ⟨_, _, scansTo_iff.2 rfl, rfl⟩) .indet .indet

example : ∃ zs zs' : List Val, Attempts ieeeEnv (pooling 10 Mem.empty.footT.h "avg" (dimsCells [2]) (dimsCells [1]) (dimsCells [0]) (dimsCells [1]) .indet)
      (Mem.empty.addT (tvOf .f32 [1, 1, 2] exO)) ⟨Code.f32.dtype, ⟨DEVICE_CPU, 0⟩, [1, 1, 1], encAll .f32 zs⟩ ∧
    Attempts ieeeEnv (pooling 10 Mem.empty.footT.h "avg" (dimsCells [2]) (dimsCells [1]) (dimsCells [0]) (dimsCells [1]) .indet)
      (Mem.empty.addT (tvOf .f32 [1, 1, 2] exO')) ⟨Code.f32.dtype, ⟨DEVICE_CPU, 0⟩, [1, 1, 1], encAll .f32 zs'⟩ ∧
    ∀ b ch os, InRange [1, 1, 1] (b :: ch :: os) → InOrder (elemAt [1, 1, 1] zs (b :: ch :: os)) (elemAt [1, 1, 1] zs' (b :: ch :: os)) :=
  C78_avg_pooling (T := tvOf .f32 [1, 1, 2] exO) (T' := tvOf .f32 [1, 1, 2] exO') (c := .f32) (ws := [⟨2, 2, 1, 0, 1⟩]) (B := 1) (C := 1) (fuel := 10) ieee_machine
    (Mem.addT_wf Mem.empty_wf _) (Mem.addT_wf Mem.empty_wf _) (tvOf_at _ (by simp) rfl ⟨by decide, by decide⟩) (tvOf_elems (by decide) rfl)
    (tvOf_at _ (by simp) rfl ⟨by decide, by decide⟩) (tvOf_elems (by decide) rfl) rfl rfl (by simp) (by simp) (by
      intro w hw
      simp only [List.mem_singleton] at hw
      subst hw
      exact ⟨⟨by decide, by decide, by decide, by decide⟩, ⟨by decide, by decide, by decide⟩⟩)
    ⟨by decide, by decide⟩ (by decide) (by decide) (by decide) (by decide) exO_below (.inl rfl) .indet .indet

end Aitisa
