import Verif.Proof.IeeeVal
import Verif.Proof.IeeeMac
import Verif.Props.Math
import Verif.Props.Matmul
import Verif.Props.Dot
import Verif.Props.Conv
import Verif.Props.Pooling
import Verif.Props.Elementwise

/-!
# Property C56: exact results on whole numbers
-/

namespace Aitisa

variable {E : Env} {m m1 m2 : Mem} {R R1 R2 : Foot} {T T1 T2 : TV} {c c' : Code} {xs ys : List Val} {A B : List Nat → Int}
  {nM nK nN : Nat} {bs b1 b2 bd : List Nat} {ws : List Win} {fuel : Nat}

theorem inRange_split {a b : List Nat} : ∀ {x : List Nat}, InRange (a ++ b) x →
    InRange a (x.take a.length) ∧ InRange b (x.drop a.length) := by
  induction a with
  | nil => intro x h; exact ⟨trivial, h⟩
  | cons d a ih =>
    intro x h
    cases x with
    | nil => exact h.elim
    | cons i x => exact ⟨⟨h.1, (ih h.2).1⟩, (ih h.2).2⟩

/-- Choose the elements of an output by coordinates, the coordinates being in two groups. -/
theorem exists_elems2 {a b : List Nat} {P : List Nat → List Nat → Val → Prop} (h : ∀ p q, InRange a p → InRange b q → ∃ w, P p q w) :
    ∃ zs : List Val, zs.length = prod (a ++ b) ∧ ∀ p q, InRange a p → InRange b q → P p q (elemAt (a ++ b) zs (p ++ q)) := by
  have hk : ∀ k : Nat, ∃ w, k < prod (a ++ b) → P ((unlin (a ++ b) k).take a.length) ((unlin (a ++ b) k).drop a.length) w := by
    intro k
    by_cases hk : k < prod (a ++ b)
    · have := inRange_split (unlin_inRange hk)
      obtain ⟨w, hw⟩ := h _ _ this.1 this.2
      exact ⟨w, fun _ => hw⟩
    · exact ⟨.int 0, fun h => absurd h hk⟩
  refine ⟨(List.range (prod (a ++ b))).map fun k => Classical.choose (hk k), by simp, ?_⟩
  intro p q hp hq
  have hpq := inRange_append hp hq
  have hl := lin_lt hpq
  have := Classical.choose_spec (hk (lin (a ++ b) (p ++ q))) hl
  have e : elemAt (a ++ b) ((List.range (prod (a ++ b))).map fun k => Classical.choose (hk k)) (p ++ q) =
      Classical.choose (hk (lin (a ++ b) (p ++ q))) := by
    unfold elemAt
    simp [List.getD, hl]
  rw [e]
  generalize Classical.choose (hk (lin (a ++ b) (p ++ q))) = w at this
  rwa [unlin_lin hpq, List.take_left' hp.length, List.drop_left' hp.length] at this

/-- The sum of products of whole numbers at given coordinates. -/
theorem dot_numbers (hE : Machine E.fp) {K : Nat} {f g : Nat → List Nat} (he1 : Elems T1 c xs) (he2 : Elems T2 c ys) (n1 : Numbers T1.dims xs A)
    (n2 : Numbers T2.dims ys B) (hf : ∀ q, q < K → InRange T1.dims (f q)) (hg : ∀ q, q < K → InRange T2.dims (g q))
    (hw : SumsWithin c 0 ((List.range K).map fun q => (A (f q), B (g q)))) :
    ∃ w, DotTo E.fp c (zeroVal c) ((List.range K).map fun q => (elemAt T1.dims xs (f q), elemAt T2.dims ys (g q))) w ∧
      Stands w (total ((List.range K).map fun q => (A (f q), B (g q)))) := by
  have := dot_whole hE (l := (List.range K).map fun q => ((elemAt T1.dims xs (f q), elemAt T2.dims ys (g q)), (A (f q), B (g q))))
    (zeroVal_WT c) (zeroVal_stands c) (by
      intro p hp
      simp only [List.mem_map, List.mem_range] at hp
      obtain ⟨q, hq, rfl⟩ := hp
      exact ⟨elemAt_WT he1 rfl (hf q hq), elemAt_WT he2 rfl (hg q hq), n1 _ (hf q hq), n2 _ (hg q hq)⟩)
    (by simpa [List.map_map, Function.comp_def] using hw)
  simpa [List.map_map, Function.comp_def] using this

/-! ## C56 -/

/-- C56, the four operators: when the exact results are whole numbers in the range of the type, they are the results. -/
theorem C56_binary {op : BinOp} {Z : List Nat → Int} (hE : Machine E.fp) (wf : m.WF) (h1 : At m R1 T1) (he1 : Elems T1 c xs)
    (h2 : At m R2 T2) (he2 : Elems T2 c ys)
    (hd1 : T1.device.type = 0) (hd2 : T2.device.type = 0) (hd : T2.dims = T1.dims) (hi : prod T1.dims ≤ 2147483647)
    (n1 : Numbers T1.dims xs A) (n2 : Numbers T1.dims ys B)
    (hZ : ∀ cs, InRange T1.dims cs → WholeOp op (A cs) (B cs) (Z cs) ∧ Within c (Z cs)) (out : Ptr) :
    ∃ zs, DeliversMalloc E (binaryOp op R1.h R2.h out) m out c T1.device T1.dims zs ∧ Numbers T1.dims zs Z := by
  obtain ⟨zs, hl, hz⟩ := exists_elems (ds := T1.dims) (P := fun p w =>
      OpResult E.fp c op (elemAt T1.dims xs p) (elemAt T1.dims ys p) w ∧ Stands w (Z p)) (fun p hp => by
    on_machine hE
    exact op_exact (elemAt_WT he1 rfl hp) (elemAt_WT he2 hd hp) (n1 p hp) (n2 p hp) (hZ p hp).1 (hZ p hp).2)
  have l1 := he1.len
  have l2 := he2.len
  rw [hd] at l2
  refine ⟨zs, C26_binary wf h1 he1 h2 he2 hd1 hd2 hd hi (by omega) (fun i a b d => ?_) out, fun cs hc => ?_⟩
  · have hi' : i < prod T1.dims := by omega
    have := (hz (unlin T1.dims i) (unlin_inRange hi')).1
    simpa [elemAt, lin_unlin hi', List.getD, a, b, d] using this
  · exact (hz cs hc).2

/-- C56, conversion: whole numbers in the range of the target type keep their value, whatever the two types. -/
theorem C56_cast (hE : Machine E.fp) (wf : m.WF) (h : At m R T) (he : Elems T c xs) (hne : c ≠ c') (hs : ShapeOK T.dims c'.size)
    (n1 : Numbers T.dims xs A) (hA : ∀ cs, InRange T.dims cs → Within c' (A cs)) (out : Ptr) :
    ∃ ys, Delivers E (cast R.h c'.dtype out) m out c' T.device T.dims ys ∧ Numbers T.dims ys A := by
  have l1 := he.len
  have hx : ∀ i (hi : i < xs.length), ∃ y, Converts E.fp c' xs[i] y ∧ Stands y (A (unlin T.dims i)) := fun i hi => by
    have hi' : i < prod T.dims := by omega
    have hr := unlin_inRange hi'
    have := converts_exact (c' := c') (he.wt _ (List.getElem_mem hi)) (by
      have := n1 _ hr
      simpa [elemAt, lin_unlin hi', List.getD, hi] using this) (hA _ hr)
    on_machine hE; assumption
  obtain ⟨ys, hd, hl, hp⟩ := C11_cast (E := E) wf h he hne hs (fun x hx' => by
    obtain ⟨i, hi, rfl⟩ := List.getElem_of_mem hx'
    exact (hx i hi).imp fun _ h => h.1) out
  refine ⟨ys, hd, fun cs hc => ?_⟩
  have hlt := lin_lt hc
  have hi : lin T.dims cs < xs.length := by omega
  have hi' : lin T.dims cs < ys.length := by omega
  obtain ⟨y, hy, hst⟩ := hx _ hi
  have hcv := hp _ hi hi'
  rw [converts_iff] at hy hcv
  rw [hy] at hcv
  cases hcv
  rw [unlin_lin hc] at hst
  simpa [elemAt, List.getD, hi'] using hst

/-- C56, there and back: an integer tensor whose elements are in the range of another type survives conversion to that type and back. -/
theorem C56_round_trip {out out' g1 g2 : Ptr} (hE : Machine E.fp) (wf : m.WF) (h : At m R T) (he : Elems T c xs) (hne : c ≠ c')
    (hs : ShapeOK T.dims c'.size) (hx : ∀ x ∈ xs, ∃ n, x = .int n ∧ Within c' n)
    (r1 : cast R.h c'.dtype out E m = .ok (.success, g1) m1) (r2 : cast g1 c.dtype out' E m1 = .ok (.success, g2) m2) :
    ∃ R2, g2 = R2.h ∧ Produces m1 m2 R2 T := by
  have key : ∀ x ∈ xs, ∃ y, cCast E.fp c' x = .ok y ∧ cCast E.fp c y = .ok x := by
    intro x hx'
    obtain ⟨n, rfl, hn⟩ := hx x hx'
    have wt := he.wt _ hx'
    have hw : Within c n := by
      obtain ⟨lo, hi, hr, a, b⟩ := WT_range.1 wt
      cases c <;> first | (simp [intRange] at hr; done) | exact ⟨_, _, hr, a, b⟩
    obtain ⟨y, hy, hys⟩ := converts_exact (c' := c') wt (n := n) rfl hn
    have hyw := cCast_WT (converts_iff.1 hy)
    obtain ⟨z, hz, hzs⟩ := converts_exact (c' := c) hyw hys hw
    have hzw := cCast_WT (converts_iff.1 hz)
    have : z = .int n := by
      cases z with
      | int k => exact congrArg _ hzs
      | f32 b => cases c <;> simp [Val.WT] at hzw wt
      | f64 b => cases c <;> simp [Val.WT] at hzw wt
    subst this
    exact ⟨y, converts_iff.1 (by on_machine hE; exact hy), converts_iff.1 (by on_machine hE; exact hz)⟩
  obtain ⟨f, hf⟩ : ∃ f : Val → Val, ∀ x ∈ xs, cCast E.fp c' x = .ok (f x) ∧ cCast E.fp c (f x) = .ok x := by
    refine ⟨fun x => match cCast E.fp c' x with | .ok y => y | _ => x, fun x hx => ?_⟩
    obtain ⟨y, hy, hz⟩ := key x hx
    simp only [hy]
    exact ⟨trivial, hz⟩
  have e1 : xs.mapM (cCast E.fp c') = .ok (xs.map f) :=
    mapM_of_pointwise ⟨by simp, fun i h1 _ => by simpa using (hf _ (List.getElem_mem h1)).1⟩
  have e2 : (xs.map f).mapM (cCast E.fp c) = .ok xs :=
    mapM_of_pointwise ⟨by simp, fun i h1 h2 => by simpa using (hf _ (List.getElem_mem h2)).2⟩
  rcases cast_run wf h he hne hs e1 out with ⟨R1, m1', e, P⟩ | ⟨m1', e, _⟩
  · rw [e] at r1
    simp only [Res.ok.injEq, Prod.mk.injEq, true_and] at r1
    obtain ⟨rfl, rfl⟩ := r1
    have he1 : Elems ⟨c'.dtype, T.device, T.dims, encAll c' (xs.map f)⟩ c' (xs.map f) :=
      ⟨rfl, rfl, mapM_mem e1 fun x _ y hy => cCast_WT hy, by simpa using he.len⟩
    have hs1 := h.shape
    rw [he.dtype] at hs1
    rcases cast_run P.ext.wf P.tensor he1 (Ne.symm hne) hs1 e2 out' with ⟨R2, m2', e', P'⟩ | ⟨m2', e', _⟩
    · rw [e'] at r2
      simp only [Res.ok.injEq, Prod.mk.injEq, true_and] at r2
      obtain ⟨rfl, rfl⟩ := r2
      refine ⟨R2, rfl, ?_⟩
      have : (⟨c.dtype, T.device, T.dims, encAll c xs⟩ : TV) = T := by
        rw [← he.bytes, ← he.dtype]
      rw [← this]; exact P'
    · rw [e'] at r2; simp at r2
  · rw [e] at r1; simp at r1

/-- C56, a tensor filled with a whole number in the range of the type. -/
theorem C56_full (hE : Machine E.fp) (wf : m.WF) (dev : Device) (ds : List Nat) (hs : ShapeOK ds c.size) (hi : prod ds ≤ 2147483647)
    (value : BitVec 64) {n : Int} (hv : Stands (.f64 value) n) (hw : Within c n) (out : Ptr) :
    ∃ v, Stands v n ∧ Delivers E (full c.dtype dev (dimsCells ds) ds.length value out) m out c dev ds (List.replicate (prod ds) v) := by
  obtain ⟨v, hc, hst⟩ := converts_exact (c := .f64) (c' := c) (x := .f64 value) trivial hv hw
  exact ⟨v, hst, C10_full wf c dev ds hs hi value v (by on_machine hE; assumption) out⟩

/-- C56, relu. -/
theorem C56_relu (hE : Machine E.fp) (wf : m.WF) (h : At m R T) (he : Elems T c xs) (n1 : Numbers T.dims xs A) (out : Ptr) :
    ∃ ys, Delivers E (relu R.h out) m out c T.device T.dims ys ∧ Numbers T.dims ys (fun cs => max (A cs) 0) := by
  obtain ⟨ys, hd, hl, hp⟩ := C35_relu (E := E) wf h he out
  refine ⟨ys, hd, fun cs hc => ?_⟩
  have l1 := he.len
  have hlt := lin_lt hc
  have hi : lin T.dims cs < xs.length := by omega
  have hi' : lin T.dims cs < ys.length := by omega
  have hcl := hp _ hi hi'
  have hst := n1 cs hc
  simp only [elemAt, List.getD, List.getElem?_eq_getElem hi, List.getElem?_eq_getElem hi', Option.getD_some] at hst ⊢
  obtain ⟨x, hx⟩ : ∃ x, x = xs[lin T.dims cs] := ⟨_, rfl⟩
  obtain ⟨y, hy⟩ : ∃ y, y = ys[lin T.dims cs] := ⟨_, rfl⟩
  rw [← hx] at hst hcl
  rw [← hy] at hcl ⊢
  on_machine hE at hcl
  cases x with
  | int n => simp only [ClampedAtZero, Stands] at *; subst hst hcl; rfl
  | f32 b =>
    have h0 : (ieee.ofInt32 0).toNat = 0 := by simp [ieee, ofInt_zero]
    have hlt : ieee.lt32 (ieee.ofInt32 0) b = decide (0 < A cs) := by
      show b32.lt (ieee.ofInt32 0).toNat b.toNat = _
      rw [h0]
      exact lt_int b32_ok (by have := sign_pos b32_ok; omega) (bits32 b) (isInt_zero b32_ok) hst
    by_cases hpos : 0 < A cs
    · rw [hcl.1 (by rw [hlt]; simpa using hpos), show max (A cs) 0 = A cs by omega]; exact hst
    · rw [hcl.2 (by rw [hlt]; simpa using hpos), show max (A cs) 0 = 0 by omega]
      simp only [Stands, h0]; exact isInt_zero b32_ok
  | f64 b =>
    have h0 : (ieee.ofInt64 0).toNat = 0 := by simp [ieee, ofInt_zero]
    have hlt : ieee.lt64 (ieee.ofInt64 0) b = decide (0 < A cs) := by
      show b64.lt (ieee.ofInt64 0).toNat b.toNat = _
      rw [h0]
      exact lt_int b64_ok (by have := sign_pos b64_ok; omega) (bits64 b) (isInt_zero b64_ok) hst
    by_cases hpos : 0 < A cs
    · rw [hcl.1 (by rw [hlt]; simpa using hpos), show max (A cs) 0 = A cs by omega]; exact hst
    · rw [hcl.2 (by rw [hlt]; simpa using hpos), show max (A cs) 0 = 0 by omega]
      simp only [Stands, h0]; exact isInt_zero b64_ok

section
variable (hE : Machine E.fp) (wf : m.WF) (h1 : At m R1 T1) (he1 : Elems T1 c xs) (h2 : At m R2 T2) (he2 : Elems T2 c ys)
  (c1 : T1.device.type = DEVICE_CPU) (c2 : T2.device.type = DEVICE_CPU) (n1 : Numbers T1.dims xs A) (n2 : Numbers T2.dims ys B)
include hE wf h1 he1 h2 he2 c1 c2 n1 n2

/-- C56, vector times vector. -/
theorem C56_vector_vector (s1 : T1.dims = [nK]) (s2 : T2.dims = [nK]) (hK : nK ≤ 2147483647)
    (hw : SumsWithin c 0 ((List.range nK).map fun q => (A [q], B [q]))) (out : Ptr) :
    ∃ w, Delivers E (matmul R1.h R2.h out) m out c T1.device [1] [w] ∧ Stands w (total ((List.range nK).map fun q => (A [q], B [q]))) := by
  obtain ⟨w, hd, hst⟩ := dot_numbers hE (f := fun q => [q]) (g := fun q => [q]) he1 he2 n1 n2 (fun q hq => by rw [s1]; exact ⟨hq, trivial⟩)
    (fun q hq => by rw [s2]; exact ⟨hq, trivial⟩) hw
  exact ⟨w, C31_vector_vector wf h1 he1 h2 he2 c1 c2 (hE.zero c) s1 s2 hK (hd) out, hst⟩

/-- C56, matrix times vector. -/
theorem C56_matrix_vector (s1 : T1.dims = [nM, nK]) (s2 : T2.dims = [nK]) (hM : nM ≤ 2147483647) (hK : nK ≤ 2147483647)
    (hw : ∀ i, i < nM → SumsWithin c 0 ((List.range nK).map fun q => (A [i, q], B [q]))) (out : Ptr) :
    ∃ zs, Delivers E (matmul R1.h R2.h out) m out c T1.device [nM] zs ∧
      ∀ i, i < nM → Stands (elemAt [nM] zs [i]) (total ((List.range nK).map fun q => (A [i, q], B [q]))) := by
  obtain ⟨zs, hl, hz⟩ := exists_elems (ds := [nM]) (P := fun x w =>
      DotTo E.fp c (zeroVal c) ((List.range nK).map fun q => (elemAt T1.dims xs (x ++ [q]), elemAt T2.dims ys [q])) w ∧
      Stands w (total ((List.range nK).map fun q => (A (x ++ [q]), B [q])))) (fun x hx => by
    match x, hx with
    | [i], hx =>
      exact dot_numbers hE (f := fun q => [i] ++ [q]) (g := fun q => [q]) he1 he2 n1 n2 (fun q hq => by rw [s1]; exact ⟨hx.1, hq, trivial⟩)
        (fun q hq => by rw [s2]; exact ⟨hq, trivial⟩) (hw _ hx.1))
  exact ⟨zs, C31_matrix_vector wf h1 he1 h2 he2 c1 c2 (hE.zero c) s1 s2 hM hK (by simpa [prod] using hl)
    (fun i hi => by exact (hz [i] ⟨hi, trivial⟩).1) out, fun i hi => (hz [i] ⟨hi, trivial⟩).2⟩

/-- C56, vector times matrix. -/
theorem C56_vector_matrix (s1 : T1.dims = [nK]) (s2 : T2.dims = [nK, nN]) (hK : nK ≤ 2147483647) (hN : nN ≤ 2147483647)
    (hw : ∀ j, j < nN → SumsWithin c 0 ((List.range nK).map fun q => (A [q], B [q, j]))) (out : Ptr) :
    ∃ zs, Delivers E (matmul R1.h R2.h out) m out c T1.device [nN] zs ∧
      ∀ j, j < nN → Stands (elemAt [nN] zs [j]) (total ((List.range nK).map fun q => (A [q], B [q, j]))) := by
  obtain ⟨zs, hl, hz⟩ := exists_elems (ds := [nN]) (P := fun x w =>
      DotTo E.fp c (zeroVal c) ((List.range nK).map fun q => (elemAt T1.dims xs [q], elemAt T2.dims ys (q :: x))) w ∧
      Stands w (total ((List.range nK).map fun q => (A [q], B (q :: x))))) (fun x hx => by
    match x, hx with
    | [j], hx =>
      exact dot_numbers hE (f := fun q => [q]) (g := fun q => [q, j]) he1 he2 n1 n2 (fun q hq => by rw [s1]; exact ⟨hq, trivial⟩)
        (fun q hq => by rw [s2]; exact ⟨hq, hx.1, trivial⟩) (hw _ hx.1))
  exact ⟨zs, C31_vector_matrix wf h1 he1 h2 he2 c1 c2 (hE.zero c) s1 s2 hK hN (by simpa [prod] using hl)
    (fun i hi => by exact (hz [i] ⟨hi, trivial⟩).1) out, fun i hi => (hz [i] ⟨hi, trivial⟩).2⟩

/-- C56, matrix times matrix. -/
theorem C56_matrix_matrix (s1 : T1.dims = [nM, nK]) (s2 : T2.dims = [nK, nN]) (hs : ShapeOK [nM, nN] c.size)
    (hM : nM ≤ 2147483647) (hK : nK ≤ 2147483647) (hN : nN ≤ 2147483647) (hi : nM * nN ≤ 2147483647)
    (hw : ∀ i j, i < nM → j < nN → SumsWithin c 0 ((List.range nK).map fun q => (A [i, q], B [q, j]))) (out : Ptr) :
    ∃ zs, Delivers E (matmul R1.h R2.h out) m out c T1.device [nM, nN] zs ∧
      ∀ i j, i < nM → j < nN → Stands (elemAt [nM, nN] zs [i, j]) (total ((List.range nK).map fun q => (A [i, q], B [q, j]))) := by
  obtain ⟨zs, hl, hz⟩ := exists_elems2 (a := [nM]) (b := [nN]) (P := fun x y w =>
      DotTo E.fp c (zeroVal c) ((List.range nK).map fun q => (elemAt T1.dims xs (x ++ [q]), elemAt T2.dims ys (q :: y))) w ∧
      Stands w (total ((List.range nK).map fun q => (A (x ++ [q]), B (q :: y))))) (fun x y hx hy => by
    match x, hx, y, hy with
    | [i], hx, [j], hy =>
      exact dot_numbers hE (f := fun q => [i] ++ [q]) (g := fun q => [q, j]) he1 he2 n1 n2
        (fun q hq => by rw [s1]; exact ⟨hx.1, hq, trivial⟩) (fun q hq => by rw [s2]; exact ⟨hq, hy.1, trivial⟩) (hw _ _ hx.1 hy.1))
  exact ⟨zs, C31_matrix_matrix wf h1 he1 h2 he2 c1 c2 (hE.zero c) s1 s2 hs hM hK hN hi (by simpa [prod] using hl)
    (fun i j hi hj => by exact (hz [i] [j] ⟨hi, trivial⟩ ⟨hj, trivial⟩).1) out, fun i j hi hj => (hz [i] [j] ⟨hi, trivial⟩ ⟨hj, trivial⟩).2⟩

/-- C56, tensor times vector. -/
theorem C56_tensor_vector (s1 : T1.dims = bs ++ [nM, nK]) (hb : bs ≠ []) (s2 : T2.dims = [nK]) (hs : ShapeOK (bs ++ [nM]) c.size)
    (hM : nM ≤ 2147483647) (hK : nK ≤ 2147483647) (hnb : prod bs ≤ 2147483647) (hi : prod (bs ++ [nM]) ≤ 2147483647)
    (hw : ∀ cs i, InRange bs cs → i < nM → SumsWithin c 0 ((List.range nK).map fun q => (A (cs ++ [i, q]), B [q]))) (out : Ptr) :
    ∃ zs, DeliversCareless E (matmul R1.h R2.h out) m out c T1.device (bs ++ [nM]) zs ∧
      ∀ cs i, InRange bs cs → i < nM → Stands (elemAt (bs ++ [nM]) zs (cs ++ [i])) (total ((List.range nK).map fun q => (A (cs ++ [i, q]), B [q]))) := by
  obtain ⟨zs, hl, hz⟩ := exists_elems2 (a := bs) (b := [nM]) (P := fun x y w =>
      DotTo E.fp c (zeroVal c) ((List.range nK).map fun q => (elemAt T1.dims xs (x ++ (y ++ [q])), elemAt T2.dims ys [q])) w ∧
      Stands w (total ((List.range nK).map fun q => (A (x ++ (y ++ [q])), B [q])))) (fun x y hx hy => by
    match y, hy with
    | [i], hy =>
      exact dot_numbers hE (f := fun q => x ++ ([i] ++ [q])) (g := fun q => [q]) he1 he2 n1 n2
        (fun q hq => by rw [s1]; exact inRange_append hx ⟨hy.1, hq, trivial⟩) (fun q hq => by rw [s2]; exact ⟨hq, trivial⟩) (hw _ _ hx hy.1))
  exact ⟨zs, C31_tensor_vector wf h1 he1 h2 he2 c1 c2 (hE.zero c) s1 hb s2 hs hM hK hnb hi hl
    (fun cs i hc hi => by exact (hz cs [i] hc ⟨hi, trivial⟩).1) out, fun cs i hc hi => (hz cs [i] hc ⟨hi, trivial⟩).2⟩

/-- C56, vector times tensor. -/
theorem C56_vector_tensor (s1 : T1.dims = [nK]) (s2 : T2.dims = bs ++ [nK, nN]) (hb : bs ≠ []) (hs : ShapeOK (bs ++ [nN]) c.size)
    (hK : nK ≤ 2147483647) (hN : nN ≤ 2147483647) (hnb : prod bs ≤ 2147483647) (hi : prod (bs ++ [nN]) ≤ 2147483647)
    (hw : ∀ cs j, InRange bs cs → j < nN → SumsWithin c 0 ((List.range nK).map fun q => (A [q], B (cs ++ [q, j])))) (out : Ptr) :
    ∃ zs, DeliversCareless E (matmul R1.h R2.h out) m out c T1.device (bs ++ [nN]) zs ∧
      ∀ cs j, InRange bs cs → j < nN → Stands (elemAt (bs ++ [nN]) zs (cs ++ [j])) (total ((List.range nK).map fun q => (A [q], B (cs ++ [q, j])))) := by
  obtain ⟨zs, hl, hz⟩ := exists_elems2 (a := bs) (b := [nN]) (P := fun x y w =>
      DotTo E.fp c (zeroVal c) ((List.range nK).map fun q => (elemAt T1.dims xs [q], elemAt T2.dims ys (x ++ (q :: y)))) w ∧
      Stands w (total ((List.range nK).map fun q => (A [q], B (x ++ (q :: y)))))) (fun x y hx hy => by
    match y, hy with
    | [j], hy =>
      exact dot_numbers hE (f := fun q => [q]) (g := fun q => x ++ [q, j]) he1 he2 n1 n2
        (fun q hq => by rw [s1]; exact ⟨hq, trivial⟩) (fun q hq => by rw [s2]; exact inRange_append hx ⟨hq, hy.1, trivial⟩) (hw _ _ hx hy.1))
  exact ⟨zs, C31_vector_tensor wf h1 he1 h2 he2 c1 c2 (hE.zero c) s1 s2 hb hs hK hN hnb hi hl
    (fun cs i hc hi => by exact (hz cs [i] hc ⟨hi, trivial⟩).1) out, fun cs i hc hi => (hz cs [i] hc ⟨hi, trivial⟩).2⟩

/-- C56, tensor times tensor, with broadcasting of the batch dims. -/
theorem C56_tensor_tensor (s1 : T1.dims = b1 ++ [nM, nK]) (s2 : T2.dims = b2 ++ [nK, nN]) (hb : b1 ≠ [] ∨ b2 ≠ [])
    (hp1 : ∀ d ∈ b1, 0 < d) (hp2 : ∀ d ∈ b2, 0 < d) (hbc : Broadcasts b1 b2 bd) (hs : ShapeOK (bd ++ [nM, nN]) c.size)
    (hM : nM ≤ 2147483647) (hK : nK ≤ 2147483647) (hN : nN ≤ 2147483647) (hnb : prod bd ≤ 2147483647)
    (hi : prod (bd ++ [nM, nN]) ≤ 2147483647)
    (hw : ∀ cs i j, InRange bd cs → i < nM → j < nN →
      SumsWithin c 0 ((List.range nK).map fun q => (A (under b1 cs ++ [i, q]), B (under b2 cs ++ [q, j])))) (out : Ptr) :
    ∃ zs, DeliversCareless E (matmul R1.h R2.h out) m out c T1.device (bd ++ [nM, nN]) zs ∧
      ∀ cs i j, InRange bd cs → i < nM → j < nN → Stands (elemAt (bd ++ [nM, nN]) zs (cs ++ [i, j]))
        (total ((List.range nK).map fun q => (A (under b1 cs ++ [i, q]), B (under b2 cs ++ [q, j])))) := by
  have f1 := hbc.fits hp1
  have f2 := hbc.symm.fits hp2
  obtain ⟨zs, hl, hz⟩ := exists_elems2 (a := bd) (b := [nM, nN]) (P := fun x y w =>
      DotTo E.fp c (zeroVal c) ((List.range nK).map fun q =>
        (elemAt T1.dims xs (under b1 x ++ (y.take 1 ++ [q])), elemAt T2.dims ys (under b2 x ++ (q :: y.drop 1)))) w ∧
      Stands w (total ((List.range nK).map fun q => (A (under b1 x ++ (y.take 1 ++ [q])), B (under b2 x ++ (q :: y.drop 1)))))) (fun x y hx hy => by
    match y, hy with
    | [i, j], hy =>
      exact dot_numbers hE (f := fun q => under b1 x ++ [i, q]) (g := fun q => under b2 x ++ [q, j]) he1 he2 n1 n2
        (fun q hq => by rw [s1]; exact inRange_append (under_inRange f1 hx) ⟨hy.1, hq, trivial⟩)
        (fun q hq => by rw [s2]; exact inRange_append (under_inRange f2 hx) ⟨hq, hy.2.1, trivial⟩) (hw _ _ _ hx hy.1 hy.2.1))
  exact ⟨zs, C31_tensor_tensor wf h1 he1 h2 he2 c1 c2 (hE.zero c) s1 s2 hb hp1 hp2 hbc hs hM hK hN hnb hi hl
    (fun cs i j hc hi hj => by exact (hz cs [i, j] hc ⟨hi, hj, trivial⟩).1) out, fun cs i j hc hi hj => (hz cs [i, j] hc ⟨hi, hj, trivial⟩).2⟩

/-- C56, `dot` of two vectors. -/
theorem C56_dot_vectors (s1 : T1.dims = [nK]) (s2 : T2.dims = [nK]) (hK : nK ≤ 2147483647)
    (hw : SumsWithin c 0 ((List.range nK).map fun q => (A [q], B [q]))) (out : Ptr) :
    ∃ w, Delivers E (dot R1.h R2.h out) m out c T1.device [1] [w] ∧ Stands w (total ((List.range nK).map fun q => (A [q], B [q]))) := by
  obtain ⟨w, hd, hst⟩ := dot_numbers hE (f := fun q => [q]) (g := fun q => [q]) he1 he2 n1 n2 (fun q hq => by rw [s1]; exact ⟨hq, trivial⟩)
    (fun q hq => by rw [s2]; exact ⟨hq, trivial⟩) hw
  exact ⟨w, C34_vector_vector wf h1 he1 h2 he2 c1 c2 (hE.zero c) (hE.zero' c) s1 s2 hK
    (hd) out, hst⟩

/-- C56, `dot` of a tensor and a vector. -/
theorem C56_dot_tensor_vector (s1 : T1.dims = bs ++ [nK]) (hb : bs ≠ []) (s2 : T2.dims = [nK]) (hK : nK ≤ 2147483647)
    (hn : prod bs * c.size ≤ 2147483647) (h0 : 0 < prod bs → 0 < nK)
    (hw : ∀ cs, InRange bs cs → SumsWithin c 0 ((List.range nK).map fun q => (A (cs ++ [q]), B [q]))) (out : Ptr) :
    ∃ zs, Attempts E (dot R1.h R2.h out) m ⟨c.dtype, T1.device, bs, encAll c zs⟩ ∧
      Numbers bs zs fun cs => total ((List.range nK).map fun q => (A (cs ++ [q]), B [q])) := by
  obtain ⟨zs, hl, hz⟩ := exists_elems (ds := bs) (P := fun x w =>
      DotTo E.fp c (zeroVal c) ((List.range nK).map fun q => (elemAt T1.dims xs (x ++ [q]), elemAt T2.dims ys [q])) w ∧
      Stands w (total ((List.range nK).map fun q => (A (x ++ [q]), B [q])))) (fun x hx =>
    dot_numbers hE (f := fun q => x ++ [q]) (g := fun q => [q]) he1 he2 n1 n2
        (fun q hq => by rw [s1]; exact inRange_append hx ⟨hq, trivial⟩) (fun q hq => by rw [s2]; exact ⟨hq, trivial⟩) (hw _ hx))
  exact ⟨zs, C34_tensor_vector_partial wf h1 he1 h2 he2 c1 c2 (hE.zero c) (hE.zero' c) s1 hb s2 hK hn h0 hl
    (fun cs hc => by exact (hz cs hc).1) out, fun cs hc => (hz cs hc).2⟩

/-- C56, `dot` of two tensors of rank at least 3. -/
theorem C56_dot_tensors {l : Nat} (s1 : T1.dims = b1 ++ [nK]) (s2 : T2.dims = b2 ++ [nK, l])
    (hb1 : 2 ≤ b1.length) (hb2 : b2 ≠ []) (h0 : 0 < nK) (hK : nK ≤ 2147483647) (hn1 : prod b1 ≤ 2147483647) (hn2 : prod b2 * l ≤ 2147483647)
    (hs : ShapeOK (b1 ++ b2 ++ [l]) c.size)
    (hw : ∀ cs ds j, InRange b1 cs → InRange b2 ds → j < l →
      SumsWithin c 0 ((List.range nK).map fun q => (A (cs ++ [q]), B (ds ++ [q, j])))) (out : Ptr) :
    ∃ zs, Attempts E (dot R1.h R2.h out) m ⟨c.dtype, T1.device, b1 ++ b2 ++ [l], encAll c zs⟩ ∧
      ∀ cs ds j, InRange b1 cs → InRange b2 ds → j < l → Stands (elemAt (b1 ++ b2 ++ [l]) zs (cs ++ ds ++ [j]))
        (total ((List.range nK).map fun q => (A (cs ++ [q]), B (ds ++ [q, j])))) := by
  obtain ⟨zs, hl, hz⟩ := exists_elems2 (a := b1 ++ b2) (b := [l]) (P := fun x y w =>
      DotTo E.fp c (zeroVal c) ((List.range nK).map fun q =>
        (elemAt T1.dims xs (x.take b1.length ++ [q]), elemAt T2.dims ys (x.drop b1.length ++ (q :: y)))) w ∧
      Stands w (total ((List.range nK).map fun q => (A (x.take b1.length ++ [q]), B (x.drop b1.length ++ (q :: y)))))) (fun x y hx hy => by
    obtain ⟨hx1, hx2⟩ := inRange_split hx
    match y, hy with
    | [j], hy =>
      exact dot_numbers hE (f := fun q => x.take b1.length ++ [q]) (g := fun q => x.drop b1.length ++ [q, j]) he1 he2 n1 n2
        (fun q hq => by rw [s1]; exact inRange_append hx1 ⟨hq, trivial⟩)
        (fun q hq => by rw [s2]; exact inRange_append hx2 ⟨hq, hy.1, trivial⟩) (hw _ _ _ hx1 hx2 hy.1))
  have hz' : ∀ cs ds j, InRange b1 cs → InRange b2 ds → j < l →
      DotTo E.fp c (zeroVal c) ((List.range nK).map fun q => (elemAt T1.dims xs (cs ++ [q]), elemAt T2.dims ys (ds ++ [q, j])))
        (elemAt (b1 ++ b2 ++ [l]) zs (cs ++ ds ++ [j])) ∧
      Stands (elemAt (b1 ++ b2 ++ [l]) zs (cs ++ ds ++ [j])) (total ((List.range nK).map fun q => (A (cs ++ [q]), B (ds ++ [q, j])))) := by
    intro cs ds j hc hd hj
    have := hz (cs ++ ds) [j] (inRange_append hc hd) ⟨hj, trivial⟩
    rwa [List.take_left' hc.length, List.drop_left' hc.length] at this
  exact ⟨zs, C34_tensor_tensor_partial wf h1 he1 h2 he2 c1 c2 (hE.zero c) (hE.zero' c) s1 s2 hb1 hb2 h0 hK hn1
    hn2 hs hl (fun cs ds j hc hd hj => by exact (hz' cs ds j hc hd hj).1) out, fun cs ds j hc hd hj => (hz' cs ds j hc hd hj).2⟩

/-- C56, `dot` of a scalar and a tensor. -/
theorem C56_dot_scalar_left (s1 : T1.dims = []) (hi : prod T2.dims ≤ 2147483647) (ha : Within .f64 (A []) ∧ Within c (A []))
    (hw : ∀ cs, InRange T2.dims cs → Within c (A [] * B cs)) (out : Ptr) :
    ∃ zs, DeliversMalloc E (dot R1.h R2.h out) m out c T1.device T2.dims zs ∧ Numbers T2.dims zs fun cs => A [] * B cs := by
  have l1 := he1.len
  have l2 := he2.len
  rw [s1] at l1 n1
  obtain ⟨x, rfl⟩ : ∃ x, xs = [x] := by
    match xs, l1 with
    | [x], _ => exact ⟨x, rfl⟩
  have hx := he1.wt x (by simp)
  have hxs : Stands x (A []) := n1 [] trivial
  obtain ⟨v, hv, hvs⟩ := through_exact hx hxs ha.1 ha.2
  have hvw : v.WT c := by
    obtain ⟨d, -, hv⟩ := hv
    exact cCast_WT (converts_iff.1 hv)
  obtain ⟨zs, hl, hz⟩ := exists_elems (ds := T2.dims) (P := fun p w =>
      OpResult E.fp c .mul v (elemAt T2.dims ys p) w ∧ Stands w (A [] * B p)) (fun p hp => by
    on_machine hE
    exact op_exact hvw (elemAt_WT he2 rfl hp) hvs (n2 p hp) rfl (hw p hp))
  refine ⟨zs, C34_scalar_left_partial wf h1 he1 h2 he2 c1 c2 rfl s1 (by on_machine hE; exact hv) hi (by omega) (fun i a b => ?_) out,
    fun cs hc => (hz cs hc).2⟩
  have hi' : i < prod T2.dims := by omega
  have := (hz (unlin T2.dims i) (unlin_inRange hi')).1
  simpa [elemAt, lin_unlin hi', List.getD, a, b] using this

/-- C56, `dot` of a tensor and a scalar. -/
theorem C56_dot_scalar_right (s1 : T1.dims ≠ []) (s2 : T2.dims = []) (hi : prod T1.dims ≤ 2147483647) (hb : Within .f64 (B []) ∧ Within c (B []))
    (hw : ∀ cs, InRange T1.dims cs → Within c (B [] * A cs)) (out : Ptr) :
    ∃ zs, DeliversMalloc E (dot R1.h R2.h out) m out c T1.device T1.dims zs ∧ Numbers T1.dims zs fun cs => B [] * A cs := by
  have l1 := he1.len
  have l2 := he2.len
  rw [s2] at l2 n2
  obtain ⟨x, rfl⟩ : ∃ x, ys = [x] := by
    match ys, l2 with
    | [x], _ => exact ⟨x, rfl⟩
  have hx := he2.wt x (by simp)
  have hxs : Stands x (B []) := n2 [] trivial
  obtain ⟨v, hv, hvs⟩ := through_exact hx hxs hb.1 hb.2
  have hvw : v.WT c := by
    obtain ⟨d, -, hv⟩ := hv
    exact cCast_WT (converts_iff.1 hv)
  obtain ⟨zs, hl, hz⟩ := exists_elems (ds := T1.dims) (P := fun p w =>
      OpResult E.fp c .mul v (elemAt T1.dims xs p) w ∧ Stands w (B [] * A p)) (fun p hp => by
    on_machine hE
    exact op_exact hvw (elemAt_WT he1 rfl hp) hvs (n1 p hp) rfl (hw p hp))
  refine ⟨zs, C34_scalar_right_partial wf h1 he1 h2 he2 c1 c2 rfl s1 s2 (by on_machine hE; exact hv) hi (by omega) (fun i a b => ?_) out,
    fun cs hc => (hz cs hc).2⟩
  have hi' : i < prod T1.dims := by omega
  have := (hz (unlin T1.dims i) (unlin_inRange hi')).1
  simpa [elemAt, lin_unlin hi', List.getD, a, b] using this

end

/-- C56, convolution: the products and partial sums being below 2^24, every output element is the exact sum. -/
theorem C56_conv {B' C O : Nat} (hE : Machine E.fp) (wf : m.WF) (h1 : At m R1 T1) (h2 : At m R2 T2) (e1 : Elems T1 .f32 xs) (e2 : Elems T2 .f32 ys)
    (s1 : T1.dims = B' :: C :: ws.map Win.x) (s2 : T2.dims = O :: C :: ws.map Win.k) (h : ∀ w ∈ ws, w.Fits ∧ w.Wide)
    (hso : ShapeOK (B' :: O :: ws.map Win.out) 4) (hC : 0 < C) (n1 : Numbers T1.dims xs A) (n2 : Numbers T2.dims ys B)
    (hw : ∀ b oc os, InRange (B' :: O :: ws.map Win.out) (b :: oc :: os) → SumsWithin .f32 0 (convNums A B ws C b oc os))
    (st st' : Status) (groups : Int) (out : Ptr) :
    ∃ zs : List Val, zs.length = prod (B' :: O :: ws.map Win.out) ∧
      (∀ b oc os, InRange (B' :: O :: ws.map Win.out) (b :: oc :: os) →
        Stands (elemAt (B' :: O :: ws.map Win.out) zs (b :: oc :: os)) (total (convNums A B ws C b oc os))) ∧
      Leaves E (conv (some st) (some st') R1.h R2.h (dimsCells (ws.map Win.s)) (dimsCells (ws.map Win.p)) (dimsCells (ws.map Win.d)) groups out) m out
        (if st = .success then st' else st) ⟨Code.f32.dtype, T1.device, B' :: O :: ws.map Win.out, encAll .f32 zs⟩ := by
  obtain ⟨zs, hl, hz, hr⟩ := C40_conv (E := E) wf h1 h2 e1 e2 s1 s2 h hso hC st st' groups out
  refine ⟨zs, hl, fun b oc os hio => ?_, hr⟩
  have hy := hz b oc os hio
  have hlen : ws.length = os.length := by have := hio.2.2.length; simpa using this.symm
  have hd := dot_whole hE (c := .f32) (l := (List.range C).flatMap fun ic => (List.range (prod (ws.map Win.k))).filterMap fun j =>
      (winAt ws os (unlin (ws.map Win.k) j)).map fun cs => ((elemAt T1.dims xs (b :: ic :: cs), elemAt T2.dims ys (oc :: ic :: unlin (ws.map Win.k) j)),
        (A (b :: ic :: cs), B (oc :: ic :: unlin (ws.map Win.k) j)))) (zeroVal_WT .f32) (zeroVal_stands .f32) (by
    intro p hp
    simp only [List.mem_flatMap, List.mem_range, List.mem_filterMap, Option.map_eq_some_iff] at hp
    obtain ⟨ic, hic, j, hj, cs, hw, rfl⟩ := hp
    have hq := unlin_inRange hj
    have r1 : InRange T1.dims (b :: ic :: cs) := by rw [s1]; exact ⟨hio.1, hic, winAt_inRange hlen (by rw [unlin_length]; simp) hw⟩
    have r2 : InRange T2.dims (oc :: ic :: unlin (ws.map Win.k) j) := by rw [s2]; exact ⟨hio.2.1, hic, hq⟩
    exact ⟨elemAt_WT e1 rfl r1, elemAt_WT e2 rfl r2, n1 _ r1, n2 _ r2⟩)
    (by simpa [convNums, List.map_flatMap, List.map_filterMap, Option.map_map, Function.comp_def] using hw b oc os hio)
  simp only [List.map_flatMap, List.map_filterMap, Option.map_map, Function.comp_def, Int.zero_add] at hd
  obtain ⟨w, hw1, hw2⟩ := hd
  have : elemAt (B' :: O :: ws.map Win.out) zs (b :: oc :: os) = w := by
    exact C40_unique hy ⟨_, hE.zero .f32, hw1⟩
  rw [this]
  exact hw2

/-- C56, max pooling: the exact maximum of the window and 0 (where the scan starts, see C39). -/
theorem C56_max_pooling {B' C : Nat} (hE : Machine E.fp) (wf : m.WF) (h1 : At m R T) (he : Elems T c xs) (hs : T.dims = B' :: C :: ws.map Win.x) (hw : 1 ≤ ws.length)
    (hw' : ws.length ≤ 3) (h : ∀ w ∈ ws, w.Fits ∧ w.Small) (hso : ShapeOK (B' :: C :: ws.map Win.out) c.size)
    (hi : prod (ws.map Win.out) ≤ 2147483647) (hK : prod (ws.map Win.k) ≤ 9223372036854775807)
    (hf : prod (ws.map Win.k) ≤ fuel) (hf' : prod (ws.map Win.out) ≤ fuel) (n1 : Numbers T.dims xs A)
    (hA : ∀ cs, InRange T.dims cs → Within .f64 (A cs) ∧ Within c (A cs)) (out : Ptr) :
    ∃ zs : List Val, Attempts E (pooling fuel R.h "max" (dimsCells (ws.map Win.k)) (dimsCells (ws.map Win.s)) (dimsCells (ws.map Win.p))
      (dimsCells (ws.map Win.d)) out) m ⟨c.dtype, T.device, B' :: C :: ws.map Win.out, encAll c zs⟩ ∧
      ∀ b ch os, InRange (B' :: C :: ws.map Win.out) (b :: ch :: os) →
        Stands (elemAt (B' :: C :: ws.map Win.out) zs (b :: ch :: os)) ((winNums A ws b ch os).foldl max 0) := by
  have key : ∀ x, InRange (B' :: C :: ws.map Win.out) x → ∃ w, ∀ b ch os, x = b :: ch :: os →
      ScanOf E.fp c (winElems T.dims xs ws b ch os) w ∧ Stands w ((winNums A ws b ch os).foldl max 0) := by
    intro x hx
    match x, hx with
    | b :: ch :: os, hio =>
      have hlen : ws.length = os.length := by have := hio.2.2.length; simpa using this.symm
      have hr : ∀ j cs, j < prod (ws.map Win.k) → winAt ws os (unlin (ws.map Win.k) j) = some cs → InRange T.dims (b :: ch :: cs) := by
        intro j cs hj hcs
        rw [hs]; exact ⟨hio.1, hio.2.1, winAt_inRange hlen (by rw [unlin_length]; simp) hcs⟩
      have hsc := scan_exact (c := c) (t := 0) (s := 0) (l := (List.range (prod (ws.map Win.k))).filterMap fun j =>
        (winAt ws os (unlin (ws.map Win.k) j)).map fun cs => (elemAt T.dims xs (b :: ch :: cs), A (b :: ch :: cs))) (by simpa using isInt_zero b64_ok) (by
        intro p hp
        simp only [List.mem_range, List.mem_filterMap, Option.map_eq_some_iff] at hp
        obtain ⟨j, hj, cs, hcs, rfl⟩ := hp
        have := hr j cs hj hcs
        exact ⟨elemAt_WT he rfl this, n1 _ this, (hA _ this).1⟩)
      simp only [List.map_filterMap, Option.map_map, Function.comp_def] at hsc
      obtain ⟨r, hr1, hr2⟩ := hsc
      have hin : Within c ((winNums A ws b ch os).foldl max 0) := by
        have : ∀ (l : List Int) (s : Int), Within c s → (∀ a ∈ l, Within c a) → Within c (l.foldl max s) := by
          intro l
          induction l with
          | nil => intro s h _; exact h
          | cons a l ih =>
            intro s h1 h2
            refine ih _ ?_ (fun a' ha' => h2 a' (by simp [ha']))
            rcases Int.le_total s a with hsa | hsa
            · rw [show max s a = a by omega]; exact h2 a (by simp)
            · rw [show max s a = s by omega]; exact h1
        refine this _ _ (within_zero c) fun a ha => ?_
        simp only [winNums, List.mem_range, List.mem_filterMap, Option.map_eq_some_iff] at ha
        obtain ⟨j, hj, cs, hcs, rfl⟩ := ha
        exact (hA _ (hr j cs hj hcs)).2
      obtain ⟨w, hw1, hw2⟩ := converts_exact (c := .f64) (c' := c) (x := .f64 r) trivial hr2 hin
      refine ⟨w, ?_⟩
      rintro _ _ _ ⟨⟩
      refine ⟨?_, hw2⟩
      on_machine hE
      exact ⟨r, by rw [show ieee.ofInt64 0 = 0 by simp [ieee, ofInt_zero]]; exact hr1, hw1⟩
  obtain ⟨zs, hl, hz⟩ := exists_elems key
  exact ⟨zs, C38_max wf h1 he hs hw hw' h hso hi hK hf hf' hl (fun b ch os hio => (hz _ hio b ch os rfl).1) out,
    fun b ch os hio => (hz _ hio b ch os rfl).2⟩

/-- C56, average pooling: when the sum of the window is a multiple of the window size (padding counted), the exact average. -/
theorem C56_avg_pooling {B' C : Nat} {Z : List Nat → Int} (hE : Machine E.fp) (wf : m.WF) (h1 : At m R T) (he : Elems T c xs)
    (hs : T.dims = B' :: C :: ws.map Win.x) (hw : 1 ≤ ws.length)
    (hw' : ws.length ≤ 3) (h : ∀ w ∈ ws, w.Fits ∧ w.Small) (hso : ShapeOK (B' :: C :: ws.map Win.out) c.size)
    (hi : prod (ws.map Win.out) ≤ 2147483647) (hK : prod (ws.map Win.k) < 9007199254740992)
    (hf : prod (ws.map Win.k) ≤ fuel) (hf' : prod (ws.map Win.out) ≤ fuel) (n1 : Numbers T.dims xs A)
    (hA : ∀ cs, InRange T.dims cs → Within .f64 (A cs))
    (hsum : ∀ b ch os, InRange (B' :: C :: ws.map Win.out) (b :: ch :: os) →
      (∀ k, Within .f64 ((winNums A ws b ch os).take k).sum) ∧ (winNums A ws b ch os).sum = prod (ws.map Win.k) * Z (b :: ch :: os) ∧
      Within .f64 (Z (b :: ch :: os)) ∧ Within c (Z (b :: ch :: os))) (out : Ptr) :
    ∃ zs : List Val, Attempts E (pooling fuel R.h "avg" (dimsCells (ws.map Win.k)) (dimsCells (ws.map Win.s)) (dimsCells (ws.map Win.p))
      (dimsCells (ws.map Win.d)) out) m ⟨c.dtype, T.device, B' :: C :: ws.map Win.out, encAll c zs⟩ ∧
      Numbers (B' :: C :: ws.map Win.out) zs Z := by
  have hk0 : 0 < prod (ws.map Win.k) := prod_pos (by
    intro d hd
    obtain ⟨w, hw, rfl⟩ := List.mem_map.1 hd
    have := (h w hw).1.k
    omega)
  have key : ∀ x, InRange (B' :: C :: ws.map Win.out) x → ∃ w, ∀ b ch os, x = b :: ch :: os →
      AvgOf E.fp c (prod (ws.map Win.k)) (winElems T.dims xs ws b ch os) w ∧ Stands w (Z x) := by
    intro x hx
    match x, hx with
    | b :: ch :: os, hio =>
      have hlen : ws.length = os.length := by have := hio.2.2.length; simpa using this.symm
      obtain ⟨hs1, hs2, hs3, hs4⟩ := hsum b ch os hio
      have hsc := sums_exact (c := c) (t := 0) (s := 0) (l := (List.range (prod (ws.map Win.k))).filterMap fun j =>
        (winAt ws os (unlin (ws.map Win.k) j)).map fun cs => (elemAt T.dims xs (b :: ch :: cs), A (b :: ch :: cs))) (by simpa using isInt_zero b64_ok) (by
        intro p hp
        simp only [List.mem_range, List.mem_filterMap, Option.map_eq_some_iff] at hp
        obtain ⟨j, hj, cs, hcs, rfl⟩ := hp
        have : InRange T.dims (b :: ch :: cs) := by
          rw [hs]; exact ⟨hio.1, hio.2.1, winAt_inRange hlen (by rw [unlin_length]; simp) hcs⟩
        exact ⟨elemAt_WT he rfl this, n1 _ this, hA _ this⟩)
        (by simpa [winNums, List.map_filterMap, Option.map_map, Function.comp_def] using hs1)
      simp only [List.map_filterMap, Option.map_map, Function.comp_def, Int.zero_add] at hsc
      obtain ⟨r, hr1, hr2⟩ := hsc
      have hsz : b64.IsInt (ieee.ofInt64 (prod (ws.map Win.k) : Nat)).toNat (prod (ws.map Win.k) : Nat) := by
        simp only [ieee]
        rw [of64 (ofInt_lt b64_ok _)]
        exact ofInt_int b64_ok (within64.1 ⟨by omega, by omega⟩)
      have hq : b64.IsInt (ieee.div64 r (ieee.ofInt64 (prod (ws.map Win.k) : Nat))).toNat (Z (b :: ch :: os)) := by
        show b64.IsInt (BitVec.ofNat 64 (b64.div r.toNat _)).toNat _
        rw [of64 (div_lt b64_ok _ _)]
        exact div_int b64_ok hr2 hsz (by omega) hs2 (within64.1 hs3)
      obtain ⟨w, hw1, hw2⟩ := converts_exact (c := .f64) (c' := c) (x := .f64 _) trivial hq hs4
      refine ⟨w, ?_⟩
      rintro _ _ _ ⟨⟩
      refine ⟨?_, hw2⟩
      on_machine hE
      exact ⟨r, by rw [show ieee.ofInt64 0 = 0 by simp [ieee, ofInt_zero]]; exact hr1, hw1⟩
  obtain ⟨zs, hl, hz⟩ := exists_elems key
  refine ⟨zs, C38_avg wf h1 he hs hw hw' h hso hi (by omega) hf hf' hl (fun b ch os hio => (hz _ hio b ch os rfl).1) out, fun cs hc => ?_⟩
  match cs, hc with
  | b :: ch :: os, hc => exact (hz _ hc b ch os rfl).2

/-! ### Examples -/

/-- An environment with IEEE arithmetic. -/
def ieeeEnv : Env := { okEnv with fp := ieee }

/-- An environment with fused multiply-add. -/
def fusedEnv : Env := { okEnv with fp := fused }

/-- The element of type `c` that stands for `n`. -/
def wholeVal (c : Code) (n : Int) : Val :=
  match c with
  | .f32 => .f32 (ieee.ofInt32 n)
  | .f64 => .f64 (ieee.ofInt64 n)
  | _ => .int n

theorem wholeVal_stands {c : Code} {n : Int} (h : Within c n) : Stands (wholeVal c n) n := by
  cases c <;> first
    | rfl
    | (simp only [wholeVal, Stands, ieee, of32 (ofInt_lt b32_ok _)]; exact ofInt_int b32_ok (within32.1 h))
    | (simp only [wholeVal, Stands, ieee, of64 (ofInt_lt b64_ok _)]; exact ofInt_int b64_ok (within64.1 h))

theorem wholeVal_WT {c : Code} {n : Int} (h : Within c n) : (wholeVal c n).WT c := by
  cases c <;> first
    | trivial
    | (obtain ⟨lo, hi, h1, h2, h3⟩ := h
       simp only [intRange, Option.some.injEq, Prod.mk.injEq] at h1
       simp [wholeVal, Val.WT, Code.lo, Code.hi, Code.signed, Code.size]; omega)

instance (c : Code) (n : Int) : Decidable (Within c n) :=
  match c with
  | .f32 => inferInstanceAs (Decidable (_ ∧ _))
  | .f64 => inferInstanceAs (Decidable (_ ∧ _))
  | .i8 => decidable_of_iff (-128 ≤ n ∧ n ≤ 127) ⟨fun h => ⟨_, _, rfl, h⟩, fun ⟨_, _, h, h'⟩ => by cases h; exact h'⟩
  | .u8 => decidable_of_iff (0 ≤ n ∧ n ≤ 255) ⟨fun h => ⟨_, _, rfl, h⟩, fun ⟨_, _, h, h'⟩ => by cases h; exact h'⟩
  | .i16 => decidable_of_iff (-32768 ≤ n ∧ n ≤ 32767) ⟨fun h => ⟨_, _, rfl, h⟩, fun ⟨_, _, h, h'⟩ => by cases h; exact h'⟩
  | .u16 => decidable_of_iff (0 ≤ n ∧ n ≤ 65535) ⟨fun h => ⟨_, _, rfl, h⟩, fun ⟨_, _, h, h'⟩ => by cases h; exact h'⟩
  | .i32 => decidable_of_iff (-2147483648 ≤ n ∧ n ≤ 2147483647) ⟨fun h => ⟨_, _, rfl, h⟩, fun ⟨_, _, h, h'⟩ => by cases h; exact h'⟩
  | .u32 => decidable_of_iff (0 ≤ n ∧ n ≤ 4294967295) ⟨fun h => ⟨_, _, rfl, h⟩, fun ⟨_, _, h, h'⟩ => by cases h; exact h'⟩
  | .i64 => decidable_of_iff (-9223372036854775808 ≤ n ∧ n ≤ 9223372036854775807) ⟨fun h => ⟨_, _, rfl, h⟩, fun ⟨_, _, h, h'⟩ => by cases h; exact h'⟩
  | .u64 => decidable_of_iff (0 ≤ n ∧ n ≤ 18446744073709551615) ⟨fun h => ⟨_, _, rfl, h⟩, fun ⟨_, _, h, h'⟩ => by cases h; exact h'⟩

instance decSums (c : Code) : ∀ (s : Int) (l : List (Int × Int)), Decidable (SumsWithin c s l)
  | _, [] => .isTrue trivial
  | s, (a, b) :: l => have := decSums c (s + a * b) l; inferInstanceAs (Decidable (_ ∧ _ ∧ _))

/-- The number at the given coordinates. -/
def numsOf (ds : List Nat) (ns : List Int) (cs : List Nat) : Int := ns.getD (lin ds cs) 0

/-- The tensor of the given numbers. -/
def wholeT (c : Code) (ds : List Nat) (ns : List Int) : TV := tvOf c ds (ns.map (wholeVal c))

theorem wholeT_elems {c : Code} {ds : List Nat} {ns : List Int} (h : ∀ n ∈ ns, Within c n) (hl : ns.length = prod ds) :
    Elems (wholeT c ds ns) c (ns.map (wholeVal c)) :=
  tvOf_elems (by
    intro x hx
    obtain ⟨n, hn, rfl⟩ := List.mem_map.1 hx
    exact wholeVal_WT (h n hn)) (by simpa using hl)

theorem wholeT_numbers {c : Code} {ds : List Nat} {ns : List Int} (h : ∀ n ∈ ns, Within c n) (hl : ns.length = prod ds) :
    Numbers ds (ns.map (wholeVal c)) (numsOf ds ns) := by
  intro cs hc
  have hlt := lin_lt hc
  rw [← hl] at hlt
  simp only [elemAt, numsOf, List.getD, List.getElem?_map, List.getElem?_eq_getElem hlt, Option.map_some, Option.getD_some]
  exact wholeVal_stands (h _ (List.getElem_mem hlt))

/-- Two tensors in memory. -/
def wholeM (c : Code) (d1 : List Nat) (n1 : List Int) (d2 : List Nat) (n2 : List Int) : Mem :=
  (Mem.empty.addT (wholeT c d1 n1)).addT (wholeT c d2 n2)

theorem wholeM_wf (c : Code) (d1 : List Nat) (n1 : List Int) (d2 : List Nat) (n2 : List Int) : (wholeM c d1 n1 d2 n2).WF :=
  Mem.addT_wf (Mem.addT_wf Mem.empty_wf _) _

/-- Handle of the second. -/
abbrev wholeH2 (c : Code) (d1 : List Nat) (n1 : List Int) : Foot := (Mem.empty.addT (wholeT c d1 n1)).footT

theorem wholeM_at1 {c : Code} {d1 : List Nat} {n1 : List Int} {d2 : List Nat} {n2 : List Int} (h0 : d1 ≠ []) (hl : n1.length = prod d1)
    (hs : ShapeOK d1 c.size) : At (wholeM c d1 n1 d2 n2) exH1 (wholeT c d1 n1) :=
  addT_old (Mem.addT_wf Mem.empty_wf _) (tvOf_at _ h0 (by simpa using hl) hs) _

theorem wholeM_at2 {c : Code} {d1 : List Nat} {n1 : List Int} {d2 : List Nat} {n2 : List Int} (h0 : d2 ≠ []) (hl : n2.length = prod d2)
    (hs : ShapeOK d2 c.size) : At (wholeM c d1 n1 d2 n2) (wholeH2 c d1 n1) (wholeT c d2 n2) :=
  tvOf_at _ h0 (by simpa using hl) hs

/-- 6/3 and -20/4 in `double`. -/
example : ∃ zs, DeliversMalloc ieeeEnv (binaryOp .div exH1.h (wholeH2 .f64 [2] [6, -20]).h .indet) (wholeM .f64 [2] [6, -20] [2] [3, 4]) .indet .f64
    ⟨DEVICE_CPU, 0⟩ [2] zs ∧ Numbers [2] zs (numsOf [2] [2, -5]) :=
  C56_binary (T1 := wholeT .f64 [2] [6, -20]) (T2 := wholeT .f64 [2] [3, 4]) (A := numsOf [2] [6, -20]) (B := numsOf [2] [3, 4]) ieee_machine
    (wholeM_wf _ _ _ _ _) (wholeM_at1 (by simp) rfl ⟨by decide, by decide⟩) (wholeT_elems (by decide) rfl)
    (wholeM_at2 (by simp) rfl ⟨by decide, by decide⟩) (wholeT_elems (by decide) rfl) rfl rfl rfl (by decide) (wholeT_numbers (by decide) rfl)
    (wholeT_numbers (by decide) rfl) (by refine all_coords ?_; simp only [WholeOp, wholeT, tvOf]; decide) _

/-- `float` to `uint8_t`. -/
example : ∃ ys, Delivers ieeeEnv (cast exH1.h Code.u8.dtype .indet) (wholeM .f32 [3] [0, 7, 255] [1] [0]) .indet .u8 ⟨DEVICE_CPU, 0⟩ [3] ys ∧
    Numbers [3] ys (numsOf [3] [0, 7, 255]) :=
  C56_cast (T := wholeT .f32 [3] [0, 7, 255]) (c := .f32) ieee_machine (wholeM_wf _ _ _ _ _) (wholeM_at1 (by simp) rfl ⟨by decide, by decide⟩) (wholeT_elems (by decide) rfl)
    (by decide) ⟨by decide, by decide⟩ (wholeT_numbers (by decide) rfl) (by refine all_coords ?_; simp only [wholeT, tvOf]; decide) _

/-- Both calls of the round trip from `int16_t` to `float` and back succeed. -/
example : ∃ h1 m1 h2 m2, cast exH1.h Code.f32.dtype .null ieeeEnv (wholeM .i16 [3] [-32768, 7, 32767] [1] [0]) = .ok (.success, h1) m1 ∧
    cast h1 Code.i16.dtype .null ieeeEnv m1 = .ok (.success, h2) m2 := by
  obtain ⟨ys, ⟨D, wt, len⟩, n1⟩ := C56_cast (E := ieeeEnv) (T := wholeT .i16 [3] [-32768, 7, 32767]) (c := .i16) (c' := .f32) (m := wholeM .i16 [3] [-32768, 7, 32767] [1] [0])
    ieee_machine (wholeM_wf _ _ _ _ _) (wholeM_at1 (by simp) rfl ⟨by decide, by decide⟩) (wholeT_elems (by decide) rfl) (by decide) ⟨by decide, by decide⟩
    (wholeT_numbers (by decide) rfl) (by refine all_coords ?_; simp only [wholeT, tvOf]; decide) .null
  rcases D with ⟨R1, m1, e, P⟩ | ⟨_, _, _, _, nf⟩
  · obtain ⟨zs, ⟨D', _, _⟩, _⟩ := C56_cast (E := ieeeEnv) (c' := .i16) ieee_machine P.ext.wf P.tensor ⟨rfl, rfl, wt, len⟩ (by decide)
      (show ShapeOK [3] 2 from ⟨by decide, by decide⟩) n1 (by refine all_coords ?_; simp only [wholeT, tvOf]; decide) .null
    rcases D' with ⟨R2, m2, e', _⟩ | ⟨_, _, _, _, nf⟩
    · exact ⟨_, _, _, _, e, e'⟩
    · exact absurd okEnv_noFail nf
  · exact absurd okEnv_noFail nf

/-- A tensor of twelves. -/
example : ∃ v, Stands v 12 ∧ Delivers ieeeEnv (full Code.f32.dtype ⟨DEVICE_CPU, 0⟩ (dimsCells [2, 2]) 2 (ieee.ofInt64 12) .indet) Mem.empty .indet .f32
    ⟨DEVICE_CPU, 0⟩ [2, 2] (List.replicate (prod [2, 2]) v) :=
  C56_full ieee_machine Mem.empty_wf _ [2, 2] ⟨by decide, by decide⟩ (by decide) _ (wholeVal_stands (c := .f64) (by decide)) (by decide) _

/-- relu of -3, 0, 5. -/
example : ∃ ys, Delivers ieeeEnv (relu exH1.h .indet) (wholeM .f32 [3] [-3, 0, 5] [1] [0]) .indet .f32 ⟨DEVICE_CPU, 0⟩ [3] ys ∧
    Numbers [3] ys (fun cs => max (numsOf [3] [-3, 0, 5] cs) 0) :=
  C56_relu (T := wholeT .f32 [3] [-3, 0, 5]) ieee_machine (wholeM_wf _ _ _ _ _) (wholeM_at1 (by simp) rfl ⟨by decide, by decide⟩) (wholeT_elems (by decide) rfl)
    (wholeT_numbers (by decide) rfl) _

/-- A product of `float` matrices. -/
example : ∃ zs, Delivers ieeeEnv (matmul exH1.h (wholeH2 .f32 [2, 2] [1, 2, 3, 4]).h .indet) (wholeM .f32 [2, 2] [1, 2, 3, 4] [2, 2] [5, 6, 7, -8]) .indet .f32
    ⟨DEVICE_CPU, 0⟩ [2, 2] zs ∧ ∀ i j, i < 2 → j < 2 → Stands (elemAt [2, 2] zs [i, j])
      (total ((List.range 2).map fun q => (numsOf [2, 2] [1, 2, 3, 4] [i, q], numsOf [2, 2] [5, 6, 7, -8] [q, j]))) :=
  C56_matrix_matrix (T1 := wholeT .f32 [2, 2] [1, 2, 3, 4]) (T2 := wholeT .f32 [2, 2] [5, 6, 7, -8]) ieee_machine (wholeM_wf _ _ _ _ _)
    (wholeM_at1 (by simp) rfl ⟨by decide, by decide⟩) (wholeT_elems (by decide) rfl)
    (wholeM_at2 (by simp) rfl ⟨by decide, by decide⟩) (wholeT_elems (by decide) rfl) rfl rfl (wholeT_numbers (by decide) rfl)
    (wholeT_numbers (by decide) rfl) rfl rfl ⟨by decide, by decide⟩ (by omega) (by omega) (by omega) (by omega)
    (by intro i j hi hj; revert j; revert i; decide) _

example : total ((List.range 2).map fun q => (numsOf [2, 2] [1, 2, 3, 4] [1, q], numsOf [2, 2] [5, 6, 7, -8] [q, 1])) = -14 := by decide

/-- 1·4 + 2·5 + 3·6 in `float`. -/
example : ∃ w, Delivers ieeeEnv (matmul exH1.h (wholeH2 .f32 [3] [1, 2, 3]).h .indet) (wholeM .f32 [3] [1, 2, 3] [3] [4, 5, 6]) .indet .f32 ⟨DEVICE_CPU, 0⟩ [1] [w] ∧
    Stands w 32 :=
  C56_vector_vector (T1 := wholeT .f32 [3] [1, 2, 3]) (T2 := wholeT .f32 [3] [4, 5, 6]) (nK := 3) (A := numsOf [3] [1, 2, 3]) (B := numsOf [3] [4, 5, 6]) ieee_machine
    (wholeM_wf _ _ _ _ _) (wholeM_at1 (by simp) rfl ⟨by decide, by decide⟩) (wholeT_elems (by decide) rfl)
    (wholeM_at2 (by simp) rfl ⟨by decide, by decide⟩) (wholeT_elems (by decide) rfl) rfl rfl (wholeT_numbers (by decide) rfl)
    (wholeT_numbers (by decide) rfl) rfl rfl (by omega) (by decide) _

/-- A `float` matrix times a vector. -/
example : ∃ zs, Delivers ieeeEnv (matmul exH1.h (wholeH2 .f32 [2, 2] [1, 2, 3, 4]).h .indet) (wholeM .f32 [2, 2] [1, 2, 3, 4] [2] [5, -6]) .indet .f32
    ⟨DEVICE_CPU, 0⟩ [2] zs ∧ ∀ i, i < 2 → Stands (elemAt [2] zs [i])
      (total ((List.range 2).map fun q => (numsOf [2, 2] [1, 2, 3, 4] [i, q], numsOf [2] [5, -6] [q]))) :=
  C56_matrix_vector (T1 := wholeT .f32 [2, 2] [1, 2, 3, 4]) (T2 := wholeT .f32 [2] [5, -6]) ieee_machine (wholeM_wf _ _ _ _ _)
    (wholeM_at1 (by simp) rfl ⟨by decide, by decide⟩) (wholeT_elems (by decide) rfl)
    (wholeM_at2 (by simp) rfl ⟨by decide, by decide⟩) (wholeT_elems (by decide) rfl) rfl rfl (wholeT_numbers (by decide) rfl)
    (wholeT_numbers (by decide) rfl) rfl rfl (by omega) (by omega) (by decide) _

/-- A `float` vector times a matrix. -/
example : ∃ zs, Delivers ieeeEnv (matmul exH1.h (wholeH2 .f32 [2] [5, -6]).h .indet) (wholeM .f32 [2] [5, -6] [2, 2] [1, 2, 3, 4]) .indet .f32
    ⟨DEVICE_CPU, 0⟩ [2] zs ∧ ∀ j, j < 2 → Stands (elemAt [2] zs [j])
      (total ((List.range 2).map fun q => (numsOf [2] [5, -6] [q], numsOf [2, 2] [1, 2, 3, 4] [q, j]))) :=
  C56_vector_matrix (T1 := wholeT .f32 [2] [5, -6]) (T2 := wholeT .f32 [2, 2] [1, 2, 3, 4]) ieee_machine (wholeM_wf _ _ _ _ _)
    (wholeM_at1 (by simp) rfl ⟨by decide, by decide⟩) (wholeT_elems (by decide) rfl)
    (wholeM_at2 (by simp) rfl ⟨by decide, by decide⟩) (wholeT_elems (by decide) rfl) rfl rfl (wholeT_numbers (by decide) rfl)
    (wholeT_numbers (by decide) rfl) rfl rfl (by omega) (by omega) (by decide) _

/-- A `float` tensor times a vector. -/
example : ∃ zs, DeliversCareless ieeeEnv (matmul exH1.h (wholeH2 .f32 [2, 1, 2] [1, 2, 3, 4]).h .indet) (wholeM .f32 [2, 1, 2] [1, 2, 3, 4] [2] [5, -6]) .indet .f32
    ⟨DEVICE_CPU, 0⟩ ([2] ++ [1]) zs ∧ ∀ cs i, InRange [2] cs → i < 1 → Stands (elemAt ([2] ++ [1]) zs (cs ++ [i]))
      (total ((List.range 2).map fun q => (numsOf [2, 1, 2] [1, 2, 3, 4] (cs ++ [i, q]), numsOf [2] [5, -6] [q]))) :=
  C56_tensor_vector (T1 := wholeT .f32 [2, 1, 2] [1, 2, 3, 4]) (T2 := wholeT .f32 [2] [5, -6]) ieee_machine (wholeM_wf _ _ _ _ _)
    (wholeM_at1 (by simp) rfl ⟨by decide, by decide⟩) (wholeT_elems (by decide) rfl)
    (wholeM_at2 (by simp) rfl ⟨by decide, by decide⟩) (wholeT_elems (by decide) rfl) rfl rfl (wholeT_numbers (by decide) rfl)
    (wholeT_numbers (by decide) rfl) rfl (by simp) rfl ⟨by decide, by decide⟩ (by omega) (by omega) (by decide) (by decide)
    (by
      intro cs i hc; revert i; revert cs
      exact all_coords (Q := fun cs => ∀ i, i < 1 → _) (by decide)) _

/-- A `float` vector times a tensor. -/
example : ∃ zs, DeliversCareless ieeeEnv (matmul exH1.h (wholeH2 .f32 [2] [5, -6]).h .indet) (wholeM .f32 [2] [5, -6] [2, 2, 1] [1, 2, 3, 4]) .indet .f32
    ⟨DEVICE_CPU, 0⟩ ([2] ++ [1]) zs ∧ ∀ cs j, InRange [2] cs → j < 1 → Stands (elemAt ([2] ++ [1]) zs (cs ++ [j]))
      (total ((List.range 2).map fun q => (numsOf [2] [5, -6] [q], numsOf [2, 2, 1] [1, 2, 3, 4] (cs ++ [q, j])))) :=
  C56_vector_tensor (T1 := wholeT .f32 [2] [5, -6]) (T2 := wholeT .f32 [2, 2, 1] [1, 2, 3, 4]) ieee_machine (wholeM_wf _ _ _ _ _)
    (wholeM_at1 (by simp) rfl ⟨by decide, by decide⟩) (wholeT_elems (by decide) rfl)
    (wholeM_at2 (by simp) rfl ⟨by decide, by decide⟩) (wholeT_elems (by decide) rfl) rfl rfl (wholeT_numbers (by decide) rfl)
    (wholeT_numbers (by decide) rfl) rfl rfl (by simp) ⟨by decide, by decide⟩ (by omega) (by omega) (by decide) (by decide)
    (by
      intro cs i hc; revert i; revert cs
      exact all_coords (Q := fun cs => ∀ i, i < 1 → _) (by decide)) _

/-- `dot` of two `double` vectors. -/
example : ∃ w, Delivers ieeeEnv (dot exH1.h (wholeH2 .f64 [3] [1, 2, 3]).h .indet) (wholeM .f64 [3] [1, 2, 3] [3] [4, 5, 6]) .indet .f64 ⟨DEVICE_CPU, 0⟩ [1] [w] ∧
    Stands w 32 :=
  C56_dot_vectors (T1 := wholeT .f64 [3] [1, 2, 3]) (T2 := wholeT .f64 [3] [4, 5, 6]) (nK := 3) (A := numsOf [3] [1, 2, 3]) (B := numsOf [3] [4, 5, 6]) ieee_machine
    (wholeM_wf _ _ _ _ _) (wholeM_at1 (by simp) rfl ⟨by decide, by decide⟩) (wholeT_elems (by decide) rfl)
    (wholeM_at2 (by simp) rfl ⟨by decide, by decide⟩) (wholeT_elems (by decide) rfl) rfl rfl (wholeT_numbers (by decide) rfl)
    (wholeT_numbers (by decide) rfl) rfl rfl (by omega) (by decide) _

/-- `dot` of a `float` matrix and a vector. -/
example : ∃ zs, Attempts ieeeEnv (dot exH1.h (wholeH2 .f32 [2, 2] [1, 2, 3, 4]).h .indet) (wholeM .f32 [2, 2] [1, 2, 3, 4] [2] [5, -6])
    ⟨Code.f32.dtype, ⟨DEVICE_CPU, 0⟩, [2], encAll .f32 zs⟩ ∧
    Numbers [2] zs fun cs => total ((List.range 2).map fun q => (numsOf [2, 2] [1, 2, 3, 4] (cs ++ [q]), numsOf [2] [5, -6] [q])) :=
  C56_dot_tensor_vector (T1 := wholeT .f32 [2, 2] [1, 2, 3, 4]) (T2 := wholeT .f32 [2] [5, -6]) (bs := [2]) ieee_machine (wholeM_wf _ _ _ _ _)
    (wholeM_at1 (by simp) rfl ⟨by decide, by decide⟩) (wholeT_elems (by decide) rfl)
    (wholeM_at2 (by simp) rfl ⟨by decide, by decide⟩) (wholeT_elems (by decide) rfl) rfl rfl (wholeT_numbers (by decide) rfl)
    (wholeT_numbers (by decide) rfl) rfl (by simp) rfl (by omega) (by decide) (by omega) (all_coords (by decide)) _

/-- A `float` vector and a scalar 3. -/
def wholeS : Mem := (Mem.empty.addT (wholeT .f32 [2] [5, -6])).addS Code.f32.dtype ⟨DEVICE_CPU, 0⟩ (encAll .f32 ([3].map (wholeVal .f32)))

theorem wholeS_wf : wholeS.WF := Mem.addS_wf (Mem.addT_wf Mem.empty_wf _) _ _ _

theorem wholeS_scalar : At wholeS (Mem.empty.addT (wholeT .f32 [2] [5, -6])).footS (wholeT .f32 [] [3]) :=
  addS_at _ _ _ _ (by simp [encAll_length, Code.dtype]) (by decide)

theorem wholeS_vector : At wholeS exH1 (wholeT .f32 [2] [5, -6]) :=
  (tvOf_at _ (by simp) rfl ⟨by decide, by decide⟩).frame (Mem.addT_wf Mem.empty_wf _) ((((Ext.refl (Mem.addT_wf Mem.empty_wf _)).push _).push _).push _).toFrame

/-- 3 times a `float` vector. -/
example : ∃ zs, DeliversMalloc ieeeEnv (dot (Mem.empty.addT (wholeT .f32 [2] [5, -6])).footS.h exH1.h .indet) wholeS .indet .f32 ⟨DEVICE_CPU, 0⟩ [2] zs ∧
    Numbers [2] zs fun cs => numsOf [] [3] [] * numsOf [2] [5, -6] cs :=
  C56_dot_scalar_left (T1 := wholeT .f32 [] [3]) (T2 := wholeT .f32 [2] [5, -6]) ieee_machine wholeS_wf
    wholeS_scalar (wholeT_elems (by decide) rfl) wholeS_vector (wholeT_elems (by decide) rfl) rfl rfl (wholeT_numbers (by decide) rfl)
    (wholeT_numbers (by decide) rfl) rfl (by decide) (by decide) (all_coords (by decide)) _

/-- A `float` vector times 3. -/
example : ∃ zs, DeliversMalloc ieeeEnv (dot exH1.h (Mem.empty.addT (wholeT .f32 [2] [5, -6])).footS.h .indet) wholeS .indet .f32 ⟨DEVICE_CPU, 0⟩ [2] zs ∧
    Numbers [2] zs fun cs => numsOf [] [3] [] * numsOf [2] [5, -6] cs :=
  C56_dot_scalar_right (T1 := wholeT .f32 [2] [5, -6]) (T2 := wholeT .f32 [] [3]) ieee_machine wholeS_wf
    wholeS_vector (wholeT_elems (by decide) rfl) wholeS_scalar (wholeT_elems (by decide) rfl) rfl rfl (wholeT_numbers (by decide) rfl)
    (wholeT_numbers (by decide) rfl) (by simp [wholeT, tvOf]) rfl (by decide) (by decide) (all_coords (by decide)) _

/-- Batches `[2, 1]` against `[3]` in `float`. -/
example : ∃ zs, DeliversCareless ieeeEnv (matmul exH1.h (wholeH2 .f32 [2, 1, 1, 2] [1, 2, 3, 4]).h .indet)
    (wholeM .f32 [2, 1, 1, 2] [1, 2, 3, 4] [3, 2, 1] [1, 0, 0, 1, 10, 1]) .indet .f32 ⟨DEVICE_CPU, 0⟩ ([2, 3] ++ [1, 1]) zs ∧
    ∀ cs i j, InRange [2, 3] cs → i < 1 → j < 1 → Stands (elemAt ([2, 3] ++ [1, 1]) zs (cs ++ [i, j]))
      (total ((List.range 2).map fun q => (numsOf [2, 1, 1, 2] [1, 2, 3, 4] (under [2, 1] cs ++ [i, q]),
        numsOf [3, 2, 1] [1, 0, 0, 1, 10, 1] (under [3] cs ++ [q, j])))) :=
  C56_tensor_tensor (T1 := wholeT .f32 [2, 1, 1, 2] [1, 2, 3, 4]) (T2 := wholeT .f32 [3, 2, 1] [1, 0, 0, 1, 10, 1]) (b1 := [2, 1]) (b2 := [3]) ieee_machine
    (wholeM_wf _ _ _ _ _) (wholeM_at1 (by simp) rfl ⟨by decide, by decide⟩) (wholeT_elems (by decide) rfl)
    (wholeM_at2 (by simp) rfl ⟨by decide, by decide⟩) (wholeT_elems (by decide) rfl) rfl rfl (wholeT_numbers (by decide) rfl)
    (wholeT_numbers (by decide) rfl) rfl rfl (by simp) (by simp) (by simp) exBcast ⟨by decide, by decide⟩ (by omega) (by omega) (by omega)
    (by decide) (by decide)
    (by
      intro cs i j hc; revert j; revert i; revert cs
      exact all_coords (Q := fun cs => ∀ i j, i < 1 → j < 1 → _) (by
        intro b hb i j hi hj
        obtain rfl : i = 0 := by omega
        obtain rfl : j = 0 := by omega
        revert b; decide)) _

/-- `dot` of a 2x1x2 and a 2x2x1 tensor of `double`s. -/
example : ∃ zs, Attempts ieeeEnv (dot exH1.h (wholeH2 .f64 [2, 1, 2] [1, 2, 3, 4]).h .indet) (wholeM .f64 [2, 1, 2] [1, 2, 3, 4] [2, 2, 1] [5, 6, 7, -8])
    ⟨Code.f64.dtype, ⟨DEVICE_CPU, 0⟩, [2, 1] ++ [2] ++ [1], encAll .f64 zs⟩ ∧
    ∀ cs ds j, InRange [2, 1] cs → InRange [2] ds → j < 1 → Stands (elemAt ([2, 1] ++ [2] ++ [1]) zs (cs ++ ds ++ [j]))
      (total ((List.range 2).map fun q => (numsOf [2, 1, 2] [1, 2, 3, 4] (cs ++ [q]), numsOf [2, 2, 1] [5, 6, 7, -8] (ds ++ [q, j])))) :=
  C56_dot_tensors (T1 := wholeT .f64 [2, 1, 2] [1, 2, 3, 4]) (T2 := wholeT .f64 [2, 2, 1] [5, 6, 7, -8]) (b1 := [2, 1]) (b2 := [2]) ieee_machine (wholeM_wf _ _ _ _ _)
    (wholeM_at1 (by simp) rfl ⟨by decide, by decide⟩) (wholeT_elems (by decide) rfl)
    (wholeM_at2 (by simp) rfl ⟨by decide, by decide⟩) (wholeT_elems (by decide) rfl) rfl rfl (wholeT_numbers (by decide) rfl)
    (wholeT_numbers (by decide) rfl) rfl rfl (by decide) (by simp) (by omega) (by omega) (by decide) (by decide) ⟨by decide, by decide⟩
    (by
      intro cs ds j hc hd hj
      revert j; revert ds; revert cs
      refine all_coords (Q := fun cs => ∀ ds, InRange [2] ds → ∀ j, j < 1 → _) fun b hb => ?_
      refine all_coords (Q := fun ds => ∀ j, j < 1 → _) ?_
      revert b; decide) _

/-- Convolution of 1 2 3 4 with 1 -1. -/
example : ∃ zs : List Val, zs.length = 3 ∧
    (∀ b oc os, InRange [1, 1, 3] (b :: oc :: os) → Stands (elemAt [1, 1, 3] zs (b :: oc :: os))
      (total (convNums (numsOf [1, 1, 4] [1, 2, 3, 5]) (numsOf [1, 1, 2] [1, -1]) [⟨4, 2, 1, 0, 1⟩] 1 b oc os))) ∧
    Leaves ieeeEnv (conv (some .success) (some .success) exH1.h (wholeH2 .f32 [1, 1, 4] [1, 2, 3, 5]).h (dimsCells [1]) (dimsCells [0]) (dimsCells [1]) 1 .indet)
      (wholeM .f32 [1, 1, 4] [1, 2, 3, 5] [1, 1, 2] [1, -1]) .indet .success ⟨Code.f32.dtype, ⟨DEVICE_CPU, 0⟩, [1, 1, 3], encAll .f32 zs⟩ :=
  C56_conv (T1 := wholeT .f32 [1, 1, 4] [1, 2, 3, 5]) (T2 := wholeT .f32 [1, 1, 2] [1, -1]) (ws := [⟨4, 2, 1, 0, 1⟩]) (B' := 1) (O := 1) (C := 1) ieee_machine (wholeM_wf _ _ _ _ _)
    (wholeM_at1 (by simp) rfl ⟨by decide, by decide⟩) (wholeM_at2 (by simp) rfl ⟨by decide, by decide⟩) (wholeT_elems (by decide) rfl)
    (wholeT_elems (by decide) rfl) rfl rfl (by
      intro w hw
      simp only [List.mem_singleton] at hw
      subst hw
      exact ⟨⟨by decide, by decide, by decide, by decide⟩, ⟨by decide, by decide, by decide, by decide, by decide⟩⟩)
    ⟨by decide, by decide⟩ (by omega) (wholeT_numbers (by decide) rfl) (wholeT_numbers (by decide) rfl)
    (by
      intro b oc os h
      have : ∀ x, InRange [1, 1, 3] x → SumsWithin .f32 0 (convNums (numsOf [1, 1, 4] [1, 2, 3, 5]) (numsOf [1, 1, 2] [1, -1]) [⟨4, 2, 1, 0, 1⟩] 1
        (x.getD 0 0) (x.getD 1 0) (x.drop 2)) := all_coords (by decide)
      exact this _ h) _ _ _ _

example : total (convNums (numsOf [1, 1, 4] [1, 2, 3, 5]) (numsOf [1, 1, 2] [1, -1]) [⟨4, 2, 1, 0, 1⟩] 1 0 0 [2]) = -2 := by decide

/-- The average of 2 4 | 6 10 in windows of 2, for `int32_t`. -/
example : ∃ zs : List Val, Attempts ieeeEnv (pooling 10 exH1.h "avg" (dimsCells [2]) (dimsCells [2]) (dimsCells [0]) (dimsCells [1]) .indet)
      (wholeM .i32 [1, 1, 4] [2, 4, 6, 10] [1] [0]) ⟨Code.i32.dtype, ⟨DEVICE_CPU, 0⟩, [1, 1, 2], encAll .i32 zs⟩ ∧ Numbers [1, 1, 2] zs (numsOf [1, 1, 2] [3, 8]) :=
  C56_avg_pooling (T := wholeT .i32 [1, 1, 4] [2, 4, 6, 10]) (c := .i32) (ws := [⟨4, 2, 2, 0, 1⟩]) (B' := 1) (C := 1) ieee_machine (wholeM_wf _ _ _ _ _)
    (wholeM_at1 (by simp) rfl ⟨by decide, by decide⟩) (wholeT_elems (by decide) rfl) rfl (by simp) (by simp) (by
      intro w hw
      simp only [List.mem_singleton] at hw
      subst hw
      exact ⟨⟨by decide, by decide, by decide, by decide⟩, ⟨by decide, by decide, by decide⟩⟩)
    ⟨by decide, by decide⟩ (by decide) (by decide) (by decide) (by decide) (wholeT_numbers (by decide) rfl)
    (by refine all_coords ?_; simp only [wholeT, tvOf]; decide)
    (by
      intro b ch os h
      have : ∀ x, InRange [1, 1, 2] x → winNums (numsOf [1, 1, 4] [2, 4, 6, 10]) [⟨4, 2, 2, 0, 1⟩] (x.getD 0 0) (x.getD 1 0) (x.drop 2) =
          [numsOf [1, 1, 4] [2, 4, 6, 10] [0, 0, 2 * x.getD 2 0], numsOf [1, 1, 4] [2, 4, 6, 10] [0, 0, 2 * x.getD 2 0 + 1]] ∧
          (numsOf [1, 1, 4] [2, 4, 6, 10] [0, 0, 2 * x.getD 2 0] + numsOf [1, 1, 4] [2, 4, 6, 10] [0, 0, 2 * x.getD 2 0 + 1] = 2 * numsOf [1, 1, 2] [3, 8] x) ∧
          0 ≤ numsOf [1, 1, 4] [2, 4, 6, 10] [0, 0, 2 * x.getD 2 0] ∧ 0 ≤ numsOf [1, 1, 4] [2, 4, 6, 10] [0, 0, 2 * x.getD 2 0 + 1] ∧
          numsOf [1, 1, 2] [3, 8] x ≤ 8 := all_coords (by decide)
      obtain ⟨h1, h2, h3, h4, h5⟩ := this _ h
      have h1' : winNums (numsOf (wholeT .i32 [1, 1, 4] [2, 4, 6, 10]).dims [2, 4, 6, 10]) [⟨4, 2, 2, 0, 1⟩] b ch os = _ := h1
      rw [h1']
      refine ⟨fun k => ?_, ?_, ⟨by omega, by omega⟩, ⟨_, _, rfl, by omega, by omega⟩⟩
      · match k with
        | 0 => simp [Within]
        | 1 => simp only [List.take, List.sum_cons, List.sum_nil, Within]; omega
        | k + 2 => simp only [List.take, List.sum_cons, List.sum_nil, List.take_nil, Within]; omega
      · simp only [List.sum_cons, List.sum_nil]
        rw [show ((prod (List.map Win.k [⟨4, 2, 2, 0, 1⟩]) : Nat) : Int) = 2 from rfl]
        omega) _

/-- The maxima of the windows -2 -4 and 6 -10 with 0. -/
example : ∃ zs : List Val, Attempts ieeeEnv (pooling 10 exH1.h "max" (dimsCells [2]) (dimsCells [2]) (dimsCells [0]) (dimsCells [1]) .indet)
      (wholeM .f32 [1, 1, 4] [-2, -4, 6, -10] [1] [0]) ⟨Code.f32.dtype, ⟨DEVICE_CPU, 0⟩, [1, 1, 2], encAll .f32 zs⟩ ∧
      ∀ b ch os, InRange [1, 1, 2] (b :: ch :: os) → Stands (elemAt [1, 1, 2] zs (b :: ch :: os))
        ((winNums (numsOf [1, 1, 4] [-2, -4, 6, -10]) [⟨4, 2, 2, 0, 1⟩] b ch os).foldl max 0) :=
  C56_max_pooling (T := wholeT .f32 [1, 1, 4] [-2, -4, 6, -10]) (c := .f32) (ws := [⟨4, 2, 2, 0, 1⟩]) (B' := 1) (C := 1) ieee_machine (wholeM_wf _ _ _ _ _)
    (wholeM_at1 (by simp) rfl ⟨by decide, by decide⟩) (wholeT_elems (by decide) rfl) rfl (by simp) (by simp) (by
      intro w hw
      simp only [List.mem_singleton] at hw
      subst hw
      exact ⟨⟨by decide, by decide, by decide, by decide⟩, ⟨by decide, by decide, by decide⟩⟩)
    ⟨by decide, by decide⟩ (by decide) (by decide) (by decide) (by decide) (wholeT_numbers (by decide) rfl)
    (by refine all_coords ?_; simp only [wholeT, tvOf]; decide) _

/-- C56, the range is the widest without gaps up to its end: adding 1 to 2^24 in `float` (to 2^53 in `double`) gives 2^24 (2^53). -/
theorem C56_range_is_sharp : ieee.add32 (ieee.ofInt32 16777216) (ieee.ofInt32 1) = ieee.ofInt32 16777216 ∧
    ieee.add64 (ieee.ofInt64 9007199254740992) (ieee.ofInt64 1) = ieee.ofInt64 9007199254740992 := by decide +kernel

end Aitisa
