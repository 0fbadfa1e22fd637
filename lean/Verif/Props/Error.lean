import Verif.Proof.Error
import Verif.Proof.IeeeMac
import Verif.Props.Exact

/-!
# C76: sums of products are near the exact ones

On the usual machines (binary32 and binary64, with or without fused multiply-add).
-/

namespace Aitisa

variable {E : Env} {m : Mem} {R R1 R2 : Foot} {T T1 T2 : TV} {c : Code} {xs ys : List Val} {A B : List Nat → Rat}
  {nM nK nN : Nat} {bs b1 b2 bd : List Nat} {ws : List Win} {fuel : Nat}

/-- The sum of products of numbers at given coordinates. -/
theorem dot_rationals (hE : Machine E.fp) {K : Nat} {f g : Nat → List Nat} (hc : c = .f32 ∨ c = .f64) (he1 : Elems T1 c xs) (he2 : Elems T2 c ys)
    (n1 : Rationals T1.dims xs A) (n2 : Rationals T2.dims ys B) (hf : ∀ q, q < K → InRange T1.dims (f q)) (hg : ∀ q, q < K → InRange T2.dims (g q)) :
    ∃ w, DotTo E.fp c (zeroVal c) ((List.range K).map fun q => (elemAt T1.dims xs (f q), elemAt T2.dims ys (g q))) w ∧
      NearDot c w ((List.range K).map fun q => (A (f q), B (g q))) := by
  have hl : ∀ p ∈ (List.range K).map (fun q => ((elemAt T1.dims xs (f q), elemAt T2.dims ys (g q)), (A (f q), B (g q)))),
      p.1.1.WT c ∧ p.1.2.WT c ∧ p.1.1.rat = some p.2.1 ∧ p.1.2.rat = some p.2.2 := by
    intro p hp
    simp only [List.mem_map, List.mem_range] at hp
    obtain ⟨q, hq, rfl⟩ := hp
    exact ⟨elemAt_WT he1 rfl (hf q hq), elemAt_WT he2 rfl (hg q hq), n1 _ (hf q hq), n2 _ (hg q hq)⟩
  obtain ⟨w, hw⟩ := dotTo_floats hc (fp := E.fp) (l := ((List.range K).map (fun q => ((elemAt T1.dims xs (f q), elemAt T2.dims ys (g q)), (A (f q), B (g q))))).map Prod.fst)
    (zeroVal_WT c) (by
      intro p hp
      obtain ⟨a, ha, rfl⟩ := List.mem_map.1 hp
      exact ⟨(hl a ha).1, (hl a ha).2.1⟩)
  have := dotTo_near hE hc hl hw
  simp only [List.map_map, Function.comp_def] at hw this
  exact ⟨w, hw, this⟩

section
variable (hE : Machine E.fp) (hc : c = .f32 ∨ c = .f64) (wf : m.WF) (h1 : At m R1 T1) (he1 : Elems T1 c xs) (h2 : At m R2 T2) (he2 : Elems T2 c ys)
  (c1 : T1.device.type = DEVICE_CPU) (c2 : T2.device.type = DEVICE_CPU) (n1 : Rationals T1.dims xs A) (n2 : Rationals T2.dims ys B)
include hE hc wf h1 he1 h2 he2 c1 c2 n1 n2

/-- C76, vector times vector. -/
theorem C76_vector_vector (s1 : T1.dims = [nK]) (s2 : T2.dims = [nK]) (hK : nK ≤ 2147483647) (out : Ptr) :
    ∃ w, Delivers E (matmul R1.h R2.h out) m out c T1.device [1] [w] ∧ NearDot c w ((List.range nK).map fun q => (A [q], B [q])) := by
  obtain ⟨w, hd, hst⟩ := dot_rationals hE hc (f := fun q => [q]) (g := fun q => [q]) he1 he2 n1 n2 (fun q hq => by rw [s1]; exact ⟨hq, trivial⟩)
    (fun q hq => by rw [s2]; exact ⟨hq, trivial⟩)
  exact ⟨w, C31_vector_vector wf h1 he1 h2 he2 c1 c2 (hE.zero c) s1 s2 hK (hd) out, hst⟩

/-- C76, matrix times vector. -/
theorem C76_matrix_vector (s1 : T1.dims = [nM, nK]) (s2 : T2.dims = [nK]) (hM : nM ≤ 2147483647) (hK : nK ≤ 2147483647) (out : Ptr) :
    ∃ zs, Delivers E (matmul R1.h R2.h out) m out c T1.device [nM] zs ∧
      ∀ i, i < nM → NearDot c (elemAt [nM] zs [i]) ((List.range nK).map fun q => (A [i, q], B [q])) := by
  obtain ⟨zs, hl, hz⟩ := exists_elems (ds := [nM]) (P := fun x w =>
      DotTo E.fp c (zeroVal c) ((List.range nK).map fun q => (elemAt T1.dims xs (x ++ [q]), elemAt T2.dims ys [q])) w ∧
      NearDot c w ((List.range nK).map fun q => (A (x ++ [q]), B [q]))) (fun x hx => by
    match x, hx with
    | [i], hx =>
      exact dot_rationals hE hc (f := fun q => [i] ++ [q]) (g := fun q => [q]) he1 he2 n1 n2 (fun q hq => by rw [s1]; exact ⟨hx.1, hq, trivial⟩)
        (fun q hq => by rw [s2]; exact ⟨hq, trivial⟩))
  exact ⟨zs, C31_matrix_vector wf h1 he1 h2 he2 c1 c2 (hE.zero c) s1 s2 hM hK (by simpa [prod] using hl)
    (fun i hi => by exact (hz [i] ⟨hi, trivial⟩).1) out, fun i hi => (hz [i] ⟨hi, trivial⟩).2⟩

/-- C76, vector times matrix. -/
theorem C76_vector_matrix (s1 : T1.dims = [nK]) (s2 : T2.dims = [nK, nN]) (hK : nK ≤ 2147483647) (hN : nN ≤ 2147483647) (out : Ptr) :
    ∃ zs, Delivers E (matmul R1.h R2.h out) m out c T1.device [nN] zs ∧
      ∀ j, j < nN → NearDot c (elemAt [nN] zs [j]) ((List.range nK).map fun q => (A [q], B [q, j])) := by
  obtain ⟨zs, hl, hz⟩ := exists_elems (ds := [nN]) (P := fun x w =>
      DotTo E.fp c (zeroVal c) ((List.range nK).map fun q => (elemAt T1.dims xs [q], elemAt T2.dims ys (q :: x))) w ∧
      NearDot c w ((List.range nK).map fun q => (A [q], B (q :: x)))) (fun x hx => by
    match x, hx with
    | [j], hx =>
      exact dot_rationals hE hc (f := fun q => [q]) (g := fun q => [q, j]) he1 he2 n1 n2 (fun q hq => by rw [s1]; exact ⟨hq, trivial⟩)
        (fun q hq => by rw [s2]; exact ⟨hq, hx.1, trivial⟩))
  exact ⟨zs, C31_vector_matrix wf h1 he1 h2 he2 c1 c2 (hE.zero c) s1 s2 hK hN (by simpa [prod] using hl)
    (fun i hi => by exact (hz [i] ⟨hi, trivial⟩).1) out, fun i hi => (hz [i] ⟨hi, trivial⟩).2⟩

/-- C76, matrix times matrix. -/
theorem C76_matrix_matrix (s1 : T1.dims = [nM, nK]) (s2 : T2.dims = [nK, nN]) (hs : ShapeOK [nM, nN] c.size)
    (hM : nM ≤ 2147483647) (hK : nK ≤ 2147483647) (hN : nN ≤ 2147483647) (hi : nM * nN ≤ 2147483647) (out : Ptr) :
    ∃ zs, Delivers E (matmul R1.h R2.h out) m out c T1.device [nM, nN] zs ∧
      ∀ i j, i < nM → j < nN → NearDot c (elemAt [nM, nN] zs [i, j]) ((List.range nK).map fun q => (A [i, q], B [q, j])) := by
  obtain ⟨zs, hl, hz⟩ := exists_elems2 (a := [nM]) (b := [nN]) (P := fun x y w =>
      DotTo E.fp c (zeroVal c) ((List.range nK).map fun q => (elemAt T1.dims xs (x ++ [q]), elemAt T2.dims ys (q :: y))) w ∧
      NearDot c w ((List.range nK).map fun q => (A (x ++ [q]), B (q :: y)))) (fun x y hx hy => by
    match x, hx, y, hy with
    | [i], hx, [j], hy =>
      exact dot_rationals hE hc (f := fun q => [i] ++ [q]) (g := fun q => [q, j]) he1 he2 n1 n2
        (fun q hq => by rw [s1]; exact ⟨hx.1, hq, trivial⟩) (fun q hq => by rw [s2]; exact ⟨hq, hy.1, trivial⟩))
  exact ⟨zs, C31_matrix_matrix wf h1 he1 h2 he2 c1 c2 (hE.zero c) s1 s2 hs hM hK hN hi (by simpa [prod] using hl)
    (fun i j hi hj => by exact (hz [i] [j] ⟨hi, trivial⟩ ⟨hj, trivial⟩).1) out, fun i j hi hj => (hz [i] [j] ⟨hi, trivial⟩ ⟨hj, trivial⟩).2⟩

/-- C76, tensor times vector. -/
theorem C76_tensor_vector (s1 : T1.dims = bs ++ [nM, nK]) (hb : bs ≠ []) (s2 : T2.dims = [nK]) (hs : ShapeOK (bs ++ [nM]) c.size)
    (hM : nM ≤ 2147483647) (hK : nK ≤ 2147483647) (hnb : prod bs ≤ 2147483647) (hi : prod (bs ++ [nM]) ≤ 2147483647) (out : Ptr) :
    ∃ zs, DeliversCareless E (matmul R1.h R2.h out) m out c T1.device (bs ++ [nM]) zs ∧
      ∀ cs i, InRange bs cs → i < nM → NearDot c (elemAt (bs ++ [nM]) zs (cs ++ [i])) ((List.range nK).map fun q => (A (cs ++ [i, q]), B [q])) := by
  obtain ⟨zs, hl, hz⟩ := exists_elems2 (a := bs) (b := [nM]) (P := fun x y w =>
      DotTo E.fp c (zeroVal c) ((List.range nK).map fun q => (elemAt T1.dims xs (x ++ (y ++ [q])), elemAt T2.dims ys [q])) w ∧
      NearDot c w ((List.range nK).map fun q => (A (x ++ (y ++ [q])), B [q]))) (fun x y hx hy => by
    match y, hy with
    | [i], hy =>
      exact dot_rationals hE hc (f := fun q => x ++ ([i] ++ [q])) (g := fun q => [q]) he1 he2 n1 n2
        (fun q hq => by rw [s1]; exact inRange_append hx ⟨hy.1, hq, trivial⟩) (fun q hq => by rw [s2]; exact ⟨hq, trivial⟩))
  exact ⟨zs, C31_tensor_vector wf h1 he1 h2 he2 c1 c2 (hE.zero c) s1 hb s2 hs hM hK hnb hi hl
    (fun cs i hc hi => by exact (hz cs [i] hc ⟨hi, trivial⟩).1) out, fun cs i hc hi => (hz cs [i] hc ⟨hi, trivial⟩).2⟩

/-- C76, vector times tensor. -/
theorem C76_vector_tensor (s1 : T1.dims = [nK]) (s2 : T2.dims = bs ++ [nK, nN]) (hb : bs ≠ []) (hs : ShapeOK (bs ++ [nN]) c.size)
    (hK : nK ≤ 2147483647) (hN : nN ≤ 2147483647) (hnb : prod bs ≤ 2147483647) (hi : prod (bs ++ [nN]) ≤ 2147483647) (out : Ptr) :
    ∃ zs, DeliversCareless E (matmul R1.h R2.h out) m out c T1.device (bs ++ [nN]) zs ∧
      ∀ cs j, InRange bs cs → j < nN → NearDot c (elemAt (bs ++ [nN]) zs (cs ++ [j])) ((List.range nK).map fun q => (A [q], B (cs ++ [q, j]))) := by
  obtain ⟨zs, hl, hz⟩ := exists_elems2 (a := bs) (b := [nN]) (P := fun x y w =>
      DotTo E.fp c (zeroVal c) ((List.range nK).map fun q => (elemAt T1.dims xs [q], elemAt T2.dims ys (x ++ (q :: y)))) w ∧
      NearDot c w ((List.range nK).map fun q => (A [q], B (x ++ (q :: y))))) (fun x y hx hy => by
    match y, hy with
    | [j], hy =>
      exact dot_rationals hE hc (f := fun q => [q]) (g := fun q => x ++ [q, j]) he1 he2 n1 n2
        (fun q hq => by rw [s1]; exact ⟨hq, trivial⟩) (fun q hq => by rw [s2]; exact inRange_append hx ⟨hq, hy.1, trivial⟩))
  exact ⟨zs, C31_vector_tensor wf h1 he1 h2 he2 c1 c2 (hE.zero c) s1 s2 hb hs hK hN hnb hi hl
    (fun cs i hc hi => by exact (hz cs [i] hc ⟨hi, trivial⟩).1) out, fun cs i hc hi => (hz cs [i] hc ⟨hi, trivial⟩).2⟩

/-- C76, tensor times tensor, with broadcasting of the batch dims. -/
theorem C76_tensor_tensor (s1 : T1.dims = b1 ++ [nM, nK]) (s2 : T2.dims = b2 ++ [nK, nN]) (hb : b1 ≠ [] ∨ b2 ≠ [])
    (hp1 : ∀ d ∈ b1, 0 < d) (hp2 : ∀ d ∈ b2, 0 < d) (hbc : Broadcasts b1 b2 bd) (hs : ShapeOK (bd ++ [nM, nN]) c.size)
    (hM : nM ≤ 2147483647) (hK : nK ≤ 2147483647) (hN : nN ≤ 2147483647) (hnb : prod bd ≤ 2147483647)
    (hi : prod (bd ++ [nM, nN]) ≤ 2147483647) (out : Ptr) :
    ∃ zs, DeliversCareless E (matmul R1.h R2.h out) m out c T1.device (bd ++ [nM, nN]) zs ∧
      ∀ cs i j, InRange bd cs → i < nM → j < nN → NearDot c (elemAt (bd ++ [nM, nN]) zs (cs ++ [i, j]))
        ((List.range nK).map fun q => (A (under b1 cs ++ [i, q]), B (under b2 cs ++ [q, j]))) := by
  have f1 := hbc.fits hp1
  have f2 := hbc.symm.fits hp2
  obtain ⟨zs, hl, hz⟩ := exists_elems2 (a := bd) (b := [nM, nN]) (P := fun x y w =>
      DotTo E.fp c (zeroVal c) ((List.range nK).map fun q =>
        (elemAt T1.dims xs (under b1 x ++ (y.take 1 ++ [q])), elemAt T2.dims ys (under b2 x ++ (q :: y.drop 1)))) w ∧
      NearDot c w ((List.range nK).map fun q => (A (under b1 x ++ (y.take 1 ++ [q])), B (under b2 x ++ (q :: y.drop 1))))) (fun x y hx hy => by
    match y, hy with
    | [i, j], hy =>
      exact dot_rationals hE hc (f := fun q => under b1 x ++ [i, q]) (g := fun q => under b2 x ++ [q, j]) he1 he2 n1 n2
        (fun q hq => by rw [s1]; exact inRange_append (under_inRange f1 hx) ⟨hy.1, hq, trivial⟩)
        (fun q hq => by rw [s2]; exact inRange_append (under_inRange f2 hx) ⟨hq, hy.2.1, trivial⟩))
  exact ⟨zs, C31_tensor_tensor wf h1 he1 h2 he2 c1 c2 (hE.zero c) s1 s2 hb hp1 hp2 hbc hs hM hK hN hnb hi hl
    (fun cs i j hc hi hj => by exact (hz cs [i, j] hc ⟨hi, hj, trivial⟩).1) out, fun cs i j hc hi hj => (hz cs [i, j] hc ⟨hi, hj, trivial⟩).2⟩

/-- C76, `dot` of two vectors. -/
theorem C76_dot_vectors (s1 : T1.dims = [nK]) (s2 : T2.dims = [nK]) (hK : nK ≤ 2147483647) (out : Ptr) :
    ∃ w, Delivers E (dot R1.h R2.h out) m out c T1.device [1] [w] ∧ NearDot c w ((List.range nK).map fun q => (A [q], B [q])) := by
  obtain ⟨w, hd, hst⟩ := dot_rationals hE hc (f := fun q => [q]) (g := fun q => [q]) he1 he2 n1 n2 (fun q hq => by rw [s1]; exact ⟨hq, trivial⟩)
    (fun q hq => by rw [s2]; exact ⟨hq, trivial⟩)
  exact ⟨w, C34_vector_vector wf h1 he1 h2 he2 c1 c2 (hE.zero c) (hE.zero' c) s1 s2 hK
    (hd) out, hst⟩

/-- C76, `dot` of a tensor and a vector. -/
theorem C76_dot_tensor_vector (s1 : T1.dims = bs ++ [nK]) (hb : bs ≠ []) (s2 : T2.dims = [nK]) (hK : nK ≤ 2147483647)
    (hn : prod bs * c.size ≤ 2147483647) (h0 : 0 < prod bs → 0 < nK) (out : Ptr) :
    ∃ zs, Attempts E (dot R1.h R2.h out) m ⟨c.dtype, T1.device, bs, encAll c zs⟩ ∧
      ∀ cs, InRange bs cs → NearDot c (elemAt bs zs cs) ((List.range nK).map fun q => (A (cs ++ [q]), B [q])) := by
  obtain ⟨zs, hl, hz⟩ := exists_elems (ds := bs) (P := fun x w =>
      DotTo E.fp c (zeroVal c) ((List.range nK).map fun q => (elemAt T1.dims xs (x ++ [q]), elemAt T2.dims ys [q])) w ∧
      NearDot c w ((List.range nK).map fun q => (A (x ++ [q]), B [q]))) (fun x hx =>
    dot_rationals hE hc (f := fun q => x ++ [q]) (g := fun q => [q]) he1 he2 n1 n2
        (fun q hq => by rw [s1]; exact inRange_append hx ⟨hq, trivial⟩) (fun q hq => by rw [s2]; exact ⟨hq, trivial⟩))
  exact ⟨zs, C34_tensor_vector_partial wf h1 he1 h2 he2 c1 c2 (hE.zero c) (hE.zero' c) s1 hb s2 hK hn h0 hl
    (fun cs hr => by exact (hz cs hr).1) out, fun cs hr => (hz cs hr).2⟩

/-- C76, `dot` of two tensors of rank at least 3. -/
theorem C76_dot_tensors {l : Nat} (s1 : T1.dims = b1 ++ [nK]) (s2 : T2.dims = b2 ++ [nK, l])
    (hb1 : 2 ≤ b1.length) (hb2 : b2 ≠ []) (h0 : 0 < nK) (hK : nK ≤ 2147483647) (hn1 : prod b1 ≤ 2147483647) (hn2 : prod b2 * l ≤ 2147483647)
    (hs : ShapeOK (b1 ++ b2 ++ [l]) c.size) (out : Ptr) :
    ∃ zs, Attempts E (dot R1.h R2.h out) m ⟨c.dtype, T1.device, b1 ++ b2 ++ [l], encAll c zs⟩ ∧
      ∀ cs ds j, InRange b1 cs → InRange b2 ds → j < l → NearDot c (elemAt (b1 ++ b2 ++ [l]) zs (cs ++ ds ++ [j]))
        ((List.range nK).map fun q => (A (cs ++ [q]), B (ds ++ [q, j]))) := by
  obtain ⟨zs, hl, hz⟩ := exists_elems2 (a := b1 ++ b2) (b := [l]) (P := fun x y w =>
      DotTo E.fp c (zeroVal c) ((List.range nK).map fun q =>
        (elemAt T1.dims xs (x.take b1.length ++ [q]), elemAt T2.dims ys (x.drop b1.length ++ (q :: y)))) w ∧
      NearDot c w ((List.range nK).map fun q => (A (x.take b1.length ++ [q]), B (x.drop b1.length ++ (q :: y))))) (fun x y hx hy => by
    obtain ⟨hx1, hx2⟩ := inRange_split hx
    match y, hy with
    | [j], hy =>
      exact dot_rationals hE hc (f := fun q => x.take b1.length ++ [q]) (g := fun q => x.drop b1.length ++ [q, j]) he1 he2 n1 n2
        (fun q hq => by rw [s1]; exact inRange_append hx1 ⟨hq, trivial⟩)
        (fun q hq => by rw [s2]; exact inRange_append hx2 ⟨hq, hy.1, trivial⟩))
  have hz' : ∀ cs ds j, InRange b1 cs → InRange b2 ds → j < l →
      DotTo E.fp c (zeroVal c) ((List.range nK).map fun q => (elemAt T1.dims xs (cs ++ [q]), elemAt T2.dims ys (ds ++ [q, j])))
        (elemAt (b1 ++ b2 ++ [l]) zs (cs ++ ds ++ [j])) ∧
      NearDot c (elemAt (b1 ++ b2 ++ [l]) zs (cs ++ ds ++ [j])) ((List.range nK).map fun q => (A (cs ++ [q]), B (ds ++ [q, j]))) := by
    intro cs ds j hc hd hj
    have := hz (cs ++ ds) [j] (inRange_append hc hd) ⟨hj, trivial⟩
    rwa [List.take_left' hc.length, List.drop_left' hc.length] at this
  exact ⟨zs, C34_tensor_tensor_partial wf h1 he1 h2 he2 c1 c2 (hE.zero c) (hE.zero' c) s1 s2 hb1 hb2 h0 hK hn1
    hn2 hs hl (fun cs ds j hc hd hj => by exact (hz' cs ds j hc hd hj).1) out, fun cs ds j hc hd hj => (hz' cs ds j hc hd hj).2⟩

end

/-- C76, convolution. -/
theorem C76_conv {B' C O : Nat} (hE : Machine E.fp) (wf : m.WF) (h1 : At m R1 T1) (h2 : At m R2 T2) (e1 : Elems T1 .f32 xs) (e2 : Elems T2 .f32 ys)
    (s1 : T1.dims = B' :: C :: ws.map Win.x) (s2 : T2.dims = O :: C :: ws.map Win.k) (h : ∀ w ∈ ws, w.Fits ∧ w.Wide)
    (hso : ShapeOK (B' :: O :: ws.map Win.out) 4) (hC : 0 < C) (n1 : Rationals T1.dims xs A) (n2 : Rationals T2.dims ys B)
    (st st' : Status) (groups : Int) (out : Ptr) :
    ∃ zs : List Val, zs.length = prod (B' :: O :: ws.map Win.out) ∧
      (∀ b oc os, InRange (B' :: O :: ws.map Win.out) (b :: oc :: os) →
        NearDot .f32 (elemAt (B' :: O :: ws.map Win.out) zs (b :: oc :: os)) (convRats A B ws C b oc os)) ∧
      Leaves E (conv (some st) (some st') R1.h R2.h (dimsCells (ws.map Win.s)) (dimsCells (ws.map Win.p)) (dimsCells (ws.map Win.d)) groups out) m out
        (if st = .success then st' else st) ⟨Code.f32.dtype, T1.device, B' :: O :: ws.map Win.out, encAll .f32 zs⟩ := by
  obtain ⟨zs, hl, hz, hr⟩ := C40_conv (E := E) wf h1 h2 e1 e2 s1 s2 h hso hC st st' groups out
  refine ⟨zs, hl, fun b oc os hio => ?_, hr⟩
  have hlen : ws.length = os.length := by have := hio.2.2.length; simpa using this.symm
  obtain ⟨z, hz0, hy⟩ := hz b oc os hio
  have e0 : z = zeroVal .f32 := by
    have := hE.zero .f32
    rw [ZeroOf, converts_iff] at hz0 this
    rw [hz0] at this
    cases this; rfl
  subst e0
  have hd := dotTo_near hE (c := .f32) (.inl rfl) (l := (List.range C).flatMap fun ic => (List.range (prod (ws.map Win.k))).filterMap fun j =>
      (winAt ws os (unlin (ws.map Win.k) j)).map fun cs => ((elemAt T1.dims xs (b :: ic :: cs), elemAt T2.dims ys (oc :: ic :: unlin (ws.map Win.k) j)),
        (A (b :: ic :: cs), B (oc :: ic :: unlin (ws.map Win.k) j)))) (by
    intro p hp
    simp only [List.mem_flatMap, List.mem_range, List.mem_filterMap, Option.map_eq_some_iff] at hp
    obtain ⟨ic, hic, j, hj, cs, hw, rfl⟩ := hp
    have hq := unlin_inRange hj
    have r1 : InRange T1.dims (b :: ic :: cs) := by rw [s1]; exact ⟨hio.1, hic, winAt_inRange hlen (by rw [unlin_length]; simp) hw⟩
    have r2 : InRange T2.dims (oc :: ic :: unlin (ws.map Win.k) j) := by rw [s2]; exact ⟨hio.2.1, hic, hq⟩
    exact ⟨elemAt_WT e1 rfl r1, elemAt_WT e2 rfl r2, n1 _ r1, n2 _ r2⟩)
    (w := elemAt (B' :: O :: ws.map Win.out) zs (b :: oc :: os)) (by
      simpa [convTerms, List.map_flatMap, List.map_filterMap, Option.map_map, Function.comp_def] using hy)
  simpa [convRats, List.map_flatMap, List.map_filterMap, Option.map_map, Function.comp_def] using hd

/-- C76, what this is worth for sums of up to `2^23` (`float`) or `2^52` (`double`) products: the distance is at most `2 * (n + 1)` parts in `2^24` or
`2^53` of the sum of the absolute values, and `2 * n` times the smallest number of the type. -/
theorem C76_simple {w : Val} {l : List (Rat × Rat)} {q : Rat} (h : NearDot c w l) (hq : w.rat = some q) :
    (c = .f32 → l.length < 8388608 → (q - ratDot l).abs ≤ 2 * (l.length + 1) / 2 ^ 24 * ratMass l + 2 * l.length * 2 ^ (-149 : Int)) ∧
    (c = .f64 → l.length < 4503599627370496 → (q - ratDot l).abs ≤ 2 * (l.length + 1) / 2 ^ 53 * ratMass l + 2 * l.length * 2 ^ (-1074 : Int)) := by
  refine ⟨fun e hl => ?_, fun e hl => ?_⟩ <;> subst e
  · exact Rat.le_trans (h.1 q hq) (slack_simple b32 (ratMass_nonneg l) (by show _ ≤ 2 ^ 24; omega))
  · exact Rat.le_trans (h.1 q hq) (slack_simple b64 (ratMass_nonneg l) (by show _ ≤ 2 ^ 53; omega))

/-- C76, no cancellation: if no product is negative the error is relative to the exact sum itself. -/
theorem C76_positive {l : List (Rat × Rat)} (h : ∀ p ∈ l, 0 ≤ p.1 * p.2) : ratMass l = ratDot l := by
  induction l with
  | nil => rfl
  | cons p l ih =>
    have h1 := h p (List.mem_cons_self ..)
    have h2 := ih fun p hp => h p (List.mem_cons_of_mem _ hp)
    obtain ⟨a, b⟩ := p
    simp only [ratMass, ratDot] at *
    rw [h2]
    grind [Rat.abs]

/-! ## Examples -/

/-- 16777216, 1, 1 as `float`. -/
def exErr1 : TV := tvOf .f32 [3] [.f32 0x4B800000, .f32 0x3F800000, .f32 0x3F800000]

/-- 1, 1, 1. -/
def exErr2 : TV := tvOf .f32 [3] [.f32 0x3F800000, .f32 0x3F800000, .f32 0x3F800000]

def exErrA : List Nat → Rat
  | [0] => 16777216
  | _ => 1

theorem exErr1_rat : Rationals [3] [.f32 0x4B800000, .f32 0x3F800000, .f32 0x3F800000] exErrA := by
  intro cs hc
  match cs, hc with
  | [0], _ => decide +kernel
  | [1], _ => decide +kernel
  | [2], _ => decide +kernel
  | [n + 3], hc => exact absurd hc.1 (by omega)

theorem exErr2_rat : Rationals [3] [.f32 0x3F800000, .f32 0x3F800000, .f32 0x3F800000] (fun _ => 1) := by
  intro cs hc
  match cs, hc with
  | [0], _ => decide +kernel
  | [1], _ => decide +kernel
  | [2], _ => decide +kernel
  | [n + 3], hc => exact absurd hc.1 (by omega)

/-- The product of the two vectors, exactly 16777218: the result is within 9 of it. -/
example : ∃ w q, Delivers ieeeEnv (matmul Mem.empty.footT.h (Mem.empty.addT exErr1).footT.h .indet) ((Mem.empty.addT exErr1).addT exErr2) .indet .f32
    ⟨DEVICE_CPU, 0⟩ [1] [w] ∧ w.rat = some q ∧ (q - 16777218).abs ≤ 9 := by
  obtain ⟨w, hd, hn⟩ := C76_vector_vector (E := ieeeEnv) (T1 := exErr1) (T2 := exErr2) (nK := 3) (c := .f32) ieee_machine (.inl rfl)
    (Mem.addT_wf (Mem.addT_wf Mem.empty_wf _) _) (addT_old (Mem.addT_wf Mem.empty_wf _) (tvOf_at _ (by simp) rfl ⟨by decide, by decide⟩) _)
    (tvOf_elems (by decide) rfl) (tvOf_at _ (by simp) rfl ⟨by decide, by decide⟩) (tvOf_elems (by decide) rfl) rfl rfl exErr1_rat exErr2_rat rfl rfl
    (by decide) .indet
  have e : ((List.range 3).map fun q => (exErrA [q], (1 : Rat))) = [(16777216, 1), (1, 1), (1, 1)] := rfl
  rw [e] at hn
  obtain ⟨q, hq⟩ := hn.2 (by decide +kernel)
  have hb := (C76_simple hn hq).1 rfl (by decide)
  have e1 : ratDot [(16777216, 1), (1, 1), (1, 1)] = 16777218 := by decide +kernel
  have e2 : 2 * ((([((16777216 : Rat), (1 : Rat)), (1, 1), (1, 1)].length : Nat) : Rat) + 1) / 2 ^ 24 * ratMass [(16777216, 1), (1, 1), (1, 1)] +
      2 * (([((16777216 : Rat), (1 : Rat)), (1, 1), (1, 1)].length : Nat) : Rat) * 2 ^ (-149 : Int) ≤ 9 := by decide +kernel
  rw [e1] at hb
  exact ⟨w, q, hd, hq, Rat.le_trans hb e2⟩

/-- The same on a machine with fused multiply-add. -/
example : ∃ w, Delivers fusedEnv (matmul Mem.empty.footT.h (Mem.empty.addT exErr1).footT.h .indet) ((Mem.empty.addT exErr1).addT exErr2) .indet .f32
    ⟨DEVICE_CPU, 0⟩ [1] [w] ∧ NearDot .f32 w ((List.range 3).map fun q => (exErrA [q], 1)) :=
  C76_vector_vector (E := fusedEnv) (T1 := exErr1) (T2 := exErr2) (nK := 3) (c := .f32) fused_machine (.inl rfl)
    (Mem.addT_wf (Mem.addT_wf Mem.empty_wf _) _) (addT_old (Mem.addT_wf Mem.empty_wf _) (tvOf_at _ (by simp) rfl ⟨by decide, by decide⟩) _)
    (tvOf_elems (by decide) rfl) (tvOf_at _ (by simp) rfl ⟨by decide, by decide⟩) (tvOf_elems (by decide) rfl) rfl rfl exErr1_rat exErr2_rat rfl rfl
    (by decide) .indet

/-- The two machines differ: for 1 + 2^-12 squared, less 1 + 2^-11, one gives 0 and the other 2^-24. -/
example : ieee.mac32 0xBF801000 0x3F800800 0x3F800800 = 0 ∧ fused.mac32 0xBF801000 0x3F800800 0x3F800800 = 0x33800000 := by decide +kernel

/-- The machine gives 16777216: the sum is not exact, so an error must be allowed for. -/
example : DotTo ieee .f32 (.f32 0) [(.f32 0x4B800000, .f32 0x3F800000), (.f32 0x3F800000, .f32 0x3F800000), (.f32 0x3F800000, .f32 0x3F800000)] (.f32 0x4B800000) ∧
    (Val.f32 0x4B800000).rat = some 16777216 := by
  refine ⟨⟨.f32 0x4B800000, ?_, .f32 0x4B800000, ?_, .f32 0x4B800000, ?_, rfl⟩, by decide +kernel⟩ <;> exact congrArg Val.f32 (by decide +kernel)

/-- A result that is off by 16 is not near. -/
example : ¬ NearDot .f32 (.f32 0x4B800007) [(16777216, 1), (1, 1), (1, 1)] := by
  intro h
  have hq : (Val.f32 0x4B800007).rat = some 16777230 := by decide +kernel
  have := (C76_simple h hq).1 rfl (by decide)
  exact absurd this (by decide +kernel)

end Aitisa
