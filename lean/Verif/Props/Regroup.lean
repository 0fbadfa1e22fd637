import Verif.Spec.Regroup
import Verif.Props.Batch
import Verif.Props.Exact

/-!
# C72: merging axes does not change what is computed
-/

namespace Aitisa

variable {E : Env} {m : Mem} {R R2 : Foot} {T T2 : TV} {c : Code} {xs ys zs : List Val} {B C n : Nat} {pre post : List Nat}

/-- Four calls: the operator; reshape, the operator for the merged axes, reshape. -/
theorem regroup_same {x x' : Ptr → Ptr → M (Status × Ptr)} {ds dso dsx : List Nat} (wf : m.WF) (h : At m R T) (he : Elems T c xs)
    (hf : ShapeOK ds c.size) (hp : prod ds = prod T.dims) (hfo : ShapeOK dso c.size) (hpo : prod dso = prod dsx)
    (hx : ∀ out, MakesIf E (x R.h out) m ⟨c.dtype, T.device, dso, encAll c zs⟩)
    (hx' : ∀ m' R' out, m'.WF → Frame m m' → At m' R' ⟨c.dtype, T.device, ds, encAll c xs⟩ →
      Elems ⟨c.dtype, T.device, ds, encAll c xs⟩ c xs → MakesIf E (x' R'.h out) m' ⟨c.dtype, T.device, dsx, encAll c zs⟩) :
    Regrouped E m x x' R.h ds dso := by
  have e2 : Elems ⟨c.dtype, T.device, ds, encAll c xs⟩ c xs := ⟨rfl, rfl, he.wt, by rw [he.len]; exact hp.symm⟩
  have r2 : ∀ {m' : Mem} (out : Ptr), m'.WF → Frame m m' →
      MakesIf E (reshape R.h (dimsCells ds) ds.length out) m' ⟨c.dtype, T.device, ds, encAll c xs⟩ := fun out w f => by
    have := (C18_reshape (E := E) w (h.frame wf f) ds (by rw [he.dtype]; exact hf) hp out).yields
    rwa [he.bytes, he.dtype] at this
  have r4 : ∀ {m' : Mem} {R' : Foot} (out : Ptr), m'.WF → At m' R' ⟨c.dtype, T.device, dsx, encAll c zs⟩ →
      MakesIf E (reshape R'.h (dimsCells dso) dso.length out) m' ⟨c.dtype, T.device, dso, encAll c zs⟩ := fun out w a =>
    (C18_reshape (E := E) w a dso hfo hpo out).yields
  constructor
  · intro out1 out2 out3 out4 h1 h2 h3 h4 m1 m2 m3 m4 q1 q2 q3 q4
    obtain ⟨Ra, rfl, P1⟩ := (hx out1).only q1
    obtain ⟨Rb, rfl, P2⟩ := (r2 out2 P1.ext.wf P1.ext.toFrame).only q2
    have f2 : Frame m m2 := P1.ext.toFrame.trans P2.ext.toFrame
    obtain ⟨Rc, rfl, P3⟩ := (hx' _ Rb out3 P2.ext.wf f2 P2.tensor e2).only q3
    obtain ⟨Rd, rfl, P4⟩ := (r4 out4 P3.ext.wf P3.tensor).only q4
    exact sameTensor_of P3.ext.wf (P1.tensor.frame P1.ext.wf (P2.ext.toFrame.trans P3.ext.toFrame)) P4
  · intro nf ma out1 out2 out3 out4
    obtain ⟨Ra, m1, q1, P1⟩ := (hx out1).runs nf ma
    obtain ⟨Rb, m2, q2, P2⟩ := (r2 out2 P1.ext.wf P1.ext.toFrame).runs nf ma
    have f2 : Frame m m2 := P1.ext.toFrame.trans P2.ext.toFrame
    obtain ⟨Rc, m3, q3, P3⟩ := (hx' _ Rb out3 P2.ext.wf f2 P2.tensor e2).runs nf ma
    obtain ⟨Rd, m4, q4, P4⟩ := (r4 out4 P3.ext.wf P3.tensor).runs nf ma
    exact ⟨_, _, _, _, _, _, _, _, q1, q2, q3, q4, sameTensor_of P3.ext.wf (P1.tensor.frame P1.ext.wf (P2.ext.toFrame.trans P3.ext.toFrame)) P4⟩

/-! ### Coordinates -/

theorem prod_le_max (l : List Nat) : max (prod l) 1 ≤ prodMax l := by
  have h1 := prod_le_prodMax l
  have h2 : 1 ≤ prodMax l := by
    clear h1
    induction l with
    | nil => exact Nat.le_refl _
    | cons d l ih => simp only [prodMax]; exact Nat.mul_le_mul (Nat.le_max_right d 1) ih
  omega

theorem merge_shape {sz : Nat} (h : ShapeOK (pre ++ n :: post) sz) : ShapeOK [prod pre, n, prod post] sz := by
  refine ⟨Nat.le_trans (Nat.mul_le_mul_right _ ?_) h.fits, by simp⟩
  rw [prodMax_app]
  simp only [prodMax, Nat.mul_one]
  exact Nat.mul_le_mul (prod_le_max _) (Nat.mul_le_mul_left _ (prod_le_max _))

theorem merge_prod : prod [prod pre, n, prod post] = prod (pre ++ n :: post) := by
  rw [prod_append]
  simp [prod]

/-- The coordinates behind merged coordinates. -/
def spread (pre post : List Nat) : List Nat → List Nat
  | [i, j, k] => unlin pre i ++ j :: unlin post k
  | _ => []

theorem spread_lin {cs : List Nat} (h : InRange [prod pre, n, prod post] cs) :
    lin [prod pre, n, prod post] cs = lin (pre ++ n :: post) (spread pre post cs) := by
  match cs, h with
  | [i, j, k], ⟨h1, h2, h3, _⟩ =>
    simp only [spread]
    rw [lin_append (unlin_length pre i)]
    simp [lin, prod, lin_unlin h1, lin_unlin h3]

theorem spread_inRange {cs : List Nat} (h : InRange [prod pre, n, prod post] cs) : InRange (pre ++ n :: post) (spread pre post cs) := by
  match cs, h with
  | [i, j, k], ⟨h1, h2, h3, _⟩ => exact inRange_append (unlin_inRange h1) ⟨h2, unlin_inRange h3⟩

theorem spread_elem (l : List Val) {cs : List Nat} (h : InRange [prod pre, n, prod post] cs) :
    elemAt [prod pre, n, prod post] l cs = elemAt (pre ++ n :: post) l (spread pre post cs) := by
  rw [elemAt, elemAt, spread_lin h]

theorem spread_mid {cs : List Nat} (h : InRange [prod pre, n, prod post] cs) : (spread pre post cs).getD pre.length 0 = cs.getD 1 0 := by
  match cs, h with
  | [i, j, k], _ => simp [spread, List.getD, unlin_length]

theorem spread_line (l : List Val) {cs : List Nat} (h : InRange [prod pre, n, prod post] cs) :
    lineAt [prod pre, n, prod post] 1 l cs = lineAt (pre ++ n :: post) pre.length l (spread pre post cs) := by
  match cs, h with
  | [i, j, k], ⟨h1, h2, h3, _⟩ =>
    have e : (pre ++ n :: post).getD pre.length 0 = n := by simp [List.getD]
    unfold lineAt
    rw [e]
    refine List.map_congr_left fun q hq => ?_
    have hq : q < n := List.mem_range.1 hq
    have := spread_elem (pre := pre) (post := post) (n := n) l (cs := [i, q, k]) ⟨h1, hq, h3, trivial⟩
    rw [show [i, j, k].set 1 q = [i, q, k] from rfl, this]
    simp only [spread]
    rw [List.set_append_right _ _ (by rw [unlin_length]), unlin_length, Nat.sub_self, List.set_cons_zero]

/-! ### Softmax -/

/-- C72, softmax: the axes before and behind the chosen one can be merged. -/
theorem C72_softmax {es : List Val} (wf : m.WF) (h : At m R T) (he : Elems T c xs) (hs : T.dims = pre ++ n :: post)
    (hsz : prod T.dims < 4611686018427387904) (hes : Pointwise (ExpOf E.fp c) xs es)
    (hys : ∀ cs, InRange T.dims cs → ∃ y, ShareOf E.fp c (lineAt T.dims pre.length es cs) (elemAt T.dims es cs) y) :
    Regrouped E m (fun h out => softmax h pre.length out) (fun h out => softmax h (1 : Nat) out) R.h [prod pre, n, prod post] T.dims := by
  obtain ⟨ys, hl, hys⟩ := exists_elems hys
  have hT : ShapeOK T.dims c.size := by have := h.shape; rw [he.dtype] at this; exact this
  have hP : prod [prod pre, n, prod post] = prod T.dims := by rw [hs]; exact merge_prod
  refine regroup_same (zs := ys) (dsx := [prod pre, n, prod post]) wf h he (merge_shape (by rw [← hs]; exact hT)) hP hT hP.symm (fun out => ?_)
    fun m' R' out w f a e => ?_
  · have := (C37_axis (E := E) (a := pre.length) wf h he (by rw [hs]; simp) hsz hes (by rw [he.len, hl]) hys out).yields
    rwa [he.dtype] at this
  · refine (C37_axis (E := E) (a := 1) w a e (by simp) ?_ hes (by rw [he.len, hl]) (fun cs hc => ?_) out).yields
    · show prod [prod pre, n, prod post] < _
      rw [hP]; exact hsz
    · have := hys (spread pre post cs) (by rw [hs]; exact spread_inRange hc)
      show ShareOf E.fp c (lineAt [prod pre, n, prod post] 1 es cs) (elemAt [prod pre, n, prod post] es cs) (elemAt [prod pre, n, prod post] ys cs)
      rw [spread_line es hc, spread_elem es hc, spread_elem ys hc, ← hs]
      exact this

/-! ### Batch normalisation -/

/-- C72, batch normalisation: the axes before and behind the axis of the channels can be merged; channels along axis 1 and along the last
axis are the same computation. -/
theorem C72_batch_norm {Rs Rb Rm Rv : Foot} {Sc Bi Me Va : TV} {ss bs ms vs : List Val} {eps : BitVec 64}
    (wf : m.WF) (h : At m R T) (hsc : At m Rs Sc) (hbi : At m Rb Bi) (hme : At m Rm Me) (hva : At m Rv Va)
    (he : Elems T c xs) (es : Elems Sc c ss) (eb : Elems Bi c bs) (em : Elems Me c ms) (ev : Elems Va c vs)
    (hdev : T.device.type = 0) (gs : Sc.device.type = 0) (gb : Bi.device.type = 0) (gm : Me.device.type = 0) (gv : Va.device.type = 0)
    (hs : T.dims = pre ++ n :: post) (hpre : pre ≠ [])
    (hreq : ∀ p ∈ bnRequires E.fp T pre.length Sc Bi Me Va eps, p.1) (hpos : ∀ x ∈ T.dims.drop 1, 0 < x) (hsm : BnSmall T pre.length c)
    (hB : prod pre ≤ 2147483647)
    (hden : ∀ ch, ch < n → ∃ e t r, Converts E.fp c (.f64 eps) e ∧ OpResult E.fp c .add (vs.getD ch (.int 0)) e t ∧
      ¬ Negative E.fp t ∧ RootOf E.fp c t r)
    (hnt : ∀ cs, InRange T.dims cs → ∃ r, NormTo E.fp c eps (ss.getD (cs.getD pre.length 0) (.int 0)) (bs.getD (cs.getD pre.length 0) (.int 0))
      (ms.getD (cs.getD pre.length 0) (.int 0)) (vs.getD (cs.getD pre.length 0) (.int 0)) (elemAt T.dims xs cs) r) :
    Regrouped E m (fun h out => batchNorm h pre.length Rs.h Rb.h Rm.h Rv.h eps out) (fun h out => batchNorm h (1 : Nat) Rs.h Rb.h Rm.h Rv.h eps out)
      R.h [prod pre, n, prod post] T.dims := by
  have hT : ShapeOK T.dims c.size := by have := h.shape; rw [he.dtype] at this; exact this
  have hP : prod [prod pre, n, prod post] = prod T.dims := by rw [hs]; exact merge_prod
  have hgd : T.dims.getD pre.length 0 = n := by rw [hs]; simp [List.getD]
  have hq := hreq
  simp only [bnRequires, List.forall_mem_cons, Int.toNat_natCast, hgd] at hq
  obtain ⟨q1, q2, q3, ⟨q4, q4'⟩, q5, ⟨q6, q6'⟩, q7, -⟩ := hq
  obtain ⟨p0, pre', hpe⟩ : ∃ p0 pre', pre = p0 :: pre' := by
    cases pre with
    | nil => exact absurd rfl hpre
    | cons a l => exact ⟨a, l, rfl⟩
  have hd1 : T.dims.drop 1 = pre' ++ n :: post := by rw [hs, hpe]; rfl
  rw [hd1] at hpos
  have hn0 : 0 < n := hpos n (by simp)
  have hpo : 0 < prod post := prod_pos fun d hd => hpos d (by simp [hd])
  have hpp : 0 < prod pre' := prod_pos fun d hd => hpos d (by simp [hd])
  obtain ⟨zs, hl, hz, A⟩ := C44_batchNorm_partial (E := E) wf h hsc hbi hme hva he es eb em ev hdev gs gb gm gv pre.length eps .null hreq
    (by rw [hd1]; exact hpos) hsm (by rw [hgd]; exact hden) hnt
  have wt : ∀ {S : TV} {l : List Val}, Elems S c l → S.dims = [n] → ∀ cs, InRange T.dims cs → (l.getD (cs.getD pre.length 0) (.int 0)).WT c := by
    intro S l hE hS cs hc
    refine wt_getD (N := n) hE.wt (by rw [hE.len, hS]; simp [prod]) ?_
    have := inRange_get hc (k := pre.length) (by rw [hs]; simp)
    rwa [hs, show (pre ++ n :: post).getD pre.length 1 = n by simp [List.getD]] at this
  refine regroup_same (zs := zs) (dsx := [prod pre, n, prod post]) wf h he (merge_shape (by rw [← hs]; exact hT)) hP hT hP.symm (fun out => ?_)
    fun m' R' out w f a e => ?_
  · obtain ⟨zs', hl', hz', A⟩ := C44_batchNorm_partial (E := E) wf h hsc hbi hme hva he es eb em ev hdev gs gb gm gv pre.length eps out hreq
      (by rw [hd1]; exact hpos) hsm (by rw [hgd]; exact hden) hnt
    rw [elems_ext hl' hl fun cs hc => C44_unique (wt es q4 cs hc) (wt eb q4' cs hc) (wt em q6 cs hc) (wt ev q6' cs hc)
      (elemAt_WT he rfl hc) (hz' cs hc) (hz cs hc)] at A
    exact A.yields
  · have key : ∀ cs, InRange [prod pre, n, prod post] cs → InRange T.dims (spread pre post cs) ∧
        (spread pre post cs).getD pre.length 0 = cs.getD 1 0 := fun cs hc => ⟨by rw [hs]; exact spread_inRange hc, spread_mid hc⟩
    have hi : prod ((T.dims.eraseIdx pre.length).drop 1) = prod pre' * prod post := by
      rw [hs, List.eraseIdx_append_of_length_le (Nat.le_refl _), Nat.sub_self, List.eraseIdx_cons_zero, hpe, List.cons_append, List.drop_succ_cons,
        List.drop_zero, prod_append]
    have hle : prod post ≤ prod pre' * prod post := Nat.le_mul_of_pos_left _ hpp
    have hle' := Nat.mul_le_mul_right c.size hle
    obtain ⟨b1, b2, b3, b4, b5⟩ := hsm
    rw [hi] at b3 b5
    rw [hgd] at b2 b4
    obtain ⟨zs', hl', hz', A'⟩ := C44_batchNorm_partial (E := E) w a (hsc.frame wf f) (hbi.frame wf f) (hme.frame wf f) (hva.frame wf f)
      e es eb em ev hdev gs gb gm gv 1 eps out (by
        simp only [bnRequires, List.forall_mem_cons, Int.toNat_natCast]
        rw [he.dtype] at q3 q5
        exact ⟨by simp, .inl rfl, q3, ⟨q4, q4'⟩, q5, ⟨q6, q6'⟩, q7, by simp⟩) (by
        intro x hx
        have hx : x ∈ [n, prod post] := hx
        simp only [List.mem_cons, List.not_mem_nil, or_false] at hx
        rcases hx with rfl | rfl <;> assumption)
      ⟨hB, b2, by simp [prod]; omega, b4, by simp [prod]; omega⟩ hden (by
        intro cs hc
        obtain ⟨g1, g2⟩ := key cs hc
        obtain ⟨r, hr⟩ := hnt _ g1
        rw [g2, hs, ← spread_elem xs hc] at hr
        exact ⟨r, hr⟩)
    have hzz : zs' = zs := by
      refine elems_ext hl' (by rw [hl]; exact hP.symm) fun cs hc => ?_
      obtain ⟨g1, g2⟩ := key cs hc
      have t1 := hz' cs hc
      have t2 := hz _ g1
      have w1 := wt es q4 _ g1
      have w2 := wt eb q4' _ g1
      have w3 := wt em q6 _ g1
      have w4 := wt ev q6' _ g1
      have w5 := elemAt_WT he rfl g1
      rw [g2] at t2 w1 w2 w3 w4
      simp only [hs] at t2 w5
      rw [← spread_elem xs hc] at t2 w5
      rw [← spread_elem zs hc] at t2
      exact C44_unique w1 w2 w3 w4 w5 t1 t2
    rw [hzz] at A'
    exact A'.yields

/-! ### Pooling -/

theorem join_lin {X : List Nat} {b : Nat} (cs : List Nat) : lin ((B * C) :: 1 :: X) (b :: 0 :: cs) = lin (B :: C :: X) ((b / C) :: (b % C) :: cs) := by
  simp only [lin, prod, Nat.one_mul, Nat.zero_mul, Nat.zero_add]
  have := Nat.div_add_mod b C
  rw [← Nat.add_assoc, ← Nat.mul_assoc, ← Nat.add_mul]
  congr 2
  rw [Nat.mul_comm]; exact this.symm

theorem join_elem {X : List Nat} {b : Nat} (l : List Val) (cs : List Nat) :
    elemAt ((B * C) :: 1 :: X) l (b :: 0 :: cs) = elemAt (B :: C :: X) l ((b / C) :: (b % C) :: cs) := by
  rw [elemAt, elemAt, join_lin]

theorem join_prod {X : List Nat} : prod ((B * C) :: 1 :: X) = prod (B :: C :: X) := by
  simp [prod, Nat.mul_assoc]

theorem join_shape {X : List Nat} {sz : Nat} (h : ShapeOK (B :: C :: X) sz) : ShapeOK ((B * C) :: 1 :: X) sz := by
  refine ⟨Nat.le_trans (Nat.mul_le_mul_right _ ?_) h.fits, by simpa using h.rank⟩
  simp only [prodMax, ← Nat.mul_assoc, Nat.max_self, Nat.mul_one]
  refine Nat.mul_le_mul_right _ ?_
  have := prod_le_max [B, C]
  simpa [prod, prodMax] using this

theorem join_inRange {X : List Nat} {b ch : Nat} {cs : List Nat} (h : InRange ((B * C) :: 1 :: X) (b :: ch :: cs)) :
    ch = 0 ∧ InRange (B :: C :: X) ((b / C) :: (b % C) :: cs) := by
  obtain ⟨h1, h2, h3⟩ := h
  have hC : 0 < C := Nat.pos_of_ne_zero fun e => by simp [e] at h1
  exact ⟨by omega, Nat.div_lt_of_lt_mul (by rw [Nat.mul_comm]; exact h1), Nat.mod_lt _ hC, h3⟩

theorem join_win {ws : List Win} {b : Nat} (os : List Nat) :
    winElems ((B * C) :: 1 :: ws.map Win.x) xs ws b 0 os = winElems (B :: C :: ws.map Win.x) xs ws (b / C) (b % C) os := by
  unfold winElems
  congr 1
  funext j
  congr 1
  funext cs
  exact join_elem xs cs

section
variable {ws : List Win} {fuel : Nat}

/-- C72, pooling: samples and channels can be merged (average). -/
theorem C72_avg_pooling (wf : m.WF) (h : At m R T) (he : Elems T c xs) (hs : T.dims = B :: C :: ws.map Win.x)
    (hw : 1 ≤ ws.length) (hw' : ws.length ≤ 3) (hf : ∀ w ∈ ws, w.Fits ∧ w.Small) (hso : ShapeOK (B :: C :: ws.map Win.out) c.size)
    (hi : prod (ws.map Win.out) ≤ 2147483647) (hK : prod (ws.map Win.k) ≤ 9223372036854775807)
    (hfu : prod (ws.map Win.k) ≤ fuel) (hfu' : prod (ws.map Win.out) ≤ fuel)
    (hz : ∀ b ch os, InRange (B :: C :: ws.map Win.out) (b :: ch :: os) →
      ∃ z, AvgOf E.fp c (prod (ws.map Win.k)) (winElems T.dims xs ws b ch os) z) :
    Regrouped E m
      (fun h out => pooling fuel h "avg" (dimsCells (ws.map Win.k)) (dimsCells (ws.map Win.s)) (dimsCells (ws.map Win.p)) (dimsCells (ws.map Win.d)) out)
      (fun h out => pooling fuel h "avg" (dimsCells (ws.map Win.k)) (dimsCells (ws.map Win.s)) (dimsCells (ws.map Win.p)) (dimsCells (ws.map Win.d)) out)
      R.h ((B * C) :: 1 :: ws.map Win.x) (B :: C :: ws.map Win.out) := by
  obtain ⟨zs, hl, hz⟩ := exists_grid hz
  have hT : ShapeOK T.dims c.size := by have := h.shape; rw [he.dtype] at this; exact this
  refine regroup_same (zs := zs) (dsx := (B * C) :: 1 :: ws.map Win.out) wf h he (join_shape (by rw [← hs]; exact hT)) (by rw [hs]; exact join_prod) hso
    join_prod.symm (fun out => (C38_avg wf h he hs hw hw' hf hso hi hK hfu hfu' hl hz out).yields) fun m' R' out w f a e => ?_
  refine (C38_avg w a e rfl hw hw' hf (join_shape hso) hi hK hfu hfu' (by rw [hl, join_prod]) (fun b ch os ho => ?_) out).yields
  obtain ⟨rfl, ho'⟩ := join_inRange ho
  rw [join_win, join_elem, ← hs]
  exact hz _ _ _ ho'

/-- C72, pooling: samples and channels can be merged (maximum). -/
theorem C72_max_pooling (wf : m.WF) (h : At m R T) (he : Elems T c xs) (hs : T.dims = B :: C :: ws.map Win.x)
    (hw : 1 ≤ ws.length) (hw' : ws.length ≤ 3) (hf : ∀ w ∈ ws, w.Fits ∧ w.Small) (hso : ShapeOK (B :: C :: ws.map Win.out) c.size)
    (hi : prod (ws.map Win.out) ≤ 2147483647) (hK : prod (ws.map Win.k) ≤ 9223372036854775807)
    (hfu : prod (ws.map Win.k) ≤ fuel) (hfu' : prod (ws.map Win.out) ≤ fuel)
    (hz : ∀ b ch os, InRange (B :: C :: ws.map Win.out) (b :: ch :: os) → ∃ z, ScanOf E.fp c (winElems T.dims xs ws b ch os) z) :
    Regrouped E m
      (fun h out => pooling fuel h "max" (dimsCells (ws.map Win.k)) (dimsCells (ws.map Win.s)) (dimsCells (ws.map Win.p)) (dimsCells (ws.map Win.d)) out)
      (fun h out => pooling fuel h "max" (dimsCells (ws.map Win.k)) (dimsCells (ws.map Win.s)) (dimsCells (ws.map Win.p)) (dimsCells (ws.map Win.d)) out)
      R.h ((B * C) :: 1 :: ws.map Win.x) (B :: C :: ws.map Win.out) := by
  obtain ⟨zs, hl, hz⟩ := exists_grid hz
  have hT : ShapeOK T.dims c.size := by have := h.shape; rw [he.dtype] at this; exact this
  refine regroup_same (zs := zs) (dsx := (B * C) :: 1 :: ws.map Win.out) wf h he (join_shape (by rw [← hs]; exact hT)) (by rw [hs]; exact join_prod) hso
    join_prod.symm (fun out => (C38_max wf h he hs hw hw' hf hso hi hK hfu hfu' hl hz out).yields) fun m' R' out w f a e => ?_
  refine (C38_max w a e rfl hw hw' hf (join_shape hso) hi hK hfu hfu' (by rw [hl, join_prod]) (fun b ch os ho => ?_) out).yields
  obtain ⟨rfl, ho'⟩ := join_inRange ho
  rw [join_win, join_elem, ← hs]
  exact hz _ _ _ ho'

end

/-! ### Matrix products -/

section
variable {z : Val} {bs : List Nat} {nM nK nN : Nat}

theorem under_own {ds cs : List Nat} (h : InRange ds cs) : under ds cs = cs := by
  unfold under
  rw [h.length, Nat.sub_self, List.drop_zero]
  induction ds generalizing cs with
  | nil => cases cs with
    | nil => rfl
    | cons => exact h.elim
  | cons d ds ih => cases cs with
    | nil => exact h.elim
    | cons k cs =>
      obtain ⟨h1, h2⟩ := h
      rw [List.zipWith_cons_cons, ih h2]
      congr 1
      split <;> omega

theorem broadcasts_matrix (bs : List Nat) : Broadcasts bs [] bs := by
  refine ⟨fun i => ?_, fun i => ?_⟩
  · cases h : fromRight bs i <;> simp [Compatible, fromRight]
  · cases h : fromRight bs i <;> simp [larger, fromRight]

theorem rows_lin {r : Nat} (hr : r < prod bs * nM) (l : List Nat) (q : List Nat) :
    lin (bs ++ nM :: l) (unlin bs (r / nM) ++ (r % nM) :: q) = lin ((prod bs * nM) :: l) (r :: q) := by
  have h : r / nM < prod bs := Nat.div_lt_of_lt_mul (by rw [Nat.mul_comm]; exact hr)
  rw [lin_append (unlin_length bs _), lin_unlin h]
  simp only [lin, prod]
  rw [← Nat.add_assoc, ← Nat.mul_assoc, ← Nat.add_mul]
  congr 2
  rw [Nat.mul_comm]
  exact Nat.div_add_mod r nM

theorem rows_elem' {r : Nat} (hr : r < prod bs * nM) (v : List Val) (l : List Nat) (q : List Nat) :
    elemAt ((prod bs * nM) :: l) v (r :: q) = elemAt (bs ++ nM :: l) v (unlin bs (r / nM) ++ (r % nM) :: q) := by
  rw [elemAt, elemAt, rows_lin hr]

theorem rows_prod {l : List Nat} : prod ((prod bs * nM) :: l) = prod (bs ++ nM :: l) := by
  rw [prod_append]
  simp [prod, Nat.mul_assoc]

theorem rows_shape {l : List Nat} {sz : Nat} (h : ShapeOK (bs ++ nM :: l) sz) : ShapeOK ((prod bs * nM) :: l) sz := by
  refine ⟨Nat.le_trans (Nat.mul_le_mul_right _ ?_) h.fits, by have := h.rank; simp at this ⊢; omega⟩
  rw [prodMax_append]
  simp only [prodMax, ← Nat.mul_assoc]
  refine Nat.mul_le_mul_right _ ?_
  have h1 := prod_le_max bs
  have h2 := prod_le_max [prod bs, nM]
  simp only [prod, prodMax, Nat.mul_one] at h2
  exact Nat.le_trans h2 (Nat.mul_le_mul_right _ h1)

/-- C72, a stack of matrices times one matrix: the stack can be merged into one tall matrix. -/
theorem C72_matmul_matrix (wf : m.WF) (h : At m R T) (he : Elems T c xs) (h2 : At m R2 T2) (he2 : Elems T2 c ys)
    (c1 : T.device.type = DEVICE_CPU) (c2 : T2.device.type = DEVICE_CPU) (hz : ZeroOf E.fp c z) (s1 : T.dims = bs ++ [nM, nK]) (hb : bs ≠ [])
    (hp : ∀ d ∈ bs, 0 < d) (s2 : T2.dims = [nK, nN]) (hso : ShapeOK (bs ++ [nM, nN]) c.size) (hB : prod bs ≤ 2147483647)
    (hM : prod bs * nM ≤ 2147483647) (hK : nK ≤ 2147483647) (hN : nN ≤ 2147483647) (hi : prod (bs ++ [nM, nN]) ≤ 2147483647)
    (hd : ∀ cs i j, InRange bs cs → i < nM → j < nN → ∃ w, DotTo E.fp c z ((List.range nK).map fun q =>
      (elemAt T.dims xs (cs ++ [i, q]), elemAt T2.dims ys [q, j])) w) :
    Regrouped E m (fun h out => matmul h R2.h out) (fun h out => matmul h R2.h out) R.h [prod bs * nM, nK] (bs ++ [nM, nN]) := by
  obtain ⟨zs, hl, hzs⟩ := exists_elems2 (a := bs) (b := [nM, nN]) (P := fun p q w => DotTo E.fp c z ((List.range nK).map fun k =>
    (elemAt T.dims xs (p ++ [q.getD 0 0, k]), elemAt T2.dims ys [k, q.getD 1 0])) w) fun p q hp hq => hd _ _ _ hp
      (by have := inRange_get hq (k := 0) (by simp); exact this) (by have := inRange_get hq (k := 1) (by simp); exact this)
  have hT : ShapeOK T.dims c.size := by have := h.shape; rw [he.dtype] at this; exact this
  have hP : 0 < prod bs := prod_pos hp
  have hM1 : nM ≤ prod bs * nM := Nat.le_mul_of_pos_left _ hP
  have hpr : prod bs * (nM * nN) = prod (bs ++ [nM, nN]) := by rw [prod_append]; simp [prod]
  refine regroup_same (zs := zs) (dsx := [prod bs * nM, nN]) wf h he (rows_shape (by rw [← s1]; exact hT)) (by rw [s1]; exact rows_prod) hso
    rows_prod.symm (fun out => ?_) fun m' R' out w f a e => ?_
  · refine makesIf_or ((C31_tensor_tensor (E := E) wf h he h2 he2 c1 c2 hz s1 (b2 := []) s2 (.inl hb) hp (by simp) (broadcasts_matrix bs) hso
      (by omega) hK hN hB hi hl ?_ out).imp (fun d => d.creates.yields) id) fun p q _ => p q
    · intro cs i j hc hi hj
      have := hzs cs [i, j] hc ⟨hi, hj, trivial⟩
      rw [under_own hc, show under [] cs = [] from rfl]
      exact this
  · refine (C31_matrix_matrix (E := E) w a e (h2.frame wf f) he2 c1 c2 hz rfl s2 (rows_shape hso) hM hK hN
      (by rw [Nat.mul_assoc, hpr]; exact hi) (by rw [hl, ← hpr, Nat.mul_assoc]) (fun r j hr hj => ?_) out).creates.yields
    have hm0 : 0 < nM := Nat.pos_of_ne_zero fun e => by simp [e] at hr
    have := hzs (unlin bs (r / nM)) [r % nM, j] (unlin_inRange (Nat.div_lt_of_lt_mul (by rw [Nat.mul_comm]; exact hr)))
      ⟨Nat.mod_lt _ hm0, hj, trivial⟩
    rw [rows_elem' hr]
    have e2 : (fun q => (elemAt [prod bs * nM, nK] xs [r, q], elemAt T2.dims ys [q, j])) =
        fun q => (elemAt T.dims xs (unlin bs (r / nM) ++ [r % nM, q]), elemAt T2.dims ys [q, j]) := by
      funext q; rw [rows_elem' hr, s1]
    show DotTo E.fp c z ((List.range nK).map fun q => (elemAt [prod bs * nM, nK] xs [r, q], elemAt T2.dims ys [q, j])) _
    rw [e2]
    exact this

/-- C72, a stack of matrices times one vector: the stack can be merged into one tall matrix. -/
theorem C72_matmul_vector (wf : m.WF) (h : At m R T) (he : Elems T c xs) (h2 : At m R2 T2) (he2 : Elems T2 c ys)
    (c1 : T.device.type = DEVICE_CPU) (c2 : T2.device.type = DEVICE_CPU) (hz : ZeroOf E.fp c z) (s1 : T.dims = bs ++ [nM, nK]) (hb : bs ≠ [])
    (hp : ∀ d ∈ bs, 0 < d) (s2 : T2.dims = [nK]) (hso : ShapeOK (bs ++ [nM]) c.size) (hB : prod bs ≤ 2147483647)
    (hM : prod bs * nM ≤ 2147483647) (hK : nK ≤ 2147483647)
    (hd : ∀ cs i, InRange bs cs → i < nM → ∃ w, DotTo E.fp c z ((List.range nK).map fun q =>
      (elemAt T.dims xs (cs ++ [i, q]), elemAt T2.dims ys [q])) w) :
    Regrouped E m (fun h out => matmul h R2.h out) (fun h out => matmul h R2.h out) R.h [prod bs * nM, nK] (bs ++ [nM]) := by
  obtain ⟨zs, hl, hzs⟩ := exists_elems2 (a := bs) (b := [nM]) (P := fun p q w => DotTo E.fp c z ((List.range nK).map fun k =>
    (elemAt T.dims xs (p ++ [q.getD 0 0, k]), elemAt T2.dims ys [k])) w) fun p q hp hq => hd _ _ hp
      (by have := inRange_get hq (k := 0) (by simp); exact this)
  have hT : ShapeOK T.dims c.size := by have := h.shape; rw [he.dtype] at this; exact this
  have hM1 : nM ≤ prod bs * nM := Nat.le_mul_of_pos_left _ (prod_pos hp)
  have hpr : prod bs * nM = prod (bs ++ [nM]) := by rw [prod_append]; simp [prod]
  refine regroup_same (zs := zs) (dsx := [prod bs * nM]) wf h he (rows_shape (by rw [← s1]; exact hT)) (by rw [s1]; exact rows_prod) hso
    rows_prod.symm (fun out => ?_) fun m' R' out w f a e => ?_
  · refine makesIf_or ((C31_tensor_vector (E := E) wf h he h2 he2 c1 c2 hz s1 hb s2 hso
      (by omega) hK hB (by omega) hl ?_ out).imp (fun d => d.creates.yields) id) fun p q _ => p q
    intro cs i hc hi
    exact hzs cs [i] hc ⟨hi, trivial⟩
  · refine (C31_matrix_vector (E := E) w a e (h2.frame wf f) he2 c1 c2 hz rfl s2 hM hK (by rw [hl, ← hpr]) (fun r hr => ?_) out).creates.yields
    have hm0 : 0 < nM := Nat.pos_of_ne_zero fun e => by simp [e] at hr
    have := hzs (unlin bs (r / nM)) [r % nM] (unlin_inRange (Nat.div_lt_of_lt_mul (by rw [Nat.mul_comm]; exact hr)))
      ⟨Nat.mod_lt _ hm0, trivial⟩
    rw [rows_elem' hr]
    have e2 : (fun q => (elemAt [prod bs * nM, nK] xs [r, q], elemAt T2.dims ys [q])) =
        fun q => (elemAt T.dims xs (unlin bs (r / nM) ++ [r % nM, q]), elemAt T2.dims ys [q]) := by
      funext q; rw [rows_elem' hr, s1]
    show DotTo E.fp c z ((List.range nK).map fun q => (elemAt [prod bs * nM, nK] xs [r, q], elemAt T2.dims ys [q])) _
    rw [e2]
    exact this

end

/-! ## Examples -/

example : Regrouped okEnv (Mem.empty.addT exSm) (fun h out => softmax h ([2] : List Nat).length out) (fun h out => softmax h (1 : Nat) out)
    Mem.empty.footT.h [prod [2], 2, prod []] exSm.dims :=
  C72_softmax (E := okEnv) (pre := [2]) (n := 2) (post := []) (Mem.addT_wf Mem.empty_wf _) exSm_at exSm_elems rfl (by decide) exSm_exp
    (by
      intro cs hc
      have hc : InRange [2, 2] cs := hc
      match cs, hc with
      | [i, j], ⟨h1, h2, _⟩ =>
        simp only [shareOf_iff]
        exact ⟨_, rfl⟩)

example : Regrouped okEnv exNm
    (fun h out => batchNorm h ([2] : List Nat).length (Mem.empty.addT exNx).footT.h (Mem.empty.addT exNx).footT.h (Mem.empty.addT exNx).footT.h
      (Mem.empty.addT exNx).footT.h 1 out)
    (fun h out => batchNorm h (1 : Nat) (Mem.empty.addT exNx).footT.h (Mem.empty.addT exNx).footT.h (Mem.empty.addT exNx).footT.h
      (Mem.empty.addT exNx).footT.h 1 out) Mem.empty.footT.h [prod [2], 2, prod []] exNx.dims := by
  have ex : Elems exNx .f32 _ := tvOf_elems (by decide) rfl
  have ep : Elems exNp .f32 _ := tvOf_elems (by decide) rfl
  exact C72_batch_norm (E := okEnv) (pre := [2]) (n := 2) (post := []) exNm_wf exNx_at exNp_at exNp_at exNp_at exNp_at ex ep ep ep ep
    rfl rfl rfl rfl rfl rfl (by simp)
    (by
      simp only [bnRequires, List.forall_mem_cons]
      exact ⟨by decide, by decide, by decide, by decide, by decide, by decide, by simp [Negative, okEnv, toyFp], by simp⟩)
    (by decide) ⟨by decide, by decide, by decide, by decide, by decide⟩ (by decide)
    (fun ch hc => by
      match ch, hc with
      | 0, _ => exact den_f32 (by simp [Negative, okEnv, toyFp])
      | 1, _ => exact den_f32 (by simp [Negative, okEnv, toyFp]))
    (fun cs hc => by
      obtain ⟨x, hx⟩ := wt_f32 (elemAt_WT ex rfl hc)
      rw [hx]
      match cs, hc with
      | [_, 0], _ => exact normTo_f32 (by simp [Negative, okEnv, toyFp])
      | [_, 1], _ => exact normTo_f32 (by simp [Negative, okEnv, toyFp])
      | [_, n + 2], hc => exact absurd hc.2.1 (by omega))

/-- One sample of two channels: pooled as two samples of one channel. -/
def exCh : TV := tvOf .i32 [1, 2, 4] ([6, 2, 9, 5, 1, 7, 3, 9].map .int)

example : Regrouped okEnv (Mem.empty.addT exCh)
    (fun h out => pooling 10 h "avg" (dimsCells [2]) (dimsCells [2]) (dimsCells [1]) (dimsCells [2]) out)
    (fun h out => pooling 10 h "avg" (dimsCells [2]) (dimsCells [2]) (dimsCells [1]) (dimsCells [2]) out) Mem.empty.footT.h [2, 1, 4] [1, 2, 2] :=
  C72_avg_pooling (E := okEnv) (ws := [exWin]) (B := 1) (C := 2) (c := .i32) (T := exCh) (Mem.addT_wf Mem.empty_wf _)
    (tvOf_at _ (by simp) rfl ⟨by decide, by decide⟩) (tvOf_elems (by decide) rfl) rfl (by decide)
    (by decide) exWin_ok ⟨by decide, by decide⟩ (by decide) (by decide) (by decide) (by decide) (by
      intro b ch os ho
      match os, ho with
      | [o], ⟨h1, h2, h3, _⟩ =>
        have h3 : o < 2 := h3
        obtain rfl : b = 0 := by omega
        simp only [avgOf_iff]
        match ch, o, h2, h3 with
        | 0, 0, _, _ => exact ⟨_, rfl⟩
        | 0, 1, _, _ => exact ⟨_, rfl⟩
        | 1, 0, _, _ => exact ⟨_, rfl⟩
        | 1, 1, _, _ => exact ⟨_, rfl⟩)

example : Regrouped okEnv (Mem.empty.addT exCh)
    (fun h out => pooling 10 h "max" (dimsCells [2]) (dimsCells [2]) (dimsCells [1]) (dimsCells [2]) out)
    (fun h out => pooling 10 h "max" (dimsCells [2]) (dimsCells [2]) (dimsCells [1]) (dimsCells [2]) out) Mem.empty.footT.h [2, 1, 4] [1, 2, 2] :=
  C72_max_pooling (E := okEnv) (ws := [exWin]) (B := 1) (C := 2) (c := .i32) (T := exCh) (Mem.addT_wf Mem.empty_wf _)
    (tvOf_at _ (by simp) rfl ⟨by decide, by decide⟩) (tvOf_elems (by decide) rfl) rfl (by decide)
    (by decide) exWin_ok ⟨by decide, by decide⟩ (by decide) (by decide) (by decide) (by decide) (by
      intro b ch os ho
      match os, ho with
      | [o], ⟨h1, h2, h3, _⟩ =>
        have h3 : o < 2 := h3
        obtain rfl : b = 0 := by omega
        simp only [scanOf_iff]
        match ch, o, h2, h3 with
        | 0, 0, _, _ => exact ⟨_, rfl⟩
        | 0, 1, _, _ => exact ⟨_, rfl⟩
        | 1, 0, _, _ => exact ⟨_, rfl⟩
        | 1, 1, _, _ => exact ⟨_, rfl⟩)

/-- Two 2x2 matrices times a 2x2 matrix. -/
example : Regrouped okEnv (exM .i32 [2, 2, 2] [1, 2, 3, 4, 5, 6, 7, 8] [2, 2] [1, 0, 1, 1])
    (fun h out => matmul h (exH2 .i32 [2, 2, 2] [1, 2, 3, 4, 5, 6, 7, 8]).h out)
    (fun h out => matmul h (exH2 .i32 [2, 2, 2] [1, 2, 3, 4, 5, 6, 7, 8]).h out) exH1.h [4, 2] [2, 2, 2] :=
  C72_matmul_matrix (E := okEnv) (c := .i32) (T := tvOf .i32 [2, 2, 2] ([1, 2, 3, 4, 5, 6, 7, 8].map .int)) (T2 := tvOf .i32 [2, 2] ([1, 0, 1, 1].map .int))
    (bs := [2]) (nM := 2) (nK := 2) (nN := 2) (Mem.addT_wf (Mem.addT_wf Mem.empty_wf _) _)
    (addT_old (Mem.addT_wf Mem.empty_wf _) (tvOf_at _ (by simp) rfl ⟨by decide, by decide⟩) _) (tvOf_elems (by decide) rfl)
    (tvOf_at _ (by simp) rfl ⟨by decide, by decide⟩) (tvOf_elems (by decide) rfl) rfl rfl exZero rfl (by simp) (by decide) rfl
    ⟨by decide, by decide⟩ (by decide) (by decide) (by decide) (by decide) (by decide)
    (by
      intro cs i j hc hi hj
      refine ⟨elemAt [2, 2, 2] ([3, 2, 7, 4, 11, 6, 15, 8].map .int) (cs ++ [i, j]), ?_⟩
      apply exDot; revert j; revert i; revert cs; refine all_coords ?_; decide)

/-- Two 1x2 matrices times a vector. -/
example : Regrouped okEnv (exM .i32 [2, 1, 2] [1, 2, 3, 4] [2] [10, 1])
    (fun h out => matmul h (exH2 .i32 [2, 1, 2] [1, 2, 3, 4]).h out)
    (fun h out => matmul h (exH2 .i32 [2, 1, 2] [1, 2, 3, 4]).h out) exH1.h [2, 2] [2, 1] :=
  C72_matmul_vector (E := okEnv) (c := .i32) (T := tvOf .i32 [2, 1, 2] ([1, 2, 3, 4].map .int)) (T2 := tvOf .i32 [2] ([10, 1].map .int))
    (bs := [2]) (nM := 1) (nK := 2) (Mem.addT_wf (Mem.addT_wf Mem.empty_wf _) _)
    (addT_old (Mem.addT_wf Mem.empty_wf _) (tvOf_at _ (by simp) rfl ⟨by decide, by decide⟩) _) (tvOf_elems (by decide) rfl)
    (tvOf_at _ (by simp) rfl ⟨by decide, by decide⟩) (tvOf_elems (by decide) rfl) rfl rfl exZero rfl (by simp) (by decide) rfl
    ⟨by decide, by decide⟩ (by decide) (by decide) (by decide)
    (by
      intro cs i hc hi
      refine ⟨elemAt [2, 1] ([12, 34].map .int) (cs ++ [i]), ?_⟩
      apply exDot; revert i; revert cs; refine all_coords ?_; decide)

end Aitisa
