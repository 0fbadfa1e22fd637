import Verif.Spec.Overlap
import Verif.Props.Regroup
import Verif.Proof.IeeeFma

/-!
# C73: where operators overlap they agree
-/

namespace Aitisa

variable {E : Env} {m : Mem} {R R2 : Foot} {T T2 : TV} {c : Code} {xs ys zs : List Val}

/-! ### Axes of length 1 -/

section
variable {ws us : List Win} {B C fuel s d : Nat}

theorem unitWin_out (s d : Nat) : (unitWin s d).out = 1 := by simp [unitWin, Win.out]

theorem unit_prod (a b : List Nat) : prod (a ++ 1 :: b) = prod (a ++ b) := by
  simp [prod_append, prod]

theorem unit_prodMax (a b : List Nat) : prodMax (a ++ 1 :: b) = prodMax (a ++ b) := by
  simp [prodMax_append, prodMax]

theorem unit_lin {a b x y : List Nat} (h : x.length = a.length) : lin (a ++ 1 :: b) (x ++ 0 :: y) = lin (a ++ b) (x ++ y) := by
  rw [lin_append h, lin_append h]
  simp [lin, prod]

theorem unit_unlin {a b : List Nat} {j : Nat} (h : j < prod (a ++ b)) :
    unlin (a ++ 1 :: b) j = unlin a (j / prod b) ++ 0 :: unlin b (j % prod b) := by
  have h' : j < prod a * prod b := by rw [← prod_append]; exact h
  rw [unlin_append (by simp only [prod, Nat.one_mul]; exact h')]
  have hb : 0 < prod b := Nat.pos_of_ne_zero fun e => by rw [e] at h'; simp at h'
  simp only [prod, Nat.one_mul, unlin]
  congr 1
  have : j % prod b < prod b := Nat.mod_lt _ hb
  rw [Nat.div_eq_of_lt this, Nat.mod_mod]

theorem unit_inRange {a b x : List Nat} (h : InRange (a ++ 1 :: b) x) : ∃ p q, x = p ++ 0 :: q ∧ p.length = a.length ∧ InRange (a ++ b) (p ++ q) := by
  obtain ⟨h1, h2⟩ := inRange_split h
  cases hq : x.drop a.length with
  | nil => rw [hq] at h2; exact h2.elim
  | cons k q =>
    rw [hq] at h2
    obtain ⟨h3, h4⟩ := h2
    obtain rfl : k = 0 := by omega
    exact ⟨x.take a.length, q, by rw [← hq, List.take_append_drop], h1.length, inRange_append h1 h4⟩

theorem unit_winAt {oa ob qa qb : List Nat} (ho : oa.length = us.length) (hq : qa.length = us.length) :
    winAt (us ++ unitWin s d :: ws) (oa ++ 0 :: ob) (qa ++ 0 :: qb) =
      (winAt (us ++ ws) (oa ++ ob) (qa ++ qb)).map fun cs => cs.take us.length ++ 0 :: cs.drop us.length := by
  induction us generalizing oa qa with
  | nil =>
    obtain rfl := List.length_eq_zero_iff.1 ho
    obtain rfl := List.length_eq_zero_iff.1 hq
    simp [winAt, unitWin]
  | cons u us ih =>
    cases oa with
    | nil => simp at ho
    | cons o oa => cases qa with
      | nil => simp at hq
      | cons q qa =>
        simp only [List.cons_append, winAt]
        split
        · rw [ih (by simpa using ho) (by simpa using hq)]
          cases winAt (us ++ ws) (oa ++ ob) (qa ++ qb) <;> simp
        · rfl

theorem unit_elem {l : List Win} {f : Win → Nat} (hf : f (unitWin s d) = 1) {v : List Val} {b ch : Nat} {cs : List Nat} (h : us.length ≤ cs.length) :
    elemAt (B :: C :: (us ++ unitWin s d :: l).map f) v (b :: ch :: (cs.take us.length ++ 0 :: cs.drop us.length)) =
      elemAt (B :: C :: (us ++ l).map f) v (b :: ch :: cs) := by
  have e := unit_lin (a := B :: C :: us.map f) (b := l.map f) (x := b :: ch :: cs.take us.length) (y := cs.drop us.length)
    (by simp; omega)
  rw [elemAt, elemAt]
  simp only [List.map_append, List.map_cons, hf]
  simp only [List.cons_append, List.take_append_drop] at e
  rw [e]

theorem unit_at {l : List Win} {oa ob : List Nat} {j : Nat} (ho : oa.length = us.length) (hob : ob.length = l.length)
    (hj : j < prod ((us ++ l).map Win.k)) :
    winAt (us ++ unitWin s d :: l) (oa ++ 0 :: ob) (unlin ((us ++ unitWin s d :: l).map Win.k) j) =
      (winAt (us ++ l) (oa ++ ob) (unlin ((us ++ l).map Win.k) j)).map (fun cs => cs.take us.length ++ 0 :: cs.drop us.length) ∧
    (∀ cs, winAt (us ++ l) (oa ++ ob) (unlin ((us ++ l).map Win.k) j) = some cs → us.length ≤ cs.length) ∧
    unlin ((us ++ unitWin s d :: l).map Win.k) j =
      (unlin ((us ++ l).map Win.k) j).take us.length ++ 0 :: (unlin ((us ++ l).map Win.k) j).drop us.length := by
  have hj' : j < prod (us.map Win.k ++ l.map Win.k) := by rw [← List.map_append]; exact hj
  have e1 : unlin ((us ++ unitWin s d :: l).map Win.k) j =
      unlin (us.map Win.k) (j / prod (l.map Win.k)) ++ 0 :: unlin (l.map Win.k) (j % prod (l.map Win.k)) := by
    rw [List.map_append, List.map_cons]; exact unit_unlin hj'
  have e2 : unlin ((us ++ l).map Win.k) j =
      unlin (us.map Win.k) (j / prod (l.map Win.k)) ++ unlin (l.map Win.k) (j % prod (l.map Win.k)) := by
    rw [List.map_append]; exact unlin_append (by rw [← prod_append]; exact hj')
  have hl : (unlin (us.map Win.k) (j / prod (l.map Win.k))).length = us.length := by rw [unlin_length, List.length_map]
  refine ⟨by rw [e1, e2]; exact unit_winAt ho hl, fun cs h => ?_, ?_⟩
  · have := (winAt_inRange (by simp [ho, hob]) (by rw [unlin_length, List.length_map]) h).length
    simp at this; omega
  · rw [e1, e2, List.take_left' hl, List.drop_left' hl]

theorem unit_win {l : List Win} {oa ob : List Nat} {v : List Val} {b ch : Nat} (ho : oa.length = us.length) (hob : ob.length = l.length) :
    winElems (B :: C :: (us ++ unitWin s d :: l).map Win.x) v (us ++ unitWin s d :: l) b ch (oa ++ 0 :: ob) =
      winElems (B :: C :: (us ++ l).map Win.x) v (us ++ l) b ch (oa ++ ob) := by
  unfold winElems
  have hP : prod ((us ++ unitWin s d :: l).map Win.k) = prod ((us ++ l).map Win.k) := by
    rw [List.map_append, List.map_cons, List.map_append]; exact unit_prod _ _
  rw [hP]
  refine filterMap_same fun j hj => ?_
  obtain ⟨e1, e2, -⟩ := unit_at (s := s) (d := d) ho hob (List.mem_range.1 hj)
  rw [e1, Option.map_map]
  cases h : winAt (us ++ l) (oa ++ ob) (unlin ((us ++ l).map Win.k) j) with
  | none => rfl
  | some cs => exact congrArg some (unit_elem rfl (e2 cs h))

theorem unit_shape {l : List Win} {f : Win → Nat} (hf : f (unitWin s d) = 1) {sz : Nat} (h : ShapeOK (B :: C :: (us ++ l).map f) sz)
    (hr : us.length + l.length ≤ 2147483644) :
    ShapeOK (B :: C :: (us ++ unitWin s d :: l).map f) sz := by
  have e := unit_prodMax (B :: C :: us.map f) (l.map f)
  have h1 := h.fits
  have h2 := h.rank
  simp only [List.map_append, List.map_cons, hf, List.cons_append] at *
  refine ⟨by rw [e]; exact h1, ?_⟩
  simp at h2 ⊢
  omega

theorem unit_size {l : List Win} {f : Win → Nat} (hf : f (unitWin s d) = 1) :
    prod (B :: C :: (us ++ unitWin s d :: l).map f) = prod (B :: C :: (us ++ l).map f) := by
  have e := unit_prod (B :: C :: us.map f) (l.map f)
  simpa only [List.map_append, List.map_cons, hf, List.cons_append] using e

theorem unit_size' {l : List Win} {f : Win → Nat} (hf : f (unitWin s d) = 1) :
    prod ((us ++ unitWin s d :: l).map f) = prod ((us ++ l).map f) := by
  have e := unit_prod (us.map f) (l.map f)
  simpa only [List.map_append, List.map_cons, hf] using e

theorem unit_coords {l : List Win} {f : Win → Nat} (hf : f (unitWin s d) = 1) {b ch : Nat} {os : List Nat}
    (h : InRange (B :: C :: (us ++ unitWin s d :: l).map f) (b :: ch :: os)) :
    ∃ oa ob, os = oa ++ 0 :: ob ∧ oa.length = us.length ∧ ob.length = l.length ∧ InRange (B :: C :: (us ++ l).map f) (b :: ch :: (oa ++ ob)) := by
  obtain ⟨h1, h2, h3⟩ := h
  rw [List.map_append, List.map_cons, hf] at h3
  obtain ⟨p, q, rfl, hp, hq⟩ := unit_inRange h3
  have hl := hq.length
  refine ⟨p, q, rfl, by simpa using hp, ?_, h1, h2, by rw [List.map_append]; exact hq⟩
  simp at hl hp; omega

theorem unit_ok {l : List Win} {P : Win → Prop} (h : ∀ w ∈ us ++ l, P w) (hu : P (unitWin s d)) : ∀ w ∈ us ++ unitWin s d :: l, P w := by
  intro w hw
  simp only [List.mem_append, List.mem_cons] at hw h
  rcases hw with hw | rfl | hw
  · exact h w (.inl hw)
  · exact hu
  · exact h w (.inr hw)

theorem unit_fits (hs : 1 ≤ s) (hd : 1 ≤ d) : (unitWin s d).Fits := ⟨Nat.le_refl _, hs, hd, by simp [unitWin]⟩

/-- C73. Pooling along one or two axes is pooling along one more axis of length 1, wherever that is inserted (average). -/
theorem C73_avg_pooling (wf : m.WF) (h : At m R T) (he : Elems T c xs) (hS : T.dims = B :: C :: (us ++ ws).map Win.x)
    (hw : 1 ≤ (us ++ ws).length) (hw' : (us ++ ws).length ≤ 2) (hf : ∀ w ∈ us ++ ws, w.Fits ∧ w.Small)
    (hso : ShapeOK (B :: C :: (us ++ ws).map Win.out) c.size)
    (hi : prod ((us ++ ws).map Win.out) ≤ 2147483647) (hK : prod ((us ++ ws).map Win.k) ≤ 9223372036854775807)
    (hfu : prod ((us ++ ws).map Win.k) ≤ fuel) (hfu' : prod ((us ++ ws).map Win.out) ≤ fuel)
    (hs : 1 ≤ s) (hs' : s ≤ 2147483647) (hd : 1 ≤ d) (hd' : d ≤ 2147483647)
    (hz : ∀ b ch os, InRange (B :: C :: (us ++ ws).map Win.out) (b :: ch :: os) →
      ∃ z, AvgOf E.fp c (prod ((us ++ ws).map Win.k)) (winElems T.dims xs (us ++ ws) b ch os) z) :
    let v := us ++ unitWin s d :: ws
    Regrouped E m
      (fun h out => pooling fuel h "avg" (dimsCells ((us ++ ws).map Win.k)) (dimsCells ((us ++ ws).map Win.s)) (dimsCells ((us ++ ws).map Win.p))
        (dimsCells ((us ++ ws).map Win.d)) out)
      (fun h out => pooling fuel h "avg" (dimsCells (v.map Win.k)) (dimsCells (v.map Win.s)) (dimsCells (v.map Win.p)) (dimsCells (v.map Win.d)) out)
      R.h (B :: C :: v.map Win.x) (B :: C :: (us ++ ws).map Win.out) := by
  intro v
  obtain ⟨zs, hl, hz⟩ := exists_grid hz
  have hT : ShapeOK T.dims c.size := by have := h.shape; rw [he.dtype] at this; exact this
  have hlen : us.length + ws.length ≤ 2 := by simpa using hw'
  refine regroup_same (zs := zs) (dsx := B :: C :: v.map Win.out) wf h he (unit_shape rfl (by rw [← hS]; exact hT) (by omega))
    (by rw [hS]; exact unit_size rfl) hso (unit_size (unitWin_out s d)).symm
    (fun out => (C38_avg wf h he hS hw (by omega) hf hso hi hK hfu hfu' hl hz out).yields) fun m' R' out w f a e => ?_
  refine (C38_avg w a e rfl (by simp [v]; omega) (by simp [v]; omega) (unit_ok hf ⟨unit_fits hs hd, by simp [unitWin], hs', hd'⟩)
    (unit_shape (unitWin_out s d) hso (by omega)) (by rw [unit_size' (unitWin_out s d)]; exact hi) (by rw [unit_size' rfl]; exact hK)
    (by rw [unit_size' rfl]; exact hfu) (by rw [unit_size' (unitWin_out s d)]; exact hfu') (by rw [hl, unit_size (unitWin_out s d)])
    (fun b ch os ho => ?_) out).yields
  obtain ⟨oa, ob, rfl, h1, h2, ho'⟩ := unit_coords (unitWin_out s d) ho
  have := hz _ _ _ ho'
  have e2 := unit_elem (B := B) (C := C) (us := us) (l := ws) (unitWin_out s d) (v := zs) (b := b) (ch := ch) (cs := oa ++ ob) (by simp; omega)
  rw [List.take_left' h1, List.drop_left' h1] at e2
  rw [unit_win h1 h2, e2, unit_size' rfl, ← hS]
  exact this

/-- C73. Pooling along one or two axes is pooling along one more axis of length 1, wherever that is inserted (maximum). -/
theorem C73_max_pooling (wf : m.WF) (h : At m R T) (he : Elems T c xs) (hS : T.dims = B :: C :: (us ++ ws).map Win.x)
    (hw : 1 ≤ (us ++ ws).length) (hw' : (us ++ ws).length ≤ 2) (hf : ∀ w ∈ us ++ ws, w.Fits ∧ w.Small)
    (hso : ShapeOK (B :: C :: (us ++ ws).map Win.out) c.size)
    (hi : prod ((us ++ ws).map Win.out) ≤ 2147483647) (hK : prod ((us ++ ws).map Win.k) ≤ 9223372036854775807)
    (hfu : prod ((us ++ ws).map Win.k) ≤ fuel) (hfu' : prod ((us ++ ws).map Win.out) ≤ fuel)
    (hs : 1 ≤ s) (hs' : s ≤ 2147483647) (hd : 1 ≤ d) (hd' : d ≤ 2147483647)
    (hz : ∀ b ch os, InRange (B :: C :: (us ++ ws).map Win.out) (b :: ch :: os) →
      ∃ z, ScanOf E.fp c (winElems T.dims xs (us ++ ws) b ch os) z) :
    let v := us ++ unitWin s d :: ws
    Regrouped E m
      (fun h out => pooling fuel h "max" (dimsCells ((us ++ ws).map Win.k)) (dimsCells ((us ++ ws).map Win.s)) (dimsCells ((us ++ ws).map Win.p))
        (dimsCells ((us ++ ws).map Win.d)) out)
      (fun h out => pooling fuel h "max" (dimsCells (v.map Win.k)) (dimsCells (v.map Win.s)) (dimsCells (v.map Win.p)) (dimsCells (v.map Win.d)) out)
      R.h (B :: C :: v.map Win.x) (B :: C :: (us ++ ws).map Win.out) := by
  intro v
  obtain ⟨zs, hl, hz⟩ := exists_grid hz
  have hT : ShapeOK T.dims c.size := by have := h.shape; rw [he.dtype] at this; exact this
  have hlen : us.length + ws.length ≤ 2 := by simpa using hw'
  refine regroup_same (zs := zs) (dsx := B :: C :: v.map Win.out) wf h he (unit_shape rfl (by rw [← hS]; exact hT) (by omega))
    (by rw [hS]; exact unit_size rfl) hso (unit_size (unitWin_out s d)).symm
    (fun out => (C38_max wf h he hS hw (by omega) hf hso hi hK hfu hfu' hl hz out).yields) fun m' R' out w f a e => ?_
  refine (C38_max w a e rfl (by simp [v]; omega) (by simp [v]; omega) (unit_ok hf ⟨unit_fits hs hd, by simp [unitWin], hs', hd'⟩)
    (unit_shape (unitWin_out s d) hso (by omega)) (by rw [unit_size' (unitWin_out s d)]; exact hi) (by rw [unit_size' rfl]; exact hK)
    (by rw [unit_size' rfl]; exact hfu) (by rw [unit_size' (unitWin_out s d)]; exact hfu') (by rw [hl, unit_size (unitWin_out s d)])
    (fun b ch os ho => ?_) out).yields
  obtain ⟨oa, ob, rfl, h1, h2, ho'⟩ := unit_coords (unitWin_out s d) ho
  have := hz _ _ _ ho'
  have e2 := unit_elem (B := B) (C := C) (us := us) (l := ws) (unitWin_out s d) (v := zs) (b := b) (ch := ch) (cs := oa ++ ob) (by simp; omega)
  rw [List.take_left' h1, List.drop_left' h1] at e2
  rw [unit_win h1 h2, e2, ← hS]
  exact this

end

/-! ### Convolutions -/

/-- Five calls: the convolution; reshape, reshape, the other operator, reshape. -/
theorem conv_as {s s' : Status} {x y : Ptr → Ptr → Ptr → M (Status × Ptr)} {ds ks dso dsx : List Nat} (wf : m.WF) (h : At m R T) (he : Elems T c xs)
    (h2 : At m R2 T2) (he2 : Elems T2 c ys)
    (hf : ShapeOK ds c.size) (hp : prod ds = prod T.dims) (hf2 : ShapeOK ks c.size) (hp2 : prod ks = prod T2.dims)
    (hfo : ShapeOK dso c.size) (hpo : prod dso = prod dsx)
    (hx : E.NoFail → E.MallocOK → ∀ out, ∃ zs, (∃ Ra m1, x R.h R2.h out E m = .ok (s, Ra.h) m1 ∧
        Produces m m1 Ra ⟨c.dtype, T.device, dso, encAll c zs⟩) ∧
      ∀ m' R' R2' out, m'.WF → At m' R' ⟨c.dtype, T.device, ds, encAll c xs⟩ →
        Elems ⟨c.dtype, T.device, ds, encAll c xs⟩ c xs → At m' R2' ⟨c.dtype, T2.device, ks, encAll c ys⟩ →
        Elems ⟨c.dtype, T2.device, ks, encAll c ys⟩ c ys →
        ∃ Ra m1, y R'.h R2'.h out E m' = .ok (s', Ra.h) m1 ∧ Produces m' m1 Ra ⟨c.dtype, T.device, dsx, encAll c zs⟩) :
    ConvAs E m s s' x y R.h R2.h ds ks dso := by
  intro nf ma out1 out2 out3 out4 out5
  obtain ⟨zs, ⟨Ra, m1, q1, P1⟩, hy⟩ := hx nf ma out1
  have e1 : Elems ⟨c.dtype, T.device, ds, encAll c xs⟩ c xs := ⟨rfl, rfl, he.wt, by rw [he.len]; exact hp.symm⟩
  have e2 : Elems ⟨c.dtype, T2.device, ks, encAll c ys⟩ c ys := ⟨rfl, rfl, he2.wt, by rw [he2.len]; exact hp2.symm⟩
  have r2 := (C18_reshape (E := E) P1.ext.wf (h.frame wf P1.ext.toFrame) ds (by rw [he.dtype]; exact hf) hp out2).yields
  rw [he.bytes, he.dtype] at r2
  obtain ⟨Rb, m2, q2, P2⟩ := r2.runs nf ma
  have f2 : Frame m m2 := P1.ext.toFrame.trans P2.ext.toFrame
  have r3 := (C18_reshape (E := E) P2.ext.wf (h2.frame wf f2) ks (by rw [he2.dtype]; exact hf2) hp2 out3).yields
  rw [he2.bytes, he2.dtype] at r3
  obtain ⟨Rc, m3, q3, P3⟩ := r3.runs nf ma
  obtain ⟨Rd, m4, q4, P4⟩ := hy m3 Rb Rc out4 P3.ext.wf (P2.tensor.frame P2.ext.wf P3.ext.toFrame) e1 P3.tensor e2
  obtain ⟨Re, m5, q5, P5⟩ := (C18_reshape (E := E) P4.ext.wf P4.tensor dso hfo hpo out5).yields.runs nf ma
  exact ⟨_, _, _, _, _, _, _, _, _, _, q1, q2, q3, q4, q5, sameTensor_of P4.ext.wf
    (P1.tensor.frame P1.ext.wf (P2.ext.toFrame.trans (P3.ext.toFrame.trans P4.ext.toFrame))) P5⟩

theorem leaves_runs {x : M (Status × Ptr)} {out : Ptr} {st : Status} {T : TV} (h : Leaves E x m out st T) (nf : E.NoFail) :
    ∃ R m', x E m = .ok (st, R.h) m' ∧ Produces m m' R T := by
  rcases h with h | ⟨h, -⟩
  · exact h
  · exact absurd nf h

section
variable {ws us : List Win} {B C O s d : Nat} {st st' : Status}

theorem grid_ext {ds : List Nat} {v w : List Val} (h1 : v.length = prod (B :: C :: ds)) (h2 : w.length = prod (B :: C :: ds))
    (h : ∀ b ch os, InRange (B :: C :: ds) (b :: ch :: os) → elemAt (B :: C :: ds) v (b :: ch :: os) = elemAt (B :: C :: ds) w (b :: ch :: os)) :
    v = w :=
  elems_ext h1 h2 fun cs hc => match cs, hc with
    | b :: ch :: os, hc => h b ch os hc

theorem unit_terms {l : List Win} {oa ob : List Nat} {v w : List Val} {b oc : Nat} (ho : oa.length = us.length) (hob : ob.length = l.length) :
    convTerms (B :: C :: (us ++ unitWin s d :: l).map Win.x) (O :: C :: (us ++ unitWin s d :: l).map Win.k) v w (us ++ unitWin s d :: l) C b oc
        (oa ++ 0 :: ob) =
      convTerms (B :: C :: (us ++ l).map Win.x) (O :: C :: (us ++ l).map Win.k) v w (us ++ l) C b oc (oa ++ ob) := by
  unfold convTerms
  rw [unit_size' (us := us) (l := l) (s := s) (d := d) (f := Win.k) rfl]
  congr 1
  funext ic
  refine filterMap_same fun j hj => ?_
  obtain ⟨e1, e2, e3⟩ := unit_at (s := s) (d := d) ho hob (List.mem_range.1 hj)
  rw [e1, Option.map_map]
  cases h : winAt (us ++ l) (oa ++ ob) (unlin ((us ++ l).map Win.k) j) with
  | none => rfl
  | some cs =>
    refine congrArg some (Prod.ext (unit_elem rfl (e2 cs h)) ?_)
    show elemAt _ w (oc :: ic :: unlin _ j) = _
    rw [e3]
    exact unit_elem rfl (by rw [unlin_length]; simp)

/-- C73. Convolution along some axes is convolution along one more axis of length 1, wherever that is inserted. -/
theorem C73_conv (wf : m.WF) (h1 : At m R T) (h2 : At m R2 T2) (e1 : Elems T .f32 xs) (e2 : Elems T2 .f32 ys)
    (s1 : T.dims = B :: C :: (us ++ ws).map Win.x) (s2 : T2.dims = O :: C :: (us ++ ws).map Win.k) (h : ∀ w ∈ us ++ ws, w.Fits ∧ w.Wide)
    (hr : (us ++ ws).length ≤ 2147483644) (hso : ShapeOK (B :: O :: (us ++ ws).map Win.out) 4) (hC : 0 < C) (hs : 1 ≤ s) (hd : 1 ≤ d) (g : Int) :
    let v := us ++ unitWin s d :: ws
    let r := if st = .success then st' else st
    ConvAs E m r r
      (fun h k out => conv (some st) (some st') h k (dimsCells ((us ++ ws).map Win.s)) (dimsCells ((us ++ ws).map Win.p))
        (dimsCells ((us ++ ws).map Win.d)) g out)
      (fun h k out => conv (some st) (some st') h k (dimsCells (v.map Win.s)) (dimsCells (v.map Win.p)) (dimsCells (v.map Win.d)) g out)
      R.h R2.h (B :: C :: v.map Win.x) (O :: C :: v.map Win.k) (B :: O :: (us ++ ws).map Win.out) := by
  intro v r
  have hlen : us.length + ws.length ≤ 2147483644 := by simpa using hr
  have hT : ShapeOK T.dims 4 := by have := h1.shape; rw [e1.dtype] at this; exact this
  have hT2 : ShapeOK T2.dims 4 := by have := h2.shape; rw [e2.dtype] at this; exact this
  refine conv_as (c := .f32) (dsx := B :: O :: v.map Win.out) wf h1 e1 h2 e2 (unit_shape rfl (by rw [← s1]; exact hT) hlen)
    (by rw [s1]; exact unit_size rfl) (unit_shape rfl (by rw [← s2]; exact hT2) hlen) (by rw [s2]; exact unit_size rfl) hso
    (unit_size (unitWin_out s d)).symm fun nf _ out => ?_
  obtain ⟨zs, hl, hz, L⟩ := C40_conv (E := E) wf h1 h2 e1 e2 s1 s2 h hso hC st st' g out
  refine ⟨zs, leaves_runs L nf, fun m' R' R2' out w a e a2 e2' => ?_⟩
  · obtain ⟨zs', hl', hz', L'⟩ := C40_conv (E := E) (ws := v) w a a2 e e2' rfl rfl
      (unit_ok h ⟨unit_fits hs hd, by simp [unitWin], hs, by simp [unitWin], by simp [unitWin], by simp [unitWin]⟩)
      (unit_shape (unitWin_out s d) hso hlen) hC st st' g out
    have : zs' = zs := by
      have hl2 : zs.length = prod (B :: O :: v.map Win.out) := by rw [hl, unit_size (unitWin_out s d)]
      refine grid_ext hl' hl2 fun b oc os ho => ?_
      obtain ⟨oa, ob, rfl, g1, g2, ho'⟩ := unit_coords (unitWin_out s d) ho
      have z1 := hz' _ _ _ ho
      have z2 := hz _ _ _ ho'
      have e2 := unit_elem (B := B) (C := O) (us := us) (l := ws) (unitWin_out s d) (v := zs) (b := b) (ch := oc) (cs := oa ++ ob) (by simp; omega)
      rw [List.take_left' g1, List.drop_left' g1] at e2
      show elemAt _ zs' _ = elemAt _ zs _
      rw [e2]
      rw [unit_terms g1 g2, ← s1, ← s2] at z1
      exact C40_unique z1 z2
    subst this
    exact leaves_runs L' nf

/-! ### Convolutions that are matrix products -/

theorem range_grid {α : Type} (f : Nat → Nat → α) (n k : Nat) :
    ((List.range n).flatMap fun i => (List.range k).map (f i)) = (List.range (n * k)).map fun q => f (q / k) (q % k) := by
  induction n with
  | zero => simp
  | succ n ih =>
    rw [List.range_succ, List.flatMap_append, ih, Nat.succ_mul, List.range_add, List.map_append, List.map_map]
    congr 1
    simp only [List.flatMap_cons, List.flatMap_nil, List.append_nil]
    refine List.map_congr_left fun j hj => ?_
    have hj := List.mem_range.1 hj
    show f n j = f ((n * k + j) / k) ((n * k + j) % k)
    have hk : 0 < k := by omega
    rw [Nat.mul_comm n k, Nat.mul_add_div hk, Nat.mul_add_mod, Nat.div_eq_of_lt hj, Nat.mod_eq_of_lt hj, Nat.add_zero]

theorem filterMap_some {α β : Type} {f : α → Option β} {g : α → β} {l : List α} (h : ∀ a ∈ l, f a = some (g a)) : l.filterMap f = l.map g := by
  rw [filterMap_same h]
  induction l with
  | nil => rfl
  | cons a l ih => simp [ih fun b hb => h b (by simp [hb])]

section
variable {ns : List (Nat × Nat)}

theorem wholes_at {os qs : List Nat} (hq : InRange (ns.map Prod.fst) qs) (ho : InRange (ns.map fun _ => 1) os) :
    winAt (wholes ns) os qs = some qs := by
  induction ns generalizing os qs with
  | nil => cases qs with
    | nil => cases os <;> rfl
    | cons => exact hq.elim
  | cons p ns ih => cases qs with
    | nil => exact hq.elim
    | cons q qs => cases os with
      | nil => exact ho.elim
      | cons o os =>
        obtain ⟨h1, h2⟩ := hq
        obtain ⟨h3, h4⟩ := ho
        have h3 : o < 1 := h3
        obtain rfl : o = 0 := by omega
        show (if 0 ≤ 0 * p.2 + q * 1 ∧ 0 * p.2 + q * 1 < 0 + p.1 then (winAt (wholes ns) os qs).map ((0 * p.2 + q * 1 - 0) :: ·) else none) = _
        rw [if_pos (by simpa using h1), ih h2 h4]
        simp

theorem points_at {os qs : List Nat} (ho : InRange (ns.map Prod.fst) os) (hq : InRange (ns.map fun _ => 1) qs) :
    winAt (points ns) os qs = some os := by
  induction ns generalizing os qs with
  | nil => cases os with
    | nil => cases qs <;> rfl
    | cons => exact ho.elim
  | cons p ns ih => cases qs with
    | nil => exact hq.elim
    | cons q qs => cases os with
      | nil => exact ho.elim
      | cons o os =>
        obtain ⟨h1, h2⟩ := ho
        obtain ⟨h3, h4⟩ := hq
        have h3 : q < 1 := h3
        obtain rfl : q = 0 := by omega
        show (if 0 ≤ o * 1 + 0 * p.2 ∧ o * 1 + 0 * p.2 < 0 + p.1 then (winAt (points ns) os qs).map ((o * 1 + 0 * p.2 - 0) :: ·) else none) = _
        rw [if_pos (by simpa using h1), ih h2 h4]
        simp

theorem wholes_x : (wholes ns).map Win.x = ns.map Prod.fst := by simp [wholes, wholeWin, Function.comp_def]
theorem wholes_k : (wholes ns).map Win.k = ns.map Prod.fst := by simp [wholes, wholeWin, Function.comp_def]
theorem points_x : (points ns).map Win.x = ns.map Prod.fst := by simp [points, pointWin, Function.comp_def]
theorem points_k : (points ns).map Win.k = ns.map fun _ => 1 := by simp [points, pointWin, Function.comp_def]

theorem wholes_out (h : ∀ p ∈ ns, 0 < p.1) : (wholes ns).map Win.out = ns.map fun _ => 1 := by
  simp only [wholes, List.map_map]
  refine List.map_congr_left fun p hp => ?_
  have := h p hp
  show (p.1 + 2 * 0 - 1 * (p.1 - 1) - 1) / p.2 + 1 = 1
  rw [show p.1 + 2 * 0 - 1 * (p.1 - 1) - 1 = 0 by omega, Nat.zero_div]

theorem points_out (h : ∀ p ∈ ns, 0 < p.1) : (points ns).map Win.out = ns.map Prod.fst := by
  simp only [points, List.map_map]
  refine List.map_congr_left fun p hp => ?_
  have := h p hp
  show (p.1 + 2 * 0 - p.2 * (1 - 1) - 1) / 1 + 1 = p.1
  simp; omega

theorem ones_prod : prod (ns.map fun _ => 1) = 1 := by
  induction ns with
  | nil => rfl
  | cons p ns ih => simp [prod, ih]

theorem whole_terms {v w : List Val} {b oc : Nat} {os : List Nat} (ho : InRange (ns.map fun _ => 1) os) :
    convTerms (B :: C :: ns.map Prod.fst) (O :: C :: ns.map Prod.fst) v w (wholes ns) C b oc os =
      (List.range (C * prod (ns.map Prod.fst))).map fun q =>
        (elemAt [B, C * prod (ns.map Prod.fst)] v [b, q], elemAt [O, C * prod (ns.map Prod.fst)] w [oc, q]) := by
  unfold convTerms
  rw [wholes_k]
  have : (fun ic => (List.range (prod (ns.map Prod.fst))).filterMap fun j => (winAt (wholes ns) os (unlin (ns.map Prod.fst) j)).map fun cs =>
      (elemAt (B :: C :: ns.map Prod.fst) v (b :: ic :: cs), elemAt (O :: C :: ns.map Prod.fst) w (oc :: ic :: unlin (ns.map Prod.fst) j))) =
      fun ic => (List.range (prod (ns.map Prod.fst))).map fun j =>
        (elemAt [B, C * prod (ns.map Prod.fst)] v [b, ic * prod (ns.map Prod.fst) + j],
          elemAt [O, C * prod (ns.map Prod.fst)] w [oc, ic * prod (ns.map Prod.fst) + j]) := by
    funext ic
    refine filterMap_some fun j hj => ?_
    have hj := List.mem_range.1 hj
    rw [wholes_at (unlin_inRange hj) ho]
    simp [elemAt, lin, prod, lin_unlin hj]
  rw [this, range_grid fun ic j => (elemAt [B, C * prod (ns.map Prod.fst)] v [b, ic * prod (ns.map Prod.fst) + j],
    elemAt [O, C * prod (ns.map Prod.fst)] w [oc, ic * prod (ns.map Prod.fst) + j])]
  refine List.map_congr_left fun q _ => ?_
  have : q / prod (ns.map Prod.fst) * prod (ns.map Prod.fst) + q % prod (ns.map Prod.fst) = q := by
    rw [Nat.mul_comm]; exact Nat.div_add_mod ..
  rw [this]

theorem point_terms {v w : List Val} {b oc : Nat} {os : List Nat} (ho : InRange (ns.map Prod.fst) os) :
    convTerms (B :: C :: ns.map Prod.fst) (O :: C :: ns.map fun _ => 1) v w (points ns) C b oc os =
      (List.range C).map fun q => (elemAt [B, C, prod (ns.map Prod.fst)] v [b, q, lin (ns.map Prod.fst) os], elemAt [O, C] w [oc, q]) := by
  unfold convTerms
  rw [points_k, ones_prod]
  have : (fun ic => (List.range 1).filterMap fun j => (winAt (points ns) os (unlin (ns.map fun _ => 1) j)).map fun cs =>
      (elemAt (B :: C :: ns.map Prod.fst) v (b :: ic :: cs), elemAt (O :: C :: ns.map fun _ => 1) w (oc :: ic :: unlin (ns.map fun _ => 1) j))) =
      fun ic => (List.range 1).map fun _ =>
        (elemAt [B, C, prod (ns.map Prod.fst)] v [b, ic, lin (ns.map Prod.fst) os], elemAt [O, C] w [oc, ic]) := by
    funext ic
    refine filterMap_some fun j hj => ?_
    have hj := List.mem_range.1 hj
    have hj' : j < prod (ns.map fun _ => 1) := by rw [ones_prod]; exact hj
    rw [points_at ho (unlin_inRange hj')]
    obtain rfl : j = 0 := by omega
    simp [elemAt, lin, prod, lin_unlin hj', ones_prod]
  rw [this, range_grid fun ic _ => (elemAt [B, C, prod (ns.map Prod.fst)] v [b, ic, lin (ns.map Prod.fst) os], elemAt [O, C] w [oc, ic])]
  simp

/-- C73, the factors of a product can be exchanged in IEEE arithmetic, without and with fused multiply-add. -/
theorem C73_swap : FactorsSwap ieee ∧ FactorsSwap fused := ⟨ieee_swap, fused_swap⟩

theorem dotTo_swap {fp : FloatOps} (hm : FactorsSwap fp) {a : BitVec 32} {w : Val} {l : List (Val × Val)} (h : DotTo fp .f32 (.f32 a) l w) :
    DotTo fp .f32 (.f32 a) (l.map fun p => (p.2, p.1)) w := by
  induction l generalizing a with
  | nil => exact h
  | cons p l ih =>
    obtain ⟨v, h1, h2⟩ := h
    obtain ⟨x, y⟩ := p
    cases x <;> cases y <;> first | exact h1.elim | skip
    obtain rfl : v = _ := h1
    exact ⟨_, by show _ = _; rw [hm], ih h2⟩

theorem zero_f32 (fp : FloatOps) : ∃ a, ZeroOf fp .f32 (.f32 a) := ⟨_, converts_iff.2 rfl⟩

theorem wholes_fits (h : ∀ p ∈ ns, 0 < p.1 ∧ p.1 ≤ 9223372036854775807 ∧ 1 ≤ p.2) : ∀ w ∈ wholes ns, w.Fits ∧ w.Wide := by
  intro w hw
  obtain ⟨p, hp, rfl⟩ := List.mem_map.1 hw
  obtain ⟨h1, h2, h3⟩ := h p hp
  refine ⟨⟨h1, h3, Nat.le_refl _, ?_⟩, h1, h3, by simp [wholeWin], ?_, ?_⟩ <;> simp only [wholeWin] <;> omega

theorem points_fits (h : ∀ p ∈ ns, 0 < p.1 ∧ p.1 ≤ 9223372036854775807 ∧ 1 ≤ p.2) : ∀ w ∈ points ns, w.Fits ∧ w.Wide := by
  intro w hw
  obtain ⟨p, hp, rfl⟩ := List.mem_map.1 hw
  obtain ⟨h1, h2, h3⟩ := h p hp
  refine ⟨⟨Nat.le_refl _, Nat.le_refl _, h3, ?_⟩, Nat.le_refl _, Nat.le_refl _, by simp [pointWin], ?_, ?_⟩ <;> simp only [pointWin] <;> simp <;> omega

theorem ones_shape {a b : Nat} (h : ShapeOK [a, b] 4) (hn : ns.length ≤ 2147483645) : ShapeOK (a :: b :: ns.map fun _ => 1) 4 := by
  have : prodMax (ns.map fun _ => 1) = 1 := by
    clear hn
    induction ns with
    | nil => rfl
    | cons p ns ih => simp [prodMax, ih]
  refine ⟨?_, by simp; omega⟩
  have h1 := h.fits
  simp only [prodMax, Nat.mul_one] at h1 ⊢
  rw [this, Nat.mul_one]; exact h1

theorem flat_shape {n sz : Nat} {l : List Nat} (h : ShapeOK (n :: l) sz) : ShapeOK [n, prod l] sz := by
  refine ⟨Nat.le_trans (Nat.mul_le_mul_right _ ?_) h.fits, by simp⟩
  simp only [prodMax, Nat.mul_one]
  exact Nat.mul_le_mul_left _ (prod_le_max l)

theorem flat_shape' {n sz : Nat} {l : List Nat} (h : ShapeOK (n :: l) sz) : ShapeOK [prod l] sz := by
  refine ⟨Nat.le_trans (Nat.mul_le_mul_right _ ?_) h.fits, by simp⟩
  simp only [prodMax, Nat.mul_one]
  have := Nat.mul_le_mul (Nat.le_max_right n 1) (prod_le_max l)
  rwa [Nat.one_mul] at this

/-- C73. Convolution of samples with one filter as large as they are is the product of the matrix of the samples with the filter as a vector,
bit for bit, whatever the floating-point arithmetic. -/
theorem C73_conv_vector (wf : m.WF) (h1 : At m R T) (h2 : At m R2 T2) (e1 : Elems T .f32 xs) (e2 : Elems T2 .f32 ys)
    (c1 : T.device.type = DEVICE_CPU) (c2 : T2.device.type = DEVICE_CPU)
    (s1 : T.dims = B :: C :: ns.map Prod.fst) (s2 : T2.dims = 1 :: C :: ns.map Prod.fst) (h : ∀ p ∈ ns, 0 < p.1 ∧ p.1 ≤ 9223372036854775807 ∧ 1 ≤ p.2)
    (hC : 0 < C) (hB : B ≤ 2147483647) (hK : C * prod (ns.map Prod.fst) ≤ 2147483647) (g : Int) :
    ConvAs E m (if st = .success then st' else st) .success
      (fun h k out => conv (some st) (some st') h k (dimsCells ((wholes ns).map Win.s)) (dimsCells ((wholes ns).map Win.p))
        (dimsCells ((wholes ns).map Win.d)) g out)
      (fun h k out => matmul h k out)
      R.h R2.h [B, C * prod (ns.map Prod.fst)] [C * prod (ns.map Prod.fst)] (B :: 1 :: ns.map fun _ => 1) := by
  have hT : ShapeOK T.dims 4 := by have := h1.shape; rw [e1.dtype] at this; exact this
  have hT2 : ShapeOK T2.dims 4 := by have := h2.shape; rw [e2.dtype] at this; exact this
  have hn : ns.length ≤ 2147483645 := by have := h1.shape.rank; rw [s1] at this; simp at this; omega
  have ho := wholes_out fun p hp => (h p hp).1
  have hso : ShapeOK (B :: 1 :: ns.map fun _ => 1) 4 := ones_shape ⟨by simp [prodMax]; omega, by simp⟩ hn
  have hS0 : 0 < prod (ns.map Prod.fst) := prod_pos fun d hd => by
    obtain ⟨p, hp, rfl⟩ := List.mem_map.1 hd
    exact (h p hp).1
  have hKp : 0 < C * prod (ns.map Prod.fst) := Nat.mul_pos hC hS0
  obtain ⟨a, ha⟩ := zero_f32 E.fp
  have get : ∀ out, ∃ zs : List Val, zs.length = B ∧
      (∀ b, b < B → DotTo E.fp .f32 (.f32 a) ((List.range (C * prod (ns.map Prod.fst))).map fun q =>
        (elemAt [B, C * prod (ns.map Prod.fst)] xs [b, q], elemAt [C * prod (ns.map Prod.fst)] ys [q])) (elemAt [B] zs [b])) ∧
      Leaves E (conv (some st) (some st') R.h R2.h (dimsCells ((wholes ns).map Win.s)) (dimsCells ((wholes ns).map Win.p))
        (dimsCells ((wholes ns).map Win.d)) g out) m out (if st = .success then st' else st)
        ⟨Code.f32.dtype, T.device, B :: 1 :: ns.map fun _ => 1, encAll .f32 zs⟩ := by
    intro out
    obtain ⟨zs, hl, hz, L⟩ := C40_conv (E := E) (ws := wholes ns) wf h1 h2 e1 e2 (by rw [wholes_x]; exact s1) (by rw [wholes_k]; exact s2)
      (wholes_fits h) (by rw [ho]; exact hso) hC st st' g out
    rw [ho] at hl hz L
    refine ⟨zs, by simpa [prod, ones_prod] using hl, fun b hb => ?_, L⟩
    have hos : InRange (ns.map fun _ => 1) (unlin (ns.map fun _ => 1) 0) := unlin_inRange (by rw [ones_prod]; exact Nat.one_pos)
    obtain ⟨z, q1, q2⟩ := hz b 0 _ ⟨hb, Nat.one_pos, hos⟩
    rw [s1, s2, whole_terms hos] at q2
    obtain rfl : z = .f32 a := by
      rw [ZeroOf, converts_iff] at q1 ha
      rw [q1] at ha; cases ha; rfl
    have e : elemAt (B :: 1 :: ns.map fun _ => 1) zs (b :: 0 :: unlin (ns.map fun _ => 1) 0) = elemAt [B] zs [b] := by
      simp [elemAt, lin, prod, ones_prod, lin_unlin (ds := ns.map fun _ => 1) (i := 0) (by rw [ones_prod]; exact Nat.one_pos)]
    rw [e] at q2
    have e' : (fun q => (elemAt [B, C * prod (ns.map Prod.fst)] xs [b, q], elemAt [1, C * prod (ns.map Prod.fst)] ys [0, q])) =
        fun q => (elemAt [B, C * prod (ns.map Prod.fst)] xs [b, q], elemAt [C * prod (ns.map Prod.fst)] ys [q]) := by
      funext q; simp [elemAt, lin, prod]
    rw [e'] at q2
    exact q2
  refine conv_as (c := .f32) (dsx := [B]) wf h1 e1 h2 e2 (flat_shape (l := C :: ns.map Prod.fst) (by rw [← s1]; exact hT))
    (by rw [s1]; simp [prod]) (flat_shape' (l := C :: ns.map Prod.fst) (by rw [← s2]; exact hT2))
    (by rw [s2]; simp [prod]) hso (by simp [prod, ones_prod]) fun nf ma out => ?_
  obtain ⟨zs, hl, hz, L⟩ := get out
  exact ⟨zs, leaves_runs L nf, fun m' R' R2' out w a e a2 e2' =>
    (C31_matrix_vector w a e a2 e2' c1 c2 ha rfl rfl hB hK hl hz out).creates.yields.runs nf ma⟩

/-- C73. Convolution of one sample with filters as large as it is, is the product of the matrix of the filters with the sample as a vector
(a fully connected layer), bit for bit, if the factors of a product can be exchanged, as in IEEE arithmetic (`C73_swap`). -/
theorem C73_conv_dense (hm : FactorsSwap E.fp) (wf : m.WF) (h1 : At m R T) (h2 : At m R2 T2) (e1 : Elems T .f32 xs) (e2 : Elems T2 .f32 ys)
    (c1 : T.device.type = DEVICE_CPU) (hdev : T2.device = T.device)
    (s1 : T.dims = 1 :: C :: ns.map Prod.fst) (s2 : T2.dims = O :: C :: ns.map Prod.fst) (h : ∀ p ∈ ns, 0 < p.1 ∧ p.1 ≤ 9223372036854775807 ∧ 1 ≤ p.2)
    (hC : 0 < C) (hO : O ≤ 2147483647) (hK : C * prod (ns.map Prod.fst) ≤ 2147483647) (g : Int) :
    ConvAs E m (if st = .success then st' else st) .success
      (fun h k out => conv (some st) (some st') h k (dimsCells ((wholes ns).map Win.s)) (dimsCells ((wholes ns).map Win.p))
        (dimsCells ((wholes ns).map Win.d)) g out)
      (fun h k out => matmul k h out)
      R.h R2.h [C * prod (ns.map Prod.fst)] [O, C * prod (ns.map Prod.fst)] (1 :: O :: ns.map fun _ => 1) := by
  have hT : ShapeOK T.dims 4 := by have := h1.shape; rw [e1.dtype] at this; exact this
  have hT2 : ShapeOK T2.dims 4 := by have := h2.shape; rw [e2.dtype] at this; exact this
  have hn : ns.length ≤ 2147483645 := by have := h1.shape.rank; rw [s1] at this; simp at this; omega
  have ho := wholes_out fun p hp => (h p hp).1
  have hso : ShapeOK (1 :: O :: ns.map fun _ => 1) 4 := ones_shape ⟨by simp [prodMax]; omega, by simp⟩ hn
  obtain ⟨a, ha⟩ := zero_f32 E.fp
  refine conv_as (c := .f32) (dsx := [O]) wf h1 e1 h2 e2 (flat_shape' (l := C :: ns.map Prod.fst) (by rw [← s1]; exact hT))
    (by rw [s1]; simp [prod]) (flat_shape (l := C :: ns.map Prod.fst) (by rw [← s2]; exact hT2))
    (by rw [s2]; simp [prod]) hso (by simp [prod, ones_prod]) fun nf ma out => ?_
  obtain ⟨zs, hl, hz, L⟩ := C40_conv (E := E) (ws := wholes ns) wf h1 h2 e1 e2 (by rw [wholes_x]; exact s1) (by rw [wholes_k]; exact s2)
    (wholes_fits h) (by rw [ho]; exact hso) hC st st' g out
  rw [ho] at hl hz L
  refine ⟨zs, leaves_runs L nf, fun m' R' R2' out w q e q2 e2' => ?_⟩
  have := (C31_matrix_vector w q2 e2' q e (by rw [← c1]; exact congrArg Device.type hdev) c1 ha rfl rfl hO hK (by simpa [prod, ones_prod] using hl)
    (fun oc hoc => ?_) out).creates.yields.runs nf ma
  · rw [hdev] at this; exact this
  have hos : InRange (ns.map fun _ => 1) (unlin (ns.map fun _ => 1) 0) := unlin_inRange (by rw [ones_prod]; exact Nat.one_pos)
  obtain ⟨z, q1, q2⟩ := hz 0 oc _ ⟨Nat.one_pos, hoc, hos⟩
  rw [s1, s2, whole_terms hos] at q2
  obtain rfl : z = .f32 a := by
    rw [ZeroOf, converts_iff] at q1 ha
    rw [q1] at ha; cases ha; rfl
  have e : elemAt (1 :: O :: ns.map fun _ => 1) zs (0 :: oc :: unlin (ns.map fun _ => 1) 0) = elemAt [O] zs [oc] := by
    simp [elemAt, lin, prod, ones_prod, lin_unlin (ds := ns.map fun _ => 1) (i := 0) (by rw [ones_prod]; exact Nat.one_pos)]
  rw [e] at q2
  have q3 := dotTo_swap hm q2
  rw [List.map_map] at q3
  have e' : ((fun p : Val × Val => (p.2, p.1)) ∘ fun q => (elemAt [1, C * prod (ns.map Prod.fst)] xs [0, q], elemAt [O, C * prod (ns.map Prod.fst)] ys [oc, q])) =
      fun q => (elemAt [O, C * prod (ns.map Prod.fst)] ys [oc, q], elemAt [C * prod (ns.map Prod.fst)] xs [q]) := by
    funext q; simp [elemAt, lin, prod]
  rw [e'] at q3
  exact q3

/-- C73. Convolution of one sample with filters of one element is the product of the matrix of the filters with the matrix whose rows are the channels
of the sample, bit for bit, if the factors of a product can be exchanged, as in IEEE arithmetic (`C73_swap`). -/
theorem C73_conv_points (hm : FactorsSwap E.fp) (wf : m.WF) (h1 : At m R T) (h2 : At m R2 T2) (e1 : Elems T .f32 xs) (e2 : Elems T2 .f32 ys)
    (c1 : T.device.type = DEVICE_CPU) (hdev : T2.device = T.device)
    (s1 : T.dims = 1 :: C :: ns.map Prod.fst) (s2 : T2.dims = O :: C :: ns.map fun _ => 1) (h : ∀ p ∈ ns, 0 < p.1 ∧ p.1 ≤ 9223372036854775807 ∧ 1 ≤ p.2)
    (hC : 0 < C) (hC' : C ≤ 2147483647) (hO : O ≤ 2147483647) (hS : prod (ns.map Prod.fst) ≤ 2147483647) (hi : O * prod (ns.map Prod.fst) ≤ 2147483647)
    (hso : ShapeOK (1 :: O :: ns.map Prod.fst) 4) (g : Int) :
    ConvAs E m (if st = .success then st' else st) .success
      (fun h k out => conv (some st) (some st') h k (dimsCells ((points ns).map Win.s)) (dimsCells ((points ns).map Win.p))
        (dimsCells ((points ns).map Win.d)) g out)
      (fun h k out => matmul k h out)
      R.h R2.h [C, prod (ns.map Prod.fst)] [O, C] (1 :: O :: ns.map Prod.fst) := by
  have hT : ShapeOK T.dims 4 := by have := h1.shape; rw [e1.dtype] at this; exact this
  have hT2 : ShapeOK T2.dims 4 := by have := h2.shape; rw [e2.dtype] at this; exact this
  have ho := points_out fun p hp => (h p hp).1
  have tail : ∀ {n : Nat} {l : List Nat}, ShapeOK (1 :: n :: l) 4 → ShapeOK [n, prod l] 4 := fun {n l} h => by
    refine flat_shape ⟨?_, by have := h.rank; simp at this ⊢; omega⟩
    have := h.fits
    simpa only [prodMax, Nat.max_self, Nat.one_mul] using this
  obtain ⟨a, ha⟩ := zero_f32 E.fp
  have hT3 := flat_shape (l := C :: ns.map fun _ => 1) (by rw [← s2]; exact hT2)
  simp only [prod, ones_prod, Nat.mul_one] at hT3
  refine conv_as (c := .f32) (dsx := [O, prod (ns.map Prod.fst)]) wf h1 e1 h2 e2 (tail (by rw [← s1]; exact hT))
    (by rw [s1]; simp [prod]) hT3 (by rw [s2]; simp [prod, ones_prod]) hso (by simp [prod]) fun nf ma out => ?_
  obtain ⟨zs, hl, hz, L⟩ := C40_conv (E := E) (ws := points ns) wf h1 h2 e1 e2 (by rw [points_x]; exact s1) (by rw [points_k]; exact s2)
    (points_fits h) (by rw [ho]; exact hso) hC st st' g out
  rw [ho] at hl hz L
  refine ⟨zs, leaves_runs L nf, fun m' R' R2' out w q e q2 e2' => ?_⟩
  have := (C31_matrix_matrix w q2 e2' q e (by rw [← c1]; exact congrArg Device.type hdev) c1 ha rfl rfl (tail hso) hO hC' hS hi
    (by simpa [prod] using hl) (fun oc j hoc hj => ?_) out).creates.yields.runs nf ma
  · rw [hdev] at this; exact this
  have hos := unlin_inRange hj
  obtain ⟨z, q1, q2⟩ := hz 0 oc _ ⟨Nat.one_pos, hoc, hos⟩
  rw [s1, s2, point_terms hos, lin_unlin hj] at q2
  obtain rfl : z = .f32 a := by
    rw [ZeroOf, converts_iff] at q1 ha
    rw [q1] at ha; cases ha; rfl
  have e : elemAt (1 :: O :: ns.map Prod.fst) zs (0 :: oc :: unlin (ns.map Prod.fst) j) = elemAt [O, prod (ns.map Prod.fst)] zs [oc, j] := by
    simp [elemAt, lin, prod, lin_unlin hj]
  rw [e] at q2
  have q3 := dotTo_swap hm q2
  rw [List.map_map] at q3
  have e' : ((fun p : Val × Val => (p.2, p.1)) ∘ fun q => (elemAt [1, C, prod (ns.map Prod.fst)] xs [0, q, j], elemAt [O, C] ys [oc, q])) =
      fun q => (elemAt [O, C] ys [oc, q], elemAt [C, prod (ns.map Prod.fst)] xs [q, j]) := by
    funext q; simp [elemAt, lin, prod]
  rw [e'] at q3
  exact q3

end

end

/-! ### Two operators, one result -/

theorem give_same {x y : M (Status × Ptr)} {T : TV} (hx : MakesIf E x m T) (hy : ∀ m1, m1.WF → Frame m m1 → MakesIf E y m1 T) : GiveSame E m x y := by
  constructor
  · intro h h' m1 m2 q1 q2
    obtain ⟨Ra, rfl, P1⟩ := hx.only q1
    obtain ⟨Rb, rfl, P2⟩ := (hy m1 P1.ext.wf P1.ext.toFrame).only q2
    exact ⟨Ra, Rb, T, rfl, rfl, P1.tensor.frame P1.ext.wf P2.ext.toFrame, P2.tensor⟩
  · intro nf ma
    obtain ⟨Ra, m1, q1, P1⟩ := hx.runs nf ma
    obtain ⟨Rb, m2, q2, P2⟩ := (hy m1 P1.ext.wf P1.ext.toFrame).runs nf ma
    exact ⟨_, _, _, _, q1, q2, Ra, Rb, T, rfl, rfl, P1.tensor.frame P1.ext.wf P2.ext.toFrame, P2.tensor⟩

section
variable {z : Val} {bs : List Nat} {nM nK : Nat} {out out' : Ptr}

/-- C73. `dot` and `matmul` of two vectors give the same tensor. -/
theorem C73_dot_vectors (wf : m.WF) (h1 : At m R T) (he1 : Elems T c xs) (h2 : At m R2 T2) (he2 : Elems T2 c ys) (c1 : T.device.type = DEVICE_CPU)
    (c2 : T2.device.type = DEVICE_CPU) (hz0 : ZeroOf E.fp c z) (hz : Converts E.fp c (.int 0) z) (s1 : T.dims = [nK]) (s2 : T2.dims = [nK])
    (hK : nK ≤ 2147483647)
    (hd : ∃ w, DotTo E.fp c z ((List.range nK).map fun q => (elemAt T.dims xs [q], elemAt T2.dims ys [q])) w) :
    GiveSame E m (dot R.h R2.h out) (matmul R.h R2.h out') := by
  obtain ⟨w, hd⟩ := hd
  exact give_same (C34_vector_vector wf h1 he1 h2 he2 c1 c2 hz0 hz s1 s2 hK hd out).creates.yields fun m1 w1 f =>
    (C31_vector_vector w1 (h1.frame wf f) he1 (h2.frame wf f) he2 c1 c2 hz0 s1 s2 hK hd out').creates.yields

/-- C73. `dot` and `matmul` of two matrices are the same call. -/
theorem C73_dot_matrices (wf : m.WF) (h1 : At m R T) (he1 : Elems T c xs) (h2 : At m R2 T2) (he2 : Elems T2 c ys) (c1 : T.device.type = DEVICE_CPU)
    (c2 : T2.device.type = DEVICE_CPU) (s1 : T.dims.length = 2) (s2 : T2.dims.length = 2) :
    dot R.h R2.h out E m = matmul R.h R2.h out E m :=
  C34_matrix_matrix wf h1 he1 h2 he2 c1 c2 s1 s2 out

/-- C73. `dot` and `matmul` of a matrix, or a stack of matrices, and a vector give the same tensor. -/
theorem C73_dot_vector (wf : m.WF) (h1 : At m R T) (he1 : Elems T c xs) (h2 : At m R2 T2) (he2 : Elems T2 c ys) (c1 : T.device.type = DEVICE_CPU)
    (c2 : T2.device.type = DEVICE_CPU) (hz0 : ZeroOf E.fp c z) (hz : Converts E.fp c (.int 0) z) (s1 : T.dims = bs ++ [nM, nK]) (s2 : T2.dims = [nK])
    (hM : nM ≤ 2147483647) (hK : nK ≤ 2147483647) (hB : prod bs ≤ 2147483647) (hn : prod (bs ++ [nM]) * c.size ≤ 2147483647) (h0 : 0 < nK)
    (hs : ShapeOK (bs ++ [nM]) c.size)
    (hd : ∀ cs i, InRange bs cs → i < nM → ∃ w, DotTo E.fp c z ((List.range nK).map fun q =>
      (elemAt T.dims xs (cs ++ [i, q]), elemAt T2.dims ys [q])) w) :
    GiveSame E m (dot R.h R2.h out) (matmul R.h R2.h out') := by
  obtain ⟨zs, hl, hzs⟩ := exists_elems2 (a := bs) (b := [nM]) (P := fun p q w => DotTo E.fp c z ((List.range nK).map fun k =>
    (elemAt T.dims xs (p ++ [q.getD 0 0, k]), elemAt T2.dims ys [k])) w) fun p q hp hq => hd _ _ hp
      (by have := inRange_get hq (k := 0) (by simp); exact this)
  have hi : prod (bs ++ [nM]) ≤ 2147483647 := Nat.le_trans (Nat.le_mul_of_pos_right _ (by cases c <;> decide)) hn
  refine give_same (C34_tensor_vector_partial (bs := bs ++ [nM]) wf h1 he1 h2 he2 c1 c2 hz0 hz (by rw [s1]; simp) (by simp) s2 hK hn (fun _ => h0) hl
    (fun cs hc => ?_) out).yields fun m1 w1 f => ?_
  · obtain ⟨g1, g2⟩ := inRange_split hc
    have hcs := List.take_append_drop bs.length cs
    match hq : cs.drop bs.length, g2 with
    | [i], g2 =>
      rw [hq] at hcs
      have := hzs _ _ g1 g2
      rw [← hcs]
      simpa using this
  · cases bs with
    | nil =>
      refine (C31_matrix_vector w1 (h1.frame wf f) he1 (h2.frame wf f) he2 c1 c2 hz0 s1 s2 hM hK (by simpa [prod] using hl) (fun i hi => ?_) out').creates.yields
      exact hzs [] [i] trivial ⟨hi, trivial⟩
    | cons b bs =>
      refine makesIf_or ((C31_tensor_vector w1 (h1.frame wf f) he1 (h2.frame wf f) he2 c1 c2 hz0 s1 (by simp) s2 hs hM hK hB hi hl (fun cs i hc hi => ?_)
        out').imp (fun d => d.creates.yields) id) fun p q _ => p q
      exact hzs cs [i] hc ⟨hi, trivial⟩

/-- C73. For a vector, softmax over everything is softmax along its only axis. -/
theorem C73_softmax {es : List Val} {n : Nat} (wf : m.WF) (h : At m R T) (he : Elems T c xs) (hs : T.dims = [n]) (hes : Pointwise (ExpOf E.fp c) xs es)
    (hsz : prod T.dims < 4611686018427387904) (hd : ∀ x ∈ es, ∃ y, ShareOf E.fp c es x y) :
    GiveSame E m (softmax R.h (-1) out) (softmax R.h (0 : Nat) out') := by
  have hl : es.length = n := by rw [← hes.1, he.len, hs]; simp [prod]
  have el : ∀ v : List Val, ∀ i (h : i < v.length), elemAt [n] v [i] = v[i] := fun v i h => by
    simp [elemAt, lin, prod, List.getD, List.getElem?_eq_getElem h]
  obtain ⟨ys, hy, hys⟩ := exists_elems (ds := [n]) (P := fun cs y => ShareOf E.fp c es (elemAt [n] es cs) y) (by
    intro cs hc
    match cs, hc with
    | [i], ⟨hi, _⟩ => rw [el es i (by omega)]; exact hd _ (List.getElem_mem _))
  have hy' : ys.length = n := by rw [hy]; simp [prod]
  refine give_same (T := ⟨T.dtype, T.device, T.dims, encAll c ys⟩) (C37_all wf h he hes ⟨by omega, fun i a b => ?_⟩ out).yields fun m1 w1 f =>
    (C37_axis w1 (h.frame wf f) he (a := 0) (by rw [hs]; simp) hsz hes (by rw [hy', he.len, hs]; simp [prod]) (fun cs hc => ?_) out').yields
  · have := hys [i] ⟨by omega, trivial⟩
    rwa [el es i a, el ys i b] at this
  · rw [hs] at hc ⊢
    match cs, hc with
    | [i], hc =>
      have e : lineAt [n] 0 es [i] = es := by
        simp only [lineAt]
        refine List.ext_getElem (by simp [hl]) fun j a b => ?_
        simp [el es j b]
      rw [e]
      exact hys [i] hc

end

/-- In IEEE arithmetic the integer 0 and the `double` 0 convert to the same zero of every type: the hypotheses on zeros above are met. -/
theorem C73_zero (c : Code) : ∃ z, ZeroOf ieee c z ∧ Converts ieee c (.int 0) z := by
  simp only [ZeroOf, converts_iff]
  cases c <;> first | exact ⟨.int 0, by decide +kernel, by decide +kernel⟩ | exact ⟨.f32 0, by decide +kernel, by decide +kernel⟩ |
    exact ⟨.f64 0, by decide +kernel, by decide +kernel⟩

/-! ## Examples -/

/-- One axis becomes two. -/
example : Regrouped okEnv (Mem.empty.addT exTwo)
    (fun h out => pooling 10 h "avg" (dimsCells [2]) (dimsCells [2]) (dimsCells [1]) (dimsCells [2]) out)
    (fun h out => pooling 10 h "avg" (dimsCells [1, 2]) (dimsCells [3, 2]) (dimsCells [0, 1]) (dimsCells [4, 2]) out) Mem.empty.footT.h [2, 1, 1, 4] [2, 1, 2] :=
  C73_avg_pooling (E := okEnv) (us := []) (ws := [exWin]) (s := 3) (d := 4) (B := 2) (C := 1) (c := .i32) (T := exTwo) (Mem.addT_wf Mem.empty_wf _)
    (tvOf_at _ (by simp) rfl ⟨by decide, by decide⟩) (tvOf_elems (by decide) rfl) rfl (by decide)
    (by decide) exWin_ok ⟨by decide, by decide⟩ (by decide) (by decide) (by decide) (by decide) (by decide) (by decide) (by decide) (by decide) (by
      intro b ch os ho
      match os, ho with
      | [o], ⟨h1, h2, h3, _⟩ =>
        have h3 : o < 2 := h3
        obtain rfl : ch = 0 := by omega
        simp only [avgOf_iff]
        match b, o, h1, h3 with
        | 0, 0, _, _ => exact ⟨_, rfl⟩
        | 0, 1, _, _ => exact ⟨_, rfl⟩
        | 1, 0, _, _ => exact ⟨_, rfl⟩
        | 1, 1, _, _ => exact ⟨_, rfl⟩)

example : Regrouped okEnv (Mem.empty.addT exTwo)
    (fun h out => pooling 10 h "max" (dimsCells [2]) (dimsCells [2]) (dimsCells [1]) (dimsCells [2]) out)
    (fun h out => pooling 10 h "max" (dimsCells [2, 1]) (dimsCells [2, 3]) (dimsCells [1, 0]) (dimsCells [2, 4]) out) Mem.empty.footT.h [2, 1, 4, 1] [2, 1, 2] :=
  C73_max_pooling (E := okEnv) (us := [exWin]) (ws := []) (s := 3) (d := 4) (B := 2) (C := 1) (c := .i32) (T := exTwo) (Mem.addT_wf Mem.empty_wf _)
    (tvOf_at _ (by simp) rfl ⟨by decide, by decide⟩) (tvOf_elems (by decide) rfl) rfl (by decide)
    (by decide) exWin_ok ⟨by decide, by decide⟩ (by decide) (by decide) (by decide) (by decide) (by decide) (by decide) (by decide) (by decide) (by
      intro b ch os ho
      match os, ho with
      | [o], ⟨h1, h2, h3, _⟩ =>
        have h3 : o < 2 := h3
        obtain rfl : ch = 0 := by omega
        simp only [scanOf_iff]
        match b, o, h1, h3 with
        | 0, 0, _, _ => exact ⟨_, rfl⟩
        | 0, 1, _, _ => exact ⟨_, rfl⟩
        | 1, 0, _, _ => exact ⟨_, rfl⟩
        | 1, 1, _, _ => exact ⟨_, rfl⟩)

example : ConvAs okEnv exCv .success .success
    (fun h k out => conv (some .success) (some .success) h k (dimsCells [2]) (dimsCells [1]) (dimsCells [1]) 1 out)
    (fun h k out => conv (some .success) (some .success) h k (dimsCells [3, 2]) (dimsCells [0, 1]) (dimsCells [4, 1]) 1 out)
    Mem.empty.footT.h (Mem.empty.addT exCi).footT.h [1, 1, 1, 3] [1, 1, 1, 2] [1, 1, 2] :=
  C73_conv (E := okEnv) (st := .success) (st' := .success) (us := []) (ws := [exCw]) (s := 3) (d := 4) (B := 1) (C := 1) (O := 1) exCv_wf exCi_at exCf_at
    (tvOf_elems (by decide) rfl) (tvOf_elems (by decide) rfl) rfl rfl exCw_ok (by decide) ⟨by decide, by decide⟩ (by decide) (by decide) (by decide) 1

/-- Two tensors of `float`s in memory. -/
def exFF (d1 : List Nat) (x1 : List Nat) (d2 : List Nat) (x2 : List Nat) : Mem :=
  (Mem.empty.addT (tvOf .f32 d1 (x1.map fun n => .f32 (BitVec.ofNat 32 n)))).addT (tvOf .f32 d2 (x2.map fun n => .f32 (BitVec.ofNat 32 n)))

/-- Handle of the second. -/
def exFG (d1 : List Nat) (x1 : List Nat) : Foot := (Mem.empty.addT (tvOf .f32 d1 (x1.map fun n => .f32 (BitVec.ofNat 32 n)))).footT

/-- Two samples, one filter. -/
example : ConvAs ieeeEnv (exFF [2, 2, 2] [1, 2, 3, 4, 5, 6, 7, 8] [1, 2, 2] [9, 10, 11, 12]) .success .success
    (fun h k out => conv (some .success) (some .success) h k (dimsCells [1]) (dimsCells [0]) (dimsCells [1]) 1 out)
    (fun h k out => matmul h k out) Mem.empty.footT.h (exFG [2, 2, 2] [1, 2, 3, 4, 5, 6, 7, 8]).h [2, 4] [4] [2, 1, 1] :=
  C73_conv_vector (E := ieeeEnv) (st := .success) (st' := .success) (ns := [(2, 1)]) (B := 2) (C := 2)
    (T := tvOf .f32 [2, 2, 2] ([1, 2, 3, 4, 5, 6, 7, 8].map fun n => .f32 (BitVec.ofNat 32 n)))
    (T2 := tvOf .f32 [1, 2, 2] ([9, 10, 11, 12].map fun n => .f32 (BitVec.ofNat 32 n)))
    (Mem.addT_wf (Mem.addT_wf Mem.empty_wf _) _)
    (addT_old (Mem.addT_wf Mem.empty_wf _) (tvOf_at _ (by simp) rfl ⟨by decide, by decide⟩) _) (tvOf_at _ (by simp) rfl ⟨by decide, by decide⟩)
    (tvOf_elems (by decide) rfl) (tvOf_elems (by decide) rfl) rfl rfl rfl rfl (by decide) (by decide) (by decide) (by decide) 1

/-- One sample, two filters. -/
example : ConvAs ieeeEnv (exFF [1, 2, 2] [9, 10, 11, 12] [2, 2, 2] [1, 2, 3, 4, 5, 6, 7, 8]) .success .success
    (fun h k out => conv (some .success) (some .success) h k (dimsCells [1]) (dimsCells [0]) (dimsCells [1]) 1 out)
    (fun h k out => matmul k h out) Mem.empty.footT.h (exFG [1, 2, 2] [9, 10, 11, 12]).h [4] [2, 4] [1, 2, 1] :=
  C73_conv_dense (E := ieeeEnv) (st := .success) (st' := .success) (ns := [(2, 1)]) (O := 2) (C := 2) C73_swap.1
    (T := tvOf .f32 [1, 2, 2] ([9, 10, 11, 12].map fun n => .f32 (BitVec.ofNat 32 n)))
    (T2 := tvOf .f32 [2, 2, 2] ([1, 2, 3, 4, 5, 6, 7, 8].map fun n => .f32 (BitVec.ofNat 32 n)))
    (Mem.addT_wf (Mem.addT_wf Mem.empty_wf _) _)
    (addT_old (Mem.addT_wf Mem.empty_wf _) (tvOf_at _ (by simp) rfl ⟨by decide, by decide⟩) _) (tvOf_at _ (by simp) rfl ⟨by decide, by decide⟩)
    (tvOf_elems (by decide) rfl) (tvOf_elems (by decide) rfl) rfl rfl rfl rfl (by decide) (by decide) (by decide) (by decide) 1

/-- One sample, two filters of one element for each of its two channels, on a machine with fused multiply-add. -/
example : ConvAs fusedEnv (exFF [1, 2, 2] [9, 10, 11, 12] [2, 2, 1] [1, 2, 3, 4]) .success .success
    (fun h k out => conv (some .success) (some .success) h k (dimsCells [1]) (dimsCells [0]) (dimsCells [1]) 1 out)
    (fun h k out => matmul k h out) Mem.empty.footT.h (exFG [1, 2, 2] [9, 10, 11, 12]).h [2, 2] [2, 2] [1, 2, 2] :=
  C73_conv_points (E := fusedEnv) (st := .success) (st' := .success) (ns := [(2, 1)]) (O := 2) (C := 2) C73_swap.2
    (T := tvOf .f32 [1, 2, 2] ([9, 10, 11, 12].map fun n => .f32 (BitVec.ofNat 32 n)))
    (T2 := tvOf .f32 [2, 2, 1] ([1, 2, 3, 4].map fun n => .f32 (BitVec.ofNat 32 n)))
    (Mem.addT_wf (Mem.addT_wf Mem.empty_wf _) _)
    (addT_old (Mem.addT_wf Mem.empty_wf _) (tvOf_at _ (by simp) rfl ⟨by decide, by decide⟩) _) (tvOf_at _ (by simp) rfl ⟨by decide, by decide⟩)
    (tvOf_elems (by decide) rfl) (tvOf_elems (by decide) rfl) rfl rfl rfl rfl (by decide) (by decide) (by decide) (by decide) (by decide) (by decide)
    ⟨by decide, by decide⟩ 1

example : GiveSame okEnv (exM .i32 [3] [1, 2, 3] [3] [4, 5, 6]) (dot exH1.h (exH2 .i32 [3] [1, 2, 3]).h .indet)
    (matmul exH1.h (exH2 .i32 [3] [1, 2, 3]).h .indet) :=
  C73_dot_vectors (E := okEnv) (c := .i32) (T := tvOf .i32 [3] ([1, 2, 3].map .int)) (T2 := tvOf .i32 [3] ([4, 5, 6].map .int)) (nK := 3) (z := .int 0)
    (Mem.addT_wf (Mem.addT_wf Mem.empty_wf _) _)
    (addT_old (Mem.addT_wf Mem.empty_wf _) (tvOf_at _ (by simp) rfl ⟨by decide, by decide⟩) _) (tvOf_elems (by decide) rfl)
    (tvOf_at _ (by simp) rfl ⟨by decide, by decide⟩) (tvOf_elems (by decide) rfl) rfl rfl exZero (converts_iff.2 (by decide)) rfl rfl (by decide)
    ⟨.int 32, exDot (by decide)⟩

/-- Two 1x2 matrices and a vector. -/
example : GiveSame okEnv (exM .i32 [2, 1, 2] [1, 2, 3, 4] [2] [10, 1]) (dot exH1.h (exH2 .i32 [2, 1, 2] [1, 2, 3, 4]).h .indet)
    (matmul exH1.h (exH2 .i32 [2, 1, 2] [1, 2, 3, 4]).h .indet) :=
  C73_dot_vector (E := okEnv) (c := .i32) (T := tvOf .i32 [2, 1, 2] ([1, 2, 3, 4].map .int)) (T2 := tvOf .i32 [2] ([10, 1].map .int))
    (bs := [2]) (nM := 1) (nK := 2) (z := .int 0) (Mem.addT_wf (Mem.addT_wf Mem.empty_wf _) _)
    (addT_old (Mem.addT_wf Mem.empty_wf _) (tvOf_at _ (by simp) rfl ⟨by decide, by decide⟩) _) (tvOf_elems (by decide) rfl)
    (tvOf_at _ (by simp) rfl ⟨by decide, by decide⟩) (tvOf_elems (by decide) rfl) rfl rfl exZero (converts_iff.2 (by decide)) rfl rfl (by decide) (by decide)
    (by decide) (by decide) (by decide) ⟨by decide, by decide⟩
    (by
      intro cs i hc hi
      refine ⟨elemAt [2, 1] ([12, 34].map .int) (cs ++ [i]), ?_⟩
      apply exDot; revert i; revert cs; refine all_coords ?_; decide)

/-- The numbers of `exSm` in one row. -/
def exSmRow : TV := tvOf .f64 [4] ([3, -1, -1, 6].map .f64)

example : GiveSame okEnv (Mem.empty.addT exSmRow) (softmax Mem.empty.footT.h (-1) .indet) (softmax Mem.empty.footT.h (0 : Nat) .indet) :=
  C73_softmax (E := okEnv) (T := exSmRow) (c := .f64) (n := 4) (Mem.addT_wf Mem.empty_wf _) (tvOf_at _ (by simp) rfl ⟨by decide, by decide⟩)
    (tvOf_elems (by decide) rfl) rfl exSm_exp (by decide) fun x hx => by
      simp only [shareOf_iff]
      simp only [List.map_cons, List.map_nil, List.mem_cons, List.not_mem_nil, or_false] at hx
      rcases hx with rfl | rfl | rfl | rfl <;> exact ⟨_, rfl⟩

end Aitisa
