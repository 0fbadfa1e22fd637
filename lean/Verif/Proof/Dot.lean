import Verif.Model.Dot
import Verif.Proof.MatmulBatch
import Verif.Proof.Duplicate
import Verif.Proof.Softmax

/-! # The parts of the dot product -/

namespace Aitisa

variable {E : Env} {m m' m1 : Mem} {R R1 R2 Rv : Foot} {T T1 T2 Tv : TV} {c : Code} {xs ys : List Val} {z z0 w : Val} {nK : Nat}
  {L : List Nat} {out : Ptr}

/-! ### Vector-vector -/

theorem dotKernel_run (X : KCtx m R1 R2 T1 T2 c xs ys q) {n : Nat} (hn : n ≤ 2147483647) (ha : n ≤ xs.length) (hb : n ≤ ys.length)
    (hz : cCast E.fp c (.int 0) = .ok z) (G : Nat → Option Val) {W : Nat → Val}
    (hdot : dotRun E.fp c z ((List.range n).map fun k => (xs.getD k (.int 0), ys.getD k (.int 0))) = .ok (W 0)) :
    dotKernel c (.blk R1.p) (.blk R2.p) (.blk q) n E (m.arr q c 1 G) = .ok () (m.arr q c 1 fun k => some (W k)) := by
  have wz := cCast_WT hz
  have hs := storeArr (E := E) (m := m) (q := q) (N := 1) (k := 0) (c := c) (G := G) (H := upd G 0 (some z)) (v := z) (by omega)
    (by intro i hi; rfl)
  have hl := X.loop (E := E) (P := 1) (K := n) (ia := fun k => k) (ib := fun k => k) (ic := 0)
    (f := fun k _ => macStep c (.blk R1.p) (.blk R2.p) (.blk q) k k 0)
    (G := upd G 0 (some z)) (z := z) (fun k m' hk => rfl) (fun k hk => by omega) (fun k hk => by omega) (by omega) (by simp) wz
  rw [hdot] at hl
  unfold dotKernel
  rw [show ((0 : Nat) : Int) = 0 from rfl] at hs
  msimp [run_liftU hz, hs, run_forI32 hn, hl]
  congr 1

theorem vecDot_run (wf : m.WF) (h1 : At m R1 T1) (he1 : Elems T1 c xs) (h2 : At m R2 T2) (he2 : Elems T2 c ys)
    (hz0 : ZeroOf E.fp c z0) (hz : cCast E.fp c (.int 0) = .ok z) (s1 : T1.dims = [nK]) (s2 : T2.dims = [nK])
    (hK : nK ≤ 2147483647) (hs : ShapeOK [1] c.size)
    (hdot : dotRun E.fp c z ((List.range nK).map fun q => (xs.getD q (.int 0), ys.getD q (.int 0))) = .ok w) (out : Ptr) :
    Delivers E (vecDot R1.h R2.h out) m out c T1.device [1] [w] := by
  have l1 := he1.len
  have l2 := he2.len
  rw [s1] at l1
  rw [s2] at l2
  simp [prod] at l1 l2
  have ww := dotRun_WT (cCast_WT hz) hdot
  have e : vecDot R1.h R2.h out E m =
      matPlain R1.h R2.h (dimsCells [1]) ([1] : List Nat).length out (fun c ap bp cp => dotKernel c ap bp cp nK) E m := by
    unfold vecDot
    msimp [h1.dimI (k := 0) (i := 0) (d := nK) rfl (by simp [s1]), h2.dimI (k := 0) (i := 0) (d := nK) rfl (by simp [s2]), h1.tSize]
    rw [s1, show prod [nK] = nK by simp [prod]]
    rfl
  rcases matPlain_top (out := out) wf h1 he1 h2 (he2.reads h2) hs (by simp [prod]) hz0 (fun c ap bp cp => dotKernel c ap bp cp nK) with h | h
  · rw [← e] at h; exact ⟨.inr h, by simpa using ww, rfl⟩
  · refine (h.congr e).delivers (zs := [w]) rfl (by simpa using ww) ?_
    intro p mk X
    have := dotKernel_run (E := E) X hK (by omega) (by omega) hz (done (fun i => ([w] : List Val).getD i (.int 0)) z0 0)
      (W := fun i => ([w] : List Val).getD i (.int 0)) (by simpa using hdot)
    simp only [prod, Nat.mul_one]
    rw [this, arr_done_all]

/-! ### The odometer -/

theorem odoGe_step (L : List (Nat × Bool)) {i : Nat} (hi : i < prod (L.map one)) :
    odoGe (L.map castMark) (ints (unlin (L.map one) i)) =
      if i + 1 < prod (L.map one) then (ints (unlin (L.map one) (i + 1)), false)
      else (ints (unlin (L.map one) 0), true) := by
  induction L generalizing i with
  | nil => simp [prod] at hi ⊢; simp [unlin, odoGe]
  | cons p L ih =>
    obtain ⟨d, b⟩ := p
    have hP : 0 < prod (L.map one) := by
      rcases Nat.eq_zero_or_pos (prod (L.map one)) with h | h
      · simp [prod, h] at hi
      · exact h
    cases b with
    | true =>
      simp only [List.map_cons, one, if_true, prod, Nat.one_mul] at hi
      have hd : i / prod (L.map one) = 0 := Nat.div_eq_of_lt hi
      have hm : i % prod (L.map one) = i := Nat.mod_eq_of_lt hi
      simp only [List.map_cons, one, castMark, if_true, unlin, hd, hm, odoGe, ih hi, prod, Nat.one_mul]
      by_cases hc : i + 1 < prod (L.map one)
      · simp [hc, Nat.div_eq_of_lt hc, Nat.mod_eq_of_lt hc]
      · simp [hc]
    | false =>
      have ho : one (d, false) = d := rfl
      simp only [List.map_cons, ho, prod] at hi
      obtain ⟨s1, s2⟩ := succ_div_mod hi
      have hmod := Nat.mod_lt i hP
      have hq : i / prod (L.map one) < d := by rw [Nat.div_lt_iff_lt_mul hP]; exact hi
      simp only [List.map_cons, ho, castMark, unlin, odoGe, ih hmod, prod, Nat.zero_div, Nat.zero_mod]
      generalize prod (L.map one) = P at *
      by_cases hc : i % P + 1 < P
      · obtain ⟨e1, e2, e3⟩ := s1 hc
        simp only [hc, e1, e2, e3, if_true]
        rfl
      · obtain ⟨e1, e2, e3⟩ := s2 hc
        simp only [hc, e1, e2, if_false, if_true, Bool.false_eq_true]
        generalize i / P = Q at *
        by_cases hl : Q + 1 < d
        · have hne : ¬ (Q : Int) + 1 ≥ d := by omega
          rw [if_neg hne, if_pos (e3.2 hl)]; rfl
        · have hne : (Q : Int) + 1 ≥ d := by omega
          rw [if_pos hne, if_neg (fun h => hl (e3.1 h))]; rfl

/-! ### Vectors of a tensor -/

theorem unlin_append {a b : List Nat} {i : Nat} (hi : i < prod a * prod b) :
    unlin (a ++ b) i = unlin a (i / prod b) ++ unlin b (i % prod b) := by
  induction a generalizing i with
  | nil => simp [prod] at hi; simp [unlin, Nat.mod_eq_of_lt hi]
  | cons d a ih =>
    simp only [prod, Nat.mul_assoc] at hi
    have hP : 0 < prod a * prod b := by
      rcases Nat.eq_zero_or_pos (prod a * prod b) with h | h
      · rw [h] at hi; omega
      · exact h
    simp only [List.cons_append, unlin, prod_append, ih (Nat.mod_lt i hP)]
    rw [Nat.mul_comm (prod a), ← Nat.div_div_eq_div_mul, Nat.mod_mul_right_div_self, Nat.mod_mul_right_mod]

/-- The axes of a slice that takes the vector through `p`, `q` along the axis between. -/
def dropAx (l : List Nat) : List Axis := l.map fun i => ⟨i, 0, 1⟩

theorem sliceDims_drop (p : List Nat) (X : List Axis) : sliceDims (dropAx p ++ X) = sliceDims X := by
  induction p with
  | nil => rfl
  | cons i p ih => simp only [dropAx, List.map_cons, List.cons_append, sliceDims]; simpa [dropAx] using ih

theorem source_drop (p : List Nat) (X : List Axis) (oc : List Nat) : source (dropAx p ++ X) oc = p ++ source X oc := by
  induction p with
  | nil => rfl
  | cons i p ih => simp only [dropAx, List.map_cons, List.cons_append, source]; simpa [dropAx] using ih

theorem sliceFits_drop {ds p : List Nat} {ds' : List Nat} {X : List Axis} (h : InRange ds p) (hX : SliceFits ds' X) :
    SliceFits (ds ++ ds') (dropAx p ++ X) := by
  induction ds generalizing p with
  | nil => cases p with
    | nil => exact hX
    | cons => exact h.elim
  | cons d ds ih => cases p with
    | nil => exact h.elim
    | cons i p => 
      obtain ⟨h1, h2⟩ := h
      exact ⟨⟨h1, by simp; omega, by simp⟩, ih h2⟩

/-- A request for the whole vector along one axis. -/
def lineAx (p : List Nat) (K : Nat) (q : List Nat) : List Axis := dropAx p ++ ⟨0, K, 1⟩ :: dropAx q

theorem lineAx_dims (p q : List Nat) {K : Nat} (hK : 0 < K) : sliceDims (lineAx p K q) = [K] := by
  unfold lineAx
  have := sliceDims_drop q []
  rw [List.append_nil] at this
  rw [sliceDims_drop]
  simp [sliceDims, this, ceilDiv]; omega

theorem lineAx_source (p q : List Nat) {K : Nat} (hK : 0 < K) (j : Nat) : source (lineAx p K q) [j] = p ++ j :: q := by
  unfold lineAx
  have := source_drop q [] []
  rw [List.append_nil] at this
  rw [source_drop]
  simp [source, this, Nat.ne_of_gt hK]

theorem lineAx_fits {a b p q : List Nat} {K : Nat} (hp : InRange a p) (hq : InRange b q) (hK : 0 < K) :
    SliceFits (a ++ K :: b) (lineAx p K q) := by
  refine sliceFits_drop hp ⟨⟨by simpa using hK, by simp, by simp⟩, ?_⟩
  have := sliceFits_drop (ds' := []) (X := []) hq trivial
  simpa using this

theorem inRange_lt {ds cs : List Nat} (h : InRange ds cs) : ∀ c ∈ cs, c < prod ds := by
  induction ds generalizing cs with
  | nil => cases cs with
    | nil => simp
    | cons => exact h.elim
  | cons d ds ih => cases cs with
    | nil => exact h.elim
    | cons i cs =>
      obtain ⟨h1, h2⟩ := h
      have hp : 0 < prod ds := by have := lin_lt h2; omega
      intro c hc
      rcases List.mem_cons.1 hc with rfl | hc
      · exact Nat.lt_of_lt_of_le h1 (Nat.le_mul_of_pos_right _ hp)
      · exact Nat.lt_of_lt_of_le (ih h2 c hc) (Nat.le_mul_of_pos_left _ (by omega))

/-- The elements of vector number `i` along the axis between the dims `a` and `b`. -/
def vecAt (a : List Nat) (K : Nat) (b : List Nat) (xs : List Val) (i : Nat) : List Val :=
  (List.range K).map fun j => elemAt (a ++ K :: b) xs (unlin a (i / prod b) ++ j :: unlin b (i % prod b))

/-- The index recorder at vector number `i`. -/
def vecIdx (a b : List Nat) (i : Nat) : List Nat := unlin a (i / prod b) ++ 0 :: unlin b (i % prod b)

theorem vecIdx_eq {a b : List Nat} {i : Nat} (hi : i < prod a * prod b) : vecIdx a b i = unlin (a ++ 1 :: b) i := by
  have h1 : prod (1 :: b) = prod b := by simp [prod]
  rw [unlin_append (by rw [h1]; exact hi), h1]
  have hb : 0 < prod b := by
    rcases Nat.eq_zero_or_pos (prod b) with h | h
    · rw [h] at hi; omega
    · exact h
  have := Nat.mod_lt i hb
  simp only [vecIdx, unlin, Nat.mod_mod, Nat.div_eq_of_lt this]

theorem vecsOf_eq (h : Ptr) (a b : List Nat) {K : Nat} (hK : K ≤ 2147483647) :
    vecsOf h (ints (a ++ K :: b)) a.length =
      ⟨h, (markAt a.length (a ++ K :: b)).map castMark, ints (a.map (fun _ => 0) ++ K :: b.map fun _ => 0),
        ints ((a ++ K :: b).map fun _ => 1)⟩ := by
  unfold vecsOf
  congr 1
  · rw [← markAt_cast]
    simp [Int.ofNat_inj]
  · apply List.ext_getElem
    · simp
    · intro i h1 h2
      simp only [List.getElem_map, List.getElem_zipIdx, Nat.zero_add, List.getElem_append, List.length_map, List.getElem_cons]
      by_cases e : i = a.length
      · subst e
        simp only [if_true, Nat.lt_irrefl, dite_false, Nat.sub_self, dite_true]
        exact toI32_id (by unfold I32_MIN I32_MAX; omega)
      · rw [if_neg e]
        by_cases l : i < a.length
        · simp [l]
        · have : i - a.length ≠ 0 := by omega
          simp [l, this]
  · simp [Function.comp_def]

theorem vecGet_run {a b : List Nat} {i K : Nat} (wf : m.WF) (h : At m R T) (he : Elems T c xs) (hs : T.dims = a ++ K :: b)
    (hi : i < prod a * prod b) (hn : prod a * prod b ≤ 2147483647) (h0 : 0 < K) (hK : K ≤ 2147483647) :
    Attempts E ((vecsOf R.h (ints T.dims) a.length).get (ints (vecIdx a b i))) m
      ⟨c.dtype, T.device, [K], encAll c (vecAt a K b xs i)⟩ := by
  have hb : 0 < prod b := by
    rcases Nat.eq_zero_or_pos (prod b) with h | h
    · rw [h] at hi; omega
    · exact h
  have hp := unlin_inRange (ds := a) (i := i / prod b) (by rw [Nat.div_lt_iff_lt_mul hb]; exact hi)
  have hq := unlin_inRange (ds := b) (i := i % prod b) (Nat.mod_lt _ hb)
  have ha : 0 < prod a := by have := lin_lt hp; omega
  have lpa : prod a ≤ prod a * prod b := Nat.le_mul_of_pos_right _ hb
  have lpb : prod b ≤ prod a * prod b := Nat.le_mul_of_pos_left _ ha
  have hd := lineAx_dims (unlin a (i / prod b)) (unlin b (i % prod b)) h0
  have H := slice_run (E := E) (ax := lineAx (unlin a (i / prod b)) K (unlin b (i % prod b))) wf h he (by rw [hs]; simp)
    (by rw [hs]; exact lineAx_fits hp hq h0) (by
      intro x hx
      simp only [lineAx, dropAx, List.mem_append, List.mem_cons, List.mem_map] at hx
      rcases hx with ⟨y, hy, rfl⟩ | rfl | ⟨y, hy, rfl⟩
      · have := inRange_lt hp y hy; simp; omega
      · simp; omega
      · have := inRange_lt hq y hy; simp; omega) (by rw [hd]; simpa [prod] using hK) .indet
  rw [hd] at H
  have e1 : sliceElems T.dims (lineAx (unlin a (i / prod b)) K (unlin b (i % prod b))) xs = vecAt a K b xs i := by
    unfold sliceElems vecAt
    rw [hd, show prod [K] = K by simp [prod], hs]
    apply List.map_congr_left
    intro j hj
    rw [srcAt, hd, show unlin [K] j = [j] by simp [unlin, prod], lineAx_source _ _ h0]
    rfl
  rw [e1] at H
  rw [hs, vecsOf_eq _ _ _ hK]
  unfold Vecs.get
  rw [of_ints, of_ints, of_ints]
  have e2 : bgs (lineAx (unlin a (i / prod b)) K (unlin b (i % prod b))) = dimsCells (vecIdx a b i) := by
    simp [bgs, lineAx, vecIdx, dropAx, Function.comp_def]
  have la : (unlin a (i / prod b)).length = a.length := unlin_length ..
  have lb : (unlin b (i % prod b)).length = b.length := unlin_length ..
  have e3 : szs (lineAx (unlin a (i / prod b)) K (unlin b (i % prod b))) = dimsCells (a.map (fun _ => 0) ++ K :: b.map fun _ => 0) := by
    simp [szs, lineAx, dropAx, Function.comp_def, la, lb, List.map_const']
  have e4 : sts (lineAx (unlin a (i / prod b)) K (unlin b (i % prod b))) = dimsCells ((a ++ K :: b).map fun _ => 1) := by
    simp [sts, lineAx, dropAx, Function.comp_def, la, lb, List.map_const']
  rw [← e2, ← e3, ← e4]
  exact H

theorem vecNext {a b : List Nat} {i K : Nat} (hi : i < prod a * prod b) (h : Ptr) (hK : K ≤ 2147483647) :
    (odoGe (vecsOf h (ints (a ++ K :: b)) a.length).marked (ints (vecIdx a b i))).1 =
      ints (vecIdx a b (if i + 1 < prod a * prod b then i + 1 else 0)) := by
  have e1 : (a ++ K :: b).set a.length 1 = a ++ 1 :: b := by simp
  have e2 : prod (a ++ 1 :: b) = prod a * prod b := by simp [prod_append, prod]
  have := odoGe_step (markAt a.length (a ++ K :: b)) (i := i) (by rw [markAt_one, e1, e2]; exact hi)
  rw [markAt_one, e1, e2] at this
  rw [vecsOf_eq _ _ _ hK, vecIdx_eq hi]
  simp only [this]
  by_cases hc : i + 1 < prod a * prod b
  · simp only [if_pos hc, vecIdx_eq hc]
  · simp only [if_neg hc, vecIdx_eq (show 0 < prod a * prod b by omega)]

theorem unlin_zero (ds : List Nat) : unlin ds 0 = ds.map fun _ => 0 := by
  induction ds with
  | nil => rfl
  | cons d ds ih => simp [unlin, ih]

theorem vecIdx_zero (a : List Nat) (K : Nat) (b : List Nat) : ints (vecIdx a b 0) = (ints (a ++ K :: b)).map fun _ => (0 : Int) := by
  simp [vecIdx, unlin_zero, Function.comp_def]

theorem inRange_append {a b p q : List Nat} (hp : InRange a p) (hq : InRange b q) : InRange (a ++ b) (p ++ q) := by
  induction a generalizing p with
  | nil => cases p with
    | nil => exact hq
    | cons => exact hp.elim
  | cons d a ih => cases p with
    | nil => exact hp.elim
    | cons i p => exact ⟨hp.1, ih hp.2⟩

theorem elem_WT (he : Elems T c xs) {k : Nat} (hk : k < xs.length) : (xs.getD k (.int 0)).WT c := by
  simp only [List.getD, List.getElem?_eq_getElem hk, Option.getD_some]; exact he.wt _ (List.getElem_mem hk)

theorem vecAt_WT {a b : List Nat} {K i : Nat} (he : Elems T c xs) (hs : T.dims = a ++ K :: b) (hi : i < prod a * prod b) :
    (∀ x ∈ vecAt a K b xs i, x.WT c) ∧ (vecAt a K b xs i).length = K := by
  refine ⟨?_, by simp [vecAt]⟩
  intro x hx
  obtain ⟨j, hj, rfl⟩ := List.mem_map.1 hx
  have hj := List.mem_range.1 hj
  have hb : 0 < prod b := by
    rcases Nat.eq_zero_or_pos (prod b) with h | h
    · rw [h] at hi; omega
    · exact h
  have hp := unlin_inRange (ds := a) (i := i / prod b) (by rw [Nat.div_lt_iff_lt_mul hb]; exact hi)
  have hq := unlin_inRange (ds := b) (i := i % prod b) (Nat.mod_lt _ hb)
  have hr : InRange (a ++ K :: b) (unlin a (i / prod b) ++ j :: unlin b (i % prod b)) := by
    exact inRange_append hp ⟨hj, hq⟩
  exact elem_WT he (by have := lin_lt hr; rw [← hs, ← he.len] at this; rw [← hs]; exact this)

end Aitisa
