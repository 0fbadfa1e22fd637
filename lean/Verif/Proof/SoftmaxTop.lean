import Verif.Proof.Softmax
import Verif.Proof.Temp
import Verif.Proof.Slice

/-!
# Softmax: the whole operator
-/

namespace Aitisa

variable {E : Env} {m : Mem} {R : Foot} {T : TV}

theorem converts_f64 {fp : FloatOps} {v : Val} {d : BitVec 64} : Converts fp .f64 v (.f64 d) ↔ d = toDouble fp v := by
  rw [converts_iff]
  cases v <;> simp [cCast, toDouble, eq_comm]

theorem sumsTo_iff {fp : FloatOps} {es : List Val} {t r : BitVec 64} :
    SumsTo fp t es r ↔ r = es.foldl (fun t e => fp.add64 t (toDouble fp e)) t := by
  induction es generalizing t with
  | nil => rfl
  | cons e es ih => simp only [SumsTo, converts_f64, exists_eq_left, ih, List.foldl_cons]

theorem totalTo_eq (fp : FloatOps) (e : Nat → Val) (n : Nat) :
    totalTo fp e n = ((List.range n).map e).foldl (fun t e => fp.add64 t (toDouble fp e)) (fp.ofInt64 0) := by
  induction n with
  | zero => rfl
  | succ n ih => rw [totalTo, ih, List.range_succ]; simp

theorem shareOf_iff {fp : FloatOps} {c : Code} {line : List Val} {e y : Val} :
    ShareOf fp c line e y ↔ cCast fp c (.f64 (fp.div64 (toDouble fp e)
      (line.foldl (fun t e => fp.add64 t (toDouble fp e)) (fp.ofInt64 0)))) = .ok y := by
  simp only [ShareOf, sumsTo_iff, converts_f64, exists_eq_left, ← converts_iff]
  constructor
  · rintro ⟨t, d, rfl, rfl, h⟩; exact h
  · intro h; exact ⟨_, _, rfl, rfl, h⟩

theorem expOf_iff {fp : FloatOps} {c : Code} {x e : Val} : ExpOf fp c x e ↔ cCast fp c (.f64 (expOf fp x)) = .ok e := by
  simp only [ExpOf, converts_f64, exists_eq_left, ← converts_iff, expOf]

theorem tab_getD {xs : List Val} {N : Nat} (h : xs.length = N) (z : Val) :
    tab N (fun i => some (xs.getD i z)) = xs.map some := by
  refine List.ext_getElem? fun i => ?_
  by_cases hi : i < N
  · rw [tab_get _ hi]; simp [List.getD, h ▸ hi]
  · rw [List.getElem?_eq_none (by rw [tab_length]; omega), List.getElem?_eq_none (by simp; omega)]

theorem tab_none (N : Nat) : tab N (fun _ => (none : Option Val)) = List.replicate N none := by
  simp [tab, List.map_const']

/-- The memory of a tensor with uninitialised elements, as an array. -/
theorem blank_arr {q : Nat} {c : Code} {N : Nat}
    (h : m.blk q = some ⟨.own, .bytes (List.replicate (N * c.size) none)⟩) : (m.arr q c N fun _ => none) = m := by
  unfold Mem.arr
  rw [tab_none, encOpt_replicate]
  exact Mem.set_self _ _ _ h

theorem full_arr (m : Mem) (q : Nat) (c : Code) {N : Nat} {ys : List Val} (h : ys.length = N) (z : Val) :
    (m.arr q c N fun i => some (ys.getD i z)) = m.set q (some ⟨.own, .bytes (encAll c ys)⟩) := by
  unfold Mem.arr
  rw [tab_getD h, encAll_eq]

theorem prodMax_set (ds : List Nat) (a : Nat) : prodMax (ds.set a 1) ≤ prodMax ds := by
  induction ds generalizing a with
  | nil => simp
  | cons d ds ih =>
    cases a with
    | zero => exact Nat.mul_le_mul_right _ (by omega)
    | succ a => exact Nat.mul_le_mul_left _ (ih a)

theorem batch_axis {a : Nat} {ds : List Nat} {k : Nat} (h : ShapeOK ds k) :
    batchSize ((markAt a ds).map castMark) E m = .ok (prod (ds.set a 1) : Int) m := by
  have := batchSize_run (E := E) (m := m) (markAt a ds) (by
    rw [markAt_one]; exact Nat.le_trans (prodMax_set _ _) h.prodMax_le)
  rwa [markAt_one] at this

/-- Softmax along an axis, on a fresh output. -/
theorem softmaxAxis_run {m0 : Mem} {R' : Foot} {c : Code} {xs es ys : List Val} {a : Nat} (wf : m0.WF) (h : At m0 R T)
    (he : Elems T c xs)
    (ha : a < T.dims.length) (hsz : prod T.dims < 4611686018427387904)
    (P : Produces m0 m R' ⟨T.dtype, T.device, T.dims, List.replicate (prod T.dims * T.dtype.size) none⟩)
    (hes : Pointwise (ExpOf E.fp c) xs es) (hy : ys.length = xs.length)
    (hys : ∀ cs, InRange T.dims cs → ShareOf E.fp c (lineAt T.dims a es cs) (elemAt T.dims es cs) (elemAt T.dims ys cs)) :
    (∃ m', softmaxAxis R.h a R'.h E m = .ok .success m' ∧ Produces m0 m' R' ⟨T.dtype, T.device, T.dims, encAll c ys⟩) ∨
    (¬ E.NoFail ∧ ∃ m', softmaxAxis R.h a R'.h E m = .ok .allocFailed m' ∧ Frame m0 m' ∧ m'.WF) := by
  have h1 := h.frame wf P.frame
  have hN := he.len
  have h0 : T.dims ≠ [] := by intro hn; rw [hn] at ha; simp at ha
  have hmark : ∀ ds : List Nat, ((ints ds).zipIdx.map fun p => (p.1, decide ((p.2 : Int) = (a : Int)))) =
      (markAt a ds).map castMark := fun ds => markAt_cast a ds
  obtain ⟨p1, m1, s1, f1, w1, c1⟩ := scratch_any (T.dims.length : Int) 8 E P.wf
  obtain ⟨p2, m2, s2, f2, w2, c2⟩ := scratch_any (T.dims.length : Int) 8 E w1
  have hfail : (p1 = .null ∨ p2 = .null) → ¬ E.NoFail → (¬ E.NoFail ∧ ∃ m', softmaxAxis R.h a R'.h E m = .ok .allocFailed m' ∧
      Frame m0 m' ∧ m'.WF) := by
    intro hn nf
    refine ⟨nf, m2, ?_, P.frame.trans (f1.trans f2), w2⟩
    unfold softmaxAxis
    msimp [h1.tDimsArr, h1.tNdim, Int.toNat_natCast, rdAll_dims, hmark, batch_axis h.shape, s1, s2, hn]
  rcases c1 with ⟨n1, nf⟩ | ⟨rfl, b1, rfl⟩
  · exact .inr (hfail (.inl n1) nf)
  rcases c2 with ⟨n2, nf⟩ | ⟨rfl, b2, rfl⟩
  · exact .inr (hfail (.inr n2) nf)
  left
  have H := (P.holds.push b1).push b2
  obtain ⟨m4, hm4⟩ : ∃ m4, m4 = (m.push b1).push b2 := ⟨_, rfl⟩
  rw [← hm4] at s2 H
  have h4 : At m4 R T := h.frame wf H.ext.toFrame
  have hq : R'.p ∉ R.list := P.disjoint wf h (by simp [mem_foot])
  have hblank := H.tensor.data
  simp only [he.dtype] at hblank
  have e0 : (m4.arr R'.p c (prod T.dims) fun _ => none) = m4 := blank_arr hblank
  obtain ⟨s, hl⟩ := softmaxLoop_run (E := E) (q := R'.p) (e := fun i => es.getD i (.int 0)) (y := fun i => ys.getD i (.int 0))
    h4 he ha hq hsz
    (by
      intro i hi
      have hi' : i < es.length := hes.1 ▸ hi
      have := expOf_iff.1 (hes.2 i hi hi')
      simpa [List.getD, hi'] using this)
    (by
      intro i hi
      have hi' : i < prod T.dims := by omega
      have := shareOf_iff.1 (hys (unlin T.dims i) (unlin_inRange hi'))
      unfold lineAt elemAt at this
      rw [lin_unlin hi'] at this
      rw [totalTo_eq]
      simpa [List.getD, ha] using this)
  rw [e0, full_arr _ _ _ (by omega)] at hl
  have H5 := H.setData (bs := encAll c ys) (by
    rw [encAll_length]; simp [he.dtype, hy, hN]; rfl)
  have n1 : (m4.set R'.p (some ⟨.own, .bytes (encAll c ys)⟩)).blk m.next = some ⟨.own, b1⟩ := by
    have hne : m.next ≠ R'.p := fun e => by
      have := P.tensor.lt P.wf (b := R'.p) (by simp [mem_foot]); omega
    rw [Mem.set_blk_ne _ _ hne, hm4, Mem.push_blk_ne _ _ (by simp)]
    simp
  have n2 : (m4.set R'.p (some ⟨.own, .bytes (encAll c ys)⟩)).blk (m.next + 1) = some ⟨.own, b2⟩ := by
    have hne : m.next + 1 ≠ R'.p := fun e => by
      have := P.tensor.lt P.wf (b := R'.p) (by simp [mem_foot]); omega
    rw [Mem.set_blk_ne _ _ hne, hm4]
    exact Mem.push_blk_same _ _
  refine ⟨_, ?_, H5.done (K := [m.next + 1, m.next]) (by simp) (by simp)⟩
  have hst : (Arr.of (ints (strides T.dims))).rd (a : Int) E m4 = .ok (prod (T.dims.drop (a + 1)) : Int) m4 := by
    refine run_rd ?_ E m4
    have hs : a < (strides T.dims).length := by rw [strides_length]; exact ha
    simp [Arr.of, hs, strides_get]
  unfold softmaxAxis
  msimp [h1.tDimsArr, h1.tNdim, Int.toNat_natCast, rdAll_dims, hmark, batch_axis h.shape, s1, s2, offsets_run h0 h.shape.prodMax_le, hst,
    h4.tDtype, he.dtype, find_dtype c, h4.tData, H.tensor.tData, rd_dims ha, hl, free_first n1, show (m.push b1).next = m.next + 1 from rfl,
    free_drop n2 (K := [m.next]) (by simp)]

/-- Softmax over all elements, on a fresh output. -/
theorem softmaxAll_run {m0 : Mem} {R' : Foot} {c : Code} {xs es ys : List Val} (wf : m0.WF) (h : At m0 R T)
    (he : Elems T c xs)
    (P : Produces m0 m R' ⟨T.dtype, T.device, T.dims, List.replicate (prod T.dims * T.dtype.size) none⟩)
    (hes : Pointwise (ExpOf E.fp c) xs es) (hys : Pointwise (ShareOf E.fp c es) es ys) :
    ∃ m', softmaxAll R.h R'.h E m = .ok .success m' ∧ Produces m0 m' R' ⟨T.dtype, T.device, T.dims, encAll c ys⟩ := by
  have h1 := h.frame wf P.frame
  have hN := he.len
  have hes1 := hes.1
  have hys1 := hys.1
  have hq : R'.p ∉ R.list := P.disjoint wf h (by simp [mem_foot])
  have hblank := P.tensor.data
  simp only [he.dtype] at hblank
  have e0 : (m.arr R'.p c (prod T.dims) fun _ => none) = m := blank_arr hblank
  have hle := h.shape.prod_le
  have htot : totalTo E.fp (fun i => es.getD i (.int 0)) (prod T.dims) =
      es.foldl (fun t e => E.fp.add64 t (toDouble E.fp e)) (E.fp.ofInt64 0) := by
    rw [totalTo_eq]
    congr 1
    refine List.ext_getElem (by simp; omega) fun i k1 k2 => ?_
    simp [List.getD, k2]
  have hrow := softmaxRow_run (E := E) (m := m) (c := c) (ip := .blk R.p) (q := R'.p) (N := prod T.dims) (n := prod T.dims)
    (k0 := 0) (st := 1) (pos := fun j => j) (x := fun j => xs.getD j (.int 0)) (e := fun i => es.getD i (.int 0))
    (y := fun i => ys.getD i (.int 0)) (G1 := fun j i => if i < j then some (es.getD i (.int 0)) else none)
    (G2 := fun j i => if i < j then some (ys.getD i (.int 0)) else some (es.getD i (.int 0)))
    (by intro j hj; omega)
    (by
      intro j hj G
      have := (h1.set_ne hq (some ⟨.own, .bytes (encOpt c (tab (prod T.dims) G))⟩)).load (E := E) he (i := j) (by omega)
      simp only [List.getD, List.getElem?_eq_getElem (show j < xs.length by omega), Option.getD_some]
      exact this)
    (by
      intro i hi
      have hi1 : i < xs.length := by omega
      have hi' : i < es.length := by omega
      have := expOf_iff.1 (hes.2 i hi1 hi')
      simpa [List.getD, hi', hi1] using this)
    (by
      intro i hi
      have hi' : i < es.length := by omega
      have hi2 : i < ys.length := by omega
      have := shareOf_iff.1 (hys.2 i hi' hi2)
      rw [htot]
      simpa [List.getD, hi', hi2] using this)
    (by
      intro j hj i hi
      by_cases hij : i = j
      · subst hij; rw [if_pos (by omega), if_pos rfl]
      · rw [if_neg hij]; simp only [show (i < j + 1) ↔ i < j by omega])
    (by intro i hi; rw [if_neg (by omega), if_pos hi])
    (by
      intro j hj i hi
      by_cases hij : i = j
      · subst hij; rw [if_pos (by omega), if_pos rfl]
      · rw [if_neg hij]; simp only [show (i < j + 1) ↔ i < j by omega])
    (by intro j hj; rw [if_neg (by omega)])
  have e0' : (m.arr R'.p c (prod T.dims) fun i => if i < 0 then some (es.getD i (.int 0)) else none) = m :=
    (Mem.arr_congr _ _ _ fun i hi => by simp).trans e0
  have e1 : (m.arr R'.p c (prod T.dims) fun i => if i < prod T.dims then some (ys.getD i (.int 0)) else some (es.getD i (.int 0))) =
      m.set R'.p (some ⟨.own, .bytes (encAll c ys)⟩) :=
    (Mem.arr_congr _ _ _ fun i hi => by rw [if_pos hi]).trans (full_arr _ _ _ (by omega) _)
  rw [e0', e1] at hrow
  refine ⟨_, ?_, P.setData (bs := encAll c ys) (by rw [encAll_length]; simp [he.dtype, ← hys1, ← hes1, hN]; rfl)⟩
  unfold softmaxAll
  msimp [h1.tDtype, he.dtype, find_dtype c, h1.tData, P.tensor.tData, h1.tSize]
  rw [show ((0 : Nat) : Int) = 0 from rfl, show ((1 : Nat) : Int) = 1 from rfl] at hrow
  msimp [hrow]

/-- Softmax along axis `a`. -/
theorem softmax_axis {c : Code} {xs es ys : List Val} {a : Nat} (wf : m.WF) (h : At m R T) (he : Elems T c xs)
    (ha : a < T.dims.length) (hsz : prod T.dims < 4611686018427387904) (hes : Pointwise (ExpOf E.fp c) xs es)
    (hy : ys.length = xs.length)
    (hys : ∀ cs, InRange T.dims cs → ShareOf E.fp c (lineAt T.dims a es cs) (elemAt T.dims es cs) (elemAt T.dims ys cs))
    (out : Ptr) : Tries E (softmax R.h a out) m ⟨T.dtype, T.device, T.dims, encAll c ys⟩ := by
  have hc : ¬ ((a : Int) < -1 ∨ (a : Int) > (T.dims.length : Int) - 1) := by omega
  have hc' : ¬ ((a : Int) = -1) := by omega
  unfold Tries softmax
  rcases createLike_run (E := E) wf h .indet with ⟨R', m1, e1, P⟩ | ⟨m1, e1, fr, wf1, nf⟩
  · rcases softmaxAxis_run (E := E) wf h he ha hsz P hes hy hys with ⟨m2, e2, P2⟩ | ⟨nf, m2, e2, fr, wf2⟩
    · left
      refine ⟨R', m2, ?_, P2⟩
      msimp [h.tNdim, hc, hc', e1, e2]
    · right
      refine ⟨nf, R'.h, m2, ?_, fr, wf2⟩
      msimp [h.tNdim, hc, hc', e1, e2]
  · right
    refine ⟨nf, .indet, m1, ?_, fr, wf1⟩
    msimp [h.tNdim, hc, hc', e1]

/-- Softmax over all elements. -/
theorem softmax_all {c : Code} {xs es ys : List Val} (wf : m.WF) (h : At m R T) (he : Elems T c xs)
    (hes : Pointwise (ExpOf E.fp c) xs es) (hys : Pointwise (ShareOf E.fp c es) es ys)
    (out : Ptr) : Tries E (softmax R.h (-1) out) m ⟨T.dtype, T.device, T.dims, encAll c ys⟩ := by
  have hc : ¬ ((-1 : Int) < -1 ∨ (-1 : Int) > (T.dims.length : Int) - 1) := by omega
  unfold Tries softmax
  rcases createLike_run (E := E) wf h .indet with ⟨R', m1, e1, P⟩ | ⟨m1, e1, fr, wf1, nf⟩
  · obtain ⟨m2, e2, P2⟩ := softmaxAll_run (E := E) wf h he P hes hys
    left
    refine ⟨R', m2, ?_, P2⟩
    msimp [h.tNdim, hc, e1, e2]
  · right
    refine ⟨nf, .indet, m1, ?_, fr, wf1⟩
    msimp [h.tNdim, hc, e1]

/-- Any other axis is refused. -/
theorem softmax_refuse (h : At m R T) {axis : Int} (ha : axis < -1 ∨ (T.dims.length : Int) ≤ axis) (out : Ptr) :
    softmax R.h axis out E m = .ok (.notSupported, out) m := by
  have hc : axis < -1 ∨ axis > (T.dims.length : Int) - 1 := by omega
  unfold softmax
  msimp [h.tNdim, hc]

end Aitisa
