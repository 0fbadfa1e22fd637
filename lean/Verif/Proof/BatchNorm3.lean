import Verif.Proof.BatchNormTop

/-! # Batch normalisation: rank 3 and more, the loop over samples and channels -/

namespace Aitisa

variable {E : Env} {m m0 m1 mi mB : Mem} {R R' : Foot} {T T' : TV} {c : Code} {q N : Nat} {xs ys zs : List Val} {L : List Item}
  {G : Nat → Option Val}

/-! ### The odometer with fixed coordinates -/

/-- Coordinates with the values `vs` at the flagged positions and `us` at the others. -/
def weave : List (Nat × Bool) → List Nat → List Nat → List Nat
  | [], _, _ => []
  | (_, true) :: M, vs, us => vs.headD 0 :: weave M vs.tail us
  | (_, false) :: M, vs, us => us.headD 0 :: weave M vs us.tail

/-- The lengths that are not flagged. -/
def frees : List (Nat × Bool) → List Nat
  | [] => []
  | (_, true) :: M => frees M
  | (d, false) :: M => d :: frees M

theorem odoGe_weave (M : List (Nat × Bool)) {i : Nat} (hi : i < prod (frees M)) (vs : List Nat) :
    odoGe (M.map castMark) (ints (weave M vs (unlin (frees M) i))) =
      if i + 1 < prod (frees M) then (ints (weave M vs (unlin (frees M) (i + 1))), false)
      else (ints (weave M vs (unlin (frees M) 0)), true) := by
  induction M generalizing i vs with
  | nil => simp [prod, frees] at hi ⊢; simp [unlin, odoGe, weave]
  | cons p M ih =>
    obtain ⟨d, b⟩ := p
    cases b with
    | true =>
      simp only [frees] at hi ⊢
      have := ih hi vs.tail
      simp only [weave, List.map_cons, castMark, odoGe] at this ⊢
      rw [this]
      by_cases hc : i + 1 < prod (frees M)
      · simp [hc]
      · simp [hc]
    | false =>
      simp only [frees, prod] at hi ⊢
      have hP : 0 < prod (frees M) := by
        rcases Nat.eq_zero_or_pos (prod (frees M)) with h | h
        · simp [h] at hi
        · exact h
      obtain ⟨s1, s2⟩ := succ_div_mod hi
      have hmod := Nat.mod_lt i hP
      have hq : i / prod (frees M) < d := by rw [Nat.div_lt_iff_lt_mul hP]; exact hi
      have := ih hmod vs
      simp only [weave, unlin, List.map_cons, castMark, odoGe, List.headD_cons, List.tail_cons] at this ⊢
      rw [this]
      generalize prod (frees M) = P at *
      by_cases hc : i % P + 1 < P
      · obtain ⟨e1, e2, e3⟩ := s1 hc
        simp only [hc, e1, e2, e3, if_true]
        rfl
      · obtain ⟨e1, e2, e3⟩ := s2 hc
        simp only [hc, e1, e2, if_false, if_true, Bool.false_eq_true, Nat.zero_div, Nat.zero_mod]
        generalize i / P = Q at *
        by_cases hl : Q + 1 < d
        · have hne : ¬ (Q : Int) + 1 ≥ d := by omega
          rw [if_neg hne, if_pos (e3.2 hl)]; rfl
        · have hne : (Q : Int) + 1 ≥ d := by omega
          rw [if_pos hne, if_neg (fun h => hl (e3.1 h))]; rfl

/-! ### Positions -/

/-- The coordinates of position `u` in channel `ch` of sample `s`, the channel axis having `p` axes between the first and it. -/
def cellIdx (p s ch : Nat) (u : List Nat) : List Nat := s :: (u.take p ++ ch :: u.drop p)

/-- The dims with the first and the channel axis flagged. -/
def chMarks (d : Nat) (pre : List Nat) (C : Nat) (post : List Nat) : List (Nat × Bool) :=
  (d, true) :: (pre.map (fun x => (x, false)) ++ (C, true) :: post.map (fun x => (x, false)))

theorem frees_false (l : List Nat) : frees (l.map fun x => (x, false)) = l := by
  induction l with
  | nil => rfl
  | cons x l ih => simp only [List.map_cons, frees, ih]

theorem frees_marks (d : Nat) (pre : List Nat) (C : Nat) (post : List Nat) : frees (chMarks d pre C post) = pre ++ post := by
  unfold chMarks
  simp only [frees]
  induction pre with
  | nil => simp [frees, frees_false]
  | cons x l ih => simp only [List.map_cons, List.cons_append, frees, ih]

theorem weave_false (l us vs : List Nat) (hl : us.length = l.length) : weave (l.map fun x => (x, false)) vs us = us := by
  induction l generalizing us with
  | nil =>
    have : us = [] := List.length_eq_zero_iff.1 (by simpa using hl)
    subst this; rfl
  | cons x l ih =>
    cases us with
    | nil => simp at hl
    | cons u us => simp only [List.map_cons, weave, List.headD_cons, List.tail_cons, ih us (by simpa using hl)]

theorem weave_marks {d C s ch : Nat} {pre post us : List Nat} (hl : us.length = (pre ++ post).length) :
    weave (chMarks d pre C post) [s, ch] us = cellIdx pre.length s ch us := by
  unfold chMarks cellIdx
  simp only [weave, List.headD_cons, List.tail_cons]
  congr 1
  induction pre generalizing us with
  | nil => simp only [List.map_nil, List.nil_append, weave, List.headD_cons, List.length_nil, List.take_zero, List.drop_zero]
           rw [weave_false post us _ (by simpa using hl)]
  | cons x l ih =>
    cases us with
    | nil => simp at hl
    | cons u us =>
      simp only [List.map_cons, List.cons_append, weave, List.headD_cons, List.tail_cons, List.length_cons, List.take_succ_cons, List.drop_succ_cons]
      rw [ih (by simpa using hl)]

theorem marks_eq (d C : Nat) (pre post : List Nat) :
    ((ints (d :: (pre ++ C :: post))).zipIdx.map fun x => (x.1, decide (x.2 = 0 ∨ (x.2 : Int) = ((1 + pre.length : Nat) : Int)))) =
      (chMarks d pre C post).map castMark := by
  apply List.ext_getElem
  · simp [chMarks]
  · intro i h1 h2
    simp only [List.getElem_map, List.getElem_zipIdx, Nat.zero_add, chMarks]
    rcases i with _ | i
    · simp [castMark]
    · simp only [List.getElem_cons_succ, List.map_cons, List.map_append, List.map_map, List.getElem_append, List.length_map, List.getElem_map, castMark,
        Function.comp_def]
      have hk : (i + 1 = 0 ∨ ((i + 1 : Nat) : Int) = ((1 + pre.length : Nat) : Int)) ↔ i = pre.length := by omega
      by_cases hlt : i < pre.length
      · have : ¬ i = pre.length := by omega
        simp only [hk, this, hlt, dite_true, decide_false]
      · simp only [hlt, dite_false]
        by_cases he : i = pre.length
        · subst he
          simp [castMark]
          omega
        · obtain ⟨j, hj⟩ : ∃ j, i - pre.length = j + 1 := ⟨i - pre.length - 1, by omega⟩
          simp [hj, castMark]
          omega

theorem InRange.take {ds cs : List Nat} (h : InRange ds cs) (k : Nat) : InRange (ds.take k) (cs.take k) := by
  induction k generalizing ds cs with
  | zero => simp [InRange]
  | succ k ih =>
    cases ds <;> cases cs <;> simp_all [InRange]

theorem cellIdx_inRange {d C s ch : Nat} {pre post us : List Nat} (hs : s < d) (hc : ch < C) (hu : InRange (pre ++ post) us) :
    InRange (d :: (pre ++ C :: post)) (cellIdx pre.length s ch us) := by
  have hl := hu.length
  unfold cellIdx
  refine ⟨hs, inRange_append ?_ ⟨hc, ?_⟩⟩
  · have := hu.take pre.length
    simpa using this
  · have := hu.drop pre.length
    simpa using this

/-! ### Copying the result of one channel -/

/-- Position of element `k` of channel `ch` of sample `s`. -/
def cellPos (d : Nat) (pre : List Nat) (C : Nat) (post : List Nat) (s ch k : Nat) : Nat :=
  lin (d :: (pre ++ C :: post)) (cellIdx pre.length s ch (unlin (pre ++ post) k))

theorem bnTransport_run {d C s ch : Nat} {pre post : List Nat} {Ro : Foot} {To : TV} {dev : Device} {W : Nat → Val}
    (h : At m R ⟨c.dtype, dev, pre ++ post, encAll c xs⟩) (hq : q ∉ R.list)
    (ho : At m Ro To) (hoq : Ro.p = q) (hds : To.dims = d :: (pre ++ C :: post)) (hdt : To.dtype = c.dtype) (hN : N = prod To.dims)
    (hs : s < d) (hc : ch < C) (hW : ∀ k, k < prod (pre ++ post) → xs[k]? = some (W (cellPos d pre C post s ch k))) :
    bnTransport R.h Ro.h (ints (cellIdx pre.length s ch (unlin (pre ++ post) 0))) (ints (strides To.dims)) ((1 + pre.length : Nat) : Int) E (m.arr q c N G) =
      .ok (ints (cellIdx pre.length s ch (unlin (pre ++ post) 0))) (m.arr q c N (writes (cellPos d pre C post s ch) W (prod (pre ++ post)) G)) := by
  have hb := ho.shape.bytes_le
  have hpl := ho.shape.prod_le
  rw [hdt, show c.dtype.size = c.size from rfl, ← hN] at hb
  have h' : ∀ G, At (m.arr q c N G) R ⟨c.dtype, dev, pre ++ post, encAll c xs⟩ := fun G => h.set_ne hq _
  have ho' : At (m.arr q c N G) Ro { To with bytes := encOpt c (tab N G) } := by
    have := ho.setData (bs := encOpt c (tab N G)) (by rw [encOpt_length, tab_length, ho.len, hdt, hN]; rfl)
    rwa [hoq] at this
  unfold bnTransport forI
  have hrd : rdAll (dimsCells To.dims) ((To.dims.length : Int)).toNat E (m.arr q c N G) = .ok (ints To.dims) (m.arr q c N G) := by
    rw [Int.toNat_natCast]; exact rdAll_dims _
  msimp [ho'.tNdim, ho'.tDimsArr, hrd, (h' G).tSize, (h' G).tDtype, (h' G).tData, ho'.tData, hoq]
  rw [Int.toNat_natCast, hds, marks_eq, show c.dtype.size = c.size from rfl]
  rw [hds] at hN hpl
  have := loopN_fn (E := E) (bnMove ((chMarks d pre C post).map castMark) (ints (strides (d :: (pre ++ C :: post)))) (.blk q) (.blk R.p) c.size)
    (fun i => ints (cellIdx pre.length s ch (unlin (pre ++ post) (if i < prod (pre ++ post) then i else 0))))
    (fun i => m.arr q c N (writes (cellPos d pre C post s ch) W i G)) (prod (pre ++ post)) (by
      intro i hi
      have hir := cellIdx_inRange hs hc (unlin_inRange hi)
      have hlt := lin_lt hir
      rw [← hN] at hlt
      obtain ⟨μ, hμ⟩ : ∃ μ, μ = m.arr q c N (writes (cellPos d pre C post s ch) W i G) := ⟨_, rfl⟩
      have e1 := linIdx_run (E := E) (m := μ) hir hpl
      have hsz : (lin (d :: (pre ++ C :: post)) (cellIdx pre.length s ch (unlin (pre ++ post) i)) + 1) * c.size ≤ N * c.size := Nat.mul_le_mul_right _ hlt
      rw [Nat.succ_mul] at hsz
      have e2 := run_i64_nat (n := lin (d :: (pre ++ C :: post)) (cellIdx pre.length s ch (unlin (pre ++ post) i)) * c.size) (by omega) E μ
      have hbb := h.shape.bytes_le
      have hsz' : (i + 1) * c.size ≤ prod (pre ++ post) * c.size := Nat.mul_le_mul_right _ hi
      rw [Nat.succ_mul] at hsz'
      have e3 := run_i64_nat (n := i * c.size) (by
        have : prod (pre ++ post) * c.size ≤ 9223372036854775807 := hbb
        omega) E μ
      have e5 := memcpyTo_run (E := E) (m := μ) (q := q) (c := c) (i := cellPos d pre C post s ch i) (k := i) (N := N) (xs := xs)
        (G := writes (cellPos d pre C post s ch) W i G) (by rw [hμ]; exact (h' _).data) (by rw [hμ]; simp [Mem.arr]) hlt (hW i hi)
      rw [writes_succ (cellPos d pre C post s ch) W i G, hμ, Mem.arr_arr, ← hμ] at e5
      have e6 := odoGe_weave (chMarks d pre C post) (i := i) (by rw [frees_marks]; exact hi) [s, ch]
      rw [frees_marks, weave_marks (by rw [unlin_length]), weave_marks (by rw [unlin_length]), weave_marks (by rw [unlin_length])] at e6
      simp only [if_pos hi]
      rw [← hμ]
      simp only [Int.natCast_mul, Int.natCast_add] at e2 e3 e5
      unfold cellPos at e5
      unfold bnMove
      msimp [e1, e2, e3, e5, e6]
      by_cases hn : i + 1 < prod (pre ++ post)
      · simp only [if_pos hn]; rfl
      · simp only [if_neg hn]; rfl)
  rw [writes_zero] at this
  simp only [ite_self, Nat.lt_irrefl, if_false] at this
  exact this

end Aitisa
