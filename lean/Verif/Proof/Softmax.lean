import Verif.Proof.Slice
import Verif.Proof.Array
import Verif.Proof.Arith
import Verif.Spec.NN

/-! # softmax -/

namespace Aitisa

variable {E : Env} {m : Mem} {R : Foot} {T : TV}

/-! ### One line -/

/-- Running total of the exponentials. -/
def totalTo (fp : FloatOps) (e : Nat → Val) : Nat → BitVec 64
  | 0 => fp.ofInt64 0
  | j + 1 => fp.add64 (totalTo fp e j) (toDouble fp (e j))

/-- The softmax of one line: `n` positions `pos j = k0 + j * st`. -/
theorem softmaxRow_run {c : Code} {ip : Ptr} {q N n k0 st : Nat} {pos : Nat → Nat} {x e y : Nat → Val}
    {G1 G2 : Nat → Nat → Option Val}
    (hpos : ∀ j, j < n → pos j = k0 + j * st ∧ pos j < N ∧ k0 + (j + 1) * st ≤ 9223372036854775807)
    (hload : ∀ j, j < n → ∀ G, loadElem c ip (pos j) E (m.arr q c N G) = .ok (x j) (m.arr q c N G))
    (hexp : ∀ j, j < n → cCast E.fp c (.f64 (expOf E.fp (x j))) = .ok (e j))
    (hdiv : ∀ j, j < n → cCast E.fp c (.f64 (E.fp.div64 (toDouble E.fp (e j)) (totalTo E.fp e n))) = .ok (y j))
    (h1 : ∀ j, j < n → ∀ i, i < N → G1 (j + 1) i = if i = pos j then some (e j) else G1 j i)
    (h12 : ∀ i, i < N → G2 0 i = G1 n i)
    (h2 : ∀ j, j < n → ∀ i, i < N → G2 (j + 1) i = if i = pos j then some (y j) else G2 j i)
    (h2e : ∀ j, j < n → G2 j (pos j) = some (e j)) :
    softmaxRow c ip (.blk q) k0 st n E (m.arr q c N (G1 0)) = .ok () (m.arr q c N (G2 n)) := by
  have l1 := loopN_fn (E := E) (fun _ (s : Int × BitVec 64) => do
      let total ← softmaxExp c ip (.blk q) s.1 s.2
      return (← i64 (s.1 + st), total))
    (fun j => (((k0 + j * st : Nat) : Int), totalTo E.fp e j)) (fun j => m.arr q c N (G1 j)) n (by
      intro j hj
      obtain ⟨p1, p2, p3⟩ := hpos j hj
      have hl := hload j hj (G1 j)
      rw [p1] at hl
      have hs := storeArr (E := E) (m := m) (q := q) (c := c) p2 (h1 j hj)
      rw [p1] at hs
      unfold softmaxExp
      msimp [hl, run_liftU (hexp j hj), hs, add_i64 (a := k0 + j * st) (b := st) (by rw [Nat.succ_mul] at p3; omega)]
      rw [Nat.succ_mul, ← Nat.add_assoc]; rfl)
  have l2 := loopN_fn (E := E) (fun _ (k : Int) => do
      softmaxDiv c (.blk q) k (totalTo E.fp e n)
      i64 (k + st))
    (fun j => ((k0 + j * st : Nat) : Int)) (fun j => m.arr q c N (G2 j)) n (by
      intro j hj
      obtain ⟨p1, p2, p3⟩ := hpos j hj
      have hl := loadArr (E := E) (m := m) (q := q) (c := c) p2 (h2e j hj) (cCast_WT (hexp j hj))
      rw [p1] at hl
      have hs := storeArr (E := E) (m := m) (q := q) (c := c) p2 (h2 j hj)
      rw [p1] at hs
      unfold softmaxDiv
      msimp [hl, run_liftU (hdiv j hj), hs, add_i64 (a := k0 + j * st) (b := st) (by rw [Nat.succ_mul] at p3; omega)]
      rw [Nat.succ_mul, ← Nat.add_assoc])
  simp only [Nat.zero_mul, Nat.add_zero] at l1 l2
  unfold softmaxRow forI
  msimp [Int.toNat_natCast]
  rw [show totalTo E.fp e 0 = E.fp.ofInt64 0 from rfl] at l1
  rw [l1]
  msimp []
  rw [← Mem.arr_congr m q c h12, l2]
  msimp []

/-! ### The odometer that skips an axis -/

theorem succ_div_mod {i d P : Nat} (h : i < d * P) :
    (i % P + 1 < P → (i + 1) / P = i / P ∧ (i + 1) % P = i % P + 1 ∧ i + 1 < d * P) ∧
    (¬ i % P + 1 < P → (i + 1) / P = i / P + 1 ∧ (i + 1) % P = 0 ∧ (i + 1 < d * P ↔ i / P + 1 < d)) := by
  have hP : 0 < P := by
    rcases Nat.eq_zero_or_pos P with rfl | h'
    · simp at h
    · exact h'
  have hdm := Nat.div_add_mod i P
  have hmod := Nat.mod_lt i hP
  have hq : i / P < d := by rw [Nat.div_lt_iff_lt_mul hP]; exact h
  have hle := Nat.mul_le_mul_right P (Nat.succ_le_of_lt hq)
  rw [Nat.succ_mul, Nat.mul_comm (i / P) P] at hle
  constructor
  · intro hc
    have e1 : (i + 1) / P = i / P := by
      rw [Nat.div_eq_iff hP, Nat.mul_comm]; omega
    refine ⟨e1, ?_, by omega⟩
    have := Nat.div_add_mod (i + 1) P
    rw [e1] at this; omega
  · intro hc
    have e0 : i + 1 = (i / P + 1) * P := by rw [Nat.succ_mul, Nat.mul_comm]; omega
    have e1 : (i + 1) / P = i / P + 1 := by rw [e0, Nat.mul_div_cancel _ hP]
    refine ⟨e1, by rw [e0, Nat.mul_mod_left], ?_⟩
    rw [← e1, Nat.div_lt_iff_lt_mul hP]

/-- Length of a dimension when the marked ones count as 1. -/
def one (p : Nat × Bool) : Nat := if p.2 then 1 else p.1

def castMark (p : Nat × Bool) : Int × Bool := ((p.1 : Int), p.2)

theorem odoSkip_step (L : List (Nat × Bool)) {i : Nat} (hi : i < prod (L.map one)) :
    odoSkip (L.map castMark) (ints (unlin (L.map one) i)) =
      if i + 1 < prod (L.map one) then (ints (unlin (L.map one) (i + 1)), false)
      else (ints (unlin (L.map one) 0), true) := by
  induction L generalizing i with
  | nil => simp [prod] at hi ⊢; simp [unlin, odoSkip]
  | cons p L ih =>
    obtain ⟨d, b⟩ := p
    have hP : 0 < prod (L.map one) := by
      rcases Nat.eq_zero_or_pos (prod (L.map one)) with h | h
      · simp [prod, h] at hi
      · exact h
    cases b with
    | true =>
      simp only [List.map_cons, one, if_true, prod, Nat.one_mul] at hi
      have hd : i / prod (L.map one) = 0 := Nat.div_eq_of_lt hi
      have hm : i % prod (L.map one) = i := Nat.mod_eq_of_lt hi
      simp only [List.map_cons, one, castMark, if_true, unlin, hd, hm, odoSkip, ih hi, prod, Nat.one_mul]
      by_cases hc : i + 1 < prod (L.map one)
      · simp [hc, Nat.div_eq_of_lt hc, Nat.mod_eq_of_lt hc]
      · simp [hc]
    | false =>
      have ho : one (d, false) = d := rfl
      simp only [List.map_cons, ho, prod] at hi
      obtain ⟨s1, s2⟩ := succ_div_mod hi
      have hmod := Nat.mod_lt i hP
      have hq : i / prod (L.map one) < d := by rw [Nat.div_lt_iff_lt_mul hP]; exact hi
      simp only [List.map_cons, ho, castMark, unlin, odoSkip, ih hmod, prod, Nat.zero_div, Nat.zero_mod]
      generalize prod (L.map one) = P at *
      by_cases hc : i % P + 1 < P
      · obtain ⟨e1, e2, e3⟩ := s1 hc
        simp only [hc, e1, e2, e3, if_true]
        rfl
      · obtain ⟨e1, e2, e3⟩ := s2 hc
        simp only [hc, e1, e2, if_false, if_true, Bool.false_eq_true]
        generalize i / P = Q at *
        by_cases hl : Q + 1 < d
        · have hne : ¬ (Q : Int) + 1 = d := by omega
          rw [if_neg hne, if_pos (e3.2 hl)]; rfl
        · have hne : (Q : Int) + 1 = d := by omega
          rw [if_pos hne, if_neg (fun h => hl (e3.1 h))]; rfl

theorem batchSize_run (L : List (Nat × Bool)) (h : prodMax (L.map one) ≤ 9223372036854775807) :
    batchSize (L.map castMark) E m = .ok (prod (L.map one) : Int) m := by
  suffices H : ∀ b : Nat, b * prodMax (L.map one) ≤ 9223372036854775807 →
      (L.map castMark).foldlM (fun b d => if d.2 then pure b else i64 (b * d.1)) (b : Int) E m =
        .ok ((b * prod (L.map one) : Nat) : Int) m by
    have := H 1 (by omega)
    rwa [Nat.one_mul] at this
  clear h
  induction L with
  | nil => intro b _; simp [prod]
  | cons p L ih =>
    intro b hb
    obtain ⟨d, f⟩ := p
    cases f with
    | true =>
      simp only [List.map_cons, one, if_true, prodMax, prod] at hb ⊢
      rw [show max 1 1 = 1 from rfl, Nat.one_mul] at hb
      simp only [castMark, List.foldlM_cons, if_true]
      msimp [ih b hb, Nat.one_mul]
    | false =>
      simp only [List.map_cons, one, prodMax, prod] at hb ⊢
      rw [if_neg (by simp)] at hb ⊢
      have hp := prodMax_pos (L.map one)
      have h1 : b * d * prodMax (L.map one) ≤ 9223372036854775807 := by
        refine Nat.le_trans ?_ hb
        rw [Nat.mul_assoc]
        exact Nat.mul_le_mul_left _ (Nat.mul_le_mul_right _ (Nat.le_max_left _ _))
      have h2 : b * d ≤ 9223372036854775807 := Nat.le_trans (Nat.le_mul_of_pos_right _ hp) h1
      simp only [castMark, List.foldlM_cons]
      rw [if_neg (by simp)]
      msimp [mul_i64 h2, ih (b * d) h1, Nat.mul_assoc]

/-- The dims with the softmax axis marked. -/
def markAt (a : Nat) (ds : List Nat) : List (Nat × Bool) := ds.zipIdx.map fun p => (p.1, decide (p.2 = a))

theorem markAt_one (a : Nat) (ds : List Nat) : (markAt a ds).map one = ds.set a 1 := by
  apply List.ext_getElem
  · simp [markAt]
  · intro i h1 h2
    simp only [markAt, List.map_map, List.getElem_map, List.getElem_zipIdx, Function.comp_apply, one, Nat.zero_add,
      List.getElem_set]
    by_cases e : a = i
    · simp [e]
    · simp [e, Ne.symm e]

theorem markAt_cast (a : Nat) (ds : List Nat) :
    (ints ds).zipIdx.map (fun p => (p.1, decide ((p.2 : Int) = (a : Int)))) = (markAt a ds).map castMark := by
  apply List.ext_getElem
  · simp [markAt]
  · intro i h1 h2
    simp [markAt, castMark, Int.ofNat_inj]

/-! ### Lines along an axis -/

theorem lin_lt_max {ds cs : List Nat} (hl : cs.length = ds.length)
    (h : ∀ i (h : i < cs.length) (h' : i < ds.length), cs[i] < max ds[i] 1) : lin ds cs < prodMax ds := by
  induction ds generalizing cs with
  | nil => cases cs <;> simp [lin, prodMax]
  | cons d ds ih =>
    cases cs with
    | nil => simp at hl
    | cons x cs =>
      have hx : x < max d 1 := h 0 (by simp) (by simp)
      have := ih (by simpa using hl) fun i h1 h2 => by
        have := h (i + 1) (by simpa using h1) (by simpa using h2); simpa using this
      have hp := prod_le_prodMax ds
      have hm := Nat.mul_le_mul_right (prodMax ds) (Nat.succ_le_of_lt hx)
      have hx' := Nat.mul_le_mul_left x hp
      rw [Nat.succ_mul] at hm
      simp only [lin, prodMax]
      omega

theorem linIdx_max {ds cs : List Nat} (hl : cs.length = ds.length)
    (h : ∀ i (h : i < cs.length) (h' : i < ds.length), cs[i] < max ds[i] 1) (hb : prodMax ds ≤ 9223372036854775807) :
    linIdx (ints cs) (ints (strides ds)) E m = .ok (lin ds cs : Int) m := by
  have hlt := lin_lt_max hl h
  have e := lin_eq_dot ds cs hl
  have := linIdx_from (E := E) (m := m) cs (strides ds) 0 (by omega)
  unfold linIdx
  rw [Nat.zero_add, ← e] at this
  exact this

theorem lin_set (ds cs : List Nat) (a j : Nat) (hl : cs.length = ds.length) (ha : a < ds.length) :
    lin ds (cs.set a j) = lin ds (cs.set a 0) + j * prod (ds.drop (a + 1)) := by
  induction ds generalizing cs a with
  | nil => simp at ha
  | cons d ds ih =>
    cases cs with
    | nil => simp at hl
    | cons x cs =>
      cases a with
      | zero => simp [lin]; omega
      | succ a =>
        have := ih cs a (by simpa using hl) (by simpa using ha)
        simp only [List.set_cons_succ, lin, this, List.drop_succ_cons]
        omega

theorem inRange_set {ds cs : List Nat} {a j : Nat} (ha : a < ds.length) (h : InRange (ds.set a 1) cs) (hj : j < ds[a]) :
    InRange ds (cs.set a j) := by
  rw [inRange_iff] at h ⊢
  obtain ⟨h1, h2⟩ := h
  rw [List.length_set] at h1
  refine ⟨by simpa using h1, fun i hi hi' => ?_⟩
  rw [List.getElem_set]
  split
  · rename_i e; subst e; exact hj
  · rename_i e
    have := h2 i (by simpa using hi) (by simpa using hi')
    rwa [List.getElem_set_ne e] at this

theorem inRange_set0 {ds cs : List Nat} {a : Nat} (h : InRange ds cs) : InRange (ds.set a 1) (cs.set a 0) := by
  rw [inRange_iff] at h ⊢
  obtain ⟨h1, h2⟩ := h
  refine ⟨by simpa using h1, fun i hi hi' => ?_⟩
  rw [List.getElem_set, List.getElem_set]
  split
  · exact Nat.one_pos
  · exact h2 i (by simpa using hi) (by simpa using hi')

theorem set_zero_of_inRange {ds cs : List Nat} {a : Nat} (ha : a < ds.length) (h : InRange (ds.set a 1) cs) :
    cs.set a 0 = cs := by
  rw [inRange_iff] at h
  obtain ⟨h1, h2⟩ := h
  rw [List.length_set] at h1
  have := h2 a (by omega) (by simpa using ha)
  rw [List.getElem_set_self] at this
  apply List.ext_getElem
  · simp
  · intro i hi hi'
    rw [List.getElem_set]
    split
    · rename_i e; subst e; omega
    · rfl

/-- Which line the element `i` is on. -/
def lineOf (ds : List Nat) (a i : Nat) : Nat := lin (ds.set a 1) ((unlin ds i).set a 0)

/-- Its coordinate on the line. -/
def coordOf (ds : List Nat) (a i : Nat) : Nat := (unlin ds i).getD a 0

/-- Index of coordinate `j` of line `s`. -/
def onLine (ds : List Nat) (a s j : Nat) : Nat := lin ds ((unlin (ds.set a 1) s).set a j)

theorem onLine_coords {ds : List Nat} {a s j : Nat} (ha : a < ds.length) (hs : s < prod (ds.set a 1)) (hj : j < ds[a]) :
    InRange ds ((unlin (ds.set a 1) s).set a j) := inRange_set ha (unlin_inRange hs) hj

theorem onLine_lt {ds : List Nat} {a s j : Nat} (ha : a < ds.length) (hs : s < prod (ds.set a 1)) (hj : j < ds[a]) :
    onLine ds a s j < prod ds := lin_lt (onLine_coords ha hs hj)

theorem unlin_onLine {ds : List Nat} {a s j : Nat} (ha : a < ds.length) (hs : s < prod (ds.set a 1)) (hj : j < ds[a]) :
    unlin ds (onLine ds a s j) = (unlin (ds.set a 1) s).set a j := unlin_lin (onLine_coords ha hs hj)

theorem coordOf_lt {ds : List Nat} {a i : Nat} (ha : a < ds.length) (hi : i < prod ds) : coordOf ds a i < ds[a] := by
  have h := inRange_iff.1 (unlin_inRange hi)
  have hl := unlin_length ds i
  have := h.2 a (by omega) ha
  unfold coordOf
  simpa [List.getD, show a < (unlin ds i).length by omega] using this

theorem lineOf_lt {ds : List Nat} {a i : Nat} (hi : i < prod ds) : lineOf ds a i < prod (ds.set a 1) :=
  lin_lt (inRange_set0 (unlin_inRange hi))

theorem onLine_iff {ds : List Nat} {a s j i : Nat} (ha : a < ds.length) (hs : s < prod (ds.set a 1)) (hj : j < ds[a])
    (hi : i < prod ds) : i = onLine ds a s j ↔ lineOf ds a i = s ∧ coordOf ds a i = j := by
  constructor
  · rintro rfl
    have hr := unlin_inRange hs
    unfold lineOf coordOf
    rw [unlin_onLine ha hs hj, List.set_set, set_zero_of_inRange ha hr, lin_unlin hs]
    refine ⟨rfl, ?_⟩
    have : a < (unlin (ds.set a 1) s).length := by rw [unlin_length]; simpa using ha
    simp [List.getD, this]
  · rintro ⟨rfl, rfl⟩
    unfold onLine lineOf coordOf
    have hl : a < (unlin ds i).length := by rw [unlin_length]; exact ha
    rw [unlin_lin (inRange_set0 (unlin_inRange hi)), List.set_set]
    have : (unlin ds i).getD a 0 = (unlin ds i)[a] := by simp [List.getD, hl]
    rw [this, List.set_getElem_self, lin_unlin hi]

/-- Output while line `s` is being exponentiated: `j` positions done. -/
def smG1 (ds : List Nat) (a : Nat) (e y : Nat → Val) (s j i : Nat) : Option Val :=
  if lineOf ds a i < s then some (y i) else if lineOf ds a i = s ∧ coordOf ds a i < j then some (e i) else none

/-- Output while line `s` is being divided: `j` positions done. -/
def smG2 (ds : List Nat) (a : Nat) (e y : Nat → Val) (s j i : Nat) : Option Val :=
  if lineOf ds a i < s ∨ (lineOf ds a i = s ∧ coordOf ds a i < j) then some (y i)
  else if lineOf ds a i = s then some (e i) else none

theorem softmaxLoop_run {c : Code} {xs : List Val} {q a : Nat} {e y : Nat → Val} (h : At m R T) (he : Elems T c xs)
    (ha : a < T.dims.length) (hq : q ∉ R.list) (hsz : prod T.dims < 4611686018427387904)
    (hexp : ∀ i (hi : i < xs.length), cCast E.fp c (.f64 (expOf E.fp xs[i])) = .ok (e i))
    (hdiv : ∀ i, i < xs.length → cCast E.fp c (.f64 (E.fp.div64 (toDouble E.fp (e i))
      (totalTo E.fp (fun j => e (lin T.dims ((unlin T.dims i).set a j))) T.dims[a]))) = .ok (y i)) :
    ∃ s, forI (prod (T.dims.set a 1) : Int) ((ints T.dims).map fun _ => (0 : Int)) (fun _ idx => do
      let k ← linIdx idx (ints (strides T.dims))
      softmaxRow c (.blk R.p) (.blk q) k (prod (T.dims.drop (a + 1)) : Int) (T.dims[a] : Int)
      return (odoSkip ((markAt a T.dims).map castMark) idx).1) E (m.arr q c (prod T.dims) fun _ => none) =
      .ok s (m.arr q c (prod T.dims) fun i => some (y i)) := by
  have hN := he.len
  have hzero : ((ints T.dims).map fun _ => (0 : Int)) =
      ints (unlin (T.dims.set a 1) (if 0 < prod (T.dims.set a 1) then 0 else 0)) := by
    rw [ite_self]
    have : ∀ l : List Nat, unlin l 0 = l.map fun _ => 0 := by
      intro l; induction l with
      | nil => rfl
      | cons d l ih => simp [unlin, ih]
    rw [this]
    simp [List.map_const', Function.comp_def]
  have hl := loopN_fn (E := E) (fun _ idx => do
      let k ← linIdx idx (ints (strides T.dims))
      softmaxRow c (.blk R.p) (.blk q) k (prod (T.dims.drop (a + 1)) : Int) (T.dims[a] : Int)
      return (odoSkip ((markAt a T.dims).map castMark) idx).1)
    (fun s => ints (unlin (T.dims.set a 1) (if s < prod (T.dims.set a 1) then s else 0)))
    (fun s => m.arr q c (prod T.dims) (smG1 T.dims a e y s 0)) (prod (T.dims.set a 1)) (by
      intro s hs
      have hr := unlin_inRange hs
      have hr' := inRange_iff.1 hr
      have hlin := linIdx_max (E := E) (m := m.arr q c (prod T.dims) (smG1 T.dims a e y s 0)) (ds := T.dims)
        (cs := unlin (T.dims.set a 1) s) (by rw [unlin_length]; simp) (fun i h1 h2 => by
          have := hr'.2 i h1 (by simpa using h2)
          rw [List.getElem_set] at this
          split at this <;> omega) h.shape.prodMax_le
      have hz := set_zero_of_inRange ha hr
      have hposx : ∀ j, onLine T.dims a s j = lin T.dims (unlin (T.dims.set a 1) s) + j * prod (T.dims.drop (a + 1)) := by
        intro j
        unfold onLine
        rw [lin_set _ _ _ _ (by rw [unlin_length]; simp) ha, hz]
      have hrow := softmaxRow_run (E := E) (m := m) (c := c) (ip := .blk R.p) (q := q) (N := prod T.dims) (n := T.dims[a])
        (k0 := lin T.dims (unlin (T.dims.set a 1) s)) (st := prod (T.dims.drop (a + 1)))
        (pos := onLine T.dims a s) (x := fun j => xs.getD (onLine T.dims a s j) (.int 0))
        (e := fun j => e (onLine T.dims a s j)) (y := fun j => y (onLine T.dims a s j))
        (G1 := smG1 T.dims a e y s) (G2 := smG2 T.dims a e y s)
        (by
          intro j hj
          have hlt := onLine_lt ha hs hj
          refine ⟨hposx j, hlt, ?_⟩
          have h1 := hposx j
          have h2 : prod (T.dims.drop (a + 1)) ≤ prod T.dims := by
            have hp := (onLine_coords ha hs hj).pos
            conv => rhs; rw [← List.take_append_drop (a + 1) T.dims, prod_append]
            exact Nat.le_mul_of_pos_left _ (prod_pos fun d hd => hp d (List.mem_of_mem_take hd))
          rw [Nat.succ_mul]
          omega)
        (by
          intro j hj G
          have hlt := onLine_lt ha hs hj
          have := (h.set_ne hq (some ⟨.own, .bytes (encOpt c (tab (prod T.dims) G))⟩)).load (E := E) he (i := onLine T.dims a s j) (by omega)
          simp only [List.getD, List.getElem?_eq_getElem (show onLine T.dims a s j < xs.length by omega), Option.getD_some]
          exact this)
        (by
          intro j hj
          have hlt := onLine_lt ha hs hj
          simp only [List.getD, List.getElem?_eq_getElem (show onLine T.dims a s j < xs.length by omega), Option.getD_some]
          exact hexp _ _)
        (by
          intro j hj
          have hlt := onLine_lt ha hs hj
          have := hdiv (onLine T.dims a s j) (by omega)
          rw [unlin_onLine ha hs hj] at this
          simp only [List.set_set] at this
          exact this)
        (by
          intro j hj i hi
          have := onLine_iff ha hs hj hi
          have hc := coordOf_lt ha hi
          unfold smG1
          by_cases heq : i = onLine T.dims a s j
          · obtain ⟨k1, k2⟩ := this.1 heq
            rw [if_neg (by omega), if_pos ⟨k1, by omega⟩, if_pos heq, ← heq]
          · have hn : ¬ (lineOf T.dims a i = s ∧ coordOf T.dims a i = j) := fun h => heq (this.2 h)
            rw [if_neg heq]
            have : (lineOf T.dims a i = s ∧ coordOf T.dims a i < j + 1) ↔ (lineOf T.dims a i = s ∧ coordOf T.dims a i < j) := by
              omega
            simp only [this])
        (by
          intro i hi
          have hc := coordOf_lt ha hi
          unfold smG1 smG2
          by_cases k1 : lineOf T.dims a i < s
          · rw [if_pos (.inl k1), if_pos k1]
          · rw [if_neg (by omega), if_neg k1]
            by_cases k2 : lineOf T.dims a i = s
            · rw [if_pos k2, if_pos ⟨k2, hc⟩]
            · rw [if_neg k2, if_neg (fun h => k2 h.1)])
        (by
          intro j hj i hi
          have := onLine_iff ha hs hj hi
          unfold smG2
          by_cases heq : i = onLine T.dims a s j
          · obtain ⟨k1, k2⟩ := this.1 heq
            rw [if_pos (.inr ⟨k1, by omega⟩), if_pos heq, ← heq]
          · have hn : ¬ (lineOf T.dims a i = s ∧ coordOf T.dims a i = j) := fun h => heq (this.2 h)
            rw [if_neg heq]
            have : (lineOf T.dims a i = s ∧ coordOf T.dims a i < j + 1) ↔ (lineOf T.dims a i = s ∧ coordOf T.dims a i < j) := by
              omega
            simp only [this])
        (by
          intro j hj
          have hlt := onLine_lt ha hs hj
          obtain ⟨k1, k2⟩ := (onLine_iff ha hs hj hlt).1 rfl
          unfold smG2
          rw [if_neg (by omega), if_pos k1])
      have hodo := odoSkip_step (markAt a T.dims) (i := s) (by rw [markAt_one]; exact hs)
      rw [markAt_one] at hodo
      rw [if_pos hs]
      msimp [hlin, hrow, hodo]
      have hend : m.arr q c (prod T.dims) (smG2 T.dims a e y s T.dims[a]) =
          m.arr q c (prod T.dims) (smG1 T.dims a e y (s + 1) 0) := by
        refine Mem.arr_congr _ _ _ fun i hi => ?_
        have hc := coordOf_lt ha hi
        unfold smG1 smG2
        by_cases k1 : lineOf T.dims a i < s + 1
        · rw [if_pos k1, if_pos (by omega)]
        · rw [if_neg (by omega), if_neg (by omega), if_neg k1, if_neg (by omega)]
      rw [hend]
      congr 1
      split <;> rfl)
  unfold forI
  rw [Int.toNat_natCast, hzero]
  have h0 : (m.arr q c (prod T.dims) fun _ => none) = m.arr q c (prod T.dims) (smG1 T.dims a e y 0 0) :=
    Mem.arr_congr _ _ _ fun i hi => by unfold smG1; rw [if_neg (by omega), if_neg (by omega)]
  have h1 : m.arr q c (prod T.dims) (smG1 T.dims a e y (prod (T.dims.set a 1)) 0) =
      m.arr q c (prod T.dims) fun i => some (y i) :=
    Mem.arr_congr _ _ _ fun i hi => by unfold smG1; rw [if_pos (lineOf_lt hi)]
  rw [h1] at hl
  rw [h0]
  exact ⟨_, hl⟩

end Aitisa
