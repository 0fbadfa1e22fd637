import Verif.Spec.Slice
import Verif.Proof.Index
import Verif.Proof.Temp
import Verif.Proof.Double

/-! # slice -/

namespace Aitisa

variable {E : Env} {m : Mem} {R : Foot} {T : TV}

/-- Integers from naturals. -/
abbrev ints (l : List Nat) : List Int := l.map fun n : Nat => (n : Int)

theorem of_ints (l : List Nat) : Arr.of (ints l) = dimsCells l := (dimsCells_eq_of l).symm

/-! ### Arithmetic of one axis -/

theorem ceilDiv_pos {s t : Nat} (hs : 0 < s) (ht : 0 < t) : 0 < ceilDiv s t :=
  Nat.div_pos (by omega) ht

theorem lt_ceilDiv {q s t : Nat} (ht : 0 < t) : q < ceilDiv s t ↔ t * q < s := by
  unfold ceilDiv
  constructor
  · intro h
    have h1 : (q + 1) * t ≤ s + (t - 1) := (Nat.le_div_iff_mul_le ht).1 h
    rw [Nat.add_mul, Nat.one_mul, Nat.mul_comm] at h1
    omega
  · intro h
    rw [← Nat.succ_le_iff, Nat.le_div_iff_mul_le ht, Nat.succ_mul, Nat.mul_comm]
    omega

theorem ceilDiv_le (s : Nat) {t : Nat} (ht : 0 < t) : ceilDiv s t ≤ s := by
  apply Nat.le_of_not_lt
  intro h
  have := (lt_ceilDiv ht).1 h
  have : 1 * s ≤ t * s := Nat.mul_le_mul_right _ ht
  omega

theorem sliceDims_pos {ds : List Nat} {ax : List Axis} (h : SliceFits ds ax) : ∀ d ∈ sliceDims ax, 0 < d := by
  induction ds generalizing ax with
  | nil => cases ax <;> simp [SliceFits, sliceDims] at h ⊢
  | cons d ds ih =>
    cases ax with
    | nil => simp [SliceFits] at h
    | cons a as =>
      simp only [SliceFits] at h
      simp only [sliceDims]
      split
      · exact ih h.2
      · rename_i h0
        intro x hx
        rcases List.mem_cons.1 hx with rfl | hx
        · exact ceilDiv_pos (by omega) h.1.2.2
        · exact ih h.2 x hx

theorem SliceFits.length {ds : List Nat} {ax : List Axis} (h : SliceFits ds ax) : ax.length = ds.length := by
  induction ds generalizing ax with
  | nil => cases ax <;> simp [SliceFits] at h ⊢
  | cons d ds ih =>
    cases ax with
    | nil => simp [SliceFits] at h
    | cons a as => simp [ih h.2]

theorem SliceFits.getElem {ds : List Nat} {ax : List Axis} (h : SliceFits ds ax) {i : Nat} (hi : i < ax.length)
    (hi' : i < ds.length) : ax[i].Fits ds[i] := by
  induction ds generalizing ax i with
  | nil => simp at hi'
  | cons d ds ih =>
    cases ax with
    | nil => simp [SliceFits] at h
    | cons a as =>
      cases i with
      | zero => exact h.1
      | succ i => exact ih h.2 _ _

theorem sliceFits_of {ds : List Nat} {ax : List Axis} (hl : ax.length = ds.length)
    (h : ∀ i (hi : i < ax.length) (hi' : i < ds.length), ax[i].Fits ds[i]) : SliceFits ds ax := by
  induction ds generalizing ax with
  | nil => cases ax <;> simp [SliceFits] at hl ⊢
  | cons d ds ih =>
    cases ax with
    | nil => simp at hl
    | cons a as =>
      refine ⟨h 0 (by simp) (by simp), ih (by simpa using hl) fun i h1 h2 => ?_⟩
      exact h (i + 1) (by simpa using h1) (by simpa using h2)

theorem prodMax_sliceDims {ds : List Nat} {ax : List Axis} (h : SliceFits ds ax) :
    prodMax (sliceDims ax) ≤ prodMax ds := by
  induction ds generalizing ax with
  | nil => cases ax <;> simp [SliceFits, sliceDims] at h ⊢
  | cons d ds ih =>
    cases ax with
    | nil => simp [SliceFits] at h
    | cons a as =>
      have hr := ih h.2
      obtain ⟨h1, h2, h3⟩ := h.1
      simp only [sliceDims]
      split
      · simp only [prodMax]
        exact Nat.le_trans hr (Nat.le_mul_of_pos_left _ (by omega))
      · simp only [prodMax]
        refine Nat.mul_le_mul ?_ hr
        have := ceilDiv_le a.sz h3
        omega

theorem sliceDims_length (ax : List Axis) : (sliceDims ax).length ≤ ax.length := by
  induction ax with
  | nil => simp [sliceDims]
  | cons a as ih => simp only [sliceDims]; split <;> simp <;> omega

theorem ShapeOK.slice {ds : List Nat} {ax : List Axis} {sz : Nat} (h : ShapeOK ds sz) (hf : SliceFits ds ax) :
    ShapeOK (sliceDims ax) sz :=
  ⟨Nat.le_trans (Nat.mul_le_mul_right _ (prodMax_sliceDims hf)) h.fits,
    Nat.le_trans (sliceDims_length ax) (by rw [hf.length]; exact h.rank)⟩

/-! ### The odometer -/

/-- Input coordinates of output element number `i`. -/
def srcAt (ax : List Axis) (i : Nat) : List Nat := source ax (unlin (sliceDims ax) i)

theorem srcAt_keep {a : Axis} {as : List Axis} (h : a.sz ≠ 0) (i : Nat) :
    srcAt (a :: as) i = (a.bg + a.st * (i / prod (sliceDims as))) :: srcAt as (i % prod (sliceDims as)) := by
  simp [srcAt, source, sliceDims, h, unlin]

theorem srcAt_drop {a : Axis} {as : List Axis} (h : a.sz = 0) (i : Nat) :
    srcAt (a :: as) i = a.bg :: srcAt as i := by
  simp [srcAt, source, sliceDims, h]

theorem srcAt_zero (ax : List Axis) : srcAt ax 0 = ax.map (·.bg) := by
  induction ax with
  | nil => rfl
  | cons a as ih =>
    by_cases h : a.sz = 0
    · rw [srcAt_drop h, ih]; rfl
    · rw [srcAt_keep h, Nat.zero_div, Nat.zero_mod, ih]; simp

theorem srcAt_inRange {ds : List Nat} {ax : List Axis} (h : SliceFits ds ax) {i : Nat} (hi : i < prod (sliceDims ax)) :
    InRange ds (srcAt ax i) := by
  induction ds generalizing ax i with
  | nil => cases ax <;> simp [SliceFits, srcAt, source, InRange] at h ⊢
  | cons d ds ih =>
    cases ax with
    | nil => simp [SliceFits] at h
    | cons a as =>
      obtain ⟨h1, h2, h3⟩ := h.1
      by_cases h0 : a.sz = 0
      · rw [srcAt_drop h0]
        simp only [sliceDims, h0, if_true] at hi
        exact ⟨h1, ih h.2 hi⟩
      · rw [srcAt_keep h0]
        simp only [sliceDims, h0, if_false, prod] at hi
        have hP := prod_pos (sliceDims_pos h.2)
        have hq : i / prod (sliceDims as) < ceilDiv a.sz a.st := by
          rw [Nat.div_lt_iff_lt_mul hP]; exact hi
        rw [lt_ceilDiv h3] at hq
        exact ⟨by omega, ih h.2 (Nat.mod_lt _ hP)⟩

/-- The model's axes for a request. -/
def mAx (a : Axis) : SliceAxis := ⟨a.bg, a.st, (a.bg : Int) + a.sz - 1⟩

theorem sliceAxes_eq (ax : List Axis) :
    sliceAxes (ints (ax.map (·.bg))) (ints (ax.map (·.sz))) (ints (ax.map (·.st))) = ax.map mAx := by
  induction ax with
  | nil => rfl
  | cons a as ih => simp only [List.map_cons, sliceAxes, ih, mAx]

theorem odoSlice_step {ds : List Nat} {ax : List Axis} (h : SliceFits ds ax) {i : Nat}
    (hi : i < prod (sliceDims ax)) :
    odoSlice (ax.map mAx) (ints (srcAt ax i)) =
      if i + 1 < prod (sliceDims ax) then (ints (srcAt ax (i + 1)), false) else (ints (srcAt ax 0), true) := by
  induction ds generalizing ax i with
  | nil =>
    cases ax with
    | nil => simp [sliceDims, prod] at hi ⊢; simp [srcAt, source, odoSlice]
    | cons a as => simp [SliceFits] at h
  | cons d ds ih =>
    cases ax with
    | nil => simp [SliceFits] at h
    | cons a as =>
      obtain ⟨h1, h2, h3⟩ := h.1
      by_cases h0 : a.sz = 0
      · simp only [sliceDims, h0, if_true] at hi
        simp only [srcAt_drop h0, List.map_cons, odoSlice, ih h.2 hi, sliceDims, h0, if_true]
        by_cases hc : i + 1 < prod (sliceDims as)
        · simp [hc]
        · have : (a.bg : Int) + (mAx a).step > (mAx a).bound := by simp only [mAx, h0]; omega
          simp only [hc, if_false, if_true, this]
          rfl
      · simp only [sliceDims, h0, if_false, prod] at hi
        have hP := prod_pos (sliceDims_pos h.2)
        have hmod := Nat.mod_lt i hP
        have hdm := Nat.div_add_mod i (prod (sliceDims as))
        simp only [srcAt_keep h0, List.map_cons, odoSlice, ih h.2 hmod, sliceDims, h0, if_false, prod]
        generalize prod (sliceDims as) = P at *
        generalize hq : i / P = q at *
        generalize hr : i % P = r at *
        by_cases hc : r + 1 < P
        · have e1 : (i + 1) / P = q := by
            rw [Nat.div_eq_iff hP]
            constructor <;> [skip; skip] <;> (have : P * q = q * P := Nat.mul_comm _ _) <;> omega
          have e2 : (i + 1) % P = r + 1 := by
            have := Nat.div_add_mod (i + 1) P
            rw [e1] at this; omega
          have e3 : i + 1 < ceilDiv a.sz a.st * P := by
            have hqn : q < ceilDiv a.sz a.st := by
              rw [← hq, Nat.div_lt_iff_lt_mul hP]; exact hi
            have := Nat.mul_le_mul_right P (Nat.succ_le_of_lt hqn)
            rw [Nat.succ_mul, Nat.mul_comm q P] at this
            omega
          simp only [hc, if_true, e3, e1, e2]
          rfl
        · have e0 : i + 1 = (q + 1) * P := by
            rw [Nat.add_mul, Nat.one_mul, Nat.mul_comm q P]; omega
          have e1 : (i + 1) / P = q + 1 := by rw [e0, Nat.mul_div_cancel _ hP]
          have e2 : (i + 1) % P = 0 := by rw [e0, Nat.mul_mod_left]
          have e3 : i + 1 < ceilDiv a.sz a.st * P ↔ a.st * (q + 1) < a.sz := by
            rw [e0, Nat.mul_lt_mul_right hP, lt_ceilDiv h3]
          have e4 : ((a.bg + a.st * q : Nat) : Int) + (mAx a).step > (mAx a).bound ↔ ¬ a.st * (q + 1) < a.sz := by
            simp only [mAx]
            rw [Nat.mul_add, Nat.mul_one]
            omega
          simp only [hc, if_false, if_true, e4, e3, e1, e2, Nat.zero_div, Nat.zero_mod]
          by_cases hs : a.st * (q + 1) < a.sz
          · simp only [hs, not_true_eq_false, if_false, if_true]
            have : ((a.bg + a.st * q : Nat) : Int) + (mAx a).step = ((a.bg + a.st * (q + 1) : Nat) : Int) := by
              simp only [mAx]
              rw [Nat.mul_add, Nat.mul_one]
              omega
            rw [this]
          · simp only [hs, not_false_eq_true, if_true, if_false, Nat.mul_zero, Nat.add_zero]
            rfl

/-! ### Index computation -/

theorem linIdx_from (cs os : List Nat) : ∀ acc : Nat, acc + dotNat cs os ≤ 9223372036854775807 →
    (List.zip (ints cs) (ints os)).foldlM (fun a p => (do
      let x ← i64 (p.1 * p.2)
      i64 (a + x) : M Int)) (acc : Int) E m = .ok ((acc + dotNat cs os : Nat) : Int) m := by
  induction cs generalizing os with
  | nil => intro acc h; simp [dotNat]
  | cons c cs ih =>
    intro acc h
    cases os with
    | nil => simp [dotNat]
    | cons o os =>
      simp only [dotNat] at h ⊢
      simp only [List.map_cons, List.zip_cons_cons, List.foldlM_cons]
      msimp [mul_i64 (a := c) (b := o) (by omega), add_i64 (a := acc) (b := c * o) (by omega)]
      rw [ih os (acc + c * o) (by omega), Nat.add_assoc]

theorem linIdx_run {ds cs : List Nat} (hc : InRange ds cs) (hb : prod ds ≤ 9223372036854775807) :
    linIdx (ints cs) (ints (strides ds)) E m = .ok (lin ds cs : Int) m := by
  have hlt := lin_lt hc
  have e := lin_eq_dot ds cs hc.length
  have := linIdx_from (E := E) (m := m) cs (strides ds) 0 (by omega)
  unfold linIdx
  rw [Nat.zero_add, ← e] at this
  exact this

theorem offsets_run {ds : List Nat} (h0 : ds ≠ []) (hb : prodMax ds ≤ 9223372036854775807) :
    offsets (ints ds) E m = .ok (ints (strides ds)) m := by
  induction ds with
  | nil => exact absurd rfl h0
  | cons d ds ih =>
    cases ds with
    | nil => simp [offsets, strides, prod]
    | cons d' r =>
      have hle : prodMax (d' :: r) ≤ prodMax (d :: d' :: r) := by
        simp only [prodMax]; exact Nat.le_mul_of_pos_left _ (by omega)
      have ih' := ih (by simp) (by omega)
      have hp := prod_le_prodMax (d' :: r)
      simp only [List.map_cons, offsets] at ih' ⊢
      msimp [ih']
      simp only [strides, List.map_cons, List.headD_cons, prod] at hp ⊢
      rw [mul_i64 (a := prod r) (b := d') (by rw [Nat.mul_comm]; omega)]
      msimp [Nat.mul_comm]

theorem rdAll_run (l : List Int) {n : Nat} (hn : n ≤ l.length) :
    rdAll (Arr.of l) n E m = .ok (l.take n) m := by
  induction n with
  | zero => simp [rdAll]
  | succ n ih =>
    have hg : (Arr.of l)[n]? = some (some l[n]) := by simp [Arr.of]
    simp only [rdAll]
    msimp [ih (by omega), run_rd hg]
    rw [List.take_succ_eq_append_getElem hn]

theorem rdAll_all (l : List Int) : rdAll (Arr.of l) l.length E m = .ok l m := by
  rw [rdAll_run l (Nat.le_refl _), List.take_length]

theorem rdAll_dims (l : List Nat) : rdAll (dimsCells l) l.length E m = .ok (ints l) m := by
  have := rdAll_all (E := E) (m := m) (ints l)
  rw [of_ints, List.length_map] at this
  exact this

/-! ### Validation -/

theorem sliceBad_run {ds : List Nat} {bg sz st : List Int} {i : Nat} (hi : i < ds.length) (hb : bg.length = ds.length)
    (hz : sz.length = ds.length) (ht : st.length = ds.length) (hsum : bg[i] + sz[i] ≤ 2147483647)
    (hlo : 0 ≤ sz[i] → -2147483648 ≤ bg[i] + sz[i]) :
    sliceBad (dimsCells ds) (Arr.of bg) (Arr.of sz) (Arr.of st) i E m =
      .ok (decide (¬ AxisOK ds[i] bg[i] sz[i] st[i])) m := by
  have rb : (Arr.of bg).rd i E m = .ok bg[i] m := run_rd (by simp [Arr.of, hb, hi]) E m
  have rz : (Arr.of sz).rd i E m = .ok sz[i] m := run_rd (by simp [Arr.of, hz, hi]) E m
  have rt : (Arr.of st).rd i E m = .ok st[i] m := run_rd (by simp [Arr.of, ht, hi]) E m
  unfold sliceBad AxisOK
  by_cases h1 : bg[i] < 0 <;> by_cases h2 : sz[i] < 0
  · msimp [rb, rz, rt, h1, h2]
    congr 1
    simp; omega
  · have := run_i32 (n := bg[i] + sz[i]) ⟨by unfold I32_MIN; omega, by unfold I32_MAX; omega⟩ E m
    msimp [rb, rz, rt, h1, h2, this, rd_dims hi]
    congr 1
    simp; omega
  · msimp [rb, rz, rt, h1, h2, rd_dims hi]
    congr 1
    simp; omega
  · have := run_i32 (n := bg[i] + sz[i]) ⟨by unfold I32_MIN; omega, by unfold I32_MAX; omega⟩ E m
    msimp [rb, rz, rt, h1, h2, this, rd_dims hi]
    congr 1
    simp only [Bool.or_eq_decide, decide_eq_true_eq, decide_eq_decide]
    omega

section check
variable {ds : List Nat} {bg sz st : List Int}

theorem sliceBad_run' {i : Nat} (hi : i < ds.length) (hb : bg.length = ds.length)
    (hz : sz.length = ds.length) (ht : st.length = ds.length) (hs : SumFits bg sz i) (E : Env) (m : Mem) :
    (GoodAt ds bg sz st i → sliceBad (dimsCells ds) (Arr.of bg) (Arr.of sz) (Arr.of st) i E m = .ok false m) ∧
    (¬ GoodAt ds bg sz st i → sliceBad (dimsCells ds) (Arr.of bg) (Arr.of sz) (Arr.of st) i E m = .ok true m) := by
  have h1 : i < bg.length := by omega
  have h2 : i < sz.length := by omega
  have h3 : i < st.length := by omega
  simp only [GoodAt, SumFits, List.getD, List.getElem?_eq_getElem hi, List.getElem?_eq_getElem h1,
    List.getElem?_eq_getElem h2, List.getElem?_eq_getElem h3, Option.getD_some] at hs ⊢
  have := sliceBad_run (E := E) (m := m) hi hb hz ht hs.1 hs.2
  refine ⟨fun h => ?_, fun h => ?_⟩
  · rw [this]; simp [h]
  · rw [this]; simp [h]

theorem sliceCheck_ok (hr : ds.length ≤ 2147483647) (hb : bg.length = ds.length)
    (hz : sz.length = ds.length) (ht : st.length = ds.length)
    (hg : ∀ i, i < ds.length → GoodAt ds bg sz st i ∧ SumFits bg sz i) :
    sliceCheck (dimsCells ds) ds.length (Arr.of bg) (Arr.of sz) (Arr.of st) E m = .ok .success m := by
  unfold sliceCheck
  have hle : ¬ ((ds.length : Int) > I32_MAX) := by unfold I32_MAX; omega
  rw [run_ite, if_neg hle, Int.toNat_natCast]
  obtain ⟨s', m', e, hm⟩ := loopE_inv (E := E) (ρ := Unit) (fun i (_ : Unit) => do
      let bad ← sliceBad (dimsCells ds) (Arr.of bg) (Arr.of sz) (Arr.of st) i
      if bad then return .inr () else return .inl ()) (fun _ _ m' => m' = m) ds.length (by
    rintro i s m' hi rfl
    refine ⟨(), m', ?_, rfl⟩
    msimp [(sliceBad_run' hi hb hz ht (hg i hi).2 E m').1 (hg i hi).1]) (s := ()) (m := m) rfl
  rw [hm] at e
  msimp [e]

theorem sliceCheck_bad (hr : ds.length ≤ 2147483647) (hb : bg.length = ds.length)
    (hz : sz.length = ds.length) (ht : st.length = ds.length) {j : Nat} (hj : j < ds.length)
    (hbad : ¬ GoodAt ds bg sz st j) (hsj : SumFits bg sz j)
    (hg : ∀ i, i < j → GoodAt ds bg sz st i ∧ SumFits bg sz i) :
    sliceCheck (dimsCells ds) ds.length (Arr.of bg) (Arr.of sz) (Arr.of st) E m = .ok .invalidArgument m := by
  unfold sliceCheck
  have hle : ¬ ((ds.length : Int) > I32_MAX) := by unfold I32_MAX; omega
  rw [run_ite, if_neg hle, Int.toNat_natCast]
  obtain ⟨s', m', e, hm⟩ := loopE_ret (E := E) (ρ := Unit) (fun i (_ : Unit) => do
      let bad ← sliceBad (dimsCells ds) (Arr.of bg) (Arr.of sz) (Arr.of st) i
      if bad then return .inr () else return .inl ()) (fun _ _ m' => m' = m) ds.length j (fun _ m' => m' = m) hj (by
    rintro i s m' hi rfl
    refine ⟨(), m', ?_, rfl⟩
    msimp [(sliceBad_run' (by omega) hb hz ht (hg i hi).2 E m').1 (hg i hi).1]) (by
    rintro s m' rfl
    refine ⟨(), m', ?_, rfl⟩
    msimp [(sliceBad_run' hj hb hz ht hsj E m').2 hbad]) (s := ()) (m := m) rfl
  rw [hm] at e
  msimp [e]

theorem sliceCheck_overflow (hr : ds.length ≤ 2147483647) (hb : bg.length = ds.length)
    (hz : sz.length = ds.length) (ht : st.length = ds.length) {j : Nat} (hj : j < ds.length)
    (hs0 : 0 ≤ sz.getD j 0) (hov : 2147483647 < bg.getD j 0 + sz.getD j 0)
    (hg : ∀ i, i < j → GoodAt ds bg sz st i ∧ SumFits bg sz i) :
    sliceCheck (dimsCells ds) ds.length (Arr.of bg) (Arr.of sz) (Arr.of st) E m = .ub .overflow := by
  unfold sliceCheck
  have hle : ¬ ((ds.length : Int) > I32_MAX) := by unfold I32_MAX; omega
  rw [run_ite, if_neg hle, Int.toNat_natCast]
  have := loopE_ub (E := E) (ρ := Unit) (fun i (_ : Unit) => do
      let bad ← sliceBad (dimsCells ds) (Arr.of bg) (Arr.of sz) (Arr.of st) i
      if bad then return .inr () else return .inl ()) (fun _ _ m' => m' = m) ds.length j .overflow hj (by
    rintro i s m' hi rfl
    refine ⟨(), m', ?_, rfl⟩
    msimp [(sliceBad_run' (by omega) hb hz ht (hg i hi).2 E m').1 (hg i hi).1]) (by
    rintro s m' rfl
    have h1 : j < bg.length := by omega
    have h2 : j < sz.length := by omega
    simp only [List.getD, List.getElem?_eq_getElem h1, List.getElem?_eq_getElem h2, Option.getD_some] at hs0 hov
    have rb : (Arr.of bg).rd j E m' = .ok bg[j] m' := run_rd (by simp [Arr.of, h1]) E m'
    have rz : (Arr.of sz).rd j E m' = .ok sz[j] m' := run_rd (by simp [Arr.of, h2]) E m'
    have ho : i32 (bg[j] + sz[j]) E m' = .ub .overflow := by
      unfold i32
      rw [if_neg (by unfold I32_MAX; omega)]; rfl
    unfold sliceBad
    by_cases hn : bg[j] < 0
    · msimp [rb, rz, hn, show ¬ sz[j] < 0 by omega, ho]
    · msimp [rb, rz, hn, show ¬ sz[j] < 0 by omega, ho, rd_dims hj]) (s := ()) (m := m) rfl
  msimp [this]

/-- The first axis with a property. -/
theorem first_such {P : Nat → Prop} {n i : Nat} (hi : i < n) (h : P i) : ∃ j, j < n ∧ P j ∧ ∀ k, k < j → ¬ P k := by
  induction i using Nat.strongRecOn with
  | _ i ih =>
    by_cases hk : ∃ k, k < i ∧ P k
    · obtain ⟨k, hk, hp⟩ := hk; exact ih k hk (by omega) hp
    · exact ⟨i, hi, h, fun k hlt hp => hk ⟨k, hlt, hp⟩⟩

end check

/-! ### Creation of the output -/

theorem scratch_touch {n : Nat} (hn : n ≤ 2147483647) (E : Env) (m : Mem) :
    (∃ b, scratch n 8 E m = .ok (.blk m.next) (m.push b) ∧
      touch (.blk m.next) 0 (8 * n) E (m.push b) = .ok () (m.push b)) ∨
    (scratch n 8 E m = .ok .null m.miss ∧ ¬ E.NoFail) := by
  unfold scratch
  rw [run_rawAlloc]
  by_cases h : E.allocOk m.tick (toSizeT ((8 : Nat) * (n : Int))) = true
  · left
    rw [if_pos h]
    refine ⟨_, rfl, ?_⟩
    unfold touch
    have hle : (8 * n : Int) ≤ ((toSizeT ((8 : Nat) * (n : Int)) : Nat) : Int) := by unfold toSizeT; omega
    msimp [run_derefBlk (Mem.push_blk_same m _)]
    rw [if_pos ⟨by omega, hle⟩]
  · right; rw [if_neg h]; exact ⟨rfl, fun nf => h (nf _ _)⟩

theorem ceilDim_eq {s t : Nat} (hs : s ≤ 2147483647) (ht : 0 < t) : ceilDim s t = (ceilDiv s t : Int) := by
  unfold ceilDim
  rw [Int.toNat_natCast, Int.toNat_natCast]
  congr 1
  exact isCeil_unique (dCeil_dDiv ht (by omega)) (isCeil_div s ht)

theorem outDims_eq {ds : List Nat} {ax : List Axis} (h : SliceFits ds ax) (hf : AxFit ax) :
    (List.zipWith ceilDim (ints (ax.map (·.sz))) (ints (ax.map (·.st)))).filter (· > 0) = ints (sliceDims ax) := by
  induction ds generalizing ax with
  | nil =>
    cases ax with
    | nil => simp [sliceDims]
    | cons a as => simp [SliceFits] at h
  | cons d ds ih =>
    cases ax with
    | nil => simp [SliceFits] at h
    | cons a as =>
      have hr := ih h.2 (fun x hx => hf x (List.mem_cons_of_mem _ hx))
      have ha := hf a (by simp)
      have hc := ceilDim_eq (s := a.sz) (t := a.st) (by omega) h.1.2.2
      simp only [List.map_cons, List.zipWith_cons_cons, sliceDims, hc]
      by_cases h0 : a.sz = 0
      · have : ceilDiv a.sz a.st = 0 := by
          rw [h0]; have := ceilDiv_le 0 h.1.2.2; omega
        rw [List.filter_cons_of_neg (by simp [this]), if_pos h0]; exact hr
      · have : 0 < ceilDiv a.sz a.st := ceilDiv_pos (by omega) h.1.2.2
        rw [List.filter_cons_of_pos (by simp; omega), if_neg h0, hr]; rfl

theorem sliceCreate_run {ax : List Axis} (wf : m.WF) (h : At m R T) (hf : SliceFits T.dims ax) (ha : AxFit ax)
    (out : Ptr) :
    (∃ R' m', sliceCreate R.h (ints (ax.map (·.sz))) (ints (ax.map (·.st))) out E m = .ok (.success, R'.h) m' ∧
      Produces m m' R' ⟨T.dtype, T.device, sliceDims ax,
        List.replicate (prod (sliceDims ax) * T.dtype.size) none⟩) ∨
    (¬ E.NoFail ∧ ((∃ o m', sliceCreate R.h (ints (ax.map (·.sz))) (ints (ax.map (·.st))) out E m =
      .ok (.allocFailed, o) m' ∧ Frame m m' ∧ m'.WF) ∨
      sliceCreate R.h (ints (ax.map (·.sz))) (ints (ax.map (·.st))) out E m = .ub .nullDeref)) := by
  have hs := h.shape.slice hf
  have hod := outDims_eq hf ha
  have hlen : ((ints (sliceDims ax)).length : Int) = ((sliceDims ax).length : Nat) := by simp
  unfold sliceCreate
  rcases scratch_run T.dims.length 4 E m with ⟨b1, e1⟩ | ⟨e1, nf⟩
  · have h1 := h.push wf b1
    rcases scratch_touch hs.rank E (m.push b1) with ⟨b2, e2, t2⟩ | ⟨e2, nf⟩
    · -- both temporaries
      obtain ⟨m2, hm2⟩ : ∃ m2, m2 = (m.push b1).push b2 := ⟨_, rfl⟩
      rw [← hm2] at e2 t2
      have hk1 : m2.blk m.next = some ⟨.own, b1⟩ := by
        rw [hm2, Mem.push_blk_ne _ _ (by simp)]; simp
      have wf2 : m2.WF := hm2 ▸ (wf.push b1).push b2
      have wf3 : (m2.set m.next none).WF := wf2.free _
      have h3 : At (m2.set m.next none) R T :=
        (hm2 ▸ h1.push (wf.push b1) b2 : At m2 R T).set_ne (fun hb => by have := h.lt wf hb; omega) _
      have touchOk : sliceTouch (.blk (m.next + 1)) (ints (sliceDims ax)) E m2 = .ok () m2 := by
        unfold sliceTouch
        rw [run_ite]; split
        · rfl
        · rw [hlen]; exact t2
      have x3 : Ext m (m2.set m.next none) [m.next + 1] :=
        { next := by simp [hm2]; omega
          same := fun y hy => by
            rw [Mem.set_blk_ne _ _ (by omega), hm2, Mem.push_blk_ne _ _ (by simp; omega), Mem.push_blk_ne _ _ (by omega)]
          wf := wf3
          live := fun y hy hn => by
            have h1 : y ≠ m.next := by rintro rfl; simp at hn
            rw [Mem.set_blk_ne _ _ h1] at hn
            have : y < m2.next := by
              apply Nat.lt_of_not_le; intro hle; exact hn (wf2 y hle)
            simp [hm2] at this ⊢; omega }
      have hk2 : (m2.set m.next none).blk (m.next + 1) = some ⟨.own, b2⟩ := by
        rw [Mem.set_blk_ne _ _ (by omega), hm2]; exact Mem.push_blk_same _ _
      rcases create_run (E := E) wf3 T.dtype T.device hs 0 .indet with ⟨R', m4, e4, P⟩ | ⟨m4, e4, fr, wf4, nf⟩
      · left
        have hk4 : m4.blk (m.next + 1) = some ⟨.own, b2⟩ := by
          rw [P.frame.same _ (by simp [hm2])]; exact hk2
        refine ⟨R', m4.drop [m.next + 1], ?_, P.temps x3 (by simp [hm2]) (by simp)⟩
        msimp [h.tNdim, e1, hod, hlen, e2, touchOk, run_rawFree hk1, h3.tDtype, h3.tDevice, of_ints, e4,
          Mem.push_next, free_first hk4]
      · right
        have hk4 : m4.blk (m.next + 1) = some ⟨.own, b2⟩ := by
          rw [fr.same _ (by simp [hm2])]; exact hk2
        refine ⟨nf, .inl ⟨.indet, m4.drop [m.next + 1], ?_, (x3.toFrame.trans fr).dropTemps (by simp), wf4.drop _⟩⟩
        msimp [h.tNdim, e1, hod, hlen, e2, touchOk, run_rawFree hk1, h3.tDtype, h3.tDevice, of_ints, e4,
          Mem.push_next, free_first hk4]
    · by_cases h0 : ints (sliceDims ax) = []
      · -- rank 0: the null pointer is never used
        obtain ⟨m2, hm2⟩ : ∃ m2, m2 = (m.push b1).miss := ⟨_, rfl⟩
        rw [← hm2] at e2
        have hk1 : m2.blk m.next = some ⟨.own, b1⟩ := by simp [hm2]
        have x3 : Ext m (m2.drop [m.next]) [] :=
          hm2 ▸ (((Ext.refl wf).push b1).miss.drop (K := [m.next]) (by simp)).mono (by simp)
        have h3 : At (m2.drop [m.next]) R T := h.frame wf x3.toFrame
        have touchOk : sliceTouch .null (ints (sliceDims ax)) E m2 = .ok () m2 := by
          unfold sliceTouch; rw [if_pos h0]; rfl
        have hfn : ∀ m, rawFree .null E m = .ok () m := fun _ => rfl
        rcases create_run (E := E) x3.wf T.dtype T.device hs 0 .indet with ⟨R', m4, e4, P⟩ | ⟨m4, e4, fr, wf4, nf⟩
        · left
          have P' := P.temps (K := []) x3 (by simp) (by simp)
          rw [show m4.drop [] = m4 from by simp [Mem.drop]] at P'
          refine ⟨R', m4, ?_, P'⟩
          msimp [h.tNdim, e1, hod, hlen, e2, touchOk, free_first hk1, h3.tDtype, h3.tDevice, of_ints, e4, hfn]
        · right
          refine ⟨nf, .inl ⟨.indet, m4, ?_, x3.toFrame.trans fr, wf4⟩⟩
          msimp [h.tNdim, e1, hod, hlen, e2, touchOk, free_first hk1, h3.tDtype, h3.tDevice, of_ints, e4, hfn]
      · right
        refine ⟨nf, .inr ?_⟩
        have ht : sliceTouch .null (ints (sliceDims ax)) E (m.push b1).miss = .ub .nullDeref := by
          unfold sliceTouch; rw [if_neg h0]; rfl
        msimp [h.tNdim, e1, hod, hlen, e2, ht]
  · right
    refine ⟨nf, .inl ⟨out, m.miss, ?_, Frame.miss _, wf.miss⟩⟩
    msimp [h.tNdim, e1]

/-! ### The kernel -/

/-- Elements of the slice, in row-major order. -/
def sliceElems (ds : List Nat) (ax : List Axis) (xs : List Val) : List Val :=
  (List.range (prod (sliceDims ax))).map fun i => xs.getD (lin ds (srcAt ax i)) default

theorem sliceKernel_run {ax : List Axis} {c : Code} {xs : List Val} {q : Nat} (h : At m R T) (he : Elems T c xs)
    (hf : SliceFits T.dims ax) (hi : prod (sliceDims ax) ≤ 2147483647)
    (hq : m.blk q = some ⟨.own, .bytes (encOpt c (List.replicate (prod (sliceDims ax)) none))⟩) (hne : q ∉ R.list) :
    sliceKernel c (.blk R.p) (.blk q) (prod (sliceDims ax) : Int) (ax.map mAx) (ints (strides T.dims)) E m =
      .ok () (m.withElems q c (sliceElems T.dims ax xs)) := by
  unfold sliceKernel forI32
  have h32 : ((prod (sliceDims ax) : Int) ≤ I32_MAX) := by unfold I32_MAX; omega
  have hbg : (ax.map mAx).map (·.bg) = ints (srcAt ax (if 0 < prod (sliceDims ax) then 0 else 0)) := by
    rw [ite_self, srcAt_zero]; simp [mAx]
  rw [hbg, if_pos h32, Int.toNat_natCast]
  have hl := loopN_fn (E := E) (fun i idx => do
      let k ← linIdx idx (ints (strides T.dims))
      let v ← loadElem c (.blk R.p) k
      storeElem c (.blk q) i v
      return (odoSlice (ax.map mAx) idx).1)
    (fun i => ints (srcAt ax (if i < prod (sliceDims ax) then i else 0)))
    (fun i => m.set q (some ⟨.own, .bytes (encOpt c
      ((List.range i).map (fun i => some (xs.getD (lin T.dims (srcAt ax i)) default)) ++
        (List.replicate (prod (sliceDims ax)) none).drop i))⟩)) (prod (sliceDims ax)) (by
    intro i hi
    have hr := srcAt_inRange hf hi
    have hlt : lin T.dims (srcAt ax i) < xs.length := by rw [he.len]; exact lin_lt hr
    have hload := (h.set_ne hne (some ⟨.own, .bytes (encOpt c
      ((List.range i).map (fun i => some (xs.getD (lin T.dims (srcAt ax i)) default)) ++
        (List.replicate (prod (sliceDims ax)) none).drop i))⟩)).load (E := E) he hlt
    have hx : xs[lin T.dims (srcAt ax i)] = xs.getD (lin T.dims (srcAt ax i)) default := by simp [List.getD, hlt]
    rw [if_pos hi]
    msimp [linIdx_run hr h.shape.prod_le, hload]
    rw [run_storeElem (Mem.set_blk_same _ _ _) (by simp; omega)]
    msimp [Mem.set_set, odoSlice_step hf hi]
    rw [hx, set_fill (fun i => some (xs.getD (lin T.dims (srcAt ax i)) default)) (List.replicate (prod (sliceDims ax)) none) i (by simpa using hi)]
    by_cases hc : i + 1 < prod (sliceDims ax) <;> simp only [hc, if_true, if_false])
  simp only [List.range_zero, List.map_nil, List.nil_append, List.drop_zero] at hl
  rw [Mem.set_self _ _ _ hq] at hl
  msimp [hl]
  rw [show m.withElems q c (sliceElems T.dims ax xs) = m.set q (some ⟨.own, .bytes (encAll c (sliceElems T.dims ax xs))⟩)
    from rfl, encAll_eq, sliceElems, List.map_map, List.drop_eq_nil_of_le (by simp), List.append_nil]
  rfl

theorem sliceElems_length (ds : List Nat) (ax : List Axis) (xs : List Val) :
    (sliceElems ds ax xs).length = prod (sliceDims ax) := by simp [sliceElems]

theorem slice_run {ax : List Axis} {c : Code} {xs : List Val} (wf : m.WF) (h : At m R T) (he : Elems T c xs)
    (h0 : T.dims ≠ []) (hf : SliceFits T.dims ax) (ha : AxFit ax) (hi : prod (sliceDims ax) ≤ 2147483647) (out : Ptr) :
    Attempts E (slice R.h (bgs ax) (szs ax) (sts ax) out) m
      ⟨c.dtype, T.device, sliceDims ax, encAll c (sliceElems T.dims ax xs)⟩ := by
  have hlen := hf.length
  have hcheck : sliceCheck (dimsCells T.dims) T.dims.length (bgs ax) (szs ax) (sts ax) E m = .ok .success m := by
    unfold bgs szs sts
    rw [← of_ints (ax.map (·.bg)), ← of_ints (ax.map (·.sz)), ← of_ints (ax.map (·.st))]
    refine sliceCheck_ok h.shape.rank (by simp [hlen]) (by simp [hlen]) (by simp [hlen]) fun i hi => ?_
    have hia : i < ax.length := by omega
    have hfit := hf.getElem hia hi
    have hint := ha _ (List.getElem_mem hia)
    unfold GoodAt SumFits AxisOK
    simp only [List.getD, List.getElem?_eq_getElem hi, List.getElem?_map, List.getElem?_eq_getElem hia, Option.map_some,
      Option.getD_some]
    obtain ⟨h1, h2, h3⟩ := hfit
    refine ⟨⟨?_, ?_, ?_, ?_, ?_⟩, ?_, ?_⟩ <;> omega
  have rb : rdAll (bgs ax) T.dims.length E m = .ok (ints (ax.map (·.bg))) m := by
    have := rdAll_dims (E := E) (m := m) (ax.map (·.bg)); rwa [List.length_map, hlen] at this
  have rz : rdAll (szs ax) T.dims.length E m = .ok (ints (ax.map (·.sz))) m := by
    have := rdAll_dims (E := E) (m := m) (ax.map (·.sz)); rwa [List.length_map, hlen] at this
  have rt : rdAll (sts ax) T.dims.length E m = .ok (ints (ax.map (·.st))) m := by
    have := rdAll_dims (E := E) (m := m) (ax.map (·.st)); rwa [List.length_map, hlen] at this
  unfold Attempts slice
  rcases sliceCreate_run (E := E) wf h hf ha out with ⟨R', m1, e1, P⟩ | ⟨nf, ⟨o, m1, e1, fr, wf1⟩ | e1⟩
  · have h1 := h.frame wf P.frame
    rcases scratch3_run T.dims.length 8 E P.wf with ⟨b1, b2, b3, s1, s2, s3⟩ | ⟨p1, p2, p3, m2, m3, m4, s1, s2, s3, hn, fr, wf4, nf⟩
    · left
      have H := ((P.holds.push b1).push b2).push b3
      obtain ⟨m4, hm4⟩ : ∃ m4, m4 = ((m1.push b1).push b2).push b3 := ⟨_, rfl⟩
      rw [← hm4] at s3 H
      have h4 : At m4 R T := h.frame wf H.ext.toFrame
      rw [he.dtype] at H
      have hkern := sliceKernel_run (E := E) (q := R'.p) h4 he hf hi
        (by rw [encOpt_replicate]; exact H.tensor.data) (P.disjoint wf h (by simp [mem_foot]))
      have H5 := H.setData (bs := encAll c (sliceElems T.dims ax xs)) (by
        rw [encAll_length, sliceElems_length]; simp; rfl)
      have n1 : (m4.withElems R'.p c (sliceElems T.dims ax xs)).blk m1.next = some ⟨.own, b1⟩ := by
        have hne : m1.next ≠ R'.p := fun e => by
          have := P.tensor.lt P.wf (b := R'.p) (by simp [mem_foot]); omega
        rw [Mem.set_blk_ne _ _ hne, hm4, Mem.push_blk_ne _ _ (by simp; omega), Mem.push_blk_ne _ _ (by simp)]
        simp
      have n2 : (m4.withElems R'.p c (sliceElems T.dims ax xs)).blk (m1.next + 1) = some ⟨.own, b2⟩ := by
        have hne : m1.next + 1 ≠ R'.p := fun e => by
          have := P.tensor.lt P.wf (b := R'.p) (by simp [mem_foot]); omega
        rw [Mem.set_blk_ne _ _ hne, hm4, Mem.push_blk_ne _ _ (by simp)]
        exact Mem.push_blk_same _ _
      have n3 : (m4.withElems R'.p c (sliceElems T.dims ax xs)).blk (m1.next + 2) = some ⟨.own, b3⟩ := by
        have hne : m1.next + 2 ≠ R'.p := fun e => by
          have := P.tensor.lt P.wf (b := R'.p) (by simp [mem_foot]); omega
        rw [Mem.set_blk_ne _ _ hne, hm4]
        exact Mem.push_blk_same _ _
      refine ⟨R', _, ?_, H5.done (K := [m1.next + 2, m1.next + 1, m1.next]) (by simp) (by simp)⟩
      unfold sliceTemplate
      msimp [h.tNdim, h.tDimsArr, hcheck, Int.toNat_natCast, rb, rz, rt, e1, h1.tNdim, h1.tDimsArr, s1, s2, s3,
        rdAll_dims, offsets_run h0 h.shape.prodMax_le, h4.tDtype, he.dtype, find_dtype c, h4.tData, H.tensor.tData,
        H.tensor.tSize, sliceAxes_eq, hkern, free_first n1, free_drop n2 (K := [m1.next]) (by simp),
        free_drop n3 (K := [m1.next + 1, m1.next]) (by simp)]
    · right
      refine ⟨nf, .inl ⟨R'.h, m4, ?_, P.frame.trans fr, wf4⟩⟩
      unfold sliceTemplate
      msimp [h.tNdim, h.tDimsArr, hcheck, Int.toNat_natCast, rb, rz, rt, e1, h1.tNdim, h1.tDimsArr, s1, s2, s3, hn]
  · right
    refine ⟨nf, .inl ⟨o, m1, ?_, fr, wf1⟩⟩
    msimp [h.tNdim, h.tDimsArr, hcheck, Int.toNat_natCast, rb, rz, rt, e1]
  · right
    refine ⟨nf, .inr ?_⟩
    msimp [h.tNdim, h.tDimsArr, hcheck, Int.toNat_natCast, rb, rz, rt, e1]

end Aitisa
