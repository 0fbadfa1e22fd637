import Verif.Model.Pooling
import Verif.Spec.Pooling
import Verif.Proof.Double
import Verif.Proof.DotTop

/-! # Pooling: windows -/

namespace Aitisa

variable {E : Env} {m : Mem} {w : Win} {ws : List Win} {os qs : List Nat}

/-- A pooled axis as in the model. -/
def Win.ax (w : Win) : PAxis := ⟨w.x, w.k, w.s, w.p, w.d⟩

/-- All axes are as required. -/
def WinsOK (ws : List Win) : Prop := ∀ w ∈ ws, w.Fits ∧ w.Small

/-- `k_head` and `k_tail` of window `o`. -/
def Win.headTail (w : Win) (o : Nat) : Int × Int := ((o * w.s : Nat) - (w.p : Int), (o * w.s : Nat) - (w.p : Int) + (w.d * (w.k - 1) : Nat))

/-- `k_head` and `k_tail` of the window at `os`. -/
def winsAt : List Win → List Nat → List (Int × Int)
  | w :: ws, o :: os => w.headTail o :: winsAt ws os
  | _, _ => []

/-- `index` at element `qs` of the window at `os`. -/
def idxAt : List Win → List Nat → List Nat → List Int
  | w :: ws, o :: os, q :: qs => ((o * w.s + q * w.d : Nat) - (w.p : Int)) :: idxAt ws os qs
  | _, _, _ => []

theorem Win.span (f : w.Fits) (b : w.Small) : w.d * (w.k - 1) ≤ 2147483646 ∧ w.k ≤ 2147483647 := by
  have h1 := f.fits
  have h2 := b.x
  have h3 : w.k - 1 ≤ w.d * (w.k - 1) := Nat.le_mul_of_pos_left _ f.d
  omega

theorem run_i64' {n : Int} (h : -9223372036854775808 ≤ n) (h' : n ≤ 9223372036854775807) : i64 n E m = .ok n m := by
  unfold i64 I64_MIN I64_MAX; rw [if_pos ⟨h, h'⟩]; rfl

theorem run_i32' {n : Int} (h : -2147483648 ≤ n) (h' : n ≤ 2147483647) : i32 n E m = .ok n m := by
  unfold i32 I32_MIN I32_MAX; rw [if_pos ⟨h, h'⟩]; rfl

theorem Win.spanInt (f : w.Fits) : ((w.k : Int) - 1) * w.d = ((w.d * (w.k - 1) : Nat) : Int) := by
  have := f.k
  rw [Int.natCast_mul, Int.mul_comm, Int.ofNat_sub this]; rfl

theorem poolSpan_run (f : w.Fits) (b : w.Small) : poolSpan w.k w.d E m = .ok ((w.d * (w.k - 1) : Nat) : Int) m := by
  obtain ⟨h1, h2⟩ := Win.span f b
  unfold poolSpan
  msimp [run_i32' (E := E) (m := m) (n := (w.k : Int) - 1) (by omega) (by omega), Win.spanInt f,
    run_i32' (E := E) (m := m) (n := ((w.d * (w.k - 1) : Nat) : Int)) (by omega) (by omega)]

theorem poolOut_run (f : w.Fits) (b : w.Small) : poolOut w.ax E m = .ok (w.out : Int) m := by
  obtain ⟨h1, h2⟩ := Win.span f b
  have e : (w.d : Int) * ((w.k : Int) - 1) = ((w.d * (w.k - 1) : Nat) : Int) := by rw [Int.mul_comm]; exact Win.spanInt f
  have hf := f.fits
  have hs := f.s
  have hx := b.x
  have hs' := b.s
  unfold poolOut Win.ax
  msimp [run_i32' (E := E) (m := m) (n := (w.k : Int) - 1) (by omega) (by omega), e,
    run_i32' (E := E) (m := m) (n := ((w.d * (w.k - 1) : Nat) : Int)) (by omega) (by omega)]
  rw [if_neg (by omega), if_pos (by omega)]
  have e1 : ((w.x : Int) + 2 * w.p - ((w.d * (w.k - 1) : Nat) : Int) - 1).toNat = w.x + 2 * w.p - w.d * (w.k - 1) - 1 := by omega
  have e2 : ((w.s : Int)).toNat = w.s := by omega
  rw [e1, e2, dFloor_dAddOne (by omega) (by omega) (by omega)]
  rfl

theorem poolOuts_run (h : WinsOK ws) : poolOuts (ws.map Win.ax) E m = .ok (ints (ws.map Win.out)) m := by
  induction ws with
  | nil => rfl
  | cons w ws ih =>
    obtain ⟨f, b⟩ := h w (by simp)
    simp only [List.map_cons, poolOuts]
    msimp [poolOut_run (E := E) (m := m) f b, ih fun v hv => h v (by simp [hv])]

theorem poolSize_run (h : WinsOK ws) {n : Nat} (hn : n * prod (ws.map Win.k) ≤ 9223372036854775807) :
    poolSize (ws.map Win.ax) n E m = .ok ((n * prod (ws.map Win.k) : Nat) : Int) m := by
  induction ws generalizing n with
  | nil => simp [poolSize, prod]
  | cons w ws ih =>
    have hp : 0 < prod (ws.map Win.k) := prod_pos fun d hd => by
      obtain ⟨v, hv, rfl⟩ := List.mem_map.1 hd
      exact (h v (by simp [hv])).1.k
    simp only [List.map_cons, prod] at hn ⊢
    have e : n * (w.k * prod (ws.map Win.k)) = n * w.k * prod (ws.map Win.k) := by ac_rfl
    rw [e] at hn ⊢
    have hle : n * w.k ≤ n * w.k * prod (ws.map Win.k) := Nat.le_mul_of_pos_right _ hp
    msimp [poolSize, show w.ax.k = (w.k : Int) from rfl, mul_i64 (E := E) (m := m) (a := n) (b := w.k) (by omega)]
    exact ih (fun v hv => h v (by simp [hv])) hn

theorem poolHead_run (f : w.Fits) (b : w.Small) : poolHead w.ax E m = .ok (w.headTail 0) m := by
  obtain ⟨h1, h2⟩ := Win.span f b
  have hx := b.x
  unfold poolHead Win.ax
  msimp [run_i32' (E := E) (m := m) (n := 0 - (w.p : Int)) (by omega) (by omega), poolSpan_run f b,
    run_i64' (E := E) (m := m) (n := 0 - (w.p : Int) + ((w.d * (w.k - 1) : Nat) : Int)) (by omega) (by omega)]
  simp [Win.headTail]

theorem poolHeads_run (h : WinsOK ws) : poolHeads (ws.map Win.ax) E m = .ok (winsAt ws (ws.map fun _ => 0)) m := by
  induction ws with
  | nil => rfl
  | cons w ws ih =>
    obtain ⟨f, b⟩ := h w (by simp)
    simp only [List.map_cons, poolHeads]
    msimp [poolHead_run (E := E) (m := m) f b, ih fun v hv => h v (by simp [hv]), winsAt]

/-- Windows start inside the padded axis. -/
theorem Win.start_le (f : w.Fits) {o : Nat} (ho : o < w.out) : o * w.s + w.d * (w.k - 1) + 1 ≤ w.x + 2 * w.p := by
  have hf := f.fits
  have h1 : o ≤ (w.x + 2 * w.p - w.d * (w.k - 1) - 1) / w.s := by unfold Win.out at ho; omega
  have h2 := Nat.mul_le_of_le_div _ _ _ h1
  omega

theorem Win.out_le (f : w.Fits) {o : Nat} (h : o * w.s + w.d * (w.k - 1) + 1 ≤ w.x + 2 * w.p) : o < w.out := by
  unfold Win.out
  have := (Nat.le_div_iff_mul_le f.s).2 (show o * w.s ≤ w.x + 2 * w.p - w.d * (w.k - 1) - 1 by omega)
  omega

theorem Win.mul_le {q : Nat} (hq : q < w.k) : q * w.d ≤ w.d * (w.k - 1) := by
  rw [Nat.mul_comm]; exact Nat.mul_le_mul_left _ (by omega)

theorem idxAt_head (h : ws.length = os.length) : (winsAt ws os).map (fun w => w.1) = idxAt ws os ((ws.map Win.k).map fun _ => 0) := by
  induction ws generalizing os with
  | nil => rfl
  | cons w ws ih =>
    cases os with
    | nil => simp at h
    | cons o os => simp [winsAt, idxAt, Win.headTail, ih (os := os) (by simpa using h)]

/-- The element odometer. -/
theorem poolNextElem_run (h : WinsOK ws) (ho : InRange (ws.map Win.out) os) {j : Nat} (hj : j < prod (ws.map Win.k)) :
    poolNextElem (ws.map Win.ax) (winsAt ws os) (idxAt ws os (unlin (ws.map Win.k) j)) E m =
      .ok (if j + 1 < prod (ws.map Win.k) then (idxAt ws os (unlin (ws.map Win.k) (j + 1)), false)
        else (idxAt ws os (unlin (ws.map Win.k) 0), true)) m := by
  induction ws generalizing os j with
  | nil =>
    simp [prod] at hj
    subst hj
    simp [poolNextElem, prod, idxAt]
  | cons w ws ih =>
    cases os with
    | nil => exact ho.elim
    | cons o os =>
      obtain ⟨f, b⟩ := h w (by simp)
      have h' : WinsOK ws := fun v hv => h v (by simp [hv])
      have hP : 0 < prod (ws.map Win.k) := by
        rcases Nat.eq_zero_or_pos (prod (ws.map Win.k)) with h0 | h0
        · simp [prod, h0] at hj
        · exact h0
      have hmod := Nat.mod_lt j hP
      simp only [List.map_cons, prod] at hj
      obtain ⟨s1, s2⟩ := succ_div_mod hj
      have hq : j / prod (ws.map Win.k) < w.k := by rw [Nat.div_lt_iff_lt_mul hP]; exact hj
      have hst := Win.start_le f ho.1
      have hx := b.x
      have hd := b.d
      have hql := Win.mul_le hq
      simp only [List.map_cons, unlin, idxAt, winsAt, prod]
      msimp [poolNextElem, ih h' ho.2 hmod]
      by_cases hc : j % prod (ws.map Win.k) + 1 < prod (ws.map Win.k)
      · obtain ⟨e1, e2, e3⟩ := s1 hc
        msimp [if_pos hc, if_pos e3, e1, e2]
        try simp
      · obtain ⟨e1, e2, e3⟩ := s2 hc
        have ea : (((o * w.s + j / prod (ws.map Win.k) * w.d : Nat) : Int) - (w.p : Int) + (w.d : Int)) =
            ((o * w.s + (j / prod (ws.map Win.k) + 1) * w.d : Nat) : Int) - (w.p : Int) := by
          rw [Nat.succ_mul]; omega
        msimp [if_neg hc, show w.ax.d = (w.d : Int) from rfl,
          run_i64' (E := E) (m := m) (n := ((o * w.s + j / prod (ws.map Win.k) * w.d : Nat) : Int) - (w.p : Int) + (w.d : Int))
            (by omega) (by omega)]
        rw [ea]
        have hiff : (((o * w.s + (j / prod (ws.map Win.k) + 1) * w.d : Nat) : Int) - (w.p : Int) > (w.headTail o).2) ↔
            ¬ (j / prod (ws.map Win.k) + 1 < w.k) := by
          unfold Win.headTail
          simp only
          constructor
          · intro hgt hlt
            have := Win.mul_le hlt
            omega
          · intro hge
            have h1 : w.d * w.k ≤ (j / prod (ws.map Win.k) + 1) * w.d := by
              rw [Nat.mul_comm]; exact Nat.mul_le_mul_right _ (by omega)
            have h2 : w.d * w.k = w.d * (w.k - 1) + w.d := by
              have := f.k
              rw [← Nat.mul_succ, Nat.succ_eq_add_one, Nat.sub_add_cancel this]
            have := f.d
            omega
        by_cases hl : j / prod (ws.map Win.k) + 1 < w.k
        · rw [if_neg (by rw [hiff]; simpa using hl), if_pos (e3.2 hl), e1, e2]
          try simp
        · rw [if_pos (hiff.2 hl), if_neg (fun h => hl (e3.1 h))]
          try simp [Win.headTail]

/-- The window odometer. -/
theorem poolNextWin_run (h : WinsOK ws) {j : Nat} (hj : j < prod (ws.map Win.out)) :
    poolNextWin (ws.map Win.ax) (winsAt ws (unlin (ws.map Win.out) j)) E m =
      .ok (if j + 1 < prod (ws.map Win.out) then (winsAt ws (unlin (ws.map Win.out) (j + 1)), false)
        else (winsAt ws (unlin (ws.map Win.out) 0), true)) m := by
  induction ws generalizing j with
  | nil =>
    simp [prod] at hj
    subst hj
    simp [poolNextWin, prod, winsAt]
  | cons w ws ih =>
    obtain ⟨f, b⟩ := h w (by simp)
    have h' : WinsOK ws := fun v hv => h v (by simp [hv])
    have hP : 0 < prod (ws.map Win.out) := by
      rcases Nat.eq_zero_or_pos (prod (ws.map Win.out)) with h0 | h0
      · simp [prod, h0] at hj
      · exact h0
    have hmod := Nat.mod_lt j hP
    simp only [List.map_cons, prod] at hj
    obtain ⟨s1, s2⟩ := succ_div_mod hj
    have hq : j / prod (ws.map Win.out) < w.out := by rw [Nat.div_lt_iff_lt_mul hP]; exact hj
    have hst := Win.start_le f hq
    have hx := b.x
    have hs := b.s
    simp only [List.map_cons, unlin, winsAt, prod]
    msimp [poolNextWin, ih h' hmod]
    by_cases hc : j % prod (ws.map Win.out) + 1 < prod (ws.map Win.out)
    · obtain ⟨e1, e2, e3⟩ := s1 hc
      msimp [if_pos hc, if_pos e3, e1, e2]
      try simp
    · obtain ⟨e1, e2, e3⟩ := s2 hc
      obtain ⟨J, hJ⟩ : ∃ J, J = j / prod (ws.map Win.out) := ⟨_, rfl⟩
      rw [← hJ] at hq hst e1 e3 ⊢
      have ea : (w.headTail J).1 + (w.s : Int) = (((J + 1) * w.s : Nat) : Int) - (w.p : Int) := by
        unfold Win.headTail; simp only; rw [Nat.succ_mul]; omega
      have eb : (w.headTail (J + 1)) = ((((J + 1) * w.s : Nat) : Int) - (w.p : Int),
          (((J + 1) * w.s : Nat) : Int) - (w.p : Int) + ((w.d * (w.k - 1) : Nat) : Int)) := rfl
      have hmul : (J + 1) * w.s = J * w.s + w.s := Nat.succ_mul ..
      obtain ⟨g1, g2⟩ := Win.span f b
      msimp [if_neg hc, show w.ax.s = (w.s : Int) from rfl, show w.ax.k = (w.k : Int) from rfl, show w.ax.d = (w.d : Int) from rfl,
        show w.ax.p = (w.p : Int) from rfl, show w.ax.x = (w.x : Int) from rfl, ea, poolSpan_run f b,
        run_i64' (E := E) (m := m) (n := (((J + 1) * w.s : Nat) : Int) - (w.p : Int)) (by omega) (by omega),
        run_i64' (E := E) (m := m) (n := (((J + 1) * w.s : Nat) : Int) - (w.p : Int) + ((w.d * (w.k - 1) : Nat) : Int)) (by omega) (by omega),
        run_i64' (E := E) (m := m) (n := (w.p : Int) + (w.x : Int)) (by omega) (by omega),
        run_i64' (E := E) (m := m) (n := (w.p : Int) + (w.x : Int) - 1) (by omega) (by omega)]
      by_cases hl : J + 1 < w.out
      · have := Win.start_le f hl
        rw [if_neg (by omega), if_pos (e3.2 hl), e1, e2, eb]
        try simp
      · have : ¬ ((J + 1) * w.s + w.d * (w.k - 1) + 1 ≤ w.x + 2 * w.p) := fun h => hl (Win.out_le f h)
        rw [if_pos (by omega), if_neg (fun h => hl (e3.1 h))]
        msimp [poolHead_run (E := E) (m := m) f b]
        simp

/-- The offset of an element. -/
theorem poolOffset_run {o : Nat} (hl : ws.length = os.length) (hl' : ws.length = qs.length)
    (ho : o + prod (ws.map Win.x) ≤ 9223372036854775807) :
    poolOffset (ws.map Win.ax) (ints (strides (ws.map Win.x))) (idxAt ws os qs) o E m =
      .ok ((winAt ws os qs).map fun cs => ((o + lin (ws.map Win.x) cs : Nat) : Int)) m := by
  induction ws generalizing os qs o with
  | nil => simp [poolOffset, winAt, lin]
  | cons w ws ih =>
    cases os with
    | nil => simp at hl
    | cons a os =>
      cases qs with
      | nil => simp at hl'
      | cons q qs =>
        simp only [List.map_cons, prod] at ho
        simp only [List.map_cons, strides, idxAt, winAt, poolOffset, show w.ax.x = (w.x : Int) from rfl]
        by_cases hin : w.p ≤ a * w.s + q * w.d ∧ a * w.s + q * w.d < w.p + w.x
        · obtain ⟨i, hi⟩ : ∃ i, i = a * w.s + q * w.d - w.p := ⟨_, rfl⟩
          have hii : ((a * w.s + q * w.d : Nat) : Int) - (w.p : Int) = (i : Int) := by omega
          have hb : (i + 1) * prod (ws.map Win.x) ≤ w.x * prod (ws.map Win.x) := Nat.mul_le_mul_right _ (by omega)
          rw [Nat.succ_mul] at hb
          rw [if_pos hin, if_pos (by omega), hii, ← hi]
          msimp [mul_i64 (E := E) (m := m) (a := i) (b := prod (ws.map Win.x)) (by omega),
            add_i64 (E := E) (m := m) (a := o) (b := i * prod (ws.map Win.x)) (by omega),
            ih (os := os) (qs := qs) (o := o + i * prod (ws.map Win.x)) (by simpa using hl) (by simpa using hl') (by omega)]
          cases winAt ws os qs with
          | none => rfl
          | some cs => simp [lin, Nat.add_assoc]
        · rw [if_neg hin, if_neg (by omega)]
          rfl

end Aitisa
