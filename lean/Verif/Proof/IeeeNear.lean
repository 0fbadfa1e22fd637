import Verif.Proof.IeeeRange
import Verif.Spec.Nearest

/-!
# IEEE operations are correctly rounded
-/

namespace Aitisa

variable {F : Fmt}

/-! ### Magnitudes and their distances -/

theorem mag_rep (F : Fmt) (b : Nat) :
    ∃ k q, b = k * 2 ^ (F.p - 1) + q ∧ q < 2 * 2 ^ (F.p - 1) ∧ (k = 0 ∨ 2 ^ (F.p - 1) ≤ q) := by
  have hP : 0 < 2 ^ (F.p - 1) := Nat.two_pow_pos _
  generalize 2 ^ (F.p - 1) = P at *
  have h1 := Nat.div_add_mod b P
  have h2 := Nat.mod_lt b hP
  by_cases h0 : b / P = 0
  · exact ⟨0, b, by omega, by rw [h0, Nat.mul_zero] at h1; omega, .inl rfl⟩
  · obtain ⟨x, hx⟩ : ∃ x, b / P = x + 1 := Nat.exists_eq_succ_of_ne_zero h0
    rw [hx] at h1
    exact ⟨x, P + b % P, by rw [Nat.mul_succ, Nat.mul_comm] at h1; omega, by omega, .inr (by omega)⟩

theorem mag_of (F : Fmt) {k q : Nat} (hq : q < 2 * 2 ^ (F.p - 1)) (hk : k = 0 ∨ 2 ^ (F.p - 1) ≤ q) :
    F.mag (k * 2 ^ (F.p - 1) + q) = q * 2 ^ k := by
  have hP : 0 < 2 ^ (F.p - 1) := Nat.two_pow_pos _
  unfold Fmt.mag
  generalize 2 ^ (F.p - 1) = P at *
  rcases Nat.lt_or_ge q P with h | h
  · have : k = 0 := by omega
    subst this
    simp [Nat.div_eq_of_lt h, Nat.mod_eq_of_lt h]
  · obtain ⟨r, rfl⟩ : ∃ r, q = P + r := ⟨q - P, by omega⟩
    have hr : r < P := by omega
    have e : k * P + (P + r) = P * (k + 1) + r := by rw [Nat.mul_succ, Nat.mul_comm]; omega
    have e1 : (P * (k + 1) + r) / P = k + 1 := by rw [Nat.mul_add_div hP, Nat.div_eq_of_lt hr, Nat.add_zero]
    have e2 : (P * (k + 1) + r) % P = r := by rw [Nat.mul_add_mod, Nat.mod_eq_of_lt hr]
    rw [e, e1, e2, if_neg (by omega)]
    rfl

theorem mag_next (F : Fmt) {k q : Nat} (hq : q < 2 * 2 ^ (F.p - 1)) (hk : k = 0 ∨ 2 ^ (F.p - 1) ≤ q) :
    F.mag (k * 2 ^ (F.p - 1) + q + 1) = (q + 1) * 2 ^ k := by
  have hP : 0 < 2 ^ (F.p - 1) := Nat.two_pow_pos _
  rcases Nat.lt_or_ge (q + 1) (2 * 2 ^ (F.p - 1)) with h | h
  · exact mag_of F h (by omega)
  · have e : k * 2 ^ (F.p - 1) + q + 1 = (k + 1) * 2 ^ (F.p - 1) + 2 ^ (F.p - 1) := by rw [Nat.succ_mul]; omega
    rw [e, mag_of F (by omega) (.inr (Nat.le_refl _)), Nat.pow_succ, show q + 1 = 2 * 2 ^ (F.p - 1) by omega]
    rw [Nat.mul_comm 2 (2 ^ (F.p - 1)), Nat.mul_assoc, Nat.mul_comm (2 ^ k)]

/-- Where a rounded number lies: the border between two neighbours is half way. -/
theorem rq_le_iff (h : F.OK) {N D b : Nat} (hD : 0 < D) (hb : b < F.infBits) :
    F.rq N D ≤ b ↔ 2 * N < (F.mag b + F.mag (b + 1)) * D ∨ (2 * N = (F.mag b + F.mag (b + 1)) * D ∧ b % 2 = 0) := by
  have hp := h.p3
  have hpp := h.pow_p
  obtain ⟨k', q, rfl, hq, hk'⟩ := mag_rep F b
  obtain ⟨k, hk⟩ : ∃ k, F.Expo N D k := ⟨_, expo_log h hD⟩
  rw [rq_eq h hD hk, mag_of F hq hk', mag_next F hq hk']
  have hmin : min (k * 2 ^ (F.p - 1) + rnd N (D * 2 ^ k)) F.infBits ≤ k' * 2 ^ (F.p - 1) + q ↔
      k * 2 ^ (F.p - 1) + rnd N (D * 2 ^ k) ≤ k' * 2 ^ (F.p - 1) + q := by omega
  rw [hmin, show (q * 2 ^ k' + (q + 1) * 2 ^ k') * D = (2 * q + 1) * (D * 2 ^ k') by
    rw [← Nat.add_mul, Nat.mul_assoc, Nat.mul_comm D]; congr 1; omega]
  have hDk : ∀ k, 0 < D * 2 ^ k := fun k => Nat.mul_pos hD (Nat.two_pow_pos _)
  rcases Nat.lt_trichotomy k k' with hlt | rfl | hgt
  · -- far below
    have hq' : 2 ^ (F.p - 1) ≤ q := by omega
    have h1 : rnd N (D * 2 ^ k) ≤ 2 ^ F.p := rnd_le (hDk k) (by
      have := hk.1; rw [Nat.pow_add] at this
      rw [Nat.mul_comm (2 ^ F.p), Nat.mul_assoc]; omega)
    have h2 : (k + 1) * 2 ^ (F.p - 1) ≤ k' * 2 ^ (F.p - 1) := Nat.mul_le_mul_right _ hlt
    rw [Nat.succ_mul] at h2
    have h3 : N < q * (D * 2 ^ k') := by
      refine Nat.lt_of_lt_of_le hk.1 ?_
      rw [Nat.mul_left_comm]
      refine Nat.mul_le_mul_left _ (Nat.le_trans ?_ (Nat.mul_le_mul_right _ hq'))
      rw [← Nat.pow_add]
      exact Nat.pow_le_pow_right (by omega) (by omega)
    have h4 : (2 * q + 1) * (D * 2 ^ k') = 2 * (q * (D * 2 ^ k')) + D * 2 ^ k' := by
      rw [Nat.add_mul, Nat.one_mul, Nat.mul_assoc]
    rw [h4]
    constructor
    · intro; left; omega
    · intro; omega
  · have hpar : (k * 2 ^ (F.p - 1) + q) % 2 = q % 2 := by
      obtain ⟨j, hj⟩ : ∃ j, 2 ^ (F.p - 1) = 2 * j := ⟨2 ^ (F.p - 2), by rw [← Nat.pow_succ']; congr 1; omega⟩
      rw [hj, Nat.mul_left_comm]; omega
    have := rnd_le_iff (N := N) (D := D * 2 ^ k) (b := q) (hDk k)
    rw [hpar]
    omega
  · -- far above
    have h0 : D * 2 ^ (k + F.p - 1) ≤ N := by
      rcases hk.2 with h | h
      · omega
      · exact h
    have h2 : 2 ^ (F.p - 1) ≤ rnd N (D * 2 ^ k) := rnd_ge (hDk k) (by
      rw [show k + F.p - 1 = k + (F.p - 1) by omega, Nat.pow_add] at h0
      rw [Nat.mul_comm (2 ^ (F.p - 1)), Nat.mul_assoc]; exact h0)
    have h3 : (k' + 1) * 2 ^ (F.p - 1) ≤ k * 2 ^ (F.p - 1) := Nat.mul_le_mul_right _ hgt
    rw [Nat.succ_mul] at h3
    have h4 : (q + 1) * (D * 2 ^ k') ≤ N := by
      refine Nat.le_trans ?_ h0
      rw [Nat.mul_left_comm]
      refine Nat.mul_le_mul_left _ (Nat.le_trans (Nat.mul_le_mul_right _ (show q + 1 ≤ 2 ^ F.p by omega)) ?_)
      rw [← Nat.pow_add]
      exact Nat.pow_le_pow_right (by omega) (by omega)
    have h5 : (2 * q + 1) * (D * 2 ^ k') < 2 * ((q + 1) * (D * 2 ^ k')) := by
      have := hDk k'
      rw [Nat.add_mul, Nat.add_mul, Nat.mul_assoc, Nat.one_mul]; omega
    constructor
    · intro; omega
    · intro; omega

/-- Twice the end of the range, in units. -/
def Fmt.end2 (F : Fmt) : Nat := (2 ^ (F.p + 1) - 1) * 2 ^ (2 ^ F.w - 3)

theorem end2_eq (h : F.OK) : F.mag (F.infBits - 1) + F.mag F.infBits = F.end2 := by
  have hp := h.p3
  have hpp := h.pow_p
  have hw := h.two
  have hw2 : 2 ≤ 2 ^ (F.w - 1) := by
    have := h.w2
    calc 2 = 2 ^ 1 := rfl
      _ ≤ _ := Nat.pow_le_pow_right (by omega) (by omega)
  have hP : 0 < 2 ^ (F.p - 1) := Nat.two_pow_pos _
  obtain ⟨j, hj⟩ : ∃ j, 2 ^ F.w = j + 3 := ⟨2 ^ F.w - 3, by omega⟩
  have hi : F.infBits = (j + 2) * 2 ^ (F.p - 1) := by unfold Fmt.infBits; rw [hj]; rfl
  have e : F.infBits = j * 2 ^ (F.p - 1) + (2 * 2 ^ (F.p - 1) - 1) + 1 := by
    rw [hi, Nat.add_mul]; omega
  have h1 := mag_of F (k := j) (q := 2 * 2 ^ (F.p - 1) - 1) (by omega) (.inr (by omega))
  have h2 := mag_next F (k := j) (q := 2 * 2 ^ (F.p - 1) - 1) (by omega) (.inr (by omega))
  rw [← e] at h2
  rw [h2, show F.infBits - 1 = j * 2 ^ (F.p - 1) + (2 * 2 ^ (F.p - 1) - 1) by omega, h1, ← Nat.add_mul, Fmt.end2, hj]
  rw [Nat.pow_succ, hpp]
  congr 1
  omega

theorem inf_even (h : F.OK) : F.infBits % 2 = 0 := by
  have hp := h.p3
  unfold Fmt.infBits
  obtain ⟨j, hj⟩ : ∃ j, 2 ^ (F.p - 1) = 2 * j := ⟨2 ^ (F.p - 2), by rw [← Nat.pow_succ']; congr 1; omega⟩
  rw [hj, Nat.mul_left_comm]; omega

theorem rq_finite (h : F.OK) {N D : Nat} (hD : 0 < D) : F.rq N D < F.infBits ↔ 2 * N < F.end2 * D := by
  have h0 := inf_pos h
  have h1 := inf_even h
  have := rq_le_iff (N := N) h hD (show F.infBits - 1 < F.infBits by omega)
  rw [show F.infBits - 1 + 1 = F.infBits by omega, end2_eq h] at this
  omega

/-- No magnitude is closer, and of two that are equally close the even one is taken. -/
theorem rq_near (h : F.OK) {N D : Nat} (hD : 0 < D) (hn : F.rq N D < F.infBits) (c : Nat) :
    ((N : Int) - (F.mag (F.rq N D) * D : Nat)).natAbs ≤ ((N : Int) - (F.mag c * D : Nat)).natAbs ∧
      (((N : Int) - (F.mag (F.rq N D) * D : Nat)).natAbs = ((N : Int) - (F.mag c * D : Nat)).natAbs → c ≠ F.rq N D →
        F.rq N D % 2 = 0) := by
  generalize hr : F.rq N D = n at *
  have hle := (rq_le_iff (N := N) h hD hn).1 (Nat.le_of_eq hr)
  rcases Nat.lt_trichotomy c n with hlt | rfl | hgt
  · have hm := mag_le_iff F (a := c) (b := n - 1)
    have hm' := (mag_lt_iff F (a := n - 1) (b := n)).2 (by omega)
    have hge := mt (rq_le_iff (N := N) h hD (show n - 1 < F.infBits by omega)).2 (by omega)
    rw [show n - 1 + 1 = n by omega, Nat.add_mul] at hge
    have a1 : F.mag c * D ≤ F.mag (n - 1) * D := Nat.mul_le_mul_right _ (hm.2 (by omega))
    have a2 : F.mag (n - 1) * D < F.mag n * D := Nat.mul_lt_mul_of_pos_right hm' hD
    generalize F.mag c * D = x at *
    generalize F.mag (n - 1) * D = y at *
    generalize F.mag n * D = z at *
    omega
  · exact ⟨Nat.le_refl _, fun _ hc => absurd rfl hc⟩
  · have hm := mag_le_iff F (a := n + 1) (b := c)
    have hm' := (mag_lt_iff F (a := n) (b := n + 1)).2 (by omega)
    rw [Nat.add_mul] at hle
    have a1 : F.mag (n + 1) * D ≤ F.mag c * D := Nat.mul_le_mul_right _ (hm.2 (by omega))
    have a2 : F.mag n * D < F.mag (n + 1) * D := Nat.mul_lt_mul_of_pos_right hm' hD
    generalize F.mag c * D = x at *
    generalize F.mag (n + 1) * D = y at *
    generalize F.mag n * D = z at *
    omega

theorem rnd_half {N D : Nat} (hD : 0 < D) : 2 * ((N : Int) - (rnd N D * D : Nat)).natAbs ≤ D := by
  have h := fun b => rnd_le_iff (N := N) (b := b) hD
  generalize rnd N D = t at *
  have h1 := (h t).1 (Nat.le_refl _)
  rw [Nat.add_mul, Nat.mul_assoc] at h1
  rcases Nat.eq_zero_or_pos t with h0 | h0
  · subst h0; rw [Nat.zero_mul] at *; omega
  · obtain ⟨r, rfl⟩ : ∃ r, t = r + 1 := ⟨t - 1, by omega⟩
    have h2 := mt (h r).2 (by omega)
    rw [Nat.add_mul, Nat.mul_assoc] at h2
    rw [Nat.add_mul] at *
    generalize r * D = x at *
    omega

/-- The error: at most half a unit in the last place. -/
theorem rq_error (h : F.OK) {N D : Nat} (hD : 0 < D) (hn : F.rq N D < F.infBits) :
    2 ^ F.p * ((N : Int) - (F.mag (F.rq N D) * D : Nat)).natAbs ≤ N ∨ 2 * ((N : Int) - (F.mag (F.rq N D) * D : Nat)).natAbs ≤ D := by
  have hpp := h.pow_p
  obtain ⟨k, hk⟩ : ∃ k, F.Expo N D k := ⟨_, expo_log h hD⟩
  have e := rq_eq h hD hk
  have hDk : 0 < D * 2 ^ k := Nat.mul_pos hD (Nat.two_pow_pos _)
  have h1 : rnd N (D * 2 ^ k) ≤ 2 ^ F.p := rnd_le hDk (by
    have := hk.1; rw [Nat.pow_add] at this
    rw [Nat.mul_comm (2 ^ F.p), Nat.mul_assoc]; omega)
  have e2 : F.rq N D = k * 2 ^ (F.p - 1) + rnd N (D * 2 ^ k) := by omega
  have hP := Nat.two_pow_pos (F.p - 1)
  have hm : F.mag (F.rq N D) = rnd N (D * 2 ^ k) * 2 ^ k := by
    rw [e2]
    rcases Nat.lt_or_ge (rnd N (D * 2 ^ k)) (2 * 2 ^ (F.p - 1)) with hlt | hge
    · refine mag_of F hlt (hk.2.imp_right fun h0 => ?_)
      refine rnd_ge hDk ?_
      have hp := h.p3
      rw [show k + F.p - 1 = k + (F.p - 1) by omega, Nat.pow_add] at h0
      rw [Nat.mul_comm (2 ^ (F.p - 1)), Nat.mul_assoc]; exact h0
    · have e3 : rnd N (D * 2 ^ k) = (2 * 2 ^ (F.p - 1) - 1) + 1 := by omega
      rw [e3, ← Nat.add_assoc]
      exact mag_next F (by omega) (.inr (by omega))
  have hh := rnd_half (N := N) hDk
  rw [show rnd N (D * 2 ^ k) * (D * 2 ^ k) = F.mag (F.rq N D) * D by rw [hm]; grind] at hh
  rcases hk.2 with h0 | h0
  · right; rw [h0] at hh; simpa using hh
  · left
    have hp := h.p3
    rw [show k + F.p - 1 = k + (F.p - 1) by omega, Nat.pow_add] at h0
    generalize ((N : Int) - (F.mag (F.rq N D) * D : Nat)).natAbs = x at *
    have := Nat.mul_le_mul_left (2 ^ (F.p - 1)) hh
    calc 2 ^ F.p * x = 2 ^ (F.p - 1) * (2 * x) := by rw [hpp]; grind
      _ ≤ 2 ^ (F.p - 1) * (D * 2 ^ k) := this
      _ = D * (2 ^ k * 2 ^ (F.p - 1)) := by grind
      _ ≤ N := h0

/-! ### As rational numbers -/

theorem two_ne : (2 : Rat) ≠ 0 := by decide

theorem zpow_pos (k : Int) : (0 : Rat) < 2 ^ k := Rat.zpow_pos (by decide)

theorem abs_div_int (A : Int) {K : Rat} (hK : 0 < K) : ((A : Rat) / K).abs = ((A.natAbs : Nat) : Rat) / K := by
  have hi : (0 : Rat) < K⁻¹ := Rat.inv_pos.2 hK
  have e : ((A.natAbs : Nat) : Rat) = if 0 ≤ A then (A : Rat) else -(A : Rat) := by
    split
    · next h =>
      rw [← Rat.intCast_natCast]; congr 1; omega
    · next h =>
      rw [← Rat.intCast_natCast, ← Rat.intCast_neg]; congr 1; omega
  rw [e, Rat.div_def, Rat.div_def]
  split
  · next h =>
    have : (0 : Rat) ≤ (A : Rat) * K⁻¹ := Rat.mul_nonneg (by exact_mod_cast h) (Rat.le_of_lt hi)
    grind [Rat.abs]
  · next h =>
    have h' : (0 : Rat) ≤ -(A : Rat) := by
      have : A ≤ 0 := by omega
      have : (A : Rat) ≤ 0 := by exact_mod_cast this
      grind
    have : (0 : Rat) ≤ -(A : Rat) * K⁻¹ := Rat.mul_nonneg h' (Rat.le_of_lt hi)
    grind [Rat.abs]

theorem div_le_div_iff {a b K : Rat} (hK : 0 < K) : a / K ≤ b / K ↔ a ≤ b := by
  rw [← Rat.not_lt, ← Rat.not_lt, Rat.div_lt_iff hK, Rat.div_mul_cancel (by grind)]

theorem div_lt_div_iff {a b K : Rat} (hK : 0 < K) : a / K < b / K ↔ a < b := by
  rw [Rat.div_lt_iff hK, Rat.div_mul_cancel (by grind)]

theorem rat_units (h : F.OK) (b : Nat) : F.rat b = (F.units b).map fun u : Int => (u : Rat) / (2 ^ F.low : Nat) := by
  unfold Fmt.rat Fmt.units
  cases hd : F.decode b with
  | nan => rfl
  | inf s => rfl
  | fin s m e =>
    obtain ⟨i, hi⟩ : ∃ i : Nat, e = F.emin + i := ⟨(e - F.emin).toNat, by have := decode_low hd; omega⟩
    simp only [Option.map_some, Option.some.injEq]
    rw [hi, show (F.emin + i - F.emin).toNat = i by omega, Rat.zpow_add two_ne, h.emin, Rat.zpow_neg, Rat.zpow_natCast, Rat.zpow_natCast]
    rw [Rat.div_def, Rat.intCast_mul, Rat.intCast_pow, Rat.natCast_pow]
    grind

theorem div_congr {a b c d : Rat} (hb : b ≠ 0) (hd : d ≠ 0) (e : a * d = c * b) : a / b = c / d := by
  have h1 : a = a / b * b := (Rat.div_mul_cancel hb).symm
  have h2 : c = c / d * d := (Rat.div_mul_cancel hd).symm
  generalize a / b = x at *
  generalize c / d = y at *
  subst h1 h2
  have h3 : (x - y) * (b * d) = 0 := by grind
  rcases Rat.mul_eq_zero.1 h3 with h | h
  · grind
  · rcases Rat.mul_eq_zero.1 h with h | h
    · exact absurd h hb
    · exact absurd h hd

theorem cast_pos {n : Nat} (h : 0 < n) : (0 : Rat) < (n : Rat) := Rat.natCast_pos.2 h

theorem limit_eq (h : F.OK) : F.limit = (F.end2 : Rat) / (2 * 2 ^ F.low : Nat) := by
  have hp := h.p3
  have hw := h.two
  have hw2 : 2 ≤ 2 ^ (F.w - 1) := by
    have := h.w2
    calc 2 = 2 ^ 1 := rfl
      _ ≤ _ := Nat.pow_le_pow_right (by omega) (by omega)
  have e : ((2 ^ (F.w - 1) : Nat) : Int) = (2 : Int) ^ (F.w - 1) := by simp
  have e2 : (((2 ^ F.w - 3 : Nat) : Nat) : Int) = (2 : Int) ^ (F.w - 1) - 1 - F.p + ((1 + F.low : Nat) : Int) := by
    rw [← e]; unfold Fmt.low; omega
  have e3 : ((2 ^ (2 ^ F.w - 3) : Nat) : Rat) = 2 ^ ((2 : Int) ^ (F.w - 1) - 1 - F.p) * ((2 * 2 ^ F.low : Nat) : Rat) := by
    have : ((2 ^ (2 ^ F.w - 3) : Nat) : Rat) = (2 : Rat) ^ ((2 ^ F.w - 3 : Nat) : Int) := by
      rw [Rat.zpow_natCast, Rat.natCast_pow]; rfl
    rw [this, e2, Rat.zpow_add two_ne, Rat.zpow_natCast]
    congr 1
    rw [← Nat.pow_succ', Rat.natCast_pow, Nat.add_comm]; rfl
  have hU : ((2 * 2 ^ F.low : Nat) : Rat) ≠ 0 := by
    have := cast_pos (show 0 < 2 * 2 ^ F.low by have := Nat.two_pow_pos F.low; omega)
    grind
  unfold Fmt.limit Fmt.end2
  rw [Rat.natCast_mul, e3, ← Rat.mul_assoc, Rat.mul_div_cancel hU]

theorem sign_even (h : F.OK) : F.signBit % 2 = 0 := by
  have hp := h.p3
  unfold Fmt.signBit
  rw [show F.p + F.w - 1 = (F.p + F.w - 2) + 1 by omega, Nat.pow_succ]; omega

theorem two_sign (h : F.OK) : 2 ^ (F.p + F.w) = 2 * F.signBit := by
  have hp := h.p3
  unfold Fmt.signBit
  rw [← Nat.pow_succ']; congr 1; omega

theorem rat_signed (h : F.OK) {s : Bool} {n : Nat} (hn : n < F.infBits) :
    F.rat (F.signed s n) = some ((sgn s (F.mag n) : Rat) / (2 ^ F.low : Nat)) := by
  have := inf_lt_sign h
  rw [rat_units h, units_signed h (by omega), if_pos hn]
  rfl

theorem rat_some (h : F.OK) {b : Nat} {w : Rat} (hb : b < 2 * F.signBit) (hw : F.rat b = some w) :
    ∃ s n, n < F.infBits ∧ b = F.signed s n ∧ w = (sgn s (F.mag n) : Rat) / (2 ^ F.low : Nat) := by
  obtain ⟨s, n, hn, rfl⟩ := exists_signed hb
  rw [rat_units h, units_signed h hn] at hw
  split at hw
  · next hi => exact ⟨s, n, hi, rfl, by simpa using hw.symm⟩
  · simp at hw

theorem low_pos (F : Fmt) : (0 : Rat) < ((2 ^ F.low : Nat) : Rat) := cast_pos (Nat.two_pow_pos _)

theorem sgn_natAbs (v : Int) : sgn (decide (v < 0)) v.natAbs = v := by
  by_cases h : v < 0 <;> simp [sgn, h] <;> omega

theorem diff_div (s t : Bool) (N M : Nat) {D U : Nat} (hD : 0 < D) (hU : 0 < U) :
    (sgn s N : Rat) / (D * U : Nat) - (sgn t M : Rat) / (U : Nat) = ((sgn s N - sgn t (M * D) : Int) : Rat) / (D * U : Nat) := by
  have h1 := cast_pos hU
  have h2 := cast_pos (Nat.mul_pos hD hU)
  have e : (sgn t M : Rat) / (U : Nat) = (sgn t (M * D) : Rat) / (D * U : Nat) := by
    refine div_congr (by grind) (by grind) ?_
    rw [← Rat.intCast_natCast, ← Rat.intCast_natCast, ← Rat.intCast_mul, ← Rat.intCast_mul, Rat.intCast_inj]
    cases t <;> simp [sgn] <;> grind
  rw [e, Rat.intCast_sub, Rat.div_def, Rat.div_def, Rat.div_def]
  grind

/-- The bits that `rq` gives are those of the quotient, correctly rounded. -/
theorem rounded_of (h : F.OK) {s : Bool} {N D : Nat} (hD : 0 < D) {e : Rat} (he : e = (sgn s N : Rat) / (D * 2 ^ F.low : Nat)) :
    F.Rounded e (F.signed s (F.rq N D)) := by
  have hU : 0 < 2 ^ F.low := Nat.two_pow_pos _
  have hDU : 0 < D * 2 ^ F.low := Nat.mul_pos hD hU
  have hDU' := cast_pos hDU
  have hi := inf_pos h
  have hlt := inf_lt_sign h
  have hse := sign_even h
  have habs : e.abs = (N : Rat) / (D * 2 ^ F.low : Nat) := by
    rw [he, abs_div_int _ hDU', natAbs_sgn]
  have hfin : e.abs < F.limit ↔ F.rq N D < F.infBits := by
    rw [rq_finite h hD, habs, limit_eq h]
    have h2 : (0 : Rat) < ((2 * (D * 2 ^ F.low) : Nat) : Rat) := cast_pos (by omega)
    have h3 : (0 : Rat) < ((2 * 2 ^ F.low : Nat) : Rat) := cast_pos (by omega)
    have e1 : (N : Rat) / (D * 2 ^ F.low : Nat) = ((2 * N : Nat) : Rat) / (2 * (D * 2 ^ F.low) : Nat) :=
      div_congr (by grind) (by grind) (by rw [← Rat.natCast_mul, ← Rat.natCast_mul]; congr 1; grind)
    have e2 : (F.end2 : Rat) / (2 * 2 ^ F.low : Nat) = ((F.end2 * D : Nat) : Rat) / (2 * (D * 2 ^ F.low) : Nat) :=
      div_congr (by grind) (by grind) (by rw [← Rat.natCast_mul, ← Rat.natCast_mul]; congr 1; grind)
    rw [e1, e2, div_lt_div_iff h2, Rat.natCast_lt_natCast]
  have hout : ¬ e.abs < F.limit → F.rq N D = F.infBits := fun hx => by
    have := rq_le_inf F N D
    have := mt hfin.2 hx
    omega
  have hlim : 0 < F.limit := by
    rw [limit_eq h, Rat.div_def]
    refine Rat.mul_pos (cast_pos ?_) (Rat.inv_pos.2 (cast_pos (by omega)))
    unfold Fmt.end2
    refine Nat.mul_pos ?_ (Nat.two_pow_pos _)
    have := Nat.pow_le_pow_right (show 0 < 2 by omega) (show 1 ≤ F.p + 1 by omega)
    omega
  refine ⟨fun hx => ?_, fun hx => ?_, fun hx => ?_⟩
  · have hn := hfin.1 hx
    refine ⟨_, rat_signed h hn, fun k w hk hw => ?_⟩
    rw [two_sign h] at hk
    obtain ⟨t, c, hc, rfl, rfl⟩ := rat_some h hk hw
    have e1 : e - (sgn s (F.mag (F.rq N D)) : Rat) / (2 ^ F.low : Nat) =
        ((sgn s N - sgn s (F.mag (F.rq N D) * D) : Int) : Rat) / (D * 2 ^ F.low : Nat) := by
      rw [he]; exact diff_div s s N _ hD hU
    have e2 : e - (sgn t (F.mag c) : Rat) / (2 ^ F.low : Nat) =
        ((sgn s N - sgn t (F.mag c * D) : Int) : Rat) / (D * 2 ^ F.low : Nat) := by
      rw [he]; exact diff_div s t N _ hD hU
    obtain ⟨n1, n2⟩ := rq_near h hD hn c
    have hpar : F.signed s (F.rq N D) % 2 = F.rq N D % 2 := by
      unfold Fmt.signed; split <;> omega
    rw [e1, e2, abs_div_int _ hDU', abs_div_int _ hDU', div_le_div_iff hDU', Rat.natCast_le_natCast, hpar]
    have hinj : ∀ x y : Nat, (x : Rat) / (D * 2 ^ F.low : Nat) = (y : Rat) / (D * 2 ^ F.low : Nat) → x = y := fun x y hxy => by
      have := Rat.div_mul_cancel (a := (x : Rat)) (b := (D * 2 ^ F.low : Nat)) (by grind)
      rw [hxy, Rat.div_mul_cancel (by grind)] at this
      exact Rat.natCast_inj.1 this.symm
    have hA : ((sgn s N - sgn s (F.mag (F.rq N D) * D) : Int)).natAbs = ((N : Int) - (F.mag (F.rq N D) * D : Nat)).natAbs := by
      cases s <;> simp only [sgn] <;> simp <;> omega
    have hC : ((sgn s N - sgn t (F.mag c * D) : Int)).natAbs = if s = t then ((N : Int) - (F.mag c * D : Nat)).natAbs else N + F.mag c * D := by
      cases s <;> cases t <;> simp only [sgn] <;> simp <;> omega
    rw [hA, hC]
    refine ⟨by split <;> omega, fun heq hne => ?_⟩
    have heq := hinj _ _ heq
    by_cases hcn : c = F.rq N D
    · subst hcn
      by_cases hst : s = t
      · exact absurd (by rw [hst]) hne
      · rw [if_neg hst] at heq
        have hm : F.mag (F.rq N D) ≠ 0 := by
          intro h0
          rw [h0] at hne
          exact hne (by cases s <;> cases t <;> rfl)
        have hmD : 0 < F.mag (F.rq N D) * D := Nat.mul_pos (by omega) hD
        have hN : N = 0 := by omega
        subst hN
        rw [rq_zero h hD]
    · refine n2 ?_ hcn
      split at heq <;> omega
  · have hs : s = false := by
      cases s
      · rfl
      · have : (sgn true N : Rat) / (D * 2 ^ F.low : Nat) ≤ 0 := by
          have h1 : ((sgn true N : Int) : Rat) ≤ 0 := Rat.intCast_nonpos.2 (by simp [sgn])
          have := (div_le_div_iff hDU').2 h1
          rw [Rat.div_def 0, Rat.zero_mul] at this
          exact this
        grind
    subst hs
    simp only [Fmt.signed]
    rw [hout (by grind [Rat.abs])]
    simp
  · have hs : s = true := by
      cases s
      · have : 0 ≤ (sgn false N : Rat) / (D * 2 ^ F.low : Nat) := by
          have h1 : (0 : Rat) ≤ ((sgn false N : Int) : Rat) := Rat.intCast_nonneg.2 (by simp [sgn])
          have := (div_le_div_iff hDU').2 h1
          rw [Rat.div_def 0, Rat.zero_mul] at this
          exact this
        grind
      · rfl
    subst hs
    simp only [Fmt.signed]
    rw [hout (by grind [Rat.abs])]
    simp

/-- The error of a correctly rounded result: at most one part in `2^p`, or half of the smallest number. -/
theorem Fmt.Rounded.error (h : F.OK) {e q : Rat} {b : Nat} (hr : F.Rounded e b) (he : e.abs < F.limit) (hq : F.rat b = some q) :
    2 ^ F.p * (e - q).abs ≤ e.abs ∨ 2 * (e - q).abs ≤ 2 ^ F.emin := by
  obtain ⟨q', hq', hnear⟩ := hr.1 he
  rw [hq] at hq'
  cases hq'
  -- the rounding of `e`
  have hden : 0 < e.den := e.den_pos
  have hU := low_pos F
  obtain ⟨N, hN⟩ : ∃ N, N = e.num.natAbs * 2 ^ F.low := ⟨_, rfl⟩
  have hDU := cast_pos (Nat.mul_pos hden (Nat.two_pow_pos F.low))
  have he' : e = ((sgn (decide (e.num < 0)) N : Int) : Rat) / (e.den * 2 ^ F.low : Nat) := by
    have h1 : e = (e.num : Rat) / (e.den : Rat) := by rw [← Rat.intCast_natCast, ← Rat.divInt_eq_div]; exact (Rat.num_divInt_den e).symm
    refine h1.trans (div_congr (by have := cast_pos hden; grind) (by grind) ?_)
    rw [← Rat.intCast_natCast, ← Rat.intCast_natCast, ← Rat.intCast_mul, ← Rat.intCast_mul, Rat.intCast_inj, hN, sgn_mul, sgn_natAbs]
    rw [Int.natCast_mul]
    grind
  have hfin : F.rq N e.den < F.infBits := by
    have hb := (rounded_of h hden he').1 he
    obtain ⟨q'', hq'', -⟩ := hb
    have hlt := inf_lt_sign h
    have hle := rq_le_inf F N e.den
    rw [rat_units h, units_signed h (by omega)] at hq''
    split at hq''
    · assumption
    · simp at hq''
  have hn := hnear _ _ (by
    rw [two_sign h]
    have hlt := inf_lt_sign h
    exact signed_lt (s := decide (e.num < 0)) (n := F.rq N e.den) (by omega)) (rat_signed h hfin)
  have hd : e - ((sgn (decide (e.num < 0)) (F.mag (F.rq N e.den)) : Int) : Rat) / (2 ^ F.low : Nat) =
      ((sgn (decide (e.num < 0)) N - sgn (decide (e.num < 0)) (F.mag (F.rq N e.den) * e.den) : Int) : Rat) / (e.den * 2 ^ F.low : Nat) := by
    conv => lhs; lhs; rw [he']
    exact diff_div _ _ N _ hden (Nat.two_pow_pos _)
  have hA : ((sgn (decide (e.num < 0)) N - sgn (decide (e.num < 0)) (F.mag (F.rq N e.den) * e.den) : Int)).natAbs =
      ((N : Int) - (F.mag (F.rq N e.den) * e.den : Nat)).natAbs := by
    cases decide (e.num < 0) <;> simp only [sgn] <;> simp <;> omega
  have hle := hn.1
  rw [hd, abs_div_int _ hDU, hA] at hle
  have habs : e.abs = (N : Rat) / (e.den * 2 ^ F.low : Nat) := by
    conv => lhs; rw [he']
    rw [abs_div_int _ hDU, natAbs_sgn]
  have hi : (0 : Rat) ≤ ((e.den * 2 ^ F.low : Nat) : Rat)⁻¹ := Rat.le_of_lt (Rat.inv_pos.2 hDU)
  rcases rq_error h hden hfin with hx | hx
  · left
    generalize ((N : Int) - (F.mag (F.rq N e.den) * e.den : Nat)).natAbs = x at *
    have hx' : ((2 ^ F.p * x : Nat) : Rat) / (e.den * 2 ^ F.low : Nat) ≤ (N : Rat) / (e.den * 2 ^ F.low : Nat) :=
      (div_le_div_iff hDU).2 (Rat.natCast_le_natCast.2 hx)
    rw [habs]
    refine Rat.le_trans ?_ hx'
    rw [Rat.natCast_mul, Rat.natCast_pow, Rat.div_def, Rat.mul_assoc, ← Rat.div_def]
    exact Rat.mul_le_mul_of_nonneg_left hle (Rat.le_of_lt (Rat.pow_pos (by decide)))
  · right
    generalize ((N : Int) - (F.mag (F.rq N e.den) * e.den : Nat)).natAbs = x at *
    have hx' : ((2 * x : Nat) : Rat) / (e.den * 2 ^ F.low : Nat) ≤ (e.den : Rat) / (e.den * 2 ^ F.low : Nat) :=
      (div_le_div_iff hDU).2 (Rat.natCast_le_natCast.2 hx)
    have e1 : (e.den : Rat) / (e.den * 2 ^ F.low : Nat) = 2 ^ F.emin := by
      have : (2 : Rat) ^ F.emin = 1 / ((2 ^ F.low : Nat) : Rat) := by
        rw [h.emin, Rat.zpow_neg, Rat.zpow_natCast, Rat.natCast_pow, Rat.div_def, Rat.one_mul]; rfl
      rw [this]
      exact div_congr (by grind) (by grind) (by rw [Rat.natCast_mul]; grind)
    rw [e1] at hx'
    refine Rat.le_trans ?_ hx'
    rw [Rat.natCast_mul, Rat.div_def, Rat.mul_assoc, ← Rat.div_def]
    exact Rat.mul_le_mul_of_nonneg_left hle (by decide)

/-! ### The operations -/

theorem add_rounded (h : F.OK) {a b : Nat} (ha : a < 2 * F.signBit) (hb : b < 2 * F.signBit) {x y : Rat} (hx : F.rat a = some x)
    (hy : F.rat b = some y) : F.Rounded (x + y) (F.add a b) := by
  obtain ⟨s, m, hm, rfl, rfl⟩ := rat_some h ha hx
  obtain ⟨t, n, hn, rfl, rfl⟩ := rat_some h hb hy
  have hU := low_pos F
  have e : (sgn s (F.mag m) : Rat) / (2 ^ F.low : Nat) + (sgn t (F.mag n) : Rat) / (2 ^ F.low : Nat) =
      ((sgn s (F.mag m) + sgn t (F.mag n) : Int) : Rat) / (1 * 2 ^ F.low : Nat) := by
    rw [Nat.one_mul, Rat.intCast_add, Rat.div_def, Rat.div_def, Rat.div_def]; grind
  rw [e, add_mag h hm hn]
  generalize sgn s (F.mag m) + sgn t (F.mag n) = v
  split
  · next h0 =>
    subst h0
    have := rounded_of h (s := s && t) (N := 0) (D := 1) (by omega) rfl
    rw [rq_zero h (by omega)] at this
    rwa [show sgn (s && t) 0 = 0 by simp [sgn]] at this
  · exact rounded_of h (by omega) (by rw [sgn_natAbs])

theorem sub_rounded (h : F.OK) {a b : Nat} (ha : a < 2 * F.signBit) (hb : b < 2 * F.signBit) {x y : Rat} (hx : F.rat a = some x)
    (hy : F.rat b = some y) : F.Rounded (x - y) (F.sub a b) := by
  obtain ⟨s, m, hm, rfl, rfl⟩ := rat_some h ha hx
  obtain ⟨t, n, hn, rfl, rfl⟩ := rat_some h hb hy
  have hi := inf_lt_sign h
  rw [sub_mag h hn]
  have hlt : F.signed (!t) n < 2 * F.signBit := by unfold Fmt.signed; split <;> omega
  have := add_rounded h ha hlt hx (rat_signed h hn)
  have e : (sgn (!t) (F.mag n) : Rat) = -(sgn t (F.mag n) : Rat) := by
    rw [← Rat.intCast_neg]; cases t <;> simp [sgn]
  rw [e] at this
  rw [show (sgn s (F.mag m) : Rat) / (2 ^ F.low : Nat) - (sgn t (F.mag n) : Rat) / (2 ^ F.low : Nat) =
    (sgn s (F.mag m) : Rat) / (2 ^ F.low : Nat) + -(sgn t (F.mag n) : Rat) / (2 ^ F.low : Nat) by
      rw [Rat.div_def, Rat.div_def, Rat.div_def]; grind]
  exact this

theorem sgn_prod (s t : Bool) (m n : Nat) : sgn (s != t) (m * n) = sgn s m * sgn t n := by
  cases s <;> cases t <;> simp [sgn] <;> grind

theorem mul_rounded (h : F.OK) {a b : Nat} (ha : a < 2 * F.signBit) (hb : b < 2 * F.signBit) {x y : Rat} (hx : F.rat a = some x)
    (hy : F.rat b = some y) : F.Rounded (x * y) (F.mul a b) := by
  obtain ⟨s, m, hm, rfl, rfl⟩ := rat_some h ha hx
  obtain ⟨t, n, hn, rfl, rfl⟩ := rat_some h hb hy
  have hU := low_pos F
  rw [mul_mag h hm hn]
  refine rounded_of h (Nat.two_pow_pos _) ?_
  rw [sgn_prod, Rat.intCast_mul, Rat.natCast_mul, Rat.div_def, Rat.div_def, Rat.div_def, Rat.inv_mul_rev]
  generalize ((2 ^ F.low : Nat) : Rat)⁻¹ = i
  grind

theorem div_rounded (h : F.OK) {a b : Nat} (ha : a < 2 * F.signBit) (hb : b < 2 * F.signBit) {x y : Rat} (hx : F.rat a = some x)
    (hy : F.rat b = some y) (hy0 : y ≠ 0) : F.Rounded (x / y) (F.div a b) := by
  obtain ⟨s, m, hm, rfl, rfl⟩ := rat_some h ha hx
  obtain ⟨t, n, hn, rfl, rfl⟩ := rat_some h hb hy
  have hU := low_pos F
  have hn0 : 0 < n := by
    rcases Nat.eq_zero_or_pos n with h0 | h0
    · subst h0
      refine absurd ?_ hy0
      rw [mag_zero, show sgn t 0 = 0 by simp [sgn], Rat.div_def]; grind
    · exact h0
  have hmp := (mag_pos F).2 hn0
  have hmp' := cast_pos hmp
  rw [div_mag h hm hn hn0]
  refine rounded_of h hmp ?_
  refine div_congr hy0 (by have := cast_pos (Nat.mul_pos hmp (Nat.two_pow_pos F.low)); grind) ?_
  have e1 : (sgn (s != t) (F.mag m * 2 ^ F.low) : Int) * sgn t (F.mag n) = sgn s (F.mag m) * (F.mag n * 2 ^ F.low : Nat) := by
    cases s <;> cases t <;> simp [sgn] <;> grind
  have e2 : ((sgn (s != t) (F.mag m * 2 ^ F.low) : Int) : Rat) * (sgn t (F.mag n) : Rat) = (sgn s (F.mag m) : Rat) * ((F.mag n * 2 ^ F.low : Nat) : Rat) := by
    rw [← Rat.intCast_mul, e1, Rat.intCast_mul]; rfl
  rw [Rat.div_def, Rat.div_def]
  grind

theorem convert_rounded {G : Fmt} (h : F.OK) (hG : G.OK) {a : Nat} (ha : a < 2 * F.signBit) {x : Rat} (hx : F.rat a = some x) :
    G.Rounded x (F.convert G a) := by
  obtain ⟨s, m, hm, rfl, rfl⟩ := rat_some h ha hx
  have hU := low_pos F
  rw [convert_mag h hG hm]
  refine rounded_of hG (Nat.two_pow_pos _) ?_
  refine div_congr (by grind) (by have := cast_pos (Nat.mul_pos (Nat.two_pow_pos F.low) (Nat.two_pow_pos G.low)); grind) ?_
  rw [← Rat.intCast_natCast, ← Rat.intCast_natCast, ← Rat.intCast_mul, ← Rat.intCast_mul, Rat.intCast_inj]
  cases s <;> simp [sgn] <;> grind

theorem ofInt_rounded (h : F.OK) (n : Int) : F.Rounded n (F.ofInt n) := by
  have hU := low_pos F
  rw [Fmt.ofInt, round_any h (x := F.low) (y := 0) (he := by rw [h.emin]; omega)]
  refine rounded_of h (by decide) ?_
  have e : (n : Rat) = (n : Rat) * ((2 ^ F.low : Nat) : Rat) / ((2 ^ F.low : Nat) : Rat) := by rw [Rat.mul_div_cancel (by grind)]
  rw [Nat.pow_zero, Nat.one_mul]
  refine e.trans ?_
  congr 1
  rw [← Rat.intCast_natCast, ← Rat.intCast_mul, Rat.intCast_inj]
  have := sgn_natAbs n
  by_cases h0 : n < 0
  · simp only [h0, decide_true, sgn, if_pos] at *
    rw [Int.natCast_mul, ← Int.neg_mul, this]
  · simp only [h0, decide_false, sgn] at *
    simp only [Bool.false_eq_true, if_false] at *
    rw [Int.natCast_mul, this]

end Aitisa
