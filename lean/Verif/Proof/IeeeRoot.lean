import Verif.Proof.IeeeNear
import Verif.Proof.IeeeSqrt

/-!
# IEEE square roots are correctly rounded
-/

namespace Aitisa

variable {F : Fmt}

theorem sq_lt_iff {a b : Nat} : a * a < b * b ↔ a < b := by
  constructor
  · intro h
    rcases Nat.lt_or_ge a b with h' | h'
    · exact h'
    · exact absurd (Nat.mul_le_mul h' h') (by omega)
  · intro h; exact Nat.mul_lt_mul_of_lt_of_le h (Nat.le_of_lt h) (by omega)

theorem sq_inj {a b : Nat} : a * a = b * b ↔ a = b := by
  constructor
  · intro h
    rcases Nat.lt_trichotomy a b with h' | h' | h'
    · have := sq_lt_iff.2 h'; omega
    · exact h'
    · have := sq_lt_iff.2 h'; omega
  · rintro rfl; rfl

theorem sq_le_iff {a b : Nat} : a * a ≤ b * b ↔ a ≤ b := by
  have := @sq_lt_iff b a; omega

/-- Comparing `2 * √n` with the middle between two neighbours: the integer part and the sticky bit tell all. -/
theorem root_test (h : F.OK) {n r v x y b : Nat} (hn : 2 ^ (F.p + 2) * 2 ^ (F.p + 2) ≤ n) (h1 : r * r ≤ n) (h2 : n < (r + 1) * (r + 1))
    (hv : v = 2 * r + (if r * r = n then 0 else 1)) {M : Nat} (hM : M = F.mag b + F.mag (b + 1)) :
    (2 * (v * 2 ^ x) < M * 2 ^ y ↔ 16 * n * (2 ^ x * 2 ^ x) < M * M * (2 ^ y * 2 ^ y)) ∧
      (2 * (v * 2 ^ x) = M * 2 ^ y ↔ 16 * n * (2 ^ x * 2 ^ x) = M * M * (2 ^ y * 2 ^ y)) := by
  obtain ⟨k, q, rfl, hq, hk⟩ := mag_rep F b
  have hMq : M = (2 * q + 1) * 2 ^ k := by rw [hM, mag_of F hq hk, mag_next F hq hk, ← Nat.add_mul]; congr 1; omega
  have hX : 0 < 2 ^ x := Nat.two_pow_pos _
  have hsq : M * M * (2 ^ y * 2 ^ y) = (M * 2 ^ y) * (M * 2 ^ y) := by grind
  rw [hsq]
  rcases Nat.lt_or_ge (k + y) (x + 2) with hlt | hge
  · have hb : M * 2 ^ y < 2 ^ (F.p + 2) * 2 ^ x := by
      have e : M * 2 ^ y = (2 * q + 1) * 2 ^ (k + y) := by rw [hMq, Nat.mul_assoc, ← Nat.pow_add]
      have l1 : 2 ^ (k + y) ≤ 2 ^ (x + 1) := Nat.pow_le_pow_right (by omega) (by omega)
      have l2 : 2 * q + 1 < 2 ^ (F.p + 1) := by
        have := h.pow_p
        rw [Nat.pow_succ]; omega
      calc M * 2 ^ y = (2 * q + 1) * 2 ^ (k + y) := e
        _ < 2 ^ (F.p + 1) * 2 ^ (x + 1) := Nat.mul_lt_mul_of_lt_of_le l2 l1 (Nat.two_pow_pos _)
        _ = 2 ^ (F.p + 2) * 2 ^ x := by rw [← Nat.pow_add, ← Nat.pow_add]; congr 1; omega
    have hr : 2 ^ (F.p + 2) ≤ r := by
      have := sq_lt_iff.1 (Nat.lt_of_le_of_lt hn h2); omega
    have c1 : 2 ^ (F.p + 2) * 2 ^ x ≤ v * 2 ^ x := Nat.mul_le_mul_right _ (by omega)
    have c2 : (M * 2 ^ y) * (M * 2 ^ y) < 2 ^ (F.p + 2) * 2 ^ x * (2 ^ (F.p + 2) * 2 ^ x) := sq_lt_iff.2 hb
    have c3 : 2 ^ (F.p + 2) * 2 ^ x * (2 ^ (F.p + 2) * 2 ^ x) = 2 ^ (F.p + 2) * 2 ^ (F.p + 2) * (2 ^ x * 2 ^ x) := by grind
    have c4 := Nat.mul_le_mul_right (2 ^ x * 2 ^ x) hn
    have c5 : 16 * n * (2 ^ x * 2 ^ x) = 16 * (n * (2 ^ x * 2 ^ x)) := Nat.mul_assoc ..
    constructor <;> constructor <;> intro <;> omega
  · obtain ⟨t, ht⟩ : ∃ t, t = (2 * q + 1) * 2 ^ (k + y - x - 2) := ⟨_, rfl⟩
    have e : M * 2 ^ y = 4 * t * 2 ^ x := by
      rw [hMq, ht, Nat.mul_assoc, ← Nat.pow_add, show k + y = 2 + (k + y - x - 2) + x by omega, Nat.pow_add, Nat.pow_add]
      grind
    have e2 : 4 * t * 2 ^ x * (4 * t * 2 ^ x) = 16 * (t * t) * (2 ^ x * 2 ^ x) := by grind
    have e3 : 2 * (v * 2 ^ x) = 2 * v * 2 ^ x := (Nat.mul_assoc ..).symm
    have hXX : 0 < 2 ^ x * 2 ^ x := Nat.mul_pos hX hX
    rw [e, e2, e3, Nat.mul_lt_mul_right hX, Nat.mul_lt_mul_right hXX, Nat.mul_right_cancel_iff hX, Nat.mul_right_cancel_iff hXX]
    have t1 : v < 2 * t ↔ n < t * t := by
      rcases Nat.lt_or_ge r t with h | h
      · have := Nat.mul_le_mul (show r + 1 ≤ t by omega) (show r + 1 ≤ t by omega)
        constructor
        · intro; omega
        · intro; split at hv <;> omega
      · have := Nat.mul_le_mul h h
        constructor <;> intro <;> omega
    have t2 : v = 2 * t ↔ n = t * t := by
      constructor
      · intro h
        split at hv
        · next h0 => rw [← h0]; congr 1 <;> omega
        · omega
      · intro h
        have a1 : r ≤ t := sq_le_iff.1 (by omega)
        have a2 : t < r + 1 := sq_lt_iff.1 (by omega)
        have : r = t := by omega
        subst this
        rw [if_pos h.symm] at hv
        omega
    omega

/-- Where a rounded square root lies. -/
theorem sqrt_mag (h : F.OK) {a : Nat} (ha : a < F.infBits) (ha0 : 0 < a) : ∃ R, F.sqrt (F.signed false a) = F.signed false R ∧
    ∀ b, b < F.infBits → (R ≤ b ↔ 4 * (F.mag a * 2 ^ F.low) < (F.mag b + F.mag (b + 1)) * (F.mag b + F.mag (b + 1)) ∨
      (4 * (F.mag a * 2 ^ F.low) = (F.mag b + F.mag (b + 1)) * (F.mag b + F.mag (b + 1)) ∧ b % 2 = 0)) := by
  obtain ⟨m, i, hd, hm⟩ := decode_mag (s := false) h ha
  have hm0 : m ≠ 0 := by
    rintro rfl
    have := (mag_pos F).2 ha0
    rw [← hm] at this; simp at this
  obtain ⟨e0, he0, he1⟩ : ∃ e0 : Nat, (F.emin + i) % 2 = e0 ∧ e0 < 2 := ⟨((F.emin + i) % 2).toNat, by omega, by omega⟩
  obtain ⟨g, hg⟩ : ∃ g : Int, F.emin + i - e0 = 2 * g := ⟨(F.emin + i - e0) / 2, by omega⟩
  obtain ⟨n, hn⟩ : ∃ n, n = m * 2 ^ (e0 + 2 * (F.p + 2)) := ⟨_, rfl⟩
  have hn0 : n ≠ 0 := by rw [hn]; exact Nat.mul_ne_zero hm0 (Nat.ne_of_gt (Nat.two_pow_pos _))
  obtain ⟨r, hr, h1, h2⟩ := isqrt_spec hn0
  have hem := h.emin
  obtain ⟨x, y, hxy⟩ : ∃ x y : Nat, g - (F.p + 3 : Nat) = F.emin + x - y := ⟨(g - (F.p + 3 : Nat) - F.emin).toNat, (-(g - (F.p + 3 : Nat) - F.emin)).toNat, by omega⟩
  have hnb : 2 ^ (F.p + 2) * 2 ^ (F.p + 2) ≤ n := by
    rw [hn, ← Nat.pow_add]
    exact Nat.le_trans (Nat.pow_le_pow_right (by omega) (by omega)) (Nat.le_mul_of_pos_left _ (by omega))
  refine ⟨F.rq ((2 * r + (if r * r = n then 0 else 1)) * 2 ^ x) (2 ^ y), ?_, fun b hb => ?_⟩
  · rw [Fmt.sqrt, hd]
    simp only [hm0, if_false, Bool.false_eq_true]
    rw [he0, Int.toNat_natCast, ← hn, hr, hg, show (2 * g) / 2 = g by omega, round_any h (he := hxy)]
  · obtain ⟨t1, t2⟩ := root_test h (x := x) (y := y) (b := b) hnb h1 h2 rfl rfl
    rw [rq_le_iff h (Nat.two_pow_pos _) hb, t1, t2]
    have e : 16 * n * (2 ^ x * 2 ^ x) = 4 * (F.mag a * 2 ^ F.low) * (2 ^ y * 2 ^ y) := by
      have : 16 * (m * 2 ^ (e0 + 2 * (F.p + 2))) * (2 ^ x * 2 ^ x) = 4 * m * 2 ^ (2 + (e0 + 2 * (F.p + 2)) + x + x) := by
        rw [Nat.pow_add, Nat.pow_add, Nat.pow_add]; grind
      rw [hn, this, ← hm]
      have : 4 * (m * 2 ^ i * 2 ^ F.low) * (2 ^ y * 2 ^ y) = 4 * m * 2 ^ (i + F.low + y + y) := by
        rw [Nat.pow_add, Nat.pow_add, Nat.pow_add]; grind
      rw [this]
      congr 2
      omega
    have hYY : 0 < 2 ^ y * 2 ^ y := Nat.mul_pos (Nat.two_pow_pos _) (Nat.two_pow_pos _)
    rw [e, Nat.mul_lt_mul_right hYY, Nat.mul_right_cancel_iff hYY]

theorem mag_lt_end2 (h : F.OK) {a : Nat} (ha : a < F.infBits) : 4 * (F.mag a * 2 ^ F.low) < F.end2 * F.end2 := by
  have hw := h.two
  have hw2 : 2 ≤ 2 ^ (F.w - 1) := by
    have := h.w2
    calc 2 = 2 ^ 1 := rfl
      _ ≤ _ := Nat.pow_le_pow_right (by omega) (by omega)
  have h1 : F.mag a < F.end2 := by
    rw [← end2_eq h]
    have := (mag_lt_iff F (a := a) (b := F.infBits)).2 ha
    omega
  have h2 : 4 * 2 ^ F.low ≤ F.end2 := by
    have h3 : 2 ^ (F.p + (2 ^ F.w - 3)) ≤ F.end2 := by
      unfold Fmt.end2
      rw [Nat.pow_add]
      refine Nat.mul_le_mul_right _ ?_
      have := Nat.two_pow_pos F.p
      rw [Nat.pow_succ]; omega
    refine Nat.le_trans ?_ h3
    rw [show 4 * 2 ^ F.low = 2 ^ (2 + F.low) by rw [Nat.pow_add]]
    exact Nat.pow_le_pow_right (by omega) (by unfold Fmt.low; have := h.p3; omega)
  calc 4 * (F.mag a * 2 ^ F.low) = F.mag a * (4 * 2 ^ F.low) := by grind
    _ < F.end2 * F.end2 := Nat.mul_lt_mul_of_lt_of_le h1 h2 (by omega)

/-- Bits with the property of `sqrt_mag` are those of a correctly rounded root. `W` is the number of units times the units in 1. -/
theorem root_of (h : F.OK) {R W : Nat} {x : Rat} (hR : ∀ b, b < F.infBits → (R ≤ b ↔ 4 * W < (F.mag b + F.mag (b + 1)) * (F.mag b + F.mag (b + 1)) ∨
      (4 * W = (F.mag b + F.mag (b + 1)) * (F.mag b + F.mag (b + 1)) ∧ b % 2 = 0)))
    (hW : 4 * W < F.end2 * F.end2) (hx : x = (W : Rat) / (2 ^ F.low * 2 ^ F.low : Nat)) : F.RootRounded x (F.signed false R) := by
  have hi := inf_pos h
  have hfin : R < F.infBits := by
    have := hR (F.infBits - 1) (by omega)
    rw [show F.infBits - 1 + 1 = F.infBits by omega, end2_eq h] at this
    have := this.2 (.inl hW)
    omega
  have hU := low_pos F
  have hUU : (0 : Rat) < ((2 ^ F.low * 2 ^ F.low : Nat) : Rat) := cast_pos (Nat.mul_pos (Nat.two_pow_pos _) (Nat.two_pow_pos _))
  have hpar : F.signed false R % 2 = R % 2 := by simp [Fmt.signed]
  refine ⟨_, rat_signed h hfin, ?_, fun k w hk hw hw0 => ?_⟩
  · rw [Rat.div_def]
    refine Rat.mul_nonneg (Rat.intCast_nonneg.2 (by simp [sgn])) (Rat.le_of_lt (Rat.inv_pos.2 hU))
  · rw [two_sign h] at hk
    obtain ⟨t, c, hc, rfl, hwc⟩ := rat_some h hk hw
    have hwc' : w = (F.mag c : Rat) / (2 ^ F.low : Nat) := by
      cases t
      · exact hwc
      · have : F.mag c = 0 := by
          rw [hwc] at hw0
          have h0 : (0 : Rat) / (2 ^ F.low : Nat) ≤ (sgn true (F.mag c) : Rat) / (2 ^ F.low : Nat) := by
            rw [Rat.div_def 0, Rat.zero_mul]; exact hw0
          have := Rat.intCast_nonneg.1 ((div_le_div_iff hU).1 h0)
          simp [sgn] at this; omega
        rw [hwc, this]; rfl
    have hq : ((sgn false (F.mag R) : Int) : Rat) / (2 ^ F.low : Nat) = (F.mag R : Rat) / (2 ^ F.low : Nat) := rfl
    rw [hq, hwc', hpar, div_lt_div_iff hU, div_lt_div_iff hU, Rat.natCast_lt_natCast, Rat.natCast_lt_natCast]
    have e1 : ((F.mag R : Rat) / (2 ^ F.low : Nat) + (F.mag c : Rat) / (2 ^ F.low : Nat)) * ((F.mag R : Rat) / (2 ^ F.low : Nat) + (F.mag c : Rat) / (2 ^ F.low : Nat)) =
        (((F.mag R + F.mag c) * (F.mag R + F.mag c) : Nat) : Rat) / (2 ^ F.low * 2 ^ F.low : Nat) := by
      rw [Rat.natCast_mul, Rat.natCast_mul, Rat.natCast_add, Rat.div_def, Rat.div_def, Rat.div_def, Rat.inv_mul_rev]
      generalize ((2 ^ F.low : Nat) : Rat)⁻¹ = i
      grind
    have e2 : 4 * x = ((4 * W : Nat) : Rat) / (2 ^ F.low * 2 ^ F.low : Nat) := by
      rw [hx, Rat.natCast_mul 4, Rat.div_def, Rat.div_def, Rat.mul_assoc]; rfl
    have hinj : ∀ x y : Nat, (x : Rat) / (2 ^ F.low * 2 ^ F.low : Nat) = (y : Rat) / (2 ^ F.low * 2 ^ F.low : Nat) → x = y := fun x y hxy => by
      have := Rat.div_mul_cancel (a := (x : Rat)) (b := (2 ^ F.low * 2 ^ F.low : Nat)) (by grind)
      rw [hxy, Rat.div_mul_cancel (by grind)] at this
      exact Rat.natCast_inj.1 this.symm
    rw [e1, e2, div_le_div_iff hUU, div_le_div_iff hUU, Rat.natCast_le_natCast, Rat.natCast_le_natCast]
    constructor
    · intro hlt
      have hlt := (mag_lt_iff F).1 hlt
      have hm := (mag_le_iff F (a := R + 1) (b := c)).2 (by omega)
      have hle := (hR R hfin).1 (Nat.le_refl _)
      have hs := sq_le_iff.2 (show F.mag R + F.mag (R + 1) ≤ F.mag R + F.mag c by omega)
      exact ⟨by omega, fun he => by have := hinj _ _ he; omega⟩
    · intro hlt
      have hlt := (mag_lt_iff F).1 hlt
      have hm := (mag_le_iff F (a := c) (b := R - 1)).2 (by omega)
      have hge := mt (hR (R - 1) (by omega)).2 (by omega)
      rw [show R - 1 + 1 = R by omega] at hge
      have hs := sq_le_iff.2 (show F.mag R + F.mag c ≤ F.mag (R - 1) + F.mag R by omega)
      exact ⟨by omega, fun he => by have := hinj _ _ he; omega⟩

theorem sqrt_rounded (h : F.OK) {a : Nat} (ha : a < 2 * F.signBit) {x : Rat} (hx : F.rat a = some x) (hx0 : 0 ≤ x) : F.RootRounded x (F.sqrt a) := by
  obtain ⟨s, m, hm, rfl, rfl⟩ := rat_some h ha hx
  have hU := low_pos F
  have hUU : (0 : Rat) < ((2 ^ F.low * 2 ^ F.low : Nat) : Rat) := cast_pos (Nat.mul_pos (Nat.two_pow_pos _) (Nat.two_pow_pos _))
  rcases Nat.eq_zero_or_pos m with h0 | h0
  · subst h0
    have e0 : ((sgn s (F.mag 0) : Int) : Rat) / (2 ^ F.low : Nat) = 0 := by
      rw [mag_zero, show sgn s 0 = 0 by simp [sgn], Rat.div_def, Rat.intCast_zero, Rat.zero_mul]
    have e1 : F.sqrt (F.signed s 0) = F.signed s 0 := by
      simp [Fmt.sqrt, decode_zero h]
    have hpar : F.signed s 0 % 2 = 0 := by
      have := sign_even h
      unfold Fmt.signed; split <;> omega
    rw [e0] at hx ⊢
    rw [e1]
    refine ⟨0, hx, by grind, fun k w _ _ hw => ⟨fun hlt => ⟨?_, fun _ => hpar⟩, fun hlt => by grind⟩⟩
    have := Rat.mul_nonneg hw hw
    grind
  · have hs : s = false := by
      cases s
      · rfl
      · have h0' : (0 : Rat) / (2 ^ F.low : Nat) ≤ (sgn true (F.mag m) : Rat) / (2 ^ F.low : Nat) := by
          rw [Rat.div_def 0, Rat.zero_mul]; exact hx0
        have := Rat.intCast_nonneg.1 ((div_le_div_iff hU).1 h0')
        have := (mag_pos F).2 h0
        simp [sgn] at *; omega
    subst hs
    obtain ⟨R, e, hR⟩ := sqrt_mag h hm h0
    rw [e]
    refine root_of h hR (mag_lt_end2 h hm) ?_
    refine div_congr (by grind) (by grind) ?_
    rw [← Rat.intCast_natCast, ← Rat.intCast_natCast, ← Rat.intCast_natCast, ← Rat.intCast_mul, ← Rat.intCast_mul, Rat.intCast_inj]
    simp [sgn]; grind

/-! ### Through `double` -/

/-- Every number with few bits is a magnitude. -/
theorem mag_hits (F : Fmt) : ∀ (j : Nat) {m : Nat}, m < 2 * 2 ^ (F.p - 1) → ∃ c, F.mag c = m * 2 ^ j
  | 0, m, hm => ⟨0 * 2 ^ (F.p - 1) + m, mag_of F hm (.inl rfl)⟩
  | j + 1, m, hm => by
    rcases Nat.lt_or_ge m (2 ^ (F.p - 1)) with h | h
    · obtain ⟨c, hc⟩ := mag_hits F j (m := 2 * m) (by omega)
      exact ⟨c, by rw [hc, Nat.pow_succ]; grind⟩
    · exact ⟨_, mag_of F hm (.inr h)⟩

theorem mag_gap (h : F.OK) {b E : Nat} (hb : F.mag b < 2 ^ (E + F.p)) : F.mag (b + 1) ≤ F.mag b + 2 ^ E := by
  obtain ⟨k, q, rfl, hq, hk⟩ := mag_rep F b
  rw [mag_of F hq hk] at *
  rw [mag_next F hq hk, Nat.succ_mul]
  have : k ≤ E := by
    rcases hk with h0 | h0
    · omega
    · have h1 : 2 ^ (F.p - 1 + k) < 2 ^ (E + F.p) := by
        rw [Nat.pow_add]; exact Nat.lt_of_le_of_lt (Nat.mul_le_mul_right _ h0) hb
      have := (Nat.pow_lt_pow_iff_right (by omega)).1 h1
      have := h.p3
      omega
  have := Nat.pow_le_pow_right (show 0 < 2 by omega) this
  omega

theorem mag_inf (h : F.OK) : F.mag F.infBits = 2 ^ (F.p + (2 ^ F.w - 3)) := by
  have hp := h.p3
  have hpp := h.pow_p
  have hw := h.two
  have hw2 : 2 ≤ 2 ^ (F.w - 1) := by
    have := h.w2
    calc 2 = 2 ^ 1 := rfl
      _ ≤ _ := Nat.pow_le_pow_right (by omega) (by omega)
  have e : F.infBits = (2 ^ F.w - 2) * 2 ^ (F.p - 1) + 2 ^ (F.p - 1) := by
    unfold Fmt.infBits
    rw [show 2 ^ F.w - 1 = (2 ^ F.w - 2) + 1 by omega, Nat.succ_mul]
  have := Nat.two_pow_pos (F.p - 1)
  rw [e, mag_of F (by omega) (.inr (Nat.le_refl _)), ← Nat.pow_add]
  congr 1; omega

/-- A root rounded to `G` compares with a number of few bits as the exact root does. -/
theorem root_side {R W c C z E : Nat} (h : F.OK) (hp : F.p = 53) (hR : ∀ b, b < F.infBits → (R ≤ b ↔ 4 * W < (F.mag b + F.mag (b + 1)) * (F.mag b + F.mag (b + 1)) ∨
      (4 * W = (F.mag b + F.mag (b + 1)) * (F.mag b + F.mag (b + 1)) ∧ b % 2 = 0)))
    (hc : c < F.infBits) (hC : F.mag c = C) (hz : C = z * 2 ^ (E + 28)) (hz0 : 0 < z) (hz1 : z < 2 ^ 25)
    (hW : (∃ u, 4 * W = u * 2 ^ (2 * E + 56)) ∨ 4 * W < C * C) :
    (R < c ↔ 4 * W < 2 * C * (2 * C)) ∧ (R = c ↔ 4 * W = 2 * C * (2 * C)) := by
  have hEp : 0 < 2 ^ E := Nat.two_pow_pos _
  have hClt : C < 2 ^ (E + F.p) := by
    rw [hz, hp, show E + 53 = 25 + (E + 28) by omega, Nat.pow_add 2 25]
    exact Nat.mul_lt_mul_of_pos_right hz1 (Nat.two_pow_pos _)
  have hCpos : 0 < C := by rw [hz]; exact Nat.mul_pos hz0 (Nat.two_pow_pos _)
  have hc0 : 0 < c := by
    rcases Nat.eq_zero_or_pos c with h0 | h0
    · rw [h0, mag_zero] at hC; omega
    · exact h0
  have g1 := mag_gap h (b := c) (by rw [hC]; exact hClt)
  have m1 := (mag_lt_iff F (a := c - 1) (b := c)).2 (by omega)
  have g2 := mag_gap h (b := c - 1) (E := E) (by omega)
  have m2 := (mag_lt_iff F (a := c) (b := c + 1)).2 (by omega)
  rw [show c - 1 + 1 = c by omega] at g2
  have r1 := hR (c - 1) (by omega)
  have r2 := hR c hc
  rw [show c - 1 + 1 = c by omega] at r1
  rw [hC] at *
  generalize F.mag (c - 1) = L at *
  generalize F.mag (c + 1) = H at *
  have hD : (2 : Nat) ^ (2 * E + 56) = 2 ^ E * (2 ^ E * 2 ^ 56) := by
    rw [← Nat.pow_add, ← Nat.pow_add]; congr 1; omega
  have hD2 : 2 ^ (E + F.p) = 2 ^ E * 2 ^ 53 := by rw [hp, Nat.pow_add]
  rw [hD2] at hClt
  generalize hgen : 2 ^ E = g at *
  -- the squares of the middles are close to the square of `2 * C`
  have b1 : 2 * C * (2 * C) < (L + C) * (L + C) + g * (g * 2 ^ 56) := by
    obtain ⟨d, hd⟩ : ∃ d, C = L + d := ⟨C - L, by omega⟩
    have hdg : d ≤ g := by omega
    have e : 2 * C * (2 * C) = (L + C) * (L + C) + d * (3 * C + L) := by subst hd; grind
    have : d * (3 * C + L) < g * (g * 2 ^ 56) := by
      refine Nat.lt_of_le_of_lt (Nat.mul_le_mul_right _ hdg) (Nat.mul_lt_mul_of_pos_left ?_ hEp)
      omega
    omega
  have b2 : (C + H) * (C + H) < 2 * C * (2 * C) + g * (g * 2 ^ 56) := by
    obtain ⟨d, hd⟩ : ∃ d, H = C + d := ⟨H - C, by omega⟩
    have hdg : d ≤ g := by omega
    have e : (C + H) * (C + H) = 2 * C * (2 * C) + d * (4 * C + d) := by subst hd; grind
    have : d * (4 * C + d) < g * (g * 2 ^ 56) := by
      refine Nat.lt_of_le_of_lt (Nat.mul_le_mul_right _ hdg) (Nat.mul_lt_mul_of_pos_left ?_ hEp)
      omega
    omega
  have b3 : (L + C) * (L + C) < 2 * C * (2 * C) := sq_lt_iff.2 (by omega)
  have b4 : 2 * C * (2 * C) < (C + H) * (C + H) := sq_lt_iff.2 (by omega)
  have b5 : C * C ≤ (L + C) * (L + C) := sq_le_iff.2 (by omega)
  have hCC : ∃ v, 2 * C * (2 * C) = v * (g * (g * 2 ^ 56)) := by
    refine ⟨z * z * 4, ?_⟩
    rw [hz, Nat.pow_add, hgen]; grind
  obtain ⟨v, hv⟩ := hCC
  rcases hW with ⟨u, hu⟩ | hlt
  · rw [hD] at hu
    generalize hG : g * (g * 2 ^ 56) = G at *
    have t : 4 * W < 2 * C * (2 * C) → 4 * W + G ≤ 2 * C * (2 * C) := fun h => by
      rw [hu, hv] at h ⊢
      have := Nat.lt_of_mul_lt_mul_right h
      rw [← Nat.succ_mul]; exact Nat.mul_le_mul_right _ this
    have t' : 2 * C * (2 * C) < 4 * W → 2 * C * (2 * C) + G ≤ 4 * W := fun h => by
      rw [hu, hv] at h ⊢
      have := Nat.lt_of_mul_lt_mul_right h
      rw [← Nat.succ_mul]; exact Nat.mul_le_mul_right _ this
    omega
  · omega

theorem four_pow (m i a b : Nat) : 4 * (m * 2 ^ (i + a) * 2 ^ b) = m * 2 ^ (i + (a + b + 2)) := by
  rw [Nat.pow_add 2 i (a + b + 2), Nat.pow_add 2 (a + b) 2, Nat.pow_add 2 a b, Nat.pow_add 2 i a]
  grind

theorem pow_split (m : Nat) {a b : Nat} (h : b ≤ a) : m * 2 ^ a = m * 2 ^ (a - b) * 2 ^ b := by
  rw [Nat.mul_assoc, ← Nat.pow_add]
  congr 2; omega

theorem b64_low : b64.low = 1074 := by decide

theorem b32_low : b32.low = 149 := by decide

/-- The square root of a `float` computed in `double` and converted back is the correctly rounded root. -/
theorem sqrt_through (a : Nat) (ha : a < b32.infBits) (ha0 : 0 < a) :
    ∃ r, b64.convert b32 (b64.sqrt (b32.convert b64 (b32.signed false a))) = b32.signed false r ∧
      ∀ b, b < b32.infBits → (r ≤ b ↔ 4 * (b32.mag a * 2 ^ b32.low) < (b32.mag b + b32.mag (b + 1)) * (b32.mag b + b32.mag (b + 1)) ∨
        (4 * (b32.mag a * 2 ^ b32.low) = (b32.mag b + b32.mag (b + 1)) * (b32.mag b + b32.mag (b + 1)) ∧ b % 2 = 0)) := by
  obtain ⟨i, m, rfl, hm, hi⟩ := mag_rep b32 a
  have hX := mag_of b32 hm hi
  have hXlt := (mag_lt_iff b32).2 ha
  rw [mag_inf b32_ok] at hXlt
  have hXpos := (mag_pos b32).2 ha0
  -- the operand as a double
  obtain ⟨A, hA⟩ : ∃ A, b64.mag A = m * 2 ^ (i + 925) :=
    mag_hits b64 _ (Nat.lt_of_lt_of_le hm (show 2 * 2 ^ (b32.p - 1) ≤ 2 * 2 ^ (b64.p - 1) by decide))
  have hAX : b64.mag A = b32.mag (i * 2 ^ (b32.p - 1) + m) * 2 ^ 925 := by rw [hA, hX, Nat.mul_assoc, ← Nat.pow_add]
  have hAi : A < b64.infBits := by
    rw [← mag_lt_iff b64, mag_inf b64_ok, hAX]
    have : 2 ^ (b32.p + (2 ^ b32.w - 3)) * 2 ^ 925 ≤ 2 ^ (b64.p + (2 ^ b64.w - 3)) := by
      rw [← Nat.pow_add]; exact Nat.pow_le_pow_right (by omega) (by decide)
    exact Nat.lt_of_lt_of_le (Nat.mul_lt_mul_of_pos_right hXlt (Nat.two_pow_pos _)) this
  have hA0 : 0 < A := by
    rw [← mag_pos b64, hAX]; exact Nat.mul_pos hXpos (Nat.two_pow_pos _)
  have hwide : b32.convert b64 (b32.signed false (i * 2 ^ (b32.p - 1) + m)) = b64.signed false A := by
    rw [convert_mag b32_ok b64_ok ha]
    congr 1
    rw [← rq_mag b64_ok hAi]
    refine rq_congr b64_ok (Nat.two_pow_pos _) (by omega) ?_
    rw [hAX, b64_low, b32_low, Nat.mul_one, Nat.mul_assoc, ← Nat.pow_add]
  rw [hwide]
  obtain ⟨R, eR, hR⟩ := sqrt_mag b64_ok hAi hA0
  have hRi : R < b64.infBits := by
    have hi := inf_pos b64_ok
    have := hR (b64.infBits - 1) (by omega)
    rw [show b64.infBits - 1 + 1 = b64.infBits by omega, end2_eq b64_ok] at this
    have := this.2 (.inl (mag_lt_end2 b64_ok hAi))
    omega
  rw [eR, convert_mag b64_ok b32_ok hRi]
  refine ⟨_, rfl, fun b hb => ?_⟩
  rw [rq_le_iff b32_ok (Nat.two_pow_pos _) hb]
  have hM1 := (mag_lt_iff b32).2 hb
  have hM2 := (mag_le_iff b32 (a := b + 1) (b := b32.infBits)).2 (by omega)
  rw [mag_inf b32_ok] at hM1 hM2
  obtain ⟨k, q, rfl, hq, hk⟩ := mag_rep b32 b
  have hM : b32.mag (k * 2 ^ (b32.p - 1) + q) + b32.mag (k * 2 ^ (b32.p - 1) + q + 1) = (2 * q + 1) * 2 ^ k := by
    rw [mag_of b32 hq hk, mag_next b32 hq hk, ← Nat.add_mul]; congr 1; omega
  have hMlt : (2 * q + 1) * 2 ^ k < 2 ^ 278 := by
    rw [← hM]
    have e : (2 : Nat) ^ 278 = 2 ^ (b32.p + (2 ^ b32.w - 3)) + 2 ^ (b32.p + (2 ^ b32.w - 3)) := by decide
    omega
  rw [hM]
  have hq' : 2 * q + 1 < 2 ^ 25 := by
    have : 2 * 2 ^ (b32.p - 1) = 2 ^ 24 := by decide
    omega
  obtain ⟨c, hc⟩ := mag_hits b64 (k + 924) (m := 2 * q + 1) (Nat.lt_trans hq' (by decide))
  have hci : c < b64.infBits := by
    rw [← mag_lt_iff b64, mag_inf b64_ok, hc, Nat.pow_add, ← Nat.mul_assoc]
    refine Nat.lt_of_lt_of_le (Nat.mul_lt_mul_of_pos_right hMlt (Nat.two_pow_pos _)) ?_
    rw [← Nat.pow_add]; exact Nat.pow_le_pow_right (by omega) (by decide)
  have hW4 : 4 * (b64.mag A * 2 ^ b64.low) = m * 2 ^ (i + 2001) := by
    rw [hA, b64_low]
    have := four_pow m i 925 1074
    simpa only [Nat.reduceAdd] using this
  obtain ⟨s1, s2⟩ := root_side (E := k + 896) b64_ok rfl hR hci hc rfl (by omega) hq' (by
    rw [hW4]
    rcases Nat.lt_or_ge (i + 2001) (2 * (k + 896) + 56) with hlt | hge
    · right
      have hq3 : 2 ^ 24 ≤ 2 * q + 1 := by
        have : 2 ^ (b32.p - 1) = 2 ^ 23 := by decide
        omega
      have hm' : m < 2 ^ 24 := hm
      have e : (2 * q + 1) * 2 ^ (k + 924) * ((2 * q + 1) * 2 ^ (k + 924)) = (2 * q + 1) * (2 * q + 1) * 2 ^ (2 * (k + 896) + 56) := by
        rw [show 2 * (k + 896) + 56 = (k + 924) + (k + 924) by omega, Nat.pow_add 2 (k + 924) (k + 924)]
        generalize (2 : Nat) ^ (k + 924) = s
        grind
      rw [e]
      have h1 : m * 2 ^ (i + 2001) < 2 ^ 24 * 2 ^ (2 * (k + 896) + 56) :=
        Nat.mul_lt_mul_of_lt_of_le hm' (Nat.pow_le_pow_right (by omega) (by omega)) (Nat.two_pow_pos _)
      refine Nat.lt_of_lt_of_le h1 (Nat.mul_le_mul_right _ ?_)
      exact Nat.le_trans hq3 (Nat.le_mul_of_pos_left _ (by omega))
    · left
      exact ⟨_, pow_split m hge⟩)
  have hC := hc
  generalize hCg : (2 * q + 1) * 2 ^ (k + 924) = C at *
  have hMC : (2 * q + 1) * 2 ^ k * 2 ^ 925 = 2 * C := by
    rw [← hCg, Nat.mul_assoc, ← Nat.pow_add, show k + 925 = k + 924 + 1 by omega, Nat.pow_succ]
    generalize (2 : Nat) ^ (k + 924) = s
    grind
  have hL : (2 * q + 1) * 2 ^ k * 2 ^ b64.low = 2 * C * 2 ^ b32.low := by
    rw [b64_low, b32_low, ← hMC, Nat.mul_assoc _ (2 ^ 925), ← Nat.pow_add]
  generalize hMg : (2 * q + 1) * 2 ^ k = M at *
  have hp149 := Nat.two_pow_pos b32.low
  have l1 : 2 * (b64.mag R * 2 ^ b32.low) < M * 2 ^ b64.low ↔ R < c := by
    rw [hL, ← Nat.mul_assoc, Nat.mul_lt_mul_right hp149, ← mag_lt_iff b64 (a := R) (b := c), hC]; omega
  have l2 : 2 * (b64.mag R * 2 ^ b32.low) = M * 2 ^ b64.low ↔ R = c := by
    rw [hL, ← Nat.mul_assoc, Nat.mul_right_cancel_iff hp149]
    constructor
    · intro h; exact mag_inj b64 (by rw [hC]; omega)
    · rintro rfl; rw [hC]
  have eW : 4 * (b64.mag A * 2 ^ b64.low) = 4 * (b32.mag (i * 2 ^ (b32.p - 1) + m) * 2 ^ b32.low) * 2 ^ 1850 := by
    rw [hAX, b64_low, b32_low]
    generalize b32.mag (i * 2 ^ (b32.p - 1) + m) = X
    have e1 : X * 2 ^ 925 * 2 ^ 1074 = X * 2 ^ 149 * 2 ^ 1850 := by
      rw [Nat.mul_assoc, ← Nat.pow_add, Nat.mul_assoc, ← Nat.pow_add]
    rw [e1]
    exact (Nat.mul_assoc ..).symm
  have eM : 2 * C * (2 * C) = M * M * 2 ^ 1850 := by
    rw [← hMC, show (1850 : Nat) = 925 + 925 from rfl, Nat.pow_add 2 925 925]
    generalize (2 : Nat) ^ 925 = s
    grind
  have hp1850 : 0 < 2 ^ 1850 := Nat.two_pow_pos _
  rw [eW, eM, Nat.mul_lt_mul_right hp1850] at s1
  rw [eW, eM, Nat.mul_right_cancel_iff hp1850] at s2
  rw [l1, l2, s1, s2]

theorem sqrt_float_rounded {a : Nat} (ha : a < 2 * b32.signBit) {x : Rat} (hx : b32.rat a = some x) (hx0 : 0 ≤ x) :
    b32.RootRounded x (b64.convert b32 (b64.sqrt (b32.convert b64 a))) := by
  have e0 : ∀ s, b64.convert b32 (b64.sqrt (b32.convert b64 (b32.signed s 0))) = b32.signed s 0 := by decide
  have e1 : ∀ s, b32.sqrt (b32.signed s 0) = b32.signed s 0 := by decide
  obtain ⟨s, m, hm, rfl, rfl⟩ := rat_some b32_ok ha hx
  rcases Nat.eq_zero_or_pos m with h0 | h0
  · subst h0
    have := sqrt_rounded b32_ok ha hx hx0
    rw [e1] at this
    rwa [e0]
  · have hU := low_pos b32
    have hUU : (0 : Rat) < ((2 ^ b32.low * 2 ^ b32.low : Nat) : Rat) := cast_pos (Nat.mul_pos (Nat.two_pow_pos _) (Nat.two_pow_pos _))
    have hs : s = false := by
      cases s
      · rfl
      · have h0' : (0 : Rat) / (2 ^ b32.low : Nat) ≤ (sgn true (b32.mag m) : Rat) / (2 ^ b32.low : Nat) := by
          rw [Rat.div_def 0, Rat.zero_mul]; exact hx0
        have := Rat.intCast_nonneg.1 ((div_le_div_iff hU).1 h0')
        have := (mag_pos b32).2 h0
        simp [sgn] at *; omega
    subst hs
    obtain ⟨R, e, hR⟩ := sqrt_through m hm h0
    rw [e]
    refine root_of b32_ok hR (mag_lt_end2 b32_ok hm) ?_
    refine div_congr (by grind) (by grind) ?_
    rw [← Rat.intCast_natCast, ← Rat.intCast_natCast, ← Rat.intCast_natCast, ← Rat.intCast_mul, ← Rat.intCast_mul, Rat.intCast_inj]
    simp [sgn]; grind

end Aitisa
