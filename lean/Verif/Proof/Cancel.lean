import Verif.Spec.Cancel
import Verif.Proof.ScaleRoot
import Verif.Proof.PoolVal
import Verif.Props.Nearest

/-!
# Sums and differences without loss
-/

namespace Aitisa

variable {F : Fmt}

theorem mag_one (h : F.OK) : F.mag 1 = 1 := by
  have hp := h.p3
  obtain ⟨n, hn⟩ : ∃ n, F.p - 1 = n + 1 := ⟨F.p - 2, by omega⟩
  have h2 := Nat.two_pow_pos n
  have := mag_of F (k := 0) (q := 1) (by rw [hn, Nat.pow_succ]; omega) (.inl rfl)
  simpa using this

theorem one_lt_inf (h : F.OK) : 1 < F.infBits := by
  apply (mag_lt_iff F).1
  rw [mag_one h, mag_inf h]
  exact Nat.one_lt_pow (by have := h.p3; omega) (by omega)

/-- The smallest numbers. -/
theorem rat_min (h : F.OK) (s : Bool) : F.rat (F.signed s 1) = some ((sgn s 1 : Rat) / (2 ^ F.low : Nat)) := by
  have := rat_signed h (s := s) (one_lt_inf h)
  rwa [mag_one h] at this

theorem min_bits (h : F.OK) (s : Bool) : F.signed s 1 < 2 * F.signBit := by
  have := one_lt_inf h
  have := inf_lt_sign h
  unfold Fmt.signed; split <;> omega

theorem rat_null (h : F.OK) : F.rat 0 = some 0 := by
  have := rat_signed h (s := false) (inf_pos h)
  rw [mag_zero] at this
  have e : F.signed false 0 = 0 := by simp [Fmt.signed]
  rw [e] at this
  rw [this]
  simp [sgn, Rat.div_def, Rat.zero_mul]

/-- A rounded number of units has the sign of the exact one. -/
theorem sign_rounded (h : F.OK) {b : Nat} {e : Rat} {U : Int} (hb : b < 2 * F.signBit) (hr : F.Rounded e b) (he : e = (U : Rat) / (2 ^ F.low : Nat)) :
    (F.rat b = some 0 ↔ U = 0) ∧ (F.lt 0 b = true ↔ 0 < U) ∧ (F.lt b 0 = true ↔ U < 0) := by
  have hU := low_pos F
  have hs := inf_lt_sign h
  have hi := inf_pos h
  have h0 : 0 < 2 * F.signBit := by omega
  have r0 := rat_null h
  have n0 := rat_not_nan h h0 r0
  have pos : ∀ {a b : Int}, a ≤ b → (a : Rat) / (2 ^ F.low : Nat) ≤ (b : Rat) / (2 ^ F.low : Nat) := fun {a b} hab =>
    (div_le_div_iff hU).2 (Rat.intCast_le_intCast.2 hab)
  have zero : ((0 : Int) : Rat) / (2 ^ F.low : Nat) = 0 := by rw [Rat.div_def, Rat.intCast_zero, Rat.zero_mul]
  rcases Int.lt_trichotomy U 0 with hlt | hlt | hlt
  · have L : F.Le b (F.signed true 1) := rounded_le h hb (min_bits h true) hr (rounded_self h (min_bits h true) (rat_min h true))
      (by rw [he]; exact pos (by simp [sgn]; omega))
    have L0 : ¬ F.Le 0 (F.signed true 1) := by
      rw [le_rat h h0 (min_bits h true) r0 (rat_min h true), ← zero, div_le_div_iff hU, Rat.intCast_le_intCast]
      simp [sgn]
    have L1 : F.Le (F.signed true 1) 0 := by
      rw [le_rat h (min_bits h true) h0 (rat_min h true) r0, ← zero, div_le_div_iff hU, Rat.intCast_le_intCast]
      simp [sgn]
    refine ⟨⟨fun hq => ?_, by omega⟩, ⟨fun hl => ?_, by omega⟩, ⟨fun _ => hlt, fun _ => ?_⟩⟩
    · exact absurd (((le_rat h h0 hb r0 hq).2 (Rat.le_refl)).trans L) L0
    · have := (le_of_lt L.1 n0).1 (L.trans L1)
      rw [this] at hl; cases hl
    · cases hl : F.lt b 0
      · exact absurd (((le_of_lt n0 L.1).2 hl).trans L) L0
      · rfl
  · subst hlt
    rw [zero] at he
    subst he
    have hq : F.rat b = some 0 := by rw [rounded_unique h hb h0 hr (rounded_self h h0 r0), r0]
    have n := rat_not_nan h hb hq
    have l1 := (le_of_lt n n0).1 ((le_rat h hb h0 hq r0).2 Rat.le_refl)
    have l2 := (le_of_lt n0 n).1 ((le_rat h h0 hb r0 hq).2 Rat.le_refl)
    rw [hq, l1, l2]
    simp
  · have L : F.Le (F.signed false 1) b := rounded_le h (min_bits h false) hb (rounded_self h (min_bits h false) (rat_min h false)) hr
      (by rw [he]; exact pos (by simp [sgn]; omega))
    have L0 : ¬ F.Le (F.signed false 1) 0 := by
      rw [le_rat h (min_bits h false) h0 (rat_min h false) r0, ← zero, div_le_div_iff hU, Rat.intCast_le_intCast]
      simp [sgn]
    have L1 : F.Le 0 (F.signed false 1) := by
      rw [le_rat h h0 (min_bits h false) r0 (rat_min h false), ← zero, div_le_div_iff hU, Rat.intCast_le_intCast]
      simp [sgn]
    refine ⟨⟨fun hq => ?_, by omega⟩, ⟨fun _ => hlt, fun _ => ?_⟩, ⟨fun hl => ?_, by omega⟩⟩
    · exact absurd (L.trans ((le_rat h hb h0 hq r0).2 (Rat.le_refl))) L0
    · cases hl : F.lt 0 b
      · exact absurd (L.trans ((le_of_lt L.2.1 n0).2 hl)) L0
      · rfl
    · have := (le_of_lt n0 L.2.1).1 (L1.trans L)
      rw [this] at hl; cases hl

/-- A result that the format can represent is exact. -/
theorem exact_rounded (h : F.OK) {b n : Nat} {s : Bool} {e : Rat} (hb : b < 2 * F.signBit) (hr : F.Rounded e b) (hn : n < F.infBits)
    (he : e = (sgn s (F.mag n) : Rat) / (2 ^ F.low : Nat)) : F.rat b = some e := by
  have hs := inf_lt_sign h
  have hk : F.signed s n < 2 * F.signBit := by unfold Fmt.signed; split <;> omega
  have r := rat_signed h (s := s) hn
  rw [← he] at r
  rw [rounded_unique h hb hk hr (rounded_self h hk r), r]

/-- Two numbers neither of which is more than twice the other differ by a number of the format. -/
theorem near_hits (F : Fmt) {n k : Nat} (h1 : F.mag n ≤ 2 * F.mag k) (h2 : F.mag k ≤ 2 * F.mag n) (hle : F.mag k ≤ F.mag n) :
    ∃ c, F.mag c = F.mag n - F.mag k := by
  obtain ⟨i, q, rfl, hq, hi⟩ := mag_rep F n
  obtain ⟨j, r, rfl, hr, hj⟩ := mag_rep F k
  rw [mag_of F hq hi, mag_of F hr hj] at *
  rcases Nat.le_total i j with hij | hij
  · obtain ⟨d, rfl⟩ : ∃ d, j = i + d := ⟨j - i, by omega⟩
    have e : r * 2 ^ (i + d) = r * 2 ^ d * 2 ^ i := by rw [Nat.pow_add]; grind
    rw [e] at h1 h2 hle ⊢
    obtain ⟨c, hc⟩ := mag_hits F i (m := q - r * 2 ^ d) (by omega)
    exact ⟨c, by rw [hc, Nat.sub_mul]⟩
  · obtain ⟨d, rfl⟩ : ∃ d, i = j + d := ⟨i - j, by omega⟩
    have e : q * 2 ^ (j + d) = q * 2 ^ d * 2 ^ j := by rw [Nat.pow_add]; grind
    rw [e] at h1 h2 hle ⊢
    have hJ := Nat.two_pow_pos j
    have h1' : q * 2 ^ d ≤ 2 * r := Nat.le_of_mul_le_mul_right (by rw [Nat.mul_assoc 2 r]; exact h1) hJ
    obtain ⟨c, hc⟩ := mag_hits F j (m := q * 2 ^ d - r) (by omega)
    exact ⟨c, by rw [hc, Nat.sub_mul]⟩

/-- The next number differs by more than one part in `2 ^ p`. -/
theorem gap_above (h : F.OK) (n : Nat) : F.mag n < 2 ^ F.p * (F.mag (n + 1) - F.mag n) := by
  obtain ⟨i, q, rfl, hq, hi⟩ := mag_rep F n
  rw [mag_next F hq hi, mag_of F hq hi, h.pow_p, Nat.add_mul, Nat.one_mul, Nat.add_sub_cancel_left]
  exact Nat.mul_lt_mul_of_pos_right hq (Nat.two_pow_pos i)

theorem alike_units {s t : Bool} {n k : Nat} (hn : n < F.infBits) (hk : k < F.infBits)
    (ha : (sgn s (F.mag n) ≤ 2 * sgn t (F.mag k) ∧ sgn t (F.mag k) ≤ 2 * sgn s (F.mag n)) ∨
      (2 * sgn t (F.mag k) ≤ sgn s (F.mag n) ∧ 2 * sgn s (F.mag n) ≤ sgn t (F.mag k))) :
    ∃ r c, c < F.infBits ∧ sgn s (F.mag n) - sgn t (F.mag k) = sgn r (F.mag c) := by
  have mn := (mag_lt_iff F).2 hn
  have mk := (mag_lt_iff F).2 hk
  have hm : F.mag n ≤ 2 * F.mag k ∧ F.mag k ≤ 2 * F.mag n ∧ (s = t ∨ (F.mag n = 0 ∧ F.mag k = 0)) := by
    cases s <;> cases t <;> simp only [sgn, if_true, if_false, Bool.false_eq_true] at ha <;>
      exact ⟨by omega, by omega, by first | exact .inl rfl | exact .inr ⟨by omega, by omega⟩⟩
  obtain ⟨h1, h2, hs⟩ := hm
  rcases Nat.le_total (F.mag k) (F.mag n) with hle | hle
  · obtain ⟨c, hc⟩ := near_hits F h1 h2 hle
    refine ⟨s, c, (mag_lt_iff F).1 (by omega), ?_⟩
    rw [hc]
    rcases hs with rfl | hs
    · cases s <;> simp only [sgn, if_true, if_false, Bool.false_eq_true] <;> omega
    · cases s <;> cases t <;> simp only [sgn, if_true, if_false, Bool.false_eq_true] <;> omega
  · obtain ⟨c, hc⟩ := near_hits F h2 h1 hle
    refine ⟨!s, c, (mag_lt_iff F).1 (by omega), ?_⟩
    rw [hc]
    rcases hs with rfl | hs
    · cases s <;> simp only [sgn, if_true, if_false, Bool.false_eq_true, Bool.not_true, Bool.not_false] <;> omega
    · cases s <;> cases t <;> simp only [sgn, if_true, if_false, Bool.false_eq_true, Bool.not_true, Bool.not_false] <;> omega

theorem small_units (h : F.OK) {U : Int} (hU : U.natAbs < 2 * 2 ^ (F.p - 1)) : ∃ r c, c < F.infBits ∧ U = sgn r (F.mag c) := by
  obtain ⟨c, hc⟩ := mag_hits F 0 hU
  rw [Nat.pow_zero, Nat.mul_one] at hc
  refine ⟨decide (U < 0), c, (mag_lt_iff F).1 ?_, ?_⟩
  · rw [hc, mag_inf h]
    have := h.pow_p
    have : 2 ^ F.p ≤ 2 ^ (F.p + (2 ^ F.w - 3)) := Nat.pow_le_pow_right (by omega) (by omega)
    omega
  · rw [hc, sgn_natAbs]

/-- Rounded differences. -/
theorem diff_rounded (h : F.OK) {a b z : Nat} {x y : Rat} (ha : a < 2 * F.signBit) (hb : b < 2 * F.signBit) (hz : z < 2 * F.signBit)
    (hx : F.rat a = some x) (hy : F.rat b = some y) (hr : F.Rounded (x - y) z) :
    ((F.rat z = some 0 ↔ x - y = 0) ∧ (F.lt 0 z = true ↔ 0 < x - y) ∧ (F.lt z 0 = true ↔ x - y < 0)) ∧
    (Alike x y ∨ (x - y).abs < 2 * F.floor → F.rat z = some (x - y)) := by
  have hL := low_pos F
  obtain ⟨s, n, hn, rfl, ex⟩ := rat_some h ha hx
  obtain ⟨t, k, hk, rfl, ey⟩ := rat_some h hb hy
  have ed : x - y = ((sgn s (F.mag n) - sgn t (F.mag k) : Int) : Rat) / (2 ^ F.low : Nat) := by
    rw [ex, ey, Rat.intCast_sub]; grind
  have z0 : (0 : Rat) = ((0 : Int) : Rat) / (2 ^ F.low : Nat) := by rw [Rat.div_def, Rat.intCast_zero, Rat.zero_mul]
  have hne : ((2 ^ F.low : Nat) : Rat) ≠ 0 := by grind
  refine ⟨?_, fun hcase => ?_⟩
  · obtain ⟨h1, h2, h3⟩ := sign_rounded h hz hr ed
    rw [h1, h2, h3, ed]
    generalize sgn s (F.mag n) - sgn t (F.mag k) = U
    have p1 : (0 : Rat) < (U : Rat) / (2 ^ F.low : Nat) ↔ 0 < U := by
      rw [z0, div_lt_div_iff hL, Rat.intCast_lt_intCast]
    have p2 : (U : Rat) / (2 ^ F.low : Nat) < 0 ↔ U < 0 := by
      rw [z0, div_lt_div_iff hL, Rat.intCast_lt_intCast]
    refine ⟨⟨fun e => by rw [e, ← z0], fun e => ?_⟩, p1.symm, p2.symm⟩
    have q1 := mt p1.2
    have q2 := mt p2.2
    rw [e] at q1 q2
    have := q1 (by grind)
    have := q2 (by grind)
    omega
  · have hit : ∃ r c, c < F.infBits ∧ sgn s (F.mag n) - sgn t (F.mag k) = sgn r (F.mag c) := by
      rcases hcase with hA | hA
      · refine alike_units hn hk ?_
        have le2 : ∀ {A B : Int}, (A : Rat) / (2 ^ F.low : Nat) ≤ 2 * ((B : Rat) / (2 ^ F.low : Nat)) → A ≤ 2 * B := fun {A B} hAB => by
          have e : 2 * ((B : Rat) / (2 ^ F.low : Nat)) = ((2 * B : Int) : Rat) / (2 ^ F.low : Nat) := by
            rw [Rat.intCast_mul]; grind
          rw [e, div_le_div_iff hL, Rat.intCast_le_intCast] at hAB
          exact hAB
        have le3 : ∀ {A B : Int}, 2 * ((A : Rat) / (2 ^ F.low : Nat)) ≤ (B : Rat) / (2 ^ F.low : Nat) → 2 * A ≤ B := fun {A B} hAB => by
          have e : 2 * ((A : Rat) / (2 ^ F.low : Nat)) = ((2 * A : Int) : Rat) / (2 ^ F.low : Nat) := by
            rw [Rat.intCast_mul]; grind
          rw [e, div_le_div_iff hL, Rat.intCast_le_intCast] at hAB
          exact hAB
        rw [ex, ey] at hA
        exact hA.imp (fun hh => ⟨le2 hh.1, le2 hh.2⟩) (fun hh => ⟨le3 hh.1, le3 hh.2⟩)
      · refine small_units h ?_
        rw [ed, abs_div_int _ hL] at hA
        have e : 2 * F.floor = ((2 * 2 ^ (F.p - 1) : Nat) : Rat) / (2 ^ F.low : Nat) := by
          simp only [Fmt.floor, Rat.natCast_mul]; grind
        rw [e, div_lt_div_iff hL] at hA
        exact Rat.natCast_lt_natCast.1 hA
    obtain ⟨r, c, hc, e⟩ := hit
    rw [e] at ed
    exact exact_rounded h hz hr hc ed

/-- Numbers of the format near 1. -/
theorem rat_hit (h : F.OK) {m j : Nat} (hm : m < 2 * 2 ^ (F.p - 1)) (hj : m * 2 ^ j ≤ 2 * 2 ^ F.low) :
    ∃ c, c < F.infBits ∧ F.mag c = m * 2 ^ j ∧ F.rat c = some (((m * 2 ^ j : Nat) : Rat) / (2 ^ F.low : Nat)) := by
  obtain ⟨c, hc⟩ := mag_hits F j hm
  have hlt : c < F.infBits := by
    apply (mag_lt_iff F).1
    rw [hc, mag_inf h]
    have h1 := h.room
    have h2 := h.two
    have : 2 ^ (F.low + 1) < 2 ^ (F.p + (2 ^ F.w - 3)) := Nat.pow_lt_pow_right (by omega) (by simp only [Fmt.low]; have := h.p3; omega)
    rw [Nat.pow_succ] at this
    omega
  have := rat_signed h (s := false) hlt
  rw [hc] at this
  have e : F.signed false c = c := by simp [Fmt.signed]
  rw [e] at this
  exact ⟨c, hlt, hc, by rw [this]; rfl⟩

/-- What is nearer to 1 than to its neighbours. -/
theorem near_one {e P : Rat} (hP : 0 < P) (n2 : (e - 1).abs ≤ (e - (1 + P⁻¹)).abs) (n3 : (e - 1).abs ≤ (e - (1 - P⁻¹ / 2)).abs) :
    2 * P * e ≤ 2 * P + 1 ∧ 4 * P - 1 ≤ 4 * P * e := by
  have hi : P * P⁻¹ = 1 := Rat.mul_inv_cancel _ (by grind)
  have hpos : 0 < P⁻¹ := Rat.inv_pos.2 hP
  generalize P⁻¹ = i at *
  have h1 : 2 * e ≤ 2 + i := by simp only [Rat.abs] at n2; grind
  have h2 : 4 - i ≤ 4 * e := by simp only [Rat.abs] at n3; grind
  have m1 := Rat.mul_le_mul_of_nonneg_left h1 (Rat.le_of_lt hP)
  have m2 := Rat.mul_le_mul_of_nonneg_left h2 (Rat.le_of_lt hP)
  constructor <;> grind

/-- The same for a quotient of signed numbers. -/
theorem near_one_units {s t : Bool} {A B P : Nat} (hP : 0 < P) (hB : 0 < B)
    (h1 : 2 * (P : Rat) * ((sgn s A : Rat) / (sgn t B : Rat)) ≤ 2 * P + 1)
    (h2 : 4 * (P : Rat) - 1 ≤ 4 * P * ((sgn s A : Rat) / (sgn t B : Rat))) :
    s = t ∧ 2 * P * A ≤ (2 * P + 1) * B ∧ (4 * P - 1) * B ≤ 4 * P * A := by
  have hPr : (1 : Rat) ≤ P := by exact_mod_cast hP
  have hBr : (0 : Rat) < B := cast_pos hB
  have hAr : (0 : Rat) ≤ A := by exact_mod_cast Nat.zero_le A
  obtain ⟨e, he⟩ : ∃ e : Rat, e * B = A := ⟨(A : Rat) / B, Rat.div_mul_cancel (by grind)⟩
  have e0 : 0 ≤ e := by
    apply Classical.byContradiction
    intro hn
    have := Rat.mul_lt_mul_of_pos_right (Rat.not_le.1 hn) hBr
    grind
  have pe : 0 ≤ (P : Rat) * e := Rat.mul_nonneg (by grind) e0
  have same : 2 * (P : Rat) * e ≤ 2 * P + 1 → 4 * (P : Rat) - 1 ≤ 4 * P * e →
      2 * P * A ≤ (2 * P + 1) * B ∧ (4 * P - 1) * B ≤ 4 * P * A := fun g1 g2 => by
    have m1 := Rat.mul_le_mul_of_nonneg_right g1 (Rat.le_of_lt hBr)
    have m2 := Rat.mul_le_mul_of_nonneg_right g2 (Rat.le_of_lt hBr)
    rw [Rat.mul_assoc, he] at m1
    rw [Rat.mul_assoc (4 * (P : Rat)) e, he] at m2
    have c1 : 2 * (P : Rat) * A ≤ (2 * P + 1) * B := m1
    have c2 : 4 * (P : Rat) * B ≤ 4 * P * A + B := by
      generalize (P : Rat) * A = u at *
      grind
    have c1' : 2 * P * A ≤ (2 * P + 1) * B := by exact_mod_cast c1
    have c2' : 4 * P * B ≤ 4 * P * A + B := by exact_mod_cast c2
    refine ⟨c1', ?_⟩
    rw [Nat.sub_mul]; omega
  have cancel : ∀ q : Rat, q * B = A → q = e := fun q hq => by
    have : (q - e) * B = 0 := by grind
    rcases Rat.mul_eq_zero.1 this with h | h <;> grind
  have hq : (sgn s A : Rat) / (sgn t B : Rat) * (sgn t B : Rat) = (sgn s A : Rat) := Rat.div_mul_cancel (by
    cases t <;> simp only [sgn, Bool.false_eq_true, if_false, if_true, Rat.intCast_neg, Rat.intCast_natCast] <;> grind)
  generalize (sgn s A : Rat) / (sgn t B : Rat) = q at *
  cases s <;> cases t <;> simp only [sgn, Bool.false_eq_true, if_false, if_true, Rat.intCast_neg, Rat.intCast_natCast] at hq
  · rw [cancel q hq] at h1 h2
    exact ⟨rfl, same h1 h2⟩
  · have := cancel (-q) (by grind)
    have : q = -e := by grind
    rw [this] at h2
    grind
  · have := cancel (-q) (by grind)
    have : q = -e := by grind
    rw [this] at h2
    grind
  · rw [cancel q (by grind)] at h1 h2
    exact ⟨rfl, same h1 h2⟩

theorem same_unit {U V L : Rat} (hL : 0 < L) (hV : V ≠ 0) : U / L / (V / L) = U / V := by
  grind

/-- The two bounds leave only equal numbers. -/
theorem near_one_equal (h : F.OK) {n k : Nat} (hB : 0 < F.mag k) (k1 : 2 * 2 ^ (F.p - 1) * F.mag n ≤ (2 * 2 ^ (F.p - 1) + 1) * F.mag k)
    (k2 : (4 * 2 ^ (F.p - 1) - 1) * F.mag k ≤ 4 * 2 ^ (F.p - 1) * F.mag n) : n = k := by
  have hPp : 0 < 2 ^ (F.p - 1) := Nat.two_pow_pos _
  rcases Nat.lt_trichotomy n k with hlt | heq | hgt
  · have ga := gap_above h n
    have mono := (mag_le_iff F).2 (show n + 1 ≤ k from hlt)
    have up := (mag_lt_iff F).2 (Nat.lt_succ_self n)
    rw [h.pow_p] at ga
    generalize 2 ^ (F.p - 1) = P at *
    generalize F.mag (n + 1) = c at *
    generalize F.mag n = a at *
    generalize F.mag k = b at *
    obtain ⟨d, rfl⟩ : ∃ d, b = a + d := ⟨b - a, by omega⟩
    have m : 2 * P * (c - a) ≤ 2 * P * d := Nat.mul_le_mul_left _ (by omega)
    rw [Nat.sub_mul, Nat.mul_add] at k2
    have e1 : 4 * P * d = 2 * (2 * P * d) := by rw [← Nat.mul_assoc, ← Nat.mul_assoc]
    have m2 : 2 * 1 * d ≤ 2 * P * d := Nat.mul_le_mul_right _ (by omega)
    generalize 2 * P * d = X at *
    omega
  · exact heq
  · have ga := gap_above h k
    have mono := (mag_le_iff F).2 (show k + 1 ≤ n from hgt)
    have up := (mag_lt_iff F).2 (Nat.lt_succ_self k)
    rw [h.pow_p] at ga
    generalize 2 ^ (F.p - 1) = P at *
    generalize F.mag (k + 1) = c at *
    generalize F.mag n = a at *
    generalize F.mag k = b at *
    obtain ⟨d, rfl⟩ : ∃ d, a = b + d := ⟨a - b, by omega⟩
    have m : 2 * P * (c - b) ≤ 2 * P * d := Nat.mul_le_mul_left _ (by omega)
    rw [Nat.mul_add, Nat.add_mul] at k1
    omega

/-- A rounded quotient is 1 only for equal numbers. -/
theorem quotient_one (h : F.OK) {a b z : Nat} {x y : Rat} (ha : a < 2 * F.signBit) (hb : b < 2 * F.signBit) (hz : z < 2 * F.signBit)
    (hx : F.rat a = some x) (hy : F.rat b = some y) (hy0 : y ≠ 0) (hr : F.Rounded (x / y) z) : F.rat z = some 1 ↔ x = y := by
  have hL := low_pos F
  have hs := inf_lt_sign h
  have hp3 := h.p3
  have hroom := h.room
  have hPp : 0 < 2 ^ (F.p - 1) := Nat.two_pow_pos _
  obtain ⟨j, hj⟩ : ∃ j, F.low = F.p - 1 + (j + 1) := ⟨F.low - F.p, by simp only [Fmt.low]; omega⟩
  have hLn : 2 ^ F.low = 2 ^ (F.p - 1) * 2 ^ (j + 1) := by rw [hj, Nat.pow_add]
  have hJ : 2 ^ (j + 1) = 2 * 2 ^ j := by rw [Nat.pow_succ]; omega
  obtain ⟨c1, l1, -, r1⟩ := rat_hit h (m := 2 ^ (F.p - 1)) (j := j + 1) (by omega) (by rw [hLn]; omega)
  have one : ((2 ^ (F.p - 1) * 2 ^ (j + 1) : Nat) : Rat) / (2 ^ F.low : Nat) = 1 := by
    rw [hLn]; rw [hLn] at hL; rw [Rat.div_def, Rat.mul_inv_cancel _ (by grind)]
  rw [one] at r1
  have b1 : c1 < 2 * F.signBit := by omega
  constructor
  · intro hz1
    have bits : 2 * F.signBit = 2 ^ (F.p + F.w) := by
      rw [Fmt.signBit, ← Nat.pow_succ']; congr 1; omega
    have hlim : (x / y).abs < F.limit := by
      apply Classical.byContradiction
      intro hn
      have self := rounded_self h b1 r1
      rcases Rat.le_total (a := 0) (b := x / y) with hq | hq
      · have := hr.2.1 (by rw [Rat.abs_of_nonneg hq] at hn; exact Rat.not_lt.1 hn)
        rw [this] at hz1
        have := rat_some h (b := F.infBits) (by omega) hz1
        obtain ⟨s, n, hn, e, -⟩ := this
        unfold Fmt.signed at e
        split at e <;> omega
      · have := hr.2.2 (by rw [Rat.abs_of_nonpos hq] at hn; have := Rat.not_lt.1 hn; grind)
        rw [this] at hz1
        obtain ⟨s, n, hn, e, -⟩ := rat_some h (b := F.signBit + F.infBits) (by omega) hz1
        unfold Fmt.signed at e
        split at e <;> omega
    obtain ⟨q, hq, near⟩ := hr.1 hlim
    rw [hz1] at hq
    cases hq
    obtain ⟨c2, l2, -, r2⟩ := rat_hit h (m := 2 ^ (F.p - 1) + 1) (j := j + 1) (by
        have : 2 ^ 2 ≤ 2 ^ (F.p - 1) := Nat.pow_le_pow_right (by omega) (by omega)
        omega) (by
        rw [hLn]
        generalize 2 ^ (F.p - 1) = P at *
        have : 1 * 2 ^ (j + 1) ≤ P * 2 ^ (j + 1) := Nat.mul_le_mul_right _ hPp
        rw [Nat.add_mul]; omega)
    obtain ⟨c3, l3, -, r3⟩ := rat_hit h (m := 2 * 2 ^ (F.p - 1) - 1) (j := j) (by omega) (by
        rw [hLn, hJ]
        generalize 2 ^ (F.p - 1) = P at *
        have : (2 * P - 1) * 2 ^ j ≤ 2 * P * 2 ^ j := Nat.mul_le_mul_right _ (by omega)
        have e : P * (2 * 2 ^ j) = 2 * P * 2 ^ j := by grind
        omega)
    have n2 := (near c2 _ (by omega) r2).1
    have n3 := (near c3 _ (by omega) r3).1
    obtain ⟨s, n, hn, rfl, ex⟩ := rat_some h ha hx
    obtain ⟨t, k, hk, rfl, ey⟩ := rat_some h hb hy
    -- the neighbours of 1
    have hPr : (0 : Rat) < ((2 ^ (F.p - 1) : Nat) : Rat) := cast_pos hPp
    have hJr : (0 : Rat) < ((2 ^ j : Nat) : Rat) := cast_pos (Nat.two_pow_pos j)
    have e2 : (((2 ^ (F.p - 1) + 1) * 2 ^ (j + 1) : Nat) : Rat) / (2 ^ F.low : Nat) = 1 + ((2 ^ (F.p - 1) : Nat) : Rat)⁻¹ := by
      rw [hLn, hJ]
      simp only [Rat.natCast_mul, Rat.natCast_add]
      generalize ((2 ^ (F.p - 1) : Nat) : Rat) = P at *
      generalize ((2 ^ j : Nat) : Rat) = J at *
      grind
    have e3 : (((2 * 2 ^ (F.p - 1) - 1) * 2 ^ j : Nat) : Rat) / (2 ^ F.low : Nat) = 1 - ((2 ^ (F.p - 1) : Nat) : Rat)⁻¹ / 2 := by
      have : ((2 * 2 ^ (F.p - 1) - 1 : Nat) : Rat) = 2 * ((2 ^ (F.p - 1) : Nat) : Rat) - 1 := by
        have : ((2 * 2 ^ (F.p - 1) - 1 + 1 : Nat) : Rat) = ((2 * 2 ^ (F.p - 1) : Nat) : Rat) := by congr 1; omega
        simp only [Rat.natCast_mul, Rat.natCast_add] at this
        grind
      rw [hLn, hJ]
      simp only [Rat.natCast_mul, this]
      generalize ((2 ^ (F.p - 1) : Nat) : Rat) = P at *
      generalize ((2 ^ j : Nat) : Rat) = J at *
      grind
    rw [e2] at n2
    rw [e3] at n3
    have q : x / y = (sgn s (F.mag n) : Rat) / (sgn t (F.mag k) : Rat) := by
      rw [ex, ey]
      exact same_unit (cast_pos (Nat.two_pow_pos _)) (fun e => hy0 (by rw [ey, e, Rat.div_def, Rat.zero_mul]))
    have hB : 0 < F.mag k := by
      apply Nat.pos_of_ne_zero
      intro e
      apply hy0
      rw [ey, e]
      cases t <;> simp [sgn, Rat.div_def, Rat.zero_mul]
    obtain ⟨g1, g2⟩ := near_one hPr n2 n3
    rw [q] at g1 g2
    obtain ⟨rfl, k1, k2⟩ := near_one_units hPp hB g1 g2
    have := near_one_equal h hB k1 k2
    rw [ex, ey, this]
  · rintro rfl
    rw [Rat.div_def, Rat.mul_inv_cancel _ hy0] at hr
    rw [rounded_unique h hz b1 hr (rounded_self h b1 r1), r1]

end Aitisa
