import Verif.Proof.Cancel
import Verif.Proof.Scale

/-!
# The square root of a square
-/

namespace Aitisa

variable {F : Fmt}

/-- Above: a larger number cannot be the root of the rounded square. -/
theorem root_not_above {a q A P : Rat} (hP : 0 < P) (a0 : 0 < a) (err : P * (A - a * a) ≤ a * a) (hlt : a < q) (hg : a < P * (q - a))
    (hr : (q + a) * (q + a) ≤ 4 * A) : False := by
  have h1 : P * ((q + a) * (q + a)) ≤ P * (4 * A) := Rat.mul_le_mul_of_nonneg_left hr (by grind)
  have h2 : a * a < a * (P * (q - a)) := Rat.mul_lt_mul_of_pos_left hg a0
  have h3 : 0 ≤ P * ((q - a) * (q - a)) := Rat.mul_nonneg (by grind) (Rat.mul_nonneg (by grind) (by grind))
  grind

/-- Below: neither can a smaller one. -/
theorem root_not_below {a q A P : Rat} (hP : 0 < P) (a0 : 0 < a) (q0 : 0 ≤ q) (err : P * (a * a - A) ≤ a * a) (hlt : q < a)
    (hg : A = a * a ∨ a ≤ (P - 1) * (a - q)) (hr : 4 * A ≤ (q + a) * (q + a)) : False := by
  have d0 : 0 < a - q := by grind
  generalize hd : a - q = d at *
  have hq : q = a - d := by grind
  subst hq
  have hda : d ≤ a := by grind
  have pd : 0 < a * d := Rat.mul_pos a0 d0
  have dd : d * d ≤ a * d := Rat.mul_le_mul_of_nonneg_right hda (by grind)
  rcases hg with rfl | hg
  · grind
  · have h1 : P * (4 * A) ≤ P * ((a - d + a) * (a - d + a)) := Rat.mul_le_mul_of_nonneg_left hr (by grind)
    have h2 : P * (4 * (a * d) - d * d) ≤ 4 * (a * a) := by grind
    have aa : 0 < a * a := Rat.mul_pos a0 a0
    rcases Rat.le_total (a := 2 * a) (b := P * d) with h3 | h3
    · have h4 : P * (d * d) ≤ P * (a * d) := Rat.mul_le_mul_of_nonneg_left dd (by grind)
      have h5 : a * (2 * a) ≤ a * (P * d) := Rat.mul_le_mul_of_nonneg_left h3 (by grind)
      grind
    · have h4 : a * a ≤ a * ((P - 1) * d) := Rat.mul_le_mul_of_nonneg_left hg (by grind)
      have h5 : d * (P * d) ≤ d * (2 * a) := Rat.mul_le_mul_of_nonneg_left h3 (by grind)
      grind

/-- Below a number that is not a power of two the next one is a unit in the last place away. -/
theorem gap_below (h : F.OK) {n k : Nat} (hk : k < n) : F.mag n ≤ (2 ^ F.p - 1) * (F.mag n - F.mag k) ∨ ∃ i, F.mag n = 2 ^ i := by
  obtain ⟨i, q, rfl, hq, hi⟩ := mag_rep F n
  have hkn : F.mag k < F.mag (i * 2 ^ (F.p - 1) + q) := mag_mono F hk
  rw [mag_of F hq hi] at hkn ⊢
  rw [h.pow_p]
  have big : ∀ d, 2 ^ i ≤ d → q * 2 ^ i ≤ (2 * 2 ^ (F.p - 1) - 1) * d := fun d hd =>
    Nat.mul_le_mul (by omega) hd
  rcases hi with rfl | hi
  · exact .inl (big _ (by simp at *; omega))
  · rcases Nat.lt_or_ge (2 ^ (F.p - 1)) q with hl | hl
    · refine .inl (big _ ?_)
      have hle : k ≤ i * 2 ^ (F.p - 1) + (q - 1) := by omega
      have := (mag_le_iff F).2 hle
      rw [mag_of F (by omega) (.inr (by omega)), Nat.sub_mul, Nat.one_mul] at this
      have hm : 1 * 2 ^ i ≤ q * 2 ^ i := Nat.mul_le_mul_right _ (by omega)
      omega
    · have : q = 2 ^ (F.p - 1) := by omega
      subst this
      exact .inr ⟨F.p - 1 + i, by rw [Nat.pow_add]⟩

theorem natCast_diff {a b : Nat} (h : b ≤ a) : ((a - b : Nat) : Rat) = (a : Rat) - (b : Rat) := by
  have : ((a - b + b : Nat) : Rat) = (a : Rat) := by rw [Nat.sub_add_cancel h]
  rw [Rat.natCast_add] at this
  grind

theorem limit_lt_inf (h : F.OK) : F.limit ≤ (F.mag F.infBits : Rat) / (2 ^ F.low : Nat) := by
  have hU := low_pos F
  have hi := inf_pos h
  have hlt : F.mag (F.infBits - 1) < F.mag F.infBits := mag_mono F (by omega)
  rw [limit_eq h, ← end2_eq h]
  have e : (F.mag F.infBits : Rat) / (2 ^ F.low : Nat) = ((2 * F.mag F.infBits : Nat) : Rat) / (2 * 2 ^ F.low : Nat) :=
    div_congr (by grind) (by have := cast_pos (show 0 < 2 * 2 ^ F.low by have := Nat.two_pow_pos F.low; omega); grind)
      (by rw [← Rat.natCast_mul, ← Rat.natCast_mul]; congr 1; grind)
  rw [e, div_le_div_iff (cast_pos (by have := Nat.two_pow_pos F.low; omega))]
  exact Rat.natCast_le_natCast.2 (by omega)

/-- A square that is a power of two in the range is exact. -/
theorem square_power (h : F.OK) {A i : Nat} {a v : Rat} (hA : A < 2 * F.signBit) (ha : a = ((2 ^ i : Nat) : Rat) / (2 ^ F.low : Nat))
    (hf : F.floor ≤ a * a) (hr : F.Rounded (a * a) A) (hv : F.rat A = some v) : v = a * a := by
  have hU := low_pos F
  have haU : a * ((2 ^ F.low : Nat) : Rat) = ((2 ^ i : Nat) : Rat) := by rw [ha, Rat.div_mul_cancel (by grind)]
  have hlim := hr.inside h hv
  -- the exponent
  have hlow : F.low ≤ 2 * i := by
    have h1 : ((2 ^ (F.p - 1) : Nat) : Rat) * ((2 ^ F.low : Nat) : Rat) ≤ ((2 ^ i : Nat) : Rat) * ((2 ^ i : Nat) : Rat) := by
      have h2 : F.floor * ((2 ^ F.low : Nat) : Rat) = ((2 ^ (F.p - 1) : Nat) : Rat) := by unfold Fmt.floor; rw [Rat.div_mul_cancel (by grind)]
      rw [← h2, ← haU]
      have := Rat.mul_le_mul_of_nonneg_right hf (show (0 : Rat) ≤ ((2 ^ F.low : Nat) : Rat) * ((2 ^ F.low : Nat) : Rat) from Rat.mul_nonneg (by grind) (by grind))
      grind
    rw [← Rat.natCast_mul, ← Rat.natCast_mul, Rat.natCast_le_natCast, ← Nat.pow_add, ← Nat.pow_add] at h1
    have := (Nat.pow_le_pow_iff_right (a := 2) (by decide)).1 h1
    omega
  have hp := h.p3
  obtain ⟨c, hc⟩ := mag_hits F (2 * i - F.low) (m := 1) (by
    obtain ⟨n, hn⟩ : ∃ n, F.p - 1 = n + 1 := ⟨F.p - 2, by omega⟩
    have := Nat.two_pow_pos n
    rw [hn, Nat.pow_succ]; omega)
  rw [Nat.one_mul] at hc
  have e : a * a = (sgn false (F.mag c) : Rat) / (2 ^ F.low : Nat) := by
    have h1 : (sgn false (F.mag c) : Rat) * ((2 ^ F.low : Nat) : Rat) = ((2 ^ i : Nat) : Rat) * ((2 ^ i : Nat) : Rat) := by
      rw [hc]
      simp only [sgn, Bool.false_eq_true, if_false]
      rw [Rat.intCast_natCast, ← Rat.natCast_mul, ← Rat.natCast_mul, ← Nat.pow_add, ← Nat.pow_add]
      congr 2; omega
    rw [← haU] at h1
    have h2 : (sgn false (F.mag c) : Rat) = a * a * ((2 ^ F.low : Nat) : Rat) := by
      generalize (sgn false (F.mag c) : Rat) = x at *
      have : (x - a * a * ((2 ^ F.low : Nat) : Rat)) * ((2 ^ F.low : Nat) : Rat) = 0 := by grind
      rcases Rat.mul_eq_zero.1 this with h | h
      · grind
      · grind
    rw [h2, Rat.mul_div_cancel (by grind)]
  have hci : c < F.infBits := by
    have h1 : a * a < (F.mag F.infBits : Rat) / (2 ^ F.low : Nat) := by
      have := limit_lt_inf h
      have : a * a ≤ (a * a).abs := by grind [Rat.abs]
      grind
    rw [e, div_lt_div_iff hU] at h1
    simp only [sgn, Bool.false_eq_true, if_false] at h1
    rw [Rat.intCast_natCast, Rat.natCast_lt_natCast] at h1
    exact (mag_lt_iff F).1 h1
  have := exact_rounded h hA hr hci e
  rw [hv] at this
  exact Option.some.inj this

/-- The square root of the square of a number is the number without its sign, if the square is neither tiny nor infinite. -/
theorem square_root (h : F.OK) {x A y : Nat} {a v : Rat} (hx : x < 2 * F.signBit) (hA : A < 2 * F.signBit) (hy : y < 2 * F.signBit)
    (ha : F.rat x = some a) (hf : a = 0 ∨ F.floor ≤ a * a) (hr : F.Rounded (a * a) A) (hv : F.rat A = some v) (hq : F.RootRounded v y) :
    F.rat y = some a.abs := by
  have hU := low_pos F
  have hs := inf_lt_sign h
  have hi := inf_pos h
  have htwo := h.two
  obtain ⟨s, n, hn, rfl, rfl⟩ := rat_some h hx ha
  obtain ⟨q, eq, q0, near⟩ := hq
  rw [eq]
  have habs : ((sgn s (F.mag n) : Rat) / (2 ^ F.low : Nat)).abs = (F.mag n : Rat) / (2 ^ F.low : Nat) := by
    rw [abs_div_int _ hU]; congr 2; cases s <;> simp [sgn]
  have hsq : ∀ r : Rat, r * r = r.abs * r.abs := fun r => by grind [Rat.abs]
  have hz0 : (sgn s (F.mag n) : Rat) / (2 ^ F.low : Nat) = 0 → ((sgn s (F.mag n) : Rat) / (2 ^ F.low : Nat)).abs = 0 := fun e => by rw [e]; rfl
  rw [hsq] at hr hf
  have hf' : ((sgn s (F.mag n) : Rat) / (2 ^ F.low : Nat)).abs = 0 ∨ F.floor ≤ ((sgn s (F.mag n) : Rat) / (2 ^ F.low : Nat)).abs * ((sgn s (F.mag n) : Rat) / (2 ^ F.low : Nat)).abs := by
    rcases hf with hf | hf
    · exact .inl (hz0 hf)
    · exact .inr hf
  rw [habs] at hr hf' ⊢
  clear hf hz0 ha
  have r0 := rat_signed h (s := false) hn
  rw [show F.signed false n = n by simp [Fmt.signed]] at r0
  simp only [sgn, Bool.false_eq_true, if_false] at r0
  rw [Rat.intCast_natCast] at r0
  obtain ⟨t, l, hl, rfl, eqq⟩ := rat_some h hy eq
  have eq2 : q = (F.mag l : Rat) / (2 ^ F.low : Nat) := by
    have := abs_div_int (sgn t (F.mag l)) hU
    rw [← eqq, show (sgn t (F.mag l)).natAbs = F.mag l by cases t <;> simp [sgn]] at this
    rw [← this]; grind [Rat.abs]
  have hN := near n _ (by rw [two_sign h]; omega) r0
  have aU : (F.mag n : Rat) / (2 ^ F.low : Nat) * ((2 ^ F.low : Nat) : Rat) = F.mag n := Rat.div_mul_cancel (by grind)
  have qU : q * ((2 ^ F.low : Nat) : Rat) = F.mag l := by rw [eq2]; exact Rat.div_mul_cancel (by grind)
  have a0 : 0 ≤ (F.mag n : Rat) / (2 ^ F.low : Nat) := by
    rw [Rat.div_def]; exact Rat.mul_nonneg (Rat.natCast_nonneg) (Rat.le_of_lt (Rat.inv_pos.2 hU))
  have hN := hN a0
  have pw : ∀ i, F.mag n = 2 ^ i → F.floor ≤ (F.mag n : Rat) / (2 ^ F.low : Nat) * ((F.mag n : Rat) / (2 ^ F.low : Nat)) →
      v = (F.mag n : Rat) / (2 ^ F.low : Nat) * ((F.mag n : Rat) / (2 ^ F.low : Nat)) := fun i hi hf => square_power h hA (by rw [hi]) hf hr hv
  have lt1 : (F.mag n : Rat) / (2 ^ F.low : Nat) < q → n < l := fun hlt => by
    rw [eq2, div_lt_div_iff hU, Rat.natCast_lt_natCast] at hlt; exact (mag_lt_iff F).1 hlt
  have lt2 : q < (F.mag n : Rat) / (2 ^ F.low : Nat) → l < n := fun hlt => by
    rw [eq2, div_lt_div_iff hU, Rat.natCast_lt_natCast] at hlt; exact (mag_lt_iff F).1 hlt
  have herr := hr.error h (hr.inside h hv) hv
  have hself : (F.mag n : Rat) / (2 ^ F.low : Nat) = 0 → v = 0 := fun e => by
    rw [e, Rat.mul_zero] at hr
    have h0 := rat_signed h (s := false) (n := 0) hi
    rw [show F.signed false 0 = 0 by simp [Fmt.signed], show F.mag 0 = 0 by simp [Fmt.mag]] at h0
    have h0' : F.rat 0 = some 0 := by rw [h0]; simp [sgn, Rat.div_def]
    have := rounded_unique h hA (by omega) hr (rounded_self h (by omega) h0')
    rw [hv, h0'] at this
    exact Option.some.inj this
  generalize ea : (F.mag n : Rat) / (2 ^ F.low : Nat) = a at *
  congr 1
  rcases hf' with hz | hf
  · have := hself hz
    subst this hz
    rcases Rat.le_total (a := q) (b := 0) with hle | hle
    · grind
    · by_cases hq0 : q = 0
      · exact hq0
      · have h1 := (hN.2 (by grind)).1
        have : 0 < q * q := Rat.mul_pos (by grind) (by grind)
        grind
  have apos : 0 < a := by
    have : 0 < F.floor := by
      unfold Fmt.floor
      rw [Rat.div_def]
      exact Rat.mul_pos (cast_pos (Nat.two_pow_pos _)) (Rat.inv_pos.2 hU)
    by_cases e : a = 0
    · subst e; grind
    · grind
  have P0 : (0 : Rat) < 2 ^ F.p := two_pow_pos_rat F.p
  have err : (2 : Rat) ^ F.p * (a * a - v).abs ≤ a * a := by
    have aa : (a * a).abs = a * a := by have := Rat.mul_pos apos apos; grind [Rat.abs]
    rw [aa] at herr
    rcases herr with h1 | h1
    · exact h1
    · have e1 : (2 : Rat) ^ F.emin = 1 / ((2 ^ F.low : Nat) : Rat) := by
        rw [h.emin, Rat.zpow_neg, Rat.zpow_natCast, Rat.natCast_pow, Rat.div_def, Rat.one_mul]; rfl
      have e2 : F.floor = ((2 ^ (F.p - 1) : Nat) : Rat) * 2 ^ F.emin := by unfold Fmt.floor; rw [e1, Rat.div_def, Rat.div_def, Rat.one_mul]
      have e3 : (2 : Rat) ^ F.p = 2 * ((2 ^ (F.p - 1) : Nat) : Rat) := by
        have := congrArg (fun n : Nat => (n : Rat)) h.pow_p
        simp only [Rat.natCast_pow, Rat.natCast_mul] at this
        rw [Rat.natCast_pow]; exact this
      rw [e2] at hf
      have hp0 : (0 : Rat) ≤ ((2 ^ (F.p - 1) : Nat) : Rat) := Rat.natCast_nonneg
      have := Rat.mul_le_mul_of_nonneg_left h1 hp0
      rw [e3]
      grind
  have errs : (2 : Rat) ^ F.p * (v - a * a) ≤ a * a ∧ (2 : Rat) ^ F.p * (a * a - v) ≤ a * a := by
    have h1 : v - a * a ≤ (a * a - v).abs := by grind [Rat.abs]
    have h2 : a * a - v ≤ (a * a - v).abs := by grind [Rat.abs]
    have := Rat.mul_le_mul_of_nonneg_left h1 (Rat.le_of_lt P0)
    have := Rat.mul_le_mul_of_nonneg_left h2 (Rat.le_of_lt P0)
    exact ⟨by grind, by grind⟩
  have castp : ((2 ^ F.p : Nat) : Rat) = (2 : Rat) ^ F.p := by rw [Rat.natCast_pow]; rfl
  by_cases c1 : a < q
  · refine absurd ((hN.2 c1).1) fun hle => root_not_above P0 apos errs.1 c1 ?_ hle
    have hnl := lt1 c1
    have g := gap_above h n
    have hm : F.mag (n + 1) ≤ F.mag l := (mag_le_iff F).2 hnl
    have g2 : F.mag n < 2 ^ F.p * (F.mag l - F.mag n) := Nat.lt_of_lt_of_le g (Nat.mul_le_mul_left _ (by omega))
    have hml : F.mag n ≤ F.mag l := by have := mag_mono F hnl; omega
    have g3 := Rat.natCast_lt_natCast.2 g2
    rw [Rat.natCast_mul, natCast_diff hml, castp, ← aU, ← qU] at g3
    refine Rat.not_le.1 fun hle => ?_
    have := Rat.mul_le_mul_of_nonneg_right hle (Rat.le_of_lt hU)
    grind
  · by_cases c2 : q < a
    · refine absurd ((hN.1 c2).1) fun hle => root_not_below P0 apos q0 errs.2 c2 ?_ hle
      have hln := lt2 c2
      rcases gap_below h hln with g | ⟨i, g⟩
      · right
        have hml : F.mag l ≤ F.mag n := by have := mag_mono F hln; omega
        have g3 := Rat.natCast_le_natCast.2 g
        rw [Rat.natCast_mul, natCast_diff hml, natCast_diff (b := 1) (Nat.two_pow_pos _), castp, ← aU, ← qU] at g3
        refine Rat.not_lt.1 fun hlt => ?_
        have := Rat.mul_lt_mul_of_pos_right hlt hU
        grind
      · exact .inl (pw i g hf)
    · grind

end Aitisa
