import Verif.Proof.IeeeRound

/-!
# Ranges and monotonicity of sums, quotients and conversions; the exponential function
-/

namespace Aitisa

variable {F G : Fmt}

theorem plus_signed (F : Fmt) (a : Nat) : F.signed false a = a := by simp [Fmt.signed]

theorem decode_inf (h : F.OK) (s : Bool) : F.decode (F.signed s F.infBits) = .inf s := by
  have h1 : F.infBits / 2 ^ (F.p - 1) = 2 ^ F.w - 1 := by rw [Fmt.infBits, Nat.mul_div_cancel _ (Nat.two_pow_pos _)]
  have h2 : F.infBits % 2 ^ (F.p - 1) = 0 := by rw [Fmt.infBits, Nat.mul_mod_left]
  rw [decode_signed h (inf_lt_sign h), if_pos h1, if_pos h2]

theorem decode_isNaN (h : F.OK) {b : Nat} (hb : b < 2 * F.signBit) (hn : F.isNaN b = true) : F.decode b = .nan := by
  obtain ⟨s, n, hs, rfl⟩ := exists_signed hb
  rw [isNaN_signed hs, decide_eq_true_eq] at hn
  have hdm := Nat.div_add_mod n (2 ^ (F.p - 1))
  have hlt : n / 2 ^ (F.p - 1) < 2 ^ F.w := by
    rw [Nat.div_lt_iff_lt_mul (Nat.two_pow_pos _), Nat.mul_comm, ← h.sign]; exact hs
  have hle : 2 ^ F.w - 1 ≤ n / 2 ^ (F.p - 1) := by
    rw [Nat.le_div_iff_mul_le (Nat.two_pow_pos _)]; exact Nat.le_of_lt hn
  have he : n / 2 ^ (F.p - 1) = 2 ^ F.w - 1 := by omega
  rw [decode_signed h hs, if_pos he, if_neg]
  intro h0
  rw [he, h0, Nat.mul_comm] at hdm
  rw [Fmt.infBits] at hn
  omega

/-- The magnitude of a number that is not a NaN. -/
theorem not_nan_signed {b : Nat} (hb : b < 2 * F.signBit) (hn : F.isNaN b = false) : ∃ s n, n ≤ F.infBits ∧ b = F.signed s n := by
  obtain ⟨s, n, hs, rfl⟩ := exists_signed hb
  rw [isNaN_signed hs, decide_eq_false_iff_not] at hn
  exact ⟨s, n, by omega, rfl⟩

/-! ### Sums of numbers that are not negative -/

theorem add_plus (h : F.OK) {a b : Nat} (ha : a ≤ F.infBits) (hb : b ≤ F.infBits) :
    F.add a b = if a = F.infBits ∨ b = F.infBits then F.infBits else F.rq (F.mag a + F.mag b) 1 := by
  conv => lhs; rw [← plus_signed F a, ← plus_signed F b]
  by_cases ha' : a = F.infBits
  · rw [if_pos (.inl ha'), ha']
    by_cases hb' : b = F.infBits
    · rw [hb', Fmt.add, decode_inf h]; simp [plus_signed]
    · obtain ⟨m, i, hd, _⟩ := decode_mag (s := false) h (show b < F.infBits by omega)
      rw [Fmt.add, decode_inf h, hd]; simp [plus_signed]
  · obtain ⟨m, i, hd, _⟩ := decode_mag (s := false) h (show a < F.infBits by omega)
    by_cases hb' : b = F.infBits
    · rw [if_pos (.inr hb'), hb', Fmt.add, decode_inf h, hd]; simp [plus_signed]
    · rw [if_neg (by omega), add_mag h (by omega) (by omega)]
      simp only [sgn, Bool.false_eq_true, if_false]
      split
      · rw [show F.mag a + F.mag b = 0 by omega, rq_zero h (by omega)]; simp [plus_signed]
      · rw [decide_eq_false (by omega), plus_signed]; congr 1

theorem add_le_inf (h : F.OK) {a b : Nat} (ha : a ≤ F.infBits) (hb : b ≤ F.infBits) : F.add a b ≤ F.infBits := by
  rw [add_plus h ha hb]; split
  · exact Nat.le_refl _
  · exact rq_le_inf ..

theorem mag_le_iff (F : Fmt) {a b : Nat} : F.mag a ≤ F.mag b ↔ a ≤ b := by
  have := mag_lt_iff F (a := b) (b := a); omega

theorem le_add_left (h : F.OK) {a b : Nat} (ha : a ≤ F.infBits) (hb : b ≤ F.infBits) : a ≤ F.add a b := by
  rw [add_plus h ha hb]; split
  · exact ha
  · conv => lhs; rw [← rq_mag h (show a < F.infBits by omega)]
    exact rq_mono h (by omega) (by omega) (by omega)

theorem le_add_right (h : F.OK) {a b : Nat} (ha : a ≤ F.infBits) (hb : b ≤ F.infBits) : b ≤ F.add a b := by
  rw [add_comm]; exact le_add_left h hb ha

theorem add_mono_right (h : F.OK) {a b b' : Nat} (ha : a ≤ F.infBits) (hb' : b' ≤ F.infBits) (hbb : b ≤ b') : F.add a b ≤ F.add a b' := by
  rw [add_plus h ha hb', add_plus h ha (by omega)]
  by_cases h1 : a = F.infBits ∨ b' = F.infBits
  · rw [if_pos h1]; split
    · omega
    · exact rq_le_inf ..
  · rw [if_neg h1, if_neg (by omega)]
    have := (mag_le_iff F).2 hbb
    exact rq_mono h (by omega) (by omega) (by omega)

theorem add_zero_iff (h : F.OK) {a b : Nat} (ha : a ≤ F.infBits) (hb : b ≤ F.infBits) : F.add a b = 0 ↔ a = 0 ∧ b = 0 := by
  constructor
  · intro e
    have h1 := le_add_left h ha hb
    have h2 := le_add_right h ha hb
    omega
  · rintro ⟨rfl, rfl⟩
    have := inf_pos h
    rw [add_plus h (by omega) (by omega), if_neg (by omega), mag_zero, rq_zero h (by omega)]

/-! ### One -/

theorem ofInt_one (h : F.OK) : F.ofInt 1 = F.rq (2 ^ F.low) 1 := by
  have : F.ofInt 1 = F.round false 1 0 := rfl
  rw [this, round_any h (x := F.low) (y := 0) (he := by rw [h.emin]; omega), plus_signed, Nat.one_mul, Nat.pow_zero]

theorem one_mag (h : F.OK) : F.ofInt 1 < F.infBits ∧ F.mag (F.ofInt 1) = 2 ^ F.low := by
  have hp := h.p3
  have h1 := ofInt_int h (n := 1) (Nat.one_lt_two_pow (by omega))
  have hle : F.ofInt 1 ≤ F.infBits := by rw [ofInt_one h]; exact rq_le_inf ..
  have hs := inf_lt_sign h
  unfold Fmt.IsInt at h1
  rw [← plus_signed F (F.ofInt 1), units_signed h (by omega)] at h1
  split at h1
  · next hlt =>
    simp only [sgn, Bool.false_eq_true, if_false, Option.some.injEq, h.emin, Int.one_mul] at h1
    refine ⟨hlt, ?_⟩
    rw [Int.neg_neg, Int.toNat_natCast, ← pow_cast] at h1
    exact Int.ofNat.inj h1
  · cases h1

/-! ### Quotients -/

theorem div_inf_inf (h : F.OK) {x : Nat} (hx : F.decode x = .nan ∨ ∃ s, F.decode x = .inf s) : F.div x F.infBits = F.nanBits := by
  conv => lhs; rw [← plus_signed F F.infBits]
  rcases hx with hx | ⟨s, hx⟩ <;> rw [Fmt.div, hx, decode_inf h]

theorem div_fin_inf (h : F.OK) {s : Bool} {a : Nat} (ha : a < F.infBits) : F.div (F.signed s a) F.infBits = F.signed s 0 := by
  conv => lhs; rw [← plus_signed F F.infBits]
  obtain ⟨m, i, hd, _⟩ := decode_mag (s := s) h ha
  rw [Fmt.div, hd, decode_inf h]
  cases s <;> rfl

theorem div_zero_zero (h : F.OK) : F.div 0 0 = F.nanBits := by
  conv => lhs; rw [← plus_signed F 0]
  rw [Fmt.div, decode_zero h]; simp

/-- Dividing by a larger number. -/
theorem div_small (h : F.OK) (s : Bool) {a b : Nat} (ha : a < F.infBits) (hb : b ≤ F.infBits) (hab : a ≤ b) (hb0 : 0 < b) :
    ∃ n, n ≤ F.ofInt 1 ∧ F.div (F.signed s a) b = F.signed s n := by
  by_cases hi : b = F.infBits
  · exact ⟨0, Nat.zero_le _, by rw [hi, div_fin_inf h ha]⟩
  · refine ⟨F.rq (F.mag a * 2 ^ F.low) (F.mag b), ?_, ?_⟩
    · rw [ofInt_one h]
      have := (mag_le_iff F).2 hab
      refine rq_mono h ((mag_pos F).2 hb0) (by omega) ?_
      rw [Nat.mul_one, Nat.mul_comm]; exact Nat.mul_le_mul_left _ this
    · conv => lhs; rw [← plus_signed F b]
      rw [div_mag h ha (by omega) hb0, Bool.bne_false]

/-- A quotient of numbers that are not negative grows with the numerator. -/
theorem div_mono_left (h : F.OK) {a a' b : Nat} (ha : a' < F.infBits) (hb : b ≤ F.infBits) (hb0 : 0 < b) (haa : a ≤ a') : F.div a b ≤ F.div a' b := by
  conv => lhs; rw [← plus_signed F a]
  conv => rhs; rw [← plus_signed F a']
  by_cases hi : b = F.infBits
  · rw [hi, div_fin_inf h (by omega), div_fin_inf h (by omega)]; exact Nat.le_refl _
  · rw [← plus_signed F b, div_mag h (by omega) (by omega) hb0, div_mag h (by omega) (by omega) hb0]
    simp only [Bool.bne_false, plus_signed]
    have := (mag_le_iff F).2 haa
    refine rq_mono h ((mag_pos F).2 hb0) ((mag_pos F).2 hb0) ?_
    exact Nat.mul_le_mul_right _ (Nat.mul_le_mul_right _ this)

/-- ... and decreases with the denominator. -/
theorem div_anti_right (h : F.OK) {a b b' : Nat} (ha : a < F.infBits) (hb : b' ≤ F.infBits) (hb0 : 0 < b) (hbb : b ≤ b') : F.div a b' ≤ F.div a b := by
  conv => lhs; rw [← plus_signed F a]
  conv => rhs; rw [← plus_signed F a]
  by_cases hi : b' = F.infBits
  · rw [hi, div_fin_inf h ha]; rw [plus_signed]; exact Nat.zero_le _
  · rw [← plus_signed F b, ← plus_signed F b', div_mag h (by omega) (by omega) hb0, div_mag h (by omega) (by omega) (by omega)]
    simp only [Bool.bne_false, plus_signed]
    have := (mag_le_iff F).2 hbb
    exact rq_mono h ((mag_pos F).2 (by omega)) ((mag_pos F).2 hb0) (Nat.mul_le_mul_left _ this)

/-! ### Conversion of a magnitude -/

def Fmt.cv (F G : Fmt) (a : Nat) : Nat := if a = F.infBits then G.infBits else G.rq (F.mag a * 2 ^ G.low) (2 ^ F.low)

theorem convert_cv (h : F.OK) (hG : G.OK) (s : Bool) {a : Nat} (ha : a ≤ F.infBits) : F.convert G (F.signed s a) = G.signed s (F.cv G a) := by
  unfold Fmt.cv
  split
  · next he => rw [he, Fmt.convert, decode_inf h]
  · exact convert_mag h hG (by omega)

theorem cv_le_inf (F G : Fmt) (a : Nat) : F.cv G a ≤ G.infBits := by
  unfold Fmt.cv; split
  · exact Nat.le_refl _
  · exact rq_le_inf ..

theorem cv_mono (hG : G.OK) {a b : Nat} (hb : b ≤ F.infBits) (hab : a ≤ b) : F.cv G a ≤ F.cv G b := by
  unfold Fmt.cv
  by_cases hi : b = F.infBits
  · rw [if_pos hi]; split
    · exact Nat.le_refl _
    · exact rq_le_inf ..
  · rw [if_neg hi, if_neg (by omega)]
    have := (mag_le_iff F).2 hab
    exact rq_mono hG (Nat.two_pow_pos _) (Nat.two_pow_pos _) (Nat.mul_le_mul_right _ (Nat.mul_le_mul_right _ this))

theorem cv_one (h : F.OK) (hG : G.OK) : F.cv G (F.ofInt 1) = G.ofInt 1 := by
  obtain ⟨h1, h2⟩ := one_mag h
  unfold Fmt.cv
  rw [if_neg (by omega), h2, ofInt_one hG]
  exact rq_congr hG (Nat.two_pow_pos _) (by omega) (by rw [Nat.mul_one, Nat.mul_comm])

theorem cv_zero (h : F.OK) (hG : G.OK) : F.cv G 0 = 0 := by
  have := inf_pos h
  unfold Fmt.cv
  rw [if_neg (by omega), mag_zero, Nat.zero_mul, rq_zero hG (Nat.two_pow_pos _)]

theorem convert_plus (h : F.OK) (hG : G.OK) {a : Nat} (ha : a ≤ F.infBits) : F.convert G a = F.cv G a := by
  rw [← plus_signed F a, convert_cv h hG false ha, plus_signed, plus_signed]

/-! ### Differences -/

theorem sub_mag (h : F.OK) {s t : Bool} {a b : Nat} (hb : b < F.infBits) :
    F.sub (F.signed s a) (F.signed t b) = F.add (F.signed s a) (F.signed (!t) b) := by
  obtain ⟨m, i, hd, _⟩ := decode_mag (s := t) h hb
  have := inf_lt_sign h
  rw [Fmt.sub, hd]
  simp only
  rw [neg_signed (by omega)]

theorem sub_plus (h : F.OK) {a b : Nat} (ha : a < F.infBits) (hb : b < F.infBits) :
    F.sub a b = F.signed (decide (a < b)) (F.rq (F.mag a - F.mag b + (F.mag b - F.mag a)) 1) := by
  conv => lhs; rw [← plus_signed F a, ← plus_signed F b]
  rw [sub_mag h hb, add_mag h ha hb]
  have h1 := mag_lt_iff F (a := a) (b := b)
  simp only [sgn, Bool.false_eq_true, if_false, Bool.not_false, if_true, Bool.false_and]
  split
  · rw [decide_eq_false (by omega), show F.mag a - F.mag b + (F.mag b - F.mag a) = 0 by omega, rq_zero h (by omega)]
  · congr 1
    · exact decide_eq_decide.2 (by omega)
    · congr 1; omega

/-- What `tanh` computes from `u = exp(x)` and `v = exp(-x)`. -/
def Fmt.th (F : Fmt) (u v : Nat) : Nat := F.div (F.sub u v) (F.add u v)

theorem th_inf (h : F.OK) {u v : Nat} (hu : u ≤ F.infBits) (hv : v ≤ F.infBits) (hi : u = F.infBits ∨ v = F.infBits) : F.th u v = F.nanBits := by
  unfold Fmt.th
  rw [add_plus h hu hv, if_pos hi]
  apply div_inf_inf h
  have hs := inf_lt_sign h
  have hnan : F.decode F.nanBits = .nan := by
    apply decode_isNaN h (nan_lt h)
    have h1 := h.inf_lt
    have h2 := h.p3
    have h3 : 2 ^ (F.p - 1) = 2 * 2 ^ (F.p - 2) := by rw [← Nat.pow_succ']; congr 1; omega
    have h4 := Nat.two_pow_pos (F.p - 2)
    rw [← plus_signed F F.nanBits, isNaN_signed (by unfold Fmt.nanBits; omega), decide_eq_true_eq]
    unfold Fmt.nanBits; omega
  by_cases hv' : v = F.infBits
  · subst hv'
    have : F.sub u F.infBits = F.add u (F.signed true F.infBits) := by
      conv => lhs; rw [← plus_signed F F.infBits]
      rw [Fmt.sub, decode_inf h]
      simp only
      rw [neg_signed (by omega)]; rfl
    rw [this, show F.add u (F.signed true F.infBits) = F.add (F.signed false u) (F.signed true F.infBits) by rw [plus_signed]]
    by_cases hu' : u = F.infBits
    · left; rw [hu', Fmt.add, decode_inf h, decode_inf h]; simpa using hnan
    · obtain ⟨m, i, hd, _⟩ := decode_mag (s := false) h (show u < F.infBits by omega)
      right; refine ⟨true, ?_⟩
      rw [Fmt.add, decode_inf h, hd]; exact decode_inf h true
  · right; refine ⟨false, ?_⟩
    have hu' : u = F.infBits := by omega
    obtain ⟨m, i, hd, _⟩ := decode_mag (s := true) h (show v < F.infBits by omega)
    rw [← plus_signed F u, ← plus_signed F v, sub_mag h (by omega), hu', Fmt.add, decode_inf h, Bool.not_false, hd]
    exact decode_inf h false

theorem th_zero (h : F.OK) : F.th 0 0 = F.nanBits := by
  have hi := inf_pos h
  unfold Fmt.th
  rw [sub_plus h hi hi, (add_zero_iff h (Nat.zero_le _) (Nat.zero_le _)).2 ⟨rfl, rfl⟩]
  simp only [Nat.lt_irrefl, decide_false, plus_signed, Nat.sub_self, Nat.add_zero, rq_zero h (Nat.one_pos)]
  exact div_zero_zero h

/-- Otherwise the result is in `[-1, 1]`; exchanging `u` and `v` changes its sign. -/
theorem th_range (h : F.OK) {u v : Nat} (hu : u < F.infBits) (hv : v < F.infBits) (h0 : 0 < u ∨ 0 < v) :
    ∃ n, n ≤ F.ofInt 1 ∧ F.th u v = F.signed (decide (u < v)) n ∧ F.th v u = F.signed (decide (v < u)) n ∧ (u = v → n = 0) := by
  unfold Fmt.th
  rw [sub_plus h hu hv, sub_plus h hv hu, add_comm v u, Nat.add_comm (F.mag v - F.mag u)]
  have h1 := le_add_left h (Nat.le_of_lt hu) (Nat.le_of_lt hv)
  have h2 := le_add_right h (Nat.le_of_lt hu) (Nat.le_of_lt hv)
  have h3 := add_le_inf h (Nat.le_of_lt hu) (Nat.le_of_lt hv)
  have hd : F.rq (F.mag u - F.mag v + (F.mag v - F.mag u)) 1 ≤ max u v := by
    rcases Nat.le_total u v with hle | hle
    · rw [Nat.max_eq_right hle]
      conv => rhs; rw [← rq_mag h hv]
      have := (mag_le_iff F).2 hle
      exact rq_mono h (by omega) (by omega) (by omega)
    · rw [Nat.max_eq_left hle]
      conv => rhs; rw [← rq_mag h hu]
      have := (mag_le_iff F).2 hle
      exact rq_mono h (by omega) (by omega) (by omega)
  have hz : u = v → F.rq (F.mag u - F.mag v + (F.mag v - F.mag u)) 1 = 0 := by
    rintro rfl; rw [Nat.sub_self, Nat.add_zero, rq_zero h (by omega)]
  generalize F.rq (F.mag u - F.mag v + (F.mag v - F.mag u)) 1 = d at *
  generalize ht : F.add u v = t at *
  by_cases hi : t = F.infBits
  · refine ⟨0, Nat.zero_le _, ?_, ?_, fun _ => rfl⟩ <;> rw [hi, div_fin_inf h (by omega)]
  · refine ⟨F.rq (F.mag d * 2 ^ F.low) (F.mag t), ?_, ?_, ?_, ?_⟩
    · rw [ofInt_one h]
      have := (mag_le_iff F).2 (show d ≤ t by omega)
      refine rq_mono h ((mag_pos F).2 (by omega)) (by omega) ?_
      rw [Nat.mul_one, Nat.mul_comm]; exact Nat.mul_le_mul_left _ this
    · conv => lhs; rw [← plus_signed F t]
      rw [div_mag h (by omega) (by omega) (by omega), Bool.bne_false]
    · conv => lhs; rw [← plus_signed F t]
      rw [div_mag h (by omega) (by omega) (by omega), Bool.bne_false]
    · intro e
      rw [hz e, mag_zero, Nat.zero_mul, rq_zero h ((mag_pos F).2 (by omega))]

/-! ### The exponential function of `ieee` -/

theorem expSeries_mono : ∀ (k i : Nat) {y y' t t' a a' : Nat}, y ≤ y' → t ≤ t' → a ≤ a' → expSeries y k i t a ≤ expSeries y' k i t' a'
  | 0, _, _, _, _, _, _, _, _, _, ha => ha
  | k + 1, i, _, _, _, _, _, _, hy, ht, ha => by
    have : ∀ {t y t' y' : Nat}, y ≤ y' → t ≤ t' → t * y / 2 ^ 200 / i ≤ t' * y' / 2 ^ 200 / i := fun hy ht =>
      Nat.div_le_div_right (Nat.div_le_div_right (Nat.mul_le_mul ht hy))
    have := this hy ht
    exact expSeries_mono k (i + 1) hy this (by omega)

theorem expSeries_ge : ∀ (k i y t a : Nat), a ≤ expSeries y k i t a
  | 0, _, _, _, _ => Nat.le_refl _
  | k + 1, i, y, t, a => Nat.le_trans (Nat.le_add_right ..) (expSeries_ge k (i + 1) y _ _)

theorem expSquare_mono : ∀ (k : Nat) {y y' : Nat}, y ≤ y' → expSquare k y ≤ expSquare k y'
  | 0, _, _, h => h
  | k + 1, _, _, h => expSquare_mono k (Nat.div_le_div_right (Nat.mul_le_mul h h))

theorem expSquare_ge : ∀ (k : Nat) {y : Nat}, 2 ^ 200 ≤ y → 2 ^ 200 ≤ expSquare k y
  | 0, _, h => h
  | k + 1, y, h => expSquare_ge k (by
      rw [Nat.le_div_iff_mul_le (Nat.two_pow_pos _)]; exact Nat.mul_le_mul h h)

/-- `2^200 * exp(u)`, about, for `u` units. -/
def expUnits (u : Nat) : Nat := expSquare 10 (expSeries (u * 2 ^ 190 / 2 ^ 1074) 40 1 (2 ^ 200) (2 ^ 200))

theorem expUnits_mono {u u' : Nat} (h : u ≤ u') : expUnits u ≤ expUnits u' :=
  expSquare_mono 10 (expSeries_mono 40 1 (Nat.div_le_div_right (Nat.mul_le_mul_right _ h)) (Nat.le_refl _) (Nat.le_refl _))

theorem expUnits_ge (u : Nat) : 2 ^ 200 ≤ expUnits u := expSquare_ge 10 (expSeries_ge ..)

attribute [local irreducible] expUnits expSeries expSquare

/-- The part before the point of `m * 2 ^ (i - j)`. -/
theorem shift_high {m i j k : Nat} (h : i = k + j) : m * 2 ^ k = m * 2 ^ i / 2 ^ j := by
  rw [h, Nat.pow_add, ← Nat.mul_assoc, Nat.mul_div_cancel _ (Nat.two_pow_pos _)]

theorem shift_down {m i j k : Nat} (h : j = k + i) : m / 2 ^ k = m * 2 ^ i / 2 ^ j := by
  rw [h, Nat.pow_add, Nat.mul_div_mul_right _ _ (Nat.two_pow_pos _)]

/-- The exponential of the magnitude `u` in units, with a sign. -/
def expMag (s : Bool) (u : Nat) : Nat :=
  if u = 0 then b64.ofInt 1
  else if 1024 ≤ u / 2 ^ 1074 then (if s then 0 else b64.infBits)
  else if s then b64.rq (2 ^ 2400 / expUnits u) (2 ^ 1126) else b64.rq (expUnits u * 2 ^ 874) 1

theorem exp64_signed (s : Bool) {n : Nat} (hn : n < b64.infBits) : exp64 (b64.signed s n) = expMag s (b64.mag n) := by
  obtain ⟨m, i, hd, hm⟩ := decode_mag (s := s) b64_ok hn
  have hemin : b64.emin = -1074 := by decide
  have hm0 : m = 0 ↔ b64.mag n = 0 := by
    rw [← hm, Nat.mul_eq_zero]
    have := Nat.two_pow_pos i
    omega
  have e1 : (if (0 : Int) ≤ b64.emin + i then m * 2 ^ (b64.emin + (i : Int)).toNat else m / 2 ^ (-(b64.emin + (i : Int))).toNat) = b64.mag n / 2 ^ 1074 := by
    rw [hemin, ← hm]
    split
    · exact shift_high (by omega)
    · exact shift_down (by omega)
  have e2 : (if (-190 : Int) ≤ b64.emin + i then m * 2 ^ (b64.emin + (i : Int) + 190).toNat else m / 2 ^ (-190 - (b64.emin + (i : Int))).toNat) = b64.mag n * 2 ^ 190 / 2 ^ 1074 := by
    rw [hemin, ← hm, Nat.mul_assoc, ← Nat.pow_add]
    split
    · exact shift_high (by omega)
    · exact shift_down (by omega)
  unfold exp64 expMag
  rw [hd]
  simp only
  rw [e1, e2]
  by_cases h0 : b64.mag n = 0
  · rw [if_pos h0, if_pos (hm0.2 h0)]
  · rw [if_neg h0, if_neg (fun h => h0 (hm0.1 h))]
    split
    · rfl
    · rw [round_any b64_ok (x := 0) (y := 1126) (he := by rw [hemin]; decide), round_any b64_ok (x := 874) (y := 0) (he := by rw [hemin]; decide)]
      rw [plus_signed, plus_signed, Nat.pow_zero, Nat.mul_one, ← expUnits]

theorem expMag_mono {u u' : Nat} (h : u ≤ u') : expMag false u ≤ expMag false u' := by
  have hone : ∀ u, b64.ofInt 1 ≤ b64.rq (expUnits u * 2 ^ 874) 1 := fun u => by
    rw [ofInt_one b64_ok]
    refine rq_mono b64_ok (by omega) (by omega) ?_
    rw [Nat.mul_one, Nat.mul_one, show b64.low = 200 + 874 from rfl, Nat.pow_add]
    exact Nat.mul_le_mul_right _ (expUnits_ge u)
  have hinf := (one_mag b64_ok).1
  have hd : u / 2 ^ 1074 ≤ u' / 2 ^ 1074 := Nat.div_le_div_right h
  have hm := rq_mono b64_ok (N := expUnits u * 2 ^ 874) (N' := expUnits u' * 2 ^ 874) Nat.one_pos Nat.one_pos
    (Nat.mul_le_mul_right _ (Nat.mul_le_mul_right _ (expUnits_mono h)))
  have hi := rq_le_inf b64 (expUnits u * 2 ^ 874) 1
  have h1 := hone u'
  simp only [expMag, Bool.false_eq_true, if_false]
  generalize u / 2 ^ 1074 = q at *
  generalize u' / 2 ^ 1074 = q' at *
  by_cases h0 : u = 0
  · rw [if_pos h0]
    split
    · exact Nat.le_refl _
    · split
      · omega
      · exact h1
  · rw [if_neg h0, if_neg (show u' ≠ 0 by omega)]
    by_cases hq : 1024 ≤ q
    · rw [if_pos hq, if_pos (by omega)]; exact Nat.le_refl _
    · rw [if_neg hq]
      split
      · exact hi
      · exact hm

theorem expMag_anti {u u' : Nat} (h : u ≤ u') : expMag true u' ≤ expMag true u := by
  have hone : b64.rq (2 ^ 2400 / expUnits u') (2 ^ 1126) ≤ b64.ofInt 1 := by
    rw [ofInt_one b64_ok]
    refine rq_mono b64_ok (Nat.two_pow_pos _) (by omega) ?_
    rw [Nat.mul_one, ← Nat.pow_add, show b64.low + 1126 = 2200 from rfl]
    have : ∀ {a b r : Nat}, 2 ^ a ≤ r → 2 ^ (a + b) / r ≤ 2 ^ b := fun {a b r} h =>
      Nat.div_le_of_le_mul (by rw [Nat.pow_add]; exact Nat.mul_le_mul_right _ h)
    have := this (b := 2200) (expUnits_ge u')
    rwa [show 200 + 2200 = 2400 from rfl] at this
  have hd : u / 2 ^ 1074 ≤ u' / 2 ^ 1074 := Nat.div_le_div_right h
  have hpos : ∀ u, 0 < expUnits u := fun u => Nat.lt_of_lt_of_le (Nat.two_pow_pos _) (expUnits_ge u)
  have hm := rq_mono b64_ok (N := 2 ^ 2400 / expUnits u') (N' := 2 ^ 2400 / expUnits u) (Nat.two_pow_pos 1126) (Nat.two_pow_pos 1126)
    (Nat.mul_le_mul_right _ (Nat.div_le_div_left (expUnits_mono h) (hpos u)))
  simp only [expMag, if_true]
  generalize u / 2 ^ 1074 = q at *
  generalize u' / 2 ^ 1074 = q' at *
  by_cases h0 : u = 0
  · rw [if_pos h0]
    split
    · exact Nat.le_refl _
    · split
      · exact Nat.zero_le _
      · exact hone
  · rw [if_neg h0, if_neg (show u' ≠ 0 by omega)]
    by_cases hq : 1024 ≤ q'
    · rw [if_pos hq]; exact Nat.zero_le _
    · rw [if_neg hq, if_neg (by omega)]; exact hm

theorem expMag_eq_one (s : Bool) {u : Nat} (h : u = 0) : expMag s u = b64.ofInt 1 := by unfold expMag; rw [if_pos h]

theorem expMag_zero (s : Bool) : expMag s 0 = b64.ofInt 1 := expMag_eq_one s rfl

theorem exp64_of_inf {b : Nat} {s : Bool} (h : b64.decode b = .inf s) : exp64 b = if s then 0 else b64.infBits := by
  unfold exp64; rw [h]

theorem exp64_inf (s : Bool) : exp64 (b64.signed s b64.infBits) = if s then 0 else b64.infBits := exp64_of_inf (decode_inf b64_ok s)

theorem exp64_low {s : Bool} {n : Nat} (hn : n ≤ b64.infBits) : exp64 (b64.signed s n) ≤ b64.infBits ∧
    (s = true → exp64 (b64.signed s n) ≤ b64.ofInt 1) ∧ (s = false → b64.ofInt 1 ≤ exp64 (b64.signed s n)) := by
  have hinf := (one_mag b64_ok).1
  by_cases hi : n = b64.infBits
  · subst hi
    rw [exp64_inf]
    cases s
    · exact ⟨Nat.le_refl _, fun h => absurd h (by decide), fun _ => by simpa using Nat.le_of_lt hinf⟩
    · exact ⟨Nat.zero_le _, fun _ => Nat.zero_le _, fun h => absurd h (by decide)⟩
  · rw [exp64_signed s (by omega)]
    cases s
    · have h1 := expMag_mono (Nat.zero_le (b64.mag n))
      rw [expMag_zero] at h1
      refine ⟨?_, fun h => absurd h (by decide), fun _ => h1⟩
      simp only [expMag, Bool.false_eq_true, if_false]
      split
      · omega
      · split
        · exact Nat.le_refl _
        · exact rq_le_inf ..
    · have h1 := expMag_anti (Nat.zero_le (b64.mag n))
      rw [expMag_zero] at h1
      exact ⟨by omega, fun _ => h1, fun h => absurd h (by decide)⟩

/-- The exponential function of `ieee` is monotone. -/
theorem exp64_mono {a b : Nat} (ha : a < 2 * b64.signBit) (hb : b < 2 * b64.signBit) (na : b64.isNaN a = false) (nb : b64.isNaN b = false)
    (h : b64.key a ≤ b64.key b) : exp64 a ≤ exp64 b := by
  obtain ⟨s, n, hn, rfl⟩ := not_nan_signed ha na
  obtain ⟨t, k, hk, rfl⟩ := not_nan_signed hb nb
  have hs := inf_lt_sign b64_ok
  rw [key_signed (by omega), key_signed (by omega)] at h
  have l1 := exp64_low (s := s) hn
  have l2 := exp64_low (s := t) hk
  cases s <;> cases t <;> simp only [sgn, Bool.false_eq_true, if_false, if_true] at h
  · by_cases hi : k = b64.infBits
    · rw [hi, exp64_inf]; exact l1.1
    · rw [exp64_signed _ (by omega), exp64_signed _ (by omega)]
      exact expMag_mono ((mag_le_iff b64).2 (by omega))
  · have h1 : n = 0 := by omega
    have h2 : k = 0 := by omega
    subst h1 h2
    rw [exp64_signed _ (inf_pos b64_ok), exp64_signed _ (inf_pos b64_ok), mag_zero, expMag_zero, expMag_zero]
    exact Nat.le_refl _
  · exact Nat.le_trans (l1.2.1 rfl) (l2.2.2 rfl)
  · by_cases hi : n = b64.infBits
    · rw [hi, exp64_inf]; exact Nat.zero_le _
    · rw [exp64_signed _ (by omega), exp64_signed _ (by omega)]
      exact expMag_anti ((mag_le_iff b64).2 (by omega))

theorem exp64_nan {a : Nat} (ha : a < 2 * b64.signBit) (na : b64.isNaN a = true) : exp64 a = b64.nanBits := by
  unfold exp64; rw [decode_isNaN b64_ok ha na]

theorem exp64_le {a : Nat} (ha : a < 2 * b64.signBit) (na : b64.isNaN a = false) : exp64 a ≤ b64.infBits := by
  obtain ⟨s, n, hn, rfl⟩ := not_nan_signed ha na
  exact (exp64_low hn).1

end Aitisa
