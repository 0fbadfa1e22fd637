import Verif.Spec.Norm
import Verif.Proof.OrderVal
import Verif.Props.Nearest

/-!
# Batch normalisation of floating-point numbers, element by element
-/

namespace Aitisa

variable {F : Fmt} {c : Code}

/-! ## NaN and infinity spread -/

theorem sub_parts (h : F.OK) {a b : Nat} (ha : a < 2 * F.signBit) (hb : b < 2 * F.signBit) (hn : F.isNaN (F.sub a b) = false) :
    F.isNaN a = false ∧ F.isNaN b = false := by
  have hN := nan_is_nan h
  unfold Fmt.sub at hn
  have hb' : F.isNaN b = false := decode_isNaN' h hb fun e => by rw [e] at hn; simp only [hN] at hn; cases hn
  have hd := decode_nan h hb hb'
  refine ⟨decode_isNaN' h ha fun e => ?_, hb'⟩
  have e' : F.add a (F.neg b) = F.nanBits := by rw [add_eq_sum, e, sum_nan_left]
  cases hx : F.decode b with
  | nan => exact hd hx
  | inf s => rw [hx] at hn; simp only [e', hN] at hn; cases hn
  | fin s m e => rw [hx] at hn; simp only [e', hN] at hn; cases hn

theorem mul_parts (h : F.OK) {a b : Nat} (ha : a < 2 * F.signBit) (hb : b < 2 * F.signBit) (hn : F.isNaN (F.mul a b) = false) :
    F.isNaN a = false ∧ F.isNaN b = false := by
  have hN := nan_is_nan h
  unfold Fmt.mul at hn
  refine ⟨decode_isNaN' h ha fun e => ?_, decode_isNaN' h hb fun e => ?_⟩
  · rw [e] at hn; simp only [hN] at hn; cases hn
  · rw [e] at hn
    cases hx : F.decode a <;> rw [hx] at hn <;> simp only [hN] at hn <;> cases hn

theorem div_right (h : F.OK) {a b : Nat} (hb : b < 2 * F.signBit) (hn : F.isNaN (F.div a b) = false) : F.isNaN b = false := by
  have hN := nan_is_nan h
  unfold Fmt.div at hn
  refine decode_isNaN' h hb fun e => ?_
  rw [e] at hn
  cases hx : F.decode a <;> rw [hx] at hn <;> simp only [hN] at hn <;> cases hn

/-- An operator that does not give a NaN has operands that are none. -/
theorem op_parts {op : BinOp} {x y z : Val} (hx : x.WT c) (hy : y.WT c) (hc : c = .f32 ∨ c = .f64) (hz : OpResult ieee c op x y z) (hn : NotNaN z) :
    NotNaN x ∧ NotNaN y := by
  rcases hc with rfl | rfl
  · cases x <;> try exact hx.elim
    cases y <;> try exact hy.elim
    rename_i x y
    simp only [OpResult] at hz
    subst hz
    cases op
    · change b32.isNaN (BitVec.ofNat 32 (b32.add x.toNat y.toNat)).toNat = false at hn
      rw [of32 (add_lt b32_ok _ _)] at hn; exact add_parts b32_ok (bits32 _) (bits32 _) hn
    · change b32.isNaN (BitVec.ofNat 32 (b32.sub x.toNat y.toNat)).toNat = false at hn
      rw [of32 (sub_lt b32_ok _ _)] at hn; exact sub_parts b32_ok (bits32 _) (bits32 _) hn
    · change b32.isNaN (BitVec.ofNat 32 (b32.mul x.toNat y.toNat)).toNat = false at hn
      rw [of32 (mul_lt b32_ok _ _)] at hn; exact mul_parts b32_ok (bits32 _) (bits32 _) hn
    · change b32.isNaN (BitVec.ofNat 32 (b32.div x.toNat y.toNat)).toNat = false at hn
      rw [of32 (div_lt b32_ok _ _)] at hn; exact ⟨div_parts b32_ok (bits32 _) hn, div_right b32_ok (bits32 _) hn⟩
  · cases x <;> try exact hx.elim
    cases y <;> try exact hy.elim
    rename_i x y
    simp only [OpResult] at hz
    subst hz
    cases op
    · change b64.isNaN (BitVec.ofNat 64 (b64.add x.toNat y.toNat)).toNat = false at hn
      rw [of64 (add_lt b64_ok _ _)] at hn; exact add_parts b64_ok (bits64 _) (bits64 _) hn
    · change b64.isNaN (BitVec.ofNat 64 (b64.sub x.toNat y.toNat)).toNat = false at hn
      rw [of64 (sub_lt b64_ok _ _)] at hn; exact sub_parts b64_ok (bits64 _) (bits64 _) hn
    · change b64.isNaN (BitVec.ofNat 64 (b64.mul x.toNat y.toNat)).toNat = false at hn
      rw [of64 (mul_lt b64_ok _ _)] at hn; exact mul_parts b64_ok (bits64 _) (bits64 _) hn
    · change b64.isNaN (BitVec.ofNat 64 (b64.div x.toNat y.toNat)).toNat = false at hn
      rw [of64 (div_lt b64_ok _ _)] at hn; exact ⟨div_parts b64_ok (bits64 _) hn, div_right b64_ok (bits64 _) hn⟩

theorem mul_some (h : F.OK) {a b : Nat} {q : Rat} (hq : F.rat (F.mul a b) = some q) : (∃ x, F.rat a = some x) ∧ ∃ y, F.rat b = some y := by
  have hn := rat_nan h
  have hi := rat_inf h
  unfold Fmt.mul at hq
  unfold Fmt.rat
  cases ha : F.decode a <;> cases hb : F.decode b <;> simp only [ha, hb] at hq
  case fin.fin => exact ⟨⟨_, rfl⟩, ⟨_, rfl⟩⟩
  all_goals first
    | (rw [hn] at hq; cases hq; done)
    | (rw [hi] at hq; cases hq; done)
    | (split at hq
       · rw [hn] at hq; cases hq
       · rw [hi] at hq; cases hq)

/-- The first operand of a sum, difference or quotient (by a number) and both of a product that is a number are numbers. -/
theorem op_number {op : BinOp} {x y z : Val} {q : Rat} (hx : x.WT c) (hy : y.WT c) (hc : c = .f32 ∨ c = .f64) (hz : OpResult ieee c op x y z)
    (hq : z.rat = some q) : match op with
    | .add | .mul => (∃ a, x.rat = some a) ∧ ∃ b, y.rat = some b
    | .div => ∀ b, y.rat = some b → ∃ a, x.rat = some a
    | .sub => True := by
  rcases hc with rfl | rfl
  · cases x <;> try exact hx.elim
    cases y <;> try exact hy.elim
    rename_i x y
    simp only [OpResult] at hz
    subst hz
    cases op
    · change b32.rat (BitVec.ofNat 32 (b32.add x.toNat y.toNat)).toNat = _ at hq
      rw [of32 (add_lt b32_ok _ _)] at hq; exact add_some b32_ok hq
    · trivial
    · change b32.rat (BitVec.ofNat 32 (b32.mul x.toNat y.toNat)).toNat = _ at hq
      rw [of32 (mul_lt b32_ok _ _)] at hq; exact mul_some b32_ok hq
    · change b32.rat (BitVec.ofNat 32 (b32.div x.toNat y.toNat)).toNat = _ at hq
      rw [of32 (div_lt b32_ok _ _)] at hq; exact fun b hb => div_some b32_ok hb hq
  · cases x <;> try exact hx.elim
    cases y <;> try exact hy.elim
    rename_i x y
    simp only [OpResult] at hz
    subst hz
    cases op
    · change b64.rat (BitVec.ofNat 64 (b64.add x.toNat y.toNat)).toNat = _ at hq
      rw [of64 (add_lt b64_ok _ _)] at hq; exact add_some b64_ok hq
    · trivial
    · change b64.rat (BitVec.ofNat 64 (b64.mul x.toNat y.toNat)).toNat = _ at hq
      rw [of64 (mul_lt b64_ok _ _)] at hq; exact mul_some b64_ok hq
    · change b64.rat (BitVec.ofNat 64 (b64.div x.toNat y.toNat)).toNat = _ at hq
      rw [of64 (div_lt b64_ok _ _)] at hq; exact fun b hb => div_some b64_ok hb hq

/-! ## One rounding -/

theorem roundedTo_close (hc : c = .f32 ∨ c = .f64) {z : Val} {e q : Rat} (hz : z.WT c) (hr : RoundedTo e z) (hq : z.rat = some q) :
    (q - e).abs ≤ 1 / 2 ^ c.fmt.p * e.abs + 2 ^ c.fmt.emin / 2 := by
  rcases hc with rfl | rfl <;> cases z <;> try exact hz.elim
  · exact Fmt.Rounded.close b32_ok hr hq
  · exact Fmt.Rounded.close b64_ok hr hq

theorem roundedTo_number (hc : c = .f32 ∨ c = .f64) {z : Val} {e : Rat} (hz : z.WT c) (hr : RoundedTo e z) (hl : e.abs < c.fmt.limit) :
    ∃ q, z.rat = some q := by
  rcases hc with rfl | rfl <;> cases z <;> try exact hz.elim
  · obtain ⟨q, hq, -⟩ := hr.1 hl; exact ⟨q, hq⟩
  · obtain ⟨q, hq, -⟩ := hr.1 hl; exact ⟨q, hq⟩

/-! ## The root -/

/-- Neighbours differ by at most one part in `2^(p-1)`, for numbers that are not tiny. -/
theorem mag_gap_rel (F : Fmt) {n : Nat} (hn : 2 ^ (F.p - 1) ≤ n) : 2 ^ (F.p - 1) * F.mag (n + 1) ≤ (2 ^ (F.p - 1) + 1) * F.mag n := by
  have hP : 0 < 2 ^ (F.p - 1) := Nat.two_pow_pos _
  simp only [Fmt.mag]
  generalize 2 ^ (F.p - 1) = P at *
  have hdm := Nat.div_add_mod n P
  have hml := Nat.mod_lt n hP
  have hx1 : n / P ≠ 0 := by
    have := Nat.div_pos hn hP
    omega
  generalize hx : n / P = x at *
  generalize hf : n % P = f at *
  obtain ⟨y, rfl⟩ : ∃ y, x = y + 1 := ⟨x - 1, by omega⟩
  by_cases hc : f + 1 < P
  · have h1 : (n + 1) / P = y + 1 := by
      rw [← hdm, Nat.add_assoc, Nat.mul_add_div hP, Nat.div_eq_of_lt hc]
    have h2 : (n + 1) % P = f + 1 := by
      rw [← hdm, Nat.add_assoc, Nat.mul_add_mod, Nat.mod_eq_of_lt hc]
    rw [h1, h2, if_neg (by omega), if_neg (by omega), ← Nat.mul_assoc, ← Nat.mul_assoc]
    refine Nat.mul_le_mul_right _ ?_
    grind
  · have hfp : f + 1 = P := by omega
    have h1 : (n + 1) / P = y + 2 := by
      rw [← hdm, Nat.add_assoc, hfp, ← Nat.mul_succ, Nat.mul_div_cancel_left _ hP]
    have h2 : (n + 1) % P = 0 := by
      rw [← hdm, Nat.add_assoc, hfp, ← Nat.mul_succ, Nat.mul_mod_right]
    rw [h1, h2, if_neg (by omega), if_neg (by omega), show y + 2 - 1 = y + 1 by omega, show y + 1 - 1 = y by omega, Nat.pow_succ, ← Nat.mul_assoc]
    rw [← Nat.mul_assoc, ← Nat.mul_assoc, Nat.mul_right_comm]
    refine Nat.mul_le_mul_right _ ?_
    clear hdm hml hx hf h1 h2 hn hc hx1
    subst hfp
    have e : (f + 1 + 1) * (f + 1 + f) = (f + 1) * (f + 1 + 0) * 2 + f := by grind
    omega

theorem mag_small {n : Nat} (F : Fmt) (hn : n < 2 ^ (F.p - 1)) : F.mag n = n := by
  simp [Fmt.mag, Nat.div_eq_of_lt hn, Nat.mod_eq_of_lt hn]

theorem mag_first (F : Fmt) : F.mag (2 ^ (F.p - 1)) = 2 ^ (F.p - 1) := by
  simp [Fmt.mag, Nat.two_pow_pos]

theorem sq_mono {a b : Rat} (h0 : 0 ≤ a) (h : a ≤ b) : a * a ≤ b * b := by
  have h1 := Rat.mul_le_mul_of_nonneg_left h h0
  have h2 := Rat.mul_le_mul_of_nonneg_right h (show 0 ≤ b by grind)
  grind

theorem root_bounds {r r0 r1 P W : Nat} {u i : Rat} (hP : 0 < P) (hr : 0 < r) (hup : P * r1 ≤ (P + 1) * r) (hdn : (P - 1) * r ≤ P * r0)
    (u1 : 4 * W ≤ (r + r1) * (r + r1)) (u2 : (r0 + r) * (r0 + r) ≤ 4 * W) (hi : 0 < i) (hv : u * (2 * P) = 1) (hu : 0 ≤ u) :
    0 < (r : Rat) * i ∧ (1 - u) * (r * i) * ((1 - u) * (r * i)) ≤ W * i * i ∧ W * i * i ≤ (1 + u) * (r * i) * ((1 + u) * (r * i)) := by
  have hP' : (0 : Rat) < P := cast_pos hP
  have hr' : (0 : Rat) < r := cast_pos hr
  obtain ⟨p, rfl⟩ : ∃ p, P = p + 1 := ⟨P - 1, by omega⟩
  rw [Nat.add_sub_cancel] at hdn
  have a1 := Rat.natCast_le_natCast.2 hup
  have a2 := Rat.natCast_le_natCast.2 hdn
  have a3 := Rat.natCast_le_natCast.2 u1
  have a4 := Rat.natCast_le_natCast.2 u2
  have a5 : (0 : Rat) ≤ r0 := Rat.natCast_nonneg
  have a6 : (0 : Rat) ≤ r1 := Rat.natCast_nonneg
  simp only [Rat.natCast_mul, Rat.natCast_add] at a1 a2 a3 a4 hv hP'
  clear hup hdn u1 u2 hP hr
  generalize (r : Rat) = r at *
  generalize (r0 : Rat) = r0 at *
  generalize (r1 : Rat) = r1 at *
  generalize (W : Rat) = W at *
  have a7 : (0 : Rat) ≤ p := Rat.natCast_nonneg
  generalize (p : Rat) = p at *
  have e1 : ((1 : Nat) : Rat) = 1 := rfl
  have e4 : ((4 : Nat) : Rat) = 4 := rfl
  rw [e1] at hv hP' a1 a2
  rw [e4] at a3 a4
  have hup1 : u ≤ 1 := by
    have := Rat.mul_nonneg hu a7
    grind
  have b1 := Rat.mul_le_mul_of_nonneg_left a1 hu
  have b2 := Rat.mul_le_mul_of_nonneg_left a2 hu
  have c1 : r + r1 ≤ 2 * ((1 + u) * r) := by
    have k1 : 2 * (u * ((p + 1) * r1)) = u * (2 * (p + 1)) * r1 := by grind
    have k2 : 2 * (u * ((p + 1 + 1) * r)) = u * (2 * (p + 1)) * r + 2 * (u * r) := by grind
    rw [hv, Rat.one_mul] at k1 k2
    grind
  have c2 : 2 * ((1 - u) * r) ≤ r0 + r := by
    have k1 : 2 * (u * ((p + 1) * r0)) = u * (2 * (p + 1)) * r0 := by grind
    have k2 : 2 * (u * (p * r)) = u * (2 * (p + 1)) * r - 2 * (u * r) := by grind
    rw [hv, Rat.one_mul] at k1 k2
    grind
  have d1 := sq_mono (by grind) c1
  have d2 := sq_mono (Rat.mul_nonneg (by decide) (Rat.mul_nonneg (show 0 ≤ 1 - u by grind) (Rat.le_of_lt hr'))) c2
  have i2 : 0 ≤ i * i := Rat.le_of_lt (Rat.mul_pos hi hi)
  have f1 : W ≤ (1 + u) * r * ((1 + u) * r) := by grind
  have f2 : (1 - u) * r * ((1 - u) * r) ≤ W := by grind
  have g1 := Rat.mul_le_mul_of_nonneg_right f1 i2
  have g2 := Rat.mul_le_mul_of_nonneg_right f2 i2
  refine ⟨Rat.mul_pos hr' hi, ?_, ?_⟩ <;> grind

/-- The rounded root `q` of a positive number: the number lies between the squares of `q (1 - 2^-p)` and `q (1 + 2^-p)`. -/
theorem root_close (h : F.OK) {a b : Nat} (ha : a < 2 * F.signBit) (hb : b < 2 * F.signBit) {x q : Rat} (hx : F.rat a = some x) (h0 : 0 < x)
    (hr : F.RootRounded x b) (hq : F.rat b = some q) : 0 < q ∧ ((1 - 1 / 2 ^ F.p) * q) * ((1 - 1 / 2 ^ F.p) * q) ≤ x ∧
      x ≤ (F.grow * q) * (F.grow * q) := by
  have hs := sqrt_rounded h ha hx (Rat.le_of_lt h0)
  have hlt := sqrt_lt h ha
  have hU := low_pos F
  obtain ⟨s, m, hm, rfl, hxm⟩ := rat_some h ha hx
  have hs' : s = false := by
    cases s
    · rfl
    · have : (sgn true (F.mag m) : Rat) / (2 ^ F.low : Nat) ≤ 0 / (2 ^ F.low : Nat) :=
        (div_le_div_iff hU).2 (Rat.intCast_nonpos.2 (by simp [sgn]))
      rw [← hxm, Rat.div_def, Rat.zero_mul] at this
      grind
  subst hs'
  have hm0 : 0 < m := by
    rcases Nat.eq_zero_or_pos m with rfl | h1
    · rw [mag_zero] at hxm
      simp [sgn, Rat.div_def] at hxm
      grind
    · exact h1
  obtain ⟨R, eR, hR⟩ := sqrt_mag h hm hm0
  rw [eR] at hs hlt
  have hRi : R < F.infBits := by
    have := inf_pos h
    have hm2 := hR (F.infBits - 1) (by omega)
    rw [show F.infBits - 1 + 1 = F.infBits by omega, end2_eq h] at hm2
    have := hm2.2 (.inl (mag_lt_end2 h hm))
    omega
  have hqR : q = (F.mag R : Rat) / (2 ^ F.low : Nat) := by
    obtain ⟨w, hw, -⟩ := id hs
    have h1 := rootRounded_le h hb hlt hr hs (Rat.le_refl)
    have h2 := rootRounded_le h hlt hb hs hr (Rat.le_refl)
    rw [le_rat h hb hlt hq hw] at h1
    rw [le_rat h hlt hb hw hq] at h2
    rw [rat_signed h hRi] at hw
    cases hw
    exact Rat.le_antisymm h1 h2
  have hP : 0 < 2 ^ (F.p - 1) := Nat.two_pow_pos _
  have hpP : 2 ^ F.p = 2 * 2 ^ (F.p - 1) := by
    have := h.p3
    obtain ⟨k, hk⟩ : ∃ k, F.p = k + 1 := ⟨F.p - 1, by omega⟩
    rw [hk, Nat.pow_succ]; simp; omega
  obtain ⟨W, hW⟩ : ∃ W, W = F.mag m * 2 ^ F.low := ⟨_, rfl⟩
  rw [← hW] at hR
  have hWlow : 2 ^ F.low ≤ W := by
    rw [hW]; exact Nat.le_mul_of_pos_left _ ((mag_pos F).2 hm0)
  -- the root is not tiny
  have hnorm : 2 ^ (F.p - 1) ≤ R := by
    refine Nat.le_of_not_lt fun hlt => ?_
    have hi : 2 ^ (F.p - 1) ≤ F.infBits := by
      have h1 : 4 ≤ 2 ^ F.w := Nat.pow_le_pow_right (n := 2) (i := 2) (by omega) h.w2
      unfold Fmt.infBits
      exact Nat.le_mul_of_pos_left _ (by omega)
    have h1 := (hR (2 ^ (F.p - 1) - 1) (by omega)).1 (by omega)
    have e1 := mag_small F (n := 2 ^ (F.p - 1) - 1) (by omega)
    rw [e1, show 2 ^ (F.p - 1) - 1 + 1 = 2 ^ (F.p - 1) by omega, mag_first] at h1
    have h3 : 4 * W ≤ (2 ^ (F.p - 1) - 1 + 2 ^ (F.p - 1)) * (2 ^ (F.p - 1) - 1 + 2 ^ (F.p - 1)) := by omega
    have h4 : (2 ^ (F.p - 1) - 1 + 2 ^ (F.p - 1)) * (2 ^ (F.p - 1) - 1 + 2 ^ (F.p - 1)) ≤ 2 ^ F.p * 2 ^ F.p :=
      Nat.mul_le_mul (by omega) (by omega)
    rw [← Nat.pow_add] at h4
    have h5 : 2 ^ (F.p + F.p) ≤ 2 ^ (F.low + 1) := Nat.pow_le_pow_right (by omega) (by have := h.room; simp only [Fmt.low]; omega)
    rw [Nat.pow_succ] at h5
    have := Nat.two_pow_pos F.low
    omega
  generalize hPd : 2 ^ (F.p - 1) = P at *
  have hup : P * F.mag (R + 1) ≤ (P + 1) * F.mag R := by rw [← hPd]; exact mag_gap_rel F (by omega)
  have hdn : (P - 1) * F.mag R ≤ P * F.mag (R - 1) := by
    rcases Nat.lt_or_ge P R with hl | hl
    · have := mag_gap_rel F (n := R - 1) (by omega)
      rw [hPd, show R - 1 + 1 = R by omega] at this
      have h2 := (mag_le_iff F (a := R - 1) (b := R)).2 (by omega)
      have e1 : (P + 1) * F.mag (R - 1) = P * F.mag (R - 1) + F.mag (R - 1) := by rw [Nat.add_mul, Nat.one_mul]
      have e2 : (P - 1) * F.mag R = P * F.mag R - F.mag R := by rw [Nat.sub_mul, Nat.one_mul]
      omega
    · have : R = P := by omega
      subst this
      have e1 := mag_first F
      have e2 := mag_small F (n := R - 1) (by omega)
      rw [hPd] at e1
      rw [e1, e2, Nat.mul_comm]
  have u1 : 4 * W ≤ (F.mag R + F.mag (R + 1)) * (F.mag R + F.mag (R + 1)) := by
    have := (hR R hRi).1 (Nat.le_refl _); omega
  have u2 : (F.mag (R - 1) + F.mag R) * (F.mag (R - 1) + F.mag R) ≤ 4 * W := by
    have := mt (hR (R - 1) (by omega)).2 (by omega)
    rw [show R - 1 + 1 = R by omega] at this
    omega
  have hq0 : 0 < F.mag R := (mag_pos F).2 (by omega)
  have hx' : x = (W : Rat) * ((2 ^ F.low : Nat) : Rat)⁻¹ * ((2 ^ F.low : Nat) : Rat)⁻¹ := by
    rw [hxm, hW, Rat.natCast_mul, Rat.mul_assoc (F.mag m : Rat), Rat.mul_inv_cancel _ (by grind), Rat.mul_one, Rat.div_def]
    rfl
  rw [Rat.div_def] at hqR
  have hi := Rat.inv_pos.2 hU
  have hv : (1 : Rat) / 2 ^ F.p * (2 * P) = 1 := by
    have e1 : ((2 ^ F.p : Nat) : Rat) = ((2 * P : Nat) : Rat) := by rw [hpP]
    rw [Rat.natCast_pow, Rat.natCast_mul] at e1
    rw [show (2 : Rat) * P = 2 ^ F.p from e1.symm]
    exact Rat.div_mul_cancel (by have := two_pow_pos_rat F.p; grind)
  have hu0 := grow_unit F
  clear hxm hR hs hr hlt hx hq eR hb ha
  rw [hqR, hx']
  unfold Fmt.grow
  generalize F.mag R = r at *
  generalize F.mag (R + 1) = r1 at *
  generalize F.mag (R - 1) = r0 at *
  generalize (1 : Rat) / 2 ^ F.p = u at *
  generalize ((2 ^ F.low : Nat) : Rat)⁻¹ = i at *
  exact root_bounds (by omega) hq0 hup hdn u1 u2 hi hv hu0

/-! ## The chain of operations -/

theorem op_wt {op : BinOp} {x y z : Val} (hx : x.WT c) (hy : y.WT c) (hz : OpResult ieee c op x y z) : z.WT c := cBin_WT hx hy ((opResult_iff hx hy).1 hz)

theorem lt_of_le_lt {a b c : Rat} (h : a ≤ b) (h' : b < c) : a < c := by grind

/-- Rounding a number that is itself off. -/
theorem off_step {u g H B T e e' r : Rat} (hg : g = 1 + u) (hu : 0 ≤ u) (h1 : (e' - e).abs ≤ B) (hT : e.abs ≤ T) (h2 : (r - e').abs ≤ u * e'.abs + H) :
    (r - e).abs ≤ g * B + u * T + H := by
  have h3 : e'.abs ≤ T + B := by grind [Rat.abs]
  have h4 := Rat.mul_le_mul_of_nonneg_left h3 hu
  have h5 : (r - e).abs ≤ (r - e').abs + (e' - e).abs := by grind [Rat.abs]
  subst hg
  generalize u * e'.abs = w at *
  grind

theorem wide_step {u g H T e r : Rat} (hg : g = 1 + u) (hu : 0 ≤ u) (hT : e.abs ≤ T) (h2 : (r - e).abs ≤ u * e.abs + H) : r.abs ≤ g * T + H := by
  have h4 := Rat.mul_le_mul_of_nonneg_left hT hu
  have h5 : r.abs ≤ (r - e).abs + e.abs := by grind [Rat.abs]
  subst hg
  generalize u * e.abs = w at *
  grind

theorem abs_mul_rat (a b : Rat) : (a * b).abs = a.abs * b.abs := by
  by_cases hb : 0 ≤ b
  · rw [abs_mul_right a hb, show b.abs = b by grind [Rat.abs]]
  · have := abs_mul_right a (i := -b) (by grind)
    rw [show a * -b = -(a * b) by grind] at this
    rw [show (a * b).abs = (-(a * b)).abs by grind [Rat.abs], this]
    congr 1
    grind [Rat.abs]

theorem norm_chain {u g H s a b i A2 A3 A4 A5 : Rat} (hg : g = 1 + u) (hu : 0 ≤ u) (hH : 0 ≤ H) (hi : 0 ≤ i)
    (h1 : (A2 - a).abs ≤ u * a.abs + H) (h2 : (A3 - A2 * i).abs ≤ u * (A2 * i).abs + H) (h3 : (A4 - s * A3).abs ≤ u * (s * A3).abs + H)
    (h4 : (A5 - (A4 + b)).abs ≤ u * (A4 + b).abs + H) :
    (A5 - (s * (a * i) + b)).abs ≤ (g ^ 4 - 1) * (s.abs * (a.abs * i) + b.abs) + (g ^ 3 * (s.abs * i) + g ^ 2 * s.abs + g + 1) * H := by
  have k2 := off_step (e := a * i) (B := (u * a.abs + H) * i) (T := a.abs * i) hg hu (by
    rw [show A2 * i - a * i = (A2 - a) * i by grind, abs_mul_right _ hi]
    exact Rat.mul_le_mul_of_nonneg_right h1 hi) (by rw [abs_mul_right _ hi]; exact Rat.le_refl) h2
  have hs : 0 ≤ s.abs := by grind [Rat.abs]
  have k3 := off_step (e := s * (a * i)) (B := s.abs * (g * ((u * a.abs + H) * i) + u * (a.abs * i) + H)) (T := s.abs * (a.abs * i)) hg hu (by
    rw [show s * A3 - s * (a * i) = s * (A3 - a * i) by grind, abs_mul_rat]
    exact Rat.mul_le_mul_of_nonneg_left k2 hs) (by rw [abs_mul_rat, abs_mul_right _ hi]; exact Rat.le_refl) h3
  have k4 := off_step (e := s * (a * i) + b) (B := _) (T := s.abs * (a.abs * i) + b.abs) hg hu (by
    rw [show A4 + b - (s * (a * i) + b) = A4 - s * (a * i) by grind]
    exact k3) (by
    have : (s * (a * i)).abs = s.abs * (a.abs * i) := by rw [abs_mul_rat, abs_mul_right _ hi]
    rw [← this]
    generalize s * (a * i) = z
    grind [Rat.abs]) h4
  refine Rat.le_trans k4 ?_
  have hb : 0 ≤ b.abs := by grind [Rat.abs]
  have hub : u * b.abs ≤ (g ^ 4 - 1) * b.abs := by
    refine Rat.mul_le_mul_of_nonneg_right ?_ hb
    have g3 := one_le_pow (show 1 ≤ g by grind) 3
    have : g ^ 4 = g ^ 3 * g := Rat.pow_succ ..
    have e2 := Rat.mul_le_mul_of_nonneg_right g3 (show 0 ≤ g by grind)
    grind
  generalize s.abs = S at *
  generalize a.abs = A at *
  generalize b.abs = B at *
  clear k2 k3 k4 h1 h2 h3 h4
  have : g * (g * (S * (g * ((u * A + H) * i) + u * (A * i) + H)) + u * (S * (A * i)) + H) + u * (S * (A * i) + B) + H =
      (g ^ 4 - 1) * (S * (A * i)) + u * B + (g ^ 3 * (S * i) + g ^ 2 * S + g + 1) * H := by
    subst hg
    grind
  rw [this]
  grind

/-- The denominator of the code is the one of the specification. -/
theorem denominator_unique (hc : c = .f32 ∨ c = .f64) {eps : BitVec 64} {V e t r : Val} {ε v d : Rat} (hV : V.WT c) (hD : Denominator c ε v d)
    (hε : (Val.f64 eps).rat = some ε) (hv : V.rat = some v) (h1 : Converts ieee c (.f64 eps) e) (h2 : OpResult ieee c .add V e t)
    (h3 : RootOf ieee c t r) : t.WT c ∧ r.WT c ∧ FinPos t ∧ r.rat = some d ∧ 0 < d := by
  obtain ⟨e', t', r', ε', τ, we, wt, wr, k1, k2, k3, k4, k5, k6, k7⟩ := hD
  have ce : e.WT c := cCast_WT (converts_iff.1 h1)
  have ct : t.WT c := op_wt hV ce h2
  have cr : r.WT c := by
    obtain ⟨y, -, hy⟩ := h3
    exact cCast_WT (converts_iff.1 hy)
  have re := cast_rounded hc h1 hε
  have ee := (C75_unique ce we re k1).trans k2
  have rt := op_rounded hV ce hc h2 hv ee rfl
  have et := (C75_unique ct wt rt k3).trans k4
  have rr := root_rounded ct hc h3 et (Rat.le_of_lt k5)
  refine ⟨ct, cr, ⟨τ, et, k5⟩, ?_⟩
  rcases hc with rfl | rfl
  · cases r <;> try exact cr.elim
    cases r' <;> try exact wr.elim
    cases t <;> try exact ct.elim
    rename_i r r' t
    have h1 := rootRounded_le b32_ok (bits32 r) (bits32 r') rr k6 Rat.le_refl
    have h2 := rootRounded_le b32_ok (bits32 r') (bits32 r) k6 rr Rat.le_refl
    obtain ⟨q, hq, -⟩ := id rr
    rw [le_rat b32_ok (bits32 r) (bits32 r') hq k7] at h1
    rw [le_rat b32_ok (bits32 r') (bits32 r) k7 hq] at h2
    have hqd := Rat.le_antisymm h1 h2
    subst hqd
    exact ⟨hq, (root_close b32_ok (bits32 t) (bits32 r) et k5 rr hq).1⟩
  · cases r <;> try exact cr.elim
    cases r' <;> try exact wr.elim
    cases t <;> try exact ct.elim
    rename_i r r' t
    have h1 := rootRounded_le b64_ok (bits64 r) (bits64 r') rr k6 Rat.le_refl
    have h2 := rootRounded_le b64_ok (bits64 r') (bits64 r) k6 rr Rat.le_refl
    obtain ⟨q, hq, -⟩ := id rr
    rw [le_rat b64_ok (bits64 r) (bits64 r') hq k7] at h1
    rw [le_rat b64_ok (bits64 r') (bits64 r) k7 hq] at h2
    have hqd := Rat.le_antisymm h1 h2
    subst hqd
    exact ⟨hq, (root_close b64_ok (bits64 t) (bits64 r) et k5 rr hq).1⟩

/-- The denominator squared is the variance plus epsilon up to rounding. -/
theorem denominator_close (hc : c = .f32 ∨ c = .f64) {ε v d : Rat} (hD : Denominator c ε v d) : 0 < d ∧ ∃ τ : Rat,
    ((1 - 1 / 2 ^ c.fmt.p) * d) * ((1 - 1 / 2 ^ c.fmt.p) * d) ≤ τ ∧ τ ≤ (c.fmt.grow * d) * (c.fmt.grow * d) ∧
    (τ - (v + ε)).abs ≤ (c.fmt.grow ^ 2 - 1) * (v.abs + ε.abs) + (c.fmt.grow + 1) * (2 ^ c.fmt.emin / 2) := by
  obtain ⟨e', t', r', ε', τ, we, wt, wr, k1, k2, k3, k4, k5, k6, k7⟩ := hD
  have z1 := roundedTo_close hc we k1 k2
  have z2 := roundedTo_close hc wt k3 k4
  have hgr : c.fmt.grow = 1 + 1 / 2 ^ c.fmt.p := rfl
  have hu := grow_unit c.fmt
  have z3 := off_step (e := v + ε) (B := _) (T := v.abs + ε.abs) hgr hu (by
    rw [show v + ε' - (v + ε) = ε' - ε by grind]; exact z1) (by grind [Rat.abs]) z2
  have z4 : (τ - (v + ε)).abs ≤ (c.fmt.grow ^ 2 - 1) * (v.abs + ε.abs) + (c.fmt.grow + 1) * (2 ^ c.fmt.emin / 2) := by
    refine Rat.le_trans z3 ?_
    have hv : 0 ≤ v.abs := by grind [Rat.abs]
    clear z1 z2 z3
    generalize v.abs = V at *
    generalize ε.abs = N at *
    rw [hgr]
    generalize (1 : Rat) / 2 ^ c.fmt.p = u at *
    generalize (2 : Rat) ^ c.fmt.emin / 2 = H at *
    have h1 := Rat.mul_nonneg hu hv
    have h2 := Rat.mul_nonneg hu h1
    have e1 : ((1 + u) ^ 2 - 1) * (V + N) + (1 + u + 1) * H = (1 + u) * (u * N + H) + u * (V + N) + H + (u * V + u * (u * V)) := by grind
    rw [e1]
    grind
  rcases hc with rfl | rfl
  · cases r' <;> try exact wr.elim
    cases t' <;> try exact wt.elim
    rename_i r t
    obtain ⟨y1, y2, y3⟩ := root_close b32_ok (bits32 t) (bits32 r) k4 k5 k6 k7
    exact ⟨y1, τ, y2, y3, z4⟩
  · cases r' <;> try exact wr.elim
    cases t' <;> try exact wt.elim
    rename_i r t
    obtain ⟨y1, y2, y3⟩ := root_close b64_ok (bits64 t) (bits64 r) k4 k5 k6 k7
    exact ⟨y1, τ, y2, y3, z4⟩

/-- With a denominator the result is defined. -/
theorem norm_exists (hc : c = .f32 ∨ c = .f64) {eps : BitVec 64} {V : Val} {ε v d : Rat} (hV : V.WT c) (hε : (Val.f64 eps).rat = some ε)
    (hv : V.rat = some v) (hD : Denominator c ε v d) :
    (∃ e t r, Converts ieee c (.f64 eps) e ∧ OpResult ieee c .add V e t ∧ ¬ Negative ieee t ∧ RootOf ieee c t r) ∧
    ∀ {S B M X : Val}, S.WT c → B.WT c → M.WT c → X.WT c → ∃ w, NormTo ieee c eps S B M V X w := by
  have conv : ∀ x : Val, ∃ y, Converts ieee c x y := fun x => by rcases hc with rfl | rfl <;> exact ⟨_, rfl⟩
  obtain ⟨e, he⟩ := conv (.f64 eps)
  have we : e.WT c := cCast_WT (converts_iff.1 he)
  obtain ⟨t, ht⟩ := op_float (fp := ieee) (op := .add) hV we hc
  obtain ⟨y, hy⟩ : ∃ y, Converts ieee .f64 t (.f64 y) := ⟨_, rfl⟩
  obtain ⟨r, hr⟩ := conv (.f64 (ieee.sqrt64 y))
  have hroot : RootOf ieee c t r := ⟨y, hy, hr⟩
  obtain ⟨ct, cr, ⟨τ, hτ, τ0⟩, er, d0⟩ := denominator_unique hc hV hD hε hv he ht hroot
  have hn : ¬ Negative ieee t := by
    rcases hc with rfl | rfl <;> cases t <;> try exact ct.elim
    · rename_i t
      have := rat_not_negative b32_ok (bits32 t) hτ (Rat.le_of_lt τ0)
      show ¬ b32.lt t.toNat (BitVec.ofNat 32 (b32.ofInt 0)).toNat = true
      rw [of32 (ofInt_lt b32_ok _), this]; simp
    · rename_i t
      have := rat_not_negative b64_ok (bits64 t) hτ (Rat.le_of_lt τ0)
      show ¬ b64.lt t.toNat (BitVec.ofNat 64 (b64.ofInt 0)).toNat = true
      rw [of64 (ofInt_lt b64_ok _), this]; simp
  refine ⟨⟨e, t, r, he, ht, hn, hroot⟩, fun {S B M X} hS hB hM hX => ?_⟩
  obtain ⟨a2, g1⟩ := op_float (fp := ieee) (op := .sub) hX hM hc
  have c2 := op_wt hX hM g1
  obtain ⟨a3, g2⟩ := op_float (fp := ieee) (op := .div) c2 cr hc
  have c3 := op_wt c2 cr g2
  obtain ⟨a4, g3⟩ := op_float (fp := ieee) (op := .mul) hS c3 hc
  have c4 := op_wt hS c3 g3
  obtain ⟨w, g4⟩ := op_float (fp := ieee) (op := .add) c4 hB hc
  exact ⟨w, e, t, r, a2, a3, a4, he, ht, hn, hroot, g1, g2, g3, g4⟩

/-- An element of batch normalisation is near the exact one. -/
theorem norm_near (hc : c = .f32 ∨ c = .f64) {eps : BitVec 64} {S B M V X w : Val} {ε s b m v x d : Rat} (hS : S.WT c) (hB : B.WT c) (hM : M.WT c)
    (hV : V.WT c) (hX : X.WT c) (hε : (Val.f64 eps).rat = some ε) (hs : S.rat = some s) (hb : B.rat = some b) (hm : M.rat = some m)
    (hv : V.rat = some v) (hx : X.rat = some x) (hD : Denominator c ε v d) (hw : NormTo ieee c eps S B M V X w) : NearNorm c w s b m d x := by
  obtain ⟨e, t, r, a2, a3, a4, h1, h2, -, h3, g1, g2, g3, g4⟩ := hw
  obtain ⟨ct, cr, -, er, d0⟩ := denominator_unique hc hV hD hε hv h1 h2 h3
  have c2 : a2.WT c := op_wt hX hM g1
  have c3 : a3.WT c := op_wt c2 cr g2
  have c4 : a4.WT c := op_wt hS c3 g3
  have cw : w.WT c := op_wt c4 hB g4
  have r1 := op_rounded hX hM hc g1 hx hm (e := x - m) rfl
  have hi : 0 < d⁻¹ := Rat.inv_pos.2 d0
  have hu := grow_unit c.fmt
  have hH : (0 : Rat) ≤ 2 ^ c.fmt.emin / 2 := by have : (0 : Rat) < 2 ^ c.fmt.emin := zpow_pos _; grind
  have hgr : c.fmt.grow = 1 + 1 / 2 ^ c.fmt.p := rfl
  have n2 := fun {q} (hq : a2.rat = some q) => op_rounded c2 cr hc g2 hq er (e := q / d) ⟨by grind, rfl⟩
  have n3 := fun {q} (hq : a3.rat = some q) => op_rounded hS c3 hc g3 hs hq (e := s * q) rfl
  have n4 := fun {q} (hq : a4.rat = some q) => op_rounded c4 hB hc g4 hq hb (e := q + b) rfl
  refine ⟨fun q hq => ?_, fun hp => ?_⟩
  · obtain ⟨⟨q4, e4⟩, -⟩ := op_number c4 hB hc g4 hq
    obtain ⟨-, q3, e3⟩ := op_number hS c3 hc g3 e4
    obtain ⟨q2, e2⟩ := op_number c2 cr hc g2 e3 d er
    have z1 := roundedTo_close hc c2 r1 e2
    have z2 := roundedTo_close hc c3 (n2 e2) e3
    have z3 := roundedTo_close hc c4 (n3 e3) e4
    have z4 := roundedTo_close hc cw (n4 e4) hq
    unfold Fmt.normSlack
    simp only [Rat.div_def _ d] at *
    exact norm_chain hgr hu hH (Rat.le_of_lt hi) z1 z2 z3 z4
  · simp only [Fmt.normPeaks, List.forall_mem_cons, Fmt.wide] at hp
    obtain ⟨p1, p2, p3, p4, -⟩ := hp
    obtain ⟨q2, e2⟩ := roundedTo_number hc c2 r1 p1
    have z1 := roundedTo_close hc c2 r1 e2
    have y1 := wide_step hgr hu Rat.le_refl z1
    have y1' : (q2 / d).abs ≤ (c.fmt.grow * (x - m).abs + 2 ^ c.fmt.emin / 2) / d := by
      rw [Rat.div_def, Rat.div_def, abs_mul_right _ (Rat.le_of_lt hi)]
      exact Rat.mul_le_mul_of_nonneg_right y1 (Rat.le_of_lt hi)
    obtain ⟨q3, e3⟩ := roundedTo_number hc c3 (n2 e2) (lt_of_le_lt y1' p2)
    have y2 := wide_step hgr hu y1' (roundedTo_close hc c3 (n2 e2) e3)
    have y2' : (s * q3).abs ≤ s.abs * (c.fmt.grow * ((c.fmt.grow * (x - m).abs + 2 ^ c.fmt.emin / 2) / d) + 2 ^ c.fmt.emin / 2) := by
      rw [abs_mul_rat]
      exact Rat.mul_le_mul_of_nonneg_left y2 (by grind [Rat.abs])
    obtain ⟨q4, e4⟩ := roundedTo_number hc c4 (n3 e3) (lt_of_le_lt y2' p3)
    have y3 := wide_step hgr hu y2' (roundedTo_close hc c4 (n3 e3) e4)
    refine roundedTo_number hc cw (n4 e4) (lt_of_le_lt ?_ p4)
    clear p1 p2 p3 p4 y1 y1' y2 y2'
    generalize c.fmt.grow * _ + _ = Y at *
    grind [Rat.abs]

/-- Batch normalisation with scales that are not negative keeps the order. -/
theorem norm_le (hc : c = .f32 ∨ c = .f64) {eps : BitVec 64} {S B M V X X' w w' : Val} {ε v d : Rat} (hS : S.WT c) (hB : B.WT c) (hM : M.WT c)
    (hV : V.WT c) (hX : X.WT c) (hX' : X'.WT c) (hε : (Val.f64 eps).rat = some ε) (hv : V.rat = some v) (hD : Denominator c ε v d) (hs : NonNeg S)
    (hle : AtMost X X') (hw : NormTo ieee c eps S B M V X w) (hw' : NormTo ieee c eps S B M V X' w') : InOrder w w' := by
  intro m1 m2
  obtain ⟨e, t, r, a2, a3, a4, h1, h2, -, h3, g1, g2, g3, g4⟩ := hw
  obtain ⟨e', t', r', a2', a3', a4', h1', h2', -, h3', g1', g2', g3', g4'⟩ := hw'
  obtain ⟨ct, cr, -, er, d0⟩ := denominator_unique hc hV hD hε hv h1 h2 h3
  have hr : r' = r := by
    rw [converts_iff] at h1 h1'
    rw [h1] at h1'; cases h1'
    have ce := cCast_WT h1
    rw [opResult_iff hV ce] at h2 h2'
    rw [h2] at h2'; cases h2'
    rw [rootOf_iff] at h3 h3'
    rw [h3] at h3'; cases h3'
    rfl
  subst hr
  have c2 : a2.WT c := op_wt hX hM g1
  have c3 : a3.WT c := op_wt c2 cr g2
  have c4 : a4.WT c := op_wt hS c3 g3
  have c2' : a2'.WT c := op_wt hX' hM g1'
  have c3' : a3'.WT c := op_wt c2' cr g2'
  have c4' : a4'.WT c := op_wt hS c3' g3'
  obtain ⟨n4, nB⟩ := op_parts c4 hB hc g4 m1
  obtain ⟨n4', -⟩ := op_parts c4' hB hc g4' m2
  obtain ⟨-, n3⟩ := op_parts hS c3 hc g3 n4
  obtain ⟨-, n3'⟩ := op_parts hS c3' hc g3' n4'
  obtain ⟨n2, -⟩ := op_parts c2 cr hc g2 n3
  obtain ⟨n2', -⟩ := op_parts c2' cr hc g2' n3'
  obtain ⟨-, nM⟩ := op_parts hX hM hc g1 n2
  have l2 := op_le hX hM hX' hM hc (op := .sub) ⟨hle, AtMost.refl nM⟩ g1 g1' n2 n2'
  have l3 := op_le c2 cr c2' cr hc (op := .div) ⟨l2, rfl, d, er, d0⟩ g2 g2' n3 n3'
  have comm : ∀ {x y z : Val}, x.WT c → y.WT c → OpResult ieee c .mul x y z → OpResult ieee c .mul y x z := by
    intro x y z hx hy hz
    rcases hc with rfl | rfl <;> cases x <;> try exact hx.elim
    all_goals (cases y <;> try exact hy.elim)
    all_goals
      simp only [OpResult] at hz ⊢
      rw [hz]
      simp only [ieee]
      rw [mul_comm]
  have l4 := op_le c3 hS c3' hS hc (op := .mul) ⟨l3, rfl, hs⟩ (comm hS c3 g3) (comm hS c3' g3') n4 n4'
  exact op_le c4 hB c4' hB hc (op := .add) ⟨l4, AtMost.refl nB⟩ g4 g4' m1 m2

/-- An element equal to the mean gives the bias. -/
theorem norm_mean (hc : c = .f32 ∨ c = .f64) {eps : BitVec 64} {S B M V X w : Val} {ε s b m v d : Rat} (hS : S.WT c) (hB : B.WT c) (hM : M.WT c)
    (hV : V.WT c) (hX : X.WT c) (hε : (Val.f64 eps).rat = some ε) (hs : S.rat = some s) (hb : B.rat = some b) (hm : M.rat = some m)
    (hv : V.rat = some v) (hx : X.rat = some m) (hD : Denominator c ε v d) (hw : NormTo ieee c eps S B M V X w) : w.rat = some b := by
  obtain ⟨e, t, r, a2, a3, a4, h1, h2, -, h3, g1, g2, g3, g4⟩ := hw
  obtain ⟨ct, cr, -, er, d0⟩ := denominator_unique hc hV hD hε hv h1 h2 h3
  have c2 : a2.WT c := op_wt hX hM g1
  have c3 : a3.WT c := op_wt c2 cr g2
  have c4 : a4.WT c := op_wt hS c3 g3
  have cw : w.WT c := op_wt c4 hB g4
  have exact : ∀ {y z : Val} {q : Rat}, y.WT c → z.WT c → y.rat = some q → RoundedTo q z → z.rat = some q := fun {y z q} hy hz hq hr => by
    refine (C75_unique hz hy hr ?_).trans hq
    rcases hc with rfl | rfl <;> cases y <;> try exact hy.elim
    · exact rounded_self b32_ok (bits32 _) hq
    · exact rounded_self b64_ok (bits64 _) hq
  have hz : ∃ y : Val, y.WT c ∧ y.rat = some 0 := by
    rcases hc with rfl | rfl
    · exact ⟨.f32 0, trivial, rat_zero b32_ok⟩
    · exact ⟨.f64 0, trivial, rat_zero b64_ok⟩
  obtain ⟨y, hy, y0⟩ := hz
  have e2 := exact hy c2 y0 (op_rounded hX hM hc g1 hx hm (e := 0) (by show (0 : Rat) = m - m; grind))
  have e3 := exact hy c3 y0 (op_rounded c2 cr hc g2 e2 er (e := 0) ⟨by grind, by rw [Rat.div_def, Rat.zero_mul]⟩)
  have e4 := exact hy c4 y0 (op_rounded hS c3 hc g3 hs e3 (e := 0) (by show (0 : Rat) = s * 0; grind))
  exact exact hB cw hb (op_rounded c4 hB hc g4 e4 hb (e := b) (by show b = 0 + b; grind))

end Aitisa
