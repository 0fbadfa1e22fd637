import Verif.Spec.Scale
import Verif.Spec.Order
import Verif.Proof.Mirror
import Verif.Proof.Error
import Verif.Proof.ErrorAvg

/-!
# Scaling by powers of two

Rounding commutes with a multiplication by a power of two as long as nothing is lost at the ends of the range.
-/

namespace Aitisa

variable {F : Fmt} {c : Code}

/-! ### Rounding -/

theorem mag_top (F : Fmt) {k q : Nat} (hq : q ≤ 2 * 2 ^ (F.p - 1)) (hk : k = 0 ∨ 2 ^ (F.p - 1) ≤ q) :
    F.mag (k * 2 ^ (F.p - 1) + q) = q * 2 ^ k := by
  have hP : 0 < 2 ^ (F.p - 1) := Nat.two_pow_pos _
  rcases Nat.lt_or_ge q (2 * 2 ^ (F.p - 1)) with h | h
  · exact mag_of F h hk
  · have := mag_next F (k := k) (q := q - 1) (by omega) (by omega)
    rw [show k * 2 ^ (F.p - 1) + (q - 1) + 1 = k * 2 ^ (F.p - 1) + q by omega, show q - 1 + 1 = q by omega] at this
    exact this

/-- The rounded number, if it is in the range. -/
theorem mag_rq (h : F.OK) {N D k : Nat} (hD : 0 < D) (he : F.Expo N D k) (hlt : F.rq N D < F.infBits) :
    k * 2 ^ (F.p - 1) + rnd N (D * 2 ^ k) < F.infBits ∧ F.mag (F.rq N D) = rnd N (D * 2 ^ k) * 2 ^ k := by
  have hpp := h.pow_p
  have hp := h.p3
  have e := rq_eq h hD he
  have hlt' : k * 2 ^ (F.p - 1) + rnd N (D * 2 ^ k) < F.infBits := by omega
  refine ⟨hlt', ?_⟩
  rw [e, Nat.min_eq_left (by omega)]
  have hDk : 0 < D * 2 ^ k := Nat.mul_pos hD (Nat.two_pow_pos _)
  refine mag_top F (rnd_le hDk ?_) ?_
  · rw [← hpp, Nat.mul_comm (2 ^ F.p), Nat.mul_assoc, ← Nat.pow_add]; exact Nat.le_of_lt he.1
  · rcases he.2 with h0 | h1
    · exact .inl h0
    · refine .inr (rnd_ge hDk ?_)
      rw [Nat.mul_comm, Nat.mul_assoc, ← Nat.pow_add, show k + (F.p - 1) = k + F.p - 1 by omega]
      exact h1

theorem rq_scaled (h : F.OK) {N D k : Nat} (hD : 0 < D) (hn : D * 2 ^ (F.p - 1) ≤ N) (hlt : F.rq (N * 2 ^ k) D < F.infBits) :
    F.rq N D < F.infBits ∧ F.mag (F.rq (N * 2 ^ k) D) = F.mag (F.rq N D) * 2 ^ k := by
  have hp := h.p3
  obtain ⟨j, he⟩ : ∃ j, F.Expo N D j := ⟨_, expo_log h hD⟩
  have hK := Nat.two_pow_pos k
  have he' : F.Expo (N * 2 ^ k) D (j + k) := by
    refine ⟨?_, .inr ?_⟩
    · rw [show j + k + F.p = j + F.p + k by omega, Nat.pow_add, ← Nat.mul_assoc, Nat.mul_lt_mul_right hK]; exact he.1
    · rw [show j + k + F.p - 1 = j + F.p - 1 + k by omega, Nat.pow_add, ← Nat.mul_assoc]
      refine Nat.mul_le_mul_right _ ?_
      rcases he.2 with rfl | h1
      · rw [show 0 + F.p - 1 = F.p - 1 by omega]; exact hn
      · exact h1
  have hs : rnd (N * 2 ^ k) (D * 2 ^ (j + k)) = rnd N (D * 2 ^ j) := by
    rw [Nat.pow_add, ← Nat.mul_assoc]; exact rnd_scale (Nat.mul_pos hD (Nat.two_pow_pos _)) hK
  obtain ⟨h1, h2⟩ := mag_rq h hD he' hlt
  rw [hs] at h1 h2
  have hlt0 : F.rq N D < F.infBits := by
    rw [rq_eq h hD he]
    have : j * 2 ^ (F.p - 1) ≤ (j + k) * 2 ^ (F.p - 1) := Nat.mul_le_mul_right _ (by omega)
    omega
  refine ⟨hlt0, ?_⟩
  rw [h2, (mag_rq h hD he hlt0).2, Nat.pow_add, Nat.mul_assoc]

/-- A multiple of the smallest number with few digits is a number of the format. -/
theorem rq_short (h : F.OK) {N k : Nat} (hN : N < 2 ^ F.p) (hlt : F.rq (N * 2 ^ k) 1 < F.infBits) : F.mag (F.rq (N * 2 ^ k) 1) = N * 2 ^ k := by
  have hp := h.p3
  obtain ⟨j, he⟩ : ∃ j, F.Expo (N * 2 ^ k) 1 j := ⟨_, expo_log h (by omega)⟩
  have hj : j ≤ k := by
    rcases he.2 with h0 | h1
    · omega
    · have : 2 ^ (j + F.p - 1) < 2 ^ (F.p + k) := by
        rw [Nat.one_mul] at h1
        rw [Nat.pow_add 2 F.p]
        have := (Nat.mul_lt_mul_right (Nat.two_pow_pos k)).2 hN
        omega
      have := (Nat.pow_lt_pow_iff_right (a := 2) (by omega)).1 this
      omega
  obtain ⟨i, rfl⟩ : ∃ i, k = i + j := ⟨k - j, by omega⟩
  rw [(mag_rq h (by omega) he hlt).2, Nat.pow_add, ← Nat.mul_assoc, rnd_scale (by omega) (Nat.two_pow_pos _)]
  simp [rnd, Nat.mod_one]

theorem rq_scaled_one (h : F.OK) {N k : Nat} (hlt : F.rq (N * 2 ^ k) 1 < F.infBits) :
    F.rq N 1 < F.infBits ∧ F.mag (F.rq (N * 2 ^ k) 1) = F.mag (F.rq N 1) * 2 ^ k := by
  have hp := h.p3
  have hpp := h.pow_p
  rcases Nat.lt_or_ge N (2 ^ (F.p - 1)) with hN | hN
  · have hlt0 : F.rq (N * 2 ^ 0) 1 < F.infBits := by
      refine Nat.lt_of_le_of_lt ?_ hlt
      refine rq_mono h (by omega) (by omega) ?_
      simp only [Nat.mul_one, Nat.pow_zero]
      exact Nat.le_mul_of_pos_right _ (Nat.two_pow_pos _)
    have e := rq_short h (k := 0) (by omega) hlt0
    rw [Nat.pow_zero, Nat.mul_one] at e hlt0
    rw [e]
    exact ⟨hlt0, rq_short h (by omega) hlt⟩
  · exact rq_scaled h (by omega) (by omega) hlt

/-- The number that `N / D` times the smallest number is rounded to, counted in smallest numbers. -/
def Fmt.near (F : Fmt) (N : Int) (D : Nat) : Option Int :=
  if F.rq N.natAbs D < F.infBits then some (sgn (decide (N < 0)) (F.mag (F.rq N.natAbs D))) else none

theorem near_scaled (h : F.OK) {N w' : Int} {D k : Nat} (hD : 0 < D) (hn : N = 0 ∨ D * 2 ^ (F.p - 1) ≤ N.natAbs ∨ D = 1)
    (hw : F.near (N * 2 ^ k) D = some w') : ∃ w, F.near N D = some w ∧ w' = w * 2 ^ k := by
  have e2 : (N * 2 ^ k).natAbs = N.natAbs * 2 ^ k := by rw [Int.natAbs_mul, Int.natAbs_pow]; rfl
  have hpos : (0 : Int) < 2 ^ k := by rw [← pow_cast]; exact Int.natCast_pos.2 (Nat.two_pow_pos k)
  have e3 : decide (N * 2 ^ k < 0) = decide (N < 0) := by
    have : N * 2 ^ k < 0 ↔ N < 0 := by
      constructor
      · intro hl
        apply Classical.byContradiction
        intro hc
        have := Int.mul_nonneg (show 0 ≤ N by omega) (Int.le_of_lt hpos)
        omega
      · intro hl; exact Int.mul_neg_of_neg_of_pos hl hpos
    simp [this]
  unfold Fmt.near at hw ⊢
  rw [e2, e3] at hw
  split at hw
  · next hlt =>
    cases hw
    have key : F.rq N.natAbs D < F.infBits ∧ F.mag (F.rq (N.natAbs * 2 ^ k) D) = F.mag (F.rq N.natAbs D) * 2 ^ k := by
      rcases hn with rfl | hn | rfl
      · simp only [Int.natAbs_zero, Nat.zero_mul] at *
        rw [rq_zero h hD] at *
        simp [mag_zero] at *
        exact hlt
      · exact rq_scaled h hD hn hlt
      · exact rq_scaled_one h hlt
    rw [if_pos key.1, key.2]
    exact ⟨_, rfl, by rw [sgn_mul, pow_cast]⟩
  · cases hw

/-! ### Operations -/

/-- A number of the format and how many smallest numbers it is. -/
theorem units_some (h : F.OK) {b : Nat} {u : Int} (hb : b < 2 * F.signBit) (hu : F.units b = some u) :
    ∃ s n, n < F.infBits ∧ b = F.signed s n ∧ u = sgn s (F.mag n) := by
  obtain ⟨s, n, hn, rfl⟩ := finite_signed h hb (by rw [hu]; exact fun e => by cases e)
  have := inf_lt_sign h
  rw [units_signed h (by omega), if_pos hn] at hu
  cases hu
  exact ⟨s, n, hn, rfl, rfl⟩

theorem units_rq (h : F.OK) (s : Bool) (N D : Nat) :
    F.units (F.signed s (F.rq N D)) = if F.rq N D < F.infBits then some (sgn s (F.mag (F.rq N D))) else none :=
  units_signed h (Nat.lt_of_le_of_lt (rq_le_inf F N D) (inf_lt_sign h))

theorem near_zero (h : F.OK) {D : Nat} (hD : 0 < D) : F.near 0 D = some 0 := by
  have : 0 < F.infBits := by
    have h1 := Nat.two_pow_pos (F.p - 1)
    have h2 : 2 ≤ 2 ^ F.w := Nat.le_trans (by decide) (Nat.pow_le_pow_right (n := 2) (i := 1) (by decide) (by have := h.w2; omega))
    exact Nat.mul_pos (by omega) h1
  unfold Fmt.near
  rw [Int.natAbs_zero, rq_zero h hD, if_pos this, mag_zero, sgn_nil]

/-- The sign does not count for a zero. -/
theorem units_near (h : F.OK) {s : Bool} {N : Int} {D : Nat} (hD : 0 < D) (hs : N ≠ 0 → s = decide (N < 0)) :
    F.units (F.signed s (F.rq N.natAbs D)) = F.near N D := by
  by_cases h0 : N = 0
  · subst h0
    rw [near_zero h hD, Int.natAbs_zero, rq_zero h hD, units_zero h]
  · rw [units_rq h, hs h0]; rfl

theorem units_add (h : F.OK) {a b : Nat} {u v : Int} (ha : a < 2 * F.signBit) (hb : b < 2 * F.signBit) (hu : F.units a = some u) (hv : F.units b = some v) :
    F.units (F.add a b) = F.near (u + v) 1 := by
  obtain ⟨s, n, hn, rfl, rfl⟩ := units_some h ha hu
  obtain ⟨t, k, hk, rfl, rfl⟩ := units_some h hb hv
  rw [add_mag h hn hk]
  split
  · next e => rw [e, near_zero h (by omega), units_zero h]
  · exact units_near h (by omega) (fun _ => rfl)

theorem units_sub (h : F.OK) {a b : Nat} {u v : Int} (ha : a < 2 * F.signBit) (hb : b < 2 * F.signBit) (hu : F.units a = some u) (hv : F.units b = some v) :
    F.units (F.sub a b) = F.near (u - v) 1 := by
  obtain ⟨s, n, hn, rfl, rfl⟩ := units_some h ha hu
  obtain ⟨t, k, hk, rfl, rfl⟩ := units_some h hb hv
  have e : sgn (!t) (F.mag k) = - sgn t (F.mag k) := by cases t <;> simp [sgn]
  rw [sub_mag h hk, add_mag h hn hk, e, ← Int.sub_eq_add_neg]
  split
  · next e => rw [e, near_zero h (by omega), units_zero h]
  · exact units_near h (by omega) (fun _ => rfl)

theorem sgn_sign {s : Bool} {n : Nat} (hn : sgn s n ≠ 0) : s = decide (sgn s n < 0) := by
  have : 0 < n := Nat.pos_of_ne_zero fun e => hn (sgn_zero.2 e)
  exact (sgn_lt this).symm

theorem units_mul (h : F.OK) {a b : Nat} {u v : Int} (ha : a < 2 * F.signBit) (hb : b < 2 * F.signBit) (hu : F.units a = some u) (hv : F.units b = some v) :
    F.units (F.mul a b) = F.near (u * v) (2 ^ F.low) := by
  obtain ⟨s, n, hn, rfl, rfl⟩ := units_some h ha hu
  obtain ⟨t, k, hk, rfl, rfl⟩ := units_some h hb hv
  rw [mul_mag h hn hk, ← sgn_prod]
  have := units_near h (s := s != t) (N := sgn (s != t) (F.mag n * F.mag k)) (Nat.two_pow_pos F.low) (fun hne => sgn_sign hne)
  rwa [sgn_abs] at this

theorem units_div (h : F.OK) {a b : Nat} {u v : Int} (ha : a < 2 * F.signBit) (hb : b < 2 * F.signBit) (hu : F.units a = some u) (hv : F.units b = some v)
    (h0 : v ≠ 0) : F.units (F.div a b) = F.near (u * 2 ^ F.low * (if v < 0 then -1 else 1)) v.natAbs := by
  obtain ⟨s, n, hn, rfl, rfl⟩ := units_some h ha hu
  obtain ⟨t, k, hk, rfl, rfl⟩ := units_some h hb hv
  have hk0 : 0 < F.mag k := Nat.pos_of_ne_zero fun e => h0 (sgn_zero.2 e)
  have ht : (if sgn t (F.mag k) < 0 then (-1 : Int) else 1) = sgn t 1 := by
    have := sgn_lt (s := t) hk0
    cases t <;> simp [sgn] at this ⊢ <;> omega
  rw [div_mag h hn hk ((mag_pos F).1 hk0), ht, ← pow_cast, ← sgn_mul, ← sgn_prod, sgn_abs, Nat.mul_one]
  have := units_near h (s := s != t) (N := sgn (s != t) (F.mag n * 2 ^ F.low)) hk0 (fun hne => sgn_sign hne)
  rwa [sgn_abs] at this

theorem units_convert {G : Fmt} (h : F.OK) (hG : G.OK) {a : Nat} {u : Int} (ha : a < 2 * F.signBit) (hu : F.units a = some u) :
    G.units (F.convert G a) = G.near (u * 2 ^ G.low) (2 ^ F.low) := by
  obtain ⟨s, n, hn, rfl, rfl⟩ := units_some h ha hu
  rw [convert_mag h hG hn, ← pow_cast, ← sgn_mul]
  have := units_near hG (s := s) (N := sgn s (F.mag n * 2 ^ G.low)) (Nat.two_pow_pos F.low) (fun hne => sgn_sign hne)
  rwa [sgn_abs] at this

/-- Division by a zero gives no number. -/
theorem units_div_zero (h : F.OK) {a b : Nat} (hb : b < 2 * F.signBit) (hv : F.units b = some 0) : F.units (F.div a b) = none := by
  have hn : F.units F.nanBits = none := by have := rat_nan h; rw [rat_units h] at this; simpa using this
  have hi : ∀ s, F.units (F.signed s F.infBits) = none := fun s => by have := rat_inf h s; rw [rat_units h] at this; simpa using this
  obtain ⟨t, k, hk, rfl, e⟩ := units_some h hb hv
  have hk0 : k = 0 := by
    apply Classical.byContradiction
    intro hc
    have := (mag_pos F).2 (Nat.pos_of_ne_zero hc)
    have := sgn_zero.1 e.symm
    omega
  subst hk0
  rw [Fmt.div, decode_zero h]
  cases F.decode a with
  | nan => exact hn
  | inf s => exact hi _
  | fin s m e =>
    simp only
    rw [if_pos trivial]
    split
    · exact hn
    · exact hi _

/-! ### Scaled bit patterns -/

def Fmt.Grows (F : Fmt) (k a a' : Nat) : Prop := ∃ u : Int, F.units a = some u ∧ F.units a' = some (u * 2 ^ k)

theorem add_grows (h : F.OK) {k a b a' b' : Nat} (ha : a < 2 * F.signBit) (hb : b < 2 * F.signBit) (ha' : a' < 2 * F.signBit) (hb' : b' < 2 * F.signBit)
    (h1 : F.Grows k a a') (h2 : F.Grows k b b') (hf : F.units (F.add a' b') ≠ none) : F.Grows k (F.add a b) (F.add a' b') := by
  obtain ⟨u, hu, hu'⟩ := h1
  obtain ⟨v, hv, hv'⟩ := h2
  have e := units_add h ha hb hu hv
  have e' := units_add h ha' hb' hu' hv'
  rw [← Int.add_mul] at e'
  rw [e'] at hf
  obtain ⟨w', hw'⟩ := Option.ne_none_iff_exists'.1 hf
  obtain ⟨w, hw, rfl⟩ := near_scaled h (by omega) (.inr (.inr rfl)) hw'
  exact ⟨w, e.trans hw, e'.trans hw'⟩

theorem sub_grows (h : F.OK) {k a b a' b' : Nat} (ha : a < 2 * F.signBit) (hb : b < 2 * F.signBit) (ha' : a' < 2 * F.signBit) (hb' : b' < 2 * F.signBit)
    (h1 : F.Grows k a a') (h2 : F.Grows k b b') (hf : F.units (F.sub a' b') ≠ none) : F.Grows k (F.sub a b) (F.sub a' b') := by
  obtain ⟨u, hu, hu'⟩ := h1
  obtain ⟨v, hv, hv'⟩ := h2
  have e := units_sub h ha hb hu hv
  have e' := units_sub h ha' hb' hu' hv'
  rw [← Int.sub_mul] at e'
  rw [e'] at hf
  obtain ⟨w', hw'⟩ := Option.ne_none_iff_exists'.1 hf
  obtain ⟨w, hw, rfl⟩ := near_scaled h (by omega) (.inr (.inr rfl)) hw'
  exact ⟨w, e.trans hw, e'.trans hw'⟩

theorem mul_grows (h : F.OK) {i j a b a' b' : Nat} (ha : a < 2 * F.signBit) (hb : b < 2 * F.signBit) (ha' : a' < 2 * F.signBit) (hb' : b' < 2 * F.signBit)
    (h1 : F.Grows i a a') (h2 : F.Grows j b b')
    (hn : ∀ u v, F.units a = some u → F.units b = some v → u * v = 0 ∨ 2 ^ F.low * 2 ^ (F.p - 1) ≤ (u * v).natAbs)
    (hf : F.units (F.mul a' b') ≠ none) : F.Grows (i + j) (F.mul a b) (F.mul a' b') := by
  obtain ⟨u, hu, hu'⟩ := h1
  obtain ⟨v, hv, hv'⟩ := h2
  have e := units_mul h ha hb hu hv
  have e' := units_mul h ha' hb' hu' hv'
  rw [show u * 2 ^ i * (v * 2 ^ j) = u * v * 2 ^ (i + j) by rw [Int.pow_add]; grind] at e'
  rw [e'] at hf
  obtain ⟨w', hw'⟩ := Option.ne_none_iff_exists'.1 hf
  obtain ⟨w, hw, rfl⟩ := near_scaled h (Nat.two_pow_pos _) ((hn u v hu hv).imp_right .inl) hw'
  exact ⟨w, e.trans hw, e'.trans hw'⟩

theorem div_grows (h : F.OK) {k a b a' : Nat} (ha : a < 2 * F.signBit) (hb : b < 2 * F.signBit) (ha' : a' < 2 * F.signBit)
    (h1 : F.Grows k a a') {v : Int} (hv : F.units b = some v)
    (hn : ∀ u, F.units a = some u → u = 0 ∨ v.natAbs * 2 ^ (F.p - 1) ≤ u.natAbs * 2 ^ F.low)
    (hf : F.units (F.div a' b) ≠ none) : F.Grows k (F.div a b) (F.div a' b) := by
  obtain ⟨u, hu, hu'⟩ := h1
  by_cases h0 : v = 0
  · subst h0; exact absurd (units_div_zero h hb hv) hf
  have e := units_div h ha hb hu hv h0
  have e' := units_div h ha' hb hu' hv h0
  rw [show u * 2 ^ k * 2 ^ F.low * (if v < 0 then (-1 : Int) else 1) = u * 2 ^ F.low * (if v < 0 then -1 else 1) * 2 ^ k by grind] at e'
  rw [e'] at hf
  obtain ⟨w', hw'⟩ := Option.ne_none_iff_exists'.1 hf
  obtain ⟨w, hw, rfl⟩ := near_scaled h (by omega) (by
    rcases hn u hu with rfl | hn
    · exact .inl (by simp)
    · refine .inr (.inl ?_)
      rw [Int.natAbs_mul, Int.natAbs_mul, Int.natAbs_pow, show (if v < 0 then (-1 : Int) else 1).natAbs = 1 by split <;> rfl, Nat.mul_one]
      exact hn) hw'
  exact ⟨w, e.trans hw, e'.trans hw'⟩

theorem convert_grows {G : Fmt} (h : F.OK) (hG : G.OK) {k a a' : Nat} (ha : a < 2 * F.signBit) (ha' : a' < 2 * F.signBit) (h1 : F.Grows k a a')
    (hn : ∀ u, F.units a = some u → u = 0 ∨ 2 ^ F.low * 2 ^ (G.p - 1) ≤ u.natAbs * 2 ^ G.low)
    (hf : G.units (F.convert G a') ≠ none) : G.Grows k (F.convert G a) (F.convert G a') := by
  obtain ⟨u, hu, hu'⟩ := h1
  have e := units_convert h hG ha hu
  have e' := units_convert h hG ha' hu'
  rw [show u * 2 ^ k * 2 ^ G.low = u * 2 ^ G.low * 2 ^ k by grind] at e'
  rw [e'] at hf
  obtain ⟨w', hw'⟩ := Option.ne_none_iff_exists'.1 hf
  obtain ⟨w, hw, rfl⟩ := near_scaled hG (Nat.two_pow_pos _) (by
    rcases hn u hu with rfl | hn
    · exact .inl (by simp)
    · refine .inr (.inl ?_)
      rw [Int.natAbs_mul, Int.natAbs_pow]
      exact hn) hw'
  exact ⟨w, e.trans hw, e'.trans hw'⟩

/-! ### Rational numbers -/

theorem unit_rat {n : Nat} (hn : 0 < n) : (n : Rat) ≠ 0 := by
  have : n ≠ 0 := by omega
  exact_mod_cast this

theorem grows_iff (h : F.OK) {k a b : Nat} : F.Grows k a b ↔ ∃ q, F.rat a = some q ∧ F.rat b = some (q * 2 ^ k) := by
  have hL := unit_rat (Nat.two_pow_pos F.low)
  have e : ∀ u : Int, (u : Rat) / (2 ^ F.low : Nat) * 2 ^ k = ((u * 2 ^ k : Int) : Rat) / (2 ^ F.low : Nat) := fun u => by
    rw [Rat.intCast_mul, show ((2 ^ k : Int) : Rat) = (2 : Rat) ^ k by norm_cast]
    generalize ((2 ^ F.low : Nat) : Rat) = L at *
    generalize (2 : Rat) ^ k = K
    grind
  constructor
  · rintro ⟨u, hu, hv⟩
    refine ⟨_, by rw [rat_units h, hu]; rfl, ?_⟩
    rw [rat_units h, hv, e]; rfl
  · rintro ⟨q, hq, hr⟩
    rw [rat_units h, Option.map_eq_some_iff] at hq hr
    obtain ⟨u, hu, rfl⟩ := hq
    obtain ⟨v, hv, hr⟩ := hr
    rw [e] at hr
    refine ⟨u, hu, ?_⟩
    have : (v : Rat) = ((u * 2 ^ k : Int) : Rat) := by
      generalize ((u * 2 ^ k : Int) : Rat) = x at *
      generalize ((2 ^ F.low : Nat) : Rat) = L at *
      grind
    rw [hv, Rat.intCast_inj.1 this]

/-- The smallest number of full precision. -/
def Fmt.floor (F : Fmt) : Rat := (2 ^ (F.p - 1) : Nat) / (2 ^ F.low : Nat)

theorem tiny32 : Code.tiny .f32 = b32.floor := by decide +kernel
theorem tiny64 : Code.tiny .f64 = b64.floor := by decide +kernel

theorem ample_int {A : Int} {P L K : Nat} (hL : 0 < L) (hK : 0 < K) (h : (A : Rat) / K = 0 ∨ (P : Rat) / L ≤ ((A : Rat) / K).abs) :
    A = 0 ∨ P * K ≤ A.natAbs * L := by
  have hL0 : (0 : Rat) < L := by exact_mod_cast hL
  have hK0 : (0 : Rat) < K := by exact_mod_cast hK
  rcases h with h | h
  · refine .inl ?_
    have : (A : Rat) = ((0 : Int) : Rat) := by grind
    exact Rat.intCast_inj.1 this
  · refine .inr ?_
    rw [abs_div_int A hK0] at h
    have h' := Rat.mul_le_mul_of_nonneg_right h (Rat.le_of_lt (Rat.mul_pos hL0 hK0))
    have e1 : (P : Rat) / L * (L * K) = ((P * K : Nat) : Rat) := by rw [Rat.natCast_mul]; grind
    have e2 : (A.natAbs : Rat) / K * (L * K) = ((A.natAbs * L : Nat) : Rat) := by rw [Rat.natCast_mul]; grind
    rw [e1, e2] at h'
    exact_mod_cast h'

theorem ample_product {u v : Int} (hr : (u : Rat) / (2 ^ F.low : Nat) * (v / (2 ^ F.low : Nat)) = 0 ∨
      F.floor ≤ ((u : Rat) / (2 ^ F.low : Nat) * (v / (2 ^ F.low : Nat))).abs) : u * v = 0 ∨ 2 ^ F.low * 2 ^ (F.p - 1) ≤ (u * v).natAbs := by
  have hL := Nat.two_pow_pos F.low
  have e : (u : Rat) / (2 ^ F.low : Nat) * (v / (2 ^ F.low : Nat)) = ((u * v : Int) : Rat) / ((2 ^ F.low * 2 ^ F.low : Nat) : Rat) := by
    have := unit_rat hL
    rw [Rat.intCast_mul, Rat.natCast_mul]; generalize ((2 ^ F.low : Nat) : Rat) = L at *; grind
  rw [e] at hr
  refine (ample_int hL (Nat.mul_pos hL hL) hr).imp_right fun hk => ?_
  rw [← Nat.mul_assoc] at hk
  rw [Nat.mul_comm]
  exact Nat.le_of_mul_le_mul_right hk hL

theorem ample_quotient {u v : Int} (hv : v ≠ 0) (hr : (u : Rat) / (2 ^ F.low : Nat) / (v / (2 ^ F.low : Nat)) = 0 ∨
      F.floor ≤ ((u : Rat) / (2 ^ F.low : Nat) / (v / (2 ^ F.low : Nat))).abs) : u = 0 ∨ v.natAbs * 2 ^ (F.p - 1) ≤ u.natAbs * 2 ^ F.low := by
  have hL := Nat.two_pow_pos F.low
  have hv0 : (v : Rat) ≠ 0 := by exact_mod_cast hv
  have e : (u : Rat) / (2 ^ F.low : Nat) / (v / (2 ^ F.low : Nat)) = ((u * (if v < 0 then -1 else 1) : Int) : Rat) / (v.natAbs : Rat) := by
    have := unit_rat hL
    have hn : (v.natAbs : Rat) = ((v.natAbs : Int) : Rat) := by norm_cast
    rw [hn]
    split
    · rw [show (v.natAbs : Int) = -v by omega, Rat.intCast_mul, Rat.intCast_neg v]
      generalize ((2 ^ F.low : Nat) : Rat) = L at *
      grind
    · rw [show (v.natAbs : Int) = v by omega, Int.mul_one]
      generalize ((2 ^ F.low : Nat) : Rat) = L at *
      grind
  rw [e] at hr
  rcases ample_int hL (by omega) hr with h0 | hk
  · refine .inl ?_
    split at h0 <;> omega
  · refine .inr ?_
    rw [Int.natAbs_mul, show (if v < 0 then (-1 : Int) else 1).natAbs = 1 by split <;> rfl, Nat.mul_one, Nat.mul_comm (2 ^ (F.p - 1))] at hk
    exact hk

/-! ### Elements -/

theorem scaled32 {k : Nat} {a b : BitVec 32} : Scaled k (.f32 a) (.f32 b) ↔ b32.Grows k a.toNat b.toNat := (grows_iff b32_ok).symm
theorem scaled64 {k : Nat} {a b : BitVec 64} : Scaled k (.f64 a) (.f64 b) ↔ b64.Grows k a.toNat b.toNat := (grows_iff b64_ok).symm

theorem ample32 {x y : BitVec 32} (h : AmpleProduct .f32 (.f32 x) (.f32 y)) :
    ∀ u v, b32.units x.toNat = some u → b32.units y.toNat = some v → u * v = 0 ∨ 2 ^ b32.low * 2 ^ (b32.p - 1) ≤ (u * v).natAbs := fun u v hu hv => by
  have := h _ _ (by rw [Val.rat, rat_units b32_ok, hu]; rfl) (by rw [Val.rat, rat_units b32_ok, hv]; rfl)
  rw [Ample, tiny32] at this
  exact ample_product this

theorem ample64 {x y : BitVec 64} (h : AmpleProduct .f64 (.f64 x) (.f64 y)) :
    ∀ u v, b64.units x.toNat = some u → b64.units y.toNat = some v → u * v = 0 ∨ 2 ^ b64.low * 2 ^ (b64.p - 1) ≤ (u * v).natAbs := fun u v hu hv => by
  have := h _ _ (by rw [Val.rat, rat_units b64_ok, hu]; rfl) (by rw [Val.rat, rat_units b64_ok, hv]; rfl)
  rw [Ample, tiny64] at this
  exact ample_product this

theorem quot_grows (h : F.OK) {k a b a' : Nat} (ha : a < 2 * F.signBit) (hb : b < 2 * F.signBit) (ha' : a' < 2 * F.signBit)
    (h1 : F.Grows k a a') (hr : ∃ q r, F.rat a = some q ∧ F.rat b = some r ∧ (q / r = 0 ∨ F.floor ≤ (q / r).abs))
    (hf : F.units (F.div a' b) ≠ none) : F.Grows k (F.div a b) (F.div a' b) := by
  obtain ⟨q, r, hq, hr, hqr⟩ := hr
  rw [rat_units h, Option.map_eq_some_iff] at hq hr
  obtain ⟨u, hu, rfl⟩ := hq
  obtain ⟨v, hv, rfl⟩ := hr
  by_cases h0 : v = 0
  · subst h0; exact absurd (units_div_zero h hb hv) hf
  refine div_grows h ha hb ha' h1 hv (fun u' hu' => ?_) hf
  rw [hu] at hu'; cases hu'
  exact ample_quotient h0 hqr

theorem op_scales {op : BinOp} {k : Nat} {x y z x' y' z' : Val} (hx : x.WT c) (hy : y.WT c) (hx' : x'.WT c) (hy' : y'.WT c)
    (hc : c = .f32 ∨ c = .f64) (h : OpScales c k op x y x' y') (hz : OpResult ieee c op x y z) (hz' : OpResult ieee c op x' y' z') (hf : Finite z') :
    Scaled k z z' := by
  rcases hc with rfl | rfl
  · cases x <;> simp only [Val.WT] at hx
    cases y <;> simp only [Val.WT] at hy
    cases x' <;> simp only [Val.WT] at hx'
    cases y' <;> simp only [Val.WT] at hy'
    rename_i x y x' y'
    simp only [OpResult] at hz hz'
    subst hz hz'
    rw [scaled32]
    simp only [Finite] at hf
    cases op <;> simp only [OpScales] at h
    · change b32.Grows k (BitVec.ofNat 32 (b32.add x.toNat y.toNat)).toNat (BitVec.ofNat 32 (b32.add x'.toNat y'.toNat)).toNat
      change b32.units (BitVec.ofNat 32 (b32.add x'.toNat y'.toNat)).toNat ≠ none at hf
      rw [of32 (add_lt b32_ok _ _)] at hf
      rw [of32 (add_lt b32_ok _ _), of32 (add_lt b32_ok _ _)]
      exact add_grows b32_ok (bits32 _) (bits32 _) (bits32 _) (bits32 _) (scaled32.1 h.1) (scaled32.1 h.2) hf
    · change b32.Grows k (BitVec.ofNat 32 (b32.sub x.toNat y.toNat)).toNat (BitVec.ofNat 32 (b32.sub x'.toNat y'.toNat)).toNat
      change b32.units (BitVec.ofNat 32 (b32.sub x'.toNat y'.toNat)).toNat ≠ none at hf
      rw [of32 (sub_lt b32_ok _ _)] at hf
      rw [of32 (sub_lt b32_ok _ _), of32 (sub_lt b32_ok _ _)]
      exact sub_grows b32_ok (bits32 _) (bits32 _) (bits32 _) (bits32 _) (scaled32.1 h.1) (scaled32.1 h.2) hf
    · change b32.Grows k (BitVec.ofNat 32 (b32.mul x.toNat y.toNat)).toNat (BitVec.ofNat 32 (b32.mul x'.toNat y'.toNat)).toNat
      change b32.units (BitVec.ofNat 32 (b32.mul x'.toNat y'.toNat)).toNat ≠ none at hf
      rw [of32 (mul_lt b32_ok _ _)] at hf
      rw [of32 (mul_lt b32_ok _ _), of32 (mul_lt b32_ok _ _)]
      obtain ⟨i, j, rfl, h1, h2, h3⟩ := h
      exact mul_grows b32_ok (bits32 _) (bits32 _) (bits32 _) (bits32 _) (scaled32.1 h1) (scaled32.1 h2) (ample32 h3) hf
    · change b32.Grows k (BitVec.ofNat 32 (b32.div x.toNat y.toNat)).toNat (BitVec.ofNat 32 (b32.div x'.toNat y'.toNat)).toNat
      change b32.units (BitVec.ofNat 32 (b32.div x'.toNat y'.toNat)).toNat ≠ none at hf
      rw [of32 (div_lt b32_ok _ _)] at hf
      rw [of32 (div_lt b32_ok _ _), of32 (div_lt b32_ok _ _)]
      obtain ⟨h1, h2, h3⟩ := h
      cases h2
      simp only [Ample, tiny32, Val.rat] at h3
      exact quot_grows b32_ok (bits32 _) (bits32 _) (bits32 _) (scaled32.1 h1) h3 hf
  · cases x <;> simp only [Val.WT] at hx
    cases y <;> simp only [Val.WT] at hy
    cases x' <;> simp only [Val.WT] at hx'
    cases y' <;> simp only [Val.WT] at hy'
    rename_i x y x' y'
    simp only [OpResult] at hz hz'
    subst hz hz'
    rw [scaled64]
    simp only [Finite] at hf
    cases op <;> simp only [OpScales] at h
    · change b64.Grows k (BitVec.ofNat 64 (b64.add x.toNat y.toNat)).toNat (BitVec.ofNat 64 (b64.add x'.toNat y'.toNat)).toNat
      change b64.units (BitVec.ofNat 64 (b64.add x'.toNat y'.toNat)).toNat ≠ none at hf
      rw [of64 (add_lt b64_ok _ _)] at hf
      rw [of64 (add_lt b64_ok _ _), of64 (add_lt b64_ok _ _)]
      exact add_grows b64_ok (bits64 _) (bits64 _) (bits64 _) (bits64 _) (scaled64.1 h.1) (scaled64.1 h.2) hf
    · change b64.Grows k (BitVec.ofNat 64 (b64.sub x.toNat y.toNat)).toNat (BitVec.ofNat 64 (b64.sub x'.toNat y'.toNat)).toNat
      change b64.units (BitVec.ofNat 64 (b64.sub x'.toNat y'.toNat)).toNat ≠ none at hf
      rw [of64 (sub_lt b64_ok _ _)] at hf
      rw [of64 (sub_lt b64_ok _ _), of64 (sub_lt b64_ok _ _)]
      exact sub_grows b64_ok (bits64 _) (bits64 _) (bits64 _) (bits64 _) (scaled64.1 h.1) (scaled64.1 h.2) hf
    · change b64.Grows k (BitVec.ofNat 64 (b64.mul x.toNat y.toNat)).toNat (BitVec.ofNat 64 (b64.mul x'.toNat y'.toNat)).toNat
      change b64.units (BitVec.ofNat 64 (b64.mul x'.toNat y'.toNat)).toNat ≠ none at hf
      rw [of64 (mul_lt b64_ok _ _)] at hf
      rw [of64 (mul_lt b64_ok _ _), of64 (mul_lt b64_ok _ _)]
      obtain ⟨i, j, rfl, h1, h2, h3⟩ := h
      exact mul_grows b64_ok (bits64 _) (bits64 _) (bits64 _) (bits64 _) (scaled64.1 h1) (scaled64.1 h2) (ample64 h3) hf
    · change b64.Grows k (BitVec.ofNat 64 (b64.div x.toNat y.toNat)).toNat (BitVec.ofNat 64 (b64.div x'.toNat y'.toNat)).toNat
      change b64.units (BitVec.ofNat 64 (b64.div x'.toNat y'.toNat)).toNat ≠ none at hf
      rw [of64 (div_lt b64_ok _ _)] at hf
      rw [of64 (div_lt b64_ok _ _), of64 (div_lt b64_ok _ _)]
      obtain ⟨h1, h2, h3⟩ := h
      cases h2
      simp only [Ample, tiny64, Val.rat] at h3
      exact quot_grows b64_ok (bits64 _) (bits64 _) (bits64 _) (scaled64.1 h1) h3 hf

/-! ### Conversions -/

theorem ample_convert {G : Fmt} {u : Int} (hr : (u : Rat) / (2 ^ F.low : Nat) = 0 ∨ G.floor ≤ ((u : Rat) / (2 ^ F.low : Nat)).abs) :
    u = 0 ∨ 2 ^ F.low * 2 ^ (G.p - 1) ≤ u.natAbs * 2 ^ G.low := by
  refine (ample_int (Nat.two_pow_pos G.low) (Nat.two_pow_pos F.low) hr).imp_right fun hk => ?_
  rwa [Nat.mul_comm]

theorem converts_scales {c' : Code} {k : Nat} {x x' y y' : Val} (hx : x.WT c) (hx' : x'.WT c) (hc : c = .f32 ∨ c = .f64) (hc' : c' = .f32 ∨ c' = .f64)
    (h : Scaled k x x') (ha : ∀ q, x.rat = some q → Ample c' q)
    (hy : Converts ieee c' x y) (hy' : Converts ieee c' x' y') (hf : Finite y') : Scaled k y y' := by
  rcases hc with rfl | rfl <;> cases x <;> try exact hx.elim
  all_goals (cases x' <;> try exact hx'.elim)
  all_goals (rcases hc' with rfl | rfl)
  all_goals (simp only [Converts] at hy hy'; subst hy hy')
  · exact h
  · rename_i x x'
    rw [scaled64]
    change b64.Grows k (BitVec.ofNat 64 (b32.convert b64 _)).toNat (BitVec.ofNat 64 (b32.convert b64 _)).toNat
    change b64.units (BitVec.ofNat 64 (b32.convert b64 _)).toNat ≠ none at hf
    rw [of64 (convert_lt b64_ok _)] at hf
    rw [of64 (convert_lt b64_ok _), of64 (convert_lt b64_ok _)]
    refine convert_grows b32_ok b64_ok (bits32 _) (bits32 _) (scaled32.1 h) (fun u hu => ?_) hf
    have := ha _ (by rw [Val.rat, rat_units b32_ok, hu]; rfl)
    rw [Ample, tiny64] at this
    exact ample_convert this
  · rename_i x x'
    rw [scaled32]
    change b32.Grows k (BitVec.ofNat 32 (b64.convert b32 _)).toNat (BitVec.ofNat 32 (b64.convert b32 _)).toNat
    change b32.units (BitVec.ofNat 32 (b64.convert b32 _)).toNat ≠ none at hf
    rw [of32 (convert_lt b32_ok _)] at hf
    rw [of32 (convert_lt b32_ok _), of32 (convert_lt b32_ok _)]
    refine convert_grows b64_ok b32_ok (bits64 _) (bits64 _) (scaled64.1 h) (fun u hu => ?_) hf
    have := ha _ (by rw [Val.rat, rat_units b64_ok, hu]; rfl)
    rw [Ample, tiny32] at this
    exact ample_convert this
  · exact h

/-! ### Sums of products -/

theorem units_ne (h : F.OK) {b : Nat} : F.units b ≠ none ↔ ∃ q, F.rat b = some q := by
  rw [rat_units h]
  cases F.units b <;> simp

theorem add_both (h : F.OK) {a b : Nat} (hf : F.units (F.add a b) ≠ none) : F.units a ≠ none ∧ F.units b ≠ none := by
  obtain ⟨q, hq⟩ := (units_ne h).1 hf
  obtain ⟨h1, h2⟩ := add_some h hq
  exact ⟨(units_ne h).2 h1, (units_ne h).2 h2⟩

/-- `z + a * b`, rounded twice. -/
def Fmt.Twice (F : Fmt) (f : Nat → Nat → Nat → Nat) : Prop :=
  ∀ z a b, z < 2 * F.signBit → a < 2 * F.signBit → b < 2 * F.signBit → f z a b = F.add z (F.mul a b)

theorem macs_start (h : F.OK) {f : Nat → Nat → Nat → Nat} (hf : F.Twice f) : ∀ (l : List (Nat × Nat)) {z : Nat}, z < 2 * F.signBit →
    (∀ p ∈ l, p.1 < 2 * F.signBit ∧ p.2 < 2 * F.signBit) → F.units (macs f z l) ≠ none → F.units z ≠ none
  | [], _, _, _, hn => hn
  | (a, b) :: l, z, hz, hl, hn => by
    obtain ⟨ha, hb⟩ := hl _ (List.mem_cons_self ..)
    have e := hf z a b hz ha hb
    have := macs_start h hf l (z := f z a b) (by rw [e]; exact add_lt h _ _) (fun p hp => hl p (List.mem_cons_of_mem _ hp)) hn
    rw [e] at this
    exact (add_both h this).1

/-- Both factors in range, their product multiplied by `2 ^ k`. -/
def Fmt.Growth (F : Fmt) (k : Nat) (p p' : Nat × Nat) : Prop :=
  p.1 < 2 * F.signBit ∧ p.2 < 2 * F.signBit ∧ p'.1 < 2 * F.signBit ∧ p'.2 < 2 * F.signBit ∧ ∃ i j, i + j = k ∧ F.Grows i p.1 p'.1 ∧ F.Grows j p.2 p'.2 ∧
    ∀ u v, F.units p.1 = some u → F.units p.2 = some v → u * v = 0 ∨ 2 ^ F.low * 2 ^ (F.p - 1) ≤ (u * v).natAbs

theorem macs_grow {ι : Type} (h : F.OK) {k : Nat} {f : Nat → Nat → Nat → Nat} (hf : F.Twice f) (u u' : ι → Nat × Nat) : ∀ (l : List ι) {z z' : Nat},
    z < 2 * F.signBit → z' < 2 * F.signBit → (∀ i ∈ l, F.Growth k (u i) (u' i)) → F.Grows k z z' → F.units (macs f z' (l.map u')) ≠ none →
    F.Grows k (macs f z (l.map u)) (macs f z' (l.map u'))
  | [], _, _, _, _, _, h0, _ => h0
  | i :: l, z, z', hz, hz', hl, h0, hn => by
    obtain ⟨a, b, a', b', s, t, hst, h1, h2, h3⟩ := hl i (List.mem_cons_self ..)
    have e := hf z _ _ hz a b
    have e' := hf z' _ _ hz' a' b'
    have hlt : f z (u i).1 (u i).2 < 2 * F.signBit := by rw [e]; exact add_lt h _ _
    have hlt' : f z' (u' i).1 (u' i).2 < 2 * F.signBit := by rw [e']; exact add_lt h _ _
    have hfin := macs_start h hf (l.map u') (z := f z' (u' i).1 (u' i).2) hlt' (fun p hp => by
      obtain ⟨j, hj, rfl⟩ := List.mem_map.1 hp
      exact ⟨(hl j (List.mem_cons_of_mem _ hj)).2.2.1, (hl j (List.mem_cons_of_mem _ hj)).2.2.2.1⟩) hn
    refine macs_grow h hf u u' l hlt hlt' (fun j hj => hl j (List.mem_cons_of_mem _ hj)) ?_ hn
    show F.Grows k (f z (u i).1 (u i).2) (f z' (u' i).1 (u' i).2)
    rw [e'] at hfin
    rw [e, e']
    subst hst
    exact add_grows h hz (mul_lt h _ _) hz' (mul_lt h _ _) h0 (mul_grows h a b a' b' h1 h2 h3 (add_both h hfin).2) hfin

theorem twice32 {fp : FloatOps} (hu : Unfused fp) : b32.Twice (step32 fp) := fun z a b hz ha hb => by
  unfold step32
  rw [hu.2.1]
  show (BitVec.ofNat 32 (b32.add (BitVec.ofNat 32 z).toNat (BitVec.ofNat 32 (b32.mul (BitVec.ofNat 32 a).toNat (BitVec.ofNat 32 b).toNat)).toNat)).toNat = _
  rw [of32 (add_lt b32_ok _ _), of32 (mul_lt b32_ok _ _), of32 (n := z) hz, of32 (n := a) ha, of32 (n := b) hb]

theorem twice64 {fp : FloatOps} (hu : Unfused fp) : b64.Twice (step64 fp) := fun z a b hz ha hb => by
  unfold step64
  rw [hu.2.2]
  show (BitVec.ofNat 64 (b64.add (BitVec.ofNat 64 z).toNat (BitVec.ofNat 64 (b64.mul (BitVec.ofNat 64 a).toNat (BitVec.ofNat 64 b).toNat)).toNat)).toNat = _
  rw [of64 (add_lt b64_ok _ _), of64 (mul_lt b64_ok _ _), of64 (n := z) hz, of64 (n := a) ha, of64 (n := b) hb]

theorem growth32 {k : Nat} {p p' : Val × Val} (h : p.1.WT .f32 ∧ p.2.WT .f32) (h' : p'.1.WT .f32 ∧ p'.2.WT .f32) (ht : TermScales .f32 k p p') :
    b32.Growth k (p.1.bits, p.2.bits) (p'.1.bits, p'.2.bits) := by
  obtain ⟨x, y⟩ := p
  obtain ⟨x', y'⟩ := p'
  cases x <;> try exact h.1.elim
  cases y <;> try exact h.2.elim
  cases x' <;> try exact h'.1.elim
  cases y' <;> try exact h'.2.elim
  obtain ⟨i, j, hij, h1, h2, h3⟩ := ht
  exact ⟨bits32 _, bits32 _, bits32 _, bits32 _, i, j, hij, scaled32.1 h1, scaled32.1 h2, ample32 h3⟩

theorem growth64 {k : Nat} {p p' : Val × Val} (h : p.1.WT .f64 ∧ p.2.WT .f64) (h' : p'.1.WT .f64 ∧ p'.2.WT .f64) (ht : TermScales .f64 k p p') :
    b64.Growth k (p.1.bits, p.2.bits) (p'.1.bits, p'.2.bits) := by
  obtain ⟨x, y⟩ := p
  obtain ⟨x', y'⟩ := p'
  cases x <;> try exact h.1.elim
  cases y <;> try exact h.2.elim
  cases x' <;> try exact h'.1.elim
  cases y' <;> try exact h'.2.elim
  obtain ⟨i, j, hij, h1, h2, h3⟩ := ht
  exact ⟨bits64 _, bits64 _, bits64 _, bits64 _, i, j, hij, scaled64.1 h1, scaled64.1 h2, ample64 h3⟩

theorem grows_zero (h : F.OK) (k : Nat) : F.Grows k 0 0 := by
  have : F.units 0 = some 0 := units_zero h false
  exact ⟨0, this, by simpa using this⟩

theorem dotTo_scales {ι : Type} {fp : FloatOps} {k : Nat} (hu : Unfused fp) (hc : c = .f32 ∨ c = .f64) {l : List ι} {u u' : ι → Val × Val} {w w' : Val}
    (hl : ∀ i ∈ l, ((u i).1.WT c ∧ (u i).2.WT c) ∧ ((u' i).1.WT c ∧ (u' i).2.WT c) ∧ TermScales c k (u i) (u' i))
    (hd : DotTo fp c (zeroVal c) (l.map u) w) (hd' : DotTo fp c (zeroVal c) (l.map u') w') : Scales k w w' := by
  have wt : ∀ p ∈ l.map u, p.1.WT c ∧ p.2.WT c := fun p hp => by obtain ⟨i, hi, rfl⟩ := List.mem_map.1 hp; exact (hl i hi).1
  have wt' : ∀ p ∈ l.map u', p.1.WT c ∧ p.2.WT c := fun p hp => by obtain ⟨i, hi, rfl⟩ := List.mem_map.1 hp; exact (hl i hi).2.1
  intro hf
  rcases hc with rfl | rfl
  · obtain ⟨rfl, hlt⟩ := dotTo32 wt hd
    obtain ⟨rfl, hlt'⟩ := dotTo32 wt' hd'
    simp only [List.map_map, Function.comp_def, Finite] at *
    rw [of32 (by rw [← two_sign b32_ok]; exact hlt')] at hf
    rw [scaled32, of32 (by rw [← two_sign b32_ok]; exact hlt), of32 (by rw [← two_sign b32_ok]; exact hlt')]
    exact macs_grow b32_ok (twice32 hu) _ _ l (bits32 _) (bits32 _) (fun i hi => growth32 (hl i hi).1 (hl i hi).2.1 (hl i hi).2.2)
      (grows_zero b32_ok k) hf
  · obtain ⟨rfl, hlt⟩ := dotTo64 wt hd
    obtain ⟨rfl, hlt'⟩ := dotTo64 wt' hd'
    simp only [List.map_map, Function.comp_def, Finite] at *
    rw [of64 (by rw [← two_sign b64_ok]; exact hlt')] at hf
    rw [scaled64, of64 (by rw [← two_sign b64_ok]; exact hlt), of64 (by rw [← two_sign b64_ok]; exact hlt')]
    exact macs_grow b64_ok (twice64 hu) _ _ l (bits64 _) (bits64 _) (fun i hi => growth64 (hl i hi).1 (hl i hi).2.1 (hl i hi).2.2)
      (grows_zero b64_ok k) hf

/-! ### Averages -/

theorem ample_widen {b : BitVec 32} {q : Rat} (hq : (Val.f32 b).rat = some q) : Ample .f64 q := by
  rw [Val.rat, rat_units b32_ok, Option.map_eq_some_iff] at hq
  obtain ⟨u, -, rfl⟩ := hq
  have hL : (0 : Rat) < (2 ^ b32.low : Nat) := by exact_mod_cast Nat.two_pow_pos b32.low
  by_cases h0 : u = 0
  · subst h0; exact .inl (by decide +kernel)
  · refine .inr ?_
    rw [abs_div_int u hL]
    have h1 : Code.tiny .f64 ≤ ((2 ^ b32.low : Nat) : Rat)⁻¹ := by decide +kernel
    have h2 : (1 : Rat) ≤ (u.natAbs : Rat) := by
      have : 1 ≤ u.natAbs := by omega
      exact_mod_cast this
    have h3 : (0 : Rat) < ((2 ^ b32.low : Nat) : Rat)⁻¹ := Rat.inv_pos.2 hL
    have h4 := Rat.mul_le_mul_of_nonneg_right h2 (Rat.le_of_lt h3)
    rw [Rat.one_mul] at h4
    rw [Rat.div_def]
    exact Rat.le_trans h1 h4

theorem add64_both {a b : BitVec 64} (hf : Finite (.f64 (ieee.add64 a b))) : Finite (.f64 a) ∧ Finite (.f64 b) := by
  change b64.units (BitVec.ofNat 64 (b64.add a.toNat b.toNat)).toNat ≠ none at hf
  rw [of64 (add_lt b64_ok _ _)] at hf
  exact add_both b64_ok hf

theorem sumsTo_start : ∀ (l : List Val) {t r : BitVec 64}, SumsTo ieee t l r → Finite (.f64 r) → Finite (.f64 t)
  | [], _, _, e, hf => by cases e; exact hf
  | _ :: l, _, _, ⟨_, _, hs⟩, hf => (add64_both (sumsTo_start l hs hf)).1

theorem sumsTo_scales {ι : Type} {k : Nat} {u u' : ι → Val} (hc : c = .f32 ∨ c = .f64) : ∀ (l : List ι) {t t' r r' : BitVec 64},
    (∀ i ∈ l, (u i).WT c ∧ (u' i).WT c ∧ Scaled k (u i) (u' i)) →
    Scaled k (.f64 t) (.f64 t') → SumsTo ieee t (l.map u) r → SumsTo ieee t' (l.map u') r' → Finite (.f64 r') → Scaled k (.f64 r) (.f64 r')
  | [], _, _, _, _, _, h0, e, e', _ => by cases e; cases e'; exact h0
  | i :: l, t, t', r, r', hl, h0, ⟨d, hd, hs⟩, ⟨d', hd', hs'⟩, hf => by
    obtain ⟨w, w', hi⟩ := hl i (List.mem_cons_self ..)
    have hn := sumsTo_start _ hs' hf
    have h1 : Scaled k (.f64 d) (.f64 d') := by
      rcases hc with rfl | rfl
      · refine converts_scales w w' (.inl rfl) (.inr rfl) hi (fun q hq => ?_) hd hd' (add64_both hn).2
        cases hx : u i with
        | f32 b => rw [hx] at hq; exact ample_widen hq
        | int _ => rw [hx] at w; exact w.elim
        | f64 _ => rw [hx] at w; exact w.elim
      · cases hx : u i with
        | f64 b =>
          cases hx' : u' i with
          | f64 b' =>
            rw [hx] at hi hd; rw [hx'] at hi hd'
            cases hd; cases hd'; exact hi
          | int _ => rw [hx'] at w'; exact w'.elim
          | f32 _ => rw [hx'] at w'; exact w'.elim
        | int _ => rw [hx] at w; exact w.elim
        | f32 _ => rw [hx] at w; exact w.elim
    refine sumsTo_scales hc l (fun j hj => hl j (List.mem_cons_of_mem _ hj)) ?_ hs hs' hf
    exact op_scales (c := .f64) (op := .add) (x := .f64 t) (y := .f64 d) (x' := .f64 t') (y' := .f64 d') trivial trivial trivial trivial (.inr rfl) ⟨h0, h1⟩ rfl rfl hn

/-- Only numbers of the range of full precision are rounded to numbers above its end. -/
theorem near_ample (h : F.OK) {N w : Int} {D : Nat} (hD : 0 < D) (hw : F.near N D = some w) (hb : 2 ^ (F.p - 1) < w.natAbs) : D * 2 ^ (F.p - 1) ≤ N.natAbs := by
  apply Classical.byContradiction
  intro hc
  have hP := Nat.two_pow_pos (F.p - 1)
  have eP : F.mag (2 ^ (F.p - 1)) = 2 ^ (F.p - 1) := by
    have := mag_of F (k := 0) (q := 2 ^ (F.p - 1)) (by omega) (.inl rfl)
    simpa using this
  unfold Fmt.near at hw
  split at hw
  · next hlt =>
    cases hw
    rw [sgn_abs] at hb
    have hlt' : 2 ^ (F.p - 1) < F.rq N.natAbs D := (mag_lt_iff F).1 (by rw [eP]; exact hb)
    have e := rq_mag h (n := 2 ^ (F.p - 1)) (by omega)
    rw [eP] at e
    have := rq_mono h (N := N.natAbs) (D := D) (N' := 2 ^ (F.p - 1)) (D' := 1) hD (by omega) (by rw [Nat.mul_one, Nat.mul_comm]; omega)
    omega
  · cases hw

theorem above_floor {u : Int} (h : F.floor < ((u : Rat) / (2 ^ F.low : Nat)).abs) : 2 ^ (F.p - 1) < u.natAbs := by
  have hL : (0 : Rat) < (2 ^ F.low : Nat) := by exact_mod_cast Nat.two_pow_pos F.low
  rw [abs_div_int u hL, Fmt.floor] at h
  apply Classical.byContradiction
  intro hc
  have h2 : (u.natAbs : Rat) ≤ ((2 ^ (F.p - 1) : Nat) : Rat) := by
    have : u.natAbs ≤ 2 ^ (F.p - 1) := by omega
    exact_mod_cast this
  have h4 := Rat.mul_le_mul_of_nonneg_right h2 (Rat.le_of_lt (Rat.inv_pos.2 hL))
  rw [← Rat.div_def, ← Rat.div_def] at h4
  exact absurd h (Rat.not_lt.2 h4)

theorem div_above (h : F.OK) {k a b a' : Nat} {v w : Int} (ha : a < 2 * F.signBit) (hb : b < 2 * F.signBit) (ha' : a' < 2 * F.signBit)
    (h1 : F.Grows k a a') (hv : F.units b = some v) (hw : F.units (F.div a b) = some w) (hl : 2 ^ (F.p - 1) < w.natAbs)
    (hf : F.units (F.div a' b) ≠ none) : F.Grows k (F.div a b) (F.div a' b) := by
  by_cases h0 : v = 0
  · subst h0; exact absurd (units_div_zero h hb hv) hf
  refine div_grows h ha hb ha' h1 hv (fun u hu => .inr ?_) hf
  rw [units_div h ha hb hu hv h0] at hw
  have := near_ample h (by omega) hw hl
  rwa [Int.natAbs_mul, Int.natAbs_mul, Int.natAbs_pow, show (if v < 0 then (-1 : Int) else 1).natAbs = 1 by split <;> rfl, Nat.mul_one] at this

theorem avgOf_scales {ι : Type} {k : Nat} {u u' : ι → Val} {l : List ι} {y y' : Val} {K : Nat} (hK : K < 2 ^ 53) (hc : c = .f32 ∨ c = .f64)
    (hl : ∀ i ∈ l, (u i).WT c ∧ (u' i).WT c ∧ Scaled k (u i) (u' i)) (h : AvgOf ieee c K (l.map u) y) (h' : AvgOf ieee c K (l.map u') y')
    (hy : Above c y) : Scales k y y' := by
  intro hf
  obtain ⟨t, hs, hr⟩ := h
  obtain ⟨t', hs', hr'⟩ := h'
  have eK : (ieee.ofInt64 K).toNat = b64.ofInt K := of64 (ofInt_lt b64_ok _)
  have iK : b64.IsInt (b64.ofInt K) K := ofInt_int b64_ok (by simpa [b64] using hK)
  have hd : ∀ s : BitVec 64, (ieee.div64 s (ieee.ofInt64 K)).toNat = b64.div s.toNat (b64.ofInt K) := fun s => by rw [div_toNat, eK]
  have h0 : Scaled k (.f64 (ieee.ofInt64 0)) (.f64 (ieee.ofInt64 0)) := by
    rw [scaled64]
    have : (ieee.ofInt64 0).toNat = 0 := by decide +kernel
    rw [this]
    exact grows_zero b64_ok k
  -- a finite quotient has a finite dividend
  have fin : ∀ s : BitVec 64, b64.units (ieee.div64 s (ieee.ofInt64 K)).toNat ≠ none → Finite (.f64 s) := fun s hq => by
    rw [hd, units_ne b64_ok] at hq
    obtain ⟨q, hq⟩ := hq
    exact (units_ne b64_ok).2 (div_some b64_ok (isInt_rat b64_ok iK) hq)
  obtain ⟨q, hq, ha⟩ := hy
  rcases hc with rfl | rfl
  · simp only [Converts] at hr hr'
    subst hr hr'
    have en : ∀ b : BitVec 64, (ieee.narrow b).toNat = b64.convert b32 b.toNat := fun b => of32 (convert_lt b32_ok _)
    simp only [Finite, en] at hf
    rw [Val.rat, en] at hq
    have fd : b64.units (ieee.div64 t' (ieee.ofInt64 K)).toNat ≠ none := by
      rw [units_ne b32_ok] at hf
      obtain ⟨q, hq⟩ := hf
      exact (units_ne b64_ok).2 (convert_some b32_ok hq)
    have h1 := sumsTo_scales (.inl rfl) l hl h0 hs hs' (fin _ fd)
    obtain ⟨d, hd1⟩ := convert_some b32_ok hq
    rw [rat_units b64_ok, Option.map_eq_some_iff] at hd1
    obtain ⟨ud, hud, -⟩ := hd1
    rw [rat_units b32_ok, Option.map_eq_some_iff] at hq
    obtain ⟨w, hw, rfl⟩ := hq
    rw [tiny32] at ha
    have hw0 := hw
    rw [units_convert b64_ok b32_ok (bits64 _) hud] at hw
    have hn := near_ample b32_ok (Nat.two_pow_pos _) hw (above_floor ha)
    rw [Int.natAbs_mul, Int.natAbs_pow] at hn
    have hbig : 2 ^ (b64.p - 1) < ud.natAbs := by
      apply Classical.byContradiction
      intro hc
      have : ud.natAbs * (2 : Int).natAbs ^ b32.low ≤ 2 ^ (b64.p - 1) * (2 : Int).natAbs ^ b32.low := Nat.mul_le_mul_right _ (by omega)
      have : ¬ (2 ^ b64.low * 2 ^ (b32.p - 1) ≤ 2 ^ (b64.p - 1) * (2 : Int).natAbs ^ b32.low) := by decide +kernel
      omega
    rw [scaled32, en, en]
    rw [hd] at hud fd
    rw [hd] at hf
    simp only [hd]
    refine convert_grows b64_ok b32_ok (div_lt b64_ok _ _) (div_lt b64_ok _ _)
      (div_above b64_ok (bits64 _) (ofInt_lt b64_ok _) (bits64 _) (scaled64.1 h1) iK hud hbig fd) (fun u hu => .inr ?_) hf
    rw [hud] at hu; cases hu
    exact hn
  · simp only [Converts] at hr hr'
    subst hr hr'
    simp only [Finite] at hf
    have h1 := sumsTo_scales (.inr rfl) l hl h0 hs hs' (fin _ hf)
    rw [Val.rat, rat_units b64_ok, Option.map_eq_some_iff] at hq
    obtain ⟨w, hw, rfl⟩ := hq
    rw [tiny64] at ha
    rw [hd] at hf hw
    rw [scaled64, hd, hd]
    exact div_above b64_ok (bits64 _) (ofInt_lt b64_ok _) (bits64 _) (scaled64.1 h1) iK hw (above_floor ha) hf

/-! ### Maxima -/

theorem lt_grows (h : F.OK) {k a b a' b' : Nat} (ha : a < 2 * F.signBit) (hb : b < 2 * F.signBit) (ha' : a' < 2 * F.signBit) (hb' : b' < 2 * F.signBit)
    (h1 : F.Grows k a a') (h2 : F.Grows k b b') : F.lt a' b' = F.lt a b := by
  obtain ⟨u, hu, hu'⟩ := h1
  obtain ⟨v, hv, hv'⟩ := h2
  have hpos : (0 : Int) < 2 ^ k := by rw [← pow_cast]; exact Int.natCast_pos.2 (Nat.two_pow_pos k)
  rw [lt_units h ha hb hu hv, lt_units h ha' hb' hu' hv']
  simp [Int.mul_lt_mul_right hpos]

theorem converts_rat {x : Val} {d : BitVec 64} {q : Rat} (hx : x.WT c) (hc : c = .f32 ∨ c = .f64) (hd : Converts ieee .f64 x (.f64 d)) (hq : x.rat = some q) :
    (Val.f64 d).rat = some q := by
  rcases hc with rfl | rfl <;> cases x <;> try exact hx.elim
  · cases hd
    show b64.rat (BitVec.ofNat 64 (b32.convert b64 _)).toNat = _
    rw [of64 (convert_lt b64_ok _)]
    exact convert_rat b32_ok b64_ok (by decide) (by decide) (by decide) (bits32 _) hq
  · cases hd; exact hq

theorem converts_home {x y : Val} {d : BitVec 64} {q : Rat} (hx : x.WT c) (hc : c = .f32 ∨ c = .f64) (hd : Converts ieee .f64 x (.f64 d)) (hq : x.rat = some q)
    (hy : Converts ieee c (.f64 d) y) : y = x := by
  rcases hc with rfl | rfl <;> cases x <;> try exact hx.elim
  · rename_i b
    cases hd; cases hy
    refine congrArg Val.f32 (BitVec.eq_of_toNat_eq ?_)
    show (BitVec.ofNat 32 (b64.convert b32 (BitVec.ofNat 64 (b32.convert b64 b.toNat)).toNat)).toNat = _
    rw [of32 (convert_lt b32_ok _), of64 (convert_lt b64_ok _)]
    exact convert_back b32_ok b64_ok (by decide) (by decide) (by decide) (bits32 _)
      (units_not_nan b32_ok (bits32 _) ((units_ne b32_ok).2 ⟨q, hq⟩))
  · cases hd; cases hy; rfl

theorem scansTo_scales {ι : Type} {k : Nat} {u u' : ι → Val} (hc : c = .f32 ∨ c = .f64) : ∀ (l : List ι) {t t' r r' : BitVec 64} {x x' y y' : Val},
    (∀ i ∈ l, (u i).WT c ∧ (u' i).WT c ∧ Scaled k (u i) (u' i)) → x.WT c → x'.WT c → Scaled k x x' → Converts ieee .f64 x (.f64 t) → Converts ieee .f64 x' (.f64 t') →
    ScansTo ieee t (l.map u) r → ScansTo ieee t' (l.map u') r' → Converts ieee c (.f64 r) y → Converts ieee c (.f64 r') y' → Scaled k y y'
  | [], _, _, _, _, _, _, _, _, _, hx, hx', ⟨q, h1, h2⟩, c1, c2, e, e', hy, hy' => by
    cases e; cases e'
    rw [converts_home hx hc c1 h1 hy, converts_home hx' hc c2 h2 hy']
    exact ⟨q, h1, h2⟩
  | i :: l, t, t', r, r', x, x', y, y', hl, hx, hx', h0, c1, c2, ⟨d, hd, hs⟩, ⟨d', hd', hs'⟩, hy, hy' => by
    obtain ⟨w, w', hi⟩ := hl i (List.mem_cons_self ..)
    have g1 : Scaled k (.f64 t) (.f64 t') := by
      obtain ⟨q, a, b⟩ := h0; exact ⟨q, converts_rat hx hc c1 a, converts_rat hx' hc c2 b⟩
    have g2 : Scaled k (.f64 d) (.f64 d') := by
      obtain ⟨q, a, b⟩ := hi; exact ⟨q, converts_rat w hc hd a, converts_rat w' hc hd' b⟩
    have e : ieee.lt64 t' d' = ieee.lt64 t d := lt_grows b64_ok (bits64 _) (bits64 _) (bits64 _) (bits64 _) (scaled64.1 g1) (scaled64.1 g2)
    rw [e] at hs'
    cases hlt : ieee.lt64 t d <;> simp only [hlt, if_true, Bool.false_eq_true, if_false] at hs hs'
    · exact scansTo_scales hc l (fun j hj => hl j (List.mem_cons_of_mem _ hj)) hx hx' h0 c1 c2 hs hs' hy hy'
    · exact scansTo_scales hc l (fun j hj => hl j (List.mem_cons_of_mem _ hj)) w w' hi hd hd' hs hs' hy hy'

theorem scaled_zero (hc : c = .f32 ∨ c = .f64) (k : Nat) : (zeroVal c).WT c ∧ Scaled k (zeroVal c) (zeroVal c) ∧ Converts ieee .f64 (zeroVal c) (.f64 (ieee.ofInt64 0)) := by
  rcases hc with rfl | rfl
  · exact ⟨trivial, scaled32.2 (grows_zero b32_ok k), congrArg Val.f64 (by decide +kernel)⟩
  · exact ⟨trivial, scaled64.2 (grows_zero b64_ok k), congrArg Val.f64 (by decide +kernel)⟩

theorem scanOf_scales {ι : Type} {k : Nat} {u u' : ι → Val} {l : List ι} {y y' : Val} (hc : c = .f32 ∨ c = .f64)
    (hl : ∀ i ∈ l, (u i).WT c ∧ (u' i).WT c ∧ Scaled k (u i) (u' i)) (h : ScanOf ieee c (l.map u) y) (h' : ScanOf ieee c (l.map u') y') : Scaled k y y' := by
  obtain ⟨r, hs, hr⟩ := h
  obtain ⟨r', hs', hr'⟩ := h'
  obtain ⟨a, b, d⟩ := scaled_zero hc k
  exact scansTo_scales hc l hl a a b d d hs hs' hr hr'

theorem clamp_scales {k : Nat} {x x' y y' : Val} (hc : c = .f32 ∨ c = .f64) (hx : x.WT c) (hx' : x'.WT c) (h : Scaled k x x') (hy : ClampedAtZero ieee x y)
    (hy' : ClampedAtZero ieee x' y') : Scaled k y y' := by
  rcases hc with rfl | rfl <;> cases x <;> try exact hx.elim
  all_goals (cases x' <;> try exact hx'.elim)
  · rename_i a b
    have z0 : (ieee.ofInt32 0).toNat = 0 := by decide +kernel
    have g0 : b32.Grows k (ieee.ofInt32 0).toNat (ieee.ofInt32 0).toNat := by rw [z0]; exact grows_zero b32_ok k
    have e : ieee.lt32 (ieee.ofInt32 0) b = ieee.lt32 (ieee.ofInt32 0) a := lt_grows b32_ok (bits32 _) (bits32 _) (bits32 _) (bits32 _) g0 (scaled32.1 h)
    cases h1 : ieee.lt32 (ieee.ofInt32 0) a
    · rw [hy.2 h1, hy'.2 (e.trans h1)]; exact scaled32.2 g0
    · rw [hy.1 h1, hy'.1 (e.trans h1)]; exact h
  · rename_i a b
    have z0 : (ieee.ofInt64 0).toNat = 0 := by decide +kernel
    have g0 : b64.Grows k (ieee.ofInt64 0).toNat (ieee.ofInt64 0).toNat := by rw [z0]; exact grows_zero b64_ok k
    have e : ieee.lt64 (ieee.ofInt64 0) b = ieee.lt64 (ieee.ofInt64 0) a := lt_grows b64_ok (bits64 _) (bits64 _) (bits64 _) (bits64 _) g0 (scaled64.1 h)
    cases h1 : ieee.lt64 (ieee.ofInt64 0) a
    · rw [hy.2 h1, hy'.2 (e.trans h1)]; exact scaled64.2 g0
    · rw [hy.1 h1, hy'.1 (e.trans h1)]; exact h

end Aitisa
