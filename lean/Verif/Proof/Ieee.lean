import Verif.Spec.Ieee

/-!
# Facts about IEEE 754 arithmetic
-/

namespace Aitisa

/-- Room for the significands: true of binary32 and binary64. -/
structure Fmt.OK (F : Fmt) : Prop where
  p3 : 3 ≤ F.p
  w2 : 2 ≤ F.w
  room : F.p + 2 ≤ 2 ^ (F.w - 1)

theorem b32_ok : b32.OK := ⟨by decide, by decide, by decide⟩
theorem b64_ok : b64.OK := ⟨by decide, by decide, by decide⟩

variable {F : Fmt}

/-- The exponent of the smallest numbers, as a natural number. -/
def Fmt.low (F : Fmt) : Nat := 2 ^ (F.w - 1) + F.p - 3

theorem Fmt.OK.emin (h : F.OK) : F.emin = -(F.low : Int) := by
  have := h.p3
  have := h.room
  have e : ((2 ^ (F.w - 1) : Nat) : Int) = (2 : Int) ^ (F.w - 1) := by simp
  simp only [Fmt.emin, Fmt.low]
  omega

theorem Fmt.OK.two (h : F.OK) : 2 ^ F.w = 2 * 2 ^ (F.w - 1) := by
  have := h.w2
  obtain ⟨n, hn⟩ : ∃ n, F.w = n + 1 := ⟨F.w - 1, by omega⟩
  rw [hn, Nat.pow_succ]; simp; omega

theorem Fmt.OK.sign (h : F.OK) : F.signBit = 2 ^ (F.p - 1) * 2 ^ F.w := by
  have := h.p3
  rw [Fmt.signBit, ← Nat.pow_add]
  congr 1; omega

theorem Fmt.OK.pow_p (h : F.OK) : 2 ^ F.p = 2 * 2 ^ (F.p - 1) := by
  have := h.p3
  obtain ⟨n, hn⟩ : ∃ n, F.p = n + 1 := ⟨F.p - 1, by omega⟩
  rw [hn, Nat.pow_succ]; simp; omega

theorem Fmt.OK.inf_lt (h : F.OK) : F.infBits + 2 ^ (F.p - 1) = F.signBit := by
  rw [h.sign, Fmt.infBits]
  have : 0 < 2 ^ F.w := Nat.two_pow_pos _
  obtain ⟨n, hn⟩ : ∃ n, 2 ^ F.w = n + 1 := ⟨2 ^ F.w - 1, by omega⟩
  rw [hn, Nat.add_sub_cancel, Nat.mul_comm, Nat.mul_add, Nat.mul_one]

theorem signed_sign {s : Bool} {n : Nat} (hn : n < F.signBit) : decide (F.signBit ≤ F.signed s n) = s := by
  cases s <;> simp [Fmt.signed] <;> omega

theorem signed_field (h : F.OK) (s : Bool) (n : Nat) : F.signed s n / 2 ^ (F.p - 1) % 2 ^ F.w = n / 2 ^ (F.p - 1) % 2 ^ F.w := by
  cases s
  · simp [Fmt.signed]
  · simp only [Fmt.signed, if_true, h.sign]
    rw [Nat.mul_add_div (Nat.two_pow_pos _), Nat.add_mod_left]

theorem signed_frac (h : F.OK) (s : Bool) (n : Nat) : F.signed s n % 2 ^ (F.p - 1) = n % 2 ^ (F.p - 1) := by
  cases s
  · simp [Fmt.signed]
  · simp only [Fmt.signed, if_true, h.sign]
    rw [Nat.mul_add_mod]

/-- Decoding a packed number. -/
theorem decode_pack (h : F.OK) {s : Bool} {k q : Nat} (hq : q < 2 ^ F.p) (hn : k = 0 ∨ 2 ^ (F.p - 1) ≤ q)
    (hk : k * 2 ^ (F.p - 1) + q < F.infBits) : F.decode (F.signed s (k * 2 ^ (F.p - 1) + q)) = .fin s q (F.emin + k) := by
  have hs := h.inf_lt
  have hP : 0 < 2 ^ (F.p - 1) := Nat.two_pow_pos _
  have hp := h.pow_p
  simp only [Fmt.decode, signed_sign (F := F) (s := s) (n := k * 2 ^ (F.p - 1) + q) (by omega), signed_field h, signed_frac h]
  have hW : 4 ≤ 2 ^ F.w := by
    rw [h.two]; have := h.room; have := h.p3; omega
  simp only [Fmt.infBits] at hk
  generalize 2 ^ (F.p - 1) = P at *
  generalize 2 ^ F.w = W at *
  rw [Nat.mul_comm k P, Nat.mul_add_div hP, Nat.mul_add_mod]
  rcases Nat.lt_or_ge q P with hlt | hge
  · have hk0 : k = 0 := by omega
    subst hk0
    rw [Nat.div_eq_of_lt hlt, Nat.mod_eq_of_lt hlt]
    simp
    omega
  · obtain ⟨f, rfl⟩ : ∃ f, q = P + f := ⟨q - P, by omega⟩
    have hf : f < P := by omega
    have hx : k + 1 < W - 1 := by
      rcases Nat.lt_or_ge (k + 1) (W - 1) with h' | h'
      · exact h'
      · have := Nat.mul_le_mul_right P h'
        rw [Nat.add_mul, Nat.one_mul] at this; omega
    rw [Nat.add_div_left _ hP, Nat.div_eq_of_lt hf, Nat.add_mod_left, Nat.mod_eq_of_lt hf, Nat.mod_eq_of_lt (by omega : k + (0 + 1) < W)]
    rw [if_neg (by omega), if_neg (by omega)]
    simp

theorem log2_bounds {m : Nat} (hm : m ≠ 0) : 2 ^ Nat.log2 m ≤ m ∧ m < 2 ^ (Nat.log2 m + 1) :=
  ⟨Nat.log2_self_le hm, Nat.lt_log2_self⟩

theorem roundShift_exact {q d : Nat} : roundShift (q * 2 ^ d) d = q := by
  have := Nat.two_pow_pos d
  simp only [roundShift, Nat.mul_div_cancel _ this, Nat.mul_mod_left]
  simp

theorem log2_shift {m : Nat} (hm : m ≠ 0) : ∀ k, Nat.log2 (m * 2 ^ k) = Nat.log2 m + k
  | 0 => by simp
  | k + 1 => by
    have h0 : m * 2 ^ k ≠ 0 := Nat.mul_ne_zero hm (Nat.ne_of_gt (Nat.two_pow_pos k))
    rw [Nat.pow_succ, ← Nat.mul_assoc, Nat.mul_comm _ 2, Nat.log2_two_mul h0, log2_shift hm k]
    omega

/-- Rounding a number whose significand fits. -/
theorem round_fin (h : F.OK) {s : Bool} {m q : Nat} {e e' : Int} (hm : m ≠ 0) (he' : e' = max (e + (Nat.log2 m + 1 : Nat) - F.p) F.emin)
    (hq : (e' ≤ e ∧ q = m * 2 ^ (e - e').toNat) ∨ (e < e' ∧ q * 2 ^ (e' - e).toNat = m))
    (hk : (e' - F.emin).toNat * 2 ^ (F.p - 1) + q < F.infBits) : F.decode (F.round s m e) = .fin s q e' := by
  have hge : F.emin ≤ e' := by omega
  obtain ⟨hb1, hb2⟩ := log2_bounds hm
  have hp3 := h.p3
  have hr : F.round s m e = F.signed s ((e' - F.emin).toNat * 2 ^ (F.p - 1) + q) := by
    simp only [Fmt.round, if_neg hm, ← he']
    rcases hq with ⟨h1, rfl⟩ | ⟨h1, rfl⟩
    · rw [if_pos h1, Nat.min_eq_left (by omega)]
    · rw [if_neg (by omega), roundShift_exact, Nat.min_eq_left (by omega)]
  have hq1 : q < 2 ^ F.p := by
    rcases hq with ⟨h1, rfl⟩ | ⟨h1, h2⟩
    · calc m * 2 ^ (e - e').toNat < 2 ^ (Nat.log2 m + 1) * 2 ^ (e - e').toNat := Nat.mul_lt_mul_of_pos_right hb2 (Nat.two_pow_pos _)
        _ = 2 ^ (Nat.log2 m + 1 + (e - e').toNat) := by rw [← Nat.pow_add]
        _ ≤ 2 ^ F.p := Nat.pow_le_pow_right (by decide) (by omega)
    · refine Nat.lt_of_mul_lt_mul_right (a := 2 ^ (e' - e).toNat) ?_
      rw [h2, ← Nat.pow_add]
      exact Nat.lt_of_lt_of_le hb2 (Nat.pow_le_pow_right (by decide) (by omega))
  have hq2 : (e' - F.emin).toNat = 0 ∨ 2 ^ (F.p - 1) ≤ q := by
    rcases Int.lt_or_le F.emin e' with hlt | hle
    · right
      rcases hq with ⟨h1, rfl⟩ | ⟨h1, h2⟩
      · calc 2 ^ (F.p - 1) = 2 ^ (Nat.log2 m) * 2 ^ (e - e').toNat := by rw [← Nat.pow_add]; congr 1; omega
          _ ≤ _ := Nat.mul_le_mul_right _ hb1
      · refine Nat.le_of_mul_le_mul_right (c := 2 ^ (e' - e).toNat) ?_ (Nat.two_pow_pos _)
        rw [h2, ← Nat.pow_add]
        exact Nat.le_trans (Nat.pow_le_pow_right (by decide) (by omega)) hb1
    · left; omega
  rw [hr, decode_pack h hq1 hq2 hk]
  congr 1; omega

/-- Rounding a positive integer below `2^p` (given as `m * 2^e`) changes nothing. -/
theorem round_int (h : F.OK) {s : Bool} {m k K : Nat} {e : Int} (hK : 0 ≤ e + K) (hv : m * 2 ^ (e + K).toNat = k * 2 ^ K) (hk0 : k ≠ 0)
    (hk : k < 2 ^ F.p) : F.units (F.round s m e) = some (sgn s k * 2 ^ (-F.emin).toNat) := by
  have hem := h.emin
  have hp3 := h.p3
  have hm : m ≠ 0 := by
    rintro rfl
    rw [Nat.zero_mul] at hv
    exact Nat.mul_ne_zero hk0 (Nat.ne_of_gt (Nat.two_pow_pos K)) hv.symm
  have hlog : Nat.log2 m + (e + K).toNat = Nat.log2 k + K := by
    rw [← log2_shift hm, hv, log2_shift hk0]
  have hkp : Nat.log2 k < F.p := (Nat.log2_lt hk0).2 hk
  obtain ⟨e', he'⟩ : ∃ e', e' = max (e + (Nat.log2 m + 1 : Nat) - F.p) F.emin := ⟨_, rfl⟩
  have h0 : e' ≤ 0 := by omega
  -- the significand, with the equation that it satisfies
  have hq : ∃ q, ((e' ≤ e ∧ q = m * 2 ^ (e - e').toNat) ∨ (e < e' ∧ q * 2 ^ (e' - e).toNat = m)) ∧ q = k * 2 ^ (-e').toNat := by
    refine ⟨k * 2 ^ (-e').toNat, ?_, rfl⟩
    rcases Int.lt_or_le e e' with hlt | hle
    · right
      refine ⟨hlt, ?_⟩
      refine Nat.eq_of_mul_eq_mul_right (Nat.two_pow_pos (e + K).toNat) ?_
      rw [hv, Nat.mul_assoc, Nat.mul_assoc, ← Nat.pow_add, ← Nat.pow_add]
      congr 2; omega
    · left
      refine ⟨hle, ?_⟩
      refine Nat.eq_of_mul_eq_mul_right (Nat.two_pow_pos K) ?_
      rw [Nat.mul_right_comm k, ← hv, Nat.mul_assoc, Nat.mul_assoc, ← Nat.pow_add, ← Nat.pow_add]
      congr 2; omega
  obtain ⟨q, hq, hqk⟩ := hq
  have hlow : (e' - F.emin).toNat ≤ F.low := by omega
  have hqp : q < 2 ^ F.p := by
    have hb := log2_bounds hm
    rcases hq with ⟨h1, h2⟩ | ⟨h1, h2⟩
    · rw [h2]
      calc m * 2 ^ (e - e').toNat < 2 ^ (Nat.log2 m + 1) * 2 ^ (e - e').toNat := Nat.mul_lt_mul_of_pos_right hb.2 (Nat.two_pow_pos _)
        _ = 2 ^ (Nat.log2 m + 1 + (e - e').toNat) := by rw [← Nat.pow_add]
        _ ≤ 2 ^ F.p := Nat.pow_le_pow_right (by decide) (by omega)
    · refine Nat.lt_of_mul_lt_mul_right (a := 2 ^ (e' - e).toNat) ?_
      rw [h2, ← Nat.pow_add]
      exact Nat.lt_of_lt_of_le hb.2 (Nat.pow_le_pow_right (by decide) (by omega))
  have hov : (e' - F.emin).toNat * 2 ^ (F.p - 1) + q < F.infBits := by
    have h1 := Nat.mul_le_mul_right (2 ^ (F.p - 1)) hlow
    have h2 : F.low + 2 ≤ 2 ^ F.w - 1 := by
      have := h.room; have := h.two
      simp only [Fmt.low]; omega
    have h3 := Nat.mul_le_mul_right (2 ^ (F.p - 1)) h2
    have h4 := h.pow_p
    rw [Nat.add_mul] at h3
    simp only [Fmt.infBits]
    omega
  simp only [Fmt.units, round_fin h hm he' hq hov, Option.some.injEq]
  subst hqk
  have e1 : sgn s (k * 2 ^ (-e').toNat) = sgn s k * 2 ^ (-e').toNat := by
    cases s <;> simp [sgn, Int.neg_mul]
  rw [e1, Int.mul_assoc, ← Int.pow_add]
  congr 2; omega

theorem decode_signed (h : F.OK) {s : Bool} {n : Nat} (hn : n < F.signBit) :
    F.decode (F.signed s n) = if n / 2 ^ (F.p - 1) = 2 ^ F.w - 1 then (if n % 2 ^ (F.p - 1) = 0 then .inf s else .nan)
      else if n / 2 ^ (F.p - 1) = 0 then .fin s (n % 2 ^ (F.p - 1)) F.emin
      else .fin s (2 ^ (F.p - 1) + n % 2 ^ (F.p - 1)) (F.emin + (n / 2 ^ (F.p - 1) - 1 : Nat)) := by
  have hlt : n / 2 ^ (F.p - 1) < 2 ^ F.w := by
    rw [Nat.div_lt_iff_lt_mul (Nat.two_pow_pos _), Nat.mul_comm, ← h.sign]; exact hn
  simp only [Fmt.decode, signed_sign (F := F) (s := s) (n := n) hn, signed_field h, signed_frac h, Nat.mod_eq_of_lt hlt]

/-- Every bit pattern is a sign and a magnitude. -/
theorem exists_signed {b : Nat} (hb : b < 2 * F.signBit) : ∃ s n, n < F.signBit ∧ b = F.signed s n := by
  rcases Nat.lt_or_ge b F.signBit with h | h
  · exact ⟨false, b, h, by simp [Fmt.signed]⟩
  · exact ⟨true, b - F.signBit, by omega, by simp [Fmt.signed]; omega⟩

theorem decode_low {b : Nat} {s : Bool} {m : Nat} {e : Int} (hd : F.decode b = .fin s m e) : F.emin ≤ e := by
  simp only [Fmt.decode] at hd
  split at hd
  · split at hd <;> cases hd
  · split at hd <;> cases hd <;> omega

theorem inf_pos (h : F.OK) : 0 < F.infBits := by
  have := h.room; have := h.two; have := h.p3
  exact Nat.mul_pos (by omega) (Nat.two_pow_pos _)

theorem decode_zero (h : F.OK) (s : Bool) : F.decode (F.signed s 0) = .fin s 0 F.emin := by
  have := decode_pack h (s := s) (k := 0) (q := 0) (Nat.two_pow_pos _) (.inl rfl) (by simpa using inf_pos h)
  simpa using this

theorem units_zero (h : F.OK) (s : Bool) : F.units (F.signed s 0) = some 0 := by
  simp only [Fmt.units, decode_zero h]
  cases s <;> simp [sgn]

theorem units_fin {b : Nat} {u : Int} (hu : F.units b = some u) :
    ∃ s m e, F.decode b = .fin s m e ∧ F.emin ≤ e ∧ sgn s m * 2 ^ (e - F.emin).toNat = u := by
  simp only [Fmt.units] at hu
  split at hu
  · next s m e hd => exact ⟨s, m, e, hd, decode_low hd, by simpa using hu⟩
  · cases hu

theorem sgn_mul (s : Bool) (m n : Nat) : sgn s (m * n) = sgn s m * n := by
  cases s <;> simp [sgn, Int.neg_mul]

theorem natAbs_sgn (s : Bool) (m : Nat) : (sgn s m).natAbs = m := by
  cases s <;> simp [sgn]

theorem pow_cast (n : Nat) : ((2 ^ n : Nat) : Int) = 2 ^ n := by simp

theorem sgn_decide (v : Int) : sgn (decide (v < 0)) v.natAbs = v := by
  simp only [sgn]
  split <;> rename_i h <;> simp at h <;> omega

/-- Addition of integers is exact as long as the sum is below `2^p`. -/
theorem add_int (h : F.OK) {a b : Nat} {x y : Int} (ha : F.IsInt a x) (hb : F.IsInt b y) (hxy : (x + y).natAbs < 2 ^ F.p) :
    F.IsInt (F.add a b) (x + y) := by
  obtain ⟨s, m, e, ea, le, hx⟩ := units_fin ha
  obtain ⟨t, n, f, eb, lf, hy⟩ := units_fin hb
  have hem := h.emin
  simp only [Fmt.IsInt, Fmt.add, ea, eb]
  obtain ⟨g, hg⟩ : ∃ g, g = min e f := ⟨_, rfl⟩
  rw [← hg]
  obtain ⟨v, hv⟩ : ∃ v, v = sgn s (m * 2 ^ (e - g).toNat) + sgn t (n * 2 ^ (f - g).toNat) := ⟨_, rfl⟩
  rw [← hv]
  have hval : v * 2 ^ (g - F.emin).toNat = (x + y) * 2 ^ (-F.emin).toNat := by
    rw [Int.add_mul, ← hx, ← hy, hv, Int.add_mul, sgn_mul, sgn_mul, pow_cast, pow_cast, Int.mul_assoc, Int.mul_assoc, ← Int.pow_add, ← Int.pow_add]
    congr 3 <;> congr 1 <;> omega
  have hpos : ∀ n : Nat, (0 : Int) < 2 ^ n := fun n => by rw [← pow_cast]; exact Int.natCast_pos.2 (Nat.two_pow_pos n)
  split
  · next h0 =>
    rw [h0, Int.zero_mul] at hval
    rcases Int.mul_eq_zero.1 hval.symm with h1 | h1
    · rw [h1, units_zero h]; simp
    · have := hpos (-F.emin).toNat; omega
  · next h0 =>
    have habs : v.natAbs * 2 ^ (g - F.emin).toNat = (x + y).natAbs * 2 ^ (-F.emin).toNat := by
      have := congrArg Int.natAbs hval
      simpa [Int.natAbs_mul, Int.natAbs_pow] using this
    have hne : (x + y).natAbs ≠ 0 := by
      intro h1
      rw [h1, Nat.zero_mul] at habs
      rcases Nat.mul_eq_zero.1 habs with h2 | h2
      · omega
      · exact absurd h2 (Nat.ne_of_gt (Nat.two_pow_pos _))
    have hg' : (g + ((-F.emin).toNat : Nat)).toNat = (g - F.emin).toNat := by congr 1; omega
    rw [round_int h (K := (-F.emin).toNat) (by omega) (by rw [hg']; exact habs) hne hxy]
    have hs : decide (v < 0) = decide (x + y < 0) := by
      have := hpos (-F.emin).toNat
      have h2 := hpos (g - F.emin).toNat
      rcases Int.lt_trichotomy v 0 with h3 | h3 | h3
      · have : (x + y) < 0 := by
          rcases Int.lt_or_le (x + y) 0 with h4 | h4
          · exact h4
          · have h5 := Int.mul_nonneg h4 (Int.le_of_lt this)
            have h6 := Int.mul_neg_of_neg_of_pos h3 h2
            omega
        simp [h3, this]
      · omega
      · have : ¬ (x + y) < 0 := by
          intro h4
          have h5 := Int.mul_neg_of_neg_of_pos h4 this
          have h6 := Int.mul_pos h3 h2
          omega
        have h7 : ¬ v < 0 := by omega
        simp [h7, this]
    rw [hs, sgn_decide]

/-- Multiplication of integers is exact as long as the product is below `2^p`. -/
theorem mul_int (h : F.OK) {a b : Nat} {x y : Int} (ha : F.IsInt a x) (hb : F.IsInt b y) (hxy : (x * y).natAbs < 2 ^ F.p) :
    F.IsInt (F.mul a b) (x * y) := by
  obtain ⟨s, m, e, ea, le, hx⟩ := units_fin ha
  obtain ⟨t, n, f, eb, lf, hy⟩ := units_fin hb
  have hem := h.emin
  simp only [Fmt.IsInt, Fmt.mul, ea, eb]
  have hval : sgn s m * sgn t n * 2 ^ (e - F.emin + (f - F.emin)).toNat = x * y * 2 ^ (2 * (-F.emin).toNat) := by
    have : (2 : Int) ^ (e - F.emin + (f - F.emin)).toNat = 2 ^ (e - F.emin).toNat * 2 ^ (f - F.emin).toNat := by
      rw [← Int.pow_add]; congr 1; omega
    rw [this, Nat.two_mul, Int.pow_add]
    calc _ = (sgn s m * 2 ^ (e - F.emin).toNat) * (sgn t n * 2 ^ (f - F.emin).toNat) := by ac_rfl
      _ = (x * 2 ^ (-F.emin).toNat) * (y * 2 ^ (-F.emin).toNat) := by rw [hx, hy]
      _ = _ := by ac_rfl
  have habs : m * n * 2 ^ (e - F.emin + (f - F.emin)).toNat = (x * y).natAbs * 2 ^ (2 * (-F.emin).toNat) := by
    have := congrArg Int.natAbs hval
    simpa [Int.natAbs_mul, Int.natAbs_pow, natAbs_sgn] using this
  have hpos : ∀ n : Nat, (0 : Int) < 2 ^ n := fun n => by rw [← pow_cast]; exact Int.natCast_pos.2 (Nat.two_pow_pos n)
  by_cases h0 : m * n = 0
  · have : x * y = 0 := by
      rw [h0, Nat.zero_mul] at habs
      rcases Nat.mul_eq_zero.1 habs.symm with h2 | h2
      · omega
      · exact absurd h2 (Nat.ne_of_gt (Nat.two_pow_pos _))
    rw [this, Fmt.round, if_pos h0, units_zero h]; simp
  · have hne : (x * y).natAbs ≠ 0 := by
      intro h1
      rw [h1, Nat.zero_mul] at habs
      rcases Nat.mul_eq_zero.1 habs with h2 | h2
      · exact h0 h2
      · exact absurd h2 (Nat.ne_of_gt (Nat.two_pow_pos _))
    have hg' : (e + f + ((2 * (-F.emin).toNat : Nat) : Int)).toNat = (e - F.emin + (f - F.emin)).toNat := by congr 1; omega
    rw [round_int h (K := 2 * (-F.emin).toNat) (by omega) (by rw [hg']; exact habs) hne hxy]
    congr 2
    have hs : sgn (s != t) (m * n) = sgn s m * sgn t n := by cases s <;> cases t <;> simp [sgn, Int.neg_mul, Int.mul_neg]
    refine Int.eq_of_mul_eq_mul_right (Int.ne_of_gt (hpos (2 * (-F.emin).toNat))) ?_
    rw [← hval, ← hs, ← pow_cast, ← pow_cast, ← sgn_mul, ← sgn_mul, habs]

/-! ### Negation, subtraction -/

theorem neg_signed {s : Bool} {n : Nat} (hn : n < F.signBit) : F.neg (F.signed s n) = F.signed (!s) n := by
  cases s
  · simp [Fmt.neg, Fmt.signed, if_neg (by omega : ¬ F.signBit ≤ n)]; omega
  · simp [Fmt.neg, Fmt.signed]

/-- The magnitude `n`, as a multiple of the smallest positive number. -/
def Fmt.mag (F : Fmt) (n : Nat) : Nat :=
  if n / 2 ^ (F.p - 1) = 0 then n % 2 ^ (F.p - 1) else (2 ^ (F.p - 1) + n % 2 ^ (F.p - 1)) * 2 ^ (n / 2 ^ (F.p - 1) - 1)

theorem units_signed (h : F.OK) {s : Bool} {n : Nat} (hn : n < F.signBit) :
    F.units (F.signed s n) = if n < F.infBits then some (sgn s (F.mag n)) else none := by
  have hlt : n / 2 ^ (F.p - 1) < 2 ^ F.w := by
    rw [Nat.div_lt_iff_lt_mul (Nat.two_pow_pos _), Nat.mul_comm, ← h.sign]; exact hn
  have hi : n / 2 ^ (F.p - 1) = 2 ^ F.w - 1 ↔ ¬ n < F.infBits := by
    rw [Fmt.infBits, ← Nat.div_lt_iff_lt_mul (Nat.two_pow_pos _)]; omega
  simp only [Fmt.units, decode_signed h hn, Fmt.mag]
  by_cases hb : n < F.infBits
  · rw [if_neg (fun hx => hi.1 hx hb), if_pos hb]
    by_cases h0 : n / 2 ^ (F.p - 1) = 0
    · simp only [if_pos h0]
      simp
    · simp only [if_neg h0, sgn_mul, pow_cast, Option.some.injEq]
      congr 2; omega
  · rw [if_pos (hi.2 hb), if_neg hb]
    by_cases h0 : n % 2 ^ (F.p - 1) = 0
    · simp only [if_pos h0]
    · simp only [if_neg h0]

theorem units_neg (h : F.OK) {b : Nat} (hb : b < 2 * F.signBit) : F.units (F.neg b) = (F.units b).map (- ·) := by
  obtain ⟨s, n, hn, rfl⟩ := exists_signed hb
  rw [neg_signed hn, units_signed h hn, units_signed h hn]
  split
  · cases s <;> simp [sgn]
  · rfl

theorem IsInt.neg (h : F.OK) {b : Nat} (hb : b < 2 * F.signBit) {x : Int} (hx : F.IsInt b x) : F.IsInt (F.neg b) (-x) := by
  simp only [Fmt.IsInt] at *
  rw [units_neg h hb, hx]; simp [Int.neg_mul]

theorem sub_int (h : F.OK) {a b : Nat} {x y : Int} (hlt : b < 2 * F.signBit) (ha : F.IsInt a x) (hb : F.IsInt b y)
    (hxy : (x - y).natAbs < 2 ^ F.p) : F.IsInt (F.sub a b) (x - y) := by
  obtain ⟨t, n, f, eb, -, -⟩ := units_fin hb
  simp only [Fmt.sub, eb]
  exact add_int h ha (IsInt.neg h hlt hb) hxy

/-! ### Conversions -/

theorem ofInt_int (h : F.OK) {n : Int} (hn : n.natAbs < 2 ^ F.p) : F.IsInt (F.ofInt n) n := by
  by_cases h0 : n = 0
  · subst h0
    simp only [Fmt.IsInt, Fmt.ofInt, Fmt.round]
    simp [units_zero h]
  · have := round_int h (s := decide (n < 0)) (m := n.natAbs) (k := n.natAbs) (K := 0) (e := 0) (by simp) (by simp) (by omega) hn
    rw [sgn_decide] at this
    exact this

theorem trunc_int (h : F.OK) {b : Nat} {n : Int} (hb : F.IsInt b n) : F.trunc b = some n := by
  obtain ⟨s, m, e, hd, le, hx⟩ := units_fin hb
  have hem := h.emin
  have hpos : ∀ n : Nat, (0 : Int) < 2 ^ n := fun n => by rw [← pow_cast]; exact Int.natCast_pos.2 (Nat.two_pow_pos n)
  simp only [Fmt.trunc, hd, Option.some.injEq]
  split
  · next h0 =>
    refine Int.eq_of_mul_eq_mul_right (Int.ne_of_gt (hpos (-F.emin).toNat)) ?_
    rw [← hx, sgn_mul, pow_cast, Int.mul_assoc, ← Int.pow_add]
    congr 2; omega
  · next h0 =>
    have h1 : sgn s m = n * 2 ^ (-e).toNat := by
      refine Int.eq_of_mul_eq_mul_right (Int.ne_of_gt (hpos (e - F.emin).toNat)) ?_
      rw [hx, Int.mul_assoc, ← Int.pow_add]
      congr 2; omega
    have h2 : m = n.natAbs * 2 ^ (-e).toNat := by
      have := congrArg Int.natAbs h1
      simpa [natAbs_sgn, Int.natAbs_mul, Int.natAbs_pow] using this
    rw [h2, Nat.mul_div_cancel _ (Nat.two_pow_pos _)]
    refine Int.eq_of_mul_eq_mul_right (Int.ne_of_gt (hpos (-e).toNat)) ?_
    rw [← h1, h2, sgn_mul, pow_cast]

/-! ### All results are bit patterns of the format -/

theorem signed_lt {s : Bool} {n : Nat} (hn : n < F.signBit) : F.signed s n < 2 * F.signBit := by
  cases s <;> simp [Fmt.signed] <;> omega

theorem inf_lt_sign (h : F.OK) : F.infBits < F.signBit := by
  have := h.inf_lt; have := Nat.two_pow_pos (F.p - 1); omega

theorem sign_pos (h : F.OK) : 0 < F.signBit := by have := inf_lt_sign h; omega

theorem nan_lt (h : F.OK) : F.nanBits < 2 * F.signBit := by
  have := h.inf_lt
  have : 2 ^ (F.p - 2) ≤ 2 ^ (F.p - 1) := Nat.pow_le_pow_right (by decide) (by omega)
  simp only [Fmt.nanBits]; have := sign_pos h; omega

theorem round_lt (h : F.OK) (s : Bool) (m : Nat) (e : Int) : F.round s m e < 2 * F.signBit := by
  simp only [Fmt.round]
  split
  · exact signed_lt (sign_pos h)
  · exact signed_lt (Nat.lt_of_le_of_lt (Nat.min_le_right _ _) (inf_lt_sign h))

theorem add_lt (h : F.OK) (a b : Nat) : F.add a b < 2 * F.signBit := by
  simp only [Fmt.add]
  split
  · exact nan_lt h
  · exact nan_lt h
  · split
    · exact signed_lt (inf_lt_sign h)
    · exact nan_lt h
  · exact signed_lt (inf_lt_sign h)
  · exact signed_lt (inf_lt_sign h)
  · split
    · exact signed_lt (sign_pos h)
    · exact round_lt h _ _ _

theorem sub_lt (h : F.OK) (a b : Nat) : F.sub a b < 2 * F.signBit := by
  simp only [Fmt.sub]
  split
  · exact nan_lt h
  · exact add_lt h _ _

theorem mul_lt (h : F.OK) (a b : Nat) : F.mul a b < 2 * F.signBit := by
  simp only [Fmt.mul]
  split
  · exact nan_lt h
  · exact nan_lt h
  · exact signed_lt (inf_lt_sign h)
  · split
    · exact nan_lt h
    · exact signed_lt (inf_lt_sign h)
  · split
    · exact nan_lt h
    · exact signed_lt (inf_lt_sign h)
  · exact round_lt h _ _ _

/-! ### Addition and multiplication commute -/

theorem add_comm (a b : Nat) : F.add a b = F.add b a := by
  simp only [Fmt.add]
  cases F.decode a <;> cases F.decode b <;> simp only []
  · rename_i s t
    by_cases hst : s = t
    · subst hst; rfl
    · rw [if_neg hst, if_neg (Ne.symm hst)]
  · rename_i s m e t n f
    rw [Int.min_comm f e, Int.add_comm (sgn t _), Bool.and_comm]

theorem mul_comm (a b : Nat) : F.mul a b = F.mul b a := by
  simp only [Fmt.mul]
  have hx : ∀ s t : Bool, (s != t) = (t != s) := by decide
  cases F.decode a <;> cases F.decode b <;> simp only []
  · rw [hx]
  · rw [hx, Nat.mul_comm, Int.add_comm]

/-! ### The order -/

theorem mag_succ (F : Fmt) (n : Nat) : F.mag n < F.mag (n + 1) := by
  have hP : 0 < 2 ^ (F.p - 1) := Nat.two_pow_pos _
  simp only [Fmt.mag]
  generalize 2 ^ (F.p - 1) = P at *
  have hdm := Nat.div_add_mod n P
  have hml := Nat.mod_lt n hP
  generalize hx : n / P = x at *
  generalize hf : n % P = f at *
  by_cases hc : f + 1 < P
  · have h1 : (n + 1) / P = x := by
      rw [← hdm, Nat.add_assoc, Nat.mul_add_div hP, Nat.div_eq_of_lt hc]; rfl
    have h2 : (n + 1) % P = f + 1 := by
      rw [← hdm, Nat.add_assoc, Nat.mul_add_mod, Nat.mod_eq_of_lt hc]
    rw [h1, h2]
    split
    · omega
    · exact Nat.mul_lt_mul_of_pos_right (by omega) (Nat.two_pow_pos _)
  · have hfp : f + 1 = P := by omega
    have h1 : (n + 1) / P = x + 1 := by
      rw [← hdm, Nat.add_assoc, hfp, ← Nat.mul_succ, Nat.mul_div_cancel_left _ hP]
    have h2 : (n + 1) % P = 0 := by
      rw [← hdm, Nat.add_assoc, hfp, ← Nat.mul_succ, Nat.mul_mod_right]
    rw [h1, h2]
    split
    · next h0 => subst h0; simp; omega
    · next h0 =>
      rw [if_neg (by omega)]
      obtain ⟨y, rfl⟩ : ∃ y, x = y + 1 := ⟨x - 1, by omega⟩
      simp only [Nat.add_sub_cancel, Nat.add_zero, Nat.pow_succ]
      rw [← Nat.mul_assoc, Nat.mul_right_comm]
      exact Nat.mul_lt_mul_of_pos_right (by omega) (Nat.two_pow_pos _)

theorem mag_mono (F : Fmt) {a b : Nat} (h : a < b) : F.mag a < F.mag b := by
  induction b with
  | zero => omega
  | succ b ih =>
    rcases Nat.lt_or_ge a b with h1 | h1
    · exact Nat.lt_trans (ih h1) (mag_succ F b)
    · have : a = b := by omega
      subst this; exact mag_succ F a

theorem mag_lt_iff (F : Fmt) {a b : Nat} : F.mag a < F.mag b ↔ a < b := by
  refine ⟨fun h => ?_, mag_mono F⟩
  rcases Nat.lt_trichotomy a b with h1 | h1 | h1
  · exact h1
  · subst h1; omega
  · have := mag_mono F h1; omega

theorem mag_inj (F : Fmt) {a b : Nat} (h : F.mag a = F.mag b) : a = b := by
  rcases Nat.lt_trichotomy a b with h1 | h1 | h1
  · have := mag_mono F h1; omega
  · exact h1
  · have := mag_mono F h1; omega

theorem mag_zero (F : Fmt) : F.mag 0 = 0 := by simp [Fmt.mag, Nat.zero_div]

theorem key_signed {s : Bool} {n : Nat} (hn : n < F.signBit) : F.key (F.signed s n) = sgn s n := by
  cases s
  · simp [Fmt.key, Fmt.signed, sgn, if_neg (by omega : ¬ F.signBit ≤ n)]
  · simp [Fmt.key, Fmt.signed, sgn]

theorem isNaN_signed {s : Bool} {n : Nat} (hn : n < F.signBit) : F.isNaN (F.signed s n) = decide (F.infBits < n) := by
  cases s
  · simp [Fmt.isNaN, Fmt.signed, Nat.mod_eq_of_lt hn]
  · simp [Fmt.isNaN, Fmt.signed, Nat.mod_eq_of_lt hn]

/-- Two numbers compare as what they stand for. -/
theorem lt_units (h : F.OK) {a b : Nat} (ha : a < 2 * F.signBit) (hb : b < 2 * F.signBit) {u v : Int} (hu : F.units a = some u)
    (hv : F.units b = some v) : F.lt a b = decide (u < v) := by
  obtain ⟨s, n, hn, rfl⟩ := exists_signed ha
  obtain ⟨t, k, hk, rfl⟩ := exists_signed hb
  rw [units_signed h hn] at hu
  rw [units_signed h hk] at hv
  split at hu
  · split at hv
    · next h1 h2 =>
      simp only [Option.some.injEq] at hu hv
      subst hu hv
      have e1 : F.isNaN (F.signed s n) = false := by rw [isNaN_signed hn]; simp; omega
      have e2 : F.isNaN (F.signed t k) = false := by rw [isNaN_signed hk]; simp; omega
      simp only [Fmt.lt, e1, e2, key_signed hn, key_signed hk, Bool.not_false, Bool.true_and, decide_eq_decide]
      have m1 := mag_lt_iff F (a := n) (b := k)
      have m2 := mag_lt_iff F (a := k) (b := n)
      have m3 := mag_lt_iff F (a := 0) (b := n)
      have m4 := mag_lt_iff F (a := 0) (b := k)
      rw [mag_zero] at m3 m4
      cases s <;> cases t <;> simp only [sgn, if_true, Bool.false_eq_true, if_false] <;> omega
    · cases hv
  · cases hu

theorem lt_not_nan {a b : Nat} (ha : F.isNaN a = false) (hb : F.isNaN b = false) : F.lt a b = decide (F.key a < F.key b) := by
  simp [Fmt.lt, ha, hb]

/-! ### Widening -/

theorem round_shift {s : Bool} {m k : Nat} {e : Int} : F.round s (m * 2 ^ k) (e - k) = F.round s m e := by
  by_cases hm : m = 0
  · subst hm; simp [Fmt.round]
  · have h0 : m * 2 ^ k ≠ 0 := Nat.mul_ne_zero hm (Nat.ne_of_gt (Nat.two_pow_pos k))
    simp only [Fmt.round, if_neg hm, if_neg h0, log2_shift hm]
    have he : e - k + ((Nat.log2 m + k + 1 : Nat) : Int) - F.p = e + ((Nat.log2 m + 1 : Nat) : Int) - F.p := by omega
    rw [he]
    generalize max (e + ((Nat.log2 m + 1 : Nat) : Int) - F.p) F.emin = e'
    congr 3
    by_cases h1 : e' ≤ e - k
    · rw [if_pos h1, if_pos (by omega), Nat.mul_assoc, ← Nat.pow_add]
      congr 2; omega
    · rw [if_neg h1]
      by_cases h2 : e' ≤ e
      · rw [if_pos h2]
        have : m * 2 ^ k = m * 2 ^ (e - e').toNat * 2 ^ (e' - (e - k)).toNat := by
          rw [Nat.mul_assoc, ← Nat.pow_add]; congr 2; omega
        rw [this, roundShift_exact]
      · rw [if_neg h2]
        have hd : (e' - (e - k)).toNat = (e' - e).toNat + k := by omega
        rw [hd]
        generalize (e' - e).toNat = d
        have hk := Nat.two_pow_pos k
        simp only [roundShift, Nat.pow_add, Nat.mul_mod_mul_right, Nat.mul_div_mul_right _ _ hk]
        have e1 : 2 * (m % 2 ^ d * 2 ^ k) < 2 ^ d * 2 ^ k ↔ 2 * (m % 2 ^ d) < 2 ^ d := by
          rw [← Nat.mul_assoc]; exact ⟨fun h => Nat.lt_of_mul_lt_mul_right h, fun h => Nat.mul_lt_mul_of_pos_right h hk⟩
        have e2 : 2 ^ d * 2 ^ k < 2 * (m % 2 ^ d * 2 ^ k) ↔ 2 ^ d < 2 * (m % 2 ^ d) := by
          rw [← Nat.mul_assoc]; exact ⟨fun h => Nat.lt_of_mul_lt_mul_right h, fun h => Nat.mul_lt_mul_of_pos_right h hk⟩
        simp only [e1, e2]

/-- Rounding a number of the format gives it back. -/
theorem round_decode (h : F.OK) {b : Nat} (hb : b < 2 * F.signBit) {s : Bool} {m : Nat} {e : Int} (hd : F.decode b = .fin s m e) :
    F.round s m e = b ∧ m < 2 ^ F.p ∧ e + 3 ≤ F.emin + 2 ^ F.w := by
  obtain ⟨t, n, hn, rfl⟩ := exists_signed hb
  rw [decode_signed h hn] at hd
  have hP : 0 < 2 ^ (F.p - 1) := Nat.two_pow_pos _
  have hp := h.pow_p
  have hdm := Nat.div_add_mod n (2 ^ (F.p - 1))
  have hml := Nat.mod_lt n hP
  have hlt : n / 2 ^ (F.p - 1) < 2 ^ F.w := by
    rw [Nat.div_lt_iff_lt_mul (Nat.two_pow_pos _), Nat.mul_comm, ← h.sign]; exact hn
  have hW : 4 ≤ 2 ^ F.w := by
    rw [h.two]; have := h.room; have := h.p3; omega
  have hp3 := h.p3
  have hWc := pow_cast F.w
  split at hd
  · split at hd <;> cases hd
  · next hx =>
    have hinf : n < F.infBits := by
      rw [Fmt.infBits, ← Nat.div_lt_iff_lt_mul hP]; omega
    split at hd
    · next h0 =>
      cases hd
      rw [h0, Nat.mul_zero, Nat.zero_add] at hdm
      rw [hdm]
      refine ⟨?_, by omega, by omega⟩
      by_cases hn0 : n = 0
      · subst hn0; simp [Fmt.round]
      · have hl : Nat.log2 n < F.p - 1 := (Nat.log2_lt hn0).2 (by omega)
        have he : max (F.emin + ((Nat.log2 n + 1 : Nat) : Int) - F.p) F.emin = F.emin := by omega
        simp only [Fmt.round, if_neg hn0, he, Int.le_refl, if_true, Int.sub_self, Int.toNat_zero, Nat.pow_zero, Nat.mul_one, Nat.zero_mul, Nat.zero_add]
        rw [Nat.min_eq_left (by omega)]
    · next h0 =>
      cases hd
      refine ⟨?_, by omega, by omega⟩
      have hm0 : 2 ^ (F.p - 1) + n % 2 ^ (F.p - 1) ≠ 0 := by omega
      have hl : Nat.log2 (2 ^ (F.p - 1) + n % 2 ^ (F.p - 1)) = F.p - 1 := by
        rw [Nat.log2_eq_iff hm0]
        refine ⟨by omega, ?_⟩
        rw [(by omega : F.p - 1 + 1 = F.p)]; omega
      have he : max (F.emin + ((n / 2 ^ (F.p - 1) - 1 : Nat) : Int) + ((F.p - 1 + 1 : Nat) : Int) - F.p) F.emin
          = F.emin + ((n / 2 ^ (F.p - 1) - 1 : Nat) : Int) := by
        generalize (n / 2 ^ (F.p - 1) - 1 : Nat) = y
        omega
      simp only [Fmt.round, if_neg hm0, hl, he, Int.le_refl, if_true, Int.sub_self, Int.toNat_zero, Nat.pow_zero, Nat.mul_one]
      have hk : (F.emin + ((n / 2 ^ (F.p - 1) - 1 : Nat) : Int) - F.emin).toNat = n / 2 ^ (F.p - 1) - 1 := by omega
      have hval : (n / 2 ^ (F.p - 1) - 1) * 2 ^ (F.p - 1) + (2 ^ (F.p - 1) + n % 2 ^ (F.p - 1)) = n := by
        obtain ⟨y, hy⟩ : ∃ y, n / 2 ^ (F.p - 1) = y + 1 := Nat.exists_eq_succ_of_ne_zero h0
        rw [hy, Nat.add_sub_cancel]
        rw [hy, Nat.mul_add, Nat.mul_one, Nat.mul_comm _ y] at hdm
        omega
      rw [hk, hval, Nat.min_eq_left (by omega)]

/-- Conversion to a wider format changes nothing. -/
theorem convert_wide {G : Fmt} (h : F.OK) (hG : G.OK) (hp : F.p ≤ G.p) (hl : F.low ≤ G.low)
    (hr : G.low + 2 ^ F.w ≤ F.low + 2 ^ G.w) {b : Nat} (hb : b < 2 * F.signBit) {s : Bool} {m : Nat} {e : Int} (hd : F.decode b = .fin s m e) :
    ∃ k : Nat, G.decode (F.convert G b) = .fin s (m * 2 ^ k) (e - k) := by
  obtain ⟨-, hm, he⟩ := round_decode h hb hd
  have hlow := decode_low hd
  have hF := h.emin
  have hGm := hG.emin
  simp only [Fmt.convert, hd]
  by_cases hm0 : m = 0
  · subst hm0
    refine ⟨(e - G.emin).toNat, ?_⟩
    rw [Fmt.round, if_pos rfl, decode_zero hG, Nat.zero_mul]
    congr 1; omega
  · have hlog : Nat.log2 m < F.p := (Nat.log2_lt hm0).2 hm
    obtain ⟨e', he'⟩ : ∃ e', e' = max (e + (Nat.log2 m + 1 : Nat) - G.p) G.emin := ⟨_, rfl⟩
    have hle : e' ≤ e := by omega
    refine ⟨(e - e').toNat, ?_⟩
    have hee : e - ((e - e').toNat : Nat) = e' := by omega
    rw [hee]
    refine round_fin hG hm0 he' (.inl ⟨hle, rfl⟩) ?_
    have hq : m * 2 ^ (e - e').toNat < 2 ^ G.p := by
      calc m * 2 ^ (e - e').toNat < 2 ^ (Nat.log2 m + 1) * 2 ^ (e - e').toNat := Nat.mul_lt_mul_of_pos_right (log2_bounds hm0).2 (Nat.two_pow_pos _)
        _ = 2 ^ (Nat.log2 m + 1 + (e - e').toNat) := by rw [← Nat.pow_add]
        _ ≤ 2 ^ G.p := Nat.pow_le_pow_right (by decide) (by omega)
    have hWF := pow_cast F.w
    have hWG := pow_cast G.w
    have h2 : (e' - G.emin).toNat + 2 ≤ 2 ^ G.w - 1 := by omega
    have h3 := Nat.mul_le_mul_right (2 ^ (G.p - 1)) h2
    have h4 := hG.pow_p
    rw [Nat.add_mul] at h3
    simp only [Fmt.infBits]
    omega

theorem convert_back {G : Fmt} (h : F.OK) (hG : G.OK) (hp : F.p ≤ G.p) (hl : F.low ≤ G.low)
    (hr : G.low + 2 ^ F.w ≤ F.low + 2 ^ G.w) {b : Nat} (hb : b < 2 * F.signBit) (hn : F.isNaN b = false) : G.convert F (F.convert G b) = b := by
  cases hd : F.decode b with
  | nan =>
    obtain ⟨s, n, hn', rfl⟩ := exists_signed hb
    rw [isNaN_signed hn'] at hn
    have hP : 0 < 2 ^ (F.p - 1) := Nat.two_pow_pos _
    rw [decode_signed h hn'] at hd
    split at hd
    · next hx =>
      split at hd
      · cases hd
      · next h0 =>
        have hdm := Nat.div_add_mod n (2 ^ (F.p - 1))
        rw [hx, Nat.mul_comm] at hdm
        have hn := of_decide_eq_false hn
        rw [Fmt.infBits] at hn
        omega
    · split at hd <;> cases hd
  | inf s =>
    obtain ⟨t, n, hn', rfl⟩ := exists_signed hb
    have hP : 0 < 2 ^ (F.p - 1) := Nat.two_pow_pos _
    have hd' := hd
    rw [decode_signed h hn'] at hd'
    split at hd'
    · next hx =>
      split at hd'
      · next h0 =>
        cases hd'
        have hdm := Nat.div_add_mod n (2 ^ (F.p - 1))
        rw [hx, h0, Nat.mul_comm, Nat.add_zero] at hdm
        have hni : n = F.infBits := by rw [Fmt.infBits, hdm]
        have hG0 : 0 < 2 ^ (G.p - 1) := Nat.two_pow_pos _
        have hGd : G.decode (G.signed s G.infBits) = .inf s := by
          rw [decode_signed hG (inf_lt_sign hG), Fmt.infBits, Nat.mul_div_cancel _ hG0, if_pos rfl, Nat.mul_mod_left, if_pos rfl]
        have hc : F.convert G (F.signed s n) = G.signed s G.infBits := by rw [Fmt.convert]; simp only [hd]
        rw [hc, Fmt.convert]
        simp only [hGd, hni]
      · cases hd'
    · split at hd' <;> cases hd'
  | fin s m e =>
    obtain ⟨k, hk⟩ := convert_wide h hG hp hl hr hb hd
    generalize F.convert G b = c at hk
    rw [Fmt.convert]
    simp only [hk]
    rw [round_shift, (round_decode h hb hd).1]

end Aitisa
