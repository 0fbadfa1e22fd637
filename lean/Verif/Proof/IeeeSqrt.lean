import Verif.Proof.IeeeOrd

/-!
# IEEE arithmetic: square roots of whole numbers
-/

namespace Aitisa

/-- The digit-by-digit root is the root rounded down. -/
theorem isqrt_floor {n : Nat} : ∀ {k r : Nat}, r * r ≤ n → n < (r + 2 ^ k) * (r + 2 ^ k) →
    isqrt n k r * isqrt n k r ≤ n ∧ n < (isqrt n k r + 1) * (isqrt n k r + 1)
  | 0, r, h1, h2 => ⟨h1, by simpa [isqrt] using h2⟩
  | k + 1, r, h1, h2 => by
    simp only [isqrt]
    by_cases h : (r + 2 ^ k) * (r + 2 ^ k) ≤ n
    · rw [if_pos h]
      exact isqrt_floor h (by rw [Nat.add_assoc, ← Nat.two_mul, ← Nat.pow_succ']; exact h2)
    · rw [if_neg h]
      exact isqrt_floor h1 (by omega)

theorem isqrt_spec {n : Nat} (hn : n ≠ 0) : ∃ r, isqrt n (Nat.log2 n / 2 + 1) 0 = r ∧ r * r ≤ n ∧ n < (r + 1) * (r + 1) := by
  refine ⟨_, rfl, isqrt_floor (by omega) ?_⟩
  rw [Nat.zero_add, ← Nat.pow_add]
  exact Nat.lt_of_lt_of_le (log2_bounds hn).2 (Nat.pow_le_pow_right (by decide) (by omega))

theorem le_of_sq_lt {a b : Nat} (h : a * a < (b + 1) * (b + 1)) : a ≤ b := by
  rcases Nat.lt_or_ge b a with h' | h'
  · have := Nat.mul_le_mul (show b + 1 ≤ a from h') (show b + 1 ≤ a from h')
    omega
  · exact h'

theorem lt_of_sq_lt {a b : Nat} (h : a * a < b * b) : a < b := by
  rcases Nat.lt_or_ge a b with h' | h'
  · exact h'
  · have := Nat.mul_le_mul h' h'
    omega

variable {F : Fmt}

theorem decode_normal {b : Nat} {s : Bool} {m : Nat} {e : Int} (hd : F.decode b = .fin s m e) : e = F.emin ∨ 2 ^ (F.p - 1) ≤ m := by
  simp only [Fmt.decode] at hd
  split at hd
  · split at hd <;> cases hd
  · split at hd <;> cases hd
    · exact .inl rfl
    · exact .inr (Nat.le_add_right _ _)

/-- A whole number below `2^p`, not 0, as significand and exponent. -/
theorem decode_whole (h : F.OK) {a : Nat} {n : Nat} (ha : F.IsInt a n) (hn0 : n ≠ 0) (hn : n < 2 ^ F.p) :
    ∃ j : Nat, (j : Int) ≤ -F.emin ∧ F.decode a = .fin false (n * 2 ^ j) (-j) := by
  obtain ⟨s, m, e, ea, le, hx⟩ := units_fin ha
  have hem := h.emin
  have hA : m * 2 ^ (e - F.emin).toNat = n * 2 ^ (-F.emin).toNat := by
    have := congrArg Int.natAbs hx
    simpa [natAbs_sgn, Int.natAbs_mul, Int.natAbs_pow] using this
  have hs : s = false := by
    cases s with
    | false => rfl
    | true =>
      have h1 : (0 : Int) < (n : Int) * 2 ^ (-F.emin).toNat := Int.mul_pos (by omega) (by rw [← pow_cast]; exact Int.natCast_pos.2 (Nat.two_pow_pos _))
      have h2 : (0 : Int) ≤ (m : Int) * 2 ^ (e - F.emin).toNat := Int.mul_nonneg (by omega) (by rw [← pow_cast]; exact Int.natCast_nonneg _)
      simp only [sgn, if_true, Int.neg_mul] at hx
      omega
  have he : e ≤ 0 := by
    rcases decode_normal ea with h1 | h1
    · omega
    · apply Classical.byContradiction
      intro hlt
      have h2 : 2 ^ (F.p - 1) * 2 ^ (1 + (-F.emin).toNat) ≤ n * 2 ^ (-F.emin).toNat := by
        rw [← hA]
        exact Nat.mul_le_mul h1 (Nat.pow_le_pow_right (by decide) (by omega))
      rw [Nat.pow_add, ← Nat.mul_assoc] at h2
      have h3 := Nat.le_of_mul_le_mul_right h2 (Nat.two_pow_pos _)
      have := h.pow_p
      omega
  refine ⟨(-e).toNat, by omega, ?_⟩
  rw [ea, hs]
  have hm : m = n * 2 ^ (-e).toNat := by
    refine Nat.eq_of_mul_eq_mul_right (Nat.two_pow_pos (e - F.emin).toNat) ?_
    rw [hA, Nat.mul_assoc, ← Nat.pow_add]
    congr 2; omega
  rw [← hm]
  congr 1; omega

/-- What the root of a whole number is rounded from: `2 r`, plus 1 if the root is not exact, times `2^(-K)`. -/
theorem sqrt_whole (h : F.OK) {a : Nat} {n : Nat} (ha : F.IsInt a n) (hn0 : n ≠ 0) (hn : n < 2 ^ F.p) :
    ∃ K r : Nat, F.p + 3 ≤ K ∧ 2 * (K : Int) ≤ 2 * (F.p + 3) + 1 - F.emin ∧ r * r ≤ n * 2 ^ (2 * (K - 1)) ∧ n * 2 ^ (2 * (K - 1)) < (r + 1) * (r + 1) ∧
      F.sqrt a = F.round false (2 * r + (if r * r = n * 2 ^ (2 * (K - 1)) then 0 else 1)) (-K) := by
  obtain ⟨j, hj, hd⟩ := decode_whole h ha hn0 hn
  have h0 : n * 2 ^ j ≠ 0 := Nat.mul_ne_zero hn0 (Nat.ne_of_gt (Nat.two_pow_pos j))
  obtain ⟨x, hx, hx2, hx1⟩ : ∃ x : Nat, (-(j : Int) - (-(j : Int)) % 2) / 2 = -(x : Int) ∧ (-(j : Int)) % 2 = 2 * x - j ∧ 2 * x ≤ j + 1 :=
    ⟨(j + 1) / 2, by omega, by omega, by omega⟩
  have hN : n * 2 ^ j * 2 ^ (((-(j : Int)) % 2).toNat + 2 * (F.p + 2)) = n * 2 ^ (2 * (F.p + 3 + x - 1)) := by
    rw [Nat.mul_assoc, ← Nat.pow_add]
    congr 2; omega
  obtain ⟨r, hr, h1, h2⟩ := isqrt_spec (n := n * 2 ^ (2 * (F.p + 3 + x - 1))) (Nat.mul_ne_zero hn0 (Nat.ne_of_gt (Nat.two_pow_pos _)))
  refine ⟨F.p + 3 + x, r, by omega, by omega, h1, h2, ?_⟩
  simp only [Fmt.sqrt, hd, if_neg h0, Bool.false_eq_true, if_false]
  rw [hN, hr, hx]
  congr 1; omega

theorem sqrt_lt (h : F.OK) {a : Nat} (ha : a < 2 * F.signBit) : F.sqrt a < 2 * F.signBit := by
  unfold Fmt.sqrt
  split
  · exact nan_lt h
  · split
    · exact nan_lt h
    · have := inf_lt_sign h; omega
  · split
    · exact ha
    · split
      · exact nan_lt h
      · exact round_lt h ..

/-- Roots of square numbers are exact. -/
theorem sqrt_square (h : F.OK) {a : Nat} {k : Nat} (ha : F.IsInt a ((k * k : Nat) : Int)) (hk : k * k < 2 ^ F.p) : F.IsInt (F.sqrt a) (k : Int) := by
  by_cases hk0 : k = 0
  · subst hk0
    obtain ⟨s, m, e, ea, -, hx⟩ := units_fin ha
    have hm : m = 0 := by
      have := congrArg Int.natAbs hx
      simp only [natAbs_sgn, Int.natAbs_mul, Int.natAbs_pow] at this
      rcases Nat.mul_eq_zero.1 (by simpa using this : m * 2 ^ (e - F.emin).toNat = 0) with h | h
      · exact h
      · exact absurd h (Nat.ne_of_gt (Nat.two_pow_pos _))
    simp only [Fmt.sqrt, ea, hm, if_true]
    simpa using ha
  · have hkk : k * k ≠ 0 := Nat.mul_ne_zero hk0 hk0
    obtain ⟨K, r, hK, -, h1, h2, hr⟩ := sqrt_whole h ha hkk hk
    have hsq : k * k * 2 ^ (2 * (K - 1)) = (k * 2 ^ (K - 1)) * (k * 2 ^ (K - 1)) := by
      rw [Nat.two_mul, Nat.pow_add]; ac_rfl
    rw [hsq] at h1 h2 hr
    have hrk : r = k * 2 ^ (K - 1) := by
      have := le_of_sq_lt h2
      have := le_of_sq_lt (a := r) (b := k * 2 ^ (K - 1)) (Nat.lt_of_le_of_lt h1 (Nat.mul_lt_mul'' (Nat.lt_succ_self _) (Nat.lt_succ_self _)))
      omega
    rw [hr, if_pos (by rw [hrk]), Fmt.IsInt, round_int h (k := k) (K := K) (by omega)
      (by
        rw [show (-(K : Int) + (K : Int)).toNat = 0 by omega, hrk, Nat.add_zero, Nat.pow_zero, Nat.mul_one, Nat.mul_left_comm, ← Nat.pow_succ']
        congr 2; omega) hk0
      (Nat.lt_of_le_of_lt (Nat.le_mul_of_pos_left k (Nat.pos_of_ne_zero hk0)) hk)]
    simp [sgn]

/-- Rounding to nearest does not cross a half. -/
theorem roundShift_le {m d b : Nat} (h : 2 * m < (2 * b + 1) * 2 ^ d) : roundShift m d ≤ b := by
  have hd := Nat.div_add_mod m (2 ^ d)
  have hP := Nat.two_pow_pos d
  have hm := Nat.mod_lt m hP
  have hb : m / 2 ^ d ≤ b := by
    rw [← Nat.lt_succ_iff, Nat.div_lt_iff_lt_mul hP]
    have : (2 * b + 1) * 2 ^ d ≤ 2 * (b.succ * 2 ^ d) := by
      rw [← Nat.mul_assoc]; exact Nat.mul_le_mul_right _ (by omega)
    omega
  simp only [roundShift]
  generalize m / 2 ^ d = q at *
  generalize m % 2 ^ d = r at *
  generalize 2 ^ d = P at *
  rcases Nat.lt_or_ge q b with h' | h'
  · split
    · omega
    · split
      · omega
      · have := Nat.mod_lt q (show 0 < 2 by decide); omega
  · have : q = b := by omega
    subst this
    rw [Nat.add_mul, Nat.one_mul, Nat.mul_comm P q] at *
    have h1 : 2 * (q * P) = 2 * q * P := by rw [Nat.mul_assoc]
    rw [if_pos (by omega)]; omega

theorem roundShift_ge {m d b : Nat} (h : b * 2 ^ d ≤ m) : b ≤ roundShift m d := by
  have hb : b ≤ m / 2 ^ d := (Nat.le_div_iff_mul_le (Nat.two_pow_pos d)).2 h
  simp only [roundShift]
  split
  · exact hb
  · split <;> omega

/-- Rounding a number with more than `p` bits. -/
theorem round_big (h : F.OK) {v K : Nat} (hv : v ≠ 0) (hL : F.p ≤ Nat.log2 v) (hlo : F.emin + K ≤ 0) (hhi : Nat.log2 v ≤ K + F.p) :
    ∃ q, q = roundShift v (Nat.log2 v + 1 - F.p) ∧ F.decode (F.round false v (-K)) =
      if q < 2 ^ F.p then .fin false q (Nat.log2 v + 1 - F.p - K) else .fin false (2 ^ (F.p - 1)) (Nat.log2 v + 2 - F.p - K) := by
  refine ⟨_, rfl, ?_⟩
  obtain ⟨hb1, hb2⟩ := log2_bounds hv
  have hem := h.emin
  have hp := h.pow_p
  have hp3 := h.p3
  have hP := Nat.two_pow_pos (F.p - 1)
  generalize hL' : Nat.log2 v = L at *
  have he' : max (-(K : Int) + ((L + 1 : Nat) : Int) - F.p) F.emin = L + 1 - F.p - K := by omega
  simp only [Fmt.round, if_neg hv, hL', he']
  rw [if_neg (by omega), show (((L : Int) + 1 - F.p - K) - -(K : Int)).toNat = L + 1 - F.p by omega]
  obtain ⟨d, hd⟩ : ∃ d, d = L + 1 - F.p := ⟨_, rfl⟩
  rw [← hd]
  have q1 : 2 ^ (F.p - 1) ≤ roundShift v d := roundShift_ge (by rw [← Nat.pow_add, show F.p - 1 + d = L by omega]; exact hb1)
  have q2 : roundShift v d ≤ 2 ^ F.p := roundShift_le (by
    have : 2 ^ (L + 1) = 2 ^ F.p * 2 ^ d := by rw [← Nat.pow_add]; congr 1; omega
    rw [Nat.add_mul, Nat.mul_assoc, ← this]
    omega)
  generalize roundShift v d = q at *
  obtain ⟨k, hk⟩ : ∃ k, k = ((L : Int) + 1 - F.p - K - F.emin).toNat := ⟨_, rfl⟩
  rw [← hk]
  have hklow : k ≤ F.low + 1 := by omega
  have hinf : (F.low + 4) * 2 ^ (F.p - 1) ≤ F.infBits := by
    refine Nat.mul_le_mul_right _ ?_
    have := h.room; have := h.two
    simp only [Fmt.low]; omega
  have hkm := Nat.mul_le_mul_right (2 ^ (F.p - 1)) hklow
  rw [Nat.add_mul] at hinf hkm
  rw [Nat.min_eq_left (by omega)]
  by_cases hq : q < 2 ^ F.p
  · rw [if_pos hq, decode_pack h hq (.inr q1) (by omega)]
    congr 1; omega
  · rw [if_neg hq]
    have hqe : q = 2 ^ (F.p - 1) + 2 ^ (F.p - 1) := by omega
    rw [hqe, ← Nat.add_assoc, show k * 2 ^ (F.p - 1) + 2 ^ (F.p - 1) = (k + 1) * 2 ^ (F.p - 1) by rw [Nat.add_mul, Nat.one_mul],
      decode_pack h (by omega) (.inr (Nat.le_refl _)) (by rw [Nat.add_mul]; omega)]
    congr 1; omega

/-- The root of a `double` that is a whole number, rounded down. The last two conditions hold for all numbers below `2^52 + 2^27`. -/
theorem sqrt_floor {a n s g : Nat} (ha : b64.IsInt a n) (hn : n < 2 ^ 53) (h1 : s * s ≤ n) (h2 : n + g ≤ (s + 1) * (s + 1))
    (h3 : s + 1 ≤ g * 2 ^ 26) (h4 : s + 1 ≤ 2 ^ 27) : b64.trunc (b64.sqrt a) = some (s : Int) := by
  by_cases hn0 : n = 0
  · have : s = 0 := by
      subst hn0
      rcases Nat.mul_eq_zero.1 (Nat.le_zero.1 h1) with h | h <;> exact h
    subst this hn0
    exact trunc_int b64_ok (sqrt_square b64_ok (k := 0) ha (by decide))
  obtain ⟨K, r, hK, hK', hr1, hr2, hsq⟩ := sqrt_whole b64_ok ha hn0 hn
  have hp : b64.p = 53 := rfl
  have hem : b64.emin = -1074 := by decide
  rw [hp] at hK hK'
  rw [hem] at hK'
  obtain ⟨v, hv⟩ : ∃ v, v = 2 * r + (if r * r = n * 2 ^ (2 * (K - 1)) then 0 else 1) := ⟨_, rfl⟩
  rw [hsq, ← hv]
  have hvb : 2 * r ≤ v ∧ v ≤ 2 * r + 1 := by rw [hv]; split <;> omega
  -- the bounds of v
  have hs0 : s ≠ 0 := by
    rintro rfl
    have : g ≠ 0 := by rintro rfl; omega
    omega
  obtain ⟨P, hP⟩ : ∃ P, P = 2 ^ (K - 28) := ⟨_, rfl⟩
  have hPpos : 0 < P := by rw [hP]; exact Nat.two_pow_pos _
  have hP1 : 2 ^ (K - 1) = P * 2 ^ 27 := by rw [hP, ← Nat.pow_add]; congr 1; omega
  have hPK : 2 ^ K = P * 2 ^ 28 := by rw [hP, ← Nat.pow_add]; congr 1; omega
  have hN : n * 2 ^ (2 * (K - 1)) = n * 2 ^ 54 * (P * P) := by
    rw [Nat.two_mul, Nat.pow_add, hP1, show (2 : Nat) ^ 54 = 2 ^ 27 * 2 ^ 27 by rw [← Nat.pow_add]]; ac_rfl
  rw [hN] at hr1 hr2
  have hlow : s * 2 ^ 27 * P ≤ r := by
    apply le_of_sq_lt
    refine Nat.lt_of_le_of_lt ?_ hr2
    calc s * 2 ^ 27 * P * (s * 2 ^ 27 * P) = s * s * (2 ^ 27 * 2 ^ 27) * (P * P) := by ac_rfl
      _ ≤ n * 2 ^ 54 * (P * P) := by
        rw [← Nat.pow_add]
        exact Nat.mul_le_mul_right _ (Nat.mul_le_mul_right _ h1)
  have hupp : r < ((s + 1) * 2 ^ 27 - 1) * P := by
    apply lt_of_sq_lt
    refine Nat.lt_of_le_of_lt hr1 ?_
    obtain ⟨y, hy⟩ : ∃ y, (s + 1) * 2 ^ 27 = y + 1 := ⟨(s + 1) * 2 ^ 27 - 1, by omega⟩
    have hlt : n * 2 ^ 54 < y * y := by
      have e1 : (y + 1) * (y + 1) = (s + 1) * (s + 1) * 2 ^ 54 := by
        rw [← hy, show (2 : Nat) ^ 54 = 2 ^ 27 * 2 ^ 27 by rw [← Nat.pow_add]]; ac_rfl
      have e2 : (n + g) * 2 ^ 54 ≤ (s + 1) * (s + 1) * 2 ^ 54 := Nat.mul_le_mul_right _ h2
      have e3 : y + 1 ≤ g * 2 ^ 53 := by
        rw [← hy]
        calc (s + 1) * 2 ^ 27 ≤ g * 2 ^ 26 * 2 ^ 27 := Nat.mul_le_mul_right _ h3
          _ = g * 2 ^ 53 := by rw [Nat.mul_assoc, ← Nat.pow_add]
      rw [← e1, Nat.add_mul, Nat.add_mul, Nat.mul_add] at e2
      omega
    calc n * 2 ^ 54 * (P * P) < y * y * (P * P) := Nat.mul_lt_mul_of_pos_right hlt (Nat.mul_pos hPpos hPpos)
      _ = _ := by rw [hy, Nat.add_sub_cancel]; ac_rfl
  have hvl : s * 2 ^ K ≤ v := by
    rw [hPK]
    have : s * (P * 2 ^ 28) = 2 * (s * 2 ^ 27 * P) := by
      rw [show (2 : Nat) ^ 28 = 2 * 2 ^ 27 by rw [← Nat.pow_succ']]; ac_rfl
    omega
  have hvu : v + 2 * P < (s + 1) * 2 ^ K := by
    rw [hPK]
    have e1 : (s + 1) * (P * 2 ^ 28) = 2 * ((s + 1) * 2 ^ 27 * P) := by
      rw [show (2 : Nat) ^ 28 = 2 * 2 ^ 27 by rw [← Nat.pow_succ']]; ac_rfl
    obtain ⟨y, hy⟩ : ∃ y, (s + 1) * 2 ^ 27 = y + 1 := ⟨(s + 1) * 2 ^ 27 - 1, by omega⟩
    rw [hy, Nat.add_sub_cancel] at hupp
    rw [e1, hy, Nat.add_mul, Nat.one_mul]
    omega
  have hv0 : v ≠ 0 := by
    have := Nat.mul_pos (Nat.pos_of_ne_zero hs0) (Nat.two_pow_pos K)
    omega
  obtain ⟨hb1, hb2⟩ := log2_bounds hv0
  have hLK : K ≤ Nat.log2 v := by
    rw [Nat.le_log2 hv0]
    exact Nat.le_trans (Nat.le_mul_of_pos_left _ (Nat.pos_of_ne_zero hs0)) hvl
  have hLu : Nat.log2 v < K + 27 := by
    rw [Nat.log2_lt hv0, Nat.pow_add, Nat.mul_comm]
    have := Nat.mul_le_mul_right (2 ^ K) h4
    omega
  obtain ⟨q, hq, hd⟩ := round_big b64_ok (v := v) (K := K) hv0 (by omega) (by omega) (by omega)
  obtain ⟨L, hL⟩ : ∃ L, L = Nat.log2 v := ⟨_, rfl⟩
  rw [hp, ← hL] at hq hd
  rw [← hL] at hLK hLu
  obtain ⟨d, hde⟩ : ∃ d, d = L + 1 - 53 := ⟨_, rfl⟩
  rw [← hde] at hq
  -- the quotient
  have hKd : 2 ^ K = 2 ^ (K - d) * 2 ^ d := by rw [← Nat.pow_add]; congr 1; omega
  have q1 : s * 2 ^ (K - d) ≤ q := by
    rw [hq]
    refine roundShift_ge ?_
    rw [Nat.mul_assoc, ← hKd]; exact hvl
  have q2 : q < (s + 1) * 2 ^ (K - d) := by
    obtain ⟨z, hz⟩ : ∃ z, (s + 1) * 2 ^ (K - d) = z + 1 := ⟨(s + 1) * 2 ^ (K - d) - 1, by
      have := Nat.mul_pos (show 0 < s + 1 by omega) (Nat.two_pow_pos (K - d)); omega⟩
    rw [hz, Nat.lt_succ_iff, hq]
    refine roundShift_le ?_
    have e1 : (s + 1) * 2 ^ K = z * 2 ^ d + 2 ^ d := by rw [hKd, ← Nat.mul_assoc, hz, Nat.add_mul, Nat.one_mul]
    have e2 : 2 ^ d ≤ 4 * P := by
      rw [hP, show (4 : Nat) = 2 ^ 2 by rfl, ← Nat.pow_add]
      exact Nat.pow_le_pow_right (by decide) (by omega)
    have e3 : (2 * z + 1) * 2 ^ d = 2 * (z * 2 ^ d) + 2 ^ d := by rw [Nat.add_mul, Nat.one_mul, Nat.mul_assoc]
    rw [e3]
    omega
  have hqd : q / 2 ^ (K - d) = s := by
    apply Nat.le_antisymm
    · rw [← Nat.lt_succ_iff, Nat.div_lt_iff_lt_mul (Nat.two_pow_pos _)]; exact q2
    · rw [Nat.le_div_iff_mul_le (Nat.two_pow_pos _)]; exact q1
  rw [Fmt.trunc, hd]
  by_cases hq53 : q < 2 ^ 53
  · rw [if_pos hq53]
    simp only [sgn, Bool.false_eq_true, if_false]
    rw [if_neg (by omega), show (-((L : Int) + 1 - ((53 : Nat) : Int) - (K : Int))).toNat = K - d by omega, hqd]
  · rw [if_neg hq53]
    have hqe : q = 2 ^ 53 := by
      have : q ≤ 2 ^ 53 := by
        rw [hq]
        refine roundShift_le ?_
        have : 2 ^ (L + 1) = 2 ^ 53 * 2 ^ d := by rw [← Nat.pow_add]; congr 1; omega
        rw [Nat.add_mul, Nat.mul_assoc, ← this, Nat.one_mul]
        have := Nat.two_pow_pos d
        rw [← hL] at hb2
        omega
      omega
    simp only [sgn, Bool.false_eq_true, if_false]
    rw [if_neg (by omega), show (-((L : Int) + 2 - ((53 : Nat) : Int) - (K : Int))).toNat = K - d - 1 by omega]
    congr 2
    rw [← hqd, hqe, show K - d = (K - d - 1) + 1 by omega, Nat.add_sub_cancel, Nat.pow_succ' (n := K - d - 1), ← Nat.div_div_eq_div_mul]

end Aitisa
