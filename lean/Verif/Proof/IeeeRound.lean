import Verif.Proof.IeeeVal

/-!
# Rounding is monotone
-/

namespace Aitisa

variable {F : Fmt}

/-- `N / D` rounded to the nearest integer, ties to even. -/
def rnd (N D : Nat) : Nat :=
  if 2 * (N % D) < D then N / D else if D < 2 * (N % D) then N / D + 1 else N / D + N / D % 2

theorem roundShift_rnd (m d : Nat) : roundShift m d = rnd m (2 ^ d) := rfl

/-- Where the rounded number lies. -/
theorem rnd_le_iff {N D b : Nat} (hD : 0 < D) : rnd N D ≤ b ↔ 2 * N < (2 * b + 1) * D ∨ (2 * N = (2 * b + 1) * D ∧ b % 2 = 0) := by
  have h1 := Nat.div_add_mod N D
  have h2 := Nat.mod_lt N hD
  unfold rnd
  generalize N / D = q at *
  generalize N % D = r at *
  have e : (2 * b + 1) * D = 2 * (D * b) + D := by rw [Nat.add_mul, Nat.one_mul, Nat.mul_assoc, Nat.mul_comm b D]
  rw [e, ← h1]
  rcases Nat.lt_trichotomy q b with h | h | h
  · have : D * (q + 1) ≤ D * b := Nat.mul_le_mul_left _ h
    rw [Nat.mul_succ] at this
    have hq : q % 2 ≤ 1 := by omega
    constructor
    · intro; left; omega
    · intro; split
      · omega
      · split <;> omega
  · subst h
    split
    · constructor
      · intro; left; omega
      · intro; omega
    · split
      · constructor
        · intro; omega
        · intro h; omega
      · constructor
        · intro; right; omega
        · intro h; omega
  · have : D * (b + 1) ≤ D * q := Nat.mul_le_mul_left _ h
    rw [Nat.mul_succ] at this
    constructor
    · intro h
      split at h
      · omega
      · split at h <;> omega
    · intro h; omega

theorem rnd_ext {a b : Nat} (h : ∀ n, a ≤ n ↔ b ≤ n) : a = b :=
  Nat.le_antisymm ((h b).2 (Nat.le_refl _)) ((h a).1 (Nat.le_refl _))

theorem rnd_scale {N D k : Nat} (hD : 0 < D) (hk : 0 < k) : rnd (N * k) (D * k) = rnd N D := by
  refine rnd_ext fun b => ?_
  rw [rnd_le_iff hD, rnd_le_iff (Nat.mul_pos hD hk), ← Nat.mul_assoc, ← Nat.mul_assoc, Nat.mul_lt_mul_right hk, Nat.mul_left_inj (by omega)]

theorem rnd_mono {N D N' D' : Nat} (hD : 0 < D) (hD' : 0 < D') (h : N * D' ≤ N' * D) : rnd N D ≤ rnd N' D' := by
  have key := (rnd_le_iff (b := rnd N' D') hD').1 (Nat.le_refl _)
  generalize rnd N' D' = b at *
  rw [rnd_le_iff hD]
  have e1 : 2 * N * D' ≤ 2 * N' * D := by rw [Nat.mul_assoc, Nat.mul_assoc]; omega
  rcases key with key | ⟨key, hb⟩
  · left
    have := Nat.mul_lt_mul_of_pos_right key hD
    have : 2 * N * D' < (2 * b + 1) * D * D' := by rw [Nat.mul_right_comm (2 * b + 1) D D']; omega
    exact Nat.lt_of_mul_lt_mul_right this
  · have : 2 * N * D' ≤ (2 * b + 1) * D * D' := by rw [Nat.mul_right_comm (2 * b + 1) D D', ← key]; exact e1
    have := Nat.le_of_mul_le_mul_right this hD'
    rcases Nat.lt_or_ge (2 * N) ((2 * b + 1) * D) with h' | h'
    · exact .inl h'
    · exact .inr ⟨by omega, hb⟩

theorem rnd_ge {N D b : Nat} (hD : 0 < D) (h : b * D ≤ N) : b ≤ rnd N D := by
  have h1 : rnd (b * D) (1 * D) = rnd b 1 := rnd_scale (by omega) hD
  have h2 : rnd b 1 = b := by simp [rnd, Nat.mod_one]
  have := rnd_mono (N := b) (D := 1) (N' := N) (D' := D) (by omega) hD (by omega)
  omega

theorem rnd_le {N D b : Nat} (hD : 0 < D) (h : N ≤ b * D) : rnd N D ≤ b := by
  have h2 : rnd b 1 = b := by simp [rnd, Nat.mod_one]
  have := rnd_mono (N := N) (D := D) (N' := b) (D' := 1) hD (by omega) (by omega)
  omega

/-- The bits of the positive number `N / D` times the smallest positive number, rounded. -/
def Fmt.rq (F : Fmt) (N D : Nat) : Nat :=
  let k := Nat.log2 (N / D) + 1 - F.p
  min (k * 2 ^ (F.p - 1) + rnd N (D * 2 ^ k)) F.infBits

/-- `k` is the exponent used for `N / D`. -/
def Fmt.Expo (F : Fmt) (N D k : Nat) : Prop := N < D * 2 ^ (k + F.p) ∧ (k = 0 ∨ D * 2 ^ (k + F.p - 1) ≤ N)

theorem expo_log {N D : Nat} (h : F.OK) (hD : 0 < D) : F.Expo N D (Nat.log2 (N / D) + 1 - F.p) := by
  have hp := h.p3
  by_cases h0 : N / D = 0
  · rw [h0]
    refine ⟨?_, .inl (by have : Nat.log2 0 = 0 := rfl; omega)⟩
    have : N < D := (Nat.div_eq_zero_iff_lt hD).1 h0
    exact Nat.lt_of_lt_of_le this (Nat.le_mul_of_pos_right _ (Nat.two_pow_pos _))
  · obtain ⟨h1, h2⟩ := log2_bounds h0
    generalize Nat.log2 (N / D) = L at *
    refine ⟨?_, ?_⟩
    · have : N / D < 2 ^ (L + 1 - F.p + F.p) := Nat.lt_of_lt_of_le h2 (Nat.pow_le_pow_right (by omega) (by omega))
      rwa [Nat.div_lt_iff_lt_mul hD, Nat.mul_comm] at this
    · by_cases hk : L + 1 - F.p = 0
      · exact .inl hk
      · right
        rw [show L + 1 - F.p + F.p - 1 = L by omega, Nat.mul_comm]
        exact (Nat.le_div_iff_mul_le hD).1 h1

theorem Fmt.Expo.le {N D N' D' k k' : Nat} (h : F.OK) (hD : 0 < D) (hN : N * D' ≤ N' * D) (h1 : F.Expo N D k) (h2 : F.Expo N' D' k') : k ≤ k' := by
  have hp := h.p3
  apply Classical.byContradiction
  intro hlt
  have h3 : D * 2 ^ (k + F.p - 1) ≤ N := by
    rcases h1.2 with h | h
    · omega
    · exact h
  have h4 : N' < D' * 2 ^ (k + F.p - 1) := Nat.lt_of_lt_of_le h2.1 (Nat.mul_le_mul_left _ (Nat.pow_le_pow_right (by omega) (by omega)))
  generalize 2 ^ (k + F.p - 1) = P at *
  have h5 : D * P * D' ≤ N * D' := Nat.mul_le_mul_right _ h3
  have h6 : N' * D < D' * P * D := Nat.mul_lt_mul_of_pos_right h4 hD
  have : D * P * D' = D' * P * D := by rw [Nat.mul_comm (D * P), ← Nat.mul_assoc, Nat.mul_right_comm]
  omega

theorem Fmt.Expo.unique {N D k k' : Nat} (h : F.OK) (hD : 0 < D) (h1 : F.Expo N D k) (h2 : F.Expo N D k') : k = k' :=
  Nat.le_antisymm (h1.le h hD (Nat.le_refl _) h2) (h2.le h hD (Nat.le_refl _) h1)

theorem rq_eq {N D k : Nat} (h : F.OK) (hD : 0 < D) (he : F.Expo N D k) : F.rq N D = min (k * 2 ^ (F.p - 1) + rnd N (D * 2 ^ k)) F.infBits := by
  rw [(he.unique h hD (expo_log h hD))]; rfl

/-- Larger numbers are not rounded to smaller ones. -/
theorem rq_mono {N D N' D' : Nat} (h : F.OK) (hD : 0 < D) (hD' : 0 < D') (hN : N * D' ≤ N' * D) : F.rq N D ≤ F.rq N' D' := by
  obtain ⟨k, hk⟩ : ∃ k, F.Expo N D k := ⟨_, expo_log h hD⟩
  obtain ⟨k', hk'⟩ : ∃ k', F.Expo N' D' k' := ⟨_, expo_log h hD'⟩
  rw [rq_eq h hD hk, rq_eq h hD' hk']
  have hle := hk.le h hD hN hk'
  have hP : ∀ n : Nat, 0 < 2 ^ n := fun n => Nat.two_pow_pos _
  suffices k * 2 ^ (F.p - 1) + rnd N (D * 2 ^ k) ≤ k' * 2 ^ (F.p - 1) + rnd N' (D' * 2 ^ k') by omega
  rcases Nat.lt_or_ge k k' with hlt | hge
  · have hp := h.p3
    have h1 : rnd N (D * 2 ^ k) ≤ 2 ^ F.p := rnd_le (Nat.mul_pos hD (hP _)) (by
      have := hk.1; rw [Nat.pow_add] at this
      rw [Nat.mul_comm (2 ^ F.p), Nat.mul_assoc]; omega)
    have h2 : 2 ^ (F.p - 1) ≤ rnd N' (D' * 2 ^ k') := rnd_ge (Nat.mul_pos hD' (hP _)) (by
      rcases hk'.2 with h | h
      · omega
      · rw [show k' + F.p - 1 = k' + (F.p - 1) by omega, Nat.pow_add] at h
        rw [Nat.mul_comm (2 ^ (F.p - 1)), Nat.mul_assoc]; exact h)
    have h3 : (k + 1) * 2 ^ (F.p - 1) ≤ k' * 2 ^ (F.p - 1) := Nat.mul_le_mul_right _ hlt
    rw [Nat.succ_mul] at h3
    have := h.pow_p
    omega
  · have : k = k' := by omega
    subst this
    have := rnd_mono (N := N) (D := D * 2 ^ k) (N' := N') (D' := D' * 2 ^ k) (Nat.mul_pos hD (hP _)) (Nat.mul_pos hD' (hP _)) (by
      rw [← Nat.mul_assoc, ← Nat.mul_assoc]; exact Nat.mul_le_mul_right _ hN)
    omega

theorem rq_congr {N D N' D' : Nat} (h : F.OK) (hD : 0 < D) (hD' : 0 < D') (hN : N * D' = N' * D) : F.rq N D = F.rq N' D' :=
  Nat.le_antisymm (rq_mono h hD hD' (by omega)) (rq_mono h hD' hD (by omega))

theorem rq_zero (h : F.OK) {D : Nat} (hD : 0 < D) : F.rq 0 D = 0 := by
  rw [rq_eq h hD (k := 0) ⟨Nat.mul_pos hD (Nat.two_pow_pos _), .inl rfl⟩]
  simp [rnd, hD]

theorem rq_le_inf (F : Fmt) (N D : Nat) : F.rq N D ≤ F.infBits := Nat.min_le_right ..

/-- The bits that `round` computes. -/
theorem round_low (h : F.OK) (s : Bool) (m j : Nat) : F.round s m (F.emin - j) = F.signed s (F.rq m (2 ^ j)) := by
  have hp := h.p3
  by_cases hm : m = 0
  · subst hm; simp [Fmt.round, rq_zero h (Nat.two_pow_pos j)]
  · rw [Fmt.round, if_neg hm]
    obtain ⟨k, hk⟩ : ∃ k : Nat, max (F.emin - j + ((Nat.log2 m + 1 : Nat) : Int) - F.p) F.emin = F.emin + k :=
      ⟨(max (F.emin - j + ((Nat.log2 m + 1 : Nat) : Int) - F.p) F.emin - F.emin).toNat, by omega⟩
    obtain ⟨h1, h2⟩ := log2_bounds hm
    have hx : F.Expo m (2 ^ j) k := by
      refine ⟨?_, ?_⟩
      · rw [← Nat.pow_add]
        exact Nat.lt_of_lt_of_le h2 (Nat.pow_le_pow_right (by omega) (by omega))
      · by_cases hk0 : k = 0
        · exact .inl hk0
        · right
          rw [← Nat.pow_add]
          exact Nat.le_trans (Nat.pow_le_pow_right (by omega) (by omega)) h1
    rw [rq_eq h (Nat.two_pow_pos j) hx]
    simp only [hk]
    congr 3
    · congr 1; omega
    · rw [← Nat.pow_add]
      split
      · have : k = 0 := by omega
        have : j = 0 := by omega
        subst k j
        simp [rnd, Nat.mod_one]
      · rw [roundShift_rnd]
        congr 2; omega

theorem round_high (h : F.OK) (s : Bool) (m i : Nat) : F.round s m (F.emin + i) = F.signed s (F.rq (m * 2 ^ i) 1) := by
  rw [← round_shift (k := i), show F.emin + (i : Int) - i = F.emin - (0 : Nat) by omega, round_low h]

/-- The significand and exponent of a magnitude. -/
theorem decode_mag (h : F.OK) {s : Bool} {n : Nat} (hn : n < F.infBits) :
    ∃ m i : Nat, F.decode (F.signed s n) = .fin s m (F.emin + i) ∧ m * 2 ^ i = F.mag n := by
  have hs := inf_lt_sign h
  have hlt : ¬ n / 2 ^ (F.p - 1) = 2 ^ F.w - 1 := by
    intro e
    have : n / 2 ^ (F.p - 1) < 2 ^ F.w - 1 := by rw [Nat.div_lt_iff_lt_mul (Nat.two_pow_pos _)]; exact hn
    omega
  rw [decode_signed h (by omega), if_neg hlt]
  unfold Fmt.mag
  by_cases h0 : n / 2 ^ (F.p - 1) = 0
  · rw [if_pos h0, if_pos h0]; exact ⟨n % 2 ^ (F.p - 1), 0, by simp, by simp⟩
  · rw [if_neg h0, if_neg h0]; exact ⟨_, _, rfl, rfl⟩

/-- A number of the format is rounded to itself. -/
theorem rq_mag (h : F.OK) {n : Nat} (hn : n < F.infBits) : F.rq (F.mag n) 1 = n := by
  have hs := inf_lt_sign h
  obtain ⟨m, i, hd, hm⟩ := decode_mag (s := false) h hn
  have := (round_decode h (signed_lt (by omega)) hd).1
  rw [round_high h, hm] at this
  simpa [Fmt.signed] using this

theorem add_mag (h : F.OK) {s t : Bool} {a b : Nat} (ha : a < F.infBits) (hb : b < F.infBits) :
    F.add (F.signed s a) (F.signed t b) = if sgn s (F.mag a) + sgn t (F.mag b) = 0 then F.signed (s && t) 0
      else F.signed (decide (sgn s (F.mag a) + sgn t (F.mag b) < 0)) (F.rq (sgn s (F.mag a) + sgn t (F.mag b)).natAbs 1) := by
  obtain ⟨m, i, hd, hm⟩ := decode_mag (s := s) h ha
  obtain ⟨n, j, hd', hn⟩ := decode_mag (s := t) h hb
  rw [Fmt.add, hd, hd']
  simp only
  obtain ⟨g, hg⟩ : ∃ g : Nat, min (F.emin + (i : Int)) (F.emin + j) = F.emin + g ∧ g ≤ i ∧ g ≤ j := ⟨min i j, by omega, by omega, by omega⟩
  rw [hg.1, show (F.emin + (i : Int) - (F.emin + g)).toNat = i - g by omega, show (F.emin + (j : Int) - (F.emin + g)).toNat = j - g by omega]
  have e : ∀ (s : Bool) {m i : Nat}, g ≤ i → sgn s (m * 2 ^ i) = sgn s (m * 2 ^ (i - g)) * 2 ^ g := by
    intro s m i hi
    have : m * 2 ^ i = m * 2 ^ (i - g) * 2 ^ g := by rw [Nat.mul_assoc, ← Nat.pow_add]; congr 2; omega
    rw [this, sgn_mul, pow_cast]
  have hpos : (0 : Int) < 2 ^ g := by rw [← pow_cast]; exact Int.natCast_pos.2 (Nat.two_pow_pos g)
  have hv : sgn s (F.mag a) + sgn t (F.mag b) = (sgn s (m * 2 ^ (i - g)) + sgn t (n * 2 ^ (j - g))) * 2 ^ g := by
    rw [← hm, ← hn, e s hg.2.1, e t hg.2.2, Int.add_mul]
  rw [hv]
  generalize sgn s (m * 2 ^ (i - g)) + sgn t (n * 2 ^ (j - g)) = v
  by_cases hz : v = 0
  · subst hz; simp
  · rw [if_neg hz, if_neg (fun h => by rcases Int.mul_eq_zero.1 h with h | h <;> omega), round_high h]
    have hlt : (v * 2 ^ g < 0) ↔ v < 0 := ⟨fun h => by
      apply Classical.byContradiction
      intro hc
      have := Int.mul_nonneg (Int.not_lt.1 hc) (Int.le_of_lt hpos)
      omega, fun h => Int.mul_neg_of_neg_of_pos h hpos⟩
    rw [decide_eq_decide.2 hlt, Int.natAbs_mul, ← pow_cast, Int.natAbs_natCast]

theorem round_any (h : F.OK) (s : Bool) (m x y : Nat) {e : Int} (he : e = F.emin + x - y) : F.round s m e = F.signed s (F.rq (m * 2 ^ x) (2 ^ y)) := by
  rcases Nat.lt_or_ge x y with hlt | hge
  · rw [show e = F.emin - (y - x : Nat) by omega, round_low h]
    congr 1
    refine rq_congr h (Nat.two_pow_pos _) (Nat.two_pow_pos _) ?_
    rw [Nat.mul_assoc, ← Nat.pow_add]; congr 2; omega
  · rw [show e = F.emin + (x - y : Nat) by omega, round_high h]
    congr 1
    refine rq_congr h (by omega) (Nat.two_pow_pos _) ?_
    rw [Nat.mul_assoc, ← Nat.pow_add, Nat.mul_one]; congr 2; omega

/-- The last bit of `2 * (M / n) + 1` stands for all that is cut off. -/
theorem rq_sticky (h : F.OK) {M n x y : Nat} (hn : 0 < n) (hq : 2 ^ (F.p + 2) ≤ M / n) :
    F.rq ((2 * (M / n) + (if M % n = 0 then 0 else 1)) * 2 ^ x) (2 ^ y) = F.rq (2 * M * 2 ^ x) (n * 2 ^ y) := by
  have hdm := Nat.div_add_mod M n
  have hml := Nat.mod_lt M hn
  obtain ⟨A, hA⟩ : ∃ A, A = 2 * (M / n) + (if M % n = 0 then 0 else 1) := ⟨_, rfl⟩
  rw [← hA]
  have hAq : 2 ^ (F.p + 3) ≤ A := by
    rw [Nat.pow_succ]; split at hA <;> omega
  have hlt : ∀ t, A < 2 * t ↔ M < n * t := by
    intro t
    have : M / n < t ↔ M < n * t := by rw [Nat.div_lt_iff_lt_mul hn, Nat.mul_comm]
    rw [← this]
    split at hA <;> omega
  have heq : ∀ t, A = 2 * t ↔ M = n * t := by
    intro t
    constructor
    · intro e
      split at hA
      · have : M / n = t := by omega
        rw [← this]; omega
      · omega
    · intro e
      rw [e, Nat.mul_mod_right, if_pos rfl, Nat.mul_div_cancel_left _ hn] at hA
      exact hA
  -- thresholds that are powers of 2
  have hpow : ∀ z, A * 2 ^ x < 2 ^ z ↔ 2 * M * 2 ^ x < n * 2 ^ z := by
    intro z
    rcases Nat.lt_or_ge x z with hz | hz
    · obtain ⟨d, rfl⟩ : ∃ d, z = d + 1 + x := ⟨z - x - 1, by omega⟩
      rw [Nat.pow_add _ (d + 1), ← Nat.mul_assoc, Nat.mul_lt_mul_right (Nat.two_pow_pos x), Nat.mul_lt_mul_right (Nat.two_pow_pos x), Nat.pow_succ,
        Nat.mul_comm (2 ^ d), hlt, ← Nat.mul_assoc, Nat.mul_comm n 2, Nat.mul_assoc 2 n]
      omega
    · have hz' := Nat.pow_le_pow_right (show 0 < 2 by omega) hz
      have h1 : 2 ^ x ≤ A * 2 ^ x := Nat.le_mul_of_pos_left _ (Nat.lt_of_lt_of_le (Nat.two_pow_pos _) hAq)
      have hM : n ≤ M := by
        have := Nat.mul_le_mul_left n (Nat.le_trans (Nat.two_pow_pos _) hq)
        omega
      have h2 : n * 2 ^ z ≤ M * 2 ^ x := Nat.mul_le_mul hM hz'
      have h3 : 2 * M * 2 ^ x = 2 * (M * 2 ^ x) := Nat.mul_assoc ..
      constructor <;> intro <;> omega
  obtain ⟨k, hk⟩ : ∃ k, F.Expo (A * 2 ^ x) (2 ^ y) k := ⟨_, expo_log h (Nat.two_pow_pos _)⟩
  have hk' : F.Expo (2 * M * 2 ^ x) (n * 2 ^ y) k := by
    refine ⟨?_, hk.2.imp_right fun h => ?_⟩
    · have := hk.1
      rw [← Nat.pow_add, hpow, Nat.pow_add] at this
      rw [Nat.mul_assoc n]; exact this
    · rw [← Nat.pow_add] at h
      have := mt (hpow _).2 (Nat.not_lt.2 h)
      rw [Nat.mul_assoc n, ← Nat.pow_add]; omega
  have hd : x + 3 ≤ y + k := by
    have h1 := hk.1
    rw [← Nat.pow_add] at h1
    have h2 : 2 ^ (F.p + 3 + x) ≤ A * 2 ^ x := by rw [Nat.pow_add]; exact Nat.mul_le_mul_right _ hAq
    have := (Nat.pow_lt_pow_iff_right (show 1 < 2 by omega)).1 (Nat.lt_of_le_of_lt h2 h1)
    omega
  rw [rq_eq h (Nat.two_pow_pos _) hk, rq_eq h (Nat.mul_pos hn (Nat.two_pow_pos _)) hk']
  congr 2
  obtain ⟨d, hd⟩ : ∃ d, y + k = d + 2 + x := ⟨y + k - x - 2, by omega⟩
  rw [Nat.mul_assoc n, ← Nat.pow_add, hd, Nat.pow_add _ (d + 2), ← Nat.mul_assoc n, rnd_scale (Nat.two_pow_pos _) (Nat.two_pow_pos _),
    rnd_scale (Nat.mul_pos hn (Nat.two_pow_pos _)) (Nat.two_pow_pos _)]
  refine rnd_ext fun b => ?_
  rw [rnd_le_iff (Nat.two_pow_pos _), rnd_le_iff (Nat.mul_pos hn (Nat.two_pow_pos _))]
  have e1 : (2 * b + 1) * 2 ^ (d + 2) = 2 * (2 * ((2 * b + 1) * 2 ^ d)) := by
    rw [Nat.pow_add, Nat.mul_left_comm 2 (2 * b + 1), Nat.mul_left_comm 2 (2 * b + 1)]; congr 1; omega
  have e2 : (2 * b + 1) * (n * 2 ^ (d + 2)) = 2 * (2 * (n * ((2 * b + 1) * 2 ^ d))) := by
    rw [Nat.mul_left_comm, e1, Nat.mul_left_comm n 2, Nat.mul_left_comm n 2]
  rw [e1, e2]
  have h1 := hlt ((2 * b + 1) * 2 ^ d)
  have h2 := heq ((2 * b + 1) * 2 ^ d)
  generalize (2 * b + 1) * 2 ^ d = t at *
  generalize n * t = u at *
  constructor
  · rintro (h | ⟨h, h'⟩)
    · left; have := h1.1 (by omega); omega
    · right; have := h2.1 (by omega); omega
  · rintro (h | ⟨h, h'⟩)
    · left; have := h1.2 (by omega); omega
    · right; have := h2.2 (by omega); omega

theorem mag_pos (F : Fmt) {n : Nat} : 0 < F.mag n ↔ 0 < n := by
  have := mag_lt_iff F (a := 0) (b := n)
  rwa [mag_zero] at this

theorem div_mag (h : F.OK) {s t : Bool} {a b : Nat} (ha : a < F.infBits) (hb : b < F.infBits) (hb0 : 0 < b) :
    F.div (F.signed s a) (F.signed t b) = F.signed (s != t) (F.rq (F.mag a * 2 ^ F.low) (F.mag b)) := by
  obtain ⟨m, i, hd, hm⟩ := decode_mag (s := s) h ha
  obtain ⟨n, j, hd', hn⟩ := decode_mag (s := t) h hb
  have hn0 : 0 < n := by
    have := (mag_pos F).2 hb0
    rw [← hn] at this
    exact Nat.pos_of_mul_pos_right this
  rw [Fmt.div, hd, hd']
  simp only
  rw [if_neg (by omega)]
  obtain ⟨k, hk⟩ : ∃ k, k = F.p + 3 + Nat.log2 n := ⟨_, rfl⟩
  rw [← hk, round_any h (x := F.low + i) (y := j + k + 1) (he := by rw [h.emin]; omega)]
  congr 1
  by_cases hm0 : m = 0
  · subst hm0
    rw [← hm]
    simp [rq_zero h ((mag_pos F).2 hb0), rq_zero h (Nat.two_pow_pos _)]
  · rw [rq_sticky h hn0]
    · refine rq_congr h (Nat.mul_pos hn0 (Nat.two_pow_pos _)) ((mag_pos F).2 hb0) ?_
      rw [← hm, ← hn, Nat.pow_add, Nat.pow_add _ (j + k), Nat.pow_add _ j]
      simp only [Nat.pow_one, Nat.mul_comm, Nat.mul_left_comm, Nat.mul_assoc]
    · rw [Nat.le_div_iff_mul_le hn0, hk]
      have h2 := (log2_bounds (m := n) (by omega)).2
      calc 2 ^ (F.p + 2) * n ≤ 2 ^ (F.p + 2) * 2 ^ (Nat.log2 n + 1) := Nat.mul_le_mul_left _ (by omega)
        _ = 2 ^ (F.p + 3 + Nat.log2 n) := by rw [← Nat.pow_add]; congr 1; omega
        _ ≤ m * 2 ^ (F.p + 3 + Nat.log2 n) := Nat.le_mul_of_pos_left _ (by omega)

theorem convert_mag {G : Fmt} (h : F.OK) (hG : G.OK) {s : Bool} {a : Nat} (ha : a < F.infBits) :
    F.convert G (F.signed s a) = G.signed s (G.rq (F.mag a * 2 ^ G.low) (2 ^ F.low)) := by
  obtain ⟨m, i, hd, hm⟩ := decode_mag (s := s) h ha
  rw [Fmt.convert, hd]
  simp only
  rw [round_any hG (x := G.low + i) (y := F.low) (he := by rw [h.emin, hG.emin]; omega), ← hm, Nat.pow_add]
  congr 2
  simp [Nat.mul_comm, Nat.mul_left_comm, Nat.mul_assoc]

theorem mul_mag (h : F.OK) {s t : Bool} {a b : Nat} (ha : a < F.infBits) (hb : b < F.infBits) :
    F.mul (F.signed s a) (F.signed t b) = F.signed (s != t) (F.rq (F.mag a * F.mag b) (2 ^ F.low)) := by
  obtain ⟨m, i, hd, hm⟩ := decode_mag (s := s) h ha
  obtain ⟨n, j, hd', hn⟩ := decode_mag (s := t) h hb
  rw [Fmt.mul, hd, hd']
  simp only
  rw [round_any h (x := i + j) (y := F.low) (he := by rw [h.emin]; omega), ← hm, ← hn, Nat.pow_add]
  congr 2
  simp [Nat.mul_comm, Nat.mul_left_comm, Nat.mul_assoc]

end Aitisa
