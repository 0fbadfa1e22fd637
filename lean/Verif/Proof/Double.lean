import Verif.Spec.Double
import Verif.Model.Double
import Mathlib.Data.Nat.Log

/-! # Rounding of quotients -/

namespace Aitisa

theorem rne_close {x b : Nat} (hb : 0 < b) : 2 * (rne x b * b) ≤ 2 * x + b ∧ 2 * x ≤ 2 * (rne x b * b) + b := by
  have hm := Nat.div_add_mod x b
  have hlt := Nat.mod_lt x hb
  have hc : b * (x / b) = x / b * b := Nat.mul_comm _ _
  have e : (x / b + 1) * b = x / b * b + b := by rw [Nat.add_mul, Nat.one_mul]
  unfold rne
  simp only
  split
  · constructor <;> omega
  · split
    · rw [e]; constructor <;> omega
    · split
      · constructor <;> omega
      · rw [e]; constructor <;> omega

/-- Rounding respects integer bounds. -/
theorem rne_ge {x b n : Nat} (hb : 0 < b) (h : n * b ≤ x) : n ≤ rne x b := by
  have := (rne_close (x := x) hb).2
  apply Nat.le_of_not_lt
  intro hlt
  have : (rne x b + 1) * b ≤ n * b := Nat.mul_le_mul_right _ hlt
  rw [Nat.add_mul, Nat.one_mul] at this
  omega

theorem rne_le {x b n : Nat} (hb : 0 < b) (h : x ≤ n * b) : rne x b ≤ n := by
  have := (rne_close (x := x) hb).1
  apply Nat.le_of_not_lt
  intro hlt
  have : (n + 1) * b ≤ rne x b * b := Nat.mul_le_mul_right _ hlt
  rw [Nat.add_mul, Nat.one_mul] at this
  omega

theorem dShift_spec {a b : Nat} (ha : 0 < a) (hb : 0 < b) (ha' : a < 2 ^ 53) :
    2 ^ 52 * b ≤ a * 2 ^ dShift a b ∧ a * 2 ^ dShift a b ≤ 2 ^ 53 * b := by
  have ha0 : a ≠ 0 := by omega
  have hb0 : b ≠ 0 := by omega
  have a1 := Nat.log2_self_le ha0
  have a2 : a < 2 ^ (Nat.log2 a + 1) := Nat.lt_log2_self
  have b1 := Nat.log2_self_le hb0
  have b2 : b < 2 ^ (Nat.log2 b + 1) := Nat.lt_log2_self
  have hla : Nat.log2 a ≤ 52 := by
    have : Nat.log2 a < 53 := (Nat.log2_lt ha0).2 ha'
    omega
  unfold dShift
  simp only
  generalize Nat.log2 a = la at *
  generalize Nat.log2 b = lb at *
  obtain ⟨j, h52⟩ : ∃ j, 52 = la + j := ⟨52 - la, by omega⟩
  have e1 : 52 + lb - la = lb + j := by omega
  rw [e1]
  have e53 : (2 : Nat) ^ 53 = 2 ^ 52 * 2 := rfl
  have e52 : (2 : Nat) ^ 52 = 2 ^ la * 2 ^ j := by rw [h52]; exact Nat.pow_add ..
  have ee : (2 : Nat) ^ (lb + j) = 2 ^ lb * 2 ^ j := Nat.pow_add ..
  rw [Nat.pow_succ] at a2 b2
  have hj : 0 < 2 ^ j := Nat.pow_pos (by decide)
  split
  · rename_i hlt
    rw [e53, e52, Nat.pow_succ, ee]
    constructor
    · have : 2 ^ la * b ≤ a * (2 ^ lb * 2) := Nat.mul_le_mul a1 (by omega)
      have := Nat.mul_le_mul_right (2 ^ j) this
      calc 2 ^ la * 2 ^ j * b = 2 ^ la * b * 2 ^ j := by ac_rfl
        _ ≤ _ := this
        _ = _ := by ac_rfl
    · have := Nat.mul_le_mul_right (2 ^ j * 2) (Nat.le_of_lt hlt)
      calc a * (2 ^ lb * 2 ^ j * 2) = a * 2 ^ lb * (2 ^ j * 2) := by ac_rfl
        _ ≤ _ := this
        _ = _ := by ac_rfl
  · rename_i hge
    rw [e53, e52, ee]
    constructor
    · have := Nat.mul_le_mul_right (2 ^ j) (Nat.le_of_not_lt hge)
      calc 2 ^ la * 2 ^ j * b = b * 2 ^ la * 2 ^ j := by ac_rfl
        _ ≤ _ := this
        _ = _ := by ac_rfl
    · have : a * 2 ^ lb ≤ (2 ^ la * 2) * b := Nat.mul_le_mul (by omega) b1
      have := Nat.mul_le_mul_right (2 ^ j) this
      calc a * (2 ^ lb * 2 ^ j) = a * 2 ^ lb * 2 ^ j := by ac_rfl
        _ ≤ _ := this
        _ = _ := by ac_rfl

/-- The model's quotient is correctly rounded. -/
theorem dDiv_nearest {a b : Nat} (ha : 0 < a) (hb : 0 < b) (ha' : a < 2 ^ 53) :
    Nearest a b (dDiv a b).1 (dDiv a b).2 := by
  obtain ⟨h1, h2⟩ := dShift_spec ha hb ha'
  unfold dDiv
  rw [if_neg (by omega)]
  obtain ⟨c1, c2⟩ := rne_close (x := a * 2 ^ dShift a b) hb
  exact ⟨rne_ge hb h1, rne_le hb h2, c1, c2⟩

theorem Nearest.shift {a b m k : Nat} (h : Nearest a b m k) (ha : a < 2 ^ 51) : b ≤ 2 ^ k := by
  apply Nat.le_of_not_lt
  intro hlt
  have h1 := h.normal
  have h2 := h.upper
  have h0 : 0 < 2 ^ k := Nat.pow_pos (by decide)
  have h3 : 2 ^ 52 * b ≤ m * b := Nat.mul_le_mul_right _ h1
  have h4 : a * 2 ^ k ≤ 2 ^ 51 * b := Nat.mul_le_mul (by omega) (by omega)
  omega

theorem isCeil_unique {a b n n' : Nat} (h : IsCeil a b n) (h' : IsCeil a b n') : n = n' :=
  Nat.le_antisymm (h.2 _ h'.1) (h'.2 _ h.1)

theorem isFloor_unique {a b n n' : Nat} (h : IsFloor a b n) (h' : IsFloor a b n') : n = n' :=
  Nat.le_antisymm (h'.2 _ h.1) (h.2 _ h'.1)

theorem isCeil_div (a : Nat) {b : Nat} (hb : 0 < b) : IsCeil a b ((a + (b - 1)) / b) := by
  constructor
  · have := Nat.div_add_mod (a + (b - 1)) b
    have := Nat.mod_lt (a + (b - 1)) hb
    rw [Nat.mul_comm]
    omega
  · intro n h
    rw [← Nat.lt_succ_iff]
    rw [Nat.div_lt_iff_lt_mul hb]
    rw [Nat.succ_mul]
    omega

theorem isFloor_div (a : Nat) {b : Nat} (hb : 0 < b) : IsFloor a b (a / b) := by
  refine ⟨Nat.div_mul_le_self a b, fun n h => ?_⟩
  rwa [Nat.le_div_iff_mul_le hb]

/-- The ceiling of a nearest binary64 number is the exact ceiling. -/
theorem Nearest.ceil {a b m k n : Nat} (h : Nearest a b m k) (ha : 0 < a) (hb : 0 < b) (ha' : a < 2 ^ 51)
    (hn : IsCeil m (2 ^ k) n) : IsCeil a b n := by
  have hk := h.shift ha'
  have h2 := h.upper
  have h3 := h.lower
  obtain ⟨q, hq⟩ : ∃ q, IsCeil a b q := ⟨_, isCeil_div a hb⟩
  suffices n = q by rw [this]; exact hq
  obtain ⟨q', rfl⟩ : ∃ q', q = q' + 1 := by
    refine ⟨q - 1, ?_⟩
    have := hq.1
    rcases q with _ | q
    · simp at this; omega
    · omega
  have hq1 : q' * b < a := by
    apply Nat.lt_of_not_le
    intro hle
    have := hq.2 _ hle
    omega
  refine isCeil_unique hn ⟨?_, fun n' hn' => ?_⟩
  · -- m ≤ (q'+1) * 2^k
    apply Nat.le_of_not_lt
    intro hlt
    have e1 : ((q' + 1) * 2 ^ k + 1) * b ≤ m * b := Nat.mul_le_mul_right _ hlt
    have e2 : a * 2 ^ k ≤ (q' + 1) * b * 2 ^ k := Nat.mul_le_mul_right _ hq.1
    have e3 : (q' + 1) * b * 2 ^ k = (q' + 1) * 2 ^ k * b := by ac_rfl
    rw [Nat.add_mul, Nat.one_mul] at e1
    omega
  · apply Nat.le_of_not_lt
    intro hlt
    have e1 : n' * 2 ^ k ≤ q' * 2 ^ k := Nat.mul_le_mul_right _ (by omega)
    have e2 : m * b ≤ q' * 2 ^ k * b := Nat.mul_le_mul_right _ (by omega)
    have e3 : (q' * b + 1) * 2 ^ k ≤ a * 2 ^ k := Nat.mul_le_mul_right _ hq1
    have e4 : q' * b * 2 ^ k = q' * 2 ^ k * b := by ac_rfl
    rw [Nat.add_mul, Nat.one_mul] at e3
    omega

/-- The floor of a nearest binary64 number is the exact floor. -/
theorem Nearest.floor {a b m k n : Nat} (h : Nearest a b m k) (hb : 0 < b) (ha' : a < 2 ^ 51)
    (hn : IsFloor m (2 ^ k) n) : IsFloor a b n := by
  have hk := h.shift ha'
  have h2 := h.upper
  have h3 := h.lower
  obtain ⟨q, hq⟩ : ∃ q, IsFloor a b q := ⟨_, isFloor_div a hb⟩
  suffices n = q by rw [this]; exact hq
  have hq1 : a < (q + 1) * b := by
    apply Nat.lt_of_not_le
    intro hle
    have := hq.2 _ hle
    omega
  refine isFloor_unique hn ⟨?_, fun n' hn' => ?_⟩
  · apply Nat.le_of_not_lt
    intro hlt
    have e1 : (m + 1) * b ≤ q * 2 ^ k * b := Nat.mul_le_mul_right _ hlt
    have e2 : q * b * 2 ^ k ≤ a * 2 ^ k := Nat.mul_le_mul_right _ hq.1
    have e3 : q * b * 2 ^ k = q * 2 ^ k * b := by ac_rfl
    rw [Nat.add_mul, Nat.one_mul] at e1
    omega
  · apply Nat.le_of_not_lt
    intro hlt
    have e1 : (q + 1) * 2 ^ k ≤ n' * 2 ^ k := Nat.mul_le_mul_right _ hlt
    have e2 : (q + 1) * 2 ^ k * b ≤ m * b := Nat.mul_le_mul_right _ (by omega)
    have e3 : (a + 1) * 2 ^ k ≤ (q + 1) * b * 2 ^ k := Nat.mul_le_mul_right _ hq1
    have e4 : (q + 1) * b * 2 ^ k = (q + 1) * 2 ^ k * b := by ac_rfl
    rw [Nat.add_mul a, Nat.one_mul] at e3
    omega

theorem dCeil_isCeil (x : Nat × Nat) : IsCeil x.1 (2 ^ x.2) (dCeil x) :=
  isCeil_div _ (Nat.pow_pos (by decide))

theorem dFloor_isFloor (x : Nat × Nat) : IsFloor x.1 (2 ^ x.2) (dFloor x) :=
  isFloor_div _ (Nat.pow_pos (by decide))

theorem dCeil_dDiv {a b : Nat} (hb : 0 < b) (ha : a < 2 ^ 51) : IsCeil a b (dCeil (dDiv a b)) := by
  by_cases h0 : a = 0
  · subst h0
    simp only [dDiv, if_true, dCeil]
    exact ⟨by simp, fun _ _ => by simp⟩
  · exact (dDiv_nearest (by omega) hb (by omega)).ceil (by omega) hb ha (dCeil_isCeil _)

theorem dFloor_dDiv {a b : Nat} (hb : 0 < b) (ha : a < 2 ^ 51) : dFloor (dDiv a b) = a / b := by
  by_cases h0 : a = 0
  · subst h0
    simp [dDiv, dFloor]
  · exact isFloor_unique ((dDiv_nearest (by omega) hb (by omega)).floor hb ha (dFloor_isFloor _)) (isFloor_div a hb)

/-! ### Adding one -/

theorem PlusOne.floor_ge {m k n j q : Nat} (h : PlusOne m k n j) (hq : q * 2 ^ k ≤ m) : (q + 1) * 2 ^ j ≤ n := by
  obtain ⟨t, rfl⟩ := Nat.exists_eq_add_of_le h.exp
  have hl := h.lower
  rw [Nat.add_sub_cancel_left] at hl
  apply Nat.le_of_not_lt
  intro hlt
  have e1 : (n + 1) * 2 ^ t ≤ (q + 1) * 2 ^ j * 2 ^ t := Nat.mul_le_mul_right _ hlt
  have e2 : (q + 1) * 2 ^ j * 2 ^ t = q * 2 ^ (j + t) + 2 ^ (j + t) := by
    rw [Nat.pow_add, Nat.add_mul, Nat.one_mul, Nat.add_mul, Nat.mul_assoc]
  have h0 : 0 < 2 ^ t := Nat.pow_pos (by decide)
  rw [Nat.add_mul, Nat.one_mul] at e1
  omega

theorem PlusOne.floor_lt {a b m k n j q : Nat} (h : PlusOne m k n j) (hn : Nearest a b m k) (hb : 0 < b) (ha : a < 2 ^ 50)
    (hb' : b < 2 ^ 50) (hq : a < (q + 1) * b) (hm : m < (q + 1) * 2 ^ k) : n < (q + 2) * 2 ^ j := by
  obtain ⟨t, rfl⟩ := Nat.exists_eq_add_of_le h.exp
  have hu := h.upper
  rw [Nat.add_sub_cancel_left] at hu
  apply Nat.lt_of_not_le
  intro hle
  have hs := hn.shift (by omega)
  have h2 := hn.upper
  have hj0 : 0 < 2 ^ j := Nat.pow_pos (by decide)
  have ht0 : 0 < 2 ^ t := Nat.pow_pos (by decide)
  rcases Nat.eq_zero_or_pos t with rfl | ht
  · have := h.exact rfl
    rw [Nat.add_zero] at this hm
    generalize 2 ^ j = J at *
    have e : (q + 2) * J = (q + 1) * J + J := Nat.succ_mul ..
    omega
  · have hno := h.normal (by omega)
    obtain ⟨K, hK⟩ : ∃ K, K = 2 ^ (j + t) := ⟨_, rfl⟩
    have hKe : 2 ^ j * 2 ^ t = K := by rw [hK, Nat.pow_add]
    obtain ⟨S, hS⟩ : ∃ S, S = 2 ^ t := ⟨_, rfl⟩
    rw [← hS] at hKe hu ht0
    rw [← hK] at hu hm hs h2
    -- the rounded sum is at least q + 2
    have e1 : (q + 2) * K ≤ n * S := by
      have := Nat.mul_le_mul_right S hle
      rwa [Nat.mul_assoc, hKe] at this
    have e2 : 2 * (q + 1) * K ≤ 2 * m + S := by
      have : (q + 2) * K = (q + 1) * K + K := Nat.succ_mul ..
      have : 2 * (q + 1) * K = 2 * ((q + 1) * K) := Nat.mul_assoc ..
      omega
    have e3 : 2 * (q + 1) * K * b ≤ 2 * (m * b) + S * b := by
      have := Nat.mul_le_mul_right b e2
      have e : (2 * m + S) * b = 2 * (m * b) + S * b := by rw [Nat.add_mul, Nat.mul_assoc]
      omega
    have e4 : 2 * ((a + 1) * K) ≤ 2 * (q + 1) * K * b := by
      have : (a + 1) * K ≤ (q + 1) * b * K := Nat.mul_le_mul_right K hq
      have e : 2 * (q + 1) * K * b = 2 * ((q + 1) * b * K) := by ac_rfl
      omega
    have e5 : 2 * K ≤ S * b + b := by
      have : (a + 1) * K = a * K + K := Nat.succ_mul ..
      omega
    -- but the sum is not so large
    have e6 : 2 * (2 ^ 52 * S) ≤ 2 * (m + K) + S := Nat.le_trans (Nat.mul_le_mul_left _ (Nat.mul_le_mul_right _ hno)) hu
    have e7 : 2 * (2 ^ 52 * S * b) ≤ 2 * (m * b) + 2 * (K * b) + S * b := by
      have := Nat.mul_le_mul_right b e6
      have e : (2 * (m + K) + S) * b = 2 * (m * b) + 2 * (K * b) + S * b := by
        rw [Nat.add_mul, Nat.mul_assoc, Nat.add_mul, Nat.mul_add]
      have e' : 2 * (2 ^ 52 * S) * b = 2 * (2 ^ 52 * S * b) := Nat.mul_assoc ..
      omega
    have e8 : a * K ≤ 2 ^ 50 * K := Nat.mul_le_mul_right _ (by omega)
    have e9 : K * b ≤ 2 ^ 50 * K := by rw [Nat.mul_comm K]; exact Nat.mul_le_mul_right _ (by omega)
    have e10 : b ≤ S * b := Nat.le_mul_of_pos_left _ ht0
    obtain ⟨X, hX⟩ : ∃ X, X = S * b := ⟨_, rfl⟩
    rw [Nat.mul_assoc, ← hX] at e7
    rw [← hX] at e5 e10
    omega

/-- The floor of the rounded sum is the floor of the quotient plus one. -/
theorem PlusOne.floor {a b m k n j : Nat} (h : PlusOne m k n j) (hn : Nearest a b m k) (hb : 0 < b) (ha : a < 2 ^ 50)
    (hb' : b < 2 ^ 50) : n / 2 ^ j = a / b + 1 := by
  have hf := hn.floor hb (by omega) (isFloor_div m (b := 2 ^ k) (Nat.pow_pos (by decide)))
  have hq := isFloor_unique hf (isFloor_div a hb)
  have hk0 : 0 < 2 ^ k := Nat.pow_pos (by decide)
  have h1 := h.floor_ge (q := a / b) (by rw [← hq]; exact Nat.div_mul_le_self _ _)
  have h2 := h.floor_lt hn hb ha hb' (q := a / b) (by rw [Nat.mul_comm]; exact Nat.lt_mul_div_succ a hb)
    (by rw [← hq, Nat.mul_comm]; exact Nat.lt_mul_div_succ m hk0)
  have hj0 : 0 < 2 ^ j := Nat.pow_pos (by decide)
  apply Nat.le_antisymm
  · apply Nat.le_of_lt_succ
    rw [Nat.div_lt_iff_lt_mul hj0]
    exact h2
  · rw [Nat.le_div_iff_mul_le hj0]; exact h1

theorem dAddOne_plusOne {x : Nat × Nat} (h : x.1 ≤ 2 ^ x.2 * 2 ^ 51) : PlusOne x.1 x.2 (dAddOne x).1 (dAddOne x).2 := by
  obtain ⟨m, k⟩ := x
  simp only at h
  have hk0 : 0 < 2 ^ k := Nat.pow_pos (by decide)
  unfold dAddOne
  simp only
  obtain ⟨n, hn⟩ : ∃ n, n = m + 2 ^ k := ⟨_, rfl⟩
  rw [← hn]
  have hn0 : n ≠ 0 := by omega
  have l1 := Nat.log2_self_le hn0
  have l2 : n < 2 ^ (Nat.log2 n + 1) := Nat.lt_log2_self
  obtain ⟨t, ht⟩ : ∃ t, t = Nat.log2 n - 52 := ⟨_, rfl⟩
  rw [← ht]
  have ht0 : 0 < 2 ^ t := Nat.pow_pos (by decide)
  have hlog : Nat.log2 n < k + 52 := by
    rw [Nat.log2_lt hn0]
    have : 2 ^ (k + 52) = 2 ^ k * 2 ^ 51 * 2 := by rw [Nat.pow_add, Nat.mul_assoc]
    have : 2 ^ k ≤ 2 ^ k * 2 ^ 51 := Nat.le_mul_of_pos_right _ (by decide)
    omega
  have htk : t ≤ k := by omega
  have hb : n ≤ 2 ^ 53 * 2 ^ t := by
    rw [← Nat.pow_add]
    exact Nat.le_of_lt (Nat.lt_of_lt_of_le l2 (Nat.pow_le_pow_right (by decide) (by omega)))
  obtain ⟨c1, c2⟩ := rne_close (x := n) ht0
  refine ⟨by omega, rne_le ht0 hb, fun hj => ?_, fun hj => ?_, ?_, ?_⟩
  · obtain rfl : t = 0 := by omega
    have : rne n (2 ^ 0) = n := by simp [rne, Nat.mod_one]
    rw [this, hn]
  · apply rne_ge ht0
    rw [← Nat.pow_add]
    exact Nat.le_trans (Nat.pow_le_pow_right (by decide) (by omega)) l1
  · rw [show k - (k - t) = t by omega, ← hn]; exact c1
  · rw [show k - (k - t) = t by omega, ← hn]; exact c2

theorem dFloor_dAddOne {a b : Nat} (hb : 0 < b) (ha : a < 2 ^ 50) (hb' : b < 2 ^ 50) : dFloor (dAddOne (dDiv a b)) = a / b + 1 := by
  by_cases h0 : a = 0
  · subst h0
    simp only [dDiv, if_true, Nat.zero_div]
    decide
  · have hn := dDiv_nearest (a := a) (b := b) (by omega) hb (by omega)
    have hle : (dDiv a b).1 ≤ 2 ^ (dDiv a b).2 * 2 ^ 51 := by
      have h2 := hn.upper
      have e1 : a * 2 ^ (dDiv a b).2 ≤ 2 ^ 50 * 2 ^ (dDiv a b).2 := Nat.mul_le_mul_right _ (by omega)
      have e2 : (dDiv a b).1 ≤ (dDiv a b).1 * b := Nat.le_mul_of_pos_right _ hb
      have e3 := hn.shift (by omega)
      omega
    exact (dAddOne_plusOne hle).floor hn hb ha hb'

end Aitisa
