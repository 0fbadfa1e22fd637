import Verif.Proof.IeeeNear
import Verif.Proof.IeeeLaws
import Verif.Spec.Matmul

/-!
# Fused multiply-add
-/

namespace Aitisa

variable {F : Fmt}

theorem add_sum (F : Fmt) (a b : Nat) : F.add a b = F.sum (F.decode a) (F.decode b) := by
  unfold Fmt.add Fmt.sum; rfl

theorem times_comm (x y : Datum) : x.times y = y.times x := by
  have e : ∀ s t : Bool, (s != t) = (t != s) := by decide
  cases x <;> cases y <;> simp [Datum.times, Nat.mul_comm, Int.add_comm, e]

theorem fma_swap (F : Fmt) (z a b : Nat) : F.fma z a b = F.fma z b a := by unfold Fmt.fma; rw [times_comm]

/-- `z + a * b` of finite numbers. -/
theorem fma_mag (h : F.OK) {s t u : Bool} {z a b : Nat} (hz : z < F.infBits) (ha : a < F.infBits) (hb : b < F.infBits) :
    F.fma (F.signed s z) (F.signed t a) (F.signed u b) =
      if sgn s (F.mag z * 2 ^ F.low) + sgn (t != u) (F.mag a * F.mag b) = 0 then F.signed (s && (t != u)) 0
      else F.signed (decide (sgn s (F.mag z * 2 ^ F.low) + sgn (t != u) (F.mag a * F.mag b) < 0))
        (F.rq (sgn s (F.mag z * 2 ^ F.low) + sgn (t != u) (F.mag a * F.mag b)).natAbs (2 ^ F.low)) := by
  obtain ⟨k, l, hk, hkz⟩ := decode_mag (s := s) h hz
  obtain ⟨m, i, hm, hma⟩ := decode_mag (s := t) h ha
  obtain ⟨n, j, hn, hnb⟩ := decode_mag (s := u) h hb
  rw [Fmt.fma, hk, hm, hn]
  simp only [Datum.times, Fmt.sum]
  have hem := h.emin
  obtain ⟨g, hg⟩ : ∃ g : Nat, min (F.emin + (l : Int)) (F.emin + (i : Int) + (F.emin + j)) = F.emin + F.emin + g ∧ g ≤ l + F.low ∧ g ≤ i + j :=
    ⟨min (l + F.low) (i + j), by omega, by omega, by omega⟩
  rw [hg.1, show (F.emin + (l : Int) - (F.emin + F.emin + g)).toNat = l + F.low - g by omega,
    show (F.emin + (i : Int) + (F.emin + j) - (F.emin + F.emin + g)).toNat = i + j - g by omega]
  have e : ∀ (s : Bool) {m i : Nat}, g ≤ i → sgn s (m * 2 ^ i) = sgn s (m * 2 ^ (i - g)) * 2 ^ g := by
    intro s m i hi
    have : m * 2 ^ i = m * 2 ^ (i - g) * 2 ^ g := by rw [Nat.mul_assoc, ← Nat.pow_add]; congr 2; omega
    rw [this, sgn_mul, pow_cast]
  have hpos : (0 : Int) < 2 ^ g := by rw [← pow_cast]; exact Int.natCast_pos.2 (Nat.two_pow_pos g)
  have e1 : F.mag z * 2 ^ F.low = k * 2 ^ (l + F.low) := by rw [← hkz, Nat.mul_assoc, ← Nat.pow_add]
  have e2 : F.mag a * F.mag b = m * n * 2 ^ (i + j) := by rw [← hma, ← hnb, Nat.pow_add]; simp [Nat.mul_comm, Nat.mul_left_comm, Nat.mul_assoc]
  have hv : sgn s (F.mag z * 2 ^ F.low) + sgn (t != u) (F.mag a * F.mag b) =
      (sgn s (k * 2 ^ (l + F.low - g)) + sgn (t != u) (m * n * 2 ^ (i + j - g))) * 2 ^ g := by
    rw [e1, e2, e s hg.2.1, e _ hg.2.2, Int.add_mul]
  rw [hv]
  generalize sgn s (k * 2 ^ (l + F.low - g)) + sgn (t != u) (m * n * 2 ^ (i + j - g)) = v
  by_cases hz : v = 0
  · subst hz; simp
  · rw [if_neg hz, if_neg (fun h => by rcases Int.mul_eq_zero.1 h with h | h <;> omega),
      round_any h (x := g) (y := F.low) (he := by rw [hem]; omega)]
    have hlt : (v * 2 ^ g < 0) ↔ v < 0 := ⟨fun h => by
      apply Classical.byContradiction
      intro hc
      have := Int.mul_nonneg (Int.not_lt.1 hc) (Int.le_of_lt hpos)
      omega, fun h => Int.mul_neg_of_neg_of_pos h hpos⟩
    rw [decide_eq_decide.2 hlt, Int.natAbs_mul, ← pow_cast, Int.natAbs_natCast]

theorem fma_lt (h : F.OK) (z a b : Nat) : F.fma z a b < 2 * F.signBit := by
  have h1 := inf_lt_sign h
  have h2 := nan_lt h
  unfold Fmt.fma
  generalize F.decode z = x
  generalize (F.decode a).times (F.decode b) = y
  cases x <;> cases y <;> simp only [Fmt.sum] <;> first
    | exact h2
    | exact signed_lt h1
    | (split
       · exact signed_lt h1
       · exact h2)
    | (split
       · exact signed_lt (by omega)
       · exact round_lt h ..)

theorem fma_rounded (h : F.OK) {z a b : Nat} (hz : z < 2 * F.signBit) (ha : a < 2 * F.signBit) (hb : b < 2 * F.signBit) {w x y : Rat}
    (hw : F.rat z = some w) (hx : F.rat a = some x) (hy : F.rat b = some y) : F.Rounded (w + x * y) (F.fma z a b) := by
  obtain ⟨s, k, hk, rfl, rfl⟩ := rat_some h hz hw
  obtain ⟨t, m, hm, rfl, rfl⟩ := rat_some h ha hx
  obtain ⟨u, n, hn, rfl, rfl⟩ := rat_some h hb hy
  have hU := low_pos F
  have e : (sgn s (F.mag k) : Rat) / (2 ^ F.low : Nat) + (sgn t (F.mag m) : Rat) / (2 ^ F.low : Nat) * ((sgn u (F.mag n) : Rat) / (2 ^ F.low : Nat)) =
      ((sgn s (F.mag k * 2 ^ F.low) + sgn (t != u) (F.mag m * F.mag n) : Int) : Rat) / (2 ^ F.low * 2 ^ F.low : Nat) := by
    rw [sgn_mul, sgn_prod, Rat.intCast_add, Rat.intCast_mul, Rat.intCast_mul, Rat.natCast_mul, Rat.div_def, Rat.div_def, Rat.div_def, Rat.div_def,
      Rat.inv_mul_rev, Rat.intCast_natCast]
    have hc := Rat.mul_inv_cancel ((2 ^ F.low : Nat) : Rat) (by grind)
    generalize ((2 ^ F.low : Nat) : Rat)⁻¹ = i at *
    generalize ((2 ^ F.low : Nat) : Rat) = d at *
    grind
  rw [e, fma_mag h hk hm hn]
  generalize sgn s (F.mag k * 2 ^ F.low) + sgn (t != u) (F.mag m * F.mag n) = v
  split
  · next h0 =>
    subst h0
    have := rounded_of h (s := s && (t != u)) (N := 0) (D := 2 ^ F.low) (Nat.two_pow_pos _) rfl
    rw [rq_zero h (Nat.two_pow_pos _)] at this
    rwa [show sgn (s && (t != u)) 0 = 0 by simp [sgn]] at this
  · exact rounded_of h (Nat.two_pow_pos _) (by rw [sgn_natAbs])

/-- A sum is a number only if the first operand is. -/
theorem fma_some (h : F.OK) {z a b : Nat} {q : Rat} (hq : F.rat (F.fma z a b) = some q) (hn : F.rat F.nanBits = none)
    (hi : ∀ s, F.rat (F.signed s F.infBits) = none) : ∃ x, F.rat z = some x := by
  unfold Fmt.fma at hq
  unfold Fmt.rat
  generalize (F.decode a).times (F.decode b) = y at hq
  cases ha : F.decode z <;> cases y <;> simp only [ha, Fmt.sum] at hq <;> first
    | exact ⟨_, rfl⟩
    | (rw [hn] at hq; cases hq; done)
    | (rw [hi] at hq; cases hq; done)
    | (split at hq
       · rw [hi] at hq; cases hq
       · rw [hn] at hq; cases hq)

/-- If the product is a number of the format, rounding it makes no difference. -/
theorem fma_exact (h : F.OK) {z a b : Nat} (hz : z < 2 * F.signBit) (ha : a < 2 * F.signBit) (hb : b < 2 * F.signBit) {x y : Rat}
    (hx : F.rat a = some x) (hy : F.rat b = some y) (hm : F.rat (F.mul a b) = some (x * y)) : F.fma z a b = F.add z (F.mul a b) := by
  obtain ⟨t, m, hm', rfl, rfl⟩ := rat_some h ha hx
  obtain ⟨u, n, hn', rfl, rfl⟩ := rat_some h hb hy
  have hU := low_pos F
  have hr := mul_mag (s := t) (t := u) h hm' hn'
  by_cases hf : ∃ w, F.rat z = some w
  · obtain ⟨w, hw⟩ := hf
    obtain ⟨s, k, hk, rfl, rfl⟩ := rat_some h hz hw
    have hlt : F.rq (F.mag m * F.mag n) (2 ^ F.low) < F.infBits := by
      rcases Nat.lt_or_ge (F.rq (F.mag m * F.mag n) (2 ^ F.low)) F.infBits with hlt | hge
      · exact hlt
      · have he : F.rq (F.mag m * F.mag n) (2 ^ F.low) = F.infBits := Nat.le_antisymm (rq_le_inf ..) hge
        rw [hr, he] at hm
        unfold Fmt.rat at hm
        rw [decode_inf h] at hm
        cases hm
    rw [hr, rat_signed h hlt] at hm
    rw [hr]
    rw [fma_mag h hk hm' hn', add_mag h hk hlt]
    generalize F.rq (F.mag m * F.mag n) (2 ^ F.low) = r at *
    have key : F.mag r * 2 ^ F.low = F.mag m * F.mag n := by
      injection hm with hm
      have e : ((sgn (t != u) (F.mag r * 2 ^ F.low) : Int) : Rat) = ((sgn (t != u) (F.mag m * F.mag n) : Int) : Rat) := by
        rw [sgn_mul _ (F.mag r), sgn_prod _ _ (F.mag m), Rat.intCast_mul, Rat.intCast_mul, Rat.intCast_natCast]
        rw [Rat.div_def, Rat.div_def, Rat.div_def] at hm
        have hc := Rat.mul_inv_cancel ((2 ^ F.low : Nat) : Rat) (by grind)
        generalize ((2 ^ F.low : Nat) : Rat)⁻¹ = i at *
        generalize ((2 ^ F.low : Nat) : Rat) = d at *
        generalize ((sgn (t != u) (F.mag r) : Int) : Rat) = p at *
        generalize ((sgn t (F.mag m) : Int) : Rat) = q at *
        generalize ((sgn u (F.mag n) : Int) : Rat) = o at *
        have e1 : p * d = (p * i) * d * d := by grind
        rw [e1, hm]
        grind
      have := congrArg Int.natAbs (Rat.intCast_inj.1 e)
      rwa [natAbs_sgn, natAbs_sgn] at this
    rw [← key]
    have e : sgn s (F.mag k * 2 ^ F.low) + sgn (t != u) (F.mag r * 2 ^ F.low) = (sgn s (F.mag k) + sgn (t != u) (F.mag r)) * (2 ^ F.low : Nat) := by
      rw [sgn_mul, sgn_mul, Int.add_mul]
    rw [e]
    generalize sgn s (F.mag k) + sgn (t != u) (F.mag r) = v
    have hpos : (0 : Int) < (2 ^ F.low : Nat) := Int.natCast_pos.2 (Nat.two_pow_pos _)
    by_cases hv : v = 0
    · subst hv; simp
    · rw [if_neg hv, if_neg (fun h => by rcases Int.mul_eq_zero.1 h with h | h <;> omega)]
      have hlt : (v * (2 ^ F.low : Nat) < 0) ↔ v < 0 := ⟨fun h => by
        apply Classical.byContradiction
        intro hc
        have := Int.mul_nonneg (Int.not_lt.1 hc) (Int.le_of_lt hpos)
        omega, fun h => Int.mul_neg_of_neg_of_pos h hpos⟩
      rw [decide_eq_decide.2 hlt, Int.natAbs_mul, Int.natAbs_natCast]
      congr 1
      exact rq_congr h (Nat.two_pow_pos _) (by omega) (by rw [Nat.mul_one])
  · have : F.decode z = .nan ∨ ∃ s, F.decode z = .inf s := by
      unfold Fmt.rat at hf
      cases hd : F.decode z with
      | nan => exact .inl rfl
      | inf s => exact .inr ⟨s, rfl⟩
      | fin s m e => exact absurd ⟨_, by rw [hd]⟩ hf
    have h1 : ∃ s k e, F.decode (F.mul (F.signed t m) (F.signed u n)) = .fin s k e := by
      unfold Fmt.rat at hm
      cases hd : F.decode (F.mul (F.signed t m) (F.signed u n)) with
      | nan => rw [hd] at hm; cases hm
      | inf s => rw [hd] at hm; cases hm
      | fin s m e => exact ⟨_, _, _, rfl⟩
    obtain ⟨s1, m1, e1, h1⟩ := h1
    obtain ⟨m2, i, h2, -⟩ := decode_mag (s := t) h hm'
    obtain ⟨m3, j, h3, -⟩ := decode_mag (s := u) h hn'
    rw [add_sum, h1, Fmt.fma, h2, h3]
    rcases this with hd | ⟨s, hd⟩ <;> rw [hd] <;> rfl

/-! ## Machines -/

theorem ieee_machine : Machine ieee := ⟨rfl, fun _ _ _ => .inl rfl, fun _ _ _ => .inl rfl⟩

theorem fused_machine : Machine fused := ⟨rfl, fun _ _ _ => .inr rfl, fun _ _ _ => .inr rfl⟩

theorem ieee_swap : FactorsSwap ieee := fun z a b => by
  show BitVec.ofNat 32 (b32.add _ (BitVec.ofNat 32 (b32.mul a.toNat b.toNat)).toNat) = BitVec.ofNat 32 (b32.add _ (BitVec.ofNat 32 (b32.mul b.toNat a.toNat)).toNat)
  rw [Aitisa.mul_comm]

theorem fused_swap : FactorsSwap fused := fun z a b => by
  show BitVec.ofNat 32 (b32.fma z.toNat a.toNat b.toNat) = BitVec.ofNat 32 (b32.fma z.toNat b.toNat a.toNat)
  rw [fma_swap]

end Aitisa
