import Verif.Spec.Share
import Verif.Proof.NormVal
import Verif.Proof.ErrorAvg
import Verif.Props.Range

/-!
# Shares and other ratios of positive numbers
-/

namespace Aitisa

variable {F : Fmt} {c : Code}

/-! ## Sums of two numbers of the format are never off by a tiny amount only -/

theorem grid_close (h : F.OK) {v : Int} {b : Nat} {q : Rat} (hb : b < 2 * F.signBit) (hr : F.Rounded ((v : Rat) / (2 ^ F.low : Nat)) b)
    (hq : F.rat b = some q) : (q - (v : Rat) / (2 ^ F.low : Nat)).abs ≤ 1 / 2 ^ F.p * ((v : Rat) / (2 ^ F.low : Nat)).abs := by
  have he := hr.error h (hr.inside h hq) hq
  obtain ⟨s, n, hn, rfl, rfl⟩ := rat_some h hb hq
  have hU := low_pos F
  have e1 : (2 : Rat) ^ F.emin = 1 / ((2 ^ F.low : Nat) : Rat) := by
    rw [h.emin, Rat.zpow_neg, Rat.zpow_natCast, Rat.natCast_pow, Rat.div_def, Rat.one_mul]; rfl
  have e2 : (v : Rat) / (2 ^ F.low : Nat) - (sgn s (F.mag n) : Rat) / (2 ^ F.low : Nat) = ((v - sgn s (F.mag n) : Int) : Rat) / (2 ^ F.low : Nat) := by
    rw [Rat.intCast_sub, Rat.div_def, Rat.div_def, Rat.div_def]; grind
  have hs : ∀ a b : Rat, (a - b).abs = (b - a).abs := fun a b => by grind [Rat.abs]
  rcases he with h1 | h1
  · rw [hs]
    generalize ((v : Rat) / (2 ^ F.low : Nat) - (sgn s (F.mag n) : Rat) / (2 ^ F.low : Nat)).abs = d at *
    generalize ((v : Rat) / (2 ^ F.low : Nat)).abs = a at *
    have hp := two_pow_pos_rat F.p
    have h2 := Rat.mul_le_mul_of_nonneg_left h1 (grow_unit F)
    rw [← Rat.mul_assoc, Rat.div_mul_cancel (by grind), Rat.one_mul] at h2
    exact h2
  · rw [e1, e2, abs_div_int _ hU] at h1
    have h2 : (2 : Rat) * ((v - sgn s (F.mag n)).natAbs : Nat) ≤ 1 := by
      have := Rat.mul_le_mul_of_nonneg_right h1 (Rat.le_of_lt hU)
      rw [Rat.mul_assoc, Rat.div_mul_cancel (by grind), Rat.div_mul_cancel (by grind)] at this
      exact this
    have h3 : 2 * (v - sgn s (F.mag n)).natAbs ≤ 1 := by
      have : ((2 * (v - sgn s (F.mag n)).natAbs : Nat) : Rat) ≤ ((1 : Nat) : Rat) := by rw [Rat.natCast_mul]; exact h2
      exact Rat.natCast_le_natCast.1 this
    have h4 : v = sgn s (F.mag n) := by omega
    rw [← h4]
    have h5 : (0 : Rat) ≤ ((v : Rat) / (2 ^ F.low : Nat)).abs := by grind [Rat.abs]
    have h6 := Rat.mul_nonneg (grow_unit F) h5
    generalize (v : Rat) / (2 ^ F.low : Nat) = a at *
    rw [show (a - a).abs = 0 by grind [Rat.abs]]
    exact h6

theorem add_close (h : F.OK) {a b : Nat} (ha : a < 2 * F.signBit) (hb : b < 2 * F.signBit) {x y q : Rat} (hx : F.rat a = some x)
    (hy : F.rat b = some y) (hq : F.rat (F.add a b) = some q) : (q - (x + y)).abs ≤ 1 / 2 ^ F.p * (x + y).abs := by
  have hr := add_rounded h ha hb hx hy
  obtain ⟨s, m, hm, rfl, rfl⟩ := rat_some h ha hx
  obtain ⟨t, n, hn, rfl, rfl⟩ := rat_some h hb hy
  have e : (sgn s (F.mag m) : Rat) / (2 ^ F.low : Nat) + (sgn t (F.mag n) : Rat) / (2 ^ F.low : Nat) =
      ((sgn s (F.mag m) + sgn t (F.mag n) : Int) : Rat) / (2 ^ F.low : Nat) := by
    rw [Rat.intCast_add, Rat.div_def, Rat.div_def, Rat.div_def]; grind
  rw [e] at hr ⊢
  exact grid_close h (add_lt h _ _) hr hq

theorem sub_close (h : F.OK) {a b : Nat} (ha : a < 2 * F.signBit) (hb : b < 2 * F.signBit) {x y q : Rat} (hx : F.rat a = some x)
    (hy : F.rat b = some y) (hq : F.rat (F.sub a b) = some q) : (q - (x - y)).abs ≤ 1 / 2 ^ F.p * (x - y).abs := by
  have hr := sub_rounded h ha hb hx hy
  obtain ⟨s, m, hm, rfl, rfl⟩ := rat_some h ha hx
  obtain ⟨t, n, hn, rfl, rfl⟩ := rat_some h hb hy
  have e : (sgn s (F.mag m) : Rat) / (2 ^ F.low : Nat) - (sgn t (F.mag n) : Rat) / (2 ^ F.low : Nat) =
      ((sgn s (F.mag m) - sgn t (F.mag n) : Int) : Rat) / (2 ^ F.low : Nat) := by
    rw [Rat.intCast_sub, Rat.div_def, Rat.div_def, Rat.div_def]; grind
  rw [e] at hr ⊢
  exact grid_close h (sub_lt h _ _) hr hq

/-! ## Sums of many numbers -/

theorem sum_nonneg : ∀ {l : List Rat}, (∀ e ∈ l, 0 ≤ e) → 0 ≤ l.sum
  | [], _ => by simp
  | a :: l, h => by
    have h1 := h a (by simp)
    have h2 := sum_nonneg (l := l) fun e he => h e (by simp [he])
    rw [List.sum_cons]; grind

theorem le_sum : ∀ {l : List Rat}, (∀ e ∈ l, 0 ≤ e) → ∀ e ∈ l, e ≤ l.sum
  | a :: l, h, e, he => by
    have h1 := h a (by simp)
    have h3 : ∀ e ∈ l, 0 ≤ e := fun e he => h e (by simp [he])
    have h2 := sum_nonneg h3
    rw [List.sum_cons]
    rcases List.mem_cons.1 he with rfl | h4
    · grind
    · have := le_sum h3 e h4; grind

theorem rel_one {u g v x v' S : Rat} (hg : g = 1 + u) (hu : 0 ≤ u) (hu1 : u ≤ 1) (hv : 0 ≤ v) (hx : 0 ≤ x) (hS : 0 ≤ S)
    (hr : (v' - (v + x)).abs ≤ u * (v + x).abs) : 0 ≤ v' ∧ v' + S ≤ g * (v + (x + S)) := by
  have ha : (v + x).abs = v + x := by grind [Rat.abs]
  rw [ha] at hr
  have hux := Rat.mul_nonneg hu hS
  have h2 := Rat.mul_le_mul_of_nonneg_right hu1 (show 0 ≤ v + x by grind)
  have e : g * (v + (x + S)) = v + x + S + u * (v + x) + u * S := by subst hg; grind
  rw [e]
  generalize u * (v + x) = w at *
  generalize u * S = w' at *
  clear e
  constructor <;> grind [Rat.abs]

/-- One more number. -/
theorem rel_step {u g d P Q v x v' S t : Rat} (hg : g = 1 + u) (hd : d = 1 - u) (hu : 0 ≤ u) (hu1 : u ≤ 1) (hP : 0 ≤ P) (hQ : 0 ≤ Q) (hv : 0 ≤ v) (hx : 0 ≤ x) (hS : 0 ≤ S)
    (hr : (v' - (v + x)).abs ≤ u * (v + x).abs) (h1 : Q * (v' + S) ≤ t) (h2 : t ≤ P * (v' + S)) :
    Q * d * (v + (x + S)) ≤ t ∧ t ≤ P * g * (v + (x + S)) := by
  have ha : (v + x).abs = v + x := by grind [Rat.abs]
  rw [ha] at hr
  have hux := Rat.mul_nonneg hu hS
  have k1 : d * (v + (x + S)) ≤ v' + S := by
    have : v + x - v' ≤ u * (v + x) := by grind [Rat.abs]
    subst hd; grind
  have k2 : v' + S ≤ g * (v + (x + S)) := by
    have : v' - (v + x) ≤ u * (v + x) := by grind [Rat.abs]
    subst hg; grind
  have m1 := Rat.mul_le_mul_of_nonneg_left k1 hQ
  have m2 := Rat.mul_le_mul_of_nonneg_left k2 hP
  rw [← Rat.mul_assoc] at m1 m2
  exact ⟨Rat.le_trans m1 h1, Rat.le_trans h2 m2⟩

theorem unit_le_one (F : Fmt) : (1 : Rat) / 2 ^ F.p ≤ 1 := by
  have h1 := one_le_pow (show (1 : Rat) ≤ 2 by decide) F.p
  have h2 := Rat.mul_le_mul_of_nonneg_right h1 (grow_unit F)
  rw [Rat.mul_comm (2 ^ F.p), Rat.div_mul_cancel (by grind), Rat.one_mul] at h2
  exact h2

theorem pow_nonneg {d : Rat} (hd : 0 ≤ d) (n : Nat) : 0 ≤ d ^ n := by
  induction n with
  | zero => rw [Rat.pow_zero]; decide
  | succ n ih => rw [Rat.pow_succ]; exact Rat.mul_nonneg ih hd

/-- A rounded sum of numbers that are not negative has a relative error only. -/
theorem sums_rel (h : F.OK) : ∀ {l : List (Nat × Rat)} {z : Nat} {v : Rat}, (∀ p ∈ l, p.1 < 2 * F.signBit ∧ F.rat p.1 = some p.2 ∧ 0 ≤ p.2) →
    z < 2 * F.signBit → F.rat z = some v → 0 ≤ v → F.grow ^ l.length * (v + (l.map Prod.snd).sum) < F.limit →
    ∃ t, F.rat ((l.map Prod.fst).foldl F.add z) = some t ∧ (1 - 1 / 2 ^ F.p) ^ l.length * (v + (l.map Prod.snd).sum) ≤ t ∧
      t ≤ F.grow ^ l.length * (v + (l.map Prod.snd).sum)
  | [], z, v, _, _, hz, _, _ => ⟨v, hz, by simp [Rat.pow_zero, Rat.add_zero], by simp [Rat.pow_zero, Rat.add_zero]⟩
  | p :: l, z, v, hl, hzl, hz, hv, hlim => by
    obtain ⟨p1, p2, p3⟩ := hl p (by simp)
    have hl' : ∀ p ∈ l, p.1 < 2 * F.signBit ∧ F.rat p.1 = some p.2 ∧ 0 ≤ p.2 := fun q hq => hl q (by simp [hq])
    have hS : 0 ≤ (l.map Prod.snd).sum := sum_nonneg fun e he => by
      obtain ⟨q, hq, rfl⟩ := List.mem_map.1 he
      exact (hl' q hq).2.2
    simp only [List.map_cons, List.sum_cons, List.length_cons, List.foldl_cons] at hlim ⊢
    have hu := grow_unit F
    have hu1 := unit_le_one F
    have hP := one_le_pow (one_le_grow F) l.length
    have hQ := pow_nonneg (show 0 ≤ 1 - 1 / 2 ^ F.p by grind) l.length
    have hg : F.grow = 1 + 1 / 2 ^ F.p := rfl
    have hin : (v + p.2).abs < F.limit := by
      have h1 := one_le_pow (one_le_grow F) (l.length + 1)
      have h2 := Rat.mul_le_mul_of_nonneg_right h1 (show 0 ≤ v + (p.2 + (l.map Prod.snd).sum) by grind)
      rw [Rat.one_mul] at h2
      generalize F.grow ^ (l.length + 1) * (v + (p.2 + (l.map Prod.snd).sum)) = w at *
      generalize (l.map Prod.snd).sum = S at *
      grind [Rat.abs]
    obtain ⟨v', hv', -⟩ := (add_rounded h hzl p1 hz p2).1 hin
    have hr := add_close h hzl p1 hz p2 hv'
    generalize hS' : (l.map Prod.snd).sum = S at *
    obtain ⟨hv0, hup⟩ := rel_one hg hu hu1 hv p3 hS hr
    have hlim' : F.grow ^ l.length * (v' + S) < F.limit := by
      have h4 := Rat.mul_le_mul_of_nonneg_left hup (show 0 ≤ F.grow ^ l.length by grind)
      rw [← Rat.mul_assoc, ← Rat.pow_succ] at h4
      exact lt_of_le_lt h4 hlim
    obtain ⟨t, ht, t1, t2⟩ := sums_rel h hl' (add_lt h _ _) hv' hv0 (by rw [hS']; exact hlim')
    rw [hS'] at t1 t2
    refine ⟨t, ht, ?_⟩
    rw [Rat.pow_succ, Rat.pow_succ]
    exact rel_step hg rfl hu hu1 (by grind) hQ hv p3 hS hr t1 t2

/-- Bernoulli's inequality. -/
theorem one_sub_pow {u : Rat} (hu : 0 ≤ u) (hu1 : u ≤ 1) (n : Nat) : 1 - n * u ≤ (1 - u) ^ n := by
  induction n with
  | zero => rw [Rat.pow_zero]; simp; grind
  | succ n ih =>
    have e : ((n + 1 : Nat) : Rat) = n + 1 := by simp
    rw [e, Rat.pow_succ]
    have h1 := Rat.mul_le_mul_of_nonneg_right ih (show 0 ≤ 1 - u by grind)
    have hn : (0 : Rat) ≤ n := by exact_mod_cast Nat.zero_le n
    have h2 := Rat.mul_nonneg hn (Rat.mul_nonneg hu hu)
    generalize (1 - u) ^ n = P at *
    generalize (n : Rat) = k at *
    grind

theorem rel_total {u S t : Rat} {n : Nat} (hu : 0 ≤ u) (hn : 8 * (n * u) ≤ 1) (hu1 : u ≤ 1) (hS : 0 ≤ S) (h1 : (1 - u) ^ n * S ≤ t) (h2 : t ≤ (1 + u) ^ n * S) :
    (t - S).abs ≤ 2 * (n * u) * S := by
  have hn0 : (0 : Rat) ≤ n := by exact_mod_cast Nat.zero_le n
  have hx := Rat.mul_nonneg hn0 hu
  have k1 := Rat.mul_le_mul_of_nonneg_right (one_sub_pow hu hu1 n) hS
  have k2 := Rat.mul_le_mul_of_nonneg_right (pow_le_twice hu n (by grind)) hS
  have k3 := Rat.mul_nonneg hx hS
  generalize (1 - u) ^ n * S = a at *
  generalize (1 + u) ^ n * S = b at *
  generalize (n : Rat) * u = x at *
  have e1 : (1 - x) * S = S - x * S := by grind
  have e2 : (1 + 2 * x) * S = S + 2 * (x * S) := by grind
  have e3 : 2 * x * S = 2 * (x * S) := by grind
  rw [e1] at k1
  rw [e2] at k2
  rw [e3]
  generalize x * S = y at *
  clear hx hn hn0 e1 e2 e3
  grind [Rat.abs]

/-! ## Ratios -/

/-- The ratio of two numbers that are off. -/
theorem ratio_off {a a' S t δ δ' : Rat} (hS : 0 < S) (hδ : 4 * δ ≤ 1) (h0 : 0 ≤ δ) (h0' : 0 ≤ δ') (ht : (t - S).abs ≤ δ * S) (ha : (a' - a).abs ≤ δ' * a.abs) :
    0 < t ∧ 3 * (a' / t - a / S).abs ≤ 4 * ((δ + δ') * (a.abs / S)) := by
  have hd := Rat.mul_le_mul_of_nonneg_right hδ (Rat.le_of_lt hS)
  have e0 : 4 * δ * S = 4 * (δ * S) := by grind
  rw [e0, Rat.one_mul] at hd
  have ht3 : 3 * S ≤ 4 * t := by generalize δ * S = w at *; grind [Rat.abs]
  have ht0 : 0 < t := by grind
  have hti := Rat.inv_pos.2 ht0
  have hSi := Rat.inv_pos.2 hS
  have e1 : S * S⁻¹ = 1 := Rat.mul_inv_cancel _ (by grind)
  have e2 : t * t⁻¹ = 1 := Rat.mul_inv_cancel _ (by grind)
  refine ⟨ht0, ?_⟩
  rw [Rat.div_def, Rat.div_def, Rat.div_def]
  generalize t⁻¹ = i at *
  generalize S⁻¹ = j at *
  have hA : 0 ≤ a.abs := by grind [Rat.abs]
  have e3 : a' * i - a * j = ((a' - a) * S + a * (S - t)) * (i * j) := by
    have f1 : (a' - a) * S * (i * j) = (a' - a) * i * (S * j) := by grind
    have f2 : a * (S - t) * (i * j) = a * i * (S * j) - a * j * (t * i) := by grind
    rw [Rat.add_mul, f1, f2, e1, e2]
    grind
  have hij := Rat.mul_pos hti hSi
  have e4 : ((a' - a) * S + a * (S - t)).abs ≤ (δ + δ') * a.abs * S := by
    have g1 : ((a' - a) * S).abs ≤ δ' * a.abs * S := by
      rw [abs_mul_right _ (Rat.le_of_lt hS)]
      exact Rat.mul_le_mul_of_nonneg_right ha (Rat.le_of_lt hS)
    have g2 : (a * (S - t)).abs ≤ a.abs * (δ * S) := by
      rw [abs_mul_rat]
      refine Rat.mul_le_mul_of_nonneg_left ?_ hA
      rw [show (S - t).abs = (t - S).abs by grind [Rat.abs]]
      exact ht
    have g3 : (δ + δ') * a.abs * S = δ' * a.abs * S + a.abs * (δ * S) := by grind
    rw [g3]
    generalize (a' - a) * S = x at *
    generalize a * (S - t) = y at *
    generalize δ' * a.abs * S = z at *
    generalize a.abs * (δ * S) = w at *
    clear e3 e0 hd ha ht g3
    grind [Rat.abs]
  rw [e3, abs_mul_right _ (Rat.le_of_lt hij)]
  have e5 := Rat.mul_le_mul_of_nonneg_right e4 (Rat.le_of_lt hij)
  have e6 : (δ + δ') * a.abs * S * (i * j) = (δ + δ') * a.abs * i := by
    have : (δ + δ') * a.abs * S * (i * j) = (δ + δ') * a.abs * i * (S * j) := by grind
    rw [this, e1, Rat.mul_one]
  rw [e6] at e5
  have e7 : 3 * i ≤ 4 * j := by
    have := Rat.mul_le_mul_of_nonneg_right ht3 (Rat.le_of_lt hij)
    have f1 : 3 * S * (i * j) = 3 * i * (S * j) := by grind
    have f2 : 4 * t * (i * j) = 4 * j * (t * i) := by grind
    rw [f1, f2, e1, e2, Rat.mul_one, Rat.mul_one] at this
    exact this
  have hw : 0 ≤ (δ + δ') * a.abs := Rat.mul_nonneg (by grind) hA
  have e8 := Rat.mul_le_mul_of_nonneg_left e7 hw
  have e9 : (δ + δ') * a.abs * (3 * i) = 3 * ((δ + δ') * a.abs * i) := by grind
  have e10 : (δ + δ') * a.abs * (4 * j) = 4 * ((δ + δ') * (a.abs * j)) := by grind
  rw [e9, e10] at e8
  generalize ((a' - a) * S + a * (S - t)).abs * (i * j) = x at *
  generalize (δ + δ') * a.abs * i = y at *
  generalize (δ + δ') * (a.abs * j) = z at *
  clear e9 e10 e6 e4 e3
  grind

theorem limits : (3 / 2 : Rat) * 2 ^ 1023 ≤ b64.limit ∧ (16 : Rat) < b64.limit ∧ (16 : Rat) < b32.limit := by decide +kernel

theorem small_halves : (2 : Rat) ^ b64.emin / 2 ≤ 1 ∧ (2 : Rat) ^ b32.emin / 2 ≤ 1 ∧ 0 ≤ (2 : Rat) ^ b64.emin / 2 ∧ 0 ≤ (2 : Rat) ^ b32.emin / 2 := by decide +kernel

/-- A ratio that is computed in `double`, the operands being off, and then stored. -/
theorem ratio_near (hc : c = .f32 ∨ c = .f64) {x d : BitVec 64} {w : Val} {a' t s k : Rat} (hx : b64.rat x.toNat = some a') (hd : b64.rat d.toNat = some t) (ht : 0 < t)
    (hs : s.abs ≤ 1) (hk0 : 0 ≤ k) (hk : k ≤ 2 ^ 53) (h1 : (a' / t - s).abs ≤ k / 2 ^ 53 * s.abs) (hw : Converts ieee c (.f64 (ieee.div64 x d)) w) :
    NearRatio c (k + 2) w s := by
  obtain ⟨l1, l2, l3⟩ := limits
  obtain ⟨m1, m2, m3, m4⟩ := small_halves
  have hr := div_rounded b64_ok (bits64 x) (bits64 d) hx hd (by grind)
  have hs0 : 0 ≤ s.abs := by grind [Rat.abs]
  have hku : k / 2 ^ 53 ≤ 1 := by
    have : k * (1 / 2 ^ 53) ≤ 2 ^ 53 * (1 / 2 ^ 53) := Rat.mul_le_mul_of_nonneg_right hk (by decide +kernel)
    rw [show (2 : Rat) ^ 53 * (1 / 2 ^ 53) = 1 by decide +kernel] at this
    rw [Rat.div_def] at this ⊢
    rwa [Rat.one_mul] at this
  have hks := Rat.mul_le_mul_of_nonneg_right hku hs0
  rw [Rat.one_mul] at hks
  have hin : (a' / t).abs ≤ 2 := by
    generalize k / 2 ^ 53 * s.abs = y at *
    generalize a' / t = z at *
    grind [Rat.abs]
  obtain ⟨r, hrr, -⟩ := hr.1 (by generalize (a' / t).abs = y at *; grind)
  have hcl := hr.close b64_ok hrr
  have hg : b64.grow = 1 + 1 / 2 ^ 53 := rfl
  have hu : (0 : Rat) ≤ 1 / 2 ^ 53 := by decide +kernel
  have h2 := off_step hg hu h1 (Rat.le_refl (a := s.abs)) hcl
  have h3 : (r - s).abs ≤ (k + 2) / 2 ^ 53 * s.abs + 2 ^ b64.emin / 2 := by
    refine Rat.le_trans h2 ?_
    rw [hg]
    have e1 : (k + 2) / 2 ^ 53 = k / 2 ^ 53 + 2 * (1 / 2 ^ 53) := by rw [Rat.div_def, Rat.div_def, Rat.div_def]; grind
    rw [e1]
    generalize (2 : Rat) ^ b64.emin / 2 = H at *
    have e2 := Rat.mul_le_mul_of_nonneg_left hks hu
    generalize k / 2 ^ 53 = y at *
    generalize (1 : Rat) / 2 ^ 53 = u at *
    clear h1 hin h2 hcl
    generalize s.abs = S at *
    grind
  have hb : (ieee.div64 x d).toNat = b64.div x.toNat d.toNat := of64 (div_lt b64_ok _ _)
  rw [← hb] at hrr
  have hr2 : r.abs ≤ 3 := by
    have hu2 : (1 : Rat) / 2 ^ 53 ≤ 1 / 4 := by decide +kernel
    have m1' : (2 : Rat) ^ b64.emin / 2 ≤ 1 / 4 := by decide +kernel
    have hx0 : 0 ≤ (a' / t).abs := by grind [Rat.abs]
    have := Rat.mul_le_mul_of_nonneg_right hu2 hx0
    rw [show b64.p = 53 from rfl] at hcl
    generalize (1 : Rat) / 2 ^ 53 * (a' / t).abs = y at *
    generalize a' / t = z at *
    generalize (2 : Rat) ^ b64.emin / 2 = H at *
    grind [Rat.abs]
  generalize ieee.div64 x d = b at *
  rcases hc with rfl | rfl
  · obtain rfl : w = .f32 (ieee.narrow b) := hw
    have ew : (Val.f32 (ieee.narrow b)).rat = b32.rat (b64.convert b32 b.toNat) := by
      show b32.rat (BitVec.ofNat 32 (b64.convert b32 b.toNat)).toNat = _
      rw [of32 (convert_lt b32_ok _)]
    have hr' := convert_rounded b64_ok b32_ok (bits64 b) hrr
    obtain ⟨q, hq, -⟩ := hr'.1 (by generalize r.abs = y at *; grind)
    exact ⟨q, by rw [ew]; exact hq, off_step (g := b32.grow) rfl (grow_unit b32) h3 (Rat.le_refl (a := s.abs)) (hr'.close b32_ok hq)⟩
  · obtain rfl : w = .f64 b := hw
    exact ⟨r, hrr, h3⟩

/-! ## Softmax, sigmoid and tanh -/

theorem rats_zip (hc : c = .f32 ∨ c = .f64) : ∀ {line : List Val} {ws : List Rat}, (∀ e ∈ line, e.WT c) → RatsOf line ws → (∀ e ∈ ws, 0 ≤ e) →
    ∃ l : List (Nat × Rat), l.map Prod.fst = line.map (fun e => (toDouble ieee e).toNat) ∧ l.map Prod.snd = ws ∧
      ∀ p ∈ l, p.1 < 2 * b64.signBit ∧ b64.rat p.1 = some p.2 ∧ 0 ≤ p.2
  | [], ws, _, hr, _ => by
    cases ws with
    | nil => exact ⟨[], rfl, rfl, by simp⟩
    | cons a ws => simp [RatsOf] at hr
  | e :: line, ws, hw, hr, h0 => by
    cases ws with
    | nil => simp [RatsOf] at hr
    | cons a ws =>
      simp only [RatsOf, List.map_cons, List.cons.injEq] at hr
      obtain ⟨l, l1, l2, l3⟩ := rats_zip hc (line := line) (ws := ws) (fun e he => hw e (by simp [he])) hr.2 fun e he => h0 e (by simp [he])
      refine ⟨((toDouble ieee e).toNat, a) :: l, by simp [l1], by simp [l2], fun p hp => ?_⟩
      rcases List.mem_cons.1 hp with rfl | hp
      · exact ⟨bits64 _, toDouble_bits hc (hw e (by simp)) hr.1, h0 a (by simp)⟩
      · exact l3 p hp

/-- A computed share is near the exact one. -/
theorem share_near (hc : c = .f32 ∨ c = .f64) {line : List Val} {ws : List Rat} (hw : ∀ e ∈ line, e.WT c) (hr : RatsOf line ws) (hs : Sharable ws) {e y : Val} {q : Rat}
    (he : e.WT c) (heq : e.rat = some q) (hq : q ∈ ws) (hy : ShareOf ieee c line e y) : NearRatio c (3 * ws.length + 2) y (q / ws.sum) := by
  obtain ⟨h0, hS, hlim, hn⟩ := hs
  obtain ⟨l, l1, l2, l3⟩ := rats_zip hc hw hr h0
  obtain ⟨t, d, ht, hd, hy⟩ := hy
  rw [sumsTo_iff] at ht
  rw [converts_f64] at hd
  have hlen : l.length = ws.length := by rw [← l2, List.length_map]
  have hu : (0 : Rat) ≤ 1 / 2 ^ 53 := by decide +kernel
  have hn' : (ws.length : Rat) ≤ 2 ^ 50 := by
    have := Rat.natCast_le_natCast.2 hn
    rwa [Rat.natCast_pow] at this
  have hn0 : (0 : Rat) ≤ ws.length := by exact_mod_cast Nat.zero_le _
  have hnu : 8 * ((ws.length : Rat) * (1 / 2 ^ 53)) ≤ 1 := by
    have := Rat.mul_le_mul_of_nonneg_right hn' hu
    have e1 : 8 * ((2 : Rat) ^ 50 * (1 / 2 ^ 53)) = 1 := by decide +kernel
    generalize (ws.length : Rat) * (1 / 2 ^ 53) = x at *
    generalize (2 : Rat) ^ 50 * (1 / 2 ^ 53) = z at *
    grind
  have hpow := pow_le_twice hu ws.length (by generalize (ws.length : Rat) * (1 / 2 ^ 53) = x at *; grind)
  have hgl : b64.grow ^ ws.length * ws.sum < b64.limit := by
    have h1 : b64.grow ^ ws.length ≤ 3 / 2 := by
      show (1 + 1 / 2 ^ 53 : Rat) ^ ws.length ≤ 3 / 2
      generalize (1 + 1 / 2 ^ 53 : Rat) ^ ws.length = P at *
      generalize (ws.length : Rat) * (1 / 2 ^ 53) = x at *
      grind
    have h2 := Rat.mul_le_mul_of_nonneg_right h1 (Rat.le_of_lt hS)
    have h3 := limits.1
    generalize b64.grow ^ ws.length * ws.sum = x at *
    generalize (2 : Rat) ^ 1023 = z at *
    generalize ws.sum = S at *
    grind
  obtain ⟨τ, hτ, τ1, τ2⟩ := sums_rel b64_ok (l := l) (z := 0) (v := 0) l3 (by decide) (by decide +kernel) (by decide) (by
    rw [l2, hlen, Rat.zero_add]; exact hgl)
  rw [l2, hlen, Rat.zero_add] at τ1 τ2
  have htb : b64.rat t.toNat = some τ := by
    rw [ht, sums_bits, show (ieee.ofInt64 0).toNat = 0 by decide, ← l1]
    exact hτ
  have hT := rel_total hu hnu (by decide +kernel) (Rat.le_of_lt hS) τ1 τ2
  have hdq : b64.rat d.toNat = some q := by rw [hd]; exact toDouble_bits hc he heq
  have hnx := Rat.mul_nonneg hn0 hu
  obtain ⟨ht0, hoff⟩ := ratio_off (a := q) (a' := q) (δ' := 0) hS (by generalize (ws.length : Rat) * (1 / 2 ^ 53) = x at *; grind)
    (by generalize (ws.length : Rat) * (1 / 2 ^ 53) = x at *; grind) (by decide) hT (by rw [Rat.zero_mul]; grind [Rat.abs])
  have hq0 := h0 q hq
  have hqS := le_sum h0 q hq
  have hSi := Rat.inv_pos.2 hS
  have hs0 : 0 ≤ q / ws.sum := by rw [Rat.div_def]; exact Rat.mul_nonneg hq0 (Rat.le_of_lt hSi)
  have hs1 : q / ws.sum ≤ 1 := by
    have := Rat.mul_le_mul_of_nonneg_right hqS (Rat.le_of_lt hSi)
    rw [Rat.mul_inv_cancel _ (by grind)] at this
    rw [Rat.div_def]; exact this
  have hsa : (q / ws.sum).abs = q / ws.sum := by generalize q / ws.sum = z at *; grind [Rat.abs]
  have hqa : q.abs = q := by grind [Rat.abs]
  refine ratio_near (k := 3 * ws.length) hc hdq htb ht0 (by rw [hsa]; exact hs1) (by generalize (ws.length : Rat) = z at *; grind) ?_ ?_ hy
  · have e1 : (3 : Rat) * 2 ^ 50 ≤ 2 ^ 53 := by decide +kernel
    generalize (ws.length : Rat) = z at *
    generalize (2 : Rat) ^ 50 = z' at *
    grind
  · rw [hsa]
    rw [hqa] at hoff
    have e1 : (3 * (ws.length : Rat)) / 2 ^ 53 = 3 * ((ws.length : Rat) * (1 / 2 ^ 53)) := by rw [Rat.div_def, Rat.div_def, Rat.one_mul, Rat.mul_assoc]
    rw [e1]
    have e2 := Rat.mul_nonneg hnx hs0
    generalize (ws.length : Rat) * (1 / 2 ^ 53) = x at *
    generalize q / ws.sum = s at *
    generalize (q / τ - s).abs = z at *
    have e3 : (2 * x + 0) * s = 2 * (x * s) := by grind
    have e4 : 3 * x * s = 3 * (x * s) := by grind
    rw [e3] at hoff
    rw [e4]
    grind

theorem machine_share {fp : FloatOps} (hE : Machine fp) : ShareOf fp = ShareOf ieee := by
  funext c line e y
  simp only [ShareOf, hE.sums, hE.converts, hE.div64, hE.ofInt64]

theorem one_rat : b64.rat (ieee.ofInt64 1).toNat = some 1 := by decide +kernel

/-- A sum of two numbers that are not negative. -/
theorem two_near {x y : BitVec 64} {a b : Rat} (hx : b64.rat x.toNat = some a) (hy : b64.rat y.toNat = some b) (ha : 0 ≤ a) (hb : 0 ≤ b) (hl : a + b < 16 / 15 * 2 ^ 1023) :
    ∃ t, b64.rat (ieee.add64 x y).toNat = some t ∧ (t - (a + b)).abs ≤ 1 / 2 ^ 53 * (a + b) := by
  have hab : (a + b).abs = a + b := by grind [Rat.abs]
  obtain ⟨t, ht, -⟩ := (add_rounded b64_ok (bits64 x) (bits64 y) hx hy).1 (by
    have := limits.1
    have h0 : (0 : Rat) ≤ 2 ^ 1023 := Rat.le_of_lt (two_pow_pos_rat _)
    rw [hab]
    generalize (2 : Rat) ^ 1023 = z at *
    grind)
  refine ⟨t, by rw [add_toNat]; exact ht, ?_⟩
  have := add_close b64_ok (bits64 x) (bits64 y) hx hy ht
  rwa [hab] at this

theorem ratio_le_one {a S : Rat} (hS : 0 < S) (h : a.abs ≤ S) : (a / S).abs ≤ 1 := by
  have hi := Rat.inv_pos.2 hS
  rw [Rat.div_def, abs_mul_right _ (Rat.le_of_lt hi)]
  have := Rat.mul_le_mul_of_nonneg_right h (Rat.le_of_lt hi)
  rwa [Rat.mul_inv_cancel _ (by grind)] at this

theorem ratio_abs {a S : Rat} (hS : 0 < S) : (a / S).abs = a.abs / S := by
  rw [Rat.div_def, abs_mul_right _ (Rat.le_of_lt (Rat.inv_pos.2 hS)), Rat.div_def]

theorem sigmoid_near (hc : c = .f32 ∨ c = .f64) {ex : BitVec 64 → BitVec 64} {x y : Val} {e : Rat} (hx : x.WT c) (h : SigmoidOf (withExp ex) x y)
    (he : (Val.f64 (ex (negDouble x))).rat = some e) (h0 : 0 ≤ e) (hl : e < 2 ^ 1023) : NearRatio c 4 y (1 / (1 + e)) := by
  have ht := sigmoid_through hx hc h
  have hl2 : 1 + e < 16 / 15 * 2 ^ 1023 := by
    have : (1 : Rat) ≤ 1 / 15 * 2 ^ 1023 := by decide +kernel
    generalize (2 : Rat) ^ 1023 = z at *
    grind
  obtain ⟨t, ht', hn⟩ := two_near one_rat he (by decide) h0 hl2
  have hS : 0 < 1 + e := by grind
  have hu : (0 : Rat) ≤ 1 / 2 ^ 53 := by decide +kernel
  obtain ⟨t0, hoff⟩ := ratio_off (a := 1) (a' := 1) (δ' := 0) hS (by decide +kernel) hu (by decide) hn (by decide +kernel)
  have ht2 : Converts ieee c (.f64 (sg (ex (negDouble x)))) y := ht
  unfold sg at ht2
  have := ratio_near (k := 2) hc one_rat ht' t0 (s := 1 / (1 + e)) (ratio_le_one hS (by grind [Rat.abs])) (by decide) (by decide +kernel) (by
    rw [ratio_abs hS]
    have hs0 : 0 ≤ (1 : Rat).abs / (1 + e) := by rw [← ratio_abs hS]; grind [Rat.abs]
    have h2 := Rat.mul_nonneg hu hs0
    rw [show (2 : Rat) / 2 ^ 53 = 2 * (1 / 2 ^ 53) by decide +kernel]
    generalize (1 : Rat).abs / (1 + e) = s at *
    generalize (1 / t - 1 / (1 + e)).abs = z at *
    generalize (1 : Rat) / 2 ^ 53 = u at *
    grind) ht2
  rwa [show (2 : Rat) + 2 = 4 by decide +kernel] at this

theorem tanh_near (hc : c = .f32 ∨ c = .f64) {ex : BitVec 64 → BitVec 64} {x y : Val} {a b : Rat} (hx : x.WT c) (h : TanhOf (withExp ex) x y)
    (ha : (Val.f64 (ex (asDouble x))).rat = some a) (hb : (Val.f64 (ex (negDouble x))).rat = some b) (a0 : 0 ≤ a) (b0 : 0 ≤ b) (hS : 0 < a + b)
    (hl : a + b < 2 ^ 1023) : NearRatio c 5 y ((a - b) / (a + b)) := by
  have ht := tanh_through hx hc h
  have z0 : (0 : Rat) ≤ 2 ^ 1023 := Rat.le_of_lt (two_pow_pos_rat _)
  obtain ⟨t, ht', hn⟩ := two_near ha hb a0 b0 (by generalize (2 : Rat) ^ 1023 = z at *; grind)
  have hu : (0 : Rat) ≤ 1 / 2 ^ 53 := by decide +kernel
  have hab : (a - b).abs ≤ a + b := by grind [Rat.abs]
  obtain ⟨d, hd, -⟩ := (sub_rounded b64_ok (bits64 _) (bits64 _) ha hb).1 (by
    have := limits.1
    generalize (2 : Rat) ^ 1023 = z at *
    generalize (a - b).abs = w at *
    grind)
  have hdc := sub_close b64_ok (bits64 _) (bits64 _) ha hb hd
  have hd' : b64.rat (ieee.sub64 (ex (asDouble x)) (ex (negDouble x))).toNat = some d := by
    have e : (ieee.sub64 (ex (asDouble x)) (ex (negDouble x))).toNat = b64.sub (ex (asDouble x)).toNat (ex (negDouble x)).toNat := of64 (sub_lt b64_ok _ _)
    rw [e]; exact hd
  obtain ⟨t0, hoff⟩ := ratio_off (a := a - b) (a' := d) (δ' := 1 / 2 ^ 53) hS (by decide +kernel) hu hu hn hdc
  have ht2 : Converts ieee c (.f64 (ieee.div64 (ieee.sub64 (ex (asDouble x)) (ex (negDouble x))) (ieee.add64 (ex (asDouble x)) (ex (negDouble x))))) y := ht
  have := ratio_near (k := 3) hc hd' ht' t0 (s := (a - b) / (a + b)) (ratio_le_one hS hab) (by decide) (by decide +kernel) (by
    rw [ratio_abs hS]
    have hs0 : 0 ≤ (a - b).abs / (a + b) := by rw [← ratio_abs hS]; grind [Rat.abs]
    have h2 := Rat.mul_nonneg hu hs0
    rw [show (3 : Rat) / 2 ^ 53 = 3 * (1 / 2 ^ 53) by decide +kernel]
    generalize (a - b).abs / (a + b) = s at *
    generalize (d / t - (a - b) / (a + b)).abs = z at *
    generalize (1 : Rat) / 2 ^ 53 = u at *
    grind) ht2
  rwa [show (3 : Rat) + 2 = 5 by decide +kernel] at this

/-! ## The sum of the shares -/

theorem off_add (c : Code) (k a b : Rat) : c.off k a + c.off k b = c.off k (a + b) + c.off k 0 := by
  cases c <;> simp only [Code.off] <;> generalize k / 2 ^ 53 = y <;> generalize (2 : Rat) ^ b64.emin / 2 = H <;> generalize (2 : Rat) ^ b32.emin / 2 = H' <;>
    generalize b32.grow = g <;> generalize (1 : Rat) / 2 ^ 24 = v <;> grind

theorem off_zero (c : Code) (k : Rat) : 0 ≤ c.off k 0 := by
  obtain ⟨-, -, h1, h2⟩ := small_halves
  have hg := one_le_grow b32
  have h3 := Rat.mul_nonneg (show 0 ≤ b32.grow by grind) h1
  cases c <;> simp only [Code.off, Rat.mul_zero, Rat.zero_add, Rat.add_zero] <;> first | exact h1 | skip
  all_goals
    generalize b32.grow * (2 ^ b64.emin / 2) = a at *
    generalize (2 : Rat) ^ b32.emin / 2 = b at *
    grind

theorem shares_sum {k S : Rat} (hS : 0 < S) : ∀ {ys : List Val} {ws : List Rat}, ys.length = ws.length → (∀ e ∈ ws, 0 ≤ e) →
    (∀ i (h1 : i < ys.length) (h2 : i < ws.length), NearRatio c k ys[i] (ws[i] / S)) →
    ∃ qs, RatsOf ys qs ∧ (qs.sum - ws.sum / S).abs ≤ c.off k (ws.sum / S) + ws.length * c.off k 0
  | [], [], _, _, _ => ⟨[], rfl, by
    have := off_zero c k
    simp only [List.sum_nil, Rat.div_def, Rat.zero_mul, List.length_nil, show ((0 : Nat) : Rat) = 0 from rfl]
    rw [show ((0 : Rat) - 0).abs = 0 by decide +kernel]
    grind⟩
  | y :: ys, w :: ws, hl, h0, hn => by
    obtain ⟨qs, q1, q2⟩ := shares_sum hS (ys := ys) (ws := ws) (by simpa using hl) (fun e he => h0 e (by simp [he]))
      (fun i h1 h2 => hn (i + 1) (by simpa using h1) (by simpa using h2))
    obtain ⟨q, hq, hqn⟩ := hn 0 (by simp) (by simp)
    simp only [List.getElem_cons_zero] at hq hqn
    have hw := h0 w (by simp)
    have hw' : (w / S).abs = w / S := by
      have : 0 ≤ w / S := by rw [Rat.div_def]; exact Rat.mul_nonneg hw (Rat.le_of_lt (Rat.inv_pos.2 hS))
      generalize w / S = z at *
      grind [Rat.abs]
    rw [hw'] at hqn
    refine ⟨q :: qs, by simp only [RatsOf, List.map_cons, List.cons.injEq] at q1 ⊢; exact ⟨hq, q1⟩, ?_⟩
    simp only [List.sum_cons, List.length_cons]
    have e1 : ((ws.length + 1 : Nat) : Rat) = ws.length + 1 := by simp
    have e2 : (w + ws.sum) / S = w / S + ws.sum / S := by rw [Rat.div_def, Rat.div_def, Rat.div_def, Rat.add_mul]
    have e3 := off_add c k (w / S) (ws.sum / S)
    rw [e1, e2, Rat.add_mul, Rat.one_mul]
    generalize (ws.length : Rat) * c.off k 0 = N at *
    generalize c.off k (w / S + ws.sum / S) = o1 at *
    generalize c.off k (w / S) = o2 at *
    generalize c.off k (ws.sum / S) = o3 at *
    generalize c.off k 0 = o4 at *
    generalize w / S = s at *
    generalize ws.sum / S = s' at *
    clear hw' e1 e2 hn h0 hq q1
    grind [Rat.abs]

/-! ## The bound in simpler terms -/

theorem off_float {k s : Rat} (hk : k ≤ 134217728) (hs : 0 ≤ s) : Code.f32.off k s ≤ 2 / 2 ^ 24 * s + 2 ^ (-149 : Int) := by
  simp only [Code.off]
  rw [show b32.emin = -149 from rfl, show b64.emin = -1074 from rfl]
  have h1 : k / 2 ^ 53 ≤ 134217728 / 2 ^ 53 := by
    rw [Rat.div_def, Rat.div_def]
    exact Rat.mul_le_mul_of_nonneg_right hk (by decide +kernel)
  have h2 := Rat.mul_le_mul_of_nonneg_right h1 hs
  have hg := one_le_grow b32
  have h3 := Rat.mul_le_mul_of_nonneg_left (show k / 2 ^ 53 * s + 2 ^ (-1074 : Int) / 2 ≤ 134217728 / 2 ^ 53 * s + 2 ^ (-1074 : Int) / 2 by
    generalize (2 : Rat) ^ (-1074 : Int) / 2 = z at *; generalize k / 2 ^ 53 * s = z1 at *; generalize (134217728 : Rat) / 2 ^ 53 * s = z2 at *; grind) (show 0 ≤ b32.grow by grind)
  have c1 : b32.grow * (134217728 / 2 ^ 53) + 1 / 2 ^ 24 ≤ 2 / 2 ^ 24 := by decide +kernel
  have c2 : b32.grow * (2 ^ (-1074 : Int) / 2) + 2 ^ (-149 : Int) / 2 ≤ 2 ^ (-149 : Int) := by decide +kernel
  have h4 := Rat.mul_le_mul_of_nonneg_right c1 hs
  have e : b32.grow * (134217728 / 2 ^ 53 * s + 2 ^ (-1074 : Int) / 2) + 1 / 2 ^ 24 * s + 2 ^ (-149 : Int) / 2 =
      (b32.grow * (134217728 / 2 ^ 53) + 1 / 2 ^ 24) * s + (b32.grow * (2 ^ (-1074 : Int) / 2) + 2 ^ (-149 : Int) / 2) := by
    generalize (134217728 : Rat) / 2 ^ 53 = z1
    generalize (1 : Rat) / 2 ^ 24 = z2
    generalize (2 : Rat) ^ (-1074 : Int) / 2 = z3
    generalize b32.grow = g
    generalize (2 : Rat) ^ (-149 : Int) / 2 = z4
    grind
  refine Rat.le_trans (b := b32.grow * (134217728 / 2 ^ 53 * s + 2 ^ (-1074 : Int) / 2) + 1 / 2 ^ 24 * s + 2 ^ (-149 : Int) / 2) ?_ ?_
  · generalize b32.grow * (134217728 / 2 ^ 53 * s + 2 ^ (-1074 : Int) / 2) = z1 at *
    generalize b32.grow * (k / 2 ^ 53 * s + 2 ^ (-1074 : Int) / 2) = z2 at *
    generalize (1 : Rat) / 2 ^ 24 * s = z3 at *
    generalize (2 : Rat) ^ (-149 : Int) / 2 = z4 at *
    clear h1 h2 h4 c1 c2 e
    grind
  · rw [e]
    generalize (b32.grow * (134217728 / 2 ^ 53) + 1 / 2 ^ 24) * s = z1 at *
    generalize b32.grow * (2 ^ (-1074 : Int) / 2) + 2 ^ (-149 : Int) / 2 = z2 at *
    generalize (2 : Rat) / 2 ^ 24 * s = z3 at *
    generalize (2 : Rat) ^ (-149 : Int) = z4 at *
    clear h1 h2 h3 c1 e
    grind

theorem total_float {n : Nat} (hn : n ≤ 16777216) : Code.f32.off (3 * n + 2) 1 + n * Code.f32.off (3 * n + 2) 0 ≤ 3 / 2 ^ 24 := by
  have hn' : (n : Rat) ≤ 16777216 := by exact_mod_cast Rat.natCast_le_natCast.2 hn
  have hn0 : (0 : Rat) ≤ n := by exact_mod_cast Nat.zero_le _
  have h1 := off_float (k := 3 * n + 2) (s := 1) (by grind) (by decide)
  have h2 := off_float (k := 3 * n + 2) (s := 0) (by grind) (by decide)
  rw [Rat.mul_zero, Rat.zero_add] at h2
  rw [Rat.mul_one] at h1
  have h3 := Rat.mul_le_mul_of_nonneg_left h2 hn0
  have h4 := Rat.mul_le_mul_of_nonneg_right hn' (show (0 : Rat) ≤ 2 ^ (-149 : Int) by decide +kernel)
  have c : (2 : Rat) / 2 ^ 24 + 2 ^ (-149 : Int) + 16777216 * 2 ^ (-149 : Int) ≤ 3 / 2 ^ 24 := by decide +kernel
  generalize (n : Rat) * Code.f32.off (3 * n + 2) 0 = z1 at *
  generalize Code.f32.off (3 * n + 2) 1 = z2 at *
  generalize (2 : Rat) ^ (-149 : Int) = z3 at *
  generalize (2 : Rat) / 2 ^ 24 = z4 at *
  generalize (3 : Rat) / 2 ^ 24 = z5 at *
  clear h2
  generalize (n : Rat) * z3 = z6 at *
  grind

theorem total_double {n : Nat} (hn : n ≤ 2 ^ 50) : Code.f64.off (3 * n + 2) 1 + n * Code.f64.off (3 * n + 2) 0 ≤ 3 * (n + 1) / 2 ^ 53 := by
  have hn' : (n : Rat) ≤ 2 ^ 50 := by
    have := Rat.natCast_le_natCast.2 hn
    rwa [Rat.natCast_pow] at this
  simp only [Code.off, Rat.mul_zero, Rat.zero_add, Rat.mul_one]
  rw [show b64.emin = -1074 from rfl]
  have h4 := Rat.mul_le_mul_of_nonneg_right hn' (show (0 : Rat) ≤ 2 ^ (-1074 : Int) / 2 by decide +kernel)
  have c : (2 : Rat) ^ (-1074 : Int) / 2 + 2 ^ 50 * (2 ^ (-1074 : Int) / 2) ≤ 1 / 2 ^ 53 := by decide +kernel
  have e : (3 * ((n : Rat) + 1)) / 2 ^ 53 = (3 * n + 2) / 2 ^ 53 + 1 / 2 ^ 53 := by
    rw [Rat.div_def, Rat.div_def, Rat.div_def, ← Rat.add_mul]
    congr 1
    grind
  rw [e]
  generalize (n : Rat) * (2 ^ (-1074 : Int) / 2) = z1 at *
  generalize (2 : Rat) ^ 50 * (2 ^ (-1074 : Int) / 2) = z2 at *
  generalize (2 : Rat) ^ (-1074 : Int) / 2 = z3 at *
  generalize (3 * (n : Rat) + 2) / 2 ^ 53 = z4 at *
  generalize (1 : Rat) / 2 ^ 53 = z5 at *
  clear e hn'
  grind

end Aitisa
