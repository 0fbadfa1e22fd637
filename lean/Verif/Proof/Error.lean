import Verif.Spec.Error
import Verif.Proof.IeeeNear
import Verif.Proof.IeeeVal
import Verif.Proof.IeeeFma
import Verif.Proof.IeeeRange

/-!
# Error of rounded sums of products
-/

namespace Aitisa

variable {F : Fmt}

/-! ## Rounding -/

theorem rat_inf (h : F.OK) (s : Bool) : F.rat (F.signed s F.infBits) = none := by
  unfold Fmt.rat; rw [decode_inf h]

theorem Fmt.Rounded.inside (h : F.OK) {e q : Rat} {b : Nat} (hr : F.Rounded e b) (hq : F.rat b = some q) : e.abs < F.limit := by
  by_cases h1 : F.limit ≤ e
  · have := rat_inf h false
    rw [hr.2.1 h1] at hq
    simp [Fmt.signed] at this
    rw [this] at hq; cases hq
  · by_cases h2 : e ≤ -F.limit
    · have := rat_inf h true
      rw [hr.2.2 h2] at hq
      simp [Fmt.signed] at this
      rw [this] at hq; cases hq
    · grind [Rat.abs]

theorem two_pow_pos_rat (n : Nat) : (0 : Rat) < 2 ^ n := by
  induction n with
  | zero => decide
  | succ n ih => rw [Rat.pow_succ]; grind

/-- The error of one rounding, relative and absolute part together. -/
theorem Fmt.Rounded.close (h : F.OK) {e q : Rat} {b : Nat} (hr : F.Rounded e b) (hq : F.rat b = some q) :
    (q - e).abs ≤ 1 / 2 ^ F.p * e.abs + 2 ^ F.emin / 2 := by
  have hp := two_pow_pos_rat F.p
  have hm : (0 : Rat) < 2 ^ F.emin := zpow_pos _
  have hi : (2 : Rat) ^ F.p * (1 / 2 ^ F.p) = 1 := by rw [Rat.div_def, Rat.one_mul]; exact Rat.mul_inv_cancel _ (by grind)
  have h0 : (0 : Rat) ≤ 1 / 2 ^ F.p := by rw [Rat.div_def, Rat.one_mul]; exact Rat.le_of_lt (Rat.inv_pos.2 hp)
  have ha : 0 ≤ e.abs := by grind [Rat.abs]
  have hs : (q - e).abs = (e - q).abs := by grind [Rat.abs]
  have h1 := Rat.mul_nonneg h0 ha
  have h3 := hr.error h (hr.inside h hq) hq
  rw [hs]
  generalize (2 : Rat) ^ F.emin = M at *
  generalize hu : (1 : Rat) / 2 ^ F.p = u at *
  generalize (2 : Rat) ^ F.p = P at *
  clear hs hq hr hu
  generalize e.abs = a at *
  generalize (e - q).abs = d at *
  rcases h3 with h2 | h2
  · have h4 := Rat.mul_le_mul_of_nonneg_left h2 h0
    rw [← Rat.mul_assoc, Rat.mul_comm u P, hi, Rat.one_mul] at h4
    grind
  · grind

/-- One more product, in rational numbers. -/
theorem slack_step {u g P s t e z p z' k H : Rat} (hg : g = 1 + u) (hu : 0 ≤ u) (hP : 1 ≤ P) (hk : 0 ≤ k) (hH : 0 ≤ H) (ht : s.abs ≤ t)
    (hz : (z - s).abs ≤ (P * g - 1) * t + k * P * (2 * H)) (hp : (p - e).abs ≤ u * e.abs + H) (hz' : (z' - (z + p)).abs ≤ u * (z + p).abs + H) :
    (z' - (s + e)).abs ≤ (P * g * g - 1) * (t + e.abs) + (k + 1) * (P * g) * (2 * H) := by
  obtain ⟨B, hB⟩ : ∃ B, B = (P * g - 1) * t + k * P * (2 * H) := ⟨_, rfl⟩
  rw [← hB] at hz
  have ha : 0 ≤ e.abs := by grind [Rat.abs]
  have hq : (z + p).abs ≤ t + e.abs + (B + u * e.abs + H) := by grind [Rat.abs]
  have h1 := Rat.mul_le_mul_of_nonneg_left hq hu
  have h2 : (z' - (s + e)).abs ≤ B + u * e.abs + H + u * (t + e.abs + (B + u * e.abs + H)) + H := by grind [Rat.abs]
  have h3 : 0 ≤ (P - 1) * (g * g * e.abs) := Rat.mul_nonneg (by grind) (Rat.mul_nonneg (Rat.mul_nonneg (by grind) (by grind)) ha)
  have h4 : 0 ≤ (2 * ((P - 1) * g) + u) * H := by
    have : 0 ≤ (P - 1) * g := Rat.mul_nonneg (by grind) (by grind)
    exact Rat.mul_nonneg (by grind) hH
  refine Rat.le_trans h2 ?_
  subst hg hB
  grind

/-- The sum before it is rounded. -/
theorem slack_inside {u g P s t e z p k H : Rat} (hg : g = 1 + u) (hu : 0 ≤ u) (hP : 1 ≤ P) (hk : 0 ≤ k) (hH : 0 ≤ H) (ht : s.abs ≤ t)
    (hz : (z - s).abs ≤ (P * g - 1) * t + k * P * (2 * H)) (hp : (p - e).abs ≤ u * e.abs + H) :
    (z + p).abs ≤ (t + e.abs) + ((P * g * g - 1) * (t + e.abs) + (k + 1) * (P * g) * (2 * H)) := by
  obtain ⟨B, hB⟩ : ∃ B, B = (P * g - 1) * t + k * P * (2 * H) := ⟨_, rfl⟩
  rw [← hB] at hz
  have ha : 0 ≤ e.abs := by grind [Rat.abs]
  have ht0 : 0 ≤ t := by grind [Rat.abs]
  have hB0 : 0 ≤ B := by grind [Rat.abs]
  have hq : (z + p).abs ≤ t + e.abs + (B + u * e.abs + H) := by grind [Rat.abs]
  have h3 : 0 ≤ (P - 1) * (g * g * e.abs) := Rat.mul_nonneg (by grind) (Rat.mul_nonneg (Rat.mul_nonneg (by grind) (by grind)) ha)
  have h4 : 0 ≤ (2 * ((P - 1) * g) + u) * H := by
    have : 0 ≤ (P - 1) * g := Rat.mul_nonneg (by grind) (by grind)
    exact Rat.mul_nonneg (by grind) hH
  have h5 := Rat.mul_nonneg hu hB0
  have h6 := Rat.mul_nonneg hu ht0
  have h7 := Rat.mul_nonneg hu ha
  have h8 := Rat.mul_nonneg hu h7
  have h9 := Rat.mul_nonneg hu hH
  refine Rat.le_trans hq ?_
  subst hg hB
  grind

/-! ## The bound -/

theorem grow_unit (F : Fmt) : (0 : Rat) ≤ 1 / 2 ^ F.p := by
  rw [Rat.div_def, Rat.one_mul]; exact Rat.le_of_lt (Rat.inv_pos.2 (two_pow_pos_rat _))

theorem one_le_pow {g : Rat} (hg : 1 ≤ g) (n : Nat) : 1 ≤ g ^ n := by
  induction n with
  | zero => rw [Rat.pow_zero]; grind
  | succ n ih =>
    rw [Rat.pow_succ]
    have := Rat.mul_le_mul_of_nonneg_left hg (show 0 ≤ g ^ n by grind)
    grind

theorem one_le_grow (F : Fmt) : 1 ≤ F.grow := by have := grow_unit F; unfold Fmt.grow; grind

theorem slack_eq (F : Fmt) (n : Nat) (t : Rat) :
    F.slack n t = (F.grow ^ n * F.grow - 1) * t + (n : Rat) * F.grow ^ n * (2 * (2 ^ F.emin / 2)) := by
  unfold Fmt.slack
  rw [Rat.pow_succ]
  have : (2 : Rat) * (2 ^ F.emin / 2) = 2 ^ F.emin := by generalize (2 : Rat) ^ F.emin = M; grind
  rw [this]

theorem slack_succ (F : Fmt) (n : Nat) (t : Rat) :
    F.slack (n + 1) t = (F.grow ^ n * F.grow * F.grow - 1) * t + ((n : Rat) + 1) * (F.grow ^ n * F.grow) * (2 * (2 ^ F.emin / 2)) := by
  rw [slack_eq, Rat.pow_succ]
  have : ((n + 1 : Nat) : Rat) = n + 1 := by simp
  rw [this]

/-- The bound grows with the number of terms and with their size. -/
theorem slack_mono (F : Fmt) {n k : Nat} {t t' : Rat} (hn : n ≤ k) (h0 : 0 ≤ t) (ht : t ≤ t') : t + F.slack n t ≤ t' + F.slack k t' := by
  have step : ∀ n, t + F.slack n t ≤ t + F.slack (n + 1) t := fun n => by
    rw [slack_succ, slack_eq]
    have hg := one_le_grow F
    have hP := one_le_pow hg n
    have hM : (0 : Rat) < 2 ^ F.emin := zpow_pos _
    have hn : (0 : Rat) ≤ n := by exact_mod_cast Nat.zero_le n
    generalize F.grow ^ n = P at *
    generalize F.grow = g at *
    generalize (2 : Rat) ^ F.emin = M at *
    generalize (n : Rat) = k at *
    have a1 : 0 ≤ P * (g * ((g - 1) * t)) := Rat.mul_nonneg (by grind) (Rat.mul_nonneg (by grind) (Rat.mul_nonneg (by grind) h0))
    have a2 : 0 ≤ k * (P * ((g - 1) * M)) := Rat.mul_nonneg hn (Rat.mul_nonneg (by grind) (Rat.mul_nonneg (by grind) (by grind)))
    have a3 : 0 ≤ P * (g * M) := Rat.mul_nonneg (by grind) (Rat.mul_nonneg (by grind) (by grind))
    grind
  have up : t + F.slack n t ≤ t + F.slack k t := by
    induction hn with
    | refl => exact Rat.le_refl
    | step _ ih => exact Rat.le_trans ih (step _)
  refine Rat.le_trans up ?_
  rw [slack_eq, slack_eq]
  have hg := one_le_grow F
  have hP := one_le_pow hg k
  generalize F.grow ^ k = P at *
  generalize F.grow = g at *
  have : 0 ≤ P * (g * (t' - t)) := Rat.mul_nonneg (by grind) (Rat.mul_nonneg (by grind) (by grind))
  grind

theorem slack_nonneg (F : Fmt) (n : Nat) {t : Rat} (h0 : 0 ≤ t) : 0 ≤ F.slack n t := by
  rw [slack_eq]
  have hg := one_le_grow F
  have hP := one_le_pow hg n
  have hM : (0 : Rat) < 2 ^ F.emin := zpow_pos _
  have hn : (0 : Rat) ≤ n := by exact_mod_cast Nat.zero_le n
  generalize F.grow ^ n = P at *
  generalize F.grow = g at *
  generalize (2 : Rat) ^ F.emin = M at *
  generalize (n : Rat) = k at *
  have a1 : 0 ≤ (P - 1) * (g * t) := Rat.mul_nonneg (by grind) (Rat.mul_nonneg (by grind) h0)
  have a2 : 0 ≤ (g - 1) * t := Rat.mul_nonneg (by grind) h0
  have a3 : 0 ≤ k * (P * M) := Rat.mul_nonneg hn (Rat.mul_nonneg (by grind) (by grind))
  grind

/-! ## Sums -/

theorem rat_nan (h : F.OK) : F.rat F.nanBits = none := by
  unfold Fmt.rat
  have : F.decode F.nanBits = .nan := by
    refine decode_isNaN h (nan_lt h) ?_
    have h1 := h.inf_lt
    have h2 := h.p3
    have h3 : 2 ^ (F.p - 1) = 2 * 2 ^ (F.p - 2) := by rw [← Nat.pow_succ']; congr 1; omega
    have h4 := Nat.two_pow_pos (F.p - 2)
    rw [← plus_signed F F.nanBits, isNaN_signed (by unfold Fmt.nanBits; omega), decide_eq_true_eq]
    unfold Fmt.nanBits; omega
  rw [this]

/-- A sum is a number only if both operands are. -/
theorem add_some (h : F.OK) {a b : Nat} {q : Rat} (hq : F.rat (F.add a b) = some q) : (∃ x, F.rat a = some x) ∧ ∃ y, F.rat b = some y := by
  have hn := rat_nan h
  have hi := rat_inf h
  unfold Fmt.add at hq
  unfold Fmt.rat
  cases ha : F.decode a <;> cases hb : F.decode b <;> simp only [ha, hb] at hq
  case fin.fin => exact ⟨⟨_, rfl⟩, ⟨_, rfl⟩⟩
  all_goals first
    | (rw [hn] at hq; cases hq; done)
    | (rw [hi] at hq; cases hq; done)
    | (split at hq
       · rw [hi] at hq; cases hq
       · rw [hn] at hq; cases hq)

/-- `z += a * b`, rounded once or twice. -/
def Fmt.Steps (F : Fmt) (f : Nat → Nat → Nat → Nat) : Prop :=
  ∀ z a b, z < 2 * F.signBit → a < 2 * F.signBit → b < 2 * F.signBit → f z a b = F.add z (F.mul a b) ∨ f z a b = F.fma z a b

/-- `z += a * b` for all pairs. -/
def macs (f : Nat → Nat → Nat → Nat) (z : Nat) (l : List (Nat × Nat)) : Nat := l.foldl (fun z p => f z p.1 p.2) z

theorem ratMass_nonneg : ∀ l : List (Rat × Rat), 0 ≤ ratMass l
  | [] => by simp [ratMass]
  | (a, b) :: l => by have := ratMass_nonneg l; simp only [ratMass]; grind [Rat.abs]

theorem fma_step {s v p q t g u P k H : Rat} (hg : g = 1 + u) (hu : 0 ≤ u) (hP : 1 ≤ P) (hk : 0 ≤ k) (hH : 0 ≤ H) (hs : s.abs ≤ t)
    (hv : (v - s).abs ≤ (P * g - 1) * t + k * P * (2 * H)) (hq : (q - (v + p)).abs ≤ u * (v + p).abs + H) :
    (q - (s + p)).abs ≤ (P * g * g - 1) * (t + p.abs) + (k + 1) * (P * g) * (2 * H) :=
  slack_step hg hu hP hk hH hs hv (by have := Rat.mul_nonneg hu (show 0 ≤ p.abs by grind [Rat.abs]); grind [Rat.abs]) hq

theorem fma_inside {s v p t g u P k H : Rat} (hg : g = 1 + u) (hu : 0 ≤ u) (hP : 1 ≤ P) (hk : 0 ≤ k) (hH : 0 ≤ H) (hs : s.abs ≤ t)
    (hv : (v - s).abs ≤ (P * g - 1) * t + k * P * (2 * H)) : (v + p).abs ≤ (t + p.abs) + ((P * g * g - 1) * (t + p.abs) + (k + 1) * (P * g) * (2 * H)) :=
  slack_inside hg hu hP hk hH hs hv (by have := Rat.mul_nonneg hu (show 0 ≤ p.abs by grind [Rat.abs]); grind [Rat.abs])

theorem macs_near (h : F.OK) {l : List ((Nat × Nat) × Rat × Rat)}
    (hl : ∀ p ∈ l, p.1.1 < 2 * F.signBit ∧ p.1.2 < 2 * F.signBit ∧ F.rat p.1.1 = some p.2.1 ∧ F.rat p.1.2 = some p.2.2) {f : Nat → Nat → Nat → Nat} (hf : F.Steps f)
    {z n : Nat} {s t : Rat}
    (hz : z < 2 * F.signBit) (ht : s.abs ≤ t) (hs : ∀ q, F.rat z = some q → (q - s).abs ≤ F.slack n t) :
    (∀ q, F.rat (macs f z (l.map Prod.fst)) = some q →
      (q - (s + ratDot (l.map Prod.snd))).abs ≤ F.slack (n + l.length) (t + ratMass (l.map Prod.snd))) ∧
    ((∃ q, F.rat z = some q) → (t + ratMass (l.map Prod.snd)) + F.slack (n + l.length) (t + ratMass (l.map Prod.snd)) < F.limit →
      ∃ q, F.rat (macs f z (l.map Prod.fst)) = some q) := by
  induction l generalizing z n s t with
  | nil =>
    simp only [List.map_nil, macs, List.foldl_nil, ratDot, ratMass, List.length_nil, Nat.add_zero, Rat.add_zero]
    exact ⟨hs, fun hq _ => hq⟩
  | cons p l ih =>
    obtain ⟨⟨a, b⟩, x, y⟩ := p
    obtain ⟨ha, hb, hx, hy⟩ := hl _ (List.mem_cons_self ..)
    simp only at ha hb hx hy
    have hu := grow_unit F
    have hP := one_le_pow (one_le_grow F) n
    have hk : (0 : Rat) ≤ n := by exact_mod_cast Nat.zero_le n
    have hH : (0 : Rat) ≤ 2 ^ F.emin / 2 := by have : (0 : Rat) < 2 ^ F.emin := zpow_pos _; generalize (2 : Rat) ^ F.emin = M at *; grind
    have hm := mul_rounded h ha hb hx hy
    have hml := mul_lt h a b
    have ht' : (s + x * y).abs ≤ t + (x * y).abs := by grind [Rat.abs]
    have h0 : 0 ≤ t := by grind [Rat.abs]
    have hstep := hf z a b hz ha hb
    have hlt : f z a b < 2 * F.signBit := by rcases hstep with e | e <;> rw [e] <;> [exact add_lt h _ _; exact fma_lt h _ _ _]
    have key := ih (fun p hp => hl p (List.mem_cons_of_mem _ hp)) (z := f z a b) (n := n + 1) (s := s + x * y) (t := t + (x * y).abs)
      hlt ht' (fun q hq => by
        rw [slack_succ]
        rcases hstep with e | e <;> rw [e] at hq
        · obtain ⟨⟨v, hv⟩, w, hw⟩ := add_some h hq
          have := hs v hv
          rw [slack_eq] at this
          exact slack_step rfl hu hP hk hH ht this (hm.close h hw) ((add_rounded h hz hml hv hw).close h hq)
        · obtain ⟨v, hv⟩ := fma_some h hq (rat_nan h) (rat_inf h)
          have := hs v hv
          rw [slack_eq] at this
          exact fma_step rfl hu hP hk hH ht this ((fma_rounded h hz ha hb hv hx hy).close h hq))
    simp only [List.map_cons, ratDot, ratMass, List.length_cons, macs, List.foldl_cons]
    rw [show n + (l.length + 1) = n + 1 + l.length by omega, ← Rat.add_assoc, ← Rat.add_assoc]
    refine ⟨key.1, fun ⟨v, hv⟩ hlim => key.2 ?_ hlim⟩
    have hM := ratMass_nonneg (l.map Prod.snd)
    have hxy : 0 ≤ (x * y).abs := by grind [Rat.abs]
    have hsl := slack_nonneg F (n + 1 + l.length) (t := t + (x * y).abs + ratMass (l.map Prod.snd)) (by grind)
    have hmono := slack_mono F (n := n + 1) (k := n + 1 + l.length) (t := t + (x * y).abs) (t' := t + (x * y).abs + ratMass (l.map Prod.snd)) (by omega)
      (by grind) (by grind)
    have hin := hs v hv
    rw [slack_eq] at hin
    rcases hstep with e | e <;> rw [e]
    · obtain ⟨w, hw, -⟩ := hm.1 (by grind)
      have hin := slack_inside (g := F.grow) rfl hu hP hk hH ht hin (hm.close h hw)
      rw [← slack_succ] at hin
      obtain ⟨q, hq, -⟩ := (add_rounded h hz hml hv hw).1 (by grind)
      exact ⟨q, hq⟩
    · have hin := fma_inside (g := F.grow) (p := x * y) rfl hu hP hk hH ht hin
      rw [← slack_succ] at hin
      obtain ⟨q, hq, -⟩ := (fma_rounded h hz ha hb hv hx hy).1 (by grind)
      exact ⟨q, hq⟩

/-! ## Elements -/

def Val.bits : Val → Nat
  | .int _ => 0
  | .f32 b => b.toNat
  | .f64 b => b.toNat

/-- `z += a * b` on bit patterns. -/
def step32 (fp : FloatOps) (z a b : Nat) : Nat := (fp.mac32 (.ofNat 32 z) (.ofNat 32 a) (.ofNat 32 b)).toNat

theorem step32_steps {fp : FloatOps} (hfp : Machine fp) : b32.Steps (step32 fp) := by
  intro z a b hz ha hb
  unfold step32
  rcases hfp.mac32 (.ofNat 32 z) (.ofNat 32 a) (.ofNat 32 b) with e | e <;> rw [e]
  · refine .inl ?_
    show (BitVec.ofNat 32 (b32.add (BitVec.ofNat 32 z).toNat (BitVec.ofNat 32 (b32.mul (BitVec.ofNat 32 a).toNat (BitVec.ofNat 32 b).toNat)).toNat)).toNat = _
    rw [of32 (add_lt b32_ok _ _), of32 (mul_lt b32_ok _ _), of32 (n := z) hz, of32 (n := a) ha, of32 (n := b) hb]
  · refine .inr ?_
    show (BitVec.ofNat 32 (b32.fma (BitVec.ofNat 32 z).toNat (BitVec.ofNat 32 a).toNat (BitVec.ofNat 32 b).toNat)).toNat = _
    rw [of32 (fma_lt b32_ok _ _ _), of32 (n := z) hz, of32 (n := a) ha, of32 (n := b) hb]

theorem dotTo32 {fp : FloatOps} {l : List (Val × Val)} (hl : ∀ p ∈ l, p.1.WT .f32 ∧ p.2.WT .f32) {z : BitVec 32} {w : Val}
    (hd : DotTo fp .f32 (.f32 z) l w) : w = .f32 (BitVec.ofNat 32 (macs (step32 fp) z.toNat (l.map fun p => (p.1.bits, p.2.bits)))) ∧
      macs (step32 fp) z.toNat (l.map fun p => (p.1.bits, p.2.bits)) < 2 ^ 32 := by
  induction l generalizing z with
  | nil => cases hd; exact ⟨by simp [macs], z.isLt⟩
  | cons p l ih =>
    obtain ⟨x, y⟩ := p
    obtain ⟨v, hv, hd⟩ := hd
    obtain ⟨hx, hy⟩ := hl _ (List.mem_cons_self ..)
    cases x <;> simp only [Val.WT] at hx
    rename_i a
    cases y <;> simp only [Val.WT] at hy
    rename_i b
    cases hv
    have := ih (fun p hp => hl p (List.mem_cons_of_mem _ hp)) hd
    have e : (fp.mac32 z a b).toNat = step32 fp z.toNat a.toNat b.toNat := by simp [step32]
    rw [e] at this
    exact this

/-- `z += a * b` on bit patterns. -/
def step64 (fp : FloatOps) (z a b : Nat) : Nat := (fp.mac64 (.ofNat 64 z) (.ofNat 64 a) (.ofNat 64 b)).toNat

theorem step64_steps {fp : FloatOps} (hfp : Machine fp) : b64.Steps (step64 fp) := by
  intro z a b hz ha hb
  unfold step64
  rcases hfp.mac64 (.ofNat 64 z) (.ofNat 64 a) (.ofNat 64 b) with e | e <;> rw [e]
  · refine .inl ?_
    show (BitVec.ofNat 64 (b64.add (BitVec.ofNat 64 z).toNat (BitVec.ofNat 64 (b64.mul (BitVec.ofNat 64 a).toNat (BitVec.ofNat 64 b).toNat)).toNat)).toNat = _
    rw [of64 (add_lt b64_ok _ _), of64 (mul_lt b64_ok _ _), of64 (n := z) hz, of64 (n := a) ha, of64 (n := b) hb]
  · refine .inr ?_
    show (BitVec.ofNat 64 (b64.fma (BitVec.ofNat 64 z).toNat (BitVec.ofNat 64 a).toNat (BitVec.ofNat 64 b).toNat)).toNat = _
    rw [of64 (fma_lt b64_ok _ _ _), of64 (n := z) hz, of64 (n := a) ha, of64 (n := b) hb]

theorem dotTo64 {fp : FloatOps} {l : List (Val × Val)} (hl : ∀ p ∈ l, p.1.WT .f64 ∧ p.2.WT .f64) {z : BitVec 64} {w : Val}
    (hd : DotTo fp .f64 (.f64 z) l w) : w = .f64 (BitVec.ofNat 64 (macs (step64 fp) z.toNat (l.map fun p => (p.1.bits, p.2.bits)))) ∧
      macs (step64 fp) z.toNat (l.map fun p => (p.1.bits, p.2.bits)) < 2 ^ 64 := by
  induction l generalizing z with
  | nil => cases hd; exact ⟨by simp [macs], z.isLt⟩
  | cons p l ih =>
    obtain ⟨x, y⟩ := p
    obtain ⟨v, hv, hd⟩ := hd
    obtain ⟨hx, hy⟩ := hl _ (List.mem_cons_self ..)
    cases x <;> simp only [Val.WT] at hx
    rename_i a
    cases y <;> simp only [Val.WT] at hy
    rename_i b
    cases hv
    have := ih (fun p hp => hl p (List.mem_cons_of_mem _ hp)) hd
    have e : (fp.mac64 z a b).toNat = step64 fp z.toNat a.toNat b.toNat := by simp [step64]
    rw [e] at this
    exact this

theorem rat_zero (h : F.OK) : F.rat 0 = some 0 := by
  rw [rat_units h]
  have : F.units 0 = some 0 := by have := units_zero h false; simpa [Fmt.signed] using this
  rw [this]; simp [Rat.div_def]

theorem macs_zero (h : F.OK) {f : Nat → Nat → Nat → Nat} (hf : F.Steps f) {l : List ((Nat × Nat) × Rat × Rat)}
    (hl : ∀ p ∈ l, p.1.1 < 2 * F.signBit ∧ p.1.2 < 2 * F.signBit ∧ F.rat p.1.1 = some p.2.1 ∧ F.rat p.1.2 = some p.2.2) :
    (∀ q, F.rat (macs f 0 (l.map Prod.fst)) = some q → (q - ratDot (l.map Prod.snd)).abs ≤ F.slack l.length (ratMass (l.map Prod.snd))) ∧
    (ratMass (l.map Prod.snd) + F.slack l.length (ratMass (l.map Prod.snd)) < F.limit → ∃ q, F.rat (macs f 0 (l.map Prod.fst)) = some q) := by
  have := macs_near h hl hf (z := 0) (n := 0) (s := 0) (t := 0) (by have := sign_pos h; omega) (by decide)
    (fun q hq => by rw [rat_zero h] at hq; cases hq; simp [Fmt.slack]; grind [Rat.abs])
  simp only [Nat.zero_add, Rat.zero_add] at this
  exact ⟨this.1, this.2 ⟨0, rat_zero h⟩⟩

variable {c : Code}

/-- A sum of products that are accumulated in floating-point arithmetic is near the exact one. -/
theorem dotTo_near {fp : FloatOps} (hfp : Machine fp) (hc : c = .f32 ∨ c = .f64) {l : List ((Val × Val) × Rat × Rat)}
    (hl : ∀ p ∈ l, p.1.1.WT c ∧ p.1.2.WT c ∧ p.1.1.rat = some p.2.1 ∧ p.1.2.rat = some p.2.2) {w : Val}
    (hd : DotTo fp c (zeroVal c) (l.map Prod.fst) w) : NearDot c w (l.map Prod.snd) := by
  rcases hc with rfl | rfl
  · obtain ⟨rfl, hlt⟩ := dotTo32 (by
      intro p hp
      obtain ⟨a, ha, rfl⟩ := List.mem_map.1 hp
      exact ⟨(hl a ha).1, (hl a ha).2.1⟩) hd
    have := macs_zero b32_ok (step32_steps hfp) (l := l.map fun p => ((p.1.1.bits, p.1.2.bits), p.2)) (by
      intro p hp
      obtain ⟨⟨⟨x, y⟩, a, b⟩, ha, rfl⟩ := List.mem_map.1 hp
      obtain ⟨hx, hy, hxa, hyb⟩ := hl _ ha
      cases x <;> simp only [Val.WT] at hx
      cases y <;> simp only [Val.WT] at hy
      exact ⟨bits32 _, bits32 _, hxa, hyb⟩)
    simp only [List.map_map, Function.comp_def, List.length_map] at this hlt
    unfold NearDot
    simp only [List.map_map, Function.comp_def, List.length_map, Val.rat]
    rw [of32 (by rw [← two_sign b32_ok]; exact hlt)]
    exact this
  · obtain ⟨rfl, hlt⟩ := dotTo64 (by
      intro p hp
      obtain ⟨a, ha, rfl⟩ := List.mem_map.1 hp
      exact ⟨(hl a ha).1, (hl a ha).2.1⟩) hd
    have := macs_zero b64_ok (step64_steps hfp) (l := l.map fun p => ((p.1.1.bits, p.1.2.bits), p.2)) (by
      intro p hp
      obtain ⟨⟨⟨x, y⟩, a, b⟩, ha, rfl⟩ := List.mem_map.1 hp
      obtain ⟨hx, hy, hxa, hyb⟩ := hl _ ha
      cases x <;> simp only [Val.WT] at hx
      cases y <;> simp only [Val.WT] at hy
      exact ⟨bits64 _, bits64 _, hxa, hyb⟩)
    simp only [List.map_map, Function.comp_def, List.length_map] at this hlt
    unfold NearDot
    simp only [List.map_map, Function.comp_def, List.length_map, Val.rat]
    rw [of64 (by rw [← two_sign b64_ok]; exact hlt)]
    exact this

theorem dotTo_floats (hc : c = .f32 ∨ c = .f64) {fp : FloatOps} {z : Val} {l : List (Val × Val)} (hz : z.WT c) (hl : ∀ p ∈ l, p.1.WT c ∧ p.2.WT c) :
    ∃ w, DotTo fp c z l w := by
  induction l generalizing z with
  | nil => exact ⟨z, rfl⟩
  | cons p l ih =>
    obtain ⟨x, y⟩ := p
    obtain ⟨hx, hy⟩ := hl _ (List.mem_cons_self ..)
    have : ∃ v, MacResult fp c z x y v ∧ v.WT c := by
      rcases hc with rfl | rfl <;> cases x <;> simp only [Val.WT] at hx <;> cases y <;> simp only [Val.WT] at hy <;> cases z <;> simp only [Val.WT] at hz <;>
        exact ⟨_, rfl, trivial⟩
    obtain ⟨v, hv, hw⟩ := this
    obtain ⟨w, hd⟩ := ih hw (fun p hp => hl p (List.mem_cons_of_mem _ hp))
    exact ⟨w, v, hv, hd⟩

/-! ## The bound in simpler terms -/

theorem pow_bound {u : Rat} (hu : 0 ≤ u) (n : Nat) (h : n * u ≤ 1) : (1 + u) ^ n * (1 - n * u) ≤ 1 := by
  induction n with
  | zero => rw [Rat.pow_zero]; simp; grind
  | succ n ih =>
    have e : ((n + 1 : Nat) : Rat) = n + 1 := by simp
    rw [e] at h ⊢
    rw [Rat.pow_succ]
    have h1 := ih (by grind)
    have h2 := one_le_pow (show 1 ≤ 1 + u by grind) n
    have hn : (0 : Rat) ≤ n := by exact_mod_cast Nat.zero_le n
    generalize (1 + u) ^ n = P at *
    generalize (n : Rat) = k at *
    have h3 : 0 ≤ P * ((k + 1) * (u * u)) := Rat.mul_nonneg (by grind) (Rat.mul_nonneg (by grind) (Rat.mul_nonneg hu hu))
    grind

theorem pow_le_twice {u : Rat} (hu : 0 ≤ u) (n : Nat) (h : 2 * (n * u) ≤ 1) : (1 + u) ^ n ≤ 1 + 2 * (n * u) := by
  have h1 := pow_bound hu n (by grind)
  have h2 := one_le_pow (show 1 ≤ 1 + u by grind) n
  have hn : (0 : Rat) ≤ n := by exact_mod_cast Nat.zero_le n
  have hx := Rat.mul_nonneg hn hu
  generalize (1 + u) ^ n = P at *
  generalize (n : Rat) * u = x at *
  have h3 := Rat.mul_le_mul_of_nonneg_left h1 (show 0 ≤ 1 + 2 * x by grind)
  have h4 : 0 ≤ P * (x * (1 - 2 * x)) := Rat.mul_nonneg (by grind) (Rat.mul_nonneg hx (by grind))
  grind

theorem slack_simple (F : Fmt) {n : Nat} {t : Rat} (h0 : 0 ≤ t) (hn : 2 * (n + 1) ≤ 2 ^ F.p) :
    F.slack n t ≤ 2 * (n + 1) / 2 ^ F.p * t + 2 * n * 2 ^ F.emin := by
  have hp := two_pow_pos_rat F.p
  have hi : (2 : Rat) ^ F.p * (1 / 2 ^ F.p) = 1 := by rw [Rat.div_def, Rat.one_mul]; exact Rat.mul_inv_cancel _ (by grind)
  have hu := grow_unit F
  have hM : (0 : Rat) < 2 ^ F.emin := zpow_pos _
  have hn' : 2 * ((n : Rat) + 1) ≤ 2 ^ F.p := by
    have h := Rat.natCast_le_natCast.2 hn
    have e1 : ((2 * (n + 1) : Nat) : Rat) = 2 * (n + 1) := by simp
    have e2 : ((2 ^ F.p : Nat) : Rat) = 2 ^ F.p := by simp
    rwa [e1, e2] at h
  have hk : (0 : Rat) ≤ n := by exact_mod_cast Nat.zero_le n
  have e : ((n + 1 : Nat) : Rat) = n + 1 := by simp
  have hs : 2 * (((n : Rat) + 1) * (1 / 2 ^ F.p)) ≤ 1 := by
    have := Rat.mul_le_mul_of_nonneg_left hn' hu
    rw [Rat.mul_comm (1 / 2 ^ F.p) (2 ^ F.p), hi] at this
    grind
  have b1 := pow_le_twice hu (n + 1) (by rw [e]; exact hs)
  have b2 := pow_le_twice hu n (by grind)
  rw [e] at b1
  have e3 : 2 * ((n : Rat) + 1) / 2 ^ F.p = 2 * ((n + 1) * (1 / 2 ^ F.p)) := by rw [Rat.div_def, Rat.div_def]; grind
  rw [e3]
  unfold Fmt.slack Fmt.grow
  generalize (1 : Rat) / 2 ^ F.p = u at *
  generalize (1 + u) ^ (n + 1) = P at *
  generalize (1 + u) ^ n = Q at *
  generalize (2 : Rat) ^ F.emin = M at *
  generalize (n : Rat) = k at *
  have a1 : 0 ≤ (1 + 2 * ((k + 1) * u) - P) * t := Rat.mul_nonneg (by grind) h0
  have a2 : 0 ≤ k * ((2 - Q) * M) := Rat.mul_nonneg hk (Rat.mul_nonneg (by grind) (by grind))
  grind

end Aitisa
