import Verif.Proof.IeeeMac
import Verif.Proof.Error
import Verif.Proof.IeeeLaws
import Verif.Proof.SoftmaxTop

/-!
# Error of rounded averages
-/

namespace Aitisa

variable {F : Fmt}

/-! ## Exact operations -/

theorem convert_rat {G : Fmt} (h : F.OK) (hG : G.OK) (hp : F.p ≤ G.p) (hl : F.low ≤ G.low)
    (hr : G.low + 2 ^ F.w ≤ F.low + 2 ^ G.w) {b : Nat} (hb : b < 2 * F.signBit) {x : Rat} (hx : F.rat b = some x) : G.rat (F.convert G b) = some x := by
  unfold Fmt.rat at hx
  cases hd : F.decode b with
  | nan => simp [hd] at hx
  | inf s => simp [hd] at hx
  | fin s m e =>
    simp only [hd, Option.some.injEq] at hx
    obtain ⟨k, hk⟩ := convert_wide h hG hp hl hr hb hd
    unfold Fmt.rat
    rw [hk]
    simp only [Option.some.injEq]
    rw [← hx]
    have e1 : (sgn s (m * 2 ^ k) : Rat) = (sgn s m : Rat) * 2 ^ k := by
      cases s <;> simp [sgn, Rat.intCast_mul, Rat.natCast_mul, Rat.natCast_pow, Rat.neg_mul]
    rw [e1, Rat.mul_assoc, ← Rat.zpow_natCast, ← Rat.zpow_add two_ne]
    congr 2; omega

theorem mul_unit (h : F.OK) {b : Nat} (hb : b < 2 * F.signBit) {x : Rat} (hx : F.rat b = some x) : F.mul b (F.ofInt 1) = b := by
  refine (neutral_fmt h hb ?_).2.2.1
  rw [Bool.eq_false_iff]
  intro hn
  unfold Fmt.rat at hx
  rw [decode_isNaN h hb hn] at hx
  cases hx

theorem div_some (h : F.OK) {a b : Nat} {q y : Rat} (hb : F.rat b = some y) (hq : F.rat (F.div a b) = some q) : ∃ x, F.rat a = some x := by
  have hn := rat_nan h
  have hi := rat_inf h
  unfold Fmt.div at hq
  unfold Fmt.rat at hb ⊢
  cases ha : F.decode a <;> cases hb' : F.decode b <;> simp only [ha, hb'] at hq hb <;> first
    | (cases hb; done)
    | exact ⟨_, rfl⟩
    | (rw [hn] at hq; cases hq; done)
    | (rw [hi] at hq; cases hq; done)

theorem convert_some {G : Fmt} (hG : G.OK) {a : Nat} {q : Rat} (hq : G.rat (F.convert G a) = some q) : ∃ x, F.rat a = some x := by
  have hn := rat_nan hG
  have hi := rat_inf hG
  unfold Fmt.convert at hq
  unfold Fmt.rat
  cases ha : F.decode a <;> simp only [ha] at hq
  · rw [hn] at hq; cases hq
  · rw [hi] at hq; cases hq
  · exact ⟨_, rfl⟩

/-! ## Sums -/

theorem ratDot_ones (l : List Rat) : ratDot (l.map fun x => (x, 1)) = l.sum := by
  induction l with
  | nil => rfl
  | cons x l ih => simp only [List.map_cons, ratDot, ih, List.sum_cons, Rat.mul_one]

theorem ratMass_ones (l : List Rat) : ratMass (l.map fun x => (x, 1)) = absSum l := by
  unfold absSum
  induction l with
  | nil => rfl
  | cons x l ih => simp only [List.map_cons, ratMass, ih, List.sum_cons, Rat.mul_one]

theorem absSum_nonneg (l : List Rat) : 0 ≤ absSum l := by rw [← ratMass_ones]; exact ratMass_nonneg _

theorem sum_le_absSum (l : List Rat) : l.sum.abs ≤ absSum l := by
  unfold absSum
  induction l with
  | nil => decide
  | cons x l ih => simp only [List.map_cons, List.sum_cons]; grind [Rat.abs]

theorem macs_ones (h : F.OK) (z : Nat) {l : List Nat} (hl : ∀ a ∈ l, a < 2 * F.signBit ∧ ∃ x, F.rat a = some x) :
    macs (fun z a b => F.add z (F.mul a b)) z (l.map fun a => (a, F.ofInt 1)) = l.foldl F.add z := by
  unfold macs
  induction l generalizing z with
  | nil => rfl
  | cons a l ih =>
    obtain ⟨h1, x, h2⟩ := hl a (List.mem_cons_self ..)
    simp only [List.map_cons, List.foldl_cons]
    rw [mul_unit h h1 h2]
    exact ih _ fun a ha => hl a (List.mem_cons_of_mem _ ha)

theorem sums_near (h : F.OK) {l : List (Nat × Rat)} (hl : ∀ p ∈ l, p.1 < 2 * F.signBit ∧ F.rat p.1 = some p.2) :
    (∀ q, F.rat ((l.map Prod.fst).foldl F.add 0) = some q → (q - (l.map Prod.snd).sum).abs ≤ F.slack l.length (absSum (l.map Prod.snd))) ∧
    (absSum (l.map Prod.snd) + F.slack l.length (absSum (l.map Prod.snd)) < F.limit → ∃ q, F.rat ((l.map Prod.fst).foldl F.add 0) = some q) := by
  have h1 : F.rat (F.ofInt 1) = some 1 := by
    have := isInt_rat h (ofInt_int h (n := 1) (Nat.one_lt_two_pow (by have := h.p3; omega)))
    simpa using this
  have := macs_zero h (f := fun z a b => F.add z (F.mul a b)) (fun _ _ _ _ _ _ => .inl rfl) (l := l.map fun p => ((p.1, F.ofInt 1), (p.2, 1))) (by
    intro p hp
    obtain ⟨a, ha, rfl⟩ := List.mem_map.1 hp
    exact ⟨(hl a ha).1, ofInt_lt h 1, (hl a ha).2, h1⟩)
  simp only [List.map_map, Function.comp_def, List.length_map] at this
  have e1 := macs_ones h 0 (l := l.map Prod.fst) (by
    intro p hp
    obtain ⟨a, ha, rfl⟩ := List.mem_map.1 hp
    exact ⟨(hl a ha).1, _, (hl a ha).2⟩)
  have e2 := ratDot_ones (l.map Prod.snd)
  have e3 := ratMass_ones (l.map Prod.snd)
  simp only [List.map_map, Function.comp_def] at e1 e2 e3
  rwa [e1, e2, e3] at this

/-! ## Averages -/

theorem abs_mul_right (v : Rat) {i : Rat} (hi : 0 ≤ i) : (v * i).abs = v.abs * i := by
  by_cases h : 0 ≤ v
  · have := Rat.mul_nonneg h hi
    have e1 : (v * i).abs = v * i := by generalize v * i = w at *; grind [Rat.abs]
    have e2 : v.abs = v := by grind [Rat.abs]
    rw [e1, e2]
  · have := Rat.mul_nonneg (show 0 ≤ -v by grind) hi
    have e1 : (v * i).abs = -v * i := by rw [Rat.neg_mul] at *; generalize v * i = w at *; grind [Rat.abs]
    have e2 : v.abs = -v := by grind [Rat.abs]
    rw [e1, e2]

theorem avg_step {u g P s t v q k H i : Rat} (hg : g = 1 + u) (hu : 0 ≤ u) (hP : 1 ≤ P) (hk : 0 ≤ k) (hH : 0 ≤ H) (hi : 0 ≤ i) (ht : s.abs ≤ t)
    (hv : (v - s).abs ≤ (P * g - 1) * t + k * P * (2 * H)) (hq : (q - v * i).abs ≤ u * (v * i).abs + H) :
    (q - s * i).abs ≤ ((P * g * g - 1) * t + (k + 1) * (P * g) * (2 * H)) * i + 2 * H := by
  obtain ⟨B, hB⟩ : ∃ B, B = (P * g - 1) * t + k * P * (2 * H) := ⟨_, rfl⟩
  rw [← hB] at hv
  have e1 : (v * i).abs = v.abs * i := by exact abs_mul_right _ hi
  have hv' : v.abs ≤ t + B := by grind [Rat.abs]
  have h1 : u * (v.abs * i) ≤ u * ((t + B) * i) := Rat.mul_le_mul_of_nonneg_left (Rat.mul_le_mul_of_nonneg_right hv' hi) hu
  have h2 : (v * i - s * i).abs ≤ B * i := by
    rw [show v * i - s * i = (v - s) * i by grind, abs_mul_right _ hi]
    exact Rat.mul_le_mul_of_nonneg_right hv hi
  rw [e1] at hq
  have h3 : (q - s * i).abs ≤ u * ((t + B) * i) + H + B * i := by grind [Rat.abs]
  have h4 : 0 ≤ P * (g * (2 * H)) * i := Rat.mul_nonneg (Rat.mul_nonneg (by grind) (Rat.mul_nonneg (by grind) (by grind))) hi
  refine Rat.le_trans h3 ?_
  clear h3 h2 h1 hq hv hv' e1
  subst hg hB
  grind

theorem avg_inside {B t s i q : Rat} (hi : 0 ≤ i) (ht : s.abs ≤ t) (hq : (q - s * i).abs ≤ B) : q.abs ≤ t * i + B := by
  have h1 : (s * i).abs ≤ t * i := by rw [abs_mul_right _ hi]; exact Rat.mul_le_mul_of_nonneg_right ht hi
  generalize s * i = a at *
  grind [Rat.abs]

theorem div_near {K : Nat} (h : F.OK) (hK : 0 < K) (hK' : K < 2 ^ F.p) {l : List (Nat × Rat)} (hl : ∀ p ∈ l, p.1 < 2 * F.signBit ∧ F.rat p.1 = some p.2) :
    (∀ q, F.rat (F.div ((l.map Prod.fst).foldl F.add 0) (F.ofInt K)) = some q →
      (q - (l.map Prod.snd).sum / K).abs ≤ F.slack (l.length + 1) (absSum (l.map Prod.snd)) / K + 2 ^ F.emin) ∧
    (absSum (l.map Prod.snd) + F.slack (l.length + 1) (absSum (l.map Prod.snd)) < F.limit →
      ∃ q, F.rat (F.div ((l.map Prod.fst).foldl F.add 0) (F.ofInt K)) = some q) := by
  obtain ⟨s1, s2⟩ := sums_near h hl
  have ht := sum_le_absSum (l.map Prod.snd)
  have hzl : (l.map Prod.fst).foldl F.add 0 < 2 * F.signBit := by
    have : ∀ (l : List Nat) z, z < 2 * F.signBit → l.foldl F.add z < 2 * F.signBit := by
      intro l
      induction l with
      | nil => exact fun z hz => hz
      | cons a l ih => exact fun z hz => ih _ (add_lt h _ _)
    exact this _ _ (by have := sign_pos h; omega)
  generalize (l.map Prod.fst).foldl F.add 0 = z at *
  generalize (l.map Prod.snd).sum = s at *
  generalize absSum (l.map Prod.snd) = t at *
  generalize l.length = n at *
  have hk : F.rat (F.ofInt K) = some (K : Rat) := by
    have := isInt_rat h (ofInt_int h (n := K) (by simpa using hK'))
    rwa [Rat.intCast_natCast] at this
  have hK1 : (1 : Rat) ≤ K := by exact_mod_cast hK
  have hi : (0 : Rat) ≤ (K : Rat)⁻¹ := Rat.le_of_lt (Rat.inv_pos.2 (by grind))
  have hi1 : (K : Rat)⁻¹ ≤ 1 := by
    have := Rat.mul_le_mul_of_nonneg_right hK1 hi
    rw [Rat.mul_inv_cancel _ (by grind)] at this
    grind
  have h0 : 0 ≤ t := Rat.le_trans (show 0 ≤ s.abs by grind [Rat.abs]) ht
  have hu := grow_unit F
  have hP := one_le_pow (one_le_grow F) n
  have hn : (0 : Rat) ≤ n := by exact_mod_cast Nat.zero_le n
  have hH : (0 : Rat) ≤ 2 ^ F.emin / 2 := by have : (0 : Rat) < 2 ^ F.emin := zpow_pos _; generalize (2 : Rat) ^ F.emin = M at *; grind
  have hd : ∀ v, F.rat z = some v → F.Rounded (v / K) (F.div z (F.ofInt K)) := fun v hv =>
    div_rounded h hzl (ofInt_lt h _) hv hk (by grind)
  refine ⟨fun q hq => ?_, fun hlim => ?_⟩
  · obtain ⟨v, hv⟩ := div_some h hk hq
    have hc := (hd v hv).close h hq
    have h1 := s1 v hv
    rw [slack_eq] at h1
    rw [Rat.div_def] at hc ⊢
    have := avg_step (g := F.grow) rfl hu hP hn hH hi ht h1 hc
    rw [← slack_succ] at this
    rw [Rat.div_def (F.slack _ _)]
    have e : (2 : Rat) * (2 ^ F.emin / 2) = 2 ^ F.emin := by generalize (2 : Rat) ^ F.emin = M; grind
    rwa [e] at this
  · have hm := slack_mono F (Nat.le_succ n) h0 (Rat.le_refl (a := t))
    obtain ⟨v, hv⟩ := s2 (by grind)
    have h1 := s1 v hv
    have hv' : v.abs ≤ t + F.slack n t := by generalize F.slack n t = B at *; grind [Rat.abs]
    have h2 : (v / K).abs ≤ v.abs := by
      rw [Rat.div_def, abs_mul_right _ hi]
      have := Rat.mul_le_mul_of_nonneg_left hi1 (show 0 ≤ v.abs by grind [Rat.abs])
      rwa [Rat.mul_one] at this
    obtain ⟨q, hq, -⟩ := (hd v hv).1 (by
      have := Rat.le_trans h2 (Rat.le_trans hv' hm)
      generalize (v / K).abs = a at *
      grind)
    exact ⟨q, hq⟩

theorem narrow_near {G : Fmt} (h : F.OK) (hG : G.OK) {d : Nat} (hd : d < 2 * F.signBit) {s t i B : Rat} (hi : 0 ≤ i) (ht : s.abs ≤ t)
    (hb : ∀ q, F.rat d = some q → (q - s * i).abs ≤ B) :
    (∀ q, G.rat (F.convert G d) = some q → (q - s * i).abs ≤ B + (1 / 2 ^ G.p * (t * i + B) + 2 ^ G.emin / 2)) ∧
    ((∃ q, F.rat d = some q) → t * i + B < G.limit → ∃ q, G.rat (F.convert G d) = some q) := by
  have hr : ∀ v, F.rat d = some v → G.Rounded v (F.convert G d) := fun v hv => convert_rounded h hG hd hv
  have hin : ∀ v, F.rat d = some v → v.abs ≤ t * i + B := fun v hv => avg_inside hi ht (hb v hv)
  refine ⟨fun q hq => ?_, fun ⟨v, hv⟩ h2 => ?_⟩
  · obtain ⟨v, hv⟩ := convert_some hG hq
    have hcl := (hr v hv).close hG hq
    have h1 := hb v hv
    have h3 := Rat.mul_le_mul_of_nonneg_left (hin v hv) (grow_unit G)
    refine Rat.le_trans (b := (q - v).abs + (v - s * i).abs) ?_ ?_
    · generalize s * i = a; grind [Rat.abs]
    · generalize 1 / 2 ^ G.p * v.abs = a1 at *
      generalize 1 / 2 ^ G.p * (t * i + B) = a2 at *
      generalize (2 : Rat) ^ G.emin / 2 = a3 at *
      generalize (q - v).abs = a4 at *
      generalize (v - s * i).abs = a5 at *
      clear hr hin hb hi
      grind
  · obtain ⟨q, hq, -⟩ := (hr v hv).1 (by have := hin v hv; generalize t * i + B = b at *; grind)
    exact ⟨q, hq⟩

variable {c : Code}

theorem toDouble_bits (hc : c = .f32 ∨ c = .f64) {x : Val} {a : Rat} (hx : x.WT c) (ha : x.rat = some a) : b64.rat (toDouble ieee x).toNat = some a := by
  rcases hc with rfl | rfl
  · cases x <;> simp only [Val.WT] at hx
    rename_i b
    show b64.rat (BitVec.ofNat 64 (b32.convert b64 b.toNat)).toNat = _
    rw [of64 (convert_lt b64_ok _)]
    exact convert_rat b32_ok b64_ok (by decide) (by decide) (by decide) (bits32 b) ha
  · cases x <;> simp only [Val.WT] at hx
    simpa only [toDouble, Val.rat] using ha

theorem sums_bits (es : List Val) (z : BitVec 64) :
    (es.foldl (fun t e => ieee.add64 t (toDouble ieee e)) z).toNat = (es.map fun e => (toDouble ieee e).toNat).foldl b64.add z.toNat := by
  induction es generalizing z with
  | nil => rfl
  | cons e es ih =>
    simp only [List.foldl_cons, List.map_cons]
    have e1 : (ieee.add64 z (toDouble ieee e)).toNat = b64.add z.toNat (toDouble ieee e).toNat := of64 (add_lt b64_ok _ _)
    rw [ih, e1]

/-- An average that is computed in floating-point arithmetic is near the exact one. -/
theorem avgOf_near (hc : c = .f32 ∨ c = .f64) {K : Nat} (hK : 0 < K) (hK' : K < 2 ^ 53) {l : List (Val × Rat)}
    (hl : ∀ p ∈ l, p.1.WT c ∧ p.1.rat = some p.2) {w : Val} (hw : AvgOf ieee c K (l.map Prod.fst) w) : NearAvg c K w (l.map Prod.snd) := by
  obtain ⟨t, ht, hw⟩ := hw
  rw [sumsTo_iff] at ht
  have hb := div_near b64_ok hK hK' (l := l.map fun p => ((toDouble ieee p.1).toNat, p.2)) (by
    intro p hp
    obtain ⟨a, ha, rfl⟩ := List.mem_map.1 hp
    exact ⟨bits64 _, toDouble_bits hc (hl a ha).1 (hl a ha).2⟩)
  simp only [List.map_map, Function.comp_def, List.length_map] at hb
  have e : t.toNat = (l.map fun p => (toDouble ieee p.1).toNat).foldl b64.add 0 := by
    rw [ht, sums_bits, show (ieee.ofInt64 0).toNat = 0 by decide]
    simp only [List.map_map, Function.comp_def]
  rw [← e] at hb
  have e2 : (ieee.div64 t (ieee.ofInt64 K)).toNat = b64.div t.toNat (b64.ofInt K) := by
    show (BitVec.ofNat 64 (b64.div t.toNat (BitVec.ofNat 64 (b64.ofInt K)).toNat)).toNat = _
    rw [of64 (div_lt b64_ok _ _), of64 (ofInt_lt b64_ok _)]
  rw [← e2] at hb
  have ea : ∀ t, b64.slack (l.length + 1) t / K + 2 ^ b64.emin = avgSlack l.length K t := fun t => by rw [avgSlack]
  simp only [ea] at hb
  have ef : ∀ n t, Code.f32.avgSlack n K t = avgSlack n K t + (1 / 2 ^ b32.p * (t / K + avgSlack n K t) + 2 ^ b32.emin / 2) := fun n t => by rw [Code.avgSlack]; exact nofun
  have eg : ∀ n t, Code.f64.avgSlack n K t = avgSlack n K t := fun n t => by rw [Code.avgSlack]
  generalize ieee.div64 t (ieee.ofInt64 K) = d at *
  unfold NearAvg
  simp only [List.length_map]
  have ht' := sum_le_absSum (l.map Prod.snd)
  have hi : (0 : Rat) ≤ (K : Rat)⁻¹ := Rat.le_of_lt (Rat.inv_pos.2 (cast_pos hK))
  have f1 : Code.f32.fmt = b32 := rfl
  have f2 : Code.f64.fmt = b64 := rfl
  rcases hc with rfl | rfl
  · obtain rfl := hw
    have ew : (Val.f32 (ieee.narrow d)).rat = b32.rat (b64.convert b32 d.toNat) := by
      show b32.rat (BitVec.ofNat 32 (b64.convert b32 d.toNat)).toNat = _
      rw [of32 (convert_lt b32_ok _)]
    rw [ew]
    have := narrow_near b64_ok b32_ok (bits64 d) hi ht' (B := avgSlack l.length K (absSum (l.map Prod.snd))) (by rw [← Rat.div_def]; exact hb.1)
    rw [← Rat.div_def, ← Rat.div_def] at this
    rw [ef, f1]
    exact ⟨this.1, fun h1 h2 => this.2 (hb.2 h1) h2⟩
  · obtain rfl := hw
    rw [eg, f2]
    exact ⟨hb.1, fun h1 _ => hb.2 h1⟩

/-! ## The bound in simpler terms -/

theorem div_le_self {a : Rat} (ha : 0 ≤ a) {K : Nat} (hK : 0 < K) : a / K ≤ a := by
  have hK1 : (1 : Rat) ≤ K := by exact_mod_cast hK
  have hi : (0 : Rat) ≤ (K : Rat)⁻¹ := Rat.le_of_lt (Rat.inv_pos.2 (cast_pos hK))
  have h1 := Rat.mul_le_mul_of_nonneg_right hK1 hi
  rw [Rat.mul_inv_cancel _ (by grind)] at h1
  have := Rat.mul_le_mul_of_nonneg_left (show (K : Rat)⁻¹ ≤ 1 by grind) ha
  rw [Rat.div_def]
  grind

theorem avgSlack_simple {n K : Nat} {t : Rat} (hK : 0 < K) (h0 : 0 ≤ t) (hn : n < 4503599627370495) :
    avgSlack n K t ≤ 2 * (n + 2) / 2 ^ 53 * (t / K) + (2 * n + 3) * 2 ^ b64.emin := by
  have h := slack_simple b64 (n := n + 1) h0 (by show _ ≤ 2 ^ 53; omega)
  have e1 : ((n + 1 : Nat) : Rat) = n + 1 := by simp
  have hn0 : (0 : Rat) ≤ n := by exact_mod_cast Nat.zero_le n
  rw [e1, show b64.p = 53 from rfl, show (n : Rat) + 1 + 1 = n + 2 by grind] at h
  have hM : (0 : Rat) < 2 ^ b64.emin := zpow_pos _
  unfold avgSlack
  generalize (2 : Rat) ^ b64.emin = M at *
  have hi : (0 : Rat) ≤ (K : Rat)⁻¹ := Rat.le_of_lt (Rat.inv_pos.2 (cast_pos hK))
  have h1 := Rat.mul_le_mul_of_nonneg_right h hi
  have h2 := div_le_self (a := 2 * ((n : Rat) + 1) * M) (Rat.mul_nonneg (by grind) (by grind)) hK
  rw [Rat.div_def] at h2
  generalize 2 * ((n : Rat) + 2) / 2 ^ 53 = u at *
  rw [Rat.add_mul, Rat.mul_assoc] at h1
  rw [Rat.div_def, Rat.div_def]
  generalize t * (K : Rat)⁻¹ = a at *
  generalize b64.slack (n + 1) t * (K : Rat)⁻¹ = b at *
  generalize 2 * ((n : Rat) + 1) * M * (K : Rat)⁻¹ = d at *
  have e : (2 * (n : Rat) + 3) * M = 2 * ((n : Rat) + 1) * M + M := by grind
  rw [e]
  grind

theorem narrow_simple {a v U N : Rat} (ha : 0 ≤ a) (hU : 0 ≤ U) (hU' : U ≤ 1 / 2) (hN : 0 ≤ N) (hv : v ≤ U / 2 * a + N / 4) :
    v + (U * (a + v) + N / 2) ≤ 2 * U * a + N := by
  have h1 := Rat.mul_le_mul_of_nonneg_left hv hU
  have h0 := Rat.mul_nonneg hU ha
  have h2 := Rat.mul_le_mul_of_nonneg_right hU' h0
  have h3 := Rat.mul_le_mul_of_nonneg_right hU' hN
  have e1 : U * (U / 2 * a + N / 4) = U * (U * a) / 2 + U * N / 4 := by grind
  have e2 : U / 2 * a = U * a / 2 := by grind
  have e3 : v + (U * (a + v) + N / 2) = v + U * a + U * v + N / 2 := by grind
  have e4 : 2 * U * a = 2 * (U * a) := by grind
  rw [e1] at h1
  rw [e2] at hv
  rw [e3, e4]
  generalize U * (U * a) = x1 at *
  generalize U * N = x2 at *
  generalize U * v = x3 at *
  generalize U * a = x4 at *
  clear e1 e2 e3 e4
  grind

theorem avgSlack_float {n K : Nat} {t : Rat} (hK : 0 < K) (h0 : 0 ≤ t) (hn : n ≤ 67108864) :
    Code.f32.avgSlack n K t ≤ 2 / 2 ^ 24 * (t / K) + 2 ^ (-149 : Int) := by
  have h := avgSlack_simple (n := n) hK h0 (by omega)
  have ef : Code.f32.avgSlack n K t = avgSlack n K t + (1 / 2 ^ b32.p * (t / K + avgSlack n K t) + 2 ^ b32.emin / 2) := by
    rw [Code.avgSlack]; exact nofun
  rw [ef, show b32.p = 24 from rfl, show b32.emin = -149 from rfl]
  rw [show b64.emin = -1074 from rfl] at h
  have hi : (0 : Rat) ≤ (K : Rat)⁻¹ := Rat.le_of_lt (Rat.inv_pos.2 (cast_pos hK))
  have ha : 0 ≤ t / K := by rw [Rat.div_def]; exact Rat.mul_nonneg h0 hi
  have hn1 : (n : Rat) ≤ 67108864 := by exact_mod_cast Rat.natCast_le_natCast.2 hn
  have c1 : (268435456 : Rat) * 2 ^ (-1074 : Int) ≤ 2 ^ (-149 : Int) / 4 := by decide +kernel
  have c2 : (0 : Rat) ≤ 2 ^ (-149 : Int) := by decide +kernel
  have c3 : (0 : Rat) ≤ 2 ^ (-1074 : Int) := by decide +kernel
  have c4 : (2 : Rat) / 2 ^ 24 = 2 * (1 / 2 ^ 24) := by decide +kernel
  have c5 : (1 / 2 ^ 24 : Rat) ≤ 1 / 2 := by decide +kernel
  have c6 : (0 : Rat) ≤ 1 / 2 ^ 24 := by decide +kernel
  have c7 : (268435456 : Rat) / 2 ^ 53 = 1 / 2 ^ 24 / 2 := by decide +kernel
  have c8 : 2 * ((n : Rat) + 2) / 2 ^ 53 ≤ 268435456 / 2 ^ 53 := by
    rw [Rat.div_def, Rat.div_def]
    exact Rat.mul_le_mul_of_nonneg_right (by grind) (by decide +kernel)
  rw [c4]
  refine narrow_simple ha c6 c5 c2 (Rat.le_trans h ?_)
  have h1 := Rat.mul_le_mul_of_nonneg_right c8 ha
  have h2 := Rat.mul_le_mul_of_nonneg_right (show 2 * (n : Rat) + 3 ≤ 268435456 by grind) c3
  rw [c7] at h1
  generalize (1 / 2 ^ 24 : Rat) / 2 * (t / K) = x1 at *
  generalize 2 * ((n : Rat) + 2) / 2 ^ 53 * (t / K) = x2 at *
  generalize (2 * (n : Rat) + 3) * 2 ^ (-1074 : Int) = x3 at *
  generalize (268435456 : Rat) * 2 ^ (-1074 : Int) = x4 at *
  generalize (2 : Rat) ^ (-149 : Int) / 4 = x5 at *
  clear c2 c3 c4 c5 c6 c7 c8 h
  grind

end Aitisa
