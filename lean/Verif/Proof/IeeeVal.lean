import Verif.Proof.Ieee
import Verif.Spec.Exact
import Verif.Spec.Math
import Verif.Spec.Pooling

/-!
# IEEE arithmetic on elements
-/

namespace Aitisa

theorem sgn_of_abs {s : Bool} {m k : Nat} {n : Int} (h : sgn s m * 2 ^ k = n * 2 ^ j) (hn : n ≠ 0) : sgn s n.natAbs = n := by
  have hpos : ∀ n : Nat, (0 : Int) < 2 ^ n := fun n => by rw [← pow_cast]; exact Int.natCast_pos.2 (Nat.two_pow_pos n)
  have h1 := hpos k
  have h2 := hpos j
  cases s
  · have h3 : 0 ≤ sgn false m * 2 ^ k := Int.mul_nonneg (by simp [sgn]) (Int.le_of_lt h1)
    have : 0 ≤ n := by
      rcases Int.lt_or_le n 0 with h4 | h4
      · have := Int.mul_neg_of_neg_of_pos h4 h2; omega
      · exact h4
    simp [sgn]; omega
  · have h3 : 0 ≤ (m : Int) * 2 ^ k := Int.mul_nonneg (by omega) (Int.le_of_lt h1)
    have h5 : sgn true m * 2 ^ k = -((m : Int) * 2 ^ k) := by simp [sgn, Int.neg_mul]
    have : n ≤ 0 := by
      rcases Int.lt_or_le 0 n with h4 | h4
      · have := Int.mul_pos h4 h2; omega
      · exact h4
    simp [sgn]; omega

theorem dvd_pow_trade {m : Nat} : ∀ (k d n : Nat), n ∣ m * 2 ^ d → Nat.log2 n ≤ k → n ∣ m * 2 ^ k := by
  intro k
  induction k with
  | zero =>
    intro d n h hl
    have : n < 2 := by
      by_cases h0 : n = 0
      · omega
      · have := (log2_bounds h0).2
        have e : Nat.log2 n = 0 := by omega
        rw [e] at this; omega
    rcases (by omega : n = 0 ∨ n = 1) with rfl | rfl
    · have := Nat.eq_zero_of_zero_dvd h
      rcases Nat.mul_eq_zero.1 this with h | h
      · simp [h]
      · exact absurd h (Nat.ne_of_gt (Nat.two_pow_pos _))
    · exact Nat.one_dvd _
  | succ k ih =>
    intro d n h hl
    rcases Nat.mod_two_eq_zero_or_one n with h2 | h2
    · obtain ⟨n', rfl⟩ : ∃ n', n = 2 * n' := ⟨n / 2, by omega⟩
      cases d with
      | zero => exact Nat.dvd_trans (by simpa using h) (Nat.dvd_mul_right _ _)
      | succ d =>
        have e1 : m * 2 ^ (d + 1) = 2 * (m * 2 ^ d) := by rw [Nat.pow_succ]; ac_rfl
        have e2 : m * 2 ^ (k + 1) = 2 * (m * 2 ^ k) := by rw [Nat.pow_succ]; ac_rfl
        rw [e1] at h
        rw [e2]
        refine Nat.mul_dvd_mul_left 2 (ih d n' (Nat.dvd_of_mul_dvd_mul_left (by decide) h) ?_)
        by_cases h0 : n' = 0
        · subst h0; simp
        · have := log2_shift h0 1
          rw [show n' * 2 ^ 1 = 2 * n' by omega] at this
          omega
    · have hc : Nat.Coprime n (2 ^ d) := Nat.Coprime.pow_right d (by
        rw [Nat.coprime_comm, Nat.coprime_iff_gcd_eq_one, Nat.gcd_rec, h2]; rfl)
      exact Nat.dvd_trans (hc.dvd_of_dvd_mul_right h) (Nat.dvd_mul_right _ _)

/-- Division of whole numbers without remainder is exact. -/
theorem div_int {F : Fmt} (h : F.OK) {a b : Nat} {x y q : Int} (ha : F.IsInt a x) (hb : F.IsInt b y) (hy : y ≠ 0) (hxy : x = y * q)
    (hq : q.natAbs < 2 ^ F.p) : F.IsInt (F.div a b) q := by
  obtain ⟨s, m, e, ea, le, hx⟩ := units_fin ha
  obtain ⟨t, n, f, eb, lf, hy'⟩ := units_fin hb
  have hem := h.emin
  have hpos : ∀ n : Nat, (0 : Int) < 2 ^ n := fun n => by rw [← pow_cast]; exact Int.natCast_pos.2 (Nat.two_pow_pos n)
  have hA : m * 2 ^ (e - F.emin).toNat = x.natAbs * 2 ^ (-F.emin).toNat := by
    have := congrArg Int.natAbs hx
    simpa [natAbs_sgn, Int.natAbs_mul, Int.natAbs_pow] using this
  have hB : n * 2 ^ (f - F.emin).toNat = y.natAbs * 2 ^ (-F.emin).toNat := by
    have := congrArg Int.natAbs hy'
    simpa [natAbs_sgn, Int.natAbs_mul, Int.natAbs_pow] using this
  have hn0 : n ≠ 0 := by
    rintro rfl
    rw [Nat.zero_mul] at hB
    rcases Nat.mul_eq_zero.1 hB.symm with h1 | h1
    · omega
    · exact absurd h1 (Nat.ne_of_gt (Nat.two_pow_pos _))
  have hAB : m * 2 ^ (e - F.emin).toNat = n * q.natAbs * 2 ^ (f - F.emin).toNat := by
    rw [hA, hxy, Int.natAbs_mul]
    calc _ = y.natAbs * 2 ^ (-F.emin).toNat * q.natAbs := by ac_rfl
      _ = n * 2 ^ (f - F.emin).toNat * q.natAbs := by rw [hB]
      _ = _ := by ac_rfl
  simp only [Fmt.IsInt, Fmt.div, ea, eb, if_neg hn0]
  obtain ⟨k, hk⟩ : ∃ k, k = F.p + 3 + Nat.log2 n := ⟨_, rfl⟩
  rw [← hk]
  have hdvd : n ∣ m * 2 ^ k := dvd_pow_trade k (e - F.emin).toNat n (by rw [hAB, Nat.mul_assoc]; exact Nat.dvd_mul_right _ _) (by omega)
  obtain ⟨d, hd⟩ := hdvd
  rw [hd, Nat.mul_mod_right, if_pos rfl, Nat.mul_div_cancel_left _ (by omega), Nat.add_zero]
  have hval : d * 2 ^ (e - F.emin).toNat = q.natAbs * 2 ^ ((f - F.emin).toNat + k) := by
    apply Nat.eq_of_mul_eq_mul_left (Nat.pos_of_ne_zero hn0)
    calc n * (d * 2 ^ (e - F.emin).toNat) = n * d * 2 ^ (e - F.emin).toNat := by ac_rfl
      _ = m * 2 ^ (e - F.emin).toNat * 2 ^ k := by rw [← hd]; ac_rfl
      _ = n * q.natAbs * 2 ^ (f - F.emin).toNat * 2 ^ k := by rw [hAB]
      _ = n * (q.natAbs * 2 ^ ((f - F.emin).toNat + k)) := by rw [Nat.pow_add]; ac_rfl
  by_cases hq0 : q = 0
  · have : d = 0 := by
      rw [hq0] at hval
      rcases Nat.mul_eq_zero.1 (by simpa using hval : d * 2 ^ (e - F.emin).toNat = 0) with h | h
      · exact h
      · exact absurd h (Nat.ne_of_gt (Nat.two_pow_pos _))
    simp [this, Fmt.round, units_zero h, hq0]
  · rw [round_int h (s := s != t) (m := 2 * d) (k := q.natAbs) (K := (f - F.emin).toNat + k + 1) (e := e - f - (k + 1 : Nat)) (by omega)
      (by
        rw [show (e - f - ((k + 1 : Nat) : Int) + (((f - F.emin).toNat + k + 1 : Nat) : Int)).toNat = (e - F.emin).toNat by omega]
        rw [Nat.mul_assoc, hval, Nat.pow_succ]; ac_rfl) (by omega) hq]
    congr 2
    have h1 : sgn s m * 2 ^ (e - F.emin).toNat = q * (sgn t n * 2 ^ (f - F.emin).toNat) := by
      rw [hx, hy', hxy]; ac_rfl
    have hm0 : m ≠ 0 := by
      rintro rfl
      rw [Nat.zero_mul] at hAB
      have h3 : n * q.natAbs = 0 := by
        rcases Nat.mul_eq_zero.1 hAB.symm with h | h
        · exact h
        · exact absurd h (Nat.ne_of_gt (Nat.two_pow_pos _))
      rcases Nat.mul_eq_zero.1 h3 with h | h <;> omega
    have h3 := hpos (e - F.emin).toNat
    have h4 := hpos (f - F.emin).toNat
    have h5 : 0 < (m : Int) * 2 ^ (e - F.emin).toNat := Int.mul_pos (by omega) h3
    have h6 : 0 < (n : Int) * 2 ^ (f - F.emin).toNat := Int.mul_pos (by omega) h4
    obtain ⟨P, hP⟩ : ∃ P, P = (m : Int) * 2 ^ (e - F.emin).toNat := ⟨_, rfl⟩
    obtain ⟨Q, hQ⟩ : ∃ Q, Q = (n : Int) * 2 ^ (f - F.emin).toNat := ⟨_, rfl⟩
    rw [← hP] at h5
    rw [← hQ] at h6
    rcases Int.lt_or_gt_of_ne hq0 with hq' | hq'
    · have h7 := Int.mul_neg_of_neg_of_pos hq' h6
      cases s <;> cases t <;> simp only [sgn, if_true, Bool.false_eq_true, if_false, Int.neg_mul, Int.mul_neg, ← hP, ← hQ] at h1 <;>
        simp [sgn] <;> omega
    · have h7 := Int.mul_pos hq' h6
      cases s <;> cases t <;> simp only [sgn, if_true, Bool.false_eq_true, if_false, Int.neg_mul, Int.mul_neg, ← hP, ← hQ] at h1 <;>
        simp [sgn] <;> omega

/-- Conversion between formats is exact on the whole numbers below `2^p` of the target. -/
theorem convert_int {F G : Fmt} (h : F.OK) (hG : G.OK) {b : Nat} {n : Int} (hb : F.IsInt b n) (hn : n.natAbs < 2 ^ G.p) :
    G.IsInt (F.convert G b) n := by
  obtain ⟨s, m, e, hd, le, hx⟩ := units_fin hb
  have hem := h.emin
  simp only [Fmt.IsInt, Fmt.convert, hd]
  have habs : m * 2 ^ (e - F.emin).toNat = n.natAbs * 2 ^ (-F.emin).toNat := by
    have := congrArg Int.natAbs hx
    simpa [natAbs_sgn, Int.natAbs_mul, Int.natAbs_pow] using this
  by_cases h0 : n = 0
  · subst h0
    have : m = 0 := by
      rcases Nat.mul_eq_zero.1 (by simpa using habs : m * 2 ^ (e - F.emin).toNat = 0) with h | h
      · exact h
      · exact absurd h (Nat.ne_of_gt (Nat.two_pow_pos _))
    subst this
    simp [Fmt.round, units_zero hG]
  · rw [round_int hG (s := s) (m := m) (k := n.natAbs) (K := (-F.emin).toNat) (e := e) (by omega)
      (by rw [← habs]; congr 2; omega) (by omega) hn, sgn_of_abs hx h0]

section
theorem bits32 (b : BitVec 32) : b.toNat < 2 * b32.signBit := by have := b.isLt; simpa [b32, Fmt.signBit] using this
theorem bits64 (b : BitVec 64) : b.toNat < 2 * b64.signBit := by have := b.isLt; simpa [b64, Fmt.signBit] using this

theorem of32 {n : Nat} (h : n < 2 * b32.signBit) : (BitVec.ofNat 32 n).toNat = n := by
  rw [BitVec.toNat_ofNat]; exact Nat.mod_eq_of_lt (by simpa [b32, Fmt.signBit] using h)
theorem of64 {n : Nat} (h : n < 2 * b64.signBit) : (BitVec.ofNat 64 n).toNat = n := by
  rw [BitVec.toNat_ofNat]; exact Nat.mod_eq_of_lt (by simpa [b64, Fmt.signBit] using h)

theorem ofInt_lt {F : Fmt} (h : F.OK) (n : Int) : F.ofInt n < 2 * F.signBit := round_lt h ..
theorem convert_lt {F G : Fmt} (h : G.OK) (b : Nat) : F.convert G b < 2 * G.signBit := by
  unfold Fmt.convert
  split
  · exact nan_lt h
  · exact signed_lt (inf_lt_sign h)
  · exact round_lt h ..

theorem within32 {n : Int} : Within .f32 n ↔ n.natAbs < 2 ^ b32.p := by simp only [Within, b32]; omega
theorem within64 {n : Int} : Within .f64 n ↔ n.natAbs < 2 ^ b64.p := by simp only [Within, b64]; omega
end

/-! ### Operators -/

theorem reducesTo_self {c : Code} {n : Int} (h : ∃ lo hi, intRange c = some (lo, hi) ∧ lo ≤ n ∧ n ≤ hi) : ReducesTo c n n := by
  obtain ⟨lo, hi, hr, a, b⟩ := h
  exact ⟨lo, hi, hr, a, b, 0, by simp⟩

theorem stands_WT {c : Code} {x : Val} {n : Int} (hx : x.WT c) (h : Stands x n) :
    (c = .f32 ∧ ∃ b, x = .f32 b ∧ b32.IsInt b.toNat n) ∨ (c = .f64 ∧ ∃ b, x = .f64 b ∧ b64.IsInt b.toNat n) ∨ (c.isInt = true ∧ x = .int n ∧ x.WT c) := by
  cases x with
  | int k => right; right; simp only [Stands] at h; subst h; cases c <;> simp_all [Val.WT, Code.isInt]
  | f32 b => left; cases c <;> simp_all [Val.WT, Stands]
  | f64 b => right; left; cases c <;> simp_all [Val.WT, Stands]

theorem stands_unique_num {c : Code} {x : Val} {n k : Int} (h : Stands x n) (h' : Stands x k) : n = k := by
  have hpos : ∀ n : Nat, (0 : Int) < 2 ^ n := fun n => by rw [← pow_cast]; exact Int.natCast_pos.2 (Nat.two_pow_pos n)
  cases x with
  | int b => simp only [Stands] at h h'; omega
  | f32 b =>
    simp only [Stands, Fmt.IsInt] at h h'
    rw [h] at h'
    exact Int.eq_of_mul_eq_mul_right (Int.ne_of_gt (hpos _)) (Option.some.inj h')
  | f64 b =>
    simp only [Stands, Fmt.IsInt] at h h'
    rw [h] at h'
    exact Int.eq_of_mul_eq_mul_right (Int.ne_of_gt (hpos _)) (Option.some.inj h')

theorem div_lt {F : Fmt} (h : F.OK) (a b : Nat) : F.div a b < 2 * F.signBit := by
  have h1 := sign_pos h
  unfold Fmt.div
  split <;> first | exact nan_lt h | exact signed_lt (inf_lt_sign h) | exact signed_lt h1 | skip
  split
  · split <;> first | exact nan_lt h | exact signed_lt (inf_lt_sign h)
  · exact round_lt h ..

theorem op_exact {c : Code} {op : BinOp} {x y : Val} {a b e : Int} (hx : x.WT c) (hy : y.WT c) (ha : Stands x a) (hb : Stands y b)
    (he : WholeOp op a b e) (hw : Within c e) : ∃ z, OpResult ieee c op x y z ∧ Stands z e := by
  rcases stands_WT hx ha with ⟨rfl, p, rfl, hp⟩ | ⟨rfl, p, rfl, hp⟩ | ⟨hi, rfl, -⟩
  · rcases stands_WT hy hb with ⟨-, q, rfl, hq⟩ | ⟨h, -⟩ | ⟨h, -⟩
    · rw [within32] at hw
      refine ⟨_, rfl, ?_⟩
      cases op <;> simp only [Stands, ieee, WholeOp] at *
      · subst he; rw [of32 (add_lt b32_ok _ _)]; exact add_int b32_ok hp hq hw
      · subst he; rw [of32 (sub_lt b32_ok _ _)]; exact sub_int b32_ok (bits32 _) hp hq hw
      · subst he; rw [of32 (mul_lt b32_ok _ _)]; exact mul_int b32_ok hp hq hw
      · rw [of32 (div_lt b32_ok _ _)]; exact div_int b32_ok hp hq he.1 he.2 hw
    · cases h
    · cases h
  · rcases stands_WT hy hb with ⟨h, -⟩ | ⟨-, q, rfl, hq⟩ | ⟨h, -⟩
    · cases h
    · rw [within64] at hw
      refine ⟨_, rfl, ?_⟩
      cases op <;> simp only [Stands, ieee, WholeOp] at *
      · subst he; rw [of64 (add_lt b64_ok _ _)]; exact add_int b64_ok hp hq hw
      · subst he; rw [of64 (sub_lt b64_ok _ _)]; exact sub_int b64_ok (bits64 _) hp hq hw
      · subst he; rw [of64 (mul_lt b64_ok _ _)]; exact mul_int b64_ok hp hq hw
      · rw [of64 (div_lt b64_ok _ _)]; exact div_int b64_ok hp hq he.1 he.2 hw
    · cases h
  · rcases stands_WT hy hb with ⟨rfl, -⟩ | ⟨rfl, -⟩ | ⟨-, rfl, -⟩
    · cases hi
    · cases hi
    · have he' : ExactOp op a b e := by
        cases op <;> first | exact he | exact ⟨he.1, 0, by rw [he.2]; simp, by simpa using Int.natAbs_pos.2 he.1, by simp, by simp⟩
      have hw' : ∃ lo hi, intRange c = some (lo, hi) ∧ lo ≤ e ∧ e ≤ hi := by
        cases c <;> first | exact hw | cases hi
      refine ⟨.int e, ⟨_, _, rfl, he', ?_⟩, rfl⟩
      have hr := reducesTo_self hw'
      cases c <;> first | exact hr | exact ⟨rfl, hw'⟩ | skip
      · obtain ⟨lo, hi, h1, h2, h3⟩ := hw'
        simp only [intRange, Option.some.injEq, Prod.mk.injEq] at h1
        exact ⟨by omega, hr⟩
      all_goals cases hi

theorem mac_exact {c : Code} {z x y : Val} {s a b : Int} (hz : z.WT c) (hx : x.WT c) (hy : y.WT c) (hs : Stands z s) (ha : Stands x a) (hb : Stands y b)
    (hw : Within c (a * b)) (hw' : Within c (s + a * b)) : ∃ w, MacResult ieee c z x y w ∧ w.WT c ∧ Stands w (s + a * b) := by
  rcases stands_WT hx ha with ⟨rfl, p, rfl, hp⟩ | ⟨rfl, p, rfl, hp⟩ | ⟨hi, rfl, -⟩
  · rcases stands_WT hy hb with ⟨-, q, rfl, hq⟩ | ⟨h, -⟩ | ⟨h, -⟩
    · rcases stands_WT hz hs with ⟨-, r, rfl, hr⟩ | ⟨h, -⟩ | ⟨h, -⟩
      · rw [within32] at hw hw'
        refine ⟨_, rfl, trivial, ?_⟩
        simp only [Stands, ieee]
        rw [of32 (add_lt b32_ok _ _), of32 (mul_lt b32_ok _ _)]
        exact add_int b32_ok hr (mul_int b32_ok hp hq hw) hw'
      · cases h
      · cases h
    · cases h
    · cases h
  · rcases stands_WT hy hb with ⟨h, -⟩ | ⟨-, q, rfl, hq⟩ | ⟨h, -⟩
    · cases h
    · rcases stands_WT hz hs with ⟨h, -⟩ | ⟨-, r, rfl, hr⟩ | ⟨h, -⟩
      · cases h
      · rw [within64] at hw hw'
        refine ⟨_, rfl, trivial, ?_⟩
        simp only [Stands, ieee]
        rw [of64 (add_lt b64_ok _ _), of64 (mul_lt b64_ok _ _)]
        exact add_int b64_ok hr (mul_int b64_ok hp hq hw) hw'
      · cases h
    · cases h
  · rcases stands_WT hy hb with ⟨rfl, -⟩ | ⟨rfl, -⟩ | ⟨-, rfl, -⟩
    · cases hi
    · cases hi
    · rcases stands_WT hz hs with ⟨rfl, -⟩ | ⟨rfl, -⟩ | ⟨-, rfl, -⟩
      · cases hi
      · cases hi
      · have h1 : ∃ lo hi, intRange c = some (lo, hi) ∧ lo ≤ a * b ∧ a * b ≤ hi := by cases c <;> first | exact hw | cases hi
        have h2 : ∃ lo hi, intRange c = some (lo, hi) ∧ lo ≤ s + a * b ∧ s + a * b ≤ hi := by cases c <;> first | exact hw' | cases hi
        refine ⟨.int (s + a * b), ⟨_, rfl, ?_⟩, ?_, rfl⟩
        · have hr := reducesTo_self h2
          obtain ⟨lo, hi', h3, h4, h5⟩ := h2
          obtain ⟨lo', hi'', h6, h7, h8⟩ := h1
          cases c <;> first | exact hr | skip
          · simp only [intRange, Option.some.injEq, Prod.mk.injEq] at h3 h6
            exact ⟨by omega, by omega, hr⟩
          · rw [h3] at h6; cases h6; exact ⟨rfl, lo, hi', h3, h7, h8, h4, h5⟩
          · rw [h3] at h6; cases h6; exact ⟨rfl, lo, hi', h3, h7, h8, h4, h5⟩
          all_goals cases hi
        · obtain ⟨lo, hi', h3, h4, h5⟩ := h2
          cases c <;> simp only [intRange, Option.some.injEq, Prod.mk.injEq, reduceCtorEq] at h3 <;> simp [Val.WT, Code.lo, Code.hi, Code.signed, Code.size] <;> omega

/-- The sum of products of whole numbers is exact. -/
theorem dot_exact {c : Code} : ∀ {l : List ((Val × Val) × (Int × Int))} {z : Val} {s : Int}, z.WT c → Stands z s →
    (∀ p ∈ l, p.1.1.WT c ∧ p.1.2.WT c ∧ Stands p.1.1 p.2.1 ∧ Stands p.1.2 p.2.2) → SumsWithin c s (l.map Prod.snd) →
    ∃ w, DotTo ieee c z (l.map Prod.fst) w ∧ Stands w (s + total (l.map Prod.snd))
  | [], z, s, _, hs, _, _ => ⟨z, rfl, by simpa [total] using hs⟩
  | p :: l, z, s, hz, hs, hwt, hsum => by
    obtain ⟨h1, h2, h3, h4⟩ := hwt p (by simp)
    obtain ⟨v, hv, hvw, hvs⟩ := mac_exact hz h1 h2 hs h3 h4 hsum.1 hsum.2.1
    obtain ⟨w, hw, hws⟩ := dot_exact (l := l) hvw hvs (fun q hq => hwt q (by simp [hq])) hsum.2.2
    refine ⟨w, ⟨v, hv, hw⟩, ?_⟩
    simpa [total, Int.add_assoc] using hws

theorem ofInt_zero (F : Fmt) : F.ofInt 0 = 0 := by simp [Fmt.ofInt, Fmt.round, Fmt.signed]

theorem isInt_zero {F : Fmt} (h : F.OK) : F.IsInt 0 0 := by
  have := ofInt_int h (n := 0) (by simpa using Nat.two_pow_pos F.p)
  rwa [ofInt_zero] at this

theorem zeroVal_stands (c : Code) : Stands (zeroVal c) 0 := by
  have h1 := isInt_zero b32_ok
  have h2 := isInt_zero b64_ok
  cases c <;> simp [Stands, zeroVal, h1, h2]

theorem zeroVal_WT (c : Code) : (zeroVal c).WT c := by cases c <;> simp [zeroVal, Val.WT, Code.lo, Code.hi, Code.signed, Code.size]

theorem converts_exact {c c' : Code} {x : Val} {n : Int} (hx : x.WT c) (hn : Stands x n) (hw : Within c' n) :
    ∃ y, Converts ieee c' x y ∧ Stands y n := by
  by_cases hc : c'.isInt = true
  · have hw' : ∃ lo hi, intRange c' = some (lo, hi) ∧ lo ≤ n ∧ n ≤ hi := by cases c' <;> first | exact hw | cases hc
    refine ⟨.int n, ?_, rfl⟩
    rcases stands_WT hx hn with ⟨rfl, p, rfl, hp⟩ | ⟨rfl, p, rfl, hp⟩ | ⟨hi, rfl, -⟩
    · cases c' <;> first | exact ⟨n, rfl, trunc_int b32_ok hp, hw'⟩ | cases hc
    · cases c' <;> first | exact ⟨n, rfl, trunc_int b64_ok hp, hw'⟩ | cases hc
    · have := reducesTo_self hw'
      cases c' <;> first | exact ⟨n, rfl, this⟩ | cases hc
  · cases c' <;> first | exact absurd rfl hc | skip
    · rw [within32] at hw
      refine ⟨_, rfl, ?_⟩
      rcases stands_WT hx hn with ⟨rfl, p, rfl, hp⟩ | ⟨rfl, p, rfl, hp⟩ | ⟨hi, rfl, -⟩
      · exact hp
      · simp only [Stands, ieee]; rw [of32 (convert_lt b32_ok _)]; exact convert_int b64_ok b32_ok hp hw
      · simp only [Stands, ieee]; rw [of32 (ofInt_lt b32_ok _)]; exact ofInt_int b32_ok hw
    · rw [within64] at hw
      refine ⟨_, rfl, ?_⟩
      rcases stands_WT hx hn with ⟨rfl, p, rfl, hp⟩ | ⟨rfl, p, rfl, hp⟩ | ⟨hi, rfl, -⟩
      · simp only [Stands, ieee]; rw [of64 (convert_lt b64_ok _)]; exact convert_int b32_ok b64_ok hp hw
      · exact hp
      · simp only [Stands, ieee]; rw [of64 (ofInt_lt b64_ok _)]; exact ofInt_int b64_ok hw

theorem inRange_zero {c : Code} (h : c.isInt = true) : ∃ lo hi, intRange c = some (lo, hi) ∧ lo ≤ 0 ∧ 0 ≤ hi := by
  cases c <;> first | exact ⟨_, _, rfl, by decide, by decide⟩ | cases h

theorem within_zero (c : Code) : Within c 0 := by
  cases c <;> first | exact inRange_zero rfl | exact ⟨by decide, by decide⟩

theorem convert_zero (F G : Fmt) (h : F.OK) : F.convert G 0 = 0 := by
  have : F.decode 0 = .fin false 0 F.emin := by simpa [Fmt.signed] using decode_zero h false
  simp [Fmt.convert, this, Fmt.round, Fmt.signed]

theorem zeroVal_of (c : Code) : ZeroOf ieee c (zeroVal c) := by
  have h0 : ieee.ofInt64 0 = 0 := by simp [ieee, ofInt_zero]
  have ht : ieee.trunc64 0 = some 0 := by simp [ieee, trunc_int b64_ok (isInt_zero b64_ok)]
  have hn : ieee.narrow 0 = 0 := by
    show BitVec.ofNat 32 (b64.convert b32 0) = 0
    rw [convert_zero _ _ b64_ok]; rfl
  unfold ZeroOf
  rw [h0]
  cases c <;> first
    | exact ⟨0, rfl, ht, inRange_zero rfl⟩
    | (simp only [Converts, zeroVal, hn])

theorem zeroVal_conv (c : Code) : Converts ieee c (.int 0) (zeroVal c) := by
  cases c <;> first
    | exact ⟨0, rfl, reducesTo_self (inRange_zero rfl)⟩
    | (simp [Converts, zeroVal, ieee, ofInt_zero])

/-! ### Laws -/

theorem ieee_commutes (c : Code) (op : BinOp) (h : op = .add ∨ op = .mul) : Commutes ieee c op := by
  rcases h with rfl | rfl <;> cases c <;> first
    | trivial
    | (intro a b; simp only [ieee]; rw [Aitisa.add_comm])
    | (intro a b; simp only [ieee]; rw [Aitisa.mul_comm])

theorem signed_not_nan {F : Fmt} (h : F.OK) (s : Bool) {n : Nat} (hn : n ≤ F.infBits) : F.isNaN (F.signed s n) = false := by
  have := inf_lt_sign h
  rw [isNaN_signed (by omega)]; simp; omega

theorem round_not_nan {F : Fmt} (h : F.OK) (s : Bool) (m : Nat) (e : Int) : F.isNaN (F.round s m e) = false := by
  unfold Fmt.round
  split
  · exact signed_not_nan h s (by omega)
  · exact signed_not_nan h s (Nat.min_le_right _ _)

theorem decode_nan {F : Fmt} (h : F.OK) {b : Nat} (hb : b < 2 * F.signBit) (hn : F.isNaN b = false) : F.decode b ≠ .nan := by
  intro hd
  obtain ⟨s, n, hn', rfl⟩ := exists_signed hb
  rw [isNaN_signed hn'] at hn
  have hP : 0 < 2 ^ (F.p - 1) := Nat.two_pow_pos _
  rw [decode_signed h hn'] at hd
  split at hd
  · next hx =>
    split at hd
    · cases hd
    · next h0 =>
      have hdm := Nat.div_add_mod n (2 ^ (F.p - 1))
      rw [hx, Nat.mul_comm] at hdm
      have hn := of_decide_eq_false hn
      rw [Fmt.infBits] at hn
      omega
  · split at hd <;> cases hd

theorem convert_not_nan {F G : Fmt} (h : F.OK) (hG : G.OK) {b : Nat} (hb : b < 2 * F.signBit) (hn : F.isNaN b = false) :
    G.isNaN (F.convert G b) = false := by
  have := decode_nan h hb hn
  unfold Fmt.convert
  split
  · exact absurd (by assumption) this
  · exact signed_not_nan hG _ (Nat.le_refl _)
  · exact round_not_nan hG ..

theorem ieee_ordered {ds : List (BitVec 64)} (h : ∀ d ∈ ds, b64.isNaN d.toNat = false) : Ordered ieee ds where
  asymm a ha b hb hlt := by
    simp only [ieee, lt_not_nan (h a ha) (h b hb), lt_not_nan (h b hb) (h a ha), decide_eq_true_eq, decide_eq_false_iff_not] at *
    omega
  trans a ha b hb c hc h1 h2 := by
    simp only [ieee, lt_not_nan (h a ha) (h b hb), lt_not_nan (h b hb) (h c hc), lt_not_nan (h a ha) (h c hc), decide_eq_false_iff_not] at *
    omega

/-- The `double` of an element. -/
theorem to_double_not_nan {v : Val} (h : NotNaN v) {d : BitVec 64} (hd : Converts ieee .f64 v (.f64 d)) : b64.isNaN d.toNat = false := by
  cases v <;> simp only [Converts, Val.f64.injEq] at hd <;> subst hd
  · simp only [ieee, of64 (ofInt_lt b64_ok _)]; exact round_not_nan b64_ok ..
  · simp only [ieee, of64 (convert_lt b64_ok _)]; exact convert_not_nan b32_ok b64_ok (bits32 _) h
  · exact h

/-- Elements of all types but the 64-bit integers come back from `double` unchanged. -/
theorem through_double {c : Code} {s : Val} (hs : s.WT c) (hc : c ≠ .i64 ∧ c ≠ .u64) (hn : NotNaN s) : ThroughDouble ieee c s s := by
  cases s with
  | int n =>
    have hw : Within .f64 n ∧ Within c n ∧ c.isInt = true := by
      cases c <;> first
        | exact absurd rfl hc.1
        | exact absurd rfl hc.2
        | (simp [Val.WT, Code.lo, Code.hi, Code.signed, Code.size] at hs; exact ⟨⟨by omega, by omega⟩, ⟨_, _, rfl, by omega, by omega⟩, rfl⟩)
        | cases hs
    obtain ⟨d, hd, hs1⟩ := converts_exact (c := c) (c' := .f64) (x := .int n) hs rfl hw.1
    have hd' := hd
    simp only [Converts] at hd'
    subst hd'
    refine ⟨_, hd, ?_⟩
    obtain ⟨y, hy, hys⟩ := converts_exact (c := .f64) (c' := c) (x := .f64 (ieee.ofInt64 n)) trivial hs1 hw.2.1
    have hy' : y = .int n := by
      have hc' := hw.2.2
      cases c <;> first | (obtain ⟨r, rfl, -⟩ := hy; exact congrArg Val.int hys) | cases hc'
    rwa [hy'] at hy
  | f32 b =>
    have : c = .f32 := by cases c <;> simp_all [Val.WT]
    subst this
    refine ⟨ieee.widen b, rfl, ?_⟩
    simp only [Converts, ieee, of64 (convert_lt b64_ok _)]
    congr 1
    rw [convert_back b32_ok b64_ok (by decide) (by decide) (by decide) (bits32 b) hn]
    simp
  | f64 b =>
    have : c = .f64 := by cases c <;> simp_all [Val.WT]
    subst this
    exact ⟨b, rfl, rfl⟩

theorem isInt_not_nan {F : Fmt} (h : F.OK) {b : Nat} {n : Int} (hb : b < 2 * F.signBit) (hi : F.IsInt b n) : F.isNaN b = false := by
  obtain ⟨s, k, hk, rfl⟩ := exists_signed hb
  have hi' : F.units (F.signed s k) = some _ := hi
  rw [units_signed h hk] at hi'
  split at hi'
  · rw [isNaN_signed hk]; simp; omega
  · cases hi'

theorem stands_not_nan {x : Val} {n : Int} (h : Stands x n) : NotNaN x := by
  cases x with
  | int => trivial
  | f32 b => exact isInt_not_nan b32_ok (bits32 b) h
  | f64 b => exact isInt_not_nan b64_ok (bits64 b) h

theorem lt_int {F : Fmt} (h : F.OK) {a b : Nat} (ha : a < 2 * F.signBit) (hb : b < 2 * F.signBit) {x y : Int} (hx : F.IsInt a x) (hy : F.IsInt b y) :
    F.lt a b = decide (x < y) := by
  rw [lt_units h ha hb hx hy, decide_eq_decide]
  have hpos : (0 : Int) < 2 ^ (-F.emin).toNat := by rw [← pow_cast]; exact Int.natCast_pos.2 (Nat.two_pow_pos _)
  exact ⟨fun h => Int.lt_of_mul_lt_mul_right h (Int.le_of_lt hpos), fun h => Int.mul_lt_mul_of_pos_right h hpos⟩

theorem to_double_exact {x : Val} {c : Code} {n : Int} (hx : x.WT c) (hn : Stands x n) (hw : Within .f64 n) :
    ∃ d, Converts ieee .f64 x (.f64 d) ∧ b64.IsInt d.toNat n := by
  obtain ⟨y, hy, hs⟩ := converts_exact hx hn hw
  simp only [Converts] at hy
  subst hy
  exact ⟨_, rfl, hs⟩

theorem through_exact {c : Code} {s : Val} {n : Int} (hs : s.WT c) (hn : Stands s n) (h1 : Within .f64 n) (h2 : Within c n) :
    ∃ v, ThroughDouble ieee c s v ∧ Stands v n := by
  obtain ⟨d, hd, hdn⟩ := to_double_exact hs hn h1
  obtain ⟨v, hv, hvn⟩ := converts_exact (c := .f64) (x := .f64 d) trivial hdn h2
  exact ⟨v, ⟨d, hd, hv⟩, hvn⟩

/-- The scan of max pooling on whole numbers. -/
theorem scan_exact {c : Code} : ∀ {l : List (Val × Int)} {t : BitVec 64} {s : Int}, b64.IsInt t.toNat s →
    (∀ p ∈ l, p.1.WT c ∧ Stands p.1 p.2 ∧ Within .f64 p.2) →
    ∃ r, ScansTo ieee t (l.map Prod.fst) r ∧ b64.IsInt r.toNat ((l.map Prod.snd).foldl max s)
  | [], t, s, ht, _ => ⟨t, rfl, ht⟩
  | p :: l, t, s, ht, hl => by
    obtain ⟨h1, h2, h3⟩ := hl p (by simp)
    obtain ⟨d, hd, hdn⟩ := to_double_exact h1 h2 h3
    have hlt : ieee.lt64 t d = decide (s < p.2) := lt_int b64_ok (bits64 _) (bits64 _) ht hdn
    obtain ⟨r, hr, hrn⟩ := scan_exact (c := c) (l := l) (t := if ieee.lt64 t d then d else t) (s := max s p.2) (by
      rw [hlt]
      by_cases h : s < p.2
      · simp only [h, decide_true, if_true]; rwa [show max s p.2 = p.2 by omega]
      · simp only [h, decide_false, Bool.false_eq_true, if_false]; rwa [show max s p.2 = s by omega]) (fun q hq => hl q (by simp [hq]))
    exact ⟨r, ⟨d, hd, hr⟩, hrn⟩

/-- The sum of average pooling on whole numbers. -/
theorem sums_exact {c : Code} : ∀ {l : List (Val × Int)} {t : BitVec 64} {s : Int}, b64.IsInt t.toNat s →
    (∀ p ∈ l, p.1.WT c ∧ Stands p.1 p.2 ∧ Within .f64 p.2) → (∀ k, Within .f64 (s + ((l.map Prod.snd).take k).sum)) →
    ∃ r, SumsTo ieee t (l.map Prod.fst) r ∧ b64.IsInt r.toNat (s + (l.map Prod.snd).sum)
  | [], t, s, ht, _, _ => ⟨t, rfl, by simpa using ht⟩
  | p :: l, t, s, ht, hl, hs => by
    obtain ⟨h1, h2, h3⟩ := hl p (by simp)
    obtain ⟨d, hd, hdn⟩ := to_double_exact h1 h2 h3
    have ha : b64.IsInt (ieee.add64 t d).toNat (s + p.2) := by
      simp only [ieee]
      rw [of64 (add_lt b64_ok _ _)]
      have := hs 1
      simp at this
      exact add_int b64_ok ht hdn (within64.1 this)
    obtain ⟨r, hr, hrn⟩ := sums_exact (c := c) (l := l) ha (fun q hq => hl q (by simp [hq])) (fun k => by
      have := hs (k + 1)
      simpa [Int.add_assoc] using this)
    refine ⟨r, ⟨d, hd, hr⟩, ?_⟩
    simpa [Int.add_assoc] using hrn

end Aitisa
