import Verif.Proof.IeeeLaws
import Verif.Proof.MatCalc
import Verif.Proof.IeeeMac

/-!
# Sums of products with factors 0 and 1
-/

namespace Aitisa

variable {F : Fmt}

theorem finite_signed (h : F.OK) {b : Nat} (hb : b < 2 * F.signBit) (hu : F.units b ≠ none) : ∃ s n, n < F.infBits ∧ b = F.signed s n := by
  obtain ⟨s, n, hs, rfl⟩ := exists_signed hb
  rw [units_signed h hs] at hu
  split at hu
  · next hlt => exact ⟨s, n, hlt, rfl⟩
  · exact absurd rfl hu

theorem isInt_zero_signed (h : F.OK) {b : Nat} (hb : b < 2 * F.signBit) (hi : F.IsInt b 0) : ∃ s, b = F.signed s 0 := by
  have hi : F.units b = some _ := hi
  obtain ⟨s, n, hlt, rfl⟩ := finite_signed h hb (by rw [hi]; exact fun e => by cases e)
  have hs := inf_lt_sign h
  rw [units_signed h (by omega), if_pos hlt, Int.zero_mul, Option.some.injEq, sgn_zero] at hi
  refine ⟨s, ?_⟩
  have := (mag_pos F (n := n)).2
  have : n = 0 := by omega
  rw [this]

theorem isInt_one_bits (h : F.OK) {b : Nat} (hb : b < 2 * F.signBit) (hi : F.IsInt b 1) : b = F.ofInt 1 := by
  have hi : F.units b = some _ := hi
  obtain ⟨h1, hm⟩ := one_mag h
  obtain ⟨s, n, hlt, rfl⟩ := finite_signed h hb (by rw [hi]; exact fun e => by cases e)
  have hs := inf_lt_sign h
  rw [units_signed h (by omega), if_pos hlt, Int.one_mul, Option.some.injEq] at hi
  have hp := Nat.two_pow_pos F.low
  have hi : sgn s (F.mag n) = ((2 ^ F.low : Nat) : Int) := by rw [hi, h.emin, Int.natCast_pow, Int.neg_neg, Int.toNat_natCast]; rfl
  cases s with
  | true => simp only [sgn, if_true] at hi; omega
  | false =>
    simp only [sgn, Bool.false_eq_true, if_false, Int.natCast_inj] at hi
    have e1 := mag_lt_iff F (a := n) (b := F.ofInt 1)
    have e2 := mag_lt_iff F (a := F.ofInt 1) (b := n)
    rw [plus_signed]
    omega

/-- A product with a zero does not change a sum. -/
theorem mac_zero_fmt (h : F.OK) {a x y : Nat} (ha : a < 2 * F.signBit) (hn : F.isNaN a = false) (h0 : a ≠ F.signBit) (hx : x < 2 * F.signBit)
    (hf : F.units x ≠ none) (hy : y < 2 * F.signBit) (hz : F.IsInt y 0) : F.add a (F.mul x y) = a := by
  obtain ⟨s, n, hi, rfl⟩ := not_nan_signed ha hn
  obtain ⟨t, k, hk, rfl⟩ := finite_signed h hx hf
  obtain ⟨u, rfl⟩ := isInt_zero_signed h hy hz
  rw [mul_mag h hk (inf_pos h), mag_zero, Nat.mul_zero, rq_zero h (Nat.two_pow_pos _)]
  refine add_signed_zero h hi fun e => ?_
  subst e
  cases s
  · rfl
  · simp [Fmt.signed] at h0

theorem mac_one_fmt (h : F.OK) {x y : Nat} (hx : x < 2 * F.signBit) (hn : F.isNaN x = false) (h0 : x ≠ F.signBit)
    (hy : y < 2 * F.signBit) (hz : F.IsInt y 1) : F.add 0 (F.mul x y) = x := by
  rw [isInt_one_bits h hy hz, (neutral_fmt h hx hn).2.2.1, Aitisa.add_comm, (neutral_fmt h hx hn).1 h0]

variable {c : Code}

theorem units_not_nan (h : F.OK) {b : Nat} (hb : b < 2 * F.signBit) (hu : F.units b ≠ none) : F.isNaN b = false := by
  obtain ⟨s, n, hlt, rfl⟩ := finite_signed h hb hu
  exact signed_not_nan h s (Nat.le_of_lt hlt)

theorem mac_zero {a x y : Val} (wa : a.WT c) (wx : x.WT c) (wy : y.WT c) (hn : NotNaN a) (h0 : ¬ MinusZero a) (hx : Finite x) (hy : Stands y 0) :
    MacResult ieee c a x y a ∧ MacResult ieee c a y x a := by
  rcases wt_cases wa with ⟨rfl, p, rfl⟩ | ⟨rfl, p, rfl⟩ | ⟨hc, p, rfl, lo, hi, hr, h1, h2⟩
  · cases x <;> first | exact False.elim wx | skip
    cases y <;> first | exact False.elim wy | skip
    next x y =>
    have := mac_zero_fmt b32_ok (bits32 p) hn h0 (bits32 x) hx (bits32 y) hy
    have ho : (BitVec.ofNat 32 (b32.mul x.toNat y.toNat)).toNat = b32.mul x.toNat y.toNat := of32 (mul_lt b32_ok ..)
    simp only [MacResult, ieee, Aitisa.mul_comm y.toNat x.toNat, ho, this, and_self, Val.f32.injEq]
    exact (back32 rfl).symm
  · cases x <;> first | exact False.elim wx | skip
    cases y <;> first | exact False.elim wy | skip
    next x y =>
    have := mac_zero_fmt b64_ok (bits64 p) hn h0 (bits64 x) hx (bits64 y) hy
    have ho : (BitVec.ofNat 64 (b64.mul x.toNat y.toNat)).toNat = b64.mul x.toNat y.toNat := of64 (mul_lt b64_ok ..)
    simp only [MacResult, ieee, Aitisa.mul_comm y.toNat x.toNat, ho, this, and_self, Val.f64.injEq]
    exact (back64 rfl).symm
  · cases x <;> first | (cases c <;> first | exact False.elim wx | exact absurd hc (by decide)) | skip
    cases y <;> first | (cases c <;> first | exact False.elim wy | exact absurd hc (by decide)) | skip
    next x y =>
    cases hy
    have hre := reducesTo_self ⟨lo, hi, hr, h1, h2⟩
    obtain ⟨lo', hi', g1, g2, g3⟩ := inRange_zero hc
    cases hr.symm.trans g1
    simp only [MacResult, Int.mul_zero, Int.zero_mul, Int.add_zero, and_self]
    refine ⟨p, rfl, ?_⟩
    cases c <;> first | exact absurd hc (by decide) | exact hre | exact ⟨rfl, lo, hi, hr, g2, g3, h1, h2⟩ | skip
    cases hr
    exact ⟨by omega, by omega, hre⟩

theorem mac_one {x y : Val} (wx : x.WT c) (wy : y.WT c) (hn : NotNaN x) (h0 : ¬ MinusZero x) (hy : Stands y 1) :
    MacResult ieee c (zeroVal c) x y x ∧ MacResult ieee c (zeroVal c) y x x := by
  rcases wt_cases wx with ⟨rfl, p, rfl⟩ | ⟨rfl, p, rfl⟩ | ⟨hc, p, rfl, lo, hi, hr, h1, h2⟩
  · cases y <;> first | exact False.elim wy | skip
    next y =>
    have := mac_one_fmt b32_ok (bits32 p) hn h0 (bits32 y) hy
    have ho : (BitVec.ofNat 32 (b32.mul p.toNat y.toNat)).toNat = b32.mul p.toNat y.toNat := of32 (mul_lt b32_ok ..)
    simp only [MacResult, zeroVal, ieee, Aitisa.mul_comm y.toNat p.toNat, ho, and_self, Val.f32.injEq]
    exact (back32 this).symm
  · cases y <;> first | exact False.elim wy | skip
    next y =>
    have := mac_one_fmt b64_ok (bits64 p) hn h0 (bits64 y) hy
    have ho : (BitVec.ofNat 64 (b64.mul p.toNat y.toNat)).toNat = b64.mul p.toNat y.toNat := of64 (mul_lt b64_ok ..)
    simp only [MacResult, zeroVal, ieee, Aitisa.mul_comm y.toNat p.toNat, ho, and_self, Val.f64.injEq]
    exact (back64 this).symm
  · have hz : zeroVal c = .int 0 := by cases c <;> first | exact absurd hc (by decide) | rfl
    cases y <;> first | (cases c <;> first | exact False.elim wy | exact absurd hc (by decide)) | skip
    next y =>
    cases hy
    rw [hz]
    have hre := reducesTo_self ⟨lo, hi, hr, h1, h2⟩
    simp only [MacResult, Int.mul_one, Int.one_mul, Int.zero_add, and_self]
    refine ⟨p, rfl, ?_⟩
    cases c <;> first | exact absurd hc (by decide) | exact hre | exact ⟨rfl, lo, hi, hr, h1, h2, h1, h2⟩ | skip
    cases hr
    exact ⟨by omega, by omega, hre⟩

/-- Factors 0 and 1 on the right or on the left. -/
def flip (b : Bool) (p : Val × Val) : Val × Val := if b then (p.2, p.1) else p

theorem dot_zeros (b : Bool) : ∀ {l : List (Val × Val)} {a : Val}, a.WT c → NotNaN a → ¬ MinusZero a →
    (∀ p ∈ l, p.1.WT c ∧ p.2.WT c ∧ Finite p.1 ∧ Stands p.2 0) → DotTo ieee c a (l.map (flip b)) a
  | [], _, _, _, _, _ => rfl
  | (x, y) :: l, a, wa, hn, h0, hl => by
    obtain ⟨wx, wy, hx, hy⟩ := hl _ (List.mem_cons_self ..)
    obtain ⟨h1, h2⟩ := mac_zero wa wx wy hn h0 hx hy
    refine ⟨a, ?_, dot_zeros b wa hn h0 fun p hp => hl p (List.mem_cons_of_mem _ hp)⟩
    cases b
    · exact h1
    · exact h2

theorem zeroVal_plain (c : Code) : NotNaN (zeroVal c) ∧ ¬ MinusZero (zeroVal c) := by
  cases c <;> simp only [zeroVal, NotNaN, MinusZero] <;> decide

theorem dot_select (b : Bool) : ∀ {l : List (Val × Val)} {s : Nat} (hs : s < l.length), (∀ p ∈ l, p.1.WT c ∧ p.2.WT c ∧ Finite p.1) →
    (∀ j (h : j < l.length), Stands l[j].2 (if j = s then 1 else 0)) → ¬ MinusZero l[s].1 → DotTo ieee c (zeroVal c) (l.map (flip b)) l[s].1
  | (x, y) :: l, 0, _, hl, h1, h0 => by
    obtain ⟨wx, wy, hx⟩ := hl _ (List.mem_cons_self ..)
    have hn : NotNaN x := by
      rcases wt_cases wx with ⟨rfl, p, rfl⟩ | ⟨rfl, p, rfl⟩ | ⟨hc, p, rfl, -⟩
      · exact units_not_nan b32_ok (bits32 p) hx
      · exact units_not_nan b64_ok (bits64 p) hx
      · trivial
    obtain ⟨g1, g2⟩ := mac_one wx wy hn h0 (h1 0 (by simp))
    refine ⟨x, ?_, dot_zeros b wx hn h0 fun p hp => ?_⟩
    · cases b
      · exact g1
      · exact g2
    · obtain ⟨w1, w2, w3⟩ := hl p (List.mem_cons_of_mem _ hp)
      obtain ⟨j, hj, rfl⟩ := List.getElem_of_mem hp
      have e := h1 (j + 1) (by simpa using hj)
      rw [if_neg (by omega)] at e
      exact ⟨w1, w2, w3, e⟩
  | (x, y) :: l, s + 1, hs, hl, h1, h0 => by
    obtain ⟨wx, wy, hx⟩ := hl _ (List.mem_cons_self ..)
    obtain ⟨g1, g2⟩ := mac_zero (zeroVal_WT c) wx wy (zeroVal_plain c).1 (zeroVal_plain c).2 hx (h1 0 (by simp))
    refine ⟨zeroVal c, ?_, dot_select b (s := s) (by simpa using hs) (fun p hp => hl p (List.mem_cons_of_mem _ hp))
      (fun j hj => by
        have e := h1 (j + 1) (by simpa using hj)
        simp only [Nat.add_right_cancel_iff] at e
        exact e) h0⟩
    cases b
    · exact g1
    · exact g2

/-! ## Products with a factor 0 or 1 are exact -/

theorem exactMul_unit (h : F.OK) {x y : Nat} (hx : x < 2 * F.signBit) (hf : F.units x ≠ none) (hy : y < 2 * F.signBit)
    (hz : F.IsInt y 0 ∨ F.IsInt y 1) : F.ExactMul x y := by
  obtain ⟨a, ha⟩ : ∃ a, F.rat x = some a := by
    rw [rat_units h]
    cases hu : F.units x with
    | none => exact absurd hu hf
    | some u => exact ⟨_, rfl⟩
  rcases hz with hz | hz
  · refine ⟨a, _, ha, isInt_rat h hz, ?_⟩
    obtain ⟨t, k, hk, rfl⟩ := finite_signed h hx hf
    obtain ⟨u, rfl⟩ := isInt_zero_signed h hy hz
    rw [mul_mag h hk (inf_pos h), mag_zero, Nat.mul_zero, rq_zero h (Nat.two_pow_pos _), rat_signed h (inf_pos h), mag_zero]
    simp [Rat.div_def, sgn]
  · refine ⟨a, _, ha, isInt_rat h hz, ?_⟩
    rw [isInt_one_bits h hy hz, (neutral_fmt h hx (units_not_nan h hx hf)).2.2.1, ha]
    simp

theorem exactProd_unit {x y : Val} (hf : Finite x) (hy : Stands y 0 ∨ Stands y 1) : ExactProd x y := by
  cases x <;> cases y <;> first | trivial | skip
  · exact exactMul_unit b32_ok (bits32 _) hf (bits32 _) hy
  · exact exactMul_unit b64_ok (bits64 _) hf (bits64 _) hy

theorem exactProd_flip {p : Val × Val} (b : Bool) (h : ExactProd p.1 p.2) : ExactProd (flip b p).1 (flip b p).2 := by
  cases b
  · exact h
  · exact exactProd_comm h

variable {fp : FloatOps}

theorem dot_pick (hfp : Machine fp) (b : Bool) {l : List (Val × Val)} {s : Nat} (hs : s < l.length) (hw : ∀ p ∈ l, p.1.WT c ∧ p.2.WT c ∧ Finite p.1)
    (h1 : ∀ j (h : j < l.length), Stands l[j].2 (if j = s then 1 else 0)) (h0 : ¬ MinusZero l[s].1) : DotTo fp c (zeroVal c) (l.map (flip b)) l[s].1 := by
  refine dot_same hfp (fun p hp => ?_) (dot_select b hs hw h1 h0)
  obtain ⟨q, hq, rfl⟩ := List.mem_map.1 hp
  refine exactProd_flip b (exactProd_unit (hw q hq).2.2 ?_)
  obtain ⟨j, hj, rfl⟩ := List.getElem_of_mem hq
  have := h1 j hj
  split at this
  · exact .inr this
  · exact .inl this

end Aitisa
