import Verif.Proof.IeeeRange
import Verif.Proof.IeeeVal
import Verif.Proof.Calc

/-!
# Laws of IEEE arithmetic that hold without rounding
-/

namespace Aitisa

variable {F : Fmt}

theorem ofInt_mag (h : F.OK) {k : Nat} (hk : k < 2 ^ F.p) : F.ofInt k < F.infBits ∧ F.mag (F.ofInt k) = k * 2 ^ F.low := by
  have h1 := ofInt_int h (n := k) (by simpa using hk)
  have e : F.ofInt k = F.rq (k * 2 ^ F.low) 1 := by
    have : F.ofInt k = F.round false k 0 := by unfold Fmt.ofInt; rw [decide_eq_false (by omega), Int.natAbs_natCast]
    rw [this, round_any h (x := F.low) (y := 0) (he := by rw [h.emin]; omega), plus_signed, Nat.pow_zero]
  have hle : F.ofInt k ≤ F.infBits := by rw [e]; exact rq_le_inf ..
  have hs := inf_lt_sign h
  unfold Fmt.IsInt at h1
  rw [← plus_signed F (F.ofInt k), units_signed h (by omega)] at h1
  split at h1
  · next hlt =>
    simp only [sgn, Bool.false_eq_true, if_false, Option.some.injEq, h.emin] at h1
    refine ⟨hlt, ?_⟩
    rw [Int.neg_neg, Int.toNat_natCast, ← pow_cast, ← Int.natCast_mul] at h1
    exact Int.ofNat.inj h1
  · cases h1

theorem zero_signed (F : Fmt) : F.signed false 0 = 0 := by simp [Fmt.signed]

theorem sgn_lt {s : Bool} {n : Nat} (hn : 0 < n) : decide (sgn s n < 0) = s := by
  cases s <;> simp [sgn] <;> omega
theorem sgn_abs {s : Bool} {n : Nat} : (sgn s n).natAbs = n := by cases s <;> simp [sgn]
theorem sgn_zero {s : Bool} {n : Nat} : sgn s n = 0 ↔ n = 0 := by cases s <;> simp [sgn]

theorem add_signed_zero (h : F.OK) {s t : Bool} {n : Nat} (hn : n ≤ F.infBits) (h0 : n = 0 → (s && t) = s) :
    F.add (F.signed s n) (F.signed t 0) = F.signed s n := by
  have hi := inf_pos h
  rcases Nat.lt_or_ge n F.infBits with hlt | hge
  · rw [add_mag h hlt hi, mag_zero, show sgn t 0 = 0 by cases t <;> simp [sgn], Int.add_zero]
    split
    · next h' =>
      have : n = 0 := by
        have := (mag_pos F (n := n)).not
        have := sgn_zero.1 h'
        omega
      rw [h0 this, this]
    · next h' =>
      have hp : 0 < F.mag n := by have := sgn_zero (s := s) (n := F.mag n); omega
      rw [sgn_lt hp, sgn_abs, rq_mag h hlt]
  · have : n = F.infBits := by omega
    subst this
    obtain ⟨m, i, hd, -⟩ := decode_mag (s := t) h hi
    rw [Fmt.add, decode_inf h, hd]

theorem mul_signed_one (h : F.OK) {s : Bool} {n : Nat} (hn : n ≤ F.infBits) : F.mul (F.signed s n) (F.ofInt 1) = F.signed s n := by
  obtain ⟨h1, hm⟩ := one_mag h
  rcases Nat.lt_or_ge n F.infBits with hlt | hge
  · conv => lhs; rw [← plus_signed F (F.ofInt 1)]
    rw [mul_mag h hlt h1, hm, Bool.bne_false]
    congr 1
    rw [rq_congr h (Nat.two_pow_pos _) Nat.one_pos (N' := F.mag n) (by simp), rq_mag h hlt]
  · have : n = F.infBits := by omega
    subst this
    conv => lhs; rw [← plus_signed F (F.ofInt 1)]
    obtain ⟨m, i, hd, hmi⟩ := decode_mag (s := false) h h1
    have hp := Nat.two_pow_pos F.low
    rw [hm] at hmi
    have hm0 : m ≠ 0 := fun e => by subst e; simp at hmi; omega
    rw [Fmt.mul, decode_inf h, hd]
    simp [hm0]

theorem div_signed_one (h : F.OK) {s : Bool} {n : Nat} (hn : n ≤ F.infBits) : F.div (F.signed s n) (F.ofInt 1) = F.signed s n := by
  obtain ⟨h1, hm⟩ := one_mag h
  have hp := Nat.two_pow_pos F.low
  have h0 : 0 < F.ofInt 1 := (mag_pos F).1 (by omega)
  rcases Nat.lt_or_ge n F.infBits with hlt | hge
  · conv => lhs; rw [← plus_signed F (F.ofInt 1)]
    rw [div_mag h hlt h1 h0, hm, Bool.bne_false]
    congr 1
    rw [rq_congr h (Nat.two_pow_pos _) Nat.one_pos (N' := F.mag n) (by simp), rq_mag h hlt]
  · have : n = F.infBits := by omega
    subst this
    conv => lhs; rw [← plus_signed F (F.ofInt 1)]
    obtain ⟨m, i, hd, hmi⟩ := decode_mag (s := false) h h1
    rw [Fmt.div, decode_inf h, hd]
    simp

theorem sub_signed_self (h : F.OK) {s : Bool} {n : Nat} (hn : n < F.infBits) : F.sub (F.signed s n) (F.signed s n) = 0 := by
  rw [sub_mag h hn, add_mag h hn hn, if_pos (by cases s <;> simp [sgn] <;> omega)]
  cases s <;> simp [Fmt.signed]

theorem div_signed_self (h : F.OK) {s : Bool} {n : Nat} (hn : n < F.infBits) (h0 : 0 < n) :
    F.div (F.signed s n) (F.signed s n) = F.ofInt 1 := by
  obtain ⟨h1, hm⟩ := one_mag h
  rw [div_mag h hn hn h0, show (s != s) = false by cases s <;> rfl, plus_signed]
  rw [rq_congr h ((mag_pos F).2 h0) Nat.one_pos (N' := F.mag (F.ofInt 1)) (by rw [hm, Nat.mul_one, Nat.mul_comm]), rq_mag h h1]

theorem two_mag (h : F.OK) : F.ofInt 2 < F.infBits ∧ F.mag (F.ofInt 2) = 2 * 2 ^ F.low := by
  have hp := h.p3
  have := ofInt_mag h (k := 2) (by
    calc 2 < 2 ^ 3 := by decide
      _ ≤ 2 ^ F.p := Nat.pow_le_pow_right (by omega) hp)
  simpa using this

theorem mul_signed_two (h : F.OK) {s : Bool} {n : Nat} (hn : n ≤ F.infBits) :
    F.mul (F.signed s n) (F.ofInt 2) = F.add (F.signed s n) (F.signed s n) := by
  obtain ⟨h1, hm⟩ := two_mag h
  have hp := Nat.two_pow_pos F.low
  conv => lhs; rw [← plus_signed F (F.ofInt 2)]
  rcases Nat.lt_or_ge n F.infBits with hlt | hge
  · rw [mul_mag h hlt h1, hm, Bool.bne_false, add_mag h hlt hlt]
    rw [rq_congr h (Nat.two_pow_pos _) Nat.one_pos (N' := 2 * F.mag n) (by rw [Nat.mul_one, ← Nat.mul_assoc, Nat.mul_comm (F.mag n) 2])]
    by_cases h0 : n = 0
    · subst h0
      rw [mag_zero, if_pos (by cases s <;> simp [sgn]), rq_zero h Nat.one_pos, Bool.and_self]
    · have hmp := (mag_pos F).2 (by omega : 0 < n)
      rw [show sgn s (F.mag n) + sgn s (F.mag n) = sgn s (2 * F.mag n) by cases s <;> simp [sgn] <;> omega,
        if_neg (by rw [sgn_zero]; omega), sgn_lt (by omega), sgn_abs]
  · have : n = F.infBits := by omega
    subst this
    obtain ⟨m, i, hd, hmi⟩ := decode_mag (s := false) h h1
    rw [hm] at hmi
    have hm0 : m ≠ 0 := fun e => by subst e; simp at hmi; omega
    rw [Fmt.mul, Fmt.add, decode_inf h, hd]
    simp [hm0]

/-- One half. -/
def Fmt.half (F : Fmt) : Nat := F.round false 1 (-1)

theorem half32 : b32.half < b32.infBits ∧ 2 * b32.mag b32.half = 2 ^ b32.low := by decide +kernel
theorem half64 : b64.half < b64.infBits ∧ 2 * b64.mag b64.half = 2 ^ b64.low := by decide +kernel

theorem div_signed_two (h : F.OK) (hh : F.half < F.infBits ∧ 2 * F.mag F.half = 2 ^ F.low) {s : Bool} {n : Nat} (hn : n ≤ F.infBits) :
    F.div (F.signed s n) (F.ofInt 2) = F.mul (F.signed s n) F.half := by
  obtain ⟨h1, hm⟩ := two_mag h
  obtain ⟨h2, hm'⟩ := hh
  have hp := Nat.two_pow_pos F.low
  have h0 : 0 < F.ofInt 2 := (mag_pos F).1 (by omega)
  conv => lhs; rw [← plus_signed F (F.ofInt 2)]
  conv => rhs; rw [← plus_signed F F.half]
  rcases Nat.lt_or_ge n F.infBits with hlt | hge
  · rw [div_mag h hlt h1 h0, mul_mag h hlt h2, hm]
    congr 1
    refine rq_congr h (by omega) hp ?_
    rw [← hm']
    simp only [Nat.mul_comm, Nat.mul_left_comm, Nat.mul_assoc]
  · have : n = F.infBits := by omega
    subst this
    obtain ⟨m, i, hd, hmi⟩ := decode_mag (s := false) h h1
    obtain ⟨m', i', hd', hmi'⟩ := decode_mag (s := false) h h2
    have hm0 : m' ≠ 0 := fun e => by subst e; simp at hmi'; omega
    rw [Fmt.mul, Fmt.div, decode_inf h, hd, hd']
    simp [hm0]

/-! ### Elements -/

variable {c : Code} {x : Val}

/-- The element of type `c` that stands for the whole number `n`, as conversion makes it. -/
def litVal (c : Code) (n : Int) : Val :=
  match c with
  | .f32 => .f32 (.ofNat 32 (b32.ofInt n))
  | .f64 => .f64 (num n)
  | _ => .int n

theorem lit_converts (c : Code) : Converts ieee c (.f64 (num 0)) (litVal c 0) ∧ Converts ieee c (.f64 (num 1)) (litVal c 1) ∧
    Converts ieee c (.f64 (num 2)) (litVal c 2) := by
  have t : ieee.trunc64 (num 0) = some 0 ∧ ieee.trunc64 (num 1) = some 1 ∧ ieee.trunc64 (num 2) = some 2 := by decide +kernel
  have n : ieee.narrow (num 0) = .ofNat 32 (b32.ofInt 0) ∧ ieee.narrow (num 1) = .ofNat 32 (b32.ofInt 1) ∧
    ieee.narrow (num 2) = .ofNat 32 (b32.ofInt 2) := by decide +kernel
  cases c
  case f32 => simp only [Converts, litVal, n, and_self]
  case f64 => simp only [Converts, litVal, and_self]
  all_goals
    exact ⟨⟨0, rfl, t.1, _, _, rfl, by decide, by decide⟩, ⟨1, rfl, t.2.1, _, _, rfl, by decide, by decide⟩,
      ⟨2, rfl, t.2.2, _, _, rfl, by decide, by decide⟩⟩

theorem wt_cases (hx : x.WT c) : (c = .f32 ∧ ∃ b, x = .f32 b) ∨ (c = .f64 ∧ ∃ b, x = .f64 b) ∨
    (c.isInt = true ∧ ∃ n, x = .int n ∧ ∃ lo hi, intRange c = some (lo, hi) ∧ lo ≤ n ∧ n ≤ hi) := by
  cases c <;> cases x <;> simp only [Val.WT] at hx <;> first
    | exact .inl ⟨rfl, _, rfl⟩
    | exact .inr (.inl ⟨rfl, _, rfl⟩)
    | exact .inr (.inr ⟨rfl, _, rfl, _, _, rfl, hx.1, hx.2⟩)

theorem int_op (hc : c.isInt = true) {op : BinOp} {a b e : Int} (he : WholeOp op a b e) (hw : ∃ lo hi, intRange c = some (lo, hi) ∧ lo ≤ e ∧ e ≤ hi)
    {fp : FloatOps} : OpResult fp c op (.int a) (.int b) (.int e) := by
  have he' : ExactOp op a b e := by
    cases op <;> first | exact he | exact ⟨he.1, 0, by rw [he.2]; simp, by simpa using Int.natAbs_pos.2 he.1, by simp, by simp⟩
  refine ⟨e, e, rfl, he', ?_⟩
  have hr := reducesTo_self hw
  cases c <;> first | exact absurd hc (by decide) | exact hr | exact ⟨rfl, hw⟩ | skip
  obtain ⟨lo, hi, h1, h2, h3⟩ := hw
  simp only [intRange, Option.some.injEq, Prod.mk.injEq] at h1
  exact ⟨by omega, hr⟩

/-- The number that changes nothing when it is the second operand. -/
def BinOp.neutral : BinOp → Int
  | .add | .sub => 0
  | .mul | .div => 1

theorem back32 {n : Nat} {b : BitVec 32} (h : n = b.toNat) : BitVec.ofNat 32 n = b := by subst h; simp
theorem back64 {n : Nat} {b : BitVec 64} (h : n = b.toNat) : BitVec.ofNat 64 n = b := by subst h; simp

theorem neutral_fmt (h : F.OK) {b : Nat} (hb : b < 2 * F.signBit) (hn : F.isNaN b = false) :
    (b ≠ F.signBit → F.add b 0 = b) ∧ F.sub b 0 = b ∧ F.mul b (F.ofInt 1) = b ∧ F.div b (F.ofInt 1) = b := by
  obtain ⟨s, n, hi, rfl⟩ := not_nan_signed hb hn
  refine ⟨fun h0 => ?_, ?_, mul_signed_one h hi, div_signed_one h hi⟩
  · conv => lhs; rw [← zero_signed F]
    refine add_signed_zero h hi fun e => ?_
    subst e
    cases s
    · rfl
    · exact absurd (by simp [Fmt.signed]) h0
  · conv => lhs; rw [← zero_signed F, sub_mag h (inf_pos h)]
    exact add_signed_zero h hi fun _ => by simp

theorem neutral_op (op : BinOp) (hx : x.WT c) (hn : NotNaN x) (hz : op = .add → ¬ MinusZero x) : OpResult ieee c op x (litVal c op.neutral) x := by
  rcases wt_cases hx with ⟨rfl, b, rfl⟩ | ⟨rfl, b, rfl⟩ | ⟨hc, n, rfl, hr⟩
  · obtain ⟨h1, h2, h3, h4⟩ := neutral_fmt b32_ok (bits32 b) hn
    have e : (BitVec.ofNat 32 (b32.ofInt 1)).toNat = b32.ofInt 1 := of32 (ofInt_lt b32_ok 1)
    cases op <;> simp only [OpResult, litVal, BinOp.neutral, ieee, e, ofInt_zero, Val.f32.injEq] <;> refine (back32 ?_).symm
    · exact h1 (hz rfl)
    · exact h2
    · exact h3
    · exact h4
  · obtain ⟨h1, h2, h3, h4⟩ := neutral_fmt b64_ok (bits64 b) hn
    have e : (num 1).toNat = b64.ofInt 1 := of64 (ofInt_lt b64_ok 1)
    have e0 : (num 0).toNat = 0 := by rw [num, ofInt_zero]; rfl
    cases op <;> simp only [OpResult, litVal, BinOp.neutral, ieee, e, e0, Val.f64.injEq] <;> refine (back64 ?_).symm
    · exact h1 (hz rfl)
    · exact h2
    · exact h3
    · exact h4
  · have : litVal c op.neutral = .int op.neutral := by cases c <;> first | exact absurd hc (by decide) | rfl
    rw [this]
    refine int_op hc ?_ hr
    cases op <;> simp [WholeOp, BinOp.neutral]

theorem self_fmt (h : F.OK) {b : Nat} (hb : b < 2 * F.signBit) (hn : F.units b ≠ none) :
    F.sub b b = 0 ∧ (b ≠ 0 → b ≠ F.signBit → F.div b b = F.ofInt 1) := by
  obtain ⟨s, n, hs, rfl⟩ := exists_signed hb
  rw [units_signed h hs] at hn
  split at hn
  · next hlt =>
    refine ⟨sub_signed_self h hlt, fun h0 h0' => div_signed_self h hlt ?_⟩
    cases s <;> simp [Fmt.signed] at h0 h0' <;> omega
  · exact absurd rfl hn

theorem sub_self_op (hx : x.WT c) (hn : Finite x) : OpResult ieee c .sub x x (litVal c 0) := by
  rcases wt_cases hx with ⟨rfl, b, rfl⟩ | ⟨rfl, b, rfl⟩ | ⟨hc, n, rfl, hr⟩
  · simp only [OpResult, litVal, ieee, (self_fmt b32_ok (bits32 b) hn).1, ofInt_zero]
  · simp only [OpResult, litVal, ieee, (self_fmt b64_ok (bits64 b) hn).1, num, ofInt_zero]
  · have : litVal c 0 = .int 0 := by cases c <;> first | exact absurd hc (by decide) | rfl
    rw [this]
    exact int_op hc (by simp [WholeOp]) (inRange_zero hc)

theorem div_self_op (hx : x.WT c) (hn : Finite x) (h0 : ¬ IsZero x) : OpResult ieee c .div x x (litVal c 1) := by
  rcases wt_cases hx with ⟨rfl, b, rfl⟩ | ⟨rfl, b, rfl⟩ | ⟨hc, n, rfl, hr⟩
  · simp only [OpResult, litVal, ieee, (self_fmt b32_ok (bits32 b) hn).2 (fun e => h0 (.inl (BitVec.eq_of_toNat_eq e))) (fun e => h0 (.inr e))]
  · simp only [OpResult, litVal, ieee, num, (self_fmt b64_ok (bits64 b) hn).2 (fun e => h0 (.inl (BitVec.eq_of_toNat_eq e))) (fun e => h0 (.inr e))]
  · have : litVal c 1 = .int 1 := by cases c <;> first | exact absurd hc (by decide) | rfl
    rw [this]
    refine int_op (op := .div) (e := 1) hc ⟨h0, by simp⟩ ?_
    cases c <;> first | exact absurd hc (by decide) | exact ⟨_, _, rfl, by decide, by decide⟩

theorem double_fmt (h : F.OK) {b : Nat} (hb : b < 2 * F.signBit) : F.mul b (F.ofInt 2) = F.add b b := by
  by_cases hn : F.isNaN b = false
  · obtain ⟨s, n, hi, rfl⟩ := not_nan_signed hb hn
    exact mul_signed_two h hi
  · rw [Fmt.mul, Fmt.add, decode_isNaN h hb (by simpa using hn)]

theorem halve_fmt (h : F.OK) (hh : F.half < F.infBits ∧ 2 * F.mag F.half = 2 ^ F.low) {b : Nat} (hb : b < 2 * F.signBit) :
    F.div b (F.ofInt 2) = F.mul b F.half := by
  by_cases hn : F.isNaN b = false
  · obtain ⟨s, n, hi, rfl⟩ := not_nan_signed hb hn
    exact div_signed_two h hh hi
  · rw [Fmt.mul, Fmt.div, decode_isNaN h hb (by simpa using hn)]

theorem double_op (hx : x.WT c) {z : Val} (hz : OpResult ieee c .add x x z) : OpResult ieee c .mul x (litVal c 2) z := by
  rcases wt_cases hx with ⟨rfl, b, rfl⟩ | ⟨rfl, b, rfl⟩ | ⟨hc, n, rfl, hr⟩
  · have e : (BitVec.ofNat 32 (b32.ofInt 2)).toNat = b32.ofInt 2 := of32 (ofInt_lt b32_ok 2)
    simpa only [OpResult, litVal, ieee, e, double_fmt b32_ok (bits32 b)] using hz
  · have e : (num 2).toNat = b64.ofInt 2 := of64 (ofInt_lt b64_ok 2)
    simpa only [OpResult, litVal, ieee, e, double_fmt b64_ok (bits64 b)] using hz
  · have : litVal c 2 = .int 2 := by cases c <;> first | exact absurd hc (by decide) | rfl
    rw [this]
    obtain ⟨e, r, rfl, he, hr⟩ := hz
    simp only [ExactOp] at he
    exact ⟨e, r, rfl, by simp only [ExactOp]; omega, hr⟩

/-- The element that 0.5 is converted to. -/
def halfVal (c : Code) : Val := if c = .f32 then .f32 (.ofNat 32 b32.half) else .f64 half

theorem half_converts (hc : c = .f32 ∨ c = .f64) : Converts ieee c (.f64 half) (halfVal c) := by
  have n : ieee.narrow half = .ofNat 32 b32.half := by decide +kernel
  rcases hc with rfl | rfl
  · simp only [Converts, halfVal, n, if_true]
  · simp [Converts, halfVal]

theorem halve_op (hx : x.WT c) (hc : c = .f32 ∨ c = .f64) : ∃ z, OpResult ieee c .div x (litVal c 2) z ∧ OpResult ieee c .mul x (halfVal c) z := by
  rcases hc with rfl | rfl <;> cases x <;> first | exact False.elim hx | skip
  · next b =>
    have e : (BitVec.ofNat 32 (b32.ofInt 2)).toNat = b32.ofInt 2 := of32 (ofInt_lt b32_ok 2)
    have e' : (BitVec.ofNat 32 b32.half).toNat = b32.half := of32 (by decide +kernel)
    exact ⟨_, rfl, by simp only [OpResult, halfVal, if_true, ieee, e, e', halve_fmt b32_ok half32 (bits32 b)]⟩
  · next b =>
    have e : (num 2).toNat = b64.ofInt 2 := of64 (ofInt_lt b64_ok 2)
    have e' : half.toNat = b64.half := by decide +kernel
    exact ⟨_, rfl, by simp only [OpResult, halfVal, reduceCtorEq, if_false, ieee, e, e', halve_fmt b64_ok half64 (bits64 b)]⟩

end Aitisa
