import Verif.Proof.Error
import Verif.Proof.IeeeRoot
import Verif.Proof.IeeeAct
import Verif.Proof.IeeeMac
import Verif.Proof.Casts
import Verif.Spec.Order

/-!
# IEEE operations keep the order
-/

namespace Aitisa

variable {F G : Fmt}

/-! ### Rounding -/

/-- Between two numbers with even last bits there is another one. -/
theorem rat_between {F : Fmt} (h : F.OK) {b b' : Nat} {q w : Rat} (hb : b < 2 * F.signBit) (hb' : b' < 2 * F.signBit) (hq : F.rat b = some q)
    (hw : F.rat b' = some w) (e1 : b % 2 = 0) (e2 : b' % 2 = 0) (hlt : q < w) : ∃ k v, k < 2 * F.signBit ∧ F.rat k = some v ∧ q < v ∧ v < w := by
  obtain ⟨s, n, hn, rfl, rfl⟩ := rat_some h hb hq
  obtain ⟨t, c, hc, rfl, rfl⟩ := rat_some h hb' hw
  have hU := low_pos F
  have hi := inf_pos h
  have hs := inf_lt_sign h
  have hse := sign_even h
  have p1 : n % 2 = 0 := by unfold Fmt.signed at e1; split at e1 <;> omega
  have p2 : c % 2 = 0 := by unfold Fmt.signed at e2; split at e2 <;> omega
  rw [div_lt_div_iff hU, Rat.intCast_lt_intCast] at hlt
  have hie := inf_even h
  suffices ∃ u k, k < F.infBits ∧ sgn s (F.mag n) < sgn u (F.mag k) ∧ sgn u (F.mag k) < sgn t (F.mag c) by
    obtain ⟨u, k, hk, l1, l2⟩ := this
    refine ⟨F.signed u k, _, signed_lt (by omega), rat_signed h hk, ?_, ?_⟩ <;> rw [div_lt_div_iff hU, Rat.intCast_lt_intCast] <;> assumption
  have up : ∀ x y : Nat, x % 2 = 0 → y % 2 = 0 → F.mag x < F.mag y → F.mag x < F.mag (x + 1) ∧ F.mag (x + 1) < F.mag y := fun x y hx hy hxy => by
    have := (mag_lt_iff F).1 hxy
    exact ⟨(mag_lt_iff F).2 (by omega), (mag_lt_iff F).2 (by omega)⟩
  have z0 := mag_zero F
  cases s <;> cases t <;> simp only [sgn, if_true, if_false, Bool.false_eq_true] at hlt
  · obtain ⟨u1, u2⟩ := up n c p1 p2 (by omega)
    have := (mag_lt_iff F).1 (show F.mag n < F.mag c by omega)
    exact ⟨false, n + 1, by omega, by simp [sgn]; omega, by simp [sgn]; omega⟩
  · omega
  · by_cases hn0 : F.mag n = 0
    · obtain ⟨u1, u2⟩ := up 0 c (by omega) p2 (by omega)
      have := (mag_lt_iff F).1 (show F.mag 0 < F.mag c by omega)
      exact ⟨false, 1, by omega, by simp [sgn] at *; omega, by simp [sgn] at *; omega⟩
    · by_cases hc0 : F.mag c = 0
      · obtain ⟨u1, u2⟩ := up 0 n (by omega) p1 (by omega)
        have := (mag_lt_iff F).1 (show F.mag 0 < F.mag n by omega)
        exact ⟨true, 1, by omega, by simp [sgn] at *; omega, by simp [sgn] at *; omega⟩
      · exact ⟨false, 0, by omega, by simp [sgn, z0]; omega, by simp [sgn, z0]; omega⟩
  · obtain ⟨u1, u2⟩ := up c n p2 p1 (by omega)
    have := (mag_lt_iff F).1 (show F.mag c < F.mag n by omega)
    exact ⟨true, c + 1, by omega, by simp [sgn]; omega, by simp [sgn]; omega⟩

/-- A number is the correctly rounded value of itself. -/
theorem rounded_self {F : Fmt} (h : F.OK) {b : Nat} {q : Rat} (hb : b < 2 * F.signBit) (hq : F.rat b = some q) : F.Rounded q b := by
  obtain ⟨s, n, hn, rfl, rfl⟩ := rat_some h hb hq
  have := rounded_of h (s := s) (N := F.mag n) (D := 1) (by omega) rfl
  rw [rq_mag h hn, Nat.one_mul] at this
  exact this

/-- `a <= b`, neither a NaN. -/
def Fmt.Le (F : Fmt) (a b : Nat) : Prop := F.isNaN a = false ∧ F.isNaN b = false ∧ F.key a ≤ F.key b

theorem Fmt.Le.refl {a : Nat} (h : F.isNaN a = false) : F.Le a a := ⟨h, h, Int.le_refl _⟩

theorem Fmt.Le.trans {a b c : Nat} (h : F.Le a b) (h' : F.Le b c) : F.Le a c := ⟨h.1, h'.2.1, Int.le_trans h.2.2 h'.2.2⟩

theorem le_of_lt {a b : Nat} (ha : F.isNaN a = false) (hb : F.isNaN b = false) : F.Le a b ↔ F.lt b a = false := by
  rw [lt_not_nan hb ha]
  simp [Fmt.Le, ha, hb]

/-- A bit pattern that is not a NaN is a number or an infinity. -/
theorem number_or_inf (h : F.OK) {b : Nat} (hb : b < 2 * F.signBit) (hn : F.isNaN b = false) :
    (∃ q, F.rat b = some q) ∨ ∃ s, b = F.signed s F.infBits := by
  obtain ⟨s, n, hi, rfl⟩ := not_nan_signed hb hn
  rcases Nat.lt_or_ge n F.infBits with h1 | h1
  · exact .inl ⟨_, rat_signed h h1⟩
  · exact .inr ⟨s, by rw [Nat.le_antisymm hi h1]⟩

theorem rat_not_nan (h : F.OK) {b : Nat} {q : Rat} (hb : b < 2 * F.signBit) (hq : F.rat b = some q) : F.isNaN b = false := by
  obtain ⟨s, n, hn, rfl, rfl⟩ := rat_some h hb hq
  exact signed_not_nan h s (Nat.le_of_lt hn)

theorem sgn_mag_le (F : Fmt) {s t : Bool} {n k : Nat} : sgn s (F.mag n) ≤ sgn t (F.mag k) ↔ sgn s n ≤ sgn t k := by
  have h1 := mag_le_iff F (a := n) (b := k)
  have h2 := mag_le_iff F (a := k) (b := n)
  have h3 := mag_le_iff F (a := n) (b := 0)
  have h4 := mag_le_iff F (a := k) (b := 0)
  rw [mag_zero] at h3 h4
  cases s <;> cases t <;> simp only [sgn, if_true, if_false, Bool.false_eq_true] <;> omega

/-- The order of numbers. -/
theorem le_rat (h : F.OK) {a b : Nat} {x y : Rat} (ha : a < 2 * F.signBit) (hb : b < 2 * F.signBit) (hx : F.rat a = some x) (hy : F.rat b = some y) :
    F.Le a b ↔ x ≤ y := by
  have hs := inf_lt_sign h
  have n1 := rat_not_nan h ha hx
  have n2 := rat_not_nan h hb hy
  obtain ⟨s, n, hn, rfl, rfl⟩ := rat_some h ha hx
  obtain ⟨t, k, hk, rfl, rfl⟩ := rat_some h hb hy
  rw [div_le_div_iff (low_pos F), Rat.intCast_le_intCast, sgn_mag_le]
  simp only [Fmt.Le, n1, n2, true_and]
  rw [key_signed (by omega), key_signed (by omega)]

theorem le_inf (h : F.OK) {b : Nat} (hb : b < 2 * F.signBit) (hn : F.isNaN b = false) : F.Le b (F.signed false F.infBits) := by
  have hs := inf_lt_sign h
  refine ⟨hn, signed_not_nan h _ (Nat.le_refl _), ?_⟩
  obtain ⟨s, n, hi, rfl⟩ := not_nan_signed hb hn
  rw [key_signed (by omega), key_signed hs]
  cases s <;> simp [sgn] <;> omega

theorem inf_le (h : F.OK) {b : Nat} (hb : b < 2 * F.signBit) (hn : F.isNaN b = false) : F.Le (F.signed true F.infBits) b := by
  have hs := inf_lt_sign h
  refine ⟨signed_not_nan h _ (Nat.le_refl _), hn, ?_⟩
  obtain ⟨s, n, hi, rfl⟩ := not_nan_signed hb hn
  rw [key_signed hs, key_signed (by omega)]
  cases s <;> simp [sgn] <;> omega

theorem above_inf (h : F.OK) {b : Nat} (hb : b < 2 * F.signBit) (hl : F.Le (F.signed false F.infBits) b) : b = F.signed false F.infBits := by
  have hs := inf_lt_sign h
  have hp := inf_pos h
  obtain ⟨s, n, hi, rfl⟩ := not_nan_signed hb hl.2.1
  have := hl.2.2
  rw [key_signed hs, key_signed (by omega)] at this
  cases s <;> simp [sgn] at this
  · rw [show n = F.infBits by omega]
  · omega

theorem below_inf (h : F.OK) {b : Nat} (hb : b < 2 * F.signBit) (hl : F.Le b (F.signed true F.infBits)) : b = F.signed true F.infBits := by
  have hs := inf_lt_sign h
  have hp := inf_pos h
  obtain ⟨s, n, hi, rfl⟩ := not_nan_signed hb hl.1
  have := hl.2.2
  rw [key_signed hs, key_signed (by omega)] at this
  cases s <;> simp [sgn] at this
  · omega
  · rw [show n = F.infBits by omega]

theorem limit_pos (h : F.OK) : 0 < F.limit := by
  unfold Fmt.limit
  refine Rat.mul_pos (cast_pos ?_) (zpow_pos _)
  have : 2 ^ 1 ≤ 2 ^ (F.p + 1) := Nat.pow_le_pow_right (by decide) (by omega)
  omega

/-- A larger number is not rounded to a smaller one. -/
theorem rounded_le (h : F.OK) {b b' : Nat} {e e' : Rat} (hb : b < 2 * F.signBit) (hb' : b' < 2 * F.signBit) (h1 : F.Rounded e b)
    (h2 : F.Rounded e' b') (hle : e ≤ e') : F.Le b b' := by
  have hL := limit_pos h
  have inf : ∀ s, F.isNaN (F.signed s F.infBits) = false := fun s => signed_not_nan h s (Nat.le_refl _)
  have nn : ∀ {e : Rat} {b : Nat}, b < 2 * F.signBit → F.Rounded e b → F.isNaN b = false := fun {e b} hb hr => by
    by_cases u : F.limit ≤ e
    · have := inf false; rw [hr.2.1 u]; simpa [Fmt.signed] using this
    · by_cases d : e ≤ -F.limit
      · have := inf true; rw [hr.2.2 d]; simpa [Fmt.signed] using this
      · obtain ⟨q, hq, _⟩ := hr.1 (by grind [Rat.abs])
        exact rat_not_nan h hb hq
  by_cases u : F.limit ≤ e'
  · have := le_inf h hb (nn hb h1)
    rw [h2.2.1 u]
    simpa [Fmt.signed] using this
  · by_cases d : e ≤ -F.limit
    · have := inf_le h hb' (nn hb' h2)
      rw [h1.2.2 d]
      simpa [Fmt.signed] using this
    · obtain ⟨q, hq, n1⟩ := h1.1 (by grind [Rat.abs])
      obtain ⟨w, hw, n2⟩ := h2.1 (by grind [Rat.abs])
      rw [le_rat h hb hb' hq hw]
      refine Rat.not_lt.1 fun hlt => ?_
      obtain ⟨a1, a2⟩ := n1 b' w (by rw [two_sign h]; exact hb') hw
      obtain ⟨a3, a4⟩ := n2 b q (by rw [two_sign h]; exact hb) hq
      obtain ⟨k, v, hk, hv, l1, l2⟩ := rat_between h hb' hb hw hq (a4 (by grind [Rat.abs]) (by grind)) (a2 (by grind [Rat.abs]) (by grind)) hlt
      have := (n1 k v (by rw [two_sign h]; exact hk) hv).1
      grind [Rat.abs]

/-! ### Operations -/

theorem nan_is_nan (h : F.OK) : F.isNaN F.nanBits = true := by
  have hp := h.p3
  have h1 := nan_lt h
  have h2 : 0 < 2 ^ (F.p - 2) := Nat.two_pow_pos _
  have h3 : F.nanBits < F.signBit := by
    have : F.infBits + 2 ^ (F.p - 1) ≤ F.signBit := by
      have := h.inf_lt
      omega
    have : 2 ^ (F.p - 2) < 2 ^ (F.p - 1) := Nat.pow_lt_pow_right (by decide) (by omega)
    unfold Fmt.nanBits; omega
  unfold Fmt.isNaN
  rw [Nat.mod_eq_of_lt h3]
  rw [decide_eq_true_eq]
  unfold Fmt.nanBits
  omega

theorem decode_rat {b : Nat} {q : Rat} (hq : F.rat b = some q) : ∃ s m e, F.decode b = .fin s m e := by
  unfold Fmt.rat at hq
  split at hq
  · next s m e hd => exact ⟨s, m, e, hd⟩
  · cases hq

theorem sum_inf_left (h : F.OK) {s : Bool} {y : Datum} (hn : F.isNaN (F.sum (.inf s) y) = false) : F.sum (.inf s) y = F.signed s F.infBits := by
  have hN := nan_is_nan h
  cases y <;> simp only [Fmt.sum] at hn ⊢
  · rw [hN] at hn; cases hn
  · split at hn
    · rw [if_pos ‹_›]
    · rw [hN] at hn; cases hn

theorem sum_inf_right (h : F.OK) {s : Bool} {x : Datum} (hn : F.isNaN (F.sum x (.inf s)) = false) : F.sum x (.inf s) = F.signed s F.infBits := by
  have hN := nan_is_nan h
  cases x <;> simp only [Fmt.sum] at hn ⊢
  · rw [hN] at hn; cases hn
  · split at hn
    · next e => rw [if_pos e, e]
    · rw [hN] at hn; cases hn

theorem sum_nan_left (y : Datum) : F.sum .nan y = F.nanBits := by cases y <;> rfl

theorem sum_nan_right (x : Datum) : F.sum x .nan = F.nanBits := by cases x <;> rfl

/-- Sums keep the order. -/
theorem add_le_add (h : F.OK) {a a' b b' : Nat} (ha : a < 2 * F.signBit) (ha' : a' < 2 * F.signBit) (hb : b < 2 * F.signBit) (hb' : b' < 2 * F.signBit)
    (h1 : F.Le a a') (h2 : F.Le b b') (n1 : F.isNaN (F.add a b) = false) (n2 : F.isNaN (F.add a' b') = false) : F.Le (F.add a b) (F.add a' b') := by
  have top : F.add a' b' = F.signed false F.infBits → F.Le (F.add a b) (F.add a' b') := fun e => by rw [e]; exact le_inf h (add_lt h _ _) n1
  have bot : F.add a b = F.signed true F.infBits → F.Le (F.add a b) (F.add a' b') := fun e => by rw [e]; exact inf_le h (add_lt h _ _) n2
  rcases number_or_inf h ha' h1.2.1 with ⟨x', hx'⟩ | ⟨s, rfl⟩
  · rcases number_or_inf h hb' h2.2.1 with ⟨y', hy'⟩ | ⟨s, rfl⟩
    · rcases number_or_inf h ha h1.1 with ⟨x, hx⟩ | ⟨s, rfl⟩
      · rcases number_or_inf h hb h2.1 with ⟨y, hy⟩ | ⟨s, rfl⟩
        · refine rounded_le h (add_lt h _ _) (add_lt h _ _) (add_rounded h ha hb hx hy) (add_rounded h ha' hb' hx' hy') ?_
          have e1 := (le_rat h ha ha' hx hx').1 h1
          have e2 := (le_rat h hb hb' hy hy').1 h2
          grind
        · cases s
          · rw [above_inf h hb' h2, rat_inf h] at hy'; cases hy'
          · refine bot ?_
            rw [add_sum, decode_inf h] at n1 ⊢
            exact sum_inf_right h n1
      · cases s
        · rw [above_inf h ha' h1, rat_inf h] at hx'; cases hx'
        · refine bot ?_
          rw [add_sum, decode_inf h] at n1 ⊢
          exact sum_inf_left h n1
    · cases s
      · refine top ?_
        rw [add_sum, decode_inf h] at n2 ⊢
        exact sum_inf_right h n2
      · rw [below_inf h hb h2] at n1 bot
        refine (below_inf h hb h2) ▸ bot ?_
        rw [add_sum, decode_inf h] at n1 ⊢
        exact sum_inf_right h n1
  · cases s
    · refine top ?_
      rw [add_sum, decode_inf h] at n2 ⊢
      exact sum_inf_left h n2
    · refine bot ?_
      rw [below_inf h ha h1] at n1 ⊢
      rw [add_sum, decode_inf h] at n1 ⊢
      exact sum_inf_left h n1

theorem neg_le_neg (h : F.OK) {a b : Nat} (ha : a < 2 * F.signBit) (hb : b < 2 * F.signBit) (h1 : F.Le a b) : F.Le (F.neg b) (F.neg a) := by
  have hs := inf_lt_sign h
  obtain ⟨s, n, hn, rfl⟩ := not_nan_signed ha h1.1
  obtain ⟨t, k, hk, rfl⟩ := not_nan_signed hb h1.2.1
  have := h1.2.2
  rw [key_signed (by omega), key_signed (by omega)] at this
  rw [neg_signed (by omega), neg_signed (by omega)]
  refine ⟨signed_not_nan h _ hk, signed_not_nan h _ hn, ?_⟩
  rw [key_signed (by omega), key_signed (by omega)]
  cases s <;> cases t <;> simp [sgn] at * <;> omega

theorem sub_neg (h : F.OK) {a b : Nat} (hb : b < 2 * F.signBit) (hn : F.isNaN b = false) : F.sub a b = F.add a (F.neg b) := by
  have := decode_nan h hb hn
  unfold Fmt.sub
  split
  · contradiction
  · rfl

/-- Differences keep the order of the first and reverse that of the second operand. -/
theorem sub_le_sub (h : F.OK) {a a' b b' : Nat} (ha : a < 2 * F.signBit) (ha' : a' < 2 * F.signBit) (hb : b < 2 * F.signBit) (hb' : b' < 2 * F.signBit)
    (h1 : F.Le a a') (h2 : F.Le b' b) (n1 : F.isNaN (F.sub a b) = false) (n2 : F.isNaN (F.sub a' b') = false) : F.Le (F.sub a b) (F.sub a' b') := by
  rw [sub_neg h hb h2.2.1] at n1 ⊢
  rw [sub_neg h hb' h2.1] at n2 ⊢
  exact add_le_add h ha ha' (neg_lt hb) (neg_lt hb') h1 (neg_le_neg h hb' hb h2) n1 n2

/-- Conversion keeps the order. -/
theorem convert_le_convert (h : F.OK) (hG : G.OK) {a b : Nat} (ha : a < 2 * F.signBit) (hb : b < 2 * F.signBit) (h1 : F.Le a b) :
    G.Le (F.convert G a) (F.convert G b) := by
  have n1 := convert_not_nan h hG ha h1.1
  have n2 := convert_not_nan h hG hb h1.2.1
  have inf : ∀ s, F.convert G (F.signed s F.infBits) = G.signed s G.infBits := fun s => by rw [Fmt.convert, decode_inf h]
  rcases number_or_inf h ha h1.1 with ⟨x, hx⟩ | ⟨s, rfl⟩
  · rcases number_or_inf h hb h1.2.1 with ⟨y, hy⟩ | ⟨s, rfl⟩
    · exact rounded_le hG (convert_lt hG _) (convert_lt hG _) (convert_rounded h hG ha hx) (convert_rounded h hG hb hy) ((le_rat h ha hb hx hy).1 h1)
    · cases s
      · rw [inf]; exact le_inf hG (convert_lt hG _) n1
      · rw [below_inf h ha h1, rat_inf h] at hx; cases hx
  · cases s
    · rw [above_inf h hb h1]; exact .refl n1
    · rw [inf]; exact inf_le hG (convert_lt hG _) n2

theorem ofInt_le_ofInt (h : F.OK) {a b : Int} (hab : a ≤ b) : F.Le (F.ofInt a) (F.ofInt b) :=
  rounded_le h (ofInt_lt h _) (ofInt_lt h _) (ofInt_rounded h a) (ofInt_rounded h b) (Rat.intCast_le_intCast.2 hab)

/-- Multiplication by a number that is not negative keeps the order. -/
theorem mul_le_mul (h : F.OK) {a a' b : Nat} {y : Rat} (ha : a < 2 * F.signBit) (ha' : a' < 2 * F.signBit) (hb : b < 2 * F.signBit)
    (h1 : F.Le a a') (hy : F.rat b = some y) (hy0 : 0 ≤ y) (n1 : F.isNaN (F.mul a b) = false) (n2 : F.isNaN (F.mul a' b) = false) :
    F.Le (F.mul a b) (F.mul a' b) := by
  have hN := nan_is_nan h
  have inf : ∀ s, F.isNaN (F.mul (F.signed s F.infBits) b) = false → F.mul (F.signed s F.infBits) b = F.signed s F.infBits := fun s hn => by
    obtain ⟨t, m, e, hd⟩ := decode_rat hy
    rw [Fmt.mul, decode_inf h, hd] at hn ⊢
    simp only [] at hn ⊢
    split at hn
    · rw [hN] at hn; cases hn
    · next hm =>
      rw [if_neg hm]
      cases t
      · simp
      · rw [Fmt.rat, hd] at hy
        simp only [Option.some.injEq] at hy
        have h2 := zpow_pos e
        have h3 : (0 : Rat) < (m : Rat) := cast_pos (by omega)
        have h4 := Rat.mul_pos h3 h2
        have h5 : ((sgn true m : Int) : Rat) = -(m : Rat) := by simp only [sgn, if_true, Rat.intCast_neg, Rat.intCast_natCast]
        rw [h5, Rat.neg_mul] at hy
        grind
  rcases number_or_inf h ha h1.1 with ⟨x, hx⟩ | ⟨s, rfl⟩
  · rcases number_or_inf h ha' h1.2.1 with ⟨x', hx'⟩ | ⟨s, rfl⟩
    · exact rounded_le h (mul_lt h _ _) (mul_lt h _ _) (mul_rounded h ha hb hx hy) (mul_rounded h ha' hb hx' hy)
        (Rat.mul_le_mul_of_nonneg_right ((le_rat h ha ha' hx hx').1 h1) hy0)
    · cases s
      · rw [inf false n2]; exact le_inf h (mul_lt h _ _) n1
      · rw [below_inf h ha h1, rat_inf h] at hx; cases hx
  · cases s
    · rw [above_inf h ha' h1]; exact .refl n1
    · rw [inf true n1]; exact inf_le h (mul_lt h _ _) n2

/-- Division by a positive number keeps the order. -/
theorem div_le_div (h : F.OK) {a a' b : Nat} {y : Rat} (ha : a < 2 * F.signBit) (ha' : a' < 2 * F.signBit) (hb : b < 2 * F.signBit)
    (h1 : F.Le a a') (hy : F.rat b = some y) (hy0 : 0 < y) : F.Le (F.div a b) (F.div a' b) := by
  have inf : ∀ s, F.div (F.signed s F.infBits) b = F.signed s F.infBits := fun s => by
    obtain ⟨t, m, e, hd⟩ := decode_rat hy
    rw [Fmt.div, decode_inf h, hd]
    simp only []
    cases t
    · simp
    · rw [Fmt.rat, hd] at hy
      simp only [Option.some.injEq] at hy
      have h2 := zpow_pos e
      have h3 : (0 : Rat) ≤ (m : Rat) := Rat.natCast_nonneg
      have h4 := Rat.mul_nonneg h3 (Rat.le_of_lt h2)
      have h5 : ((sgn true m : Int) : Rat) = -(m : Rat) := by simp only [sgn, if_true, Rat.intCast_neg, Rat.intCast_natCast]
      rw [h5, Rat.neg_mul] at hy
      grind
  have le : ∀ {x x' : Rat}, x ≤ x' → x / y ≤ x' / y := fun hx => (div_le_div_iff hy0).2 hx
  have nn : ∀ {a : Nat}, a < 2 * F.signBit → F.isNaN a = false → F.isNaN (F.div a b) = false := fun {a} ha hn => by
    rcases number_or_inf h ha hn with ⟨x, hx⟩ | ⟨s, rfl⟩
    · have := div_rounded h ha hb hx hy (by grind)
      exact (rounded_le h (div_lt h _ _) (div_lt h _ _) this this Rat.le_refl).1
    · rw [inf]; exact signed_not_nan h _ (Nat.le_refl _)
  rcases number_or_inf h ha h1.1 with ⟨x, hx⟩ | ⟨s, rfl⟩
  · rcases number_or_inf h ha' h1.2.1 with ⟨x', hx'⟩ | ⟨s, rfl⟩
    · exact rounded_le h (div_lt h _ _) (div_lt h _ _) (div_rounded h ha hb hx hy (by grind)) (div_rounded h ha' hb hx' hy (by grind))
        (le ((le_rat h ha ha' hx hx').1 h1))
    · cases s
      · rw [inf false]; exact le_inf h (div_lt h _ _) (nn ha h1.1)
      · rw [below_inf h ha h1, rat_inf h] at hx; cases hx
  · cases s
    · rw [above_inf h ha' h1]; exact .refl (nn ha h1.1)
    · rw [inf true]; exact inf_le h (div_lt h _ _) (nn ha' h1.2.1)

theorem rootRounded_le (h : F.OK) {b b' : Nat} {x x' : Rat} (hb : b < 2 * F.signBit) (hb' : b' < 2 * F.signBit) (h1 : F.RootRounded x b)
    (h2 : F.RootRounded x' b') (hle : x ≤ x') : F.Le b b' := by
  obtain ⟨q, hq, q0, n1⟩ := h1
  obtain ⟨w, hw, w0, n2⟩ := h2
  rw [le_rat h hb hb' hq hw]
  refine Rat.not_lt.1 fun hlt => ?_
  obtain ⟨a1, a2⟩ := (n1 b' w (by rw [two_sign h]; exact hb') hw w0).2 hlt
  obtain ⟨a3, a4⟩ := (n2 b q (by rw [two_sign h]; exact hb) hq q0).1 hlt
  have e : (w + q) * (w + q) = (q + w) * (q + w) := by rw [Rat.add_comm w q]
  rw [e] at a3 a4
  obtain ⟨k, v, hk, hv, l1, l2⟩ := rat_between h hb' hb hw hq (a4 (by grind)) (a2 (by grind)) hlt
  have h3 := ((n1 k v (by rw [two_sign h]; exact hk) hv (by grind)).2 l2).1
  have h4 : (q + w) * (q + w) < (q + v) * (q + v) := by
    have i1 : 0 < q + w := by grind
    have i2 := Rat.mul_lt_mul_of_pos_left (show q + w < q + v by grind) i1
    have i3 := Rat.mul_lt_mul_of_pos_right (show q + w < q + v by grind) (show 0 < q + v by grind)
    grind
  grind

/-- Roots keep the order. -/
theorem sqrt_le_sqrt (h : F.OK) {a b : Nat} (ha : a < 2 * F.signBit) (hb : b < 2 * F.signBit) (h1 : F.Le a b) (h0 : F.Le 0 a) :
    F.Le (F.sqrt a) (F.sqrt b) := by
  have hz : (0 : Nat) < 2 * F.signBit := by have := sign_pos h; omega
  have z0 : F.rat 0 = some 0 := by
    have := rat_signed h (s := false) (n := 0) (inf_pos h)
    rw [mag_zero] at this
    simpa [Fmt.signed, sgn, Rat.div_def, Rat.zero_mul] using this
  have inf : F.sqrt (F.signed false F.infBits) = F.signed false F.infBits := by
    rw [Fmt.sqrt, decode_inf h]; simp [Fmt.signed]
  have inf' : F.isNaN (F.signed false F.infBits) = false := signed_not_nan h _ (Nat.le_refl _)
  have noneg : ∀ {a}, F.Le 0 a → a ≠ F.signed true F.infBits := fun {a} h0 e => by
    rw [e] at h0
    have := below_inf h hz h0
    rw [this, rat_inf h] at z0; cases z0
  rcases number_or_inf h ha h1.1 with ⟨x, hx⟩ | ⟨s, rfl⟩
  · have x0 := (le_rat h hz ha z0 hx).1 h0
    have r1 := sqrt_rounded h ha hx x0
    rcases number_or_inf h hb h1.2.1 with ⟨y, hy⟩ | ⟨s, rfl⟩
    · have hle := (le_rat h ha hb hx hy).1 h1
      exact rootRounded_le h (sqrt_lt h ha) (sqrt_lt h hb) r1 (sqrt_rounded h hb hy (by grind)) hle
    · cases s
      · rw [inf]; exact le_inf h (sqrt_lt h ha) (rootRounded_le h (sqrt_lt h ha) (sqrt_lt h ha) r1 r1 Rat.le_refl).1
      · exact absurd rfl (noneg (h0.trans h1))
  · cases s
    · rw [above_inf h hb h1, inf]; exact .refl inf'
    · exact absurd rfl (noneg h0)

/-- Adding a product with a number that is not negative keeps the order (one rounding). -/
theorem fma_le_fma (h : F.OK) {z z' a a' b : Nat} {y : Rat} (hz : z < 2 * F.signBit) (hz' : z' < 2 * F.signBit) (ha : a < 2 * F.signBit)
    (ha' : a' < 2 * F.signBit) (hb : b < 2 * F.signBit) (h0 : F.Le z z') (h1 : F.Le a a') (hy : F.rat b = some y) (hy0 : 0 ≤ y)
    (n1 : F.isNaN (F.fma z a b) = false) (n2 : F.isNaN (F.fma z' a' b) = false) : F.Le (F.fma z a b) (F.fma z' a' b) := by
  have hN := nan_is_nan h
  have top : F.fma z' a' b = F.signed false F.infBits → F.Le (F.fma z a b) (F.fma z' a' b) := fun e => by rw [e]; exact le_inf h (fma_lt h _ _ _) n1
  have bot : F.fma z a b = F.signed true F.infBits → F.Le (F.fma z a b) (F.fma z' a' b) := fun e => by rw [e]; exact inf_le h (fma_lt h _ _ _) n2
  have inl : ∀ s {a}, F.isNaN (F.fma (F.signed s F.infBits) a b) = false → F.fma (F.signed s F.infBits) a b = F.signed s F.infBits := fun s {a} hn => by
    rw [Fmt.fma, decode_inf h] at hn ⊢
    exact sum_inf_left h hn
  have inr : ∀ s {z}, F.isNaN (F.fma z (F.signed s F.infBits) b) = false → F.fma z (F.signed s F.infBits) b = F.signed s F.infBits := fun s {z} hn => by
    obtain ⟨t, m, e, hd⟩ := decode_rat hy
    rw [Fmt.fma, decode_inf h, hd] at hn ⊢
    simp only [Datum.times] at hn ⊢
    split at hn
    · rw [sum_nan_right, hN] at hn; cases hn
    · next hm =>
      rw [if_neg hm]
      have : t = false := by
        cases t
        · rfl
        · rw [Fmt.rat, hd] at hy
          simp only [Option.some.injEq] at hy
          have h2 := zpow_pos e
          have h3 : (0 : Rat) < (m : Rat) := cast_pos (by omega)
          have h4 := Rat.mul_pos h3 h2
          have h5 : ((sgn true m : Int) : Rat) = -(m : Rat) := by simp only [sgn, if_true, Rat.intCast_neg, Rat.intCast_natCast]
          rw [h5, Rat.neg_mul] at hy
          grind
      subst this
      simp only [Bool.bne_false] at hn ⊢
      exact sum_inf_right h hn
  rcases number_or_inf h hz' h0.2.1 with ⟨w', hw'⟩ | ⟨s, rfl⟩
  · rcases number_or_inf h ha' h1.2.1 with ⟨x', hx'⟩ | ⟨s, rfl⟩
    · rcases number_or_inf h hz h0.1 with ⟨w, hw⟩ | ⟨s, rfl⟩
      · rcases number_or_inf h ha h1.1 with ⟨x, hx⟩ | ⟨s, rfl⟩
        · refine rounded_le h (fma_lt h _ _ _) (fma_lt h _ _ _) (fma_rounded h hz ha hb hw hx hy) (fma_rounded h hz' ha' hb hw' hx' hy) ?_
          have e1 := (le_rat h hz hz' hw hw').1 h0
          have e2 := Rat.mul_le_mul_of_nonneg_right ((le_rat h ha ha' hx hx').1 h1) hy0
          grind
        · cases s
          · rw [above_inf h ha' h1, rat_inf h] at hx'; cases hx'
          · exact bot (inr true n1)
      · cases s
        · rw [above_inf h hz' h0, rat_inf h] at hw'; cases hw'
        · exact bot (inl true n1)
    · cases s
      · exact top (inr false n2)
      · have e := below_inf h ha h1
        subst e
        exact bot (inr true n1)
  · cases s
    · exact top (inl false n2)
    · have e := below_inf h hz h0
      subst e
      exact bot (inl true n1)

theorem trunc_signed (h : F.OK) {s : Bool} {n : Nat} (hn : n < F.infBits) : F.trunc (F.signed s n) = some (sgn s (F.mag n / 2 ^ F.low)) := by
  obtain ⟨m, i, hd, hm⟩ := decode_mag (s := s) h hn
  rw [trunc_eq, hd]
  simp only [Option.some.injEq]
  have := truncAt_shift m i (F.emin + i)
  rw [← this, hm, show F.emin + (i : Int) - i = F.emin by omega, h.emin]
  congr 1
  unfold truncAt
  split
  · rw [show F.low = 0 by omega]; simp
  · rw [show (-(-(F.low : Int))).toNat = F.low by omega]

/-- Truncation keeps the order. -/
theorem trunc_le_trunc (h : F.OK) {a b : Nat} {n k : Int} (ha : a < 2 * F.signBit) (hb : b < 2 * F.signBit) (h1 : F.Le a b) (hn : F.trunc a = some n)
    (hk : F.trunc b = some k) : n ≤ k := by
  have hs := inf_lt_sign h
  have fin : ∀ {s x j}, x ≤ F.infBits → F.trunc (F.signed s x) = some j → x < F.infBits := fun {s x j} hx ht => by
    rcases Nat.lt_or_ge x F.infBits with hlt | hge
    · exact hlt
    · rw [Nat.le_antisymm hx hge, trunc_eq, decode_inf h] at ht; cases ht
  obtain ⟨s, x, hx, rfl⟩ := not_nan_signed ha h1.1
  obtain ⟨t, y, hy, rfl⟩ := not_nan_signed hb h1.2.1
  have hx := fin hx hn
  have hy := fin hy hk
  have h2 := h1.2.2
  rw [key_signed (by omega), key_signed (by omega)] at h2
  rw [trunc_signed h hx, Option.some.injEq] at hn
  rw [trunc_signed h hy, Option.some.injEq] at hk
  subst hn hk
  have h3 := (sgn_mag_le F).2 h2
  generalize F.mag x = u at *
  generalize F.mag y = v at *
  have d1 : u ≤ v → u / 2 ^ F.low ≤ v / 2 ^ F.low := fun h => Nat.div_le_div_right h
  have d2 : v ≤ u → v / 2 ^ F.low ≤ u / 2 ^ F.low := fun h => Nat.div_le_div_right h
  have d3 : u = 0 → u / 2 ^ F.low = 0 := fun h => by rw [h, Nat.zero_div]
  have d4 : v = 0 → v / 2 ^ F.low = 0 := fun h => by rw [h, Nat.zero_div]
  generalize u / 2 ^ F.low = p at *
  generalize v / 2 ^ F.low = q at *
  cases s <;> cases t <;> simp only [sgn, if_true, if_false, Bool.false_eq_true] at h3 ⊢ <;> omega

/-! ### Elements -/

theorem atMost32 {a b : BitVec 32} : AtMost (.f32 a) (.f32 b) ↔ b32.Le a.toNat b.toNat := by
  constructor
  · rintro ⟨h1, h2, h3⟩
    exact (le_of_lt h1 h2).2 h3
  · intro h
    exact ⟨h.1, h.2.1, (le_of_lt h.1 h.2.1).1 h⟩

theorem atMost64 {a b : BitVec 64} : AtMost (.f64 a) (.f64 b) ↔ b64.Le a.toNat b.toNat := by
  constructor
  · rintro ⟨h1, h2, h3⟩
    exact (le_of_lt h1 h2).2 h3
  · intro h
    exact ⟨h.1, h.2.1, (le_of_lt h.1 h.2.1).1 h⟩

theorem AtMost.refl {x : Val} (h : NotNaN x) : AtMost x x := by
  cases x with
  | int n => exact Int.le_refl _
  | f32 b => exact atMost32.2 (.refl h)
  | f64 b => exact atMost64.2 (.refl h)

theorem AtMost.left {x y : Val} (h : AtMost x y) : NotNaN x := by
  cases x <;> cases y <;> first | exact trivial | exact h.1 | exact h.elim

theorem AtMost.right {x y : Val} (h : AtMost x y) : NotNaN y := by
  cases x <;> cases y <;> first | exact trivial | exact h.2.1 | exact h.elim

theorem AtMost.trans {x y z : Val} (h : AtMost x y) (h' : AtMost y z) : AtMost x z := by
  cases x <;> cases y <;> cases z <;> first
    | exact h.elim
    | exact h'.elim
    | exact Int.le_trans (show (_ : Int) ≤ _ from h) h'
    | exact atMost32.2 ((atMost32.1 h).trans (atMost32.1 h'))
    | exact atMost64.2 ((atMost64.1 h).trans (atMost64.1 h'))

/-- Conversions keep the order, except from an integer type to another one (which may wrap around). -/
theorem converts_le {c c' : Code} {x x' y y' : Val} (hx : x.WT c) (hx' : x'.WT c) (hc : c.isInt = false ∨ c'.isInt = false) (h : AtMost x x')
    (hy : Converts ieee c' x y) (hy' : Converts ieee c' x' y') : AtMost y y' := by
  by_cases h32 : c' = .f32
  · subst h32
    simp only [Converts] at hy hy'
    subst hy hy'
    rw [atMost32]
    cases x <;> cases x' <;> try exact h.elim
    · show b32.Le (BitVec.ofNat 32 (b32.ofInt _)).toNat (BitVec.ofNat 32 (b32.ofInt _)).toNat
      rw [of32 (ofInt_lt b32_ok _), of32 (ofInt_lt b32_ok _)]
      exact ofInt_le_ofInt b32_ok h
    · exact atMost32.1 h
    · show b32.Le (BitVec.ofNat 32 (b64.convert b32 _)).toNat (BitVec.ofNat 32 (b64.convert b32 _)).toNat
      rw [of32 (convert_lt b32_ok _), of32 (convert_lt b32_ok _)]
      exact convert_le_convert b64_ok b32_ok (bits64 _) (bits64 _) (atMost64.1 h)
  · by_cases h64 : c' = .f64
    · subst h64
      simp only [Converts] at hy hy'
      subst hy hy'
      rw [atMost64]
      cases x <;> cases x' <;> try exact h.elim
      · show b64.Le (BitVec.ofNat 64 (b64.ofInt _)).toNat (BitVec.ofNat 64 (b64.ofInt _)).toNat
        rw [of64 (ofInt_lt b64_ok _), of64 (ofInt_lt b64_ok _)]
        exact ofInt_le_ofInt b64_ok h
      · show b64.Le (BitVec.ofNat 64 (b32.convert b64 _)).toNat (BitVec.ofNat 64 (b32.convert b64 _)).toNat
        rw [of64 (convert_lt b64_ok _), of64 (convert_lt b64_ok _)]
        exact convert_le_convert b32_ok b64_ok (bits32 _) (bits32 _) (atMost32.1 h)
      · exact atMost64.1 h
    · have key : ∀ {x y : Val}, Converts ieee c' x y → ∃ r, y = .int r ∧ match x with
          | .int n => ReducesTo c' n r
          | .f32 b => ieee.trunc32 b = some r
          | .f64 b => ieee.trunc64 b = some r := fun {x y} hy => by
        cases c' <;> first
          | exact absurd rfl h32
          | exact absurd rfl h64
          | (obtain ⟨r, rfl, hr⟩ := hy; cases x <;> first | exact ⟨r, rfl, hr⟩ | exact ⟨r, rfl, hr.1⟩)
      obtain ⟨r, rfl, hr⟩ := key hy
      obtain ⟨r', rfl, hr'⟩ := key hy'
      show r ≤ r'
      cases x <;> cases x' <;> try exact h.elim
      · exfalso
        rcases hc with hc | hc
        · cases c <;> first | exact hx.elim | simp [Code.isInt] at hc
        · cases c' <;> first | exact h32 rfl | exact h64 rfl | simp [Code.isInt] at hc
      · exact trunc_le_trunc b32_ok (bits32 _) (bits32 _) (atMost32.1 h) hr hr'
      · exact trunc_le_trunc b64_ok (bits64 _) (bits64 _) (atMost64.1 h) hr hr'

/-- Operators keep the order. -/
theorem op_le {c : Code} {op : BinOp} {x y z x' y' z' : Val} (hx : x.WT c) (hy : y.WT c) (hx' : x'.WT c) (hy' : y'.WT c)
    (hc : c = .f32 ∨ c = .f64) (h : OpRises op x y x' y') (hz : OpResult ieee c op x y z) (hz' : OpResult ieee c op x' y' z') (n1 : NotNaN z) (n2 : NotNaN z') :
    AtMost z z' := by
  rcases hc with rfl | rfl
  · cases x <;> simp only [Val.WT] at hx
    cases y <;> simp only [Val.WT] at hy
    cases x' <;> simp only [Val.WT] at hx'
    cases y' <;> simp only [Val.WT] at hy'
    rename_i x y x' y'
    simp only [OpResult] at hz hz'
    subst hz hz'
    rw [atMost32]
    cases op <;> simp only [OpRises] at h
    · obtain ⟨h1, h2⟩ := h
      change b32.isNaN (BitVec.ofNat 32 (b32.add x.toNat y.toNat)).toNat = false at n1
      change b32.isNaN (BitVec.ofNat 32 (b32.add x'.toNat y'.toNat)).toNat = false at n2
      show b32.Le (BitVec.ofNat 32 (b32.add x.toNat y.toNat)).toNat (BitVec.ofNat 32 (b32.add x'.toNat y'.toNat)).toNat
      rw [of32 (add_lt b32_ok _ _)] at n1 n2 ⊢
      rw [of32 (add_lt b32_ok _ _)]
      exact add_le_add b32_ok (bits32 _) (bits32 _) (bits32 _) (bits32 _) (atMost32.1 h1) (atMost32.1 h2) n1 n2
    · obtain ⟨h1, h2⟩ := h
      change b32.isNaN (BitVec.ofNat 32 (b32.sub x.toNat y.toNat)).toNat = false at n1
      change b32.isNaN (BitVec.ofNat 32 (b32.sub x'.toNat y'.toNat)).toNat = false at n2
      show b32.Le (BitVec.ofNat 32 (b32.sub x.toNat y.toNat)).toNat (BitVec.ofNat 32 (b32.sub x'.toNat y'.toNat)).toNat
      rw [of32 (sub_lt b32_ok _ _)] at n1 n2 ⊢
      rw [of32 (sub_lt b32_ok _ _)]
      exact sub_le_sub b32_ok (bits32 _) (bits32 _) (bits32 _) (bits32 _) (atMost32.1 h1) (atMost32.1 h2) n1 n2
    · obtain ⟨h1, h2, q, hq, q0⟩ := h
      cases h2
      change b32.isNaN (BitVec.ofNat 32 (b32.mul x.toNat y.toNat)).toNat = false at n1
      change b32.isNaN (BitVec.ofNat 32 (b32.mul x'.toNat y.toNat)).toNat = false at n2
      show b32.Le (BitVec.ofNat 32 (b32.mul x.toNat y.toNat)).toNat (BitVec.ofNat 32 (b32.mul x'.toNat y.toNat)).toNat
      rw [of32 (mul_lt b32_ok _ _)] at n1 n2 ⊢
      rw [of32 (mul_lt b32_ok _ _)]
      exact mul_le_mul b32_ok (bits32 _) (bits32 _) (bits32 _) (atMost32.1 h1) hq q0 n1 n2
    · obtain ⟨h1, h2, q, hq, q0⟩ := h
      cases h2
      show b32.Le (BitVec.ofNat 32 (b32.div x.toNat y.toNat)).toNat (BitVec.ofNat 32 (b32.div x'.toNat y.toNat)).toNat
      rw [of32 (div_lt b32_ok _ _), of32 (div_lt b32_ok _ _)]
      exact div_le_div b32_ok (bits32 _) (bits32 _) (bits32 _) (atMost32.1 h1) hq q0
  · cases x <;> simp only [Val.WT] at hx
    cases y <;> simp only [Val.WT] at hy
    cases x' <;> simp only [Val.WT] at hx'
    cases y' <;> simp only [Val.WT] at hy'
    rename_i x y x' y'
    simp only [OpResult] at hz hz'
    subst hz hz'
    rw [atMost64]
    cases op <;> simp only [OpRises] at h
    · obtain ⟨h1, h2⟩ := h
      change b64.isNaN (BitVec.ofNat 64 (b64.add x.toNat y.toNat)).toNat = false at n1
      change b64.isNaN (BitVec.ofNat 64 (b64.add x'.toNat y'.toNat)).toNat = false at n2
      show b64.Le (BitVec.ofNat 64 (b64.add x.toNat y.toNat)).toNat (BitVec.ofNat 64 (b64.add x'.toNat y'.toNat)).toNat
      rw [of64 (add_lt b64_ok _ _)] at n1 n2 ⊢
      rw [of64 (add_lt b64_ok _ _)]
      exact add_le_add b64_ok (bits64 _) (bits64 _) (bits64 _) (bits64 _) (atMost64.1 h1) (atMost64.1 h2) n1 n2
    · obtain ⟨h1, h2⟩ := h
      change b64.isNaN (BitVec.ofNat 64 (b64.sub x.toNat y.toNat)).toNat = false at n1
      change b64.isNaN (BitVec.ofNat 64 (b64.sub x'.toNat y'.toNat)).toNat = false at n2
      show b64.Le (BitVec.ofNat 64 (b64.sub x.toNat y.toNat)).toNat (BitVec.ofNat 64 (b64.sub x'.toNat y'.toNat)).toNat
      rw [of64 (sub_lt b64_ok _ _)] at n1 n2 ⊢
      rw [of64 (sub_lt b64_ok _ _)]
      exact sub_le_sub b64_ok (bits64 _) (bits64 _) (bits64 _) (bits64 _) (atMost64.1 h1) (atMost64.1 h2) n1 n2
    · obtain ⟨h1, h2, q, hq, q0⟩ := h
      cases h2
      change b64.isNaN (BitVec.ofNat 64 (b64.mul x.toNat y.toNat)).toNat = false at n1
      change b64.isNaN (BitVec.ofNat 64 (b64.mul x'.toNat y.toNat)).toNat = false at n2
      show b64.Le (BitVec.ofNat 64 (b64.mul x.toNat y.toNat)).toNat (BitVec.ofNat 64 (b64.mul x'.toNat y.toNat)).toNat
      rw [of64 (mul_lt b64_ok _ _)] at n1 n2 ⊢
      rw [of64 (mul_lt b64_ok _ _)]
      exact mul_le_mul b64_ok (bits64 _) (bits64 _) (bits64 _) (atMost64.1 h1) hq q0 n1 n2
    · obtain ⟨h1, h2, q, hq, q0⟩ := h
      cases h2
      show b64.Le (BitVec.ofNat 64 (b64.div x.toNat y.toNat)).toNat (BitVec.ofNat 64 (b64.div x'.toNat y.toNat)).toNat
      rw [of64 (div_lt b64_ok _ _), of64 (div_lt b64_ok _ _)]
      exact div_le_div b64_ok (bits64 _) (bits64 _) (bits64 _) (atMost64.1 h1) hq q0

/-- Clamping at zero keeps the order. -/
theorem clamp_le {x y x' y' : Val} (h : AtMost x x') (hy : ClampedAtZero ieee x y) (hy' : ClampedAtZero ieee x' y') : AtMost y y' := by
  cases x <;> cases x' <;> try exact h.elim
  · rename_i a b
    cases hy; cases hy'
    have : a ≤ b := h
    show max a 0 ≤ max b 0
    omega
  · rename_i a b
    have z0 : (ieee.ofInt32 0).toNat = 0 := by simp [ieee, ofInt_zero]
    have zn : b32.isNaN (ieee.ofInt32 0).toNat = false := by rw [z0]; decide +kernel
    have k1 := le_of_lt h.1 zn
    have k2 := le_of_lt h.2.1 zn
    have h' := atMost32.1 h
    have cmp : ∀ {x : BitVec 32}, b32.isNaN x.toNat = false → ieee.lt32 (ieee.ofInt32 0) x = true → b32.Le (ieee.ofInt32 0).toNat x.toNat := fun {x} hx hl => by
      change b32.lt (ieee.ofInt32 0).toNat x.toNat = true at hl
      rw [lt_not_nan zn hx, decide_eq_true_eq] at hl
      exact ⟨zn, hx, by omega⟩
    cases h1 : ieee.lt32 (ieee.ofInt32 0) a <;> cases h2 : ieee.lt32 (ieee.ofInt32 0) b
    · rw [hy.2 h1, hy'.2 h2, atMost32]; exact .refl zn
    · rw [hy.2 h1, hy'.1 h2, atMost32]; exact cmp h.2.1 h2
    · exfalso
      have := h'.trans (k2.2 h2)
      rw [k1] at this
      exact absurd (h1.symm.trans this) (by decide)
    · rw [hy.1 h1, hy'.1 h2]; exact h
  · rename_i a b
    have z0 : (ieee.ofInt64 0).toNat = 0 := by simp [ieee, ofInt_zero]
    have zn : b64.isNaN (ieee.ofInt64 0).toNat = false := by rw [z0]; decide +kernel
    have k1 := le_of_lt h.1 zn
    have k2 := le_of_lt h.2.1 zn
    have h' := atMost64.1 h
    have cmp : ∀ {x : BitVec 64}, b64.isNaN x.toNat = false → ieee.lt64 (ieee.ofInt64 0) x = true → b64.Le (ieee.ofInt64 0).toNat x.toNat := fun {x} hx hl => by
      change b64.lt (ieee.ofInt64 0).toNat x.toNat = true at hl
      rw [lt_not_nan zn hx, decide_eq_true_eq] at hl
      exact ⟨zn, hx, by omega⟩
    cases h1 : ieee.lt64 (ieee.ofInt64 0) a <;> cases h2 : ieee.lt64 (ieee.ofInt64 0) b
    · rw [hy.2 h1, hy'.2 h2, atMost64]; exact .refl zn
    · rw [hy.2 h1, hy'.1 h2, atMost64]; exact cmp h.2.1 h2
    · exfalso
      have := h'.trans (k2.2 h2)
      rw [k1] at this
      exact absurd (h1.symm.trans this) (by decide)
    · rw [hy.1 h1, hy'.1 h2]; exact h

end Aitisa
