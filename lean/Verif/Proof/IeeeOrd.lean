import Verif.Proof.IeeeVal

/-!
# IEEE arithmetic: comparison with zero
-/

namespace Aitisa

variable {F : Fmt}

theorem lt_zero_iff (h : F.OK) {b : Nat} (hb : b < 2 * F.signBit) : F.lt 0 b = true ↔ 0 < b ∧ b ≤ F.infBits := by
  have hs := inf_lt_sign h
  obtain ⟨s, n, hn, rfl⟩ := exists_signed hb
  have h0 : (0 : Nat) = F.signed false 0 := rfl
  rw [Fmt.lt]
  conv => lhs; rw [h0, isNaN_signed (by omega), key_signed (by omega)]
  rw [isNaN_signed hn, key_signed hn]
  cases s <;> simp [sgn, Fmt.signed] <;> omega

theorem decode_pos (h : F.OK) {b : Nat} (hb : b < 2 * F.signBit) : (0 < b ∧ b ≤ F.infBits) ↔
    (F.decode b = .inf false ∨ ∃ m e, F.decode b = .fin false m e ∧ m ≠ 0) := by
  have hs := inf_lt_sign h
  obtain ⟨s, n, hn, rfl⟩ := exists_signed hb
  have hP : 0 < 2 ^ (F.p - 1) := Nat.two_pow_pos _
  have hdm := Nat.div_add_mod n (2 ^ (F.p - 1))
  have hml := Nat.mod_lt n hP
  have hW : 0 < 2 ^ F.w := Nat.two_pow_pos _
  have hx : n / 2 ^ (F.p - 1) < 2 ^ F.w := by
    rw [Nat.div_lt_iff_lt_mul hP]; rw [h.sign] at hn; rw [Nat.mul_comm]; exact hn
  rw [decode_signed h hn]
  generalize n / 2 ^ (F.p - 1) = x at *
  generalize n % 2 ^ (F.p - 1) = f at *
  have hi : F.infBits = (2 ^ F.w - 1) * 2 ^ (F.p - 1) := rfl
  generalize 2 ^ (F.p - 1) = P at *
  by_cases h1 : x = 2 ^ F.w - 1
  · rw [if_pos h1]
    rw [h1, Nat.mul_comm, ← hi] at hdm
    have := inf_pos h
    by_cases h2 : f = 0
    · rw [if_pos h2]
      cases s <;> simp [Fmt.signed] <;> omega
    · rw [if_neg h2]
      cases s <;> simp [Fmt.signed] <;> omega
  · rw [if_neg h1]
    have hle : P * (x + 1) ≤ F.infBits := by
      rw [hi, Nat.mul_comm]; exact Nat.mul_le_mul_right _ (by omega)
    rw [Nat.mul_add, Nat.mul_one] at hle
    by_cases h2 : x = 0
    · rw [if_pos h2]
      subst h2
      simp only [Nat.mul_zero, Nat.zero_add] at hdm
      cases s <;> simp [Fmt.signed] <;> omega
    · rw [if_neg h2]
      have : P * 1 ≤ P * x := Nat.mul_le_mul_left _ (by omega)
      cases s <;> simp [Fmt.signed] <;> omega

theorem round_pos (h : F.OK) {s : Bool} {m : Nat} {e : Int} (he : F.emin ≤ e) :
    (0 < F.round s m e ∧ F.round s m e ≤ F.infBits) ↔ s = false ∧ m ≠ 0 := by
  have hs := inf_lt_sign h
  have hi := inf_pos h
  unfold Fmt.round
  by_cases hm : m = 0
  · rw [if_pos hm]; cases s <;> simp [Fmt.signed, hm] <;> omega
  · rw [if_neg hm]
    dsimp only
    generalize max (e + (Nat.log2 m + 1 : Nat) - F.p) F.emin = e'
    have hpos : 0 < (e' - F.emin).toNat * 2 ^ (F.p - 1) + (if e' ≤ e then m * 2 ^ (e - e').toNat else roundShift m (e' - e).toNat) := by
      by_cases hle : e' ≤ e
      · rw [if_pos hle]
        have := Nat.mul_pos (Nat.pos_of_ne_zero hm) (Nat.two_pow_pos (e - e').toNat)
        omega
      · have : 0 < (e' - F.emin).toNat * 2 ^ (F.p - 1) := Nat.mul_pos (by omega) (Nat.two_pow_pos _)
        omega
    generalize (e' - F.emin).toNat * 2 ^ (F.p - 1) + _ = k at *
    cases s <;> simp [Fmt.signed] <;> omega

/-- The `double` of an element is above 0 exactly if the element is. -/
theorem pos_double {v : Val} {d : BitVec 64} (hd : Converts ieee .f64 v (.f64 d)) : ieee.lt64 (ieee.ofInt64 0) d = true ↔ Positive v := by
  have h0 : (ieee.ofInt64 0).toNat = 0 := by simp [ieee, ofInt_zero]
  show b64.lt (ieee.ofInt64 0).toNat d.toNat = true ↔ _
  rw [h0, lt_zero_iff b64_ok (bits64 d)]
  cases v <;> simp only [Converts, Val.f64.injEq] at hd <;> subst hd
  · next n =>
    simp only [ieee, of64 (ofInt_lt b64_ok _)]
    unfold Fmt.ofInt
    rw [round_pos b64_ok (by decide)]
    simp [Positive]; omega
  · next b =>
    simp only [ieee, of64 (convert_lt b64_ok _), Positive]
    rw [decode_pos b32_ok (bits32 b)]
    have hb := bits32 b
    unfold Fmt.convert
    cases hdec : b32.decode b.toNat with
    | nan => simp [b64, Fmt.nanBits, Fmt.infBits]
    | inf s => cases s <;> simp [b64, Fmt.signed, Fmt.signBit, Fmt.infBits]
    | fin s m e =>
      have := decode_low hdec
      simp only
      rw [round_pos b64_ok (by have h1 : b32.emin = -149 := by decide
                               have h2 : b64.emin = -1074 := by decide
                               omega)]
      simp [and_assoc]
  · exact Iff.rfl

theorem clamp_iff {x y : Val} : ClampedAtZero ieee x y ↔ y = if Positive x then x else zeroLike x := by
  have e32 : ieee.ofInt32 0 = 0 := by simp [ieee, ofInt_zero]
  have e64 : ieee.ofInt64 0 = 0 := by simp [ieee, ofInt_zero]
  cases x with
  | int n =>
    simp only [ClampedAtZero]
    by_cases h : Positive (.int n)
    · have h' : 0 < n := h
      rw [if_pos h, show max n 0 = n by omega]
    · have h' : ¬ 0 < n := h
      rw [if_neg h, show max n 0 = 0 by omega]; rfl
  | f32 b =>
    have hl : ieee.lt32 (ieee.ofInt32 0) b = true ↔ Positive (.f32 b) := by
      show b32.lt (ieee.ofInt32 0).toNat b.toNat = true ↔ _
      rw [e32]
      exact lt_zero_iff b32_ok (bits32 b)
    simp only [ClampedAtZero]
    by_cases h : Positive (.f32 b)
    · rw [if_pos h, hl.2 h]; simp
    · rw [if_neg h, Bool.eq_false_iff.2 (mt hl.1 h), e32]; simp [zeroLike]
  | f64 b =>
    have hl : ieee.lt64 (ieee.ofInt64 0) b = true ↔ Positive (.f64 b) := pos_double rfl
    simp only [ClampedAtZero]
    by_cases h : Positive (.f64 b)
    · rw [if_pos h, hl.2 h]; simp
    · rw [if_neg h, Bool.eq_false_iff.2 (mt hl.1 h), e64]; simp [zeroLike]

theorem positive_not_nan {x : Val} (h : Positive x) : NotNaN x := by
  cases x with
  | int n => trivial
  | f32 b => simp only [NotNaN, Fmt.isNaN]; have := Nat.mod_le b.toNat b32.signBit; simp; have := h.2; omega
  | f64 b => simp only [NotNaN, Fmt.isNaN]; have := Nat.mod_le b.toNat b64.signBit; simp; have := h.2; omega

/-- The `double` of a NaN is a NaN. -/
theorem nan_double {v : Val} {d : BitVec 64} (hn : ¬ NotNaN v) (hd : Converts ieee .f64 v (.f64 d)) (t : BitVec 64) : ieee.lt64 t d = false := by
  have : b64.isNaN d.toNat = true := by
    cases v <;> simp only [Converts, Val.f64.injEq] at hd <;> subst hd
    · exact absurd trivial hn
    · next b =>
      simp only [NotNaN, Bool.not_eq_false] at hn
      simp only [ieee, of64 (convert_lt b64_ok _)]
      have : b32.decode b.toNat = .nan := by
        cases hdec : b32.decode b.toNat with
        | nan => rfl
        | inf s =>
          have h2 := bits32 b
          obtain ⟨t, n, hn', e⟩ := exists_signed h2
          rw [e] at hn hdec
          rw [isNaN_signed hn'] at hn
          have hn := of_decide_eq_true hn
          rw [decode_signed b32_ok hn'] at hdec
          exfalso
          have hm := Nat.div_add_mod n (2 ^ (b32.p - 1))
          split at hdec
          · split at hdec
            · next h1 h2 =>
              rw [h1, h2] at hm
              rw [Fmt.infBits, Nat.mul_comm] at hn
              omega
            · cases hdec
          · split at hdec <;> cases hdec
        | fin s m e =>
          have hu : b32.units b.toNat = some (sgn s m * 2 ^ (e - b32.emin).toNat) := by simp [Fmt.units, hdec]
          exfalso
          obtain ⟨t, n, hn', e⟩ := exists_signed (bits32 b)
          rw [e] at hn hu
          rw [isNaN_signed hn'] at hn
          rw [units_signed b32_ok hn'] at hu
          have hn := of_decide_eq_true hn
          rw [if_neg (by omega)] at hu
          cases hu
      simp only [Fmt.convert, this]
      decide
    · simpa [NotNaN] using hn
  show b64.lt t.toNat d.toNat = false
  simp [Fmt.lt, this]

end Aitisa
