import Verif.Proof.Scale
import Verif.Proof.IeeeRoot

/-!
# Square roots of numbers multiplied by powers of four
-/

namespace Aitisa

variable {F : Fmt}

/-- Adding to the exponent multiplies. -/
theorem mag_raised (F : Fmt) {b k : Nat} (hb : 2 ^ (F.p - 1) ≤ b) : F.mag (b + k * 2 ^ (F.p - 1)) = F.mag b * 2 ^ k := by
  have hP : 0 < 2 ^ (F.p - 1) := Nat.two_pow_pos _
  have h1 : b / 2 ^ (F.p - 1) ≠ 0 := by
    have := (Nat.le_div_iff_mul_le hP (x := 1) (y := b)).2 (by omega)
    omega
  unfold Fmt.mag
  rw [Nat.add_mul_div_right _ _ hP, Nat.add_mul_mod_self_right, if_neg h1]
  generalize b / 2 ^ (F.p - 1) = t at *
  rw [if_neg (by omega), Nat.mul_assoc, ← Nat.pow_add, show t + k - 1 = t - 1 + k by omega]

/-- `R` is where the root of `W` rounds to. -/
def Fmt.RootAt (F : Fmt) (W R : Nat) : Prop := ∀ b, b < F.infBits → (R ≤ b ↔ 4 * W < (F.mag b + F.mag (b + 1)) * (F.mag b + F.mag (b + 1)) ∨
  (4 * W = (F.mag b + F.mag (b + 1)) * (F.mag b + F.mag (b + 1)) ∧ b % 2 = 0))

theorem root_raised (h : F.OK) {W R R' k : Nat} (hR : F.RootAt W R) (hR' : F.RootAt (W * 2 ^ (2 * k)) R') {b : Nat} (hb : 2 ^ (F.p - 1) ≤ b)
    (hi : b + k * 2 ^ (F.p - 1) < F.infBits) : R ≤ b ↔ R' ≤ b + k * 2 ^ (F.p - 1) := by
  rw [hR b (by omega), hR' _ hi, show b + k * 2 ^ (F.p - 1) + 1 = b + 1 + k * 2 ^ (F.p - 1) by omega, mag_raised F hb, mag_raised F (by omega),
    ← Nat.add_mul]
  have hp : (b + k * 2 ^ (F.p - 1)) % 2 = b % 2 := by
    obtain ⟨n, hn⟩ : ∃ n, F.p - 1 = n + 1 := ⟨F.p - 2, by have := h.p3; omega⟩
    rw [hn, Nat.pow_succ, ← Nat.mul_assoc]
    omega
  have e : ∀ x : Nat, x * 2 ^ k * (x * 2 ^ k) = x * x * 2 ^ (2 * k) := fun x => by
    rw [show 2 * k = k + k by omega, Nat.pow_add]; grind
  have hK : 0 < 2 ^ (2 * k) := Nat.two_pow_pos _
  rw [hp, e, ← Nat.mul_assoc, Nat.mul_lt_mul_right hK, Nat.mul_right_cancel_iff hK]

/-- The root of a number multiplied by `4 ^ k` is the root multiplied by `2 ^ k`. -/
theorem root_scaled (h : F.OK) {a a' k R R' : Nat} (ha' : a' < F.infBits) (ha0 : 0 < a) (hm : F.mag a' = F.mag a * 2 ^ (2 * k))
    (hR : F.RootAt (F.mag a * 2 ^ F.low) R) (hR' : F.RootAt (F.mag a' * 2 ^ F.low) R') :
    R < F.infBits ∧ R' < F.infBits ∧ F.mag R' = F.mag R * 2 ^ k := by
  have hp3 := h.p3
  have hroom := h.room
  have htwo := h.two
  have hi := inf_pos h
  have hP : 0 < 2 ^ (F.p - 1) := Nat.two_pow_pos _
  -- the second root is finite
  have hfin : R' < F.infBits := by
    have := hR' (F.infBits - 1) (by omega)
    rw [show F.infBits - 1 + 1 = F.infBits by omega, end2_eq h] at this
    have := this.2 (.inl (mag_lt_end2 h ha'))
    omega
  -- `k` is small
  have hk : 2 * k < F.p + (2 ^ F.w - 3) := by
    have h1 := (mag_lt_iff F).2 ha'
    rw [mag_inf h, hm] at h1
    have h2 := (mag_pos F).2 ha0
    have h3 : 2 ^ (2 * k) < 2 ^ (F.p + (2 ^ F.w - 3)) := Nat.lt_of_le_of_lt (Nat.le_mul_of_pos_left _ h2) h1
    exact (Nat.pow_lt_pow_iff_right (by omega)).1 h3
  have hroom2 : 2 ^ (F.p - 1) + k * 2 ^ (F.p - 1) < F.infBits := by
    have : (k + 1) * 2 ^ (F.p - 1) < F.infBits := Nat.mul_lt_mul_of_pos_right (by omega) hP
    rw [Nat.add_mul] at this
    omega
  have hW : F.mag a' * 2 ^ F.low = F.mag a * 2 ^ F.low * 2 ^ (2 * k) := by rw [hm]; grind
  rw [hW] at hR'
  -- the first root is above the smallest of full precision
  have hbig : 2 ^ (F.p - 1) < R := by
    apply Nat.lt_of_not_le
    rw [hR _ (by omega)]
    have m1 : F.mag (2 ^ (F.p - 1)) = 2 ^ (F.p - 1) := by
      have := mag_of F (k := 0) (q := 2 ^ (F.p - 1)) (by omega) (.inl rfl)
      simpa using this
    have m2 : F.mag (2 ^ (F.p - 1) + 1) = 2 ^ (F.p - 1) + 1 := by
      have h4 : 1 < 2 ^ (F.p - 1) := by
        obtain ⟨n, hn⟩ : ∃ n, F.p - 1 = n + 1 := ⟨F.p - 2, by omega⟩
        have := Nat.two_pow_pos n
        rw [hn, Nat.pow_succ]; omega
      have := mag_of F (k := 0) (q := 2 ^ (F.p - 1) + 1) (by omega) (.inl rfl)
      simpa using this
    rw [m1, m2]
    have h2 := (mag_pos F).2 ha0
    have h3 : 2 ^ F.low ≤ F.mag a * 2 ^ F.low := Nat.le_mul_of_pos_left _ h2
    have h6 : 2 ^ 2 ≤ 2 ^ (F.p - 1) := Nat.pow_le_pow_right (by omega) (by omega)
    have h4 : 2 ^ (F.p - 1) * 2 ^ (F.p - 1) * 2 ≤ 2 ^ F.low := by
      have : 2 ^ ((F.p - 1) + (F.p - 1) + 1) ≤ 2 ^ F.low := Nat.pow_le_pow_right (by omega) (by simp only [Fmt.low]; omega)
      rw [Nat.pow_add, Nat.pow_add] at this
      exact this
    generalize F.mag a * 2 ^ F.low = V at *
    generalize 2 ^ F.low = U at *
    generalize 2 ^ (F.p - 1) = P at *
    have h5 : P * 2 ^ 2 ≤ P * P := Nat.mul_le_mul_left _ h6
    have e : (P + (P + 1)) * (P + (P + 1)) = 4 * (P * P) + 4 * P + 1 := by grind
    rw [e]
    omega
  have hlt : R + k * 2 ^ (F.p - 1) < F.infBits := by
    apply Nat.lt_of_not_le
    intro hge
    have := root_raised h hR hR' (b := F.infBits - 1 - k * 2 ^ (F.p - 1)) (by omega) (by omega)
    omega
  have h1 := root_raised h hR hR' (b := R) (by omega) hlt
  have h2 := root_raised h hR hR' (b := R - 1) (by omega) (by omega)
  have : R' = R + k * 2 ^ (F.p - 1) := by omega
  exact ⟨by omega, hfin, this ▸ mag_raised F (by omega)⟩

/-- A square root `f` that is correctly rounded multiplies by `2 ^ k` when its operand is multiplied by `4 ^ k`. -/
theorem root_grows (h : F.OK) {f : Nat → Nat} (h0 : ∀ s, f (F.signed s 0) = F.signed s 0)
    (hf : ∀ a, a < F.infBits → 0 < a → ∃ R, f (F.signed false a) = F.signed false R ∧ F.RootAt (F.mag a * 2 ^ F.low) R)
    {a a' k : Nat} {u : Int} (ha : a < 2 * F.signBit) (ha' : a' < 2 * F.signBit) (hu : F.units a = some u) (hpos : 0 ≤ u) (hg : F.Grows (2 * k) a a') :
    F.Grows k (f a) (f a') := by
  obtain ⟨u1, hu1, hu'⟩ := hg
  rw [hu] at hu1
  cases hu1
  obtain ⟨s, n, hn, rfl, rfl⟩ := units_some h ha hu
  obtain ⟨s', n', hn', rfl, e'⟩ := units_some h ha' hu'
  have hK : (0 : Int) < 2 ^ (2 * k) := Int.pow_pos (by omega)
  have z : ∀ s, F.units (F.signed s 0) = some 0 := fun s => units_zero h s
  rcases Nat.eq_zero_or_pos n with e0 | e0
  · subst e0
    have : n' = 0 := by
      rw [mag_zero] at e'
      rcases Nat.eq_zero_or_pos n' with e1 | e1
      · exact e1
      · have := (mag_pos F).2 e1
        cases s <;> cases s' <;> simp [sgn] at e' <;> omega
    subst this
    rw [h0, h0]
    exact ⟨0, z s, by simpa using z s'⟩
  · have m0 := (mag_pos F).2 e0
    have hs : s = false := by
      cases s
      · rfl
      · simp [sgn] at hpos; omega
    subst hs
    have e0' : 0 < n' := by
      rcases Nat.eq_zero_or_pos n' with e1 | e1
      · subst e1
        rw [mag_zero] at e'
        have : (0 : Int) < sgn false (F.mag n) * 2 ^ (2 * k) := Int.mul_pos (by simp [sgn]; omega) hK
        cases s' <;> simp [sgn] at e' this <;> omega
      · exact e1
    have hs' : s' = false := by
      cases s'
      · rfl
      · have : (0 : Int) < sgn false (F.mag n) * 2 ^ (2 * k) := Int.mul_pos (by simp [sgn]; omega) hK
        simp [sgn] at e' this
        omega
    subst hs'
    have hm : F.mag n' = F.mag n * 2 ^ (2 * k) := by
      have : (F.mag n' : Int) = F.mag n * 2 ^ (2 * k) := by simpa [sgn] using e'.symm
      exact_mod_cast this
    obtain ⟨R, eR, hR⟩ := hf n hn e0
    obtain ⟨R', eR', hR'⟩ := hf n' hn' e0'
    obtain ⟨l1, l2, l3⟩ := root_scaled h hn' e0 hm hR hR'
    have hsig := inf_lt_sign h
    rw [eR, eR']
    refine ⟨_, by rw [units_signed h (Nat.lt_trans l1 hsig), if_pos l1], ?_⟩
    rw [units_signed h (Nat.lt_trans l2 hsig), if_pos l2, l3]
    simp [sgn]

/-- The root the code computes. -/
theorem rootOf_scales {c : Code} {k : Nat} {x x' y y' : Val} (hc : c = .f32 ∨ c = .f64) (hx : x.WT c) (hx' : x'.WT c) {q : Rat} (hq : x.rat = some q)
    (hpos : 0 ≤ q) (hs : Scaled (2 * k) x x') (hy : RootOf ieee c x y) (hy' : RootOf ieee c x' y') : Scaled k y y' := by
  have up : ∀ {F : Fmt}, F.OK → ∀ {b : Nat}, F.rat b = some q → ∃ u, F.units b = some u ∧ 0 ≤ u := fun {F} h {b} hr => by
    rw [rat_units h] at hr
    cases hu : F.units b with
    | none => rw [hu] at hr; simp at hr
    | some u =>
      rw [hu] at hr
      simp only [Option.map_some, Option.some.injEq] at hr
      refine ⟨u, rfl, ?_⟩
      have h0 : (0 : Rat) / (2 ^ F.low : Nat) ≤ (u : Rat) / (2 ^ F.low : Nat) := by
        rw [hr, Rat.div_def 0, Rat.zero_mul]; exact hpos
      exact Rat.intCast_nonneg.1 ((div_le_div_iff (low_pos F)).1 h0)
  obtain ⟨d, hd, hy⟩ := hy
  obtain ⟨d', hd', hy'⟩ := hy'
  rcases hc with rfl | rfl
  · cases x <;> simp only [Val.WT] at hx
    cases x' <;> simp only [Val.WT] at hx'
    rename_i b b'
    simp only [Converts, Val.f64.injEq] at hd hy hd' hy'
    subst hd hy hd' hy'
    obtain ⟨u, hu, hu0⟩ := up b32_ok hq
    refine scaled32.2 ?_
    show b32.Grows k (BitVec.ofNat 32 (b64.convert b32 (BitVec.ofNat 64 (b64.sqrt (BitVec.ofNat 64 (b32.convert b64 b.toNat)).toNat)).toNat)).toNat
      (BitVec.ofNat 32 (b64.convert b32 (BitVec.ofNat 64 (b64.sqrt (BitVec.ofNat 64 (b32.convert b64 b'.toNat)).toNat)).toNat)).toNat
    rw [of32 (convert_lt b32_ok _), of64 (sqrt_lt b64_ok (bits64 _)), of64 (convert_lt b64_ok _),
      of32 (convert_lt b32_ok _), of64 (sqrt_lt b64_ok (bits64 _)), of64 (convert_lt b64_ok _)]
    exact root_grows b32_ok (f := fun a => b64.convert b32 (b64.sqrt (b32.convert b64 a))) (by decide) (fun a ha h0 => sqrt_through a ha h0)
      (bits32 b) (bits32 b') hu hu0 (scaled32.1 hs)
  · cases x <;> simp only [Val.WT] at hx
    cases x' <;> simp only [Val.WT] at hx'
    simp only [Converts, Val.f64.injEq] at hd hy hd' hy'
    subst hd hy hd' hy'
    obtain ⟨u, hu, hu0⟩ := up b64_ok hq
    refine scaled64.2 ?_
    show b64.Grows k (BitVec.ofNat 64 (b64.sqrt d.toNat)).toNat (BitVec.ofNat 64 (b64.sqrt d'.toNat)).toNat
    rw [of64 (sqrt_lt b64_ok (bits64 _)), of64 (sqrt_lt b64_ok (bits64 _))]
    exact root_grows b64_ok (by simp [Fmt.sqrt, decode_zero b64_ok]) (fun a ha h0 => sqrt_mag b64_ok ha h0) (bits64 d) (bits64 d') hu hu0 (scaled64.1 hs)

end Aitisa
