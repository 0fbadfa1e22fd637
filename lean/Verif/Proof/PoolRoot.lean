import Verif.Proof.Maxima
import Verif.Proof.PoolLaws
import Verif.Proof.IeeeRoot
import Verif.Proof.OrderVal
import Verif.Proof.IeeeAct
import Verif.Props.Ieee

/-!
# The root of the maximum
-/

namespace Aitisa

variable {c : Code} {F : Fmt}

/-- The root of a number that is not below 0 (nor minus zero) is not either. -/
theorem root_plus (h : F.OK) {a : Nat} (ha : a ≤ F.infBits) : F.sqrt a ≤ F.infBits := by
  have hs := inf_lt_sign h
  have e : F.signed false a = a := by simp [Fmt.signed]
  rcases Nat.lt_or_ge 0 a with h0 | h0
  · rcases Nat.lt_or_ge a F.infBits with h1 | h1
    · obtain ⟨R, hR, hb⟩ := sqrt_mag h h1 h0
      rw [e] at hR
      have eR : F.signed false R = R := by simp [Fmt.signed]
      rw [hR, eR]
      have := (hb (F.infBits - 1) (by omega)).2 (.inl ?_)
      · omega
      rw [Nat.sub_add_cancel (by omega)]
      have m1 : F.mag a ≤ F.mag (F.infBits - 1) := (mag_le_iff F).2 (by omega)
      have m2 : 2 ^ F.low < F.mag F.infBits := by
        rw [mag_inf h]
        refine Nat.pow_lt_pow_right (by omega) ?_
        have h1 := h.room
        have h2 := h.two
        have := h.p3
        simp only [Fmt.low]; omega
      have m3 : 0 < F.mag (F.infBits - 1) := by
        have := (mag_lt_iff F).2 h0
        omega
      generalize F.mag (F.infBits - 1) = x at *
      generalize F.mag F.infBits = y at *
      generalize F.mag a = u at *
      generalize 2 ^ F.low = L at *
      have k1 : u * L ≤ x * L := Nat.mul_le_mul_right _ m1
      have k2 : x * L < x * y := Nat.mul_lt_mul_of_pos_left m2 m3
      have k3 : 4 * (x * y) ≤ (x + y) * (x + y) := by
        rcases Nat.le_total x y with hxy | hxy
        · obtain ⟨d, rfl⟩ := Nat.exists_eq_add_of_le hxy
          grind
        · obtain ⟨d, rfl⟩ := Nat.exists_eq_add_of_le hxy
          grind
      omega
    · have : a = F.infBits := by omega
      subst this
      rw [Fmt.sqrt, ← e, decode_inf h]
      simp
  · have : a = 0 := by omega
    subst this
    have z : F.decode 0 = .fin false 0 F.emin := by
      have := decode_zero h false
      rwa [show F.signed false 0 = 0 by simp [Fmt.signed]] at this
    rw [Fmt.sqrt, z]
    simp

theorem root_plus64 {r : BitVec 64} (hr : r.toNat ≤ b64.infBits) : (ieee.sqrt64 r).toNat ≤ b64.infBits := by
  show (BitVec.ofNat 64 (b64.sqrt r.toNat)).toNat ≤ _
  rw [of64 (sqrt_lt b64_ok (bits64 r))]
  exact root_plus b64_ok hr

/-- What is left alone by clamping is the `double` of its rank. -/
theorem rank_plus {v : Val} (h : ClampedAtZero ieee v v) : (toDouble ieee v).toNat ≤ b64.infBits ∧ rank v = (toDouble ieee v).toNat := by
  have : (toDouble ieee v).toNat ≤ b64.infBits := by
    rw [clamp_iff] at h
    by_cases hp : Positive v
    · have := (rank_pos v).2 hp
      unfold rank at this
      split at this
      · assumption
      · omega
    · rw [if_neg hp] at h
      rw [h]
      cases v
      · show (ieee.ofInt64 0).toNat ≤ _; rw [start_bits]; omega
      · show (ieee.widen 0).toNat ≤ _; decide +kernel
      · show (0 : BitVec 64).toNat ≤ _; decide +kernel
  exact ⟨this, by rw [rank, if_pos this]⟩

/-- Order and ranks. -/
theorem rank_le {x y : Val} (hx : x.WT c) (hy : y.WT c) (h : AtMost x y) (hp : ClampedAtZero ieee y y) : rank x ≤ rank y := by
  have h1 : AtMost (.f64 (toDouble ieee x)) (.f64 (toDouble ieee y)) := converts_le hx hy (.inr rfl) h (converts_f64.2 rfl) (converts_f64.2 rfl)
  obtain ⟨p1, p2⟩ := rank_plus hp
  have h2 : b64.lt (toDouble ieee y).toNat (toDouble ieee x).toNat = false := h1.2.2
  have h3 := mt (lt_plus_iff b64_ok p1 (bits64 (toDouble ieee x))).2 (by rw [h2]; simp)
  rw [p2, rank]
  split <;> omega

/-- The root of a NaN. -/
theorem root_nan {x y : Val} (hx : x.WT c) (hn : ¬ NotNaN x) (h : RootOf ieee c x y) : rank y = 0 := by
  obtain ⟨d, hd, hy⟩ := h
  rw [converts_f64] at hd
  have hd64 : b64.isNaN d.toNat = true := by
    cases x with
    | int n => exact absurd trivial hn
    | f32 b => rw [hd]; exact widen_nan (by simpa [NotNaN] using hn)
    | f64 b => rw [hd]; show b64.isNaN b.toNat = true; simpa [NotNaN] using hn
  have hs : ieee.sqrt64 d = BitVec.ofNat 64 b64.nanBits := by
    show BitVec.ofNat 64 (b64.sqrt d.toNat) = _
    rw [Fmt.sqrt, decode_isNaN b64_ok (bits64 d) hd64]
  rw [hs] at hy
  cases x with
  | int n => exact absurd trivial hn
  | f32 b =>
    have hc : c = .f32 := by cases c <;> first | rfl | exact hx.elim
    subst hc
    have : y = .f32 (ieee.narrow (BitVec.ofNat 64 b64.nanBits)) := hy
    rw [this]
    decide +kernel
  | f64 b =>
    have hc : c = .f64 := by cases c <;> first | rfl | exact hx.elim
    subst hc
    have : y = .f64 (BitVec.ofNat 64 b64.nanBits) := hy
    rw [this]
    decide +kernel

/-- Roots of elements exist; those of integers are integers below 2^53. -/
theorem root_exists {x : Val} (hx : x.WT c) (h0 : ¬ Negative ieee x) (hb : ∀ n, x = .int n → n < 4503599627370496) :
    ∃ y, RootOf ieee c x y ∧ y.WT c ∧ ∀ n, y = .int n → Within .f64 n := by
  by_cases hc : c.isInt = true
  · obtain ⟨n, rfl, lo, hi⟩ := int_WT hc hx
    have hn := hb n rfl
    have h0 : 0 ≤ n := by simpa [Negative] using h0
    obtain ⟨r, r0, r1, -, r2⟩ := root_floor h0 (by omega)
    have hr : r ≤ n := by
      rcases Int.lt_or_le 0 r with h | h
      · have := Int.mul_le_mul_of_nonneg_left (show 1 ≤ r by omega) r0
        omega
      · omega
    have hR := intRange_eq c hc
    have hlo : c.lo ≤ 0 := by cases c <;> first | decide | exact absurd hc (by decide)
    refine ⟨.int r, ⟨_, converts_f64.2 rfl, ?_⟩, ?_, fun k e => by cases e; exact ⟨by omega, by omega⟩⟩
    · cases c <;> first | exact ⟨r, rfl, r2, _, _, hR, by omega, by omega⟩ | exact absurd hc (by decide)
    · cases c <;> first | exact ⟨by omega, by omega⟩ | exact absurd hc (by decide)
  · have hc : c = .f32 ∨ c = .f64 := by cases c <;> simp [Code.isInt] at hc ⊢
    rcases hc with rfl | rfl
    · exact ⟨.f32 _, ⟨_, converts_f64.2 rfl, rfl⟩, trivial, fun n e => by cases e⟩
    · exact ⟨.f64 _, ⟨_, converts_f64.2 rfl, rfl⟩, trivial, fun n e => by cases e⟩

theorem zero_not_negative (c : Code) : ¬ Negative ieee (zeroVal c) := by
  cases c
  case f32 => show ¬ (ieee.lt32 0 (ieee.ofInt32 0) = true); decide +kernel
  case f64 => show ¬ (ieee.lt64 0 (ieee.ofInt64 0) = true); decide +kernel
  all_goals exact fun h => absurd (show (0 : Int) < 0 from h) (by omega)

theorem rootOf_det {x y y' : Val} (h : RootOf ieee c x y) (h' : RootOf ieee c x y') : y = y' := by
  obtain ⟨d, hd, hy⟩ := h
  obtain ⟨d', hd', hy'⟩ := h'
  rw [converts_f64] at hd hd'
  subst hd hd'
  exact converts_det hy hy'

/-- The root of the maximum is the maximum of the roots. -/
theorem scan_root {es es' : List Val} {w v : Val} (wt : ∀ e ∈ es, e.WT c) (h0 : ∀ e ∈ es, ¬ Negative ieee e) (hb : ∀ n, .int n ∈ es → n < 4503599627370496)
    (hfrom : ∀ e' ∈ es', ∃ e ∈ es, RootOf ieee c e e') (hto : ∀ e ∈ es, ∃ e' ∈ es', RootOf ieee c e e') (hw : ScanOf ieee c es w) (hv : RootOf ieee c w v) :
    ScanOf ieee c es' v := by
  have hx : ∀ n, .int n ∈ es → Within .f64 n := fun n hn => by
    have h1 := hb n hn
    have h2 : 0 ≤ n := by simpa [Negative] using h0 _ hn
    exact ⟨by omega, by omega⟩
  obtain ⟨hmem, hz, hge⟩ := scan_greatest wt hx hw
  obtain ⟨r, hr, hcw⟩ := hw
  obtain ⟨zw, zn, zi, zd⟩ := zero_home c
  have ww : w.WT c := by
    rcases hmem with rfl | h
    · exact zw
    · exact wt _ h
  have wplus := clamp_plus (scan_zero hr).1 hcw
  have wneg : ¬ Negative ieee w := by
    rcases hmem with rfl | h
    · exact zero_not_negative c
    · exact h0 _ h
  have wb : ∀ n, w = .int n → n < 4503599627370496 := fun n e => by
    rcases hmem with h | h
    · have : zeroVal c = .int n := h ▸ e
      have : n = 0 := by cases c <;> simp_all [zeroVal]
      omega
    · exact hb n (e ▸ h)
  obtain ⟨v', hv', vw, vi⟩ := root_exists ww wneg wb
  rw [← rootOf_det hv hv'] at vw vi
  obtain ⟨d, hd, hvd⟩ := id hv
  rw [converts_f64] at hd
  have dplus : d.toNat ≤ b64.infBits := by rw [hd]; exact (rank_plus wplus).1
  have vplus := clamp_plus (root_plus64 dplus) hvd
  obtain ⟨vr1, vr2⟩ := rank_plus vplus
  obtain ⟨r', hr'⟩ := scan_exists ieee (ieee.ofInt64 0) es'
  have same : r' = toDouble ieee v := by
    obtain ⟨hp, hN⟩ := scan_zero hr'
    apply BitVec.eq_of_toNat_eq
    rw [← vr2]
    apply Nat.le_antisymm
    · rw [hN]
      intro e' he'
      obtain ⟨e, he, hre⟩ := hfrom e' he'
      obtain ⟨e2, he2, we2, -⟩ := root_exists (wt e he) (h0 e he) (fun n en => hb n (en ▸ he))
      rw [← rootOf_det hre he2] at we2
      by_cases hn : NotNaN e
      · exact rank_le we2 vw (rootOf_le (wt e he) ww (hge e he hn) (h0 e he) hre hv) vplus
      · rw [root_nan (wt e he) hn hre]; omega
    · rcases hmem with h | h
      · have : rank v = 0 := by
          rw [vr2]
          have e0 : d = 0 := by
            rw [hd, h, zd]; apply BitVec.eq_of_toNat_eq; rw [start_bits]; rfl
          have s0 : ieee.sqrt64 d = 0 := by rw [e0]; decide +kernel
          rw [s0] at hvd
          have hz0 := double_home zw zn zi
          rw [zd, show ieee.ofInt64 0 = 0 from BitVec.eq_of_toNat_eq (by rw [start_bits]; rfl)] at hz0
          rw [converts_det hvd hz0, zd, start_bits]
        omega
      · obtain ⟨e', he', hre⟩ := hto w h
        rw [rootOf_det hv hre]
        exact (hN _).1 (Nat.le_refl _) e' he'
  refine ⟨r', hr', ?_⟩
  rw [same]
  refine double_home vw ?_ vi
  have := AtMost.refl zn
  have az := rootOf_le zw ww hz (zero_not_negative c) (x := zeroVal c) (y := _) (root_exists zw (zero_not_negative c) (fun n e => by
    have : n = 0 := by cases c <;> simp_all [zeroVal]
    omega)).choose_spec.1 hv
  exact az.right

end Aitisa
