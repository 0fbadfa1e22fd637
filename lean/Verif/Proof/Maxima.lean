import Verif.Spec.Maxima
import Verif.Proof.PoolVal

/-!
# What max pooling computes
-/

namespace Aitisa

variable {c : Code}

/-- A number converted to `double` and back. -/
theorem double_home {e : Val} (hw : e.WT c) (hn : NotNaN e) (hx : ∀ n, e = .int n → Within .f64 n) : Converts ieee c (.f64 (toDouble ieee e)) e := by
  by_cases hc : c.isInt = true
  · obtain ⟨n, rfl, lo, hi⟩ := int_WT hc hw
    have hn := hx n rfl
    have ht : ieee.trunc64 (toDouble ieee (.int n)) = some n := by
      show b64.trunc (BitVec.ofNat 64 (b64.ofInt n)).toNat = _
      rw [of64 (ofInt_lt b64_ok _)]
      refine trunc_int b64_ok (ofInt_int b64_ok ?_)
      have := hn.1
      have := hn.2
      show n.natAbs < 2 ^ 53
      omega
    have hR := intRange_eq c hc
    cases c <;> first | exact ⟨n, rfl, ht, _, _, hR, lo, hi⟩ | exact absurd hc (by decide)
  · have hc : c = .f32 ∨ c = .f64 := by cases c <;> simp [Code.isInt] at hc ⊢
    rcases hc with rfl | rfl <;> cases e <;> try exact hw.elim
    · rename_i b
      refine congrArg Val.f32 (BitVec.eq_of_toNat_eq ?_)
      show _ = (BitVec.ofNat 32 (b64.convert b32 (BitVec.ofNat 64 (b32.convert b64 b.toNat)).toNat)).toNat
      rw [of32 (convert_lt b32_ok _), of64 (convert_lt b64_ok _)]
      exact (convert_back b32_ok b64_ok (by decide) (by decide) (by decide) (bits32 _) hn).symm
    · rfl

/-- Plus zero. -/
theorem zero_home (c : Code) : (zeroVal c).WT c ∧ NotNaN (zeroVal c) ∧ (∀ n, zeroVal c = .int n → Within .f64 n) ∧ toDouble ieee (zeroVal c) = ieee.ofInt64 0 := by
  have hi : ∀ n, Val.int 0 = .int n → Within .f64 n := fun n e => by cases e; exact ⟨by omega, by omega⟩
  cases c
  case f32 => exact ⟨trivial, show b32.isNaN (0 : BitVec 32).toNat = false by decide +kernel, (fun n e => by cases e), by decide +kernel⟩
  case f64 => exact ⟨trivial, show b64.isNaN (0 : BitVec 64).toNat = false by decide +kernel, (fun n e => by cases e), by decide +kernel⟩
  all_goals exact ⟨by decide, trivial, hi, rfl⟩

/-- The outcome of a scan is 0 or an element, and no number of the window exceeds it. -/
theorem scan_greatest {es : List Val} {y : Val} (wt : ∀ e ∈ es, e.WT c) (hx : ∀ n, .int n ∈ es → Within .f64 n) (h : ScanOf ieee c es y) :
    (y = zeroVal c ∨ y ∈ es) ∧ AtMost (zeroVal c) y ∧ ∀ e ∈ es, NotNaN e → AtMost e y := by
  obtain ⟨r, hr, hy⟩ := h
  obtain ⟨zw, zn, zi, zd⟩ := zero_home c
  obtain ⟨hp, hN⟩ := scan_zero hr
  have hrn : NotNaN (.f64 r) := plus_not_nan b64_ok hp
  have up : ∀ e : Val, rank e ≤ r.toNat → NotNaN (.f64 (toDouble ieee e)) → AtMost (.f64 (toDouble ieee e)) (.f64 r) := fun e he hn => by
    refine ⟨hn, hrn, ?_⟩
    cases hlt : ieee.lt64 r (toDouble ieee e)
    · rfl
    · have := (lt_plus_iff b64_ok hp (bits64 (toDouble ieee e))).1 hlt
      unfold rank at he
      rw [if_pos this.2] at he
      omega
  have nan : ∀ e : Val, e.WT c → NotNaN e → (∀ n, e = .int n → Within .f64 n) → NotNaN (.f64 (toDouble ieee e)) := fun e hw hn hx => by
    exact (converts_le (c := c) (c' := .f64) hw hw (.inr rfl) (AtMost.refl hn) (converts_f64.2 rfl) (converts_f64.2 rfl)).left
  have le : ∀ e : Val, e.WT c → NotNaN e → (∀ n, e = .int n → Within .f64 n) → rank e ≤ r.toNat → AtMost e y := fun e hw hn hx he =>
    converts_le (c := .f64) (c' := c) (x := .f64 (toDouble ieee e)) (x' := .f64 r) trivial trivial (.inl rfl) (up e he (nan e hw hn hx)) (double_home hw hn hx) hy
  refine ⟨?_, le _ zw zn zi ?_, fun e he hn => le e (wt e he) hn (fun n en => hx n (en ▸ he)) ((hN _).1 (Nat.le_refl _) e he)⟩
  · rcases scan_mem es hr with h0 | ⟨e, he, h0⟩
    · left
      have := double_home zw zn zi
      rw [zd, ← h0] at this
      exact converts_det hy this
    · right
      have hn : NotNaN e := by
        have hw := wt e he
        cases e with
        | int n => trivial
        | f64 b => rw [h0] at hrn; exact hrn
        | f32 b =>
          cases hb : b32.isNaN b.toNat
          · exact hb
          · exfalso
            rw [h0] at hrn
            have : b64.isNaN (ieee.widen b).toNat = false := hrn
            rw [widen_nan hb] at this
            cases this
      have := double_home (wt e he) hn (fun n en => hx n (en ▸ he))
      rw [← h0] at this
      rw [converts_det hy this]
      exact he
  · unfold rank
    rw [zd, start_bits]
    simp

/-- Exactly when the outcome of a scan is a maximum. -/
theorem scan_maximum {es : List Val} {y : Val} (wt : ∀ e ∈ es, e.WT c) (hx : ∀ n, .int n ∈ es → Within .f64 n) (h : ScanOf ieee c es y) :
    Maximum es y ↔ (∀ e ∈ es, NotNaN e) ∧ ∃ e ∈ es, AtMost (zeroVal c) e := by
  obtain ⟨h1, h2, h3⟩ := scan_greatest wt hx h
  constructor
  · rintro ⟨⟨e, he, -, hle⟩, hall⟩
    exact ⟨fun e he => (hall e he).left, e, he, h2.trans hle⟩
  · rintro ⟨hn, e, he, hle⟩
    refine ⟨?_, fun e he => h3 e he (hn e he)⟩
    rcases h1 with rfl | h1
    · exact ⟨e, he, h3 e he (hn e he), hle⟩
    · exact ⟨y, h1, AtMost.refl (hn y h1), AtMost.refl (hn y h1)⟩

end Aitisa
