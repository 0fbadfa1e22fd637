import Verif.Spec.Pooling
import Verif.Proof.IeeeAct
import Verif.Proof.OrderVal
import Verif.Proof.PoolingModes
import Verif.Proof.Casts

/-!
# The scan for the maximum

On IEEE arithmetic the scan from 0 ends with the largest of 0 and the elements above 0: it depends only on which elements there are.
-/

namespace Aitisa

variable {c : Code}

theorem lt_plus_iff {F : Fmt} (h : F.OK) {a b : Nat} (ha : a ≤ F.infBits) (hb : b < 2 * F.signBit) : F.lt a b = true ↔ a < b ∧ b ≤ F.infBits := by
  have hs := inf_lt_sign h
  obtain ⟨s, n, hn, rfl⟩ := exists_signed hb
  rw [Fmt.lt, plus_not_nan h ha, isNaN_signed hn, key_signed hn]
  have : F.key a = a := by
    conv => lhs; rw [← plus_signed F a]
    rw [key_signed (by omega)]; rfl
  rw [this]
  cases s <;> simp [sgn, Fmt.signed] <;> omega

/-- The bits of the `double` of an element that is above 0; otherwise 0. -/
def rank (v : Val) : Nat :=
  if (toDouble ieee v).toNat ≤ b64.infBits then (toDouble ieee v).toNat else 0

theorem start_bits : (ieee.ofInt64 0).toNat = 0 := by simp [ieee, ofInt_zero]

theorem scan_rank : ∀ (es : List Val) {t r : BitVec 64}, t.toNat ≤ b64.infBits → ScansTo ieee t es r →
    r.toNat ≤ b64.infBits ∧ ∀ N, r.toNat ≤ N ↔ t.toNat ≤ N ∧ ∀ e ∈ es, rank e ≤ N
  | [], t, r, ht, e => by cases e; exact ⟨ht, fun N => by simp⟩
  | e :: es, t, r, ht, ⟨d, hd, hs⟩ => by
    have hd : d = toDouble ieee e := by simpa [converts_f64] using hd
    have hl : ieee.lt64 t d = true ↔ t.toNat < d.toNat ∧ d.toNat ≤ b64.infBits := lt_plus_iff b64_ok ht (bits64 d)
    have hr : rank e = if d.toNat ≤ b64.infBits then d.toNat else 0 := by rw [hd]; rfl
    by_cases hb : ieee.lt64 t d = true
    · have := hl.1 hb
      rw [if_pos hb] at hs
      obtain ⟨h1, h2⟩ := scan_rank es this.2 hs
      rw [if_pos this.2] at hr
      refine ⟨h1, fun N => (h2 N).trans ?_⟩
      simp only [List.mem_cons, forall_eq_or_imp, hr]
      constructor
      · rintro ⟨a, b⟩; exact ⟨by omega, a, b⟩
      · rintro ⟨_, a, b⟩; exact ⟨a, b⟩
    · rw [if_neg hb] at hs
      obtain ⟨h1, h2⟩ := scan_rank es ht hs
      rw [hl] at hb
      refine ⟨h1, fun N => (h2 N).trans ?_⟩
      simp only [List.mem_cons, forall_eq_or_imp, hr]
      constructor
      · rintro ⟨a, b⟩; refine ⟨a, ?_, b⟩; split <;> omega
      · rintro ⟨a, _, b⟩; exact ⟨a, b⟩

theorem scan_zero {es : List Val} {r : BitVec 64} (h : ScansTo ieee (ieee.ofInt64 0) es r) :
    r.toNat ≤ b64.infBits ∧ ∀ N, r.toNat ≤ N ↔ ∀ e ∈ es, rank e ≤ N := by
  obtain ⟨h1, h2⟩ := scan_rank es (by rw [start_bits]; omega) h
  exact ⟨h1, fun N => (h2 N).trans ⟨fun h => h.2, fun h => ⟨by rw [start_bits]; omega, h⟩⟩⟩

/-- The outcome of the scan depends only on the bounds of the elements. -/
theorem scan_same {es es' : List Val} {r r' : BitVec 64} (h : ScansTo ieee (ieee.ofInt64 0) es r) (h' : ScansTo ieee (ieee.ofInt64 0) es' r')
    (hb : ∀ N, (∀ e ∈ es, rank e ≤ N) ↔ ∀ e ∈ es', rank e ≤ N) : r = r' := by
  have h1 := (scan_zero h).2
  have h2 := (scan_zero h').2
  have a := ((h2 r.toNat).2 ((hb _).1 ((h1 _).1 (Nat.le_refl _))))
  have b := ((h1 r'.toNat).2 ((hb _).2 ((h2 _).1 (Nat.le_refl _))))
  exact BitVec.eq_of_toNat_eq (by omega)

theorem scan_exists (fp : FloatOps) (t : BitVec 64) (es : List Val) : ∃ r, ScansTo fp t es r := ⟨_, scansTo_iff.2 rfl⟩

/-- The outcome of the scan is its start or the `double` of an element. -/
theorem scan_mem : ∀ (es : List Val) {t r : BitVec 64}, ScansTo ieee t es r → r = t ∨ ∃ e ∈ es, r = toDouble ieee e
  | [], t, r, e => .inl e
  | e :: es, t, r, ⟨d, hd, hs⟩ => by
    have hd : d = toDouble ieee e := by simpa [converts_f64] using hd
    rcases scan_mem es hs with h | ⟨x, hx, h⟩
    · split at h
      · exact .inr ⟨e, List.mem_cons_self .., h.trans hd⟩
      · exact .inl h
    · exact .inr ⟨x, List.mem_cons_of_mem _ hx, h⟩

/-! ### Clamping -/

theorem rank_pos (v : Val) : 0 < rank v ↔ Positive v := by
  have hd : Converts ieee .f64 v (.f64 (toDouble ieee v)) := by rw [converts_f64]
  rw [← pos_double hd]
  have : ieee.lt64 (ieee.ofInt64 0) (toDouble ieee v) = true ↔ _ := lt_plus_iff (F := b64) b64_ok (a := (ieee.ofInt64 0).toNat) (by rw [start_bits]; omega) (bits64 _)
  rw [this, start_bits]
  unfold rank
  split <;> omega

theorem rank_clamp {x y : Val} (h : ClampedAtZero ieee x y) : rank y = rank x := by
  rw [clamp_iff] at h
  by_cases hp : Positive x
  · rw [h, if_pos hp]
  · have h0 := mt (rank_pos x).1 hp
    have h1 : ¬ 0 < rank (zeroLike x) := mt (rank_pos _).1 (by cases x <;> simp [zeroLike, Positive])
    rw [h, if_neg hp]; omega

/-- Converting a number that is not below 0 gives one that clamping leaves alone. -/
theorem clamp_plus {r : BitVec 64} {y : Val} (hr : r.toNat ≤ b64.infBits) (hy : Converts ieee c (.f64 r) y) : ClampedAtZero ieee y y := by
  rw [clamp_iff]
  by_cases hp : Positive y
  · rw [if_pos hp]
  rw [if_neg hp]
  have hi : (∃ k, y = .int k ∧ ieee.trunc64 r = some k) → y = zeroLike y := by
    rintro ⟨k, rfl, hk⟩
    change b64.trunc r.toNat = some k at hk
    have hp : ¬ 0 < k := hp
    have hlt : r.toNat < b64.infBits := by
      rcases Nat.lt_or_ge r.toNat b64.infBits with h | h
      · exact h
      · have : r.toNat = b64.infBits := by omega
        rw [this] at hk
        exact absurd hk (by rw [show b64.trunc b64.infBits = none by decide +kernel]; simp)
    rw [← plus_signed b64 r.toNat, trunc_signed b64_ok hlt] at hk
    simp only [sgn, Bool.false_eq_true, if_false, Option.some.injEq] at hk
    generalize b64.mag r.toNat / 2 ^ b64.low = q at hk
    have : k = 0 := by omega
    rw [this]; rfl
  cases c
  case f32 =>
    have hy : y = .f32 (ieee.narrow r) := hy
    subst hy
    have e := narrow_toNat (s := false) hr (plus_signed b64 r.toNat).symm
    rw [plus_signed] at e
    have hc : b64.cv b32 r.toNat ≤ b32.infBits := cv_le_inf ..
    have : (ieee.narrow r).toNat = 0 := by
      simp only [Positive] at hp; omega
    simp only [zeroLike, Val.f32.injEq]
    exact BitVec.eq_of_toNat_eq (by simpa using this)
  case f64 =>
    have hy : y = .f64 r := hy
    subst hy
    simp only [Positive] at hp
    simp only [zeroLike, Val.f64.injEq]
    exact BitVec.eq_of_toNat_eq (by simp; omega)
  all_goals
    obtain ⟨k, rfl, hk, -⟩ := hy
    exact hi ⟨k, rfl, hk⟩

/-! ### Conversions -/

/-- The scan of `float`s gives a number that `float` represents. -/
theorem scan_back_float {es : List Val} {r : BitVec 64} {y : Val} (hc : c = .f32 ∨ c = .f64) (wt : ∀ e ∈ es, e.WT c)
    (h : ScansTo ieee (ieee.ofInt64 0) es r) (hy : Converts ieee c (.f64 r) y) : toDouble ieee y = r := by
  rcases hc with rfl | rfl
  · have hy : y = .f32 (ieee.narrow r) := hy
    subst hy
    have hp := (scan_zero h).1
    show ieee.widen (ieee.narrow r) = r
    have e := narrow_toNat (s := false) hp (plus_signed b64 r.toNat).symm
    have hc : b64.cv b32 r.toNat ≤ b32.infBits := cv_le_inf ..
    have e2 := widen_toNat (s := false) hc e
    rw [plus_signed] at e2
    refine BitVec.eq_of_toNat_eq (e2.trans ?_)
    rcases scan_mem es h with rfl | ⟨x, hx, rfl⟩
    · rw [start_bits]; decide +kernel
    · have hw := wt x hx
      cases x <;> try exact hw.elim
      next b =>
      by_cases h0 : (toDouble ieee (.f32 b)).toNat = 0
      · rw [h0]; decide +kernel
      have hb : Positive (.f32 b) := (rank_pos _).1 (by unfold rank; rw [if_pos hp]; omega)
      have hb := hb.2
      have := widen_toNat (s := false) hb (plus_signed b32 b.toNat).symm
      rw [plus_signed] at this
      show b32.cv b64 (b64.cv b32 (ieee.widen b).toNat) = (ieee.widen b).toNat
      rw [this, widen_back hb]
  · have hy : y = .f64 r := hy
    subst hy; rfl

/-- The scan of integers of at most 53 bits, or of floating-point numbers, gives a number that the element type represents. -/
theorem scan_back {es : List Val} {r : BitVec 64} (wt : ∀ e ∈ es, e.WT c) (hx : ∀ n, .int n ∈ es → Within .f64 n)
    (h : ScansTo ieee (ieee.ofInt64 0) es r) : ∃ y, Converts ieee c (.f64 r) y ∧ toDouble ieee y = r ∧ ∀ n, y = .int n → Within .f64 n := by
  by_cases hc : c.isInt = true
  · obtain ⟨n, hn, hr, lo, hi⟩ : ∃ n : Int, Within .f64 n ∧ r = ieee.ofInt64 n ∧ c.lo ≤ n ∧ n ≤ c.hi := by
      rcases scan_mem es h with rfl | ⟨x, hm, rfl⟩
      · exact ⟨0, ⟨by omega, by omega⟩, rfl, by cases c <;> simp [Code.isInt] at hc <;> decide, by cases c <;> simp [Code.isInt] at hc <;> decide⟩
      · obtain ⟨n, rfl, lo, hi⟩ := int_WT hc (wt x hm)
        exact ⟨n, hx n hm, rfl, lo, hi⟩
    have ht : ieee.trunc64 r = some n := by
      rw [hr]
      show b64.trunc (BitVec.ofNat 64 (b64.ofInt n)).toNat = _
      rw [of64 (ofInt_lt b64_ok _)]
      refine trunc_int b64_ok (ofInt_int b64_ok ?_)
      have := hn.1
      have := hn.2
      show n.natAbs < 2 ^ 53
      omega
    refine ⟨.int n, ?_, hr.symm, fun k hk => by cases hk; exact hn⟩
    have hR := intRange_eq c hc
    cases c <;> first | exact ⟨n, rfl, ht, _, _, hR, lo, hi⟩ | exact absurd hc (by decide)
  · have hc : c = .f32 ∨ c = .f64 := by cases c <;> simp [Code.isInt] at hc ⊢
    obtain ⟨y, hy⟩ : ∃ y, Converts ieee c (.f64 r) y := by rcases hc with rfl | rfl <;> exact ⟨_, rfl⟩
    exact ⟨y, hy, scan_back_float hc wt h hy, fun n e => by subst e; rcases hc with rfl | rfl <;> cases hy⟩

theorem converts_det {fp : FloatOps} {x y y' : Val} (h : Converts fp c x y) (h' : Converts fp c x y') : y = y' := by
  rw [converts_iff] at h h'
  rw [h] at h'
  injection h'

/-- A number that is the outcome of a scan has itself as rank. -/
theorem rank_back {es : List Val} {r : BitVec 64} {y : Val} (h : ScansTo ieee (ieee.ofInt64 0) es r) (hy : toDouble ieee y = r) : rank y = r.toNat := by
  unfold rank
  rw [hy, if_pos (scan_zero h).1]

end Aitisa
