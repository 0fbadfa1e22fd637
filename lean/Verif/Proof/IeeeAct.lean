import Verif.Spec.Range
import Verif.Proof.IeeeRange

/-!
# The activation functions on IEEE arithmetic, element by element
-/

namespace Aitisa

variable {ex : BitVec 64 → BitVec 64} {c : Code}

theorem ieee_expOK : ExpOK ieee.exp64 where
  plus d h := by
    have := exp64_le (bits64 d) h
    have h2 := inf_lt_sign b64_ok
    show (BitVec.ofNat 64 (exp64 d.toNat)).toNat ≤ _
    rw [of64 (by omega)]; exact this
  nan d h := by
    show b64.isNaN (BitVec.ofNat 64 (exp64 d.toNat)).toNat = true
    rw [exp64_nan (bits64 d) h]; decide +kernel

theorem plus_not_nan {F : Fmt} (h : F.OK) {a : Nat} (ha : a ≤ F.infBits) : F.isNaN a = false := by
  rw [← plus_signed F a]; exact signed_not_nan h false ha

theorem lt_plus {F : Fmt} (h : F.OK) {a b : Nat} (ha : a ≤ F.infBits) (hb : b ≤ F.infBits) : F.lt b a = false ↔ a ≤ b := by
  have hs := inf_lt_sign h
  rw [lt_not_nan (plus_not_nan h hb) (plus_not_nan h ha), ← plus_signed F a, ← plus_signed F b, key_signed (by omega), key_signed (by omega)]
  simp only [sgn, Bool.false_eq_true, if_false, decide_eq_false_iff_not, plus_signed]; omega

theorem ieee_expMono : ExpMono ieee.exp64 := by
  intro a b ha hb hab
  have h1 := ieee_expOK.plus a ha
  have h2 := ieee_expOK.plus b hb
  refine (lt_plus b64_ok h1 h2).2 ?_
  have hab : b64.lt b.toNat a.toNat = false := hab
  rw [lt_not_nan hb ha, decide_eq_false_iff_not, Int.not_lt] at hab
  have h2 := inf_lt_sign b64_ok
  have := exp64_le (bits64 a) ha
  have := exp64_le (bits64 b) hb
  show (BitVec.ofNat 64 (exp64 a.toNat)).toNat ≤ (BitVec.ofNat 64 (exp64 b.toNat)).toNat
  rw [of64 (by omega), of64 (by omega)]
  exact exp64_mono (bits64 a) (bits64 b) ha hb hab

theorem one64 : b64.ofInt 1 = 0x3FF0000000000000 := by decide +kernel
theorem one32 : b32.ofInt 1 = 0x3F800000 := by decide +kernel
theorem inf64 : b64.infBits = 0x7FF0000000000000 := by decide +kernel
theorem inf32 : b32.infBits = 0x7F800000 := by decide +kernel

/-! ### From `double` to the element type -/

theorem narrow_toNat {r : BitVec 64} {s : Bool} {n : Nat} (hn : n ≤ b64.infBits) (hr : r.toNat = b64.signed s n) :
    (ieee.narrow r).toNat = b32.signed s (b64.cv b32 n) := by
  show (BitVec.ofNat 32 (b64.convert b32 r.toNat)).toNat = _
  rw [of32 (convert_lt b32_ok _), hr, convert_cv b64_ok b32_ok s hn]

theorem widen_toNat {r : BitVec 32} {s : Bool} {n : Nat} (hn : n ≤ b32.infBits) (hr : r.toNat = b32.signed s n) :
    (ieee.widen r).toNat = b64.signed s (b32.cv b64 n) := by
  show (BitVec.ofNat 64 (b32.convert b64 r.toNat)).toNat = _
  rw [of64 (convert_lt b64_ok _), hr, convert_cv b32_ok b64_ok s hn]

/-- The bits of the result `r`, converted to the element type. -/
theorem out_bits (hc : c = .f32 ∨ c = .f64) {r : BitVec 64} {s : Bool} {n : Nat} {y : Val} (hn : n ≤ b64.infBits) (hr : r.toNat = b64.signed s n)
    (hy : Converts (withExp ex) c (.f64 r) y) : (∃ b, y = .f32 b ∧ c = .f32 ∧ b.toNat = b32.signed s (b64.cv b32 n)) ∨ (y = .f64 r ∧ c = .f64) := by
  rcases hc with rfl | rfl
  · exact .inl ⟨_, hy, rfl, narrow_toNat hn hr⟩
  · exact .inr ⟨hy, rfl⟩

theorem out_unit (hc : c = .f32 ∨ c = .f64) {r : BitVec 64} {y : Val} (hr : r.toNat ≤ b64.ofInt 1)
    (hy : Converts (withExp ex) c (.f64 r) y) : InUnit y := by
  have h1 := (one_mag b64_ok).1
  rcases out_bits hc (s := false) (n := r.toNat) (by omega) (plus_signed ..).symm hy with ⟨b, rfl, -, hb⟩ | ⟨rfl, -⟩
  · have := cv_mono b32_ok (F := b64) (Nat.le_of_lt h1) hr
    rw [cv_one b64_ok b32_ok, one32] at this
    simp only [InUnit]
    rw [hb, plus_signed]; exact this
  · simp only [InUnit]; rw [one64] at hr; exact hr

theorem out_within (hc : c = .f32 ∨ c = .f64) {r : BitVec 64} {s : Bool} {n : Nat} {y : Val} (hn : n ≤ b64.ofInt 1) (hr : r.toNat = b64.signed s n)
    (hy : Converts (withExp ex) c (.f64 r) y) : WithinOne y ∧ NotNaN y := by
  have h1 := (one_mag b64_ok).1
  have h2 := (one_mag b32_ok).1
  rcases out_bits hc (by omega) hr hy with ⟨b, rfl, -, hb⟩ | ⟨rfl, -⟩
  · have := cv_mono b32_ok (F := b64) (Nat.le_of_lt h1) hn
    rw [cv_one b64_ok b32_ok] at this
    refine ⟨?_, ?_⟩
    · simp only [WithinOne]
      rw [hb]
      have e : b32.signed s (b64.cv b32 n) % b32.signBit = b64.cv b32 n := by
        have := inf_lt_sign b32_ok
        cases s
        · rw [plus_signed, Nat.mod_eq_of_lt (by omega)]
        · simp only [Fmt.signed, if_true]; rw [Nat.add_mod_left, Nat.mod_eq_of_lt (by omega)]
      rw [show (0x80000000 : Nat) = b32.signBit from rfl, e, ← one32]; exact this
    · simp only [NotNaN]; rw [hb]; exact signed_not_nan b32_ok s (cv_le_inf ..)
  · refine ⟨?_, ?_⟩
    · simp only [WithinOne]
      rw [hr]
      have e : b64.signed s n % b64.signBit = n := by
        have := inf_lt_sign b64_ok
        cases s
        · rw [plus_signed, Nat.mod_eq_of_lt (by omega)]
        · simp only [Fmt.signed, if_true]; rw [Nat.add_mod_left, Nat.mod_eq_of_lt (by omega)]
      rw [show (0x8000000000000000 : Nat) = b64.signBit from rfl, e, ← one64]; exact hn
    · simp only [NotNaN]; rw [hr]; exact signed_not_nan b64_ok s (by omega)

theorem out_nan (hc : c = .f32 ∨ c = .f64) {r : BitVec 64} {y : Val} (hr : b64.isNaN r.toNat = true)
    (hy : Converts (withExp ex) c (.f64 r) y) : ¬ NotNaN y := by
  rcases hc with rfl | rfl
  · have : y = .f32 (ieee.narrow r) := hy
    subst this
    simp only [NotNaN]
    have : (ieee.narrow r).toNat = b32.nanBits := by
      show (BitVec.ofNat 32 (b64.convert b32 r.toNat)).toNat = _
      rw [of32 (convert_lt b32_ok _), Fmt.convert, decode_isNaN b64_ok (bits64 r) hr]
    rw [this]; decide +kernel
  · have : y = .f64 r := hy
    subst this
    simp only [NotNaN, hr]; decide

theorem out_order (hc : c = .f32 ∨ c = .f64) {r r' : BitVec 64} {y y' : Val} (hr : r.toNat ≤ r'.toNat) (hi : r'.toNat ≤ b64.infBits)
    (hy : Converts (withExp ex) c (.f64 r) y) (hy' : Converts (withExp ex) c (.f64 r') y') : AtMost y y' := by
  have h1 := out_bits hc (s := false) (n := r.toNat) (by omega) (plus_signed ..).symm hy
  have h2 := out_bits hc (s := false) (n := r'.toNat) (by omega) (plus_signed ..).symm hy'
  rcases h1 with ⟨b, rfl, hc1, hb⟩ | ⟨rfl, hc1⟩ <;> rcases h2 with ⟨b', rfl, hc2, hb'⟩ | ⟨rfl, hc2⟩
  · have := cv_mono b32_ok (F := b64) hi hr
    have hl := cv_le_inf b64 b32 r.toNat
    have hl' := cv_le_inf b64 b32 r'.toNat
    rw [plus_signed] at hb hb'
    rw [← hb] at hl this
    rw [← hb'] at hl' this
    exact ⟨plus_not_nan b32_ok hl, plus_not_nan b32_ok hl', (lt_plus b32_ok hl hl').2 this⟩
  · rw [hc1] at hc2; cases hc2
  · rw [hc1] at hc2; cases hc2
  · exact ⟨plus_not_nan b64_ok (by omega), plus_not_nan b64_ok hi, (lt_plus b64_ok (by omega) hi).2 hr⟩

/-! ### Sigmoid -/

/-- What `sigmoid` computes from `e = exp(-x)`. -/
def sg (e : BitVec 64) : BitVec 64 := ieee.div64 (ieee.ofInt64 1) (ieee.add64 (ieee.ofInt64 1) e)

theorem one_toNat : (ieee.ofInt64 1).toNat = b64.ofInt 1 := of64 (ofInt_lt b64_ok _)

theorem add_toNat (a b : BitVec 64) : (ieee.add64 a b).toNat = b64.add a.toNat b.toNat := of64 (add_lt b64_ok _ _)
theorem sub_toNat (a b : BitVec 64) : (ieee.sub64 a b).toNat = b64.sub a.toNat b.toNat := of64 (sub_lt b64_ok _ _)
theorem div_toNat (a b : BitVec 64) : (ieee.div64 a b).toNat = b64.div a.toNat b.toNat := of64 (div_lt b64_ok _ _)

theorem sg_toNat (e : BitVec 64) : (sg e).toNat = b64.div (b64.ofInt 1) (b64.add (b64.ofInt 1) e.toNat) := by
  unfold sg; rw [div_toNat, add_toNat, one_toNat]

theorem one_pos64 : 0 < b64.ofInt 1 := by rw [one64]; decide

theorem sg_unit {e : BitVec 64} (he : e.toNat ≤ b64.infBits) : (sg e).toNat ≤ b64.ofInt 1 := by
  have h1 := (one_mag b64_ok).1
  have h2 := le_add_left b64_ok (Nat.le_of_lt h1) he
  have h3 := add_le_inf b64_ok (Nat.le_of_lt h1) he
  have h0 := one_pos64
  obtain ⟨n, hn, hd⟩ := div_small b64_ok false h1 h3 h2 (by omega)
  rw [plus_signed, plus_signed] at hd
  rw [sg_toNat, hd]; exact hn

theorem sg_anti {e e' : BitVec 64} (he : e'.toNat ≤ b64.infBits) (h : e.toNat ≤ e'.toNat) : (sg e').toNat ≤ (sg e).toNat := by
  have h1 := (one_mag b64_ok).1
  have h2 := le_add_left b64_ok (Nat.le_of_lt h1) (Nat.le_trans h he)
  have h3 := add_le_inf b64_ok (Nat.le_of_lt h1) he
  have h4 := add_mono_right b64_ok (Nat.le_of_lt h1) he h
  have h0 := one_pos64
  rw [sg_toNat, sg_toNat]
  exact div_anti_right b64_ok h1 h3 (by omega) h4

theorem decode_nanBits : b64.decode b64.nanBits = .nan := decode_isNaN b64_ok (nan_lt b64_ok) (by decide +kernel)

theorem add_nan_right (a : Nat) {b : Nat} (hb : b64.decode b = .nan) : b64.add a b = b64.nanBits := by
  unfold Fmt.add; rw [hb]; split <;> simp_all

theorem div_nan_right (a : Nat) {b : Nat} (hb : b64.decode b = .nan) : b64.div a b = b64.nanBits := by
  unfold Fmt.div; rw [hb]; split <;> simp_all

theorem sg_nan {e : BitVec 64} (he : b64.isNaN e.toNat = true) : b64.isNaN (sg e).toNat = true := by
  rw [sg_toNat, add_nan_right _ (decode_isNaN b64_ok (bits64 e) he), div_nan_right _ decode_nanBits]; decide +kernel

theorem sigmoid_through {x y : Val} (hx : x.WT c) (hc : c = .f32 ∨ c = .f64) (h : SigmoidOf (withExp ex) x y) :
    Converts (withExp ex) c (.f64 (sg (ex (negDouble x)))) y := by
  cases x with
  | int n => exact h.elim
  | f32 b => rcases hc with rfl | rfl
             · exact h
             · simp [Val.WT] at hx
  | f64 b => rcases hc with rfl | rfl
             · simp [Val.WT] at hx
             · exact h

theorem tanh_through {x y : Val} (hx : x.WT c) (hc : c = .f32 ∨ c = .f64) (h : TanhOf (withExp ex) x y) :
    Converts (withExp ex) c (.f64 (ieee.div64 (ieee.sub64 (ex (asDouble x)) (ex (negDouble x))) (ieee.add64 (ex (asDouble x)) (ex (negDouble x))))) y := by
  cases x with
  | int n => exact h.elim
  | f32 b => rcases hc with rfl | rfl
             · exact h
             · simp [Val.WT] at hx
  | f64 b => rcases hc with rfl | rfl
             · simp [Val.WT] at hx
             · exact h

/-! ### Signs -/

theorem neg_lt {F : Fmt} {a : Nat} (h : a < 2 * F.signBit) : F.neg a < 2 * F.signBit := by unfold Fmt.neg; split <;> omega

theorem neg64_toNat {d : BitVec 64} {s : Bool} {n : Nat} (hn : n < b64.signBit) (h : d.toNat = b64.signed s n) : (ieee.neg64 d).toNat = b64.signed (!s) n := by
  show (BitVec.ofNat 64 (b64.neg d.toNat)).toNat = _
  rw [of64 (neg_lt (bits64 d)), h, neg_signed hn]

theorem neg32_toNat {d : BitVec 32} {s : Bool} {n : Nat} (hn : n < b32.signBit) (h : d.toNat = b32.signed s n) : (ieee.neg32 d).toNat = b32.signed (!s) n := by
  show (BitVec.ofNat 32 (b32.neg d.toNat)).toNat = _
  rw [of32 (neg_lt (bits32 d)), h, neg_signed hn]

/-- The bits of `x` and `-x` as `double`s. -/
theorem double_bits {x : Val} (hx : x.WT c) (hc : c = .f32 ∨ c = .f64) (hn : NotNaN x) :
    ∃ s n, n ≤ b64.infBits ∧ (asDouble x).toNat = b64.signed s n ∧ (negDouble x).toNat = b64.signed (!s) n := by
  have h1 := inf_lt_sign b64_ok
  have h2 := inf_lt_sign b32_ok
  cases x with
  | int n => rcases hc with rfl | rfl <;> simp [Val.WT] at hx
  | f32 b =>
    obtain ⟨s, n, hb, e⟩ := not_nan_signed (bits32 b) hn
    exact ⟨s, _, cv_le_inf .., widen_toNat hb e, widen_toNat hb (neg32_toNat (by omega) e)⟩
  | f64 b =>
    obtain ⟨s, n, hb, e⟩ := not_nan_signed (bits64 b) hn
    exact ⟨s, n, hb, e, neg64_toNat (by omega) e⟩

theorem double_not_nan {x : Val} (hx : x.WT c) (hc : c = .f32 ∨ c = .f64) (hn : NotNaN x) :
    b64.isNaN (asDouble x).toNat = false ∧ b64.isNaN (negDouble x).toNat = false := by
  obtain ⟨s, n, hi, h1, h2⟩ := double_bits hx hc hn
  rw [h1, h2]
  exact ⟨signed_not_nan b64_ok _ hi, signed_not_nan b64_ok _ hi⟩

theorem neg_nan {F : Fmt} {a : Nat} (h : a < 2 * F.signBit) : F.isNaN (F.neg a) = F.isNaN a := by
  obtain ⟨s, n, hn, rfl⟩ := exists_signed h
  rw [neg_signed hn, isNaN_signed hn, isNaN_signed hn]

theorem widen_nan {b : BitVec 32} (h : b32.isNaN b.toNat = true) : b64.isNaN (ieee.widen b).toNat = true := by
  show b64.isNaN (BitVec.ofNat 64 (b32.convert b64 b.toNat)).toNat = true
  rw [of64 (convert_lt b64_ok _), Fmt.convert, decode_isNaN b32_ok (bits32 b) h]; decide +kernel

theorem double_nan {x : Val} (hn : ¬ NotNaN x) : b64.isNaN (asDouble x).toNat = true ∧ b64.isNaN (negDouble x).toNat = true := by
  cases x with
  | int n => exact absurd trivial hn
  | f32 b =>
    have hb : b32.isNaN b.toNat = true := by simpa [NotNaN] using hn
    refine ⟨widen_nan hb, widen_nan ?_⟩
    show b32.isNaN (BitVec.ofNat 32 (b32.neg b.toNat)).toNat = true
    rw [of32 (neg_lt (bits32 b)), neg_nan (bits32 b), hb]
  | f64 b =>
    have hb : b64.isNaN b.toNat = true := by simpa [NotNaN] using hn
    refine ⟨hb, ?_⟩
    show b64.isNaN (BitVec.ofNat 64 (b64.neg b.toNat)).toNat = true
    rw [of64 (neg_lt (bits64 b)), neg_nan (bits64 b), hb]

/-- Order of elements and of their `double`s. -/
theorem double_order {x x' : Val} (hx : x.WT c) (hx' : x'.WT c) (hc : c = .f32 ∨ c = .f64) (h : AtMost x x') :
    NotNaN x ∧ NotNaN x' ∧ b64.key (asDouble x).toNat ≤ b64.key (asDouble x').toNat ∧ b64.key (negDouble x').toNat ≤ b64.key (negDouble x).toNat := by
  have hs := inf_lt_sign b64_ok
  have hs' := inf_lt_sign b32_ok
  rcases hc with rfl | rfl
  · match x, x', h with
    | .f32 a, .f32 b, ⟨na, nb, hl⟩ =>
      refine ⟨na, nb, ?_⟩
      have hl : b32.lt b.toNat a.toNat = false := hl
      rw [lt_not_nan nb na, decide_eq_false_iff_not] at hl
      obtain ⟨s, n, hn, e⟩ := not_nan_signed (bits32 a) na
      obtain ⟨t, k, hk, e'⟩ := not_nan_signed (bits32 b) nb
      rw [e, e', key_signed (by omega), key_signed (by omega)] at hl
      have l1 := cv_le_inf b32 b64 n
      have l2 := cv_le_inf b32 b64 k
      have m1 : n ≤ k → b32.cv b64 n ≤ b32.cv b64 k := cv_mono b64_ok hk
      have m2 : k ≤ n → b32.cv b64 k ≤ b32.cv b64 n := cv_mono b64_ok hn
      have z : b32.cv b64 0 = 0 := cv_zero b32_ok b64_ok
      simp only [asDouble, negDouble]
      rw [widen_toNat hn e, widen_toNat hk e', widen_toNat hn (neg32_toNat (by omega) e), widen_toNat hk (neg32_toNat (by omega) e'),
        key_signed (by omega), key_signed (by omega), key_signed (by omega), key_signed (by omega)]
      have z1 : n = 0 → b32.cv b64 n = 0 := fun h => by rw [h, z]
      have z2 : k = 0 → b32.cv b64 k = 0 := fun h => by rw [h, z]
      cases s <;> cases t <;> simp only [sgn, Bool.not_false, Bool.not_true, Bool.false_eq_true, if_false, if_true] at hl ⊢ <;> omega
    | .int _, .int _, _ => simp [Val.WT] at hx
    | .f64 _, .f64 _, _ => simp [Val.WT] at hx
  · match x, x', h with
    | .f64 a, .f64 b, ⟨na, nb, hl⟩ =>
      refine ⟨na, nb, ?_⟩
      have hl : b64.lt b.toNat a.toNat = false := hl
      rw [lt_not_nan nb na, decide_eq_false_iff_not] at hl
      obtain ⟨s, n, hn, e⟩ := not_nan_signed (bits64 a) na
      obtain ⟨t, k, hk, e'⟩ := not_nan_signed (bits64 b) nb
      rw [e, e', key_signed (by omega), key_signed (by omega)] at hl
      simp only [asDouble, negDouble]
      rw [neg64_toNat (by omega) e, neg64_toNat (by omega) e', e, e', 
        key_signed (by omega), key_signed (by omega), key_signed (by omega), key_signed (by omega)]
      cases s <;> cases t <;> simp only [sgn, Bool.not_false, Bool.not_true, Bool.false_eq_true, if_false, if_true] at hl ⊢ <;> omega
    | .int _, .int _, _ => simp [Val.WT] at hx
    | .f32 _, .f32 _, _ => simp [Val.WT] at hx

theorem expMono_bits (hm : ExpMono ex) (ho : ExpOK ex) {a b : BitVec 64} (na : b64.isNaN a.toNat = false) (nb : b64.isNaN b.toNat = false)
    (h : b64.key a.toNat ≤ b64.key b.toNat) : (ex a).toNat ≤ (ex b).toNat := by
  refine (lt_plus b64_ok (ho.plus a na) (ho.plus b nb)).1 (hm a b na nb ?_)
  show b64.lt b.toNat a.toNat = false
  rw [lt_not_nan nb na, decide_eq_false_iff_not]; omega

/-! ### Tanh -/

theorem isInf_bits (d : BitVec 64) : IsInf (.f64 d) ↔ d.toNat = b64.infBits := by
  rw [inf64]
  constructor
  · intro h; have : d = 0x7FF0000000000000 := h; subst this; rfl
  · intro h; exact BitVec.eq_of_toNat_eq h

theorem th_toNat (u v : BitVec 64) : (ieee.div64 (ieee.sub64 u v) (ieee.add64 u v)).toNat = b64.th u.toNat v.toNat := by
  rw [div_toNat, sub_toNat, add_toNat]; rfl

theorem zero_bits (d : BitVec 64) : d = 0 ↔ d.toNat = 0 :=
  ⟨fun h => by rw [h]; rfl, fun h => BitVec.eq_of_toNat_eq h⟩

theorem tanh_exact {x y : Val} (ho : ExpOK ex) (hx : x.WT c) (hc : c = .f32 ∨ c = .f64) (hn : NotNaN x) (h : TanhOf (withExp ex) x y) :
    (NotNaN y ↔ ¬ IsInf (.f64 (ex (asDouble x))) ∧ ¬ IsInf (.f64 (ex (negDouble x))) ∧ ¬ (ex (asDouble x) = 0 ∧ ex (negDouble x) = 0)) ∧
    (NotNaN y → WithinOne y) := by
  have ht := tanh_through hx hc h
  obtain ⟨n1, n2⟩ := double_not_nan hx hc hn
  have hu := ho.plus _ n1
  have hv := ho.plus _ n2
  have hr := th_toNat (ex (asDouble x)) (ex (negDouble x))
  simp only [isInf_bits, zero_bits]
  generalize ex (asDouble x) = u at *
  generalize ex (negDouble x) = v at *
  by_cases hinf : u.toNat = b64.infBits ∨ v.toNat = b64.infBits
  · have : ¬ NotNaN y := out_nan hc (by rw [hr, th_inf b64_ok hu hv hinf]; decide +kernel) ht
    exact ⟨⟨fun h => absurd h this, fun h => by omega⟩, fun h => absurd h this⟩
  · by_cases h0 : u.toNat = 0 ∧ v.toNat = 0
    · have : ¬ NotNaN y := out_nan hc (by rw [hr, h0.1, h0.2, th_zero b64_ok]; decide +kernel) ht
      exact ⟨⟨fun h => absurd h this, fun h => absurd h0 h.2.2⟩, fun h => absurd h this⟩
    · obtain ⟨n, hn, h1, -⟩ := th_range b64_ok (u := u.toNat) (v := v.toNat) (by omega) (by omega) (by omega)
      rw [h1] at hr
      have := out_within hc hn hr ht
      exact ⟨⟨fun _ => by omega, fun _ => this.2⟩, fun _ => this.1⟩

theorem neg32_neg32 (b : BitVec 32) : ieee.neg32 (ieee.neg32 b) = b := by
  obtain ⟨s, n, hn, e⟩ := exists_signed (bits32 b)
  apply BitVec.eq_of_toNat_eq
  rw [neg32_toNat hn (neg32_toNat hn e), e, Bool.not_not]

theorem neg64_neg64 (b : BitVec 64) : ieee.neg64 (ieee.neg64 b) = b := by
  obtain ⟨s, n, hn, e⟩ := exists_signed (bits64 b)
  apply BitVec.eq_of_toNat_eq
  rw [neg64_toNat hn (neg64_toNat hn e), e, Bool.not_not]

theorem out_neg (hc : c = .f32 ∨ c = .f64) {r r' : BitVec 64} {s : Bool} {n : Nat} {y y' : Val} (hn : n ≤ b64.infBits) (hr : r.toNat = b64.signed s n)
    (hr' : r'.toNat = b64.signed (!s) n) (hy : Converts (withExp ex) c (.f64 r) y) (hy' : Converts (withExp ex) c (.f64 r') y') : y' = negVal y := by
  have hs := inf_lt_sign b64_ok
  have hs' := inf_lt_sign b32_ok
  rcases out_bits hc hn hr hy with ⟨b, rfl, hc1, hb⟩ | ⟨rfl, hc1⟩ <;> rcases out_bits hc hn hr' hy' with ⟨b', rfl, hc2, hb'⟩ | ⟨rfl, hc2⟩
  · have := cv_le_inf b64 b32 n
    simp only [negVal, Val.f32.injEq]
    apply BitVec.eq_of_toNat_eq
    rw [hb', neg32_toNat (by omega) hb]
  · rw [hc1] at hc2; cases hc2
  · rw [hc1] at hc2; cases hc2
  · simp only [negVal, Val.f64.injEq]
    apply BitVec.eq_of_toNat_eq
    rw [hr', neg64_toNat (by omega) hr]

theorem negVal_WT {x : Val} (hx : x.WT c) (hc : c = .f32 ∨ c = .f64) : (negVal x).WT c := by
  cases x <;> rcases hc with rfl | rfl <;> simp_all [Val.WT, negVal]

theorem negVal_double {x : Val} (hx : x.WT c) (hc : c = .f32 ∨ c = .f64) : asDouble (negVal x) = negDouble x ∧ negDouble (negVal x) = asDouble x := by
  cases x with
  | int n => rcases hc with rfl | rfl <;> simp [Val.WT] at hx
  | f32 b => exact ⟨rfl, by simp only [negVal, negDouble, asDouble, neg32_neg32]⟩
  | f64 b => exact ⟨rfl, by simp only [negVal, negDouble, asDouble, neg64_neg64]⟩

theorem tanh_odd {x y y' : Val} (ho : ExpOK ex) (hx : x.WT c) (hc : c = .f32 ∨ c = .f64) (hn : NotNaN x) (h : TanhOf (withExp ex) x y)
    (h' : TanhOf (withExp ex) (negVal x) y') (hy : NotNaN y) (hne : ex (asDouble x) ≠ ex (negDouble x)) : y' = negVal y := by
  have ht := tanh_through hx hc h
  have ht' := tanh_through (negVal_WT hx hc) hc h'
  have hex := ((tanh_exact ho hx hc hn h).1.1 hy)
  rw [(negVal_double hx hc).1, (negVal_double hx hc).2] at ht'
  obtain ⟨n1, n2⟩ := double_not_nan hx hc hn
  have hu := ho.plus _ n1
  have hv := ho.plus _ n2
  have hr := th_toNat (ex (asDouble x)) (ex (negDouble x))
  have hr' := th_toNat (ex (negDouble x)) (ex (asDouble x))
  simp only [isInf_bits, zero_bits] at hex
  generalize ex (asDouble x) = u at *
  generalize ex (negDouble x) = v at *
  have hne' : u.toNat ≠ v.toNat := fun h => hne (BitVec.eq_of_toNat_eq h)
  have h1 := (one_mag b64_ok).1
  obtain ⟨n, hn, e1, e2, -⟩ := th_range b64_ok (u := u.toNat) (v := v.toNat) (by omega) (by omega) (by omega)
  rw [e1] at hr
  rw [e2, show decide (v.toNat < u.toNat) = !decide (u.toNat < v.toNat) by rw [← decide_not]; exact decide_eq_decide.2 (by omega)] at hr'
  exact out_neg hc (by omega) hr hr' ht ht'

/-! ### Softmax -/

/-- Not a NaN, not below 0, and not -0. -/
def PlusVal : Val → Prop
  | .int _ => False
  | .f32 b => b.toNat ≤ b32.infBits
  | .f64 b => b.toNat ≤ b64.infBits

theorem widen_back {n : Nat} (hn : n ≤ b32.infBits) : b64.cv b32 (b32.cv b64 n) = n := by
  have hs := inf_lt_sign b32_ok
  have := convert_back b32_ok b64_ok (by decide) (by decide) (by decide) (b := n) (by omega) (plus_not_nan b32_ok hn)
  rwa [convert_plus b32_ok b64_ok hn, convert_plus b64_ok b32_ok (cv_le_inf ..)] at this

/-- The `double` of an element that is not negative. -/
theorem plus_double {e : Val} (h : PlusVal e) : (asDouble e).toNat ≤ b64.infBits ∧ ((asDouble e).toNat = b64.infBits ↔ IsInf e) ∧
    ((asDouble e).toNat = 0 ↔ ¬ Positive e) := by
  cases e with
  | int n => exact h.elim
  | f32 b =>
    have hb : b.toNat ≤ b32.infBits := h
    have e1 : (asDouble (.f32 b)).toNat = b32.cv b64 b.toNat := by
      have := widen_toNat (s := false) hb (plus_signed ..).symm
      rw [plus_signed] at this; exact this
    rw [e1]
    have hback := widen_back hb
    refine ⟨cv_le_inf .., ⟨fun h => ?_, fun h => ?_⟩, ⟨fun h hp => ?_, fun h => ?_⟩⟩
    · rw [h] at hback
      have : b64.cv b32 b64.infBits = b32.infBits := by unfold Fmt.cv; rw [if_pos rfl]
      rw [this, inf32] at hback
      exact BitVec.eq_of_toNat_eq hback.symm
    · have : b = 0x7F800000 := h
      subst this
      unfold Fmt.cv; rw [if_pos (by rw [inf32]; rfl)]
    · rw [h, cv_zero b64_ok b32_ok] at hback
      have := hp.1
      omega
    · have : b.toNat = 0 := by
        have : ¬ (0 < b.toNat ∧ b.toNat ≤ b32.infBits) := h
        omega
      rw [this, cv_zero b32_ok b64_ok]
  | f64 b =>
    have hb : b.toNat ≤ b64.infBits := h
    refine ⟨hb, (isInf_bits b).symm, ⟨fun h hp => ?_, fun h => ?_⟩⟩
    · have h : b.toNat = 0 := h
      have := hp.1
      omega
    · have : ¬ (0 < b.toNat ∧ b.toNat ≤ b64.infBits) := h
      show b.toNat = 0
      omega

theorem sums_plus : ∀ {es : List Val} {t r : BitVec 64}, t.toNat ≤ b64.infBits → (∀ e ∈ es, PlusVal e) → SumsTo (withExp ex) t es r →
    t.toNat ≤ r.toNat ∧ r.toNat ≤ b64.infBits ∧ (∀ e ∈ es, (asDouble e).toNat ≤ r.toNat) ∧
    (r.toNat = 0 ↔ t.toNat = 0 ∧ ∀ e ∈ es, ¬ Positive e)
  | [], t, r, ht, _, h => by
    have : r = t := h
    subst this
    exact ⟨Nat.le_refl _, ht, by simp, by simp⟩
  | e :: es, t, r, ht, hp, ⟨d, hd, h⟩ => by
    have hpe := hp e (by simp)
    have hd' : d = asDouble e := by
      cases e with
      | int n => exact hpe.elim
      | f32 b => have : Val.f64 d = .f64 _ := hd; injection this
      | f64 b => have : Val.f64 d = .f64 _ := hd; injection this
    obtain ⟨hb, -, hz⟩ := plus_double hpe
    rw [← hd'] at hb hz
    have hs : ((withExp ex).add64 t d).toNat = b64.add t.toNat d.toNat := add_toNat t d
    have h1 := add_le_inf b64_ok ht hb
    have h2 := le_add_left b64_ok ht hb
    have h3 := le_add_right b64_ok ht hb
    have h4 := add_zero_iff b64_ok ht hb
    obtain ⟨i1, i2, i3, i4⟩ := sums_plus (by rw [hs]; exact h1) (fun x hx => hp x (List.mem_cons_of_mem _ hx)) h
    rw [hs] at i1 i4
    refine ⟨by omega, i2, ?_, ?_⟩
    · intro x hx
      rcases List.mem_cons.1 hx with rfl | hx
      · rw [← hd']; omega
      · exact i3 x hx
    · rw [i4, h4, hz, List.forall_mem_cons, and_assoc]

theorem exp_plus {x e : Val} (ho : ExpOK ex) (hx : x.WT c) (hc : c = .f32 ∨ c = .f64) (hn : NotNaN x) (h : ExpOf (withExp ex) c x e) :
    e.WT c ∧ PlusVal e := by
  obtain ⟨d, hd, he⟩ := h
  have hd' : d = asDouble x := by
    cases x with
    | int n => rcases hc with rfl | rfl <;> simp [Val.WT] at hx
    | f32 b => have : Val.f64 d = .f64 _ := hd; injection this
    | f64 b => have : Val.f64 d = .f64 _ := hd; injection this
  have hp := ho.plus d (by rw [hd']; exact (double_not_nan hx hc hn).1)
  rcases out_bits hc (s := false) hp (plus_signed ..).symm he with ⟨b, rfl, rfl, hb⟩ | ⟨rfl, rfl⟩
  · refine ⟨trivial, ?_⟩
    simp only [PlusVal]; rw [hb, plus_signed]; exact cv_le_inf ..
  · exact ⟨trivial, hp⟩

theorem exp_order {x x' e e' : Val} (ho : ExpOK ex) (hm : ExpMono ex) (hx : x.WT c) (hx' : x'.WT c) (hc : c = .f32 ∨ c = .f64) (hxx : AtMost x x')
    (h : ExpOf (withExp ex) c x e) (h' : ExpOf (withExp ex) c x' e') : (asDouble e).toNat ≤ (asDouble e').toNat := by
  obtain ⟨d, hd, he⟩ := h
  obtain ⟨d', hd', he'⟩ := h'
  have : ∀ {x : Val} {d}, x.WT c → Converts (withExp ex) .f64 x (.f64 d) → d = asDouble x := fun {x d} hx hd => by
    cases x with
    | int n => rcases hc with rfl | rfl <;> simp [Val.WT] at hx
    | f32 b => have : Val.f64 d = .f64 _ := hd; injection this
    | f64 b => have : Val.f64 d = .f64 _ := hd; injection this
  have e1 := this hx hd
  have e2 := this hx' hd'
  subst e1 e2
  obtain ⟨n1, n2, ho1, -⟩ := double_order hx hx' hc hxx
  have m1 := (double_not_nan hx hc n1).1
  have m2 := (double_not_nan hx' hc n2).1
  have hle := expMono_bits hm ho m1 m2 ho1
  have p1 := ho.plus _ m1
  have p2 := ho.plus _ m2
  rcases hc with rfl | rfl
  · have e1 : e = .f32 (ieee.narrow (ex (asDouble x))) := he
    have e2 : e' = .f32 (ieee.narrow (ex (asDouble x'))) := he'
    subst e1 e2
    have w : ∀ d : BitVec 64, d.toNat ≤ b64.infBits → (asDouble (.f32 (ieee.narrow d))).toNat = b32.cv b64 (b64.cv b32 d.toNat) := fun d hd => by
      have h1 := narrow_toNat (s := false) hd (plus_signed ..).symm
      have h2 := widen_toNat (cv_le_inf ..) h1
      rw [plus_signed] at h2; exact h2
    rw [w _ p1, w _ p2]
    exact cv_mono b64_ok (cv_le_inf ..) (cv_mono b32_ok p2 hle)
  · have e1 : e = .f64 (ex (asDouble x)) := he
    have e2 : e' = .f64 (ex (asDouble x')) := he'
    subst e1 e2
    exact hle

theorem share_exact {line : List Val} {e y : Val} (hc : c = .f32 ∨ c = .f64) (hp : ∀ e ∈ line, PlusVal e) (he : e ∈ line)
    (h : ShareOf (withExp ex) c line e y) :
    (NotNaN y ↔ ¬ IsInf e ∧ ∃ e' ∈ line, Positive e') ∧ (NotNaN y → InUnit y) := by
  obtain ⟨t, d, ht, hd, hy⟩ := h
  have hpe := hp e he
  have hd' : d = asDouble e := by
    cases e with
    | int n => exact hpe.elim
    | f32 b => have : Val.f64 d = .f64 _ := hd; injection this
    | f64 b => have : Val.f64 d = .f64 _ := hd; injection this
  obtain ⟨hb, hi, -⟩ := plus_double hpe
  rw [← hd'] at hb hi
  have h0 : ((withExp ex).ofInt64 0).toNat = 0 := by
    have : ((withExp ex).ofInt64 0).toNat = b64.ofInt 0 := of64 (ofInt_lt b64_ok _)
    rw [this, ofInt_zero]
  obtain ⟨-, t1, t2, t3⟩ := sums_plus (by rw [h0]; exact Nat.zero_le _) hp ht
  have hdt := t2 e he
  rw [← hd'] at hdt
  have hr : ((withExp ex).div64 d t).toNat = b64.div d.toNat t.toNat := div_toNat d t
  rw [h0] at t3
  have hpos : (∃ e' ∈ line, Positive e') ↔ t.toNat ≠ 0 := by
    rw [Ne, t3]; simp
  rw [hpos, ← hi]
  by_cases h1 : d.toNat = b64.infBits
  · have ht' : t.toNat = b64.infBits := by omega
    have : ¬ NotNaN y := out_nan hc (by
      rw [hr, ht', h1, div_inf_inf b64_ok (.inr ⟨false, by rw [← plus_signed b64 b64.infBits, decode_inf b64_ok]⟩)]; decide +kernel) hy
    exact ⟨⟨fun h => absurd h this, fun h => absurd h1 h.1⟩, fun h => absurd h this⟩
  · by_cases h2 : t.toNat = 0
    · have : ¬ NotNaN y := out_nan hc (by
        rw [hr, h2, show d.toNat = 0 by omega, div_zero_zero b64_ok]; decide +kernel) hy
      exact ⟨⟨fun h => absurd h this, fun h => absurd h2 h.2⟩, fun h => absurd h this⟩
    · obtain ⟨n, hn, hdv⟩ := div_small b64_ok false (show d.toNat < b64.infBits by omega) t1 hdt (by omega)
      rw [plus_signed] at hdv
      rw [hdv] at hr
      have hw := out_within hc hn hr hy
      rw [plus_signed] at hr
      exact ⟨⟨fun _ => ⟨h1, h2⟩, fun _ => hw.2⟩, fun _ => out_unit hc (by rw [hr]; exact hn) hy⟩

theorem share_order {line : List Val} {e e' y y' : Val} (hc : c = .f32 ∨ c = .f64) (hp : ∀ e ∈ line, PlusVal e) (he : e ∈ line) (he' : e' ∈ line)
    (hle : (asDouble e).toNat ≤ (asDouble e').toNat)
    (h : ShareOf (withExp ex) c line e y) (h' : ShareOf (withExp ex) c line e' y') (hn' : NotNaN y') : AtMost y y' := by
  have hex := (share_exact hc hp he' h').1.1 hn'
  obtain ⟨t, d, ht, hd, hy⟩ := h
  obtain ⟨t', d', ht', hd', hy'⟩ := h'
  have htt : ∀ {es : List Val} {t r r' : BitVec 64}, SumsTo (withExp ex) t es r → SumsTo (withExp ex) t es r' → r = r' := by
    intro es
    induction es with
    | nil => intro t r r' h h'; exact (h : r = t).trans (h' : r' = t).symm
    | cons e es ih =>
      rintro t r r' ⟨d, hd, h⟩ ⟨d', hd', h'⟩
      have : d = d' := by
        have h1 : Val.f64 d = .f64 _ := hd
        have h2 : Val.f64 d' = .f64 _ := hd'
        injection h1 with h1; injection h2 with h2
        rw [h1, h2]
      subst this
      exact ih h h'
  have := htt ht ht'
  subst this
  have conv : ∀ {e : Val} {d}, PlusVal e → Converts (withExp ex) .f64 e (.f64 d) → d = asDouble e := fun {e d} hpe hd => by
    cases e with
    | int n => exact hpe.elim
    | f32 b => have : Val.f64 d = .f64 _ := hd; injection this
    | f64 b => have : Val.f64 d = .f64 _ := hd; injection this
  have e1 := conv (hp e he) hd
  have e2 := conv (hp e' he') hd'
  subst e1 e2
  have h0 : ((withExp ex).ofInt64 0).toNat = 0 := by
    have : ((withExp ex).ofInt64 0).toNat = b64.ofInt 0 := of64 (ofInt_lt b64_ok _)
    rw [this, ofInt_zero]
  obtain ⟨-, t1, t2, t3⟩ := sums_plus (by rw [h0]; exact Nat.zero_le _) hp ht
  obtain ⟨hb, hi, -⟩ := plus_double (hp e' he')
  rw [h0] at t3
  have ht0 : t.toNat ≠ 0 := by
    rw [Ne, t3]; simpa using hex.2
  have hfin : (asDouble e').toNat < b64.infBits := by
    have := mt hi.1 hex.1
    omega
  have hr : ((withExp ex).div64 (asDouble e) t).toNat = b64.div (asDouble e).toNat t.toNat := div_toNat _ t
  have hr' : ((withExp ex).div64 (asDouble e') t).toNat = b64.div (asDouble e').toNat t.toNat := div_toNat _ t
  obtain ⟨n, hn, hdv⟩ := div_small b64_ok false hfin t1 (t2 e' he') (by omega)
  rw [plus_signed, plus_signed] at hdv
  have h1 := (one_mag b64_ok).1
  refine out_order hc ?_ ?_ hy hy'
  · rw [hr, hr']; exact div_mono_left b64_ok hfin t1 (by omega) hle
  · rw [hr', hdv]; omega

end Aitisa
