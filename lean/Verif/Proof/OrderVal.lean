import Verif.Proof.IeeeMono
import Verif.Proof.ErrorAvg

/-!
# Sums, averages, maxima and roots keep the order
-/

namespace Aitisa

variable {F : Fmt} {c : Code}

theorem decode_isNaN' (h : F.OK) {b : Nat} (hb : b < 2 * F.signBit) (hn : F.decode b ≠ .nan) : F.isNaN b = false := by
  cases e : F.isNaN b
  · rfl
  · exact absurd (decode_isNaN h hb e) hn

theorem add_eq_sum (a b : Nat) : F.add a b = F.sum (F.decode a) (F.decode b) := rfl

/-- A sum that is not a NaN has terms that are not. -/
theorem add_parts (h : F.OK) {a b : Nat} (ha : a < 2 * F.signBit) (hb : b < 2 * F.signBit) (hn : F.isNaN (F.add a b) = false) :
    F.isNaN a = false ∧ F.isNaN b = false := by
  have hN := nan_is_nan h
  refine ⟨decode_isNaN' h ha fun e => ?_, decode_isNaN' h hb fun e => ?_⟩
  · rw [add_eq_sum, e, sum_nan_left, hN] at hn; cases hn
  · rw [add_eq_sum, e, sum_nan_right, hN] at hn; cases hn

theorem div_parts (h : F.OK) {a b : Nat} (ha : a < 2 * F.signBit) (hn : F.isNaN (F.div a b) = false) : F.isNaN a = false := by
  have hN := nan_is_nan h
  refine decode_isNaN' h ha fun e => ?_
  rw [Fmt.div, e] at hn
  simp only [hN] at hn
  cases hn

theorem convert_parts {G : Fmt} (h : F.OK) (hG : G.OK) {a : Nat} (ha : a < 2 * F.signBit) (hn : G.isNaN (F.convert G a) = false) : F.isNaN a = false := by
  have hN := nan_is_nan hG
  refine decode_isNaN' h ha fun e => ?_
  rw [Fmt.convert, e] at hn
  simp only [hN] at hn
  cases hn

theorem fma_part (h : F.OK) {z a b : Nat} (hz : z < 2 * F.signBit) (hn : F.isNaN (F.fma z a b) = false) : F.isNaN z = false := by
  have hN := nan_is_nan h
  refine decode_isNaN' h hz fun e => ?_
  rw [Fmt.fma, e, sum_nan_left, hN] at hn
  cases hn

/-- A step of a sum of products is rounded always twice or always once. -/
def Fmt.Same (F : Fmt) (f : Nat → Nat → Nat → Nat) : Prop :=
  (∀ z a b, z < 2 * F.signBit → a < 2 * F.signBit → b < 2 * F.signBit → f z a b = F.add z (F.mul a b)) ∨
  (∀ z a b, z < 2 * F.signBit → a < 2 * F.signBit → b < 2 * F.signBit → f z a b = F.fma z a b)

theorem Fmt.Same.swap {f : Nat → Nat → Nat → Nat} (hf : F.Same f) {z a b : Nat} (hz : z < 2 * F.signBit) (ha : a < 2 * F.signBit) (hb : b < 2 * F.signBit) :
    f z a b = f z b a := by
  rcases hf with hf | hf
  · rw [hf z a b hz ha hb, hf z b a hz hb ha, mul_comm]
  · rw [hf z a b hz ha hb, hf z b a hz hb ha, fma_swap]

theorem Fmt.Same.lt (h : F.OK) {f : Nat → Nat → Nat → Nat} (hf : F.Same f) {z a b : Nat} (hz : z < 2 * F.signBit) (ha : a < 2 * F.signBit)
    (hb : b < 2 * F.signBit) : f z a b < 2 * F.signBit := by
  rcases hf with hf | hf
  · rw [hf z a b hz ha hb]; exact add_lt h _ _
  · rw [hf z a b hz ha hb]; exact fma_lt h _ _ _

theorem Fmt.Same.part (h : F.OK) {f : Nat → Nat → Nat → Nat} (hf : F.Same f) {z a b : Nat} (hz : z < 2 * F.signBit) (ha : a < 2 * F.signBit)
    (hb : b < 2 * F.signBit) (hn : F.isNaN (f z a b) = false) : F.isNaN z = false := by
  rcases hf with hf | hf
  · rw [hf z a b hz ha hb] at hn; exact (add_parts h hz (mul_lt h _ _) hn).1
  · rw [hf z a b hz ha hb] at hn; exact fma_part h hz hn

theorem Fmt.Same.mono (h : F.OK) {f : Nat → Nat → Nat → Nat} (hf : F.Same f) {z z' a a' b : Nat} {y : Rat} (hz : z < 2 * F.signBit) (hz' : z' < 2 * F.signBit)
    (ha : a < 2 * F.signBit) (ha' : a' < 2 * F.signBit) (hb : b < 2 * F.signBit) (h0 : F.Le z z') (h1 : F.Le a a') (hy : F.rat b = some y) (hy0 : 0 ≤ y)
    (n1 : F.isNaN (f z a b) = false) (n2 : F.isNaN (f z' a' b) = false) : F.Le (f z a b) (f z' a' b) := by
  rcases hf with hf | hf
  · rw [hf z a b hz ha hb] at n1 ⊢
    rw [hf z' a' b hz' ha' hb] at n2 ⊢
    exact add_le_add h hz hz' (mul_lt h _ _) (mul_lt h _ _) h0
      (mul_le_mul h ha ha' hb h1 hy hy0 (add_parts h hz (mul_lt h _ _) n1).2 (add_parts h hz' (mul_lt h _ _) n2).2) n1 n2
  · rw [hf z a b hz ha hb] at n1 ⊢
    rw [hf z' a' b hz' ha' hb] at n2 ⊢
    exact fma_le_fma h hz hz' ha ha' hb h0 h1 hy hy0 n1 n2

/-- The bit patterns of two products of which one factor rises. -/
def Fmt.Term (F : Fmt) (p p' : Nat × Nat) : Prop :=
  p.1 < 2 * F.signBit ∧ p.2 < 2 * F.signBit ∧ p'.1 < 2 * F.signBit ∧ p'.2 < 2 * F.signBit ∧
  ((F.Le p.1 p'.1 ∧ p'.2 = p.2 ∧ ∃ y, F.rat p.2 = some y ∧ 0 ≤ y) ∨ (F.Le p.2 p'.2 ∧ p'.1 = p.1 ∧ ∃ y, F.rat p.1 = some y ∧ 0 ≤ y))

theorem macs_part (h : F.OK) {f : Nat → Nat → Nat → Nat} (hf : F.Same f) : ∀ (l : List (Nat × Nat)) {z : Nat}, z < 2 * F.signBit →
    (∀ p ∈ l, p.1 < 2 * F.signBit ∧ p.2 < 2 * F.signBit) → F.isNaN (macs f z l) = false → F.isNaN z = false
  | [], _, _, _, hn => hn
  | p :: l, z, hz, hl, hn => by
    obtain ⟨ha, hb⟩ := hl p (List.mem_cons_self ..)
    exact hf.part h hz ha hb (macs_part h hf l (hf.lt h hz ha hb) (fun p hp => hl p (List.mem_cons_of_mem _ hp)) hn)

/-- Sums of products keep the order. -/
theorem macs_le {ι : Type} (h : F.OK) {f : Nat → Nat → Nat → Nat} (hf : F.Same f) (u u' : ι → Nat × Nat) : ∀ (l : List ι) {z z' : Nat},
    z < 2 * F.signBit → z' < 2 * F.signBit → (∀ i ∈ l, F.Term (u i) (u' i)) → F.Le z z' → F.isNaN (macs f z (l.map u)) = false →
    F.isNaN (macs f z' (l.map u')) = false → F.Le (macs f z (l.map u)) (macs f z' (l.map u'))
  | [], _, _, _, _, _, h0, _, _ => h0
  | i :: l, z, z', hz, hz', hl, h0, n1, n2 => by
    obtain ⟨a, b, a', b', hr⟩ := hl i (List.mem_cons_self ..)
    have hl' := fun j hj => hl j (List.mem_cons_of_mem _ hj)
    have k1 := hf.lt h hz a b
    have k2 := hf.lt h hz' a' b'
    have p1 := macs_part h hf (l.map u) k1 (fun p hp => by obtain ⟨j, hj, rfl⟩ := List.mem_map.1 hp; exact ⟨(hl' j hj).1, (hl' j hj).2.1⟩) n1
    have p2 := macs_part h hf (l.map u') k2 (fun p hp => by obtain ⟨j, hj, rfl⟩ := List.mem_map.1 hp; exact ⟨(hl' j hj).2.2.1, (hl' j hj).2.2.2.1⟩) n2
    refine macs_le h hf u u' l k1 k2 hl' ?_ n1 n2
    show F.Le (f z (u i).1 (u i).2) (f z' (u' i).1 (u' i).2)
    rcases hr with ⟨h1, e, y, hy, hy0⟩ | ⟨h1, e, y, hy, hy0⟩
    · rw [e] at p2 ⊢; exact hf.mono h hz hz' a a' b h0 h1 hy hy0 p1 p2
    · rw [e, hf.swap hz' a b'] at p2 ⊢
      rw [hf.swap hz a b] at p1 ⊢
      exact hf.mono h hz hz' b b' a h0 h1 hy hy0 p1 p2

theorem same32 {fp : FloatOps} (hu : Uniform fp) : b32.Same (step32 fp) := by
  rcases hu.2.1 with e | e
  · refine .inl fun z a b hz ha hb => ?_
    unfold step32
    rw [e]
    show (BitVec.ofNat 32 (b32.add (BitVec.ofNat 32 z).toNat (BitVec.ofNat 32 (b32.mul (BitVec.ofNat 32 a).toNat (BitVec.ofNat 32 b).toNat)).toNat)).toNat = _
    rw [of32 (add_lt b32_ok _ _), of32 (mul_lt b32_ok _ _), of32 (n := z) hz, of32 (n := a) ha, of32 (n := b) hb]
  · refine .inr fun z a b hz ha hb => ?_
    unfold step32
    rw [e]
    show (BitVec.ofNat 32 (b32.fma (BitVec.ofNat 32 z).toNat (BitVec.ofNat 32 a).toNat (BitVec.ofNat 32 b).toNat)).toNat = _
    rw [of32 (fma_lt b32_ok _ _ _), of32 (n := z) hz, of32 (n := a) ha, of32 (n := b) hb]

theorem same64 {fp : FloatOps} (hu : Uniform fp) : b64.Same (step64 fp) := by
  rcases hu.2.2 with e | e
  · refine .inl fun z a b hz ha hb => ?_
    unfold step64
    rw [e]
    show (BitVec.ofNat 64 (b64.add (BitVec.ofNat 64 z).toNat (BitVec.ofNat 64 (b64.mul (BitVec.ofNat 64 a).toNat (BitVec.ofNat 64 b).toNat)).toNat)).toNat = _
    rw [of64 (add_lt b64_ok _ _), of64 (mul_lt b64_ok _ _), of64 (n := z) hz, of64 (n := a) ha, of64 (n := b) hb]
  · refine .inr fun z a b hz ha hb => ?_
    unfold step64
    rw [e]
    show (BitVec.ofNat 64 (b64.fma (BitVec.ofNat 64 z).toNat (BitVec.ofNat 64 a).toNat (BitVec.ofNat 64 b).toNat)).toNat = _
    rw [of64 (fma_lt b64_ok _ _ _), of64 (n := z) hz, of64 (n := a) ha, of64 (n := b) hb]

theorem term32 {p p' : Val × Val} (h : p.1.WT .f32 ∧ p.2.WT .f32) (h' : p'.1.WT .f32 ∧ p'.2.WT .f32) (hr : TermRises p p') :
    b32.Term (p.1.bits, p.2.bits) (p'.1.bits, p'.2.bits) := by
  obtain ⟨x, y⟩ := p
  obtain ⟨x', y'⟩ := p'
  obtain ⟨h1, h2⟩ := h
  obtain ⟨h1', h2'⟩ := h'
  cases x <;> try exact h1.elim
  cases y <;> try exact h2.elim
  cases x' <;> try exact h1'.elim
  cases y' <;> try exact h2'.elim
  refine ⟨bits32 _, bits32 _, bits32 _, bits32 _, ?_⟩
  rcases hr with ⟨ha, e, q, hq, h0⟩ | ⟨ha, e, q, hq, h0⟩
  · cases e; exact .inl ⟨atMost32.1 ha, rfl, q, hq, h0⟩
  · cases e; exact .inr ⟨atMost32.1 ha, rfl, q, hq, h0⟩

theorem term64 {p p' : Val × Val} (h : p.1.WT .f64 ∧ p.2.WT .f64) (h' : p'.1.WT .f64 ∧ p'.2.WT .f64) (hr : TermRises p p') :
    b64.Term (p.1.bits, p.2.bits) (p'.1.bits, p'.2.bits) := by
  obtain ⟨x, y⟩ := p
  obtain ⟨x', y'⟩ := p'
  obtain ⟨h1, h2⟩ := h
  obtain ⟨h1', h2'⟩ := h'
  cases x <;> try exact h1.elim
  cases y <;> try exact h2.elim
  cases x' <;> try exact h1'.elim
  cases y' <;> try exact h2'.elim
  refine ⟨bits64 _, bits64 _, bits64 _, bits64 _, ?_⟩
  rcases hr with ⟨ha, e, q, hq, h0⟩ | ⟨ha, e, q, hq, h0⟩
  · cases e; exact .inl ⟨atMost64.1 ha, rfl, q, hq, h0⟩
  · cases e; exact .inr ⟨atMost64.1 ha, rfl, q, hq, h0⟩

/-- Sums of products keep the order. -/
theorem dotTo_le {ι : Type} {fp : FloatOps} (hu : Uniform fp) (hc : c = .f32 ∨ c = .f64) {l : List ι} {u u' : ι → Val × Val} {w w' : Val}
    (hl : ∀ i ∈ l, ((u i).1.WT c ∧ (u i).2.WT c) ∧ ((u' i).1.WT c ∧ (u' i).2.WT c) ∧ TermRises (u i) (u' i))
    (hd : DotTo fp c (zeroVal c) (l.map u) w) (hd' : DotTo fp c (zeroVal c) (l.map u') w') (n1 : NotNaN w) (n2 : NotNaN w') : AtMost w w' := by
  have wt : ∀ p ∈ l.map u, p.1.WT c ∧ p.2.WT c := fun p hp => by obtain ⟨i, hi, rfl⟩ := List.mem_map.1 hp; exact (hl i hi).1
  have wt' : ∀ p ∈ l.map u', p.1.WT c ∧ p.2.WT c := fun p hp => by obtain ⟨i, hi, rfl⟩ := List.mem_map.1 hp; exact (hl i hi).2.1
  rcases hc with rfl | rfl
  · obtain ⟨rfl, hlt⟩ := dotTo32 wt hd
    obtain ⟨rfl, hlt'⟩ := dotTo32 wt' hd'
    simp only [List.map_map, Function.comp_def] at *
    change b32.isNaN (BitVec.ofNat 32 _).toNat = false at n1
    change b32.isNaN (BitVec.ofNat 32 _).toNat = false at n2
    rw [atMost32]
    rw [of32 (by rw [← two_sign b32_ok]; exact hlt)] at n1 ⊢
    rw [of32 (by rw [← two_sign b32_ok]; exact hlt')] at n2 ⊢
    refine macs_le b32_ok (same32 hu) _ _ l (bits32 _) (bits32 _) (fun i hi => ?_) (.refl (by decide +kernel)) n1 n2
    exact term32 (hl i hi).1 (hl i hi).2.1 (hl i hi).2.2
  · obtain ⟨rfl, hlt⟩ := dotTo64 wt hd
    obtain ⟨rfl, hlt'⟩ := dotTo64 wt' hd'
    simp only [List.map_map, Function.comp_def] at *
    change b64.isNaN (BitVec.ofNat 64 _).toNat = false at n1
    change b64.isNaN (BitVec.ofNat 64 _).toNat = false at n2
    rw [atMost64]
    rw [of64 (by rw [← two_sign b64_ok]; exact hlt)] at n1 ⊢
    rw [of64 (by rw [← two_sign b64_ok]; exact hlt')] at n2 ⊢
    refine macs_le b64_ok (same64 hu) _ _ l (bits64 _) (bits64 _) (fun i hi => ?_) (.refl (by decide +kernel)) n1 n2
    exact term64 (hl i hi).1 (hl i hi).2.1 (hl i hi).2.2

/-! ### Pooling -/

/-- Scans for the maximum keep the order. -/
theorem scansTo_le {ι : Type} {u u' : ι → Val} : ∀ (l : List ι) {t t' r r' : BitVec 64}, (∀ i ∈ l, (u i).WT c ∧ (u' i).WT c ∧ AtMost (u i) (u' i)) →
    AtMost (.f64 t) (.f64 t') → ScansTo ieee t (l.map u) r → ScansTo ieee t' (l.map u') r' → AtMost (.f64 r) (.f64 r')
  | [], _, _, _, _, _, h0, e, e' => by cases e; cases e'; exact h0
  | i :: l, t, t', r, r', hl, h0, ⟨d, hd, hs⟩, ⟨d', hd', hs'⟩ => by
    obtain ⟨w, w', hi⟩ := hl i (List.mem_cons_self ..)
    have h1 : AtMost (.f64 d) (.f64 d') := converts_le w w' (.inr rfl) hi hd hd'
    refine scansTo_le l (fun j hj => hl j (List.mem_cons_of_mem _ hj)) ?_ hs hs'
    have b0 := atMost64.1 h0
    have b1 := atMost64.1 h1
    have k : ∀ {x y : BitVec 64}, b64.isNaN x.toNat = false → b64.isNaN y.toNat = false → ieee.lt64 x y = true → b64.Le x.toNat y.toNat := fun {x y} hx hy hl => by
      change b64.lt x.toNat y.toNat = true at hl
      rw [lt_not_nan hx hy, decide_eq_true_eq] at hl
      exact ⟨hx, hy, by omega⟩
    rw [atMost64]
    split <;> split
    · exact b1
    · next e => exact b1.trans ((le_of_lt b1.2.1 b0.2.1).2 (by
        rw [Bool.not_eq_true] at e; exact e))
    · next e => exact b0.trans (k b0.2.1 b1.2.1 e)
    · exact b0

/-- Maxima keep the order. -/
theorem scanOf_le {ι : Type} {u u' : ι → Val} {l : List ι} {y y' : Val} (hl : ∀ i ∈ l, (u i).WT c ∧ (u' i).WT c ∧ AtMost (u i) (u' i))
    (h : ScanOf ieee c (l.map u) y) (h' : ScanOf ieee c (l.map u') y') : AtMost y y' := by
  obtain ⟨r, hs, hr⟩ := h
  obtain ⟨r', hs', hr'⟩ := h'
  have := scansTo_le l hl (AtMost.refl (by show b64.isNaN _ = false; simp [ieee, ofInt_zero]; decide +kernel)) hs hs'
  exact converts_le (c := .f64) (x := .f64 r) (x' := .f64 r') trivial trivial (.inl rfl) this hr hr'

theorem sumsTo_part : ∀ (es : List Val) {t r : BitVec 64}, SumsTo ieee t es r → b64.isNaN r.toNat = false → b64.isNaN t.toNat = false
  | [], _, _, e, hn => by cases e; exact hn
  | x :: es, t, r, ⟨d, _, hs⟩, hn => by
    have := sumsTo_part es hs hn
    change b64.isNaN (BitVec.ofNat 64 (b64.add t.toNat d.toNat)).toNat = false at this
    rw [of64 (add_lt b64_ok _ _)] at this
    exact (add_parts b64_ok (bits64 _) (bits64 _) this).1

/-- Sums keep the order. -/
theorem sumsTo_le {ι : Type} {u u' : ι → Val} : ∀ (l : List ι) {t t' r r' : BitVec 64}, (∀ i ∈ l, (u i).WT c ∧ (u' i).WT c ∧ AtMost (u i) (u' i)) →
    AtMost (.f64 t) (.f64 t') → SumsTo ieee t (l.map u) r → SumsTo ieee t' (l.map u') r' → NotNaN (.f64 r) → NotNaN (.f64 r') → AtMost (.f64 r) (.f64 r')
  | [], _, _, _, _, _, h0, e, e', _, _ => by cases e; cases e'; exact h0
  | i :: l, t, t', r, r', hl, h0, ⟨d, hd, hs⟩, ⟨d', hd', hs'⟩, n1, n2 => by
    obtain ⟨w, w', hi⟩ := hl i (List.mem_cons_self ..)
    have h1 : AtMost (.f64 d) (.f64 d') := converts_le w w' (.inr rfl) hi hd hd'
    refine sumsTo_le l (fun j hj => hl j (List.mem_cons_of_mem _ hj)) ?_ hs hs' n1 n2
    exact op_le (c := .f64) (op := .add) (x := .f64 t) (y := .f64 d) (x' := .f64 t') (y' := .f64 d') trivial trivial trivial trivial (.inr rfl) ⟨h0, h1⟩ rfl rfl
      (sumsTo_part _ hs n1) (sumsTo_part _ hs' n2)

/-- Averages keep the order. -/
theorem avgOf_le {ι : Type} {u u' : ι → Val} {l : List ι} {y y' : Val} {K : Nat} (hc : c = .f32 ∨ c = .f64) (hK : 0 < K) (hK' : K < 2 ^ 53)
    (hl : ∀ i ∈ l, (u i).WT c ∧ (u' i).WT c ∧ AtMost (u i) (u' i)) (h : AvgOf ieee c K (l.map u) y) (h' : AvgOf ieee c K (l.map u') y') (n1 : NotNaN y)
    (n2 : NotNaN y') : AtMost y y' := by
  obtain ⟨t, hs, hr⟩ := h
  obtain ⟨t', hs', hr'⟩ := h'
  have part : ∀ {t : BitVec 64} {y : Val}, Converts ieee c (.f64 (ieee.div64 t (ieee.ofInt64 K))) y → NotNaN y → NotNaN (.f64 t) := fun {t y} hr hn => by
    have hd : b64.isNaN (ieee.div64 t (ieee.ofInt64 K)).toNat = false := by
      rcases hc with rfl | rfl
      · simp only [Converts] at hr
        subst hr
        change b32.isNaN (BitVec.ofNat 32 (b64.convert b32 _)).toNat = false at hn
        rw [of32 (convert_lt b32_ok _)] at hn
        exact convert_parts b64_ok b32_ok (bits64 _) hn
      · simp only [Converts] at hr
        subst hr
        exact hn
    change b64.isNaN (BitVec.ofNat 64 (b64.div t.toNat _)).toNat = false at hd
    rw [of64 (div_lt b64_ok _ _)] at hd
    exact div_parts b64_ok (bits64 _) hd
  have m1 := part hr n1
  have m2 := part hr' n2
  have h1 := sumsTo_le l hl (AtMost.refl (by show b64.isNaN _ = false; simp [ieee, ofInt_zero]; decide +kernel)) hs hs' m1 m2
  refine converts_le (c := .f64) (x := .f64 _) (x' := .f64 _) trivial trivial (.inl rfl) ?_ hr hr'
  rw [atMost64]
  show b64.Le (BitVec.ofNat 64 (b64.div t.toNat _)).toNat (BitVec.ofNat 64 (b64.div t'.toNat _)).toNat
  rw [of64 (div_lt b64_ok _ _), of64 (div_lt b64_ok _ _)]
  have hKi : b64.rat (ieee.ofInt64 K).toNat = some ((K : Int) : Rat) := isInt_rat b64_ok (by
    show b64.IsInt (BitVec.ofNat 64 (b64.ofInt K)).toNat _
    rw [of64 (ofInt_lt b64_ok _)]
    exact ofInt_int b64_ok (by rw [Int.natAbs_natCast]; exact hK'))
  refine div_le_div b64_ok (bits64 _) (bits64 _) (bits64 _) (atMost64.1 h1) hKi ?_
  have : (0 : Int) < K := by omega
  exact_mod_cast this

/-! ### Roots -/

/-- Roots keep the order. -/
theorem rootOf_le {x x' y y' : Val} (hx : x.WT c) (hx' : x'.WT c) (h : AtMost x x') (h0 : ¬ Negative ieee x) (hy : RootOf ieee c x y)
    (hy' : RootOf ieee c x' y') : AtMost y y' := by
  obtain ⟨d, hd, hr⟩ := hy
  obtain ⟨d', hd', hr'⟩ := hy'
  have h1 : AtMost (.f64 d) (.f64 d') := converts_le hx hx' (.inr rfl) h hd hd'
  have z64 : (ieee.ofInt64 0).toNat = 0 := by simp [ieee, ofInt_zero]
  have z32 : (ieee.ofInt32 0).toNat = 0 := by simp [ieee, ofInt_zero]
  have h2 : AtMost (.f64 (ieee.ofInt64 0)) (.f64 d) := by
    have hn := h.left
    cases x with
    | int n =>
      simp only [Converts, Val.f64.injEq] at hd
      subst hd
      rw [atMost64]
      show b64.Le (BitVec.ofNat 64 (b64.ofInt _)).toNat (BitVec.ofNat 64 (b64.ofInt _)).toNat
      rw [of64 (ofInt_lt b64_ok _), of64 (ofInt_lt b64_ok _)]
      refine ofInt_le_ofInt b64_ok ?_
      simp only [Negative] at h0
      omega
    | f32 b =>
      have : AtMost (.f32 (ieee.ofInt32 0)) (.f32 b) := by
        refine ⟨by show b32.isNaN _ = false; rw [z32]; decide +kernel, hn, ?_⟩
        simpa [Negative] using h0
      refine converts_le (c := .f32) (c' := .f64) (x := .f32 _) (x' := .f32 b) trivial trivial (.inr rfl) this ?_ hd
      show Val.f64 _ = .f64 _
      exact congrArg Val.f64 (by decide +kernel)
    | f64 b =>
      cases hd
      refine ⟨by show b64.isNaN _ = false; rw [z64]; decide +kernel, hn, ?_⟩
      simpa [Negative] using h0
  refine converts_le (c := .f64) (x := .f64 _) (x' := .f64 _) trivial trivial (.inl rfl) ?_ hr hr'
  rw [atMost64]
  show b64.Le (BitVec.ofNat 64 (b64.sqrt d.toNat)).toNat (BitVec.ofNat 64 (b64.sqrt d'.toNat)).toNat
  rw [of64 (sqrt_lt b64_ok (bits64 d)), of64 (sqrt_lt b64_ok (bits64 d'))]
  refine sqrt_le_sqrt b64_ok (bits64 _) (bits64 _) (atMost64.1 h1) ?_
  have := atMost64.1 h2
  rwa [z64] at this

end Aitisa
