import Verif.Spec.Border
import Verif.Proof.PoolLaws
import Verif.Proof.IeeeSelect
import Verif.Proof.IeeeFma
import Verif.Proof.Neutral
import Verif.Proof.OrderVal

/-! # Padding and borders of zeros -/

namespace Aitisa

variable {F : Fmt} {c : Code}

/-! ### Sums -/

theorem round_form (h : F.OK) {s : Bool} {m : Nat} {e : Int} (he : F.emin ≤ e) (hm : m ≠ 0) :
    ∃ k, 0 < k ∧ k ≤ F.infBits ∧ F.round s m e = F.signed s k := by
  have hi := inf_pos h
  unfold Fmt.round
  rw [if_neg hm]
  dsimp only
  generalize max (e + (Nat.log2 m + 1 : Nat) - F.p) F.emin = e'
  have hpos : 0 < (e' - F.emin).toNat * 2 ^ (F.p - 1) + (if e' ≤ e then m * 2 ^ (e - e').toNat else roundShift m (e' - e).toNat) := by
    by_cases hle : e' ≤ e
    · rw [if_pos hle]
      have := Nat.mul_pos (Nat.pos_of_ne_zero hm) (Nat.two_pow_pos (e - e').toNat)
      omega
    · have : 0 < (e' - F.emin).toNat * 2 ^ (F.p - 1) := Nat.mul_pos (by omega) (Nat.two_pow_pos _)
      omega
  exact ⟨_, by omega, Nat.min_le_right _ _, rfl⟩

/-- Sums that are NaN are the one NaN that operations give. -/
theorem sum_canon (h : F.OK) (x y : Datum) (hn : F.isNaN (F.sum x y) = true) : F.sum x y = F.nanBits := by
  have hi : ∀ s, F.isNaN (F.signed s F.infBits) = false := fun s => signed_not_nan h s (Nat.le_refl _)
  unfold Fmt.sum at hn ⊢
  split at hn
  · rfl
  · rfl
  · split at hn
    · rw [hi] at hn; cases hn
    · next e => rw [if_neg e]
  · rw [hi] at hn; cases hn
  · rw [hi] at hn; cases hn
  · exfalso
    dsimp only at hn
    split at hn
    · rw [signed_not_nan h _ (Nat.zero_le _)] at hn; cases hn
    · rw [round_not_nan h] at hn; cases hn

/-- The bits of a zero. -/
def Fmt.Nil (F : Fmt) (b : Nat) : Prop := ∃ s, b = F.signed s 0

/-- The same bits, or two zeros. -/
def Fmt.Twin (F : Fmt) (a b : Nat) : Prop := a = b ∨ (F.Nil a ∧ F.Nil b)

/-- NaN only as operations give it. -/
def Fmt.Canon (F : Fmt) (a : Nat) : Prop := a < 2 * F.signBit ∧ (F.isNaN a = true → a = F.nanBits)

theorem Fmt.Twin.symm {a b : Nat} (h : F.Twin a b) : F.Twin b a := h.imp Eq.symm And.symm

theorem Fmt.Twin.trans {a b c : Nat} (h : F.Twin a b) (h' : F.Twin b c) : F.Twin a c := by
  rcases h with rfl | ⟨h1, h2⟩
  · exact h'
  · rcases h' with rfl | ⟨h3, h4⟩
    · exact .inr ⟨h1, h2⟩
    · exact .inr ⟨h1, h4⟩

theorem add_canon (h : F.OK) (a b : Nat) : F.Canon (F.add a b) := ⟨add_lt h a b, sum_canon h _ _⟩

theorem fma_canon (h : F.OK) (z a b : Nat) : F.Canon (F.fma z a b) := ⟨fma_lt h z a b, sum_canon h _ _⟩

theorem nil_canon (h : F.OK) {a : Nat} (ha : F.Nil a) : F.Canon a := by
  obtain ⟨s, rfl⟩ := ha
  have := inf_lt_sign h
  refine ⟨signed_lt (by omega), fun hn => ?_⟩
  rw [signed_not_nan h s (Nat.zero_le _)] at hn
  cases hn

theorem sgn_nil (s : Bool) : sgn s 0 = 0 := sgn_zero.2 rfl

theorem nil_finite (h : F.OK) {a : Nat} (ha : F.Nil a) : ∃ s e, F.decode a = .fin s 0 e := by
  obtain ⟨s, rfl⟩ := ha
  have hi := inf_pos h
  obtain ⟨m, i, hd, hm⟩ := decode_mag (s := s) h hi
  rw [mag_zero] at hm
  have : m = 0 := by
    rcases Nat.mul_eq_zero.1 hm with h | h
    · exact h
    · have := Nat.two_pow_pos i; omega
  subst this
  exact ⟨_, _, hd⟩

theorem mul_canon (h : F.OK) (a b : Nat) : F.Canon (F.mul a b) := by
  refine ⟨mul_lt h a b, fun hn => ?_⟩
  have hi : ∀ s, F.isNaN (F.signed s F.infBits) = false := fun s => signed_not_nan h s (Nat.le_refl _)
  unfold Fmt.mul at hn ⊢
  cases ha : F.decode a <;> cases hb : F.decode b <;> simp only [ha, hb] at hn ⊢ <;> first
    | (rw [hi] at hn; cases hn; done)
    | (rw [round_not_nan h] at hn; cases hn; done)
    | (split at hn
       · next e => rw [if_pos e]
       · rw [hi] at hn; cases hn)

/-- Adding a zero to a number that is not a negative zero. -/
theorem canon_add_nil (h : F.OK) {a y : Nat} (ha : F.Canon a) (hy : F.Nil y) : F.Twin (F.add a y) a := by
  obtain ⟨t, rfl⟩ := hy
  have hi := inf_pos h
  cases hn : F.isNaN a
  · obtain ⟨s, n, hn', rfl⟩ := not_nan_signed ha.1 hn
    by_cases h0 : n = 0
    · subst h0
      rw [add_mag h hi hi]
      simp only [mag_zero, sgn_nil]
      exact .inr ⟨⟨_, rfl⟩, ⟨_, rfl⟩⟩
    · exact .inl (add_signed_zero h hn' fun e => absurd e h0)
  · left
    rw [add_eq_sum, decode_isNaN h ha.1 hn, sum_nan_left, ← ha.2 hn]

theorem nil_fma (h : F.OK) {z a b : Nat} (hz : F.Nil z) (ha : a < 2 * F.signBit) (hb : b < 2 * F.signBit) : F.Twin (F.fma z a b) (F.mul a b) := by
  by_cases hf : F.units a ≠ none ∧ F.units b ≠ none
  · obtain ⟨s, rfl⟩ := hz
    obtain ⟨t, m, hm, rfl⟩ := finite_signed h ha hf.1
    obtain ⟨u, n, hn, rfl⟩ := finite_signed h hb hf.2
    rw [fma_mag h (inf_pos h) hm hn, mul_mag h hm hn]
    simp only [mag_zero, Nat.zero_mul, sgn_nil, Int.zero_add]
    by_cases h0 : F.mag m * F.mag n = 0
    · rw [h0, if_pos (sgn_nil _), rq_zero h (Nat.two_pow_pos _)]
      exact .inr ⟨⟨_, rfl⟩, ⟨_, rfl⟩⟩
    · rw [if_neg (fun e => h0 (sgn_zero.1 e)), natAbs_sgn]
      left
      congr 1
      cases (t != u) <;> simp [sgn] <;> omega
  · obtain ⟨s, e, hd⟩ := nil_finite h hz
    left
    unfold Fmt.fma Fmt.mul
    rw [hd]
    unfold Fmt.units at hf
    cases h1 : F.decode a <;> cases h2 : F.decode b <;> simp only [h1, h2, Datum.times, Fmt.sum] at hf ⊢
    all_goals first
      | done
      | (simp at hf; done)
      | (next n _ => by_cases e0 : n = 0 <;> simp only [e0, if_true, if_false] <;> rfl)
      | (by_cases e0 : (by assumption : Nat) = 0 <;> simp [e0]; done)

/-- A step of a sum of products from a zero. -/
theorem nil_step (h : F.OK) {f : Nat → Nat → Nat → Nat} (hf : F.Steps f) {z a b : Nat} (hz : F.Nil z) (ha : a < 2 * F.signBit) (hb : b < 2 * F.signBit) :
    F.Twin (f z a b) (F.mul a b) := by
  rcases hf z a b (nil_canon h hz).1 ha hb with e | e
  · rw [e, add_comm]
    exact canon_add_nil h (mul_canon h a b) hz
  · rw [e]
    exact nil_fma h hz ha hb

theorem step_canon (h : F.OK) {f : Nat → Nat → Nat → Nat} (hf : F.Steps f) {z a b : Nat} (hz : z < 2 * F.signBit) (ha : a < 2 * F.signBit) (hb : b < 2 * F.signBit) :
    F.Canon (f z a b) := by
  rcases hf z a b hz ha hb with e | e <;> rw [e]
  · exact add_canon h _ _
  · exact fma_canon h _ _ _

theorem step_twin (h : F.OK) {f : Nat → Nat → Nat → Nat} (hf : F.Steps f) {z z' a b : Nat} (hz : F.Twin z z') (ha : a < 2 * F.signBit) (hb : b < 2 * F.signBit) :
    F.Twin (f z a b) (f z' a b) := by
  rcases hz with rfl | ⟨hz, hz'⟩
  · exact .inl rfl
  · exact (nil_step h hf hz ha hb).trans (nil_step h hf hz' ha hb).symm

/-- Terms that are a zero times a number change nothing. -/
theorem step_extra (h : F.OK) {f : Nat → Nat → Nat → Nat} (hf : F.Steps f) {z a b : Nat} (hz : F.Canon z) (ha : F.Nil a) (hb : b < 2 * F.signBit)
    (hu : F.units b ≠ none) : F.Twin (f z a b) z := by
  have hm : F.Nil (F.mul a b) := by
    obtain ⟨s, rfl⟩ := ha
    obtain ⟨t, n, hn, rfl⟩ := finite_signed h hb hu
    rw [mul_mag h (inf_pos h) hn, mag_zero, Nat.zero_mul, rq_zero h (Nat.two_pow_pos _)]
    exact ⟨_, rfl⟩
  have ha' := (nil_canon h ha).1
  have hfma : F.fma z a b = F.add z (F.mul a b) := by
    have hI : F.IsInt a 0 := by
      obtain ⟨s, rfl⟩ := ha
      have := inf_lt_sign h
      show F.units _ = some _
      rw [units_signed h (by omega), if_pos (inf_pos h), mag_zero, sgn_nil, Int.zero_mul]
    rw [fma_swap, mul_comm]
    obtain ⟨x, y, hx, hy, hp⟩ := exactMul_unit h hb hu ha' (.inl hI)
    exact fma_exact h hz.1 hb ha' hx hy hp
  have : f z a b = F.add z (F.mul a b) := by
    rcases hf z a b hz.1 ha' hb with e | e
    · exact e
    · rw [e, hfma]
  rw [this]
  exact canon_add_nil h hz hm

/-- No negative zero, and NaN only as operations give it. -/
def Fmt.Settled (F : Fmt) (a : Nat) : Prop := F.Canon a ∧ a ≠ F.signBit

theorem settled_zero (h : F.OK) : F.Settled 0 := by
  have := inf_lt_sign h
  exact ⟨nil_canon h ⟨false, by simp [Fmt.signed]⟩, by omega⟩

theorem settled_add (h : F.OK) {a y : Nat} (ha : F.Settled a) (hy : y < 2 * F.signBit) : F.Settled (F.add a y) := by
  refine ⟨add_canon h a y, fun he => ?_⟩
  have hi := inf_pos h
  have hs := inf_lt_sign h
  have e0 : F.signBit = F.signed true 0 := by simp [Fmt.signed]
  obtain ⟨na, ny⟩ := add_parts h ha.1.1 hy (by rw [he, e0]; exact signed_not_nan h _ (Nat.zero_le _))
  obtain ⟨s, n, hn, rfl⟩ := not_nan_signed ha.1.1 na
  obtain ⟨t, k, hk, rfl⟩ := not_nan_signed hy ny
  have hN : F.nanBits ≠ F.signBit := fun e => by
    have := nan_is_nan h
    rw [e, e0, signed_not_nan h _ (Nat.zero_le _)] at this
    cases this
  have hI : ∀ u : Bool, F.signed u F.infBits ≠ F.signBit := fun u e => by
    cases u <;> simp [Fmt.signed] at e <;> omega
  rcases Nat.lt_or_ge n F.infBits with hn' | hn'
  · rcases Nat.lt_or_ge k F.infBits with hk' | hk'
    · rw [add_mag h hn' hk'] at he
      split at he
      · next hv =>
        have : s = true ∧ t = true := by
          cases s <;> cases t <;> simp [Fmt.signed] at he <;> first | exact ⟨rfl, rfl⟩ | omega
        obtain ⟨rfl, rfl⟩ := this
        have : F.mag n = 0 := by simp [sgn] at hv; omega
        have := (mag_pos F (n := n)).2
        exact ha.2 (by simp [Fmt.signed]; omega)
      · next hv =>
        obtain ⟨j, hj, hj', e⟩ := round_form (s := decide (sgn s (F.mag n) + sgn t (F.mag k) < 0)) (m := (sgn s (F.mag n) + sgn t (F.mag k)).natAbs)
          (e := F.emin + (0 : Nat)) h (by omega) (by omega)
        rw [round_high h, Nat.pow_zero, Nat.mul_one] at e
        rw [e] at he
        generalize decide (sgn s (F.mag n) + sgn t (F.mag k) < 0) = u at he
        cases u <;> simp [Fmt.signed] at he <;> omega
    · cases (Nat.le_antisymm hk hk' : k = F.infBits)
      obtain ⟨m, i, hd, -⟩ := decode_mag (s := s) h hn'
      rw [Fmt.add, hd, decode_inf h] at he
      exact hI _ he
  · cases (Nat.le_antisymm hn hn' : n = F.infBits)
    rw [Fmt.add, decode_inf h] at he
    cases hd : F.decode (F.signed t k) <;> simp only [hd] at he
    · exact hN he
    · split at he
      · exact hI _ he
      · exact hN he
    · exact hI _ he

theorem settled_add_nil (h : F.OK) {a y : Nat} (ha : F.Settled a) (hy : F.Nil y) : F.add a y = a := by
  rcases canon_add_nil h ha.1 hy with e | ⟨⟨s, e⟩, ⟨t, e'⟩⟩
  · exact e
  · have h2 := (settled_add h ha (nil_canon h hy).1).2
    have h1 := ha.2
    cases s <;> cases t <;> simp [Fmt.signed] at e e' <;> omega

/-! ### Lists with further elements -/

/-- The second list has the elements of the first, in their order, and further elements for which `Z` holds. -/
inductive Pads {α : Type} (Z : α → Prop) : List α → List α → Prop
  | nil : Pads Z [] []
  | keep (x : α) {l l' : List α} : Pads Z l l' → Pads Z (x :: l) (x :: l')
  | extra {z : α} (hz : Z z) {l l' : List α} : Pads Z l l' → Pads Z l (z :: l')

theorem Pads.append {α : Type} {Z : α → Prop} {l l' k k' : List α} (h : Pads Z l l') (h' : Pads Z k k') : Pads Z (l ++ k) (l' ++ k') := by
  induction h with
  | nil => exact h'
  | keep x _ ih => exact .keep x ih
  | extra hz _ ih => exact .extra hz ih

theorem Pads.flatMap {α ι : Type} {Z : α → Prop} {f g : ι → List α} : ∀ {l : List ι}, (∀ i ∈ l, Pads Z (f i) (g i)) → Pads Z (l.flatMap f) (l.flatMap g)
  | [], _ => .nil
  | i :: l, h => by
    simp only [List.flatMap_cons]
    exact (h i (List.mem_cons_self ..)).append (flatMap fun j hj => h j (List.mem_cons_of_mem _ hj))

theorem Pads.filterMap {α ι : Type} {Z : α → Prop} {f g : ι → Option α} : ∀ {l : List ι}, (∀ i ∈ l, ∃ y, g i = some y ∧ (f i = some y ∨ f i = none ∧ Z y)) →
    Pads Z (l.filterMap f) (l.filterMap g)
  | [], _ => .nil
  | i :: l, h => by
    obtain ⟨y, hg, hf⟩ := h i (List.mem_cons_self ..)
    have ih := filterMap (f := f) (g := g) (l := l) fun j hj => h j (List.mem_cons_of_mem _ hj)
    rw [List.filterMap_cons_some hg]
    rcases hf with hf | ⟨hf, hz⟩
    · rw [List.filterMap_cons_some hf]; exact .keep y ih
    · rw [List.filterMap_cons_none hf]; exact .extra hz ih

theorem Pads.mem {α : Type} {Z : α → Prop} {l l' : List α} (h : Pads Z l l') {x : α} (hx : x ∈ l') : x ∈ l ∨ Z x := by
  induction h with
  | nil => exact .inl hx
  | keep y _ ih =>
    rcases List.mem_cons.1 hx with rfl | hx
    · exact .inl (List.mem_cons_self ..)
    · exact (ih hx).imp (List.mem_cons_of_mem _) id
  | extra hz _ ih =>
    rcases List.mem_cons.1 hx with rfl | hx
    · exact .inr hz
    · exact ih hx

theorem Pads.old {α : Type} {Z : α → Prop} {l l' : List α} (h : Pads Z l l') {x : α} (hx : x ∈ l) : x ∈ l' := by
  induction h with
  | nil => exact hx
  | keep y _ ih =>
    rcases List.mem_cons.1 hx with rfl | hx
    · exact List.mem_cons_self ..
    · exact List.mem_cons_of_mem _ (ih hx)
  | extra hz _ ih => exact List.mem_cons_of_mem _ (ih hx)

/-! ### Windows -/

theorem bordered_at : ∀ {ws : List Win} {os qs : List Nat}, (∀ w ∈ ws, w.Fits) → InRange (ws.map Win.out) os → InRange (ws.map Win.k) qs →
    ∃ ps, winAt (ws.map Win.bordered) os qs = some ps ∧ InRange ((ws.map Win.bordered).map Win.x) ps ∧ winAt ws os qs = inside ws ps
  | [], [], [], _, _, _ => ⟨[], rfl, trivial, rfl⟩
  | [], _ :: _, _, _, ho, _ => ho.elim
  | [], [], _ :: _, _, _, hq => hq.elim
  | w :: ws, [], _, _, ho, _ => ho.elim
  | w :: ws, o :: os, [], _, _, hq => hq.elim
  | w :: ws, o :: os, q :: qs, hf, ⟨ho, hos⟩, ⟨hq, hqs⟩ => by
    obtain ⟨ps, e, hp, ei⟩ := bordered_at (fun v hv => hf v (List.mem_cons_of_mem _ hv)) hos hqs
    have f := hf w (List.mem_cons_self ..)
    have h1 := Win.start_le f ho
    have hq' : q ≤ w.k - 1 := by have : q < w.k := hq; omega
    have h2 := Nat.mul_le_mul_left w.d hq'
    rw [Nat.mul_comm w.d q] at h2
    have hlt : o * w.s + q * w.d < w.x + 2 * w.p := by omega
    refine ⟨(o * w.s + q * w.d) :: ps, ?_, ⟨hlt, hp⟩, ?_⟩
    · simp only [List.map_cons]
      exact winAt_cons.2 ⟨⟨Nat.zero_le _, by show o * w.s + q * w.d < 0 + (w.x + 2 * w.p); omega⟩, ps, e, rfl⟩
    · simp only [winAt, inside, ei]

/-- What a window of the tensor with the border holds. -/
theorem win_pads {B C b ch : Nat} {ws : List Win} {xs xs' : List Val} {os : List Nat} (hf : ∀ w ∈ ws, w.Fits) (hB : Bordered c B C ws xs xs') (hb : b < B) (hc : ch < C)
    (ho : InRange (ws.map Win.out) os) :
    Pads (· = c.zero) (winElems (B :: C :: ws.map Win.x) xs ws b ch os)
      (winElems (B :: C :: (ws.map Win.bordered).map Win.x) xs' (ws.map Win.bordered) b ch os) := by
  have ek : (ws.map Win.bordered).map Win.k = ws.map Win.k := by simp [Function.comp_def, Win.bordered]
  unfold winElems
  rw [ek]
  refine Pads.filterMap fun j hj => ?_
  obtain ⟨ps, e, hp, ei⟩ := bordered_at hf ho (unlin_inRange (List.mem_range.1 hj))
  have hv := hB b ch ps ⟨hb, hc, hp⟩
  refine ⟨_, by rw [e]; rfl, ?_⟩
  dsimp only
  rw [ei, hv]
  cases inside ws ps
  · exact .inr ⟨rfl, rfl⟩
  · exact .inl rfl

theorem conv_pads {B C O b oc : Nat} {ws : List Win} {xs xs' ys : List Val} {os : List Nat} (hf : ∀ w ∈ ws, w.Fits) (hB : Bordered .f32 B C ws xs xs') (hb : b < B)
    (hl : ys.length = prod (O :: C :: ws.map Win.k)) (hoc : oc < O) (ho : InRange (ws.map Win.out) os) :
    Pads (fun p => p.1 = .f32 0 ∧ p.2 ∈ ys) (convTerms (B :: C :: ws.map Win.x) (O :: C :: ws.map Win.k) xs ys ws C b oc os)
      (convTerms (B :: C :: (ws.map Win.bordered).map Win.x) (O :: C :: ws.map Win.k) xs' ys (ws.map Win.bordered) C b oc os) := by
  have ek : (ws.map Win.bordered).map Win.k = ws.map Win.k := by simp [Function.comp_def, Win.bordered]
  unfold convTerms
  rw [ek]
  refine Pads.flatMap fun ic hic => Pads.filterMap fun j hj => ?_
  have hq := unlin_inRange (List.mem_range.1 hj)
  obtain ⟨ps, e, hp, ei⟩ := bordered_at hf ho hq
  have hv := hB b ic ps ⟨hb, List.mem_range.1 hic, hp⟩
  refine ⟨_, by rw [e]; rfl, ?_⟩
  dsimp only
  rw [ei, hv]
  cases inside ws ps
  · exact .inr ⟨rfl, rfl, grid_mem hl ⟨hoc, List.mem_range.1 hic, hq⟩⟩
  · exact .inl rfl

/-! ### Results -/

theorem zero_double (c : Code) {d : BitVec 64} (h : Converts ieee .f64 c.zero (.f64 d)) : d.toNat = 0 := by
  rw [converts_f64] at h
  cases c <;> simp only [Code.zero] at h <;> subst h <;> decide +kernel

theorem sums_pads {es es' : List Val} (hp : Pads (· = c.zero) es es') : ∀ {t r : BitVec 64}, b64.Settled t.toNat → SumsTo ieee t es r → SumsTo ieee t es' r := by
  induction hp with
  | nil => exact fun _ h => h
  | keep x _ ih =>
    rintro t r ht ⟨d, hd, hs⟩
    exact ⟨d, hd, ih (by rw [add_toNat]; exact settled_add b64_ok ht (bits64 d)) hs⟩
  | extra hz _ ih =>
    intro t r ht hs
    subst hz
    refine ⟨toDouble ieee c.zero, by rw [converts_f64], ?_⟩
    have h0 := zero_double c (d := toDouble ieee c.zero) (by rw [converts_f64])
    have e : ieee.add64 t (toDouble ieee c.zero) = t := BitVec.eq_of_toNat_eq (by
      rw [add_toNat, settled_add_nil b64_ok ht ⟨false, by rw [h0]; simp [Fmt.signed]⟩])
    rw [e]
    exact ih ht hs

theorem avg_pads {es es' : List Val} (hp : Pads (· = c.zero) es es') {n : Nat} {y : Val} (h : AvgOf ieee c n es y) : AvgOf ieee c n es' y := by
  obtain ⟨t, hs, hy⟩ := h
  exact ⟨t, sums_pads hp (by rw [start_bits]; exact settled_zero b64_ok) hs, hy⟩

theorem scan_pads {es es' : List Val} (hp : Pads (· = c.zero) es es') {y : Val} (h : ScanOf ieee c es y) : ScanOf ieee c es' y := by
  obtain ⟨r, hr, hy⟩ := h
  obtain ⟨r', hr'⟩ := scan_exists ieee (ieee.ofInt64 0) es'
  have h0 : rank c.zero = 0 := by
    have := zero_double c (d := toDouble ieee c.zero) (by rw [converts_f64])
    unfold rank
    split <;> omega
  have : r' = r := scan_same hr' hr fun N => ⟨fun h e he => h e (hp.old he), fun h e he => by
    rcases hp.mem he with he | rfl
    · exact h e he
    · rw [h0]; omega⟩
  subst this
  exact ⟨_, hr', hy⟩

theorem Pads.map {α β : Type} {Z : α → Prop} {Z' : β → Prop} (f : α → β) (hf : ∀ a, Z a → Z' (f a)) {l l' : List α} (h : Pads Z l l') :
    Pads Z' (l.map f) (l'.map f) := by
  induction h with
  | nil => exact .nil
  | keep x _ ih => exact .keep (f x) ih
  | extra hz _ ih => exact .extra (hf _ hz) ih

/-- A term that is a zero times a number. -/
def Fmt.Idle (F : Fmt) (p : Nat × Nat) : Prop := F.Nil p.1 ∧ p.2 < 2 * F.signBit ∧ F.units p.2 ≠ none

theorem macs_twin (h : F.OK) {f : Nat → Nat → Nat → Nat} (hf : F.Steps f) {l l' : List (Nat × Nat)} (hp : Pads F.Idle l l') :
    ∀ {z z' : Nat}, F.Canon z' → F.Twin z z' → (∀ p ∈ l, p.1 < 2 * F.signBit ∧ p.2 < 2 * F.signBit) → F.Twin (macs f z l) (macs f z' l') := by
  induction hp with
  | nil => exact fun _ ht _ => ht
  | keep x _ ih =>
    intro z z' hc ht hl
    obtain ⟨ha, hb⟩ := hl x (List.mem_cons_self ..)
    exact ih (step_canon h hf hc.1 ha hb) (step_twin h hf ht ha hb) fun p hp => hl p (List.mem_cons_of_mem _ hp)
  | @extra x hz l l' _ ih =>
    intro z z' hc ht hl
    obtain ⟨ha, hb, hu⟩ := hz
    exact ih (z' := f z' x.1 x.2) (step_canon h hf hc.1 (nil_canon h ha).1 hb) (ht.trans (step_extra h hf hc ha hb hu).symm) hl

theorem macs_twice (h : F.OK) {f : Nat → Nat → Nat → Nat}
    (hf : ∀ z a b, z < 2 * F.signBit → a < 2 * F.signBit → b < 2 * F.signBit → f z a b = F.add z (F.mul a b)) {l l' : List (Nat × Nat)} (hp : Pads F.Idle l l') :
    ∀ {z : Nat}, F.Settled z → (∀ p ∈ l, p.1 < 2 * F.signBit ∧ p.2 < 2 * F.signBit) → macs f z l' = macs f z l := by
  induction hp with
  | nil => exact fun _ _ => rfl
  | keep x _ ih =>
    intro z hs hl
    obtain ⟨ha, hb⟩ := hl x (List.mem_cons_self ..)
    refine ih (z := f z x.1 x.2) ?_ fun p hp => hl p (List.mem_cons_of_mem _ hp)
    rw [hf z _ _ hs.1.1 ha hb]
    exact settled_add h hs (mul_lt h _ _)
  | @extra x hz l l' _ ih =>
    intro z hs hl
    obtain ⟨⟨s, ha⟩, hb, hu⟩ := hz
    have e : f z x.1 x.2 = z := by
      rw [hf z _ _ hs.1.1 (nil_canon h ⟨s, ha⟩).1 hb]
      refine settled_add_nil h hs ?_
      obtain ⟨t, n, hn, e⟩ := finite_signed h hb hu
      rw [ha, e, mul_mag h (inf_pos h) hn, mag_zero, Nat.zero_mul, rq_zero h (Nat.two_pow_pos _)]
      exact ⟨_, rfl⟩
    show macs f (f z x.1 x.2) l' = macs f z l
    rw [e]
    exact ih hs hl

theorem twin_same {a b : Nat} (ha : a < 2 ^ 32) (hb : b < 2 ^ 32) (h : b32.Twin a b) : SameNumber (.f32 (BitVec.ofNat 32 a)) (.f32 (BitVec.ofNat 32 b)) := by
  rcases h with rfl | ⟨⟨s, e⟩, ⟨t, e'⟩⟩
  · exact .inl rfl
  · right
    have : ∀ u : Bool, Stands (.f32 (BitVec.ofNat 32 (b32.signed u 0))) 0 := fun u => by cases u <;> decide +kernel
    rw [e, e']
    exact ⟨this s, this t⟩

theorem idle_bits {p : Val × Val} {ys : List Val} (wt : ∀ y ∈ ys, y.WT .f32) (hf : ∀ y ∈ ys, Finite y) (h : p.1 = .f32 0 ∧ p.2 ∈ ys) :
    b32.Idle (p.1.bits, p.2.bits) := by
  obtain ⟨x, y⟩ := p
  obtain ⟨rfl, hy⟩ := h
  have hw := wt y hy
  have hu := hf y hy
  cases y <;> try exact hw.elim
  exact ⟨⟨false, rfl⟩, bits32 _, hu⟩

theorem pair_bits {l : List (Val × Val)} (hl : ∀ p ∈ l, p.1.WT .f32 ∧ p.2.WT .f32) :
    ∀ p ∈ l.map fun p => (p.1.bits, p.2.bits), p.1 < 2 * b32.signBit ∧ p.2 < 2 * b32.signBit := by
  intro p hp
  obtain ⟨⟨x, y⟩, hq, rfl⟩ := List.mem_map.1 hp
  obtain ⟨hx, hy⟩ := hl _ hq
  cases x <;> try exact hx.elim
  cases y <;> try exact hy.elim
  exact ⟨bits32 _, bits32 _⟩

theorem conv_same {fp : FloatOps} (hE : Machine fp) {l l' : List (Val × Val)} {ys : List Val} (wt : ∀ y ∈ ys, y.WT .f32) (hf : ∀ y ∈ ys, Finite y)
    (hp : Pads (fun p => p.1 = .f32 0 ∧ p.2 ∈ ys) l l') (hl : ∀ p ∈ l, p.1.WT .f32 ∧ p.2.WT .f32) {y y' : Val} (h : ConvOf fp l y) (h' : ConvOf fp l' y') :
    SameNumber y y' ∧ (fp.mac32 = ieee.mac32 → y = y') := by
  have hl' : ∀ p ∈ l', p.1.WT .f32 ∧ p.2.WT .f32 := fun p hp' => by
    rcases hp.mem hp' with h | ⟨h1, h2⟩
    · exact hl p h
    · exact ⟨by rw [h1]; trivial, wt _ h2⟩
  have zero : ∀ {z}, ZeroOf fp .f32 z → z = .f32 0 := fun {z} hz0 => by
    have := hE.zero .f32
    rw [ZeroOf, converts_iff] at hz0 this
    rw [hz0] at this
    cases this; rfl
  obtain ⟨z, hz, hd⟩ := h
  obtain ⟨z', hz', hd'⟩ := h'
  cases zero hz
  cases zero hz'
  obtain ⟨rfl, lt⟩ := dotTo32 hl hd
  obtain ⟨rfl, lt'⟩ := dotTo32 hl' hd'
  have hb := hp.map (Z' := b32.Idle) (fun p => (p.1.bits, p.2.bits)) fun p h => idle_bits wt hf h
  have h0 : (0 : BitVec 32).toNat = 0 := rfl
  rw [h0] at *
  refine ⟨twin_same lt lt' (macs_twin b32_ok (step32_steps hE) hb (settled_zero b32_ok).1 (.inl rfl) (pair_bits hl)), fun e => ?_⟩
  rw [macs_twice b32_ok (f := step32 fp) (fun z a b hz ha hb => ?_) hb (settled_zero b32_ok) (pair_bits hl)]
  unfold step32
  rw [e]
  show (BitVec.ofNat 32 (b32.add (BitVec.ofNat 32 z).toNat (BitVec.ofNat 32 (b32.mul (BitVec.ofNat 32 a).toNat (BitVec.ofNat 32 b).toNat)).toNat)).toNat = _
  rw [of32 (add_lt b32_ok _ _), of32 (mul_lt b32_ok _ _), of32 (n := z) hz, of32 (n := a) ha, of32 (n := b) hb]

end Aitisa
