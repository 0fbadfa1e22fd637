import Verif.Spec.Neutral
import Verif.Proof.IeeeSelect
import Verif.Proof.Batch
import Verif.Props.Batch
import Verif.Props.Ieee
import Verif.Props.Select

/-!
# Operators with parameters that change nothing
-/

namespace Aitisa

variable {F : Fmt} {c : Code} {x y z : Val}

/-! ## Operations with a neutral operand -/

theorem add_zero_fmt (h : F.OK) {a y : Nat} (ha : a < 2 * F.signBit) (hn : F.isNaN a = false) (h0 : a ≠ F.signBit) (hy : y < 2 * F.signBit)
    (hz : F.IsInt y 0) : F.add a y = a ∧ F.sub a y = a := by
  obtain ⟨s, n, hi, rfl⟩ := not_nan_signed ha hn
  obtain ⟨t, rfl⟩ := isInt_zero_signed h hy hz
  have hs : ∀ u : Bool, n = 0 → (s && u) = s := fun u e => by
    subst e
    cases s
    · rfl
    · simp [Fmt.signed] at h0
  refine ⟨add_signed_zero h hi (hs t), ?_⟩
  rw [sub_mag h (inf_pos h)]
  exact add_signed_zero h hi (hs _)

/-- Adding or subtracting a zero. -/
theorem zero_op (wx : x.WT c) (wy : y.WT c) (hn : NotNaN x) (h0 : ¬ MinusZero x) (hy : Stands y 0) :
    OpResult ieee c .add x y x ∧ OpResult ieee c .sub x y x := by
  rcases wt_cases wx with ⟨rfl, p, rfl⟩ | ⟨rfl, p, rfl⟩ | ⟨hc, p, rfl, hr⟩
  · cases y <;> first | exact False.elim wy | skip
    next y =>
    obtain ⟨h1, h2⟩ := add_zero_fmt b32_ok (bits32 p) hn h0 (bits32 y) hy
    exact ⟨congrArg Val.f32 (back32 h1).symm, congrArg Val.f32 (back32 h2).symm⟩
  · cases y <;> first | exact False.elim wy | skip
    next y =>
    obtain ⟨h1, h2⟩ := add_zero_fmt b64_ok (bits64 p) hn h0 (bits64 y) hy
    exact ⟨congrArg Val.f64 (back64 h1).symm, congrArg Val.f64 (back64 h2).symm⟩
  · cases y <;> first | (cases c <;> first | exact False.elim wy | exact absurd hc (by decide)) | skip
    next y =>
    cases hy
    have e : litVal c 0 = .int 0 := by cases c <;> first | exact absurd hc (by decide) | rfl
    have h1 := neutral_op .add wx hn fun _ => h0
    have h2 := neutral_op .sub wx hn nofun
    simp only [BinOp.neutral, e] at h1 h2
    exact ⟨h1, h2⟩

/-- There is only one 1. -/
theorem one_lit (wy : y.WT c) (hy : Stands y 1) : y = litVal c 1 := by
  rcases wt_cases wy with ⟨rfl, p, rfl⟩ | ⟨rfl, p, rfl⟩ | ⟨hc, p, rfl, hr⟩
  · exact congrArg Val.f32 (back32 (isInt_one_bits b32_ok (bits32 p) hy).symm).symm
  · exact congrArg Val.f64 (back64 (isInt_one_bits b64_ok (bits64 p) hy).symm).symm
  · cases hy
    cases c <;> first | exact absurd hc (by decide) | rfl

theorem lit_one_WT (c : Code) : (litVal c 1).WT c := by cases c <;> simp [litVal, Val.WT, Code.lo, Code.hi, Code.signed, Code.size]

theorem lit_one_stands (c : Code) : Stands (litVal c 1) 1 := by
  cases c
  case f32 => decide +kernel
  case f64 => decide +kernel
  all_goals rfl

theorem lit_one_plain (c : Code) : NotNaN (litVal c 1) ∧ ¬ MinusZero (litVal c 1) ∧ ¬ Negative ieee (litVal c 1) := by
  cases c
  case f32 => simp only [NotNaN, MinusZero, Negative, litVal]; decide +kernel
  case f64 => simp only [NotNaN, MinusZero, Negative, litVal]; decide +kernel
  all_goals simp [NotNaN, MinusZero, Negative, litVal]

theorem lit_one_root (c : Code) : RootOf ieee c (litVal c 1) (litVal c 1) := by
  have e : ieee.sqrt64 (num 1) = num 1 := by decide +kernel
  refine ⟨num 1, ?_, by rw [e]; exact (lit_converts c).2.1⟩
  cases c
  case f32 => simp only [Converts, litVal]; decide +kernel
  case f64 => rfl
  all_goals rfl

/-- Multiplying and dividing by 1. -/
theorem one_op (wx : x.WT c) (hn : NotNaN x) : OpResult ieee c .mul (litVal c 1) x x ∧ OpResult ieee c .div x (litVal c 1) x := by
  have h1 := neutral_op .mul wx hn nofun
  have h2 := neutral_op .div wx hn nofun
  refine ⟨?_, h2⟩
  simp only [BinOp.neutral] at h1
  rcases wt_cases wx with ⟨rfl, p, rfl⟩ | ⟨rfl, p, rfl⟩ | ⟨hc, p, rfl, hr⟩
  · simp only [OpResult, litVal, ieee] at h1 ⊢
    rw [Aitisa.mul_comm]; exact h1
  · simp only [OpResult, litVal, ieee] at h1 ⊢
    rw [Aitisa.mul_comm]; exact h1
  · have e : litVal c 1 = .int 1 := by cases c <;> first | exact absurd hc (by decide) | rfl
    rw [e] at h1 ⊢
    obtain ⟨lo, hi, hr, h1', h2'⟩ := hr
    exact int_op hc (op := .mul) (e := p) (by simp [WholeOp, ExactOp]) ⟨lo, hi, hr, h1', h2'⟩

/-- A zero of either sign, converted. -/
theorem zero_converts {v : BitVec 64} (hv : IsZero (.f64 v)) (c : Code) : ∃ e, Converts ieee c (.f64 v) e ∧ e.WT c ∧ Stands e 0 := by
  have hv : Stands (.f64 v) 0 := by
    rcases hv with rfl | h
    · decide +kernel
    · have : v = BitVec.ofNat 64 b64.signBit := (back64 h.symm).symm
      subst this
      decide +kernel
  obtain ⟨e, he, hs⟩ := converts_exact (c := .f64) (c' := c) (x := .f64 v) (n := 0) trivial hv (by
    cases c <;> simp only [Within] <;> first | decide | exact ⟨_, _, rfl, by decide, by decide⟩)
  exact ⟨e, he, cCast_WT (converts_iff.1 he), hs⟩

/-! ## Normalisation by nothing -/

theorem norm_neutral {eps : BitVec 64} {sc bi me va : Val} (wx : x.WT c) (ws : sc.WT c) (wb : bi.WT c) (wm : me.WT c) (wv : va.WT c)
    (hn : NotNaN x) (h0 : ¬ MinusZero x) (hs : Stands sc 1) (hb : Stands bi 0) (hm : Stands me 0) (hv : Stands va 1)
    (he : IsZero (.f64 eps)) : NormTo ieee c eps sc bi me va x x := by
  obtain ⟨e, h1, we, h2⟩ := zero_converts he c
  cases one_lit ws hs
  cases one_lit wv hv
  obtain ⟨p1, p2, p3⟩ := lit_one_plain c
  exact ⟨e, litVal c 1, litVal c 1, x, x, x, h1, (zero_op wv we p1 p2 h2).1, p3, lit_one_root c, (zero_op wx wm hn h0 hm).2,
    (one_op wx hn).2, (one_op wx hn).1, (zero_op wx wb hn h0 hb).1⟩

theorem normTo_unique {fp : FloatOps} {eps : BitVec 64} {sc bi me va r r' : Val} (hs : sc.WT c) (hb : bi.WT c) (hm : me.WT c)
    (hv : va.WT c) (hx : x.WT c) (h : NormTo fp c eps sc bi me va x r) (h' : NormTo fp c eps sc bi me va x r') : r = r' := by
  obtain ⟨e, t, d, a, p, q, h1, h2, h3, h4, h5, h6, h7, h8⟩ := h
  obtain ⟨e', t', d', a', p', q', h1', h2', h3', h4', h5', h6', h7', h8'⟩ := h'
  rw [converts_iff] at h1 h1'
  rw [h1] at h1'; cases h1'
  have we := cCast_WT h1
  rw [opResult_iff hv we] at h2 h2'
  rw [h2] at h2'; cases h2'
  rw [rootOf_iff] at h4 h4'
  rw [h4] at h4'; cases h4'
  have wd : d.WT c := by unfold sqrtF at h4; exact cCast_WT h4
  rw [opResult_iff hx hm] at h5 h5'
  rw [h5] at h5'; cases h5'
  have wa := cBin_WT hx hm h5
  rw [opResult_iff wa wd] at h6 h6'
  rw [h6] at h6'; cases h6'
  have wp := cBin_WT wa wd h6
  rw [opResult_iff hs wp] at h7 h7'
  rw [h7] at h7'; cases h7'
  have wq := cBin_WT hs wp h7
  rw [opResult_iff wq hb] at h8 h8'
  rw [h8] at h8'; cases h8'
  rfl

/-! ## A line of one element -/

/-- The `double` of an element is -0 only if the element is. -/
theorem double_not_minus (wx : x.WT c) (hc : c ≠ .i64 ∧ c ≠ .u64) (hn : NotNaN x) (h0 : ¬ MinusZero x) {d : BitVec 64}
    (hd : Converts ieee .f64 x (.f64 d)) : d.toNat ≠ b64.signBit := by
  intro e
  have e : d = BitVec.ofNat 64 b64.signBit := (back64 e.symm).symm
  obtain ⟨d', h1, h2⟩ := through_double wx hc hn
  rw [converts_iff] at h1 hd
  rw [hd] at h1
  cases h1
  subst e
  rcases wt_cases wx with ⟨rfl, p, rfl⟩ | ⟨rfl, p, rfl⟩ | ⟨hi, p, rfl, -⟩
  · simp only [Converts, Val.f32.injEq] at h2
    refine h0 ?_
    rw [h2]
    exact (by decide +kernel : (ieee.narrow (BitVec.ofNat 64 b64.signBit)).toNat = b32.signBit)
  · simp only [Converts, Val.f64.injEq] at h2
    refine h0 ?_
    rw [h2]
    exact (by decide +kernel : (BitVec.ofNat 64 b64.signBit).toNat = b64.signBit)
  · have ht : ieee.trunc64 (BitVec.ofNat 64 b64.signBit) = some 0 := by decide +kernel
    have : p = 0 := by
      cases c <;> first | exact absurd hi (by decide) | skip
      all_goals
        obtain ⟨r, hr, ht', -⟩ := h2
        rw [ht] at ht'
        cases hr; cases ht'; rfl
    subst this
    rw [← converts_iff] at hd
    simp only [Converts, Val.f64.injEq] at hd
    exact absurd hd (by decide +kernel)

/-- The sum of one number. -/
theorem sum_one (wx : x.WT c) {d : BitVec 64} (hd : Converts ieee .f64 x (.f64 d)) (hn : b64.isNaN d.toNat = false) (h0 : d.toNat ≠ b64.signBit) :
    SumsTo ieee (ieee.ofInt64 0) [x] d := by
  refine ⟨d, hd, ?_⟩
  have := (neutral_fmt b64_ok (bits64 d) hn).1 h0
  rw [Aitisa.add_comm] at this
  simp only [SumsTo, ieee]
  refine (back64 ?_).symm
  simpa [ofInt_zero] using this

/-! ## Sums with one factor 1 -/

theorem dot_none {κ : Type} (f : κ → Option (Val × Val)) {a : Val} (wa : a.WT c) (hn : NotNaN a) (h0 : ¬ MinusZero a) :
    ∀ ks : List κ, (∀ k ∈ ks, ∀ p, f k = some p → p.1.WT c ∧ p.2.WT c ∧ Finite p.1 ∧ Stands p.2 0) → DotTo ieee c a (ks.filterMap f) a
  | [], _ => rfl
  | k :: ks, h => by
    have ih := dot_none f wa hn h0 ks fun k' hk => h k' (List.mem_cons_of_mem _ hk)
    cases hf : f k with
    | none => rw [List.filterMap_cons_none hf]; exact ih
    | some p =>
      rw [List.filterMap_cons_some hf]
      obtain ⟨w1, w2, h1, h2⟩ := h k (List.mem_cons_self ..) p hf
      exact ⟨a, (mac_zero wa w1 w2 hn h0 h1 h2).1, ih⟩

theorem finite_not_nan (wx : x.WT c) (h : Finite x) : NotNaN x := by
  rcases wt_cases wx with ⟨rfl, p, rfl⟩ | ⟨rfl, p, rfl⟩ | ⟨hc, p, rfl, -⟩
  · exact units_not_nan b32_ok (bits32 p) h
  · exact units_not_nan b64_ok (bits64 p) h
  · trivial

/-- If the second factor is 1 for one key and 0 for all others, the sum is the first factor for that key. -/
theorem dot_key {κ : Type} (f : κ → Option (Val × Val)) (k0 : κ) : ∀ ks : List κ, ks.Nodup → k0 ∈ ks →
    (∀ k ∈ ks, ∀ p, f k = some p → p.1.WT c ∧ p.2.WT c ∧ Finite p.1 ∧ ¬ MinusZero p.1 ∧ (k ≠ k0 → Stands p.2 0) ∧ (k = k0 → Stands p.2 1)) →
    DotTo ieee c (zeroVal c) (ks.filterMap f) (((f k0).map (·.1)).getD (zeroVal c))
  | k :: ks, hd, hk, h => by
    have hd := List.nodup_cons.1 hd
    obtain ⟨z1, z2⟩ := zeroVal_plain c
    by_cases e : k = k0
    · subst e
      have hr : ∀ k' ∈ ks, ∀ p, f k' = some p → p.1.WT c ∧ p.2.WT c ∧ Finite p.1 ∧ Stands p.2 0 := fun k' hk' p hp => by
        obtain ⟨w1, w2, h1, h2, h3, h4⟩ := h k' (List.mem_cons_of_mem _ hk') p hp
        exact ⟨w1, w2, h1, h3 fun e => hd.1 (e ▸ hk')⟩
      cases hf : f k with
      | none => rw [List.filterMap_cons_none hf]; exact dot_none f (zeroVal_WT c) z1 z2 ks hr
      | some p =>
        rw [List.filterMap_cons_some hf]
        obtain ⟨w1, w2, h1, h2, h3, h4⟩ := h k (List.mem_cons_self ..) p hf
        have hn := finite_not_nan w1 h1
        exact ⟨p.1, (mac_one w1 w2 hn h2 (h4 rfl)).1, dot_none f w1 hn h2 ks hr⟩
    · have ih := dot_key f k0 ks hd.2 ((List.mem_cons.1 hk).resolve_left fun h => e h.symm) fun k' hk' => h k' (List.mem_cons_of_mem _ hk')
      cases hf : f k with
      | none => rw [List.filterMap_cons_none hf]; exact ih
      | some p =>
        rw [List.filterMap_cons_some hf]
        obtain ⟨w1, w2, h1, h2, h3, h4⟩ := h k (List.mem_cons_self ..) p hf
        exact ⟨_, (mac_zero (zeroVal_WT c) w1 w2 z1 z2 h1 (h3 e)).1, ih⟩

theorem dot_key_same {fp : FloatOps} (hfp : Machine fp) {κ : Type} (f : κ → Option (Val × Val)) (k0 : κ) (ks : List κ) (hd : ks.Nodup) (hk : k0 ∈ ks)
    (h : ∀ k ∈ ks, ∀ p, f k = some p → p.1.WT c ∧ p.2.WT c ∧ Finite p.1 ∧ ¬ MinusZero p.1 ∧ (k ≠ k0 → Stands p.2 0) ∧ (k = k0 → Stands p.2 1)) :
    DotTo fp c (zeroVal c) (ks.filterMap f) (((f k0).map (·.1)).getD (zeroVal c)) := by
  refine dot_same hfp (fun p hp => ?_) (dot_key f k0 ks hd hk h)
  obtain ⟨k, hk', hp⟩ := List.mem_filterMap.1 hp
  obtain ⟨-, -, h3, -, h5, h6⟩ := h k hk' p hp
  refine exactProd_unit h3 ?_
  by_cases e : k = k0
  · exact .inr (h6 e)
  · exact .inl (h5 e)

/-- All channels with all positions of the filter. -/
def taps (C K : Nat) : List (Nat × Nat) := (List.range C).flatMap fun i => (List.range K).map fun j => (i, j)

theorem mem_taps {C K i j : Nat} : (i, j) ∈ taps C K ↔ i < C ∧ j < K := by
  simp [taps]

theorem taps_nodup (C K : Nat) : (taps C K).Nodup := by
  unfold taps List.Nodup
  rw [List.pairwise_flatMap]
  refine ⟨fun i _ => ?_, ?_⟩
  · rw [List.pairwise_map]
    exact List.nodup_range.imp fun h e => h (Prod.mk.inj e).2
  · refine List.nodup_range.imp fun {i i'} h p hp q hq e => ?_
    obtain ⟨_, _, rfl⟩ := List.mem_map.1 hp
    obtain ⟨_, _, rfl⟩ := List.mem_map.1 hq
    exact h (Prod.mk.inj e).1

theorem convTerms_taps (ds fs : List Nat) (xs ys : List Val) (ws : List Win) (C b oc : Nat) (os : List Nat) :
    convTerms ds fs xs ys ws C b oc os = (taps C (prod (ws.map Win.k))).filterMap fun t =>
      (winAt ws os (unlin (ws.map Win.k) t.2)).map fun cs => (elemAt ds xs (b :: t.1 :: cs), elemAt fs ys (oc :: t.1 :: unlin (ws.map Win.k) t.2)) := by
  unfold convTerms taps
  rw [List.filterMap_flatMap]
  congr 1
  funext i
  rw [List.filterMap_map]
  rfl

/-! ## Windows of one element -/

theorem plain_out : ∀ {ws : List Win}, (∀ w ∈ ws, w.Plain ∧ w.Fits) → ws.map Win.out = ws.map Win.x
  | [], _ => rfl
  | w :: ws, h => by
    obtain ⟨⟨h1, h2, h3⟩, f⟩ := h w (List.mem_cons_self ..)
    have hf := f.fits
    rw [List.map_cons, List.map_cons, plain_out fun w' hw => h w' (List.mem_cons_of_mem _ hw)]
    congr 1
    unfold Win.out
    rw [h1, h2, h3] at *
    simp at hf ⊢
    omega

theorem plain_prod : ∀ {ws : List Win}, (∀ w ∈ ws, w.Plain) → prod (ws.map Win.k) = 1
  | [], _ => rfl
  | w :: ws, h => by
    rw [List.map_cons, prod, (h w (List.mem_cons_self ..)).1, plain_prod fun w' hw => h w' (List.mem_cons_of_mem _ hw)]

theorem plain_win : ∀ {ws : List Win} {os : List Nat}, (∀ w ∈ ws, w.Plain) → InRange (ws.map Win.x) os →
    winAt ws os (unlin (ws.map Win.k) 0) = some os
  | [], [], _, _ => rfl
  | w :: ws, o :: os, h, ho => by
    obtain ⟨h1, h2, h3⟩ := h w (List.mem_cons_self ..)
    have ih := plain_win (fun w' hw => h w' (List.mem_cons_of_mem _ hw)) ho.2
    have hlt : o < w.x := ho.1
    simp only [List.map_cons, unlin, Nat.zero_div, Nat.zero_mod, winAt, h2, h3, Nat.zero_mul, Nat.mul_one, Nat.add_zero, Nat.zero_le, true_and,
      Nat.zero_add, Nat.sub_zero]
    rw [if_pos hlt, ih]
    rfl

theorem plain_elems {ds : List Nat} {xs : List Val} {ws : List Win} {b ch : Nat} {os : List Nat} (h : ∀ w ∈ ws, w.Plain)
    (ho : InRange (ws.map Win.x) os) : winElems ds xs ws b ch os = [elemAt ds xs (b :: ch :: os)] := by
  unfold winElems
  rw [plain_prod h]
  simp [plain_win h ho]

end Aitisa
