import Verif.Spec.Mirror
import Verif.Proof.Border

/-! # Arithmetic and signs -/

namespace Aitisa

variable {F : Fmt} {c : Code}

/-- Opposite data: an exact zero may have either sign. -/
inductive Opp : Datum → Datum → Prop
  | nan : Opp .nan .nan
  | inf (s : Bool) : Opp (.inf s) (.inf !s)
  | fin (s t : Bool) (m : Nat) (e : Int) (h : m = 0 ∨ t = !s) : Opp (.fin s m e) (.fin t m e)

/-- Opposite bit patterns. -/
def Fmt.Mirror (F : Fmt) (a b : Nat) : Prop := b = F.neg a ∨ (F.Nil a ∧ F.Nil b) ∨ (F.isNaN a = true ∧ F.isNaN b = true)

theorem mirror_decode (h : F.OK) {a b : Nat} (ha : a < 2 * F.signBit) (hb : b < 2 * F.signBit) (hm : F.Mirror a b) : Opp (F.decode a) (F.decode b) := by
  rcases hm with rfl | ⟨⟨s, rfl⟩, ⟨t, rfl⟩⟩ | ⟨h1, h2⟩
  · obtain ⟨s, n, hn, rfl⟩ := exists_signed ha
    rw [neg_signed hn, decode_signed h hn, decode_signed h hn]
    split
    · split
      · exact .inf s
      · exact .nan
    · split
      · exact .fin _ _ _ _ (.inr rfl)
      · exact .fin _ _ _ _ (.inr rfl)
  · rw [decode_zero h, decode_zero h]
    exact .fin _ _ _ _ (.inl rfl)
  · rw [decode_isNaN h ha h1, decode_isNaN h hb h2]
    exact .nan

theorem mirror_signed {s : Bool} {n : Nat} (hn : n < F.signBit) : F.Mirror (F.signed s n) (F.signed (!s) n) := .inl (neg_signed hn).symm

theorem mirror_zero (s t : Bool) : F.Mirror (F.signed s 0) (F.signed t 0) := .inr (.inl ⟨⟨s, rfl⟩, ⟨t, rfl⟩⟩)

theorem mirror_nan (h : F.OK) : F.Mirror F.nanBits F.nanBits := by
  have : F.isNaN F.nanBits = true := nan_is_nan h
  exact .inr (.inr ⟨this, this⟩)

theorem mirror_inf (h : F.OK) (s : Bool) : F.Mirror (F.signed s F.infBits) (F.signed (!s) F.infBits) := mirror_signed (inf_lt_sign h)

theorem mirror_round (h : F.OK) {s t : Bool} {m : Nat} {e : Int} (ht : m = 0 ∨ t = !s) : F.Mirror (F.round s m e) (F.round t m e) := by
  unfold Fmt.round
  by_cases hm : m = 0
  · rw [if_pos hm, if_pos hm]; exact mirror_zero ..
  · obtain rfl := ht.resolve_left hm
    rw [if_neg hm, if_neg hm]
    exact mirror_signed (Nat.lt_of_le_of_lt (Nat.min_le_right _ _) (inf_lt_sign h))

theorem sgn_opp {s t : Bool} {m k : Nat} (ht : m = 0 ∨ t = !s) : sgn t (m * k) = - sgn s (m * k) := by
  rcases ht with rfl | rfl
  · simp [sgn]
  · cases s <;> simp [sgn]

theorem sum_mirror (h : F.OK) {x x' y y' : Datum} (hx : Opp x x') (hy : Opp y y') : F.Mirror (F.sum x y) (F.sum x' y') := by
  cases hx with
  | nan => cases hy <;> exact mirror_nan h
  | inf s =>
    cases hy with
    | nan => exact mirror_nan h
    | inf t =>
      simp only [Fmt.sum]
      by_cases e : s = t
      · rw [if_pos e, if_pos (by rw [e])]; exact mirror_inf h s
      · rw [if_neg e, if_neg (by simpa using e)]; exact mirror_nan h
    | fin => exact mirror_inf h s
  | fin s t m e hm =>
    cases hy with
    | nan => exact mirror_nan h
    | inf t => exact mirror_inf h t
    | fin s' t' n f hn =>
      simp only [Fmt.sum]
      rw [sgn_opp hm, sgn_opp hn]
      generalize sgn s (m * 2 ^ (e - min e f).toNat) = A
      generalize sgn s' (n * 2 ^ (f - min e f).toNat) = A'
      by_cases h0 : A + A' = 0
      · rw [if_pos h0, if_pos (by omega)]; exact mirror_zero ..
      · rw [if_neg h0, if_neg (by omega), show -A + -A' = -(A + A') by omega, Int.natAbs_neg]
        refine mirror_round h (.inr ?_)
        by_cases hl : A + A' < 0
        · simp [hl]; omega
        · simp [hl]; omega

theorem times_opp {x x' : Datum} (hx : Opp x x') (y : Datum) : Opp (x.times y) (x'.times y) := by
  cases hx with
  | nan => cases y <;> exact .nan
  | inf s =>
    cases y with
    | nan => exact .nan
    | inf t =>
      simp only [Datum.times]
      rw [show ((!s) != t) = !(s != t) by cases s <;> cases t <;> rfl]
      exact .inf _
    | fin t n f =>
      simp only [Datum.times]
      split
      · exact .nan
      · rw [show ((!s) != t) = !(s != t) by cases s <;> cases t <;> rfl]
        exact .inf _
  | fin s t m e hm =>
    cases y with
    | nan => exact .nan
    | inf u =>
      simp only [Datum.times]
      split
      · exact .nan
      · next h0 =>
        obtain rfl := hm.resolve_left h0
        rw [show (u != !s) = !(u != s) by cases s <;> cases u <;> rfl]
        exact .inf _
    | fin u n f =>
      refine .fin _ _ _ _ ?_
      rcases hm with rfl | rfl
      · exact .inl (Nat.zero_mul _)
      · exact .inr (by cases s <;> cases u <;> rfl)

theorem mul_mirror (h : F.OK) {a a' b : Nat} (hx : Opp (F.decode a) (F.decode a')) : F.Mirror (F.mul a b) (F.mul a' b) := by
  unfold Fmt.mul
  generalize F.decode a = x at *
  generalize F.decode a' = x' at *
  generalize F.decode b = y
  cases hx with
  | nan => cases y <;> exact mirror_nan h
  | inf s =>
    cases y with
    | nan => exact mirror_nan h
    | inf t =>
      simp only
      rw [show ((!s) != t) = !(s != t) by cases s <;> cases t <;> rfl]
      exact mirror_inf h _
    | fin t n f =>
      simp only
      split
      · exact mirror_nan h
      · rw [show ((!s) != t) = !(s != t) by cases s <;> cases t <;> rfl]
        exact mirror_inf h _
  | fin s t m e hm =>
    cases y with
    | nan => exact mirror_nan h
    | inf u =>
      simp only
      split
      · exact mirror_nan h
      · next h0 =>
        obtain rfl := hm.resolve_left h0
        rw [show (u != !s) = !(u != s) by cases s <;> cases u <;> rfl]
        exact mirror_inf h _
    | fin u n f =>
      refine mirror_round h ?_
      rcases hm with rfl | rfl
      · exact .inl (Nat.zero_mul _)
      · exact .inr (by cases s <;> cases u <;> rfl)

theorem div_mirror (h : F.OK) {a a' b : Nat} (hx : Opp (F.decode a) (F.decode a')) : F.Mirror (F.div a b) (F.div a' b) := by
  unfold Fmt.div
  generalize F.decode a = x at *
  generalize F.decode a' = x' at *
  generalize F.decode b = y
  cases hx with
  | nan => cases y <;> exact mirror_nan h
  | inf s =>
    cases y with
    | nan => exact mirror_nan h
    | inf t => exact mirror_nan h
    | fin t n f =>
      simp only
      rw [show ((!s) != t) = !(s != t) by cases s <;> cases t <;> rfl]
      exact mirror_inf h _
  | fin s t m e hm =>
    cases y with
    | nan => exact mirror_nan h
    | inf u => exact mirror_zero ..
    | fin u n f =>
      simp only
      split
      · split
        · exact mirror_nan h
        · next h0 =>
          obtain rfl := hm.resolve_left h0
          rw [show ((!s) != u) = !(s != u) by cases s <;> cases u <;> rfl]
          exact mirror_inf h _
      · refine mirror_round h ?_
        rcases hm with rfl | rfl
        · exact .inl (by simp)
        · exact .inr (by cases s <;> cases u <;> rfl)

theorem convert_mirror {G : Fmt} (hG : G.OK) {a a' : Nat} (hx : Opp (F.decode a) (F.decode a')) : G.Mirror (F.convert G a) (F.convert G a') := by
  unfold Fmt.convert
  generalize F.decode a = x at *
  generalize F.decode a' = x' at *
  cases hx with
  | nan => exact mirror_nan hG
  | inf s => exact mirror_inf hG s
  | fin s t m e hm => exact mirror_round hG hm


/-! ### Differences, and the sign of a divisor -/

/-- The sign changed. -/
def Datum.flip : Datum → Datum
  | .nan => .nan
  | .inf s => .inf !s
  | .fin s m e => .fin (!s) m e

theorem decode_neg (h : F.OK) {a : Nat} (ha : a < 2 * F.signBit) : F.decode (F.neg a) = (F.decode a).flip := by
  obtain ⟨s, n, hn, rfl⟩ := exists_signed ha
  rw [neg_signed hn, decode_signed h hn, decode_signed h hn]
  split
  · split <;> rfl
  · split <;> rfl

theorem flip_opp (x : Datum) : Opp x x.flip := by
  cases x
  · exact .nan
  · exact .inf _
  · exact .fin _ _ _ _ (.inr rfl)

theorem Opp.symm {x y : Datum} (h : Opp x y) : Opp y x := by
  cases h with
  | nan => exact .nan
  | inf s => simpa using Opp.inf (!s)
  | fin s t m e h => exact .fin _ _ _ _ (h.imp id fun h => by simp [h])

theorem Opp.flip {x y : Datum} (h : Opp x y) : Opp x.flip y.flip := by
  cases h with
  | nan => exact .nan
  | inf s => exact .inf _
  | fin s t m e h => exact .fin _ _ _ _ (h.imp id fun h => by simp [h])

theorem sub_sum (h : F.OK) {a b : Nat} (hb : b < 2 * F.signBit) : F.sub a b = F.sum (F.decode a) (F.decode b).flip := by
  unfold Fmt.sub
  cases hd : F.decode b <;> simp only
  · show _ = F.sum _ .nan
    cases F.decode a <;> rfl
  · rw [add_eq_sum, decode_neg h hb, hd]
  · rw [add_eq_sum, decode_neg h hb, hd]

theorem sum_swap (x y : Datum) : F.sum x y = F.sum y x := by
  cases x <;> cases y <;> simp only [Fmt.sum]
  · rename_i s t
    by_cases e : s = t
    · rw [if_pos e, if_pos e.symm, e]
    · rw [if_neg e, if_neg fun k => e k.symm]
  · rename_i s m e t n f
    rw [Int.min_comm, Int.add_comm, Bool.and_comm]

theorem div_flip (h : F.OK) {a b b' : Nat} (hx : F.decode b' = (F.decode b).flip) : F.Mirror (F.div a b) (F.div a b') := by
  unfold Fmt.div
  rw [hx]
  have e : ∀ s t : Bool, (s != !t) = !(s != t) := by decide
  cases F.decode a <;> cases F.decode b <;> simp only [Datum.flip, e]
  all_goals first
    | exact mirror_nan h
    | exact mirror_inf h _
    | exact mirror_zero ..
    | skip
  split
  · split
    · exact mirror_nan h
    · exact mirror_inf h _
  · exact mirror_round h (.inr rfl)

/-! ### Sums of products -/

theorem Fmt.Same.turn (h : F.OK) {f : Nat → Nat → Nat → Nat} (hf : F.Same f) {z z' a a' b : Nat} (hz : z < 2 * F.signBit) (hz' : z' < 2 * F.signBit)
    (ha : a < 2 * F.signBit) (ha' : a' < 2 * F.signBit) (hb : b < 2 * F.signBit) (h0 : F.Mirror z z') (h1 : F.Mirror a a') :
    F.Mirror (f z a b) (f z' a' b) := by
  have k0 := mirror_decode h hz hz' h0
  have k1 := mirror_decode h ha ha' h1
  rcases hf with hf | hf
  · rw [hf z a b hz ha hb, hf z' a' b hz' ha' hb, add_eq_sum, add_eq_sum]
    exact sum_mirror h k0 (mirror_decode h (mul_lt h _ _) (mul_lt h _ _) (mul_mirror h k1))
  · rw [hf z a b hz ha hb, hf z' a' b hz' ha' hb]
    exact sum_mirror h k0 (times_opp k1 _)

/-- One factor changes its sign. -/
def Fmt.Turns (F : Fmt) (p p' : Nat × Nat) : Prop :=
  p.1 < 2 * F.signBit ∧ p.2 < 2 * F.signBit ∧ p'.1 < 2 * F.signBit ∧ p'.2 < 2 * F.signBit ∧
  ((F.Mirror p.1 p'.1 ∧ p'.2 = p.2) ∨ (F.Mirror p.2 p'.2 ∧ p'.1 = p.1))

/-- Sums of products change their signs. -/
theorem macs_turn {ι : Type} (h : F.OK) {f : Nat → Nat → Nat → Nat} (hf : F.Same f) (u u' : ι → Nat × Nat) : ∀ (l : List ι) {z z' : Nat},
    z < 2 * F.signBit → z' < 2 * F.signBit → (∀ i ∈ l, F.Turns (u i) (u' i)) → F.Mirror z z' → F.Mirror (macs f z (l.map u)) (macs f z' (l.map u'))
  | [], _, _, _, _, _, h0 => h0
  | i :: l, z, z', hz, hz', hl, h0 => by
    obtain ⟨a, b, a', b', hr⟩ := hl i (List.mem_cons_self ..)
    refine macs_turn h hf u u' l (hf.lt h hz a b) (hf.lt h hz' a' b') (fun j hj => hl j (List.mem_cons_of_mem _ hj)) ?_
    show F.Mirror (f z (u i).1 (u i).2) (f z' (u' i).1 (u' i).2)
    rcases hr with ⟨h1, e⟩ | ⟨h1, e⟩
    · rw [e]; exact hf.turn h hz hz' a a' b h0 h1
    · rw [e, hf.swap hz' a b', hf.swap hz a b]
      exact hf.turn h hz hz' b b' a h0 h1

/-! ### Elements -/

theorem stands_nil32 {b : BitVec 32} : Stands (.f32 b) 0 ↔ b32.Nil b.toNat := by
  refine ⟨fun h => isInt_zero_signed b32_ok (bits32 _) h, fun ⟨s, e⟩ => ?_⟩
  have k : ∀ u : Bool, Stands (.f32 (BitVec.ofNat 32 (b32.signed u 0))) 0 := fun u => by cases u <;> decide +kernel
  rw [show b = BitVec.ofNat 32 (b32.signed s 0) by rw [← e, BitVec.ofNat_toNat, BitVec.setWidth_eq]]
  exact k s

theorem stands_nil64 {b : BitVec 64} : Stands (.f64 b) 0 ↔ b64.Nil b.toNat := by
  refine ⟨fun h => isInt_zero_signed b64_ok (bits64 _) h, fun ⟨s, e⟩ => ?_⟩
  have k : ∀ u : Bool, Stands (.f64 (BitVec.ofNat 64 (b64.signed u 0))) 0 := fun u => by cases u <;> decide +kernel
  rw [show b = BitVec.ofNat 64 (b64.signed s 0) by rw [← e, BitVec.ofNat_toNat, BitVec.setWidth_eq]]
  exact k s

theorem opposite32 {a b : BitVec 32} : Opposite (.f32 a) (.f32 b) ↔ b32.Mirror a.toNat b.toNat := by
  have e : (Val.f32 b = negVal (.f32 a)) ↔ b.toNat = b32.neg a.toNat := by
    show (Val.f32 b = Val.f32 (BitVec.ofNat 32 (b32.neg a.toNat))) ↔ _
    rw [Val.f32.injEq, ← BitVec.toNat_inj, of32 (neg_lt (bits32 _))]
  unfold Opposite Fmt.Mirror
  rw [e, stands_nil32, stands_nil32]
  simp only [NotNaN, Bool.not_eq_false]

theorem opposite64 {a b : BitVec 64} : Opposite (.f64 a) (.f64 b) ↔ b64.Mirror a.toNat b.toNat := by
  have e : (Val.f64 b = negVal (.f64 a)) ↔ b.toNat = b64.neg a.toNat := by
    show (Val.f64 b = Val.f64 (BitVec.ofNat 64 (b64.neg a.toNat))) ↔ _
    rw [Val.f64.injEq, ← BitVec.toNat_inj, of64 (neg_lt (bits64 _))]
  unfold Opposite Fmt.Mirror
  rw [e, stands_nil64, stands_nil64]
  simp only [NotNaN, Bool.not_eq_false]

theorem opp32 {a b : BitVec 32} (h : Opposite (.f32 a) (.f32 b)) : Opp (b32.decode a.toNat) (b32.decode b.toNat) :=
  mirror_decode b32_ok (bits32 _) (bits32 _) (opposite32.1 h)

theorem opp64 {a b : BitVec 64} (h : Opposite (.f64 a) (.f64 b)) : Opp (b64.decode a.toNat) (b64.decode b.toNat) :=
  mirror_decode b64_ok (bits64 _) (bits64 _) (opposite64.1 h)

/-- The operators. -/
theorem op_turns {op : BinOp} {x y z x' y' z' : Val} (hx : x.WT c) (hy : y.WT c) (hx' : x'.WT c) (hy' : y'.WT c)
    (hc : c = .f32 ∨ c = .f64) (h : OpTurns op x y x' y') (hz : OpResult ieee c op x y z) (hz' : OpResult ieee c op x' y' z') : Opposite z z' := by
  rcases hc with rfl | rfl
  · cases x <;> simp only [Val.WT] at hx
    cases y <;> simp only [Val.WT] at hy
    cases x' <;> simp only [Val.WT] at hx'
    cases y' <;> simp only [Val.WT] at hy'
    rename_i x y x' y'
    simp only [OpResult] at hz hz'
    subst hz hz'
    rw [opposite32]
    cases op <;> simp only [OpTurns] at h
    · show b32.Mirror (BitVec.ofNat 32 (b32.add x.toNat y.toNat)).toNat (BitVec.ofNat 32 (b32.add x'.toNat y'.toNat)).toNat
      rw [of32 (add_lt b32_ok _ _), of32 (add_lt b32_ok _ _)]
      exact sum_mirror b32_ok (opp32 h.1) (opp32 h.2)
    · show b32.Mirror (BitVec.ofNat 32 (b32.sub x.toNat y.toNat)).toNat (BitVec.ofNat 32 (b32.sub x'.toNat y'.toNat)).toNat
      rw [of32 (sub_lt b32_ok _ _), of32 (sub_lt b32_ok _ _), sub_sum b32_ok (bits32 _), sub_sum b32_ok (bits32 _)]
      rcases h with ⟨h1, h2⟩ | ⟨h1, h2⟩
      · exact sum_mirror b32_ok (opp32 h1) (opp32 h2).flip
      · cases h1; cases h2
        rw [sum_swap (b32.decode y.toNat)]
        exact sum_mirror b32_ok (flip_opp _) (flip_opp _).symm
    · show b32.Mirror (BitVec.ofNat 32 (b32.mul x.toNat y.toNat)).toNat (BitVec.ofNat 32 (b32.mul x'.toNat y'.toNat)).toNat
      rw [of32 (mul_lt b32_ok _ _), of32 (mul_lt b32_ok _ _)]
      rcases h with ⟨h1, h2⟩ | ⟨h1, h2⟩
      · cases h2; exact mul_mirror b32_ok (opp32 h1)
      · cases h1; rw [mul_comm, mul_comm x.toNat]; exact mul_mirror b32_ok (opp32 h2)
    · show b32.Mirror (BitVec.ofNat 32 (b32.div x.toNat y.toNat)).toNat (BitVec.ofNat 32 (b32.div x'.toNat y'.toNat)).toNat
      rw [of32 (div_lt b32_ok _ _), of32 (div_lt b32_ok _ _)]
      rcases h with ⟨h1, h2⟩ | ⟨h1, h2⟩
      · cases h2; exact div_mirror b32_ok (opp32 h1)
      · cases h1
        refine div_flip b32_ok ?_
        have : y' = BitVec.ofNat 32 (b32.neg y.toNat) := Val.f32.inj h2
        rw [this, of32 (neg_lt (bits32 _)), decode_neg b32_ok (bits32 _)]
  · cases x <;> simp only [Val.WT] at hx
    cases y <;> simp only [Val.WT] at hy
    cases x' <;> simp only [Val.WT] at hx'
    cases y' <;> simp only [Val.WT] at hy'
    rename_i x y x' y'
    simp only [OpResult] at hz hz'
    subst hz hz'
    rw [opposite64]
    cases op <;> simp only [OpTurns] at h
    · show b64.Mirror (BitVec.ofNat 64 (b64.add x.toNat y.toNat)).toNat (BitVec.ofNat 64 (b64.add x'.toNat y'.toNat)).toNat
      rw [of64 (add_lt b64_ok _ _), of64 (add_lt b64_ok _ _)]
      exact sum_mirror b64_ok (opp64 h.1) (opp64 h.2)
    · show b64.Mirror (BitVec.ofNat 64 (b64.sub x.toNat y.toNat)).toNat (BitVec.ofNat 64 (b64.sub x'.toNat y'.toNat)).toNat
      rw [of64 (sub_lt b64_ok _ _), of64 (sub_lt b64_ok _ _), sub_sum b64_ok (bits64 _), sub_sum b64_ok (bits64 _)]
      rcases h with ⟨h1, h2⟩ | ⟨h1, h2⟩
      · exact sum_mirror b64_ok (opp64 h1) (opp64 h2).flip
      · cases h1; cases h2
        rw [sum_swap (b64.decode y.toNat)]
        exact sum_mirror b64_ok (flip_opp _) (flip_opp _).symm
    · show b64.Mirror (BitVec.ofNat 64 (b64.mul x.toNat y.toNat)).toNat (BitVec.ofNat 64 (b64.mul x'.toNat y'.toNat)).toNat
      rw [of64 (mul_lt b64_ok _ _), of64 (mul_lt b64_ok _ _)]
      rcases h with ⟨h1, h2⟩ | ⟨h1, h2⟩
      · cases h2; exact mul_mirror b64_ok (opp64 h1)
      · cases h1; rw [mul_comm, mul_comm x.toNat]; exact mul_mirror b64_ok (opp64 h2)
    · show b64.Mirror (BitVec.ofNat 64 (b64.div x.toNat y.toNat)).toNat (BitVec.ofNat 64 (b64.div x'.toNat y'.toNat)).toNat
      rw [of64 (div_lt b64_ok _ _), of64 (div_lt b64_ok _ _)]
      rcases h with ⟨h1, h2⟩ | ⟨h1, h2⟩
      · cases h2; exact div_mirror b64_ok (opp64 h1)
      · cases h1
        refine div_flip b64_ok ?_
        have : y' = BitVec.ofNat 64 (b64.neg y.toNat) := Val.f64.inj h2
        rw [this, of64 (neg_lt (bits64 _)), decode_neg b64_ok (bits64 _)]

theorem turns32 {p p' : Val × Val} (h : p.1.WT .f32 ∧ p.2.WT .f32) (h' : p'.1.WT .f32 ∧ p'.2.WT .f32) (hr : TermTurns p p') :
    b32.Turns (p.1.bits, p.2.bits) (p'.1.bits, p'.2.bits) := by
  obtain ⟨x, y⟩ := p
  obtain ⟨x', y'⟩ := p'
  obtain ⟨h1, h2⟩ := h
  obtain ⟨h1', h2'⟩ := h'
  cases x <;> try exact h1.elim
  cases y <;> try exact h2.elim
  cases x' <;> try exact h1'.elim
  cases y' <;> try exact h2'.elim
  refine ⟨bits32 _, bits32 _, bits32 _, bits32 _, ?_⟩
  rcases hr with ⟨ha, e⟩ | ⟨ha, e⟩
  · cases e; exact .inl ⟨opposite32.1 ha, rfl⟩
  · cases e; exact .inr ⟨opposite32.1 ha, rfl⟩

theorem turns64 {p p' : Val × Val} (h : p.1.WT .f64 ∧ p.2.WT .f64) (h' : p'.1.WT .f64 ∧ p'.2.WT .f64) (hr : TermTurns p p') :
    b64.Turns (p.1.bits, p.2.bits) (p'.1.bits, p'.2.bits) := by
  obtain ⟨x, y⟩ := p
  obtain ⟨x', y'⟩ := p'
  obtain ⟨h1, h2⟩ := h
  obtain ⟨h1', h2'⟩ := h'
  cases x <;> try exact h1.elim
  cases y <;> try exact h2.elim
  cases x' <;> try exact h1'.elim
  cases y' <;> try exact h2'.elim
  refine ⟨bits64 _, bits64 _, bits64 _, bits64 _, ?_⟩
  rcases hr with ⟨ha, e⟩ | ⟨ha, e⟩
  · cases e; exact .inl ⟨opposite64.1 ha, rfl⟩
  · cases e; exact .inr ⟨opposite64.1 ha, rfl⟩

/-- Sums of products change their signs. -/
theorem dotTo_turns {ι : Type} {fp : FloatOps} (hu : Uniform fp) (hc : c = .f32 ∨ c = .f64) {l : List ι} {u u' : ι → Val × Val} {w w' : Val}
    (hl : ∀ i ∈ l, ((u i).1.WT c ∧ (u i).2.WT c) ∧ ((u' i).1.WT c ∧ (u' i).2.WT c) ∧ TermTurns (u i) (u' i))
    (hd : DotTo fp c (zeroVal c) (l.map u) w) (hd' : DotTo fp c (zeroVal c) (l.map u') w') : Opposite w w' := by
  have wt : ∀ p ∈ l.map u, p.1.WT c ∧ p.2.WT c := fun p hp => by obtain ⟨i, hi, rfl⟩ := List.mem_map.1 hp; exact (hl i hi).1
  have wt' : ∀ p ∈ l.map u', p.1.WT c ∧ p.2.WT c := fun p hp => by obtain ⟨i, hi, rfl⟩ := List.mem_map.1 hp; exact (hl i hi).2.1
  rcases hc with rfl | rfl
  · obtain ⟨rfl, hlt⟩ := dotTo32 wt hd
    obtain ⟨rfl, hlt'⟩ := dotTo32 wt' hd'
    simp only [List.map_map, Function.comp_def] at *
    rw [opposite32, of32 (by rw [← two_sign b32_ok]; exact hlt), of32 (by rw [← two_sign b32_ok]; exact hlt')]
    exact macs_turn b32_ok (same32 hu) _ _ l (bits32 _) (bits32 _) (fun i hi => turns32 (hl i hi).1 (hl i hi).2.1 (hl i hi).2.2)
      (mirror_zero false false)
  · obtain ⟨rfl, hlt⟩ := dotTo64 wt hd
    obtain ⟨rfl, hlt'⟩ := dotTo64 wt' hd'
    simp only [List.map_map, Function.comp_def] at *
    rw [opposite64, of64 (by rw [← two_sign b64_ok]; exact hlt), of64 (by rw [← two_sign b64_ok]; exact hlt')]
    exact macs_turn b64_ok (same64 hu) _ _ l (bits64 _) (bits64 _) (fun i hi => turns64 (hl i hi).1 (hl i hi).2.1 (hl i hi).2.2)
      (mirror_zero false false)

/-! ### Averages -/

/-- Conversions between the floating types keep signs. -/
theorem converts_turn {c' : Code} {x x' y y' : Val} (hx : x.WT c) (hx' : x'.WT c) (hc : c = .f32 ∨ c = .f64) (hc' : c' = .f32 ∨ c' = .f64) (h : Opposite x x')
    (hy : Converts ieee c' x y) (hy' : Converts ieee c' x' y') : Opposite y y' := by
  rcases hc with rfl | rfl <;> cases x <;> try exact hx.elim
  all_goals (cases x' <;> try exact hx'.elim)
  all_goals (rcases hc' with rfl | rfl)
  all_goals (simp only [Converts] at hy hy'; subst hy hy')
  · exact h
  · rw [opposite64]
    show b64.Mirror (BitVec.ofNat 64 (b32.convert b64 _)).toNat (BitVec.ofNat 64 (b32.convert b64 _)).toNat
    rw [of64 (convert_lt b64_ok _), of64 (convert_lt b64_ok _)]
    exact convert_mirror b64_ok (opp32 h)
  · rw [opposite32]
    show b32.Mirror (BitVec.ofNat 32 (b64.convert b32 _)).toNat (BitVec.ofNat 32 (b64.convert b32 _)).toNat
    rw [of32 (convert_lt b32_ok _), of32 (convert_lt b32_ok _)]
    exact convert_mirror b32_ok (opp64 h)
  · exact h

theorem sumsTo_turn {ι : Type} {u u' : ι → Val} (hc : c = .f32 ∨ c = .f64) : ∀ (l : List ι) {t t' r r' : BitVec 64},
    (∀ i ∈ l, (u i).WT c ∧ (u' i).WT c ∧ Opposite (u i) (u' i)) →
    Opposite (.f64 t) (.f64 t') → SumsTo ieee t (l.map u) r → SumsTo ieee t' (l.map u') r' → Opposite (.f64 r) (.f64 r')
  | [], _, _, _, _, _, h0, e, e' => by cases e; cases e'; exact h0
  | i :: l, t, t', r, r', hl, h0, ⟨d, hd, hs⟩, ⟨d', hd', hs'⟩ => by
    obtain ⟨w, w', hi⟩ := hl i (List.mem_cons_self ..)
    have h1 : Opposite (.f64 d) (.f64 d') := converts_turn w w' hc (.inr rfl) hi hd hd'
    refine sumsTo_turn hc l (fun j hj => hl j (List.mem_cons_of_mem _ hj)) ?_ hs hs'
    exact op_turns (c := .f64) (op := .add) (x := .f64 t) (y := .f64 d) (x' := .f64 t') (y' := .f64 d') trivial trivial trivial trivial (.inr rfl) ⟨h0, h1⟩ rfl rfl

/-- Averages change their signs. -/
theorem avgOf_turns {ι : Type} {u u' : ι → Val} {l : List ι} {y y' : Val} {K : Nat} (hc : c = .f32 ∨ c = .f64)
    (hl : ∀ i ∈ l, (u i).WT c ∧ (u' i).WT c ∧ Opposite (u i) (u' i)) (h : AvgOf ieee c K (l.map u) y) (h' : AvgOf ieee c K (l.map u') y') : Opposite y y' := by
  obtain ⟨t, hs, hr⟩ := h
  obtain ⟨t', hs', hr'⟩ := h'
  have h0 : Opposite (.f64 (ieee.ofInt64 0)) (.f64 (ieee.ofInt64 0)) := .inr (.inl ⟨by decide +kernel, by decide +kernel⟩)
  have h1 := sumsTo_turn hc l hl h0 hs hs'
  exact converts_turn (c := .f64) (x := .f64 _) (x' := .f64 _) trivial trivial (.inr rfl) hc
    (op_turns (c := .f64) (op := .div) (x := .f64 t) (y := .f64 (ieee.ofInt64 K)) (x' := .f64 t') (y' := .f64 (ieee.ofInt64 K)) trivial trivial trivial trivial
      (.inr rfl) (.inl ⟨h1, rfl⟩) rfl rfl) hr hr'

/-! ### tanh -/

/-- The quotient of a difference and a sum whose terms are exchanged. -/
theorem ratio_turns (p q : BitVec 64) : Opposite (.f64 (ieee.div64 (ieee.sub64 p q) (ieee.add64 p q))) (.f64 (ieee.div64 (ieee.sub64 q p) (ieee.add64 q p))) := by
  have e : ieee.add64 q p = ieee.add64 p q := congrArg (BitVec.ofNat 64) (add_comm q.toNat p.toNat)
  rw [e]
  have h : Opposite (.f64 (ieee.sub64 p q)) (.f64 (ieee.sub64 q p)) :=
    op_turns (c := .f64) (op := .sub) (x := .f64 p) (y := .f64 q) (x' := .f64 q) (y' := .f64 p) trivial trivial trivial trivial (.inr rfl) (.inr ⟨rfl, rfl⟩) rfl rfl
  exact op_turns (c := .f64) (op := .div) (x := .f64 _) (y := .f64 _) (x' := .f64 _) (y' := .f64 _) trivial trivial trivial trivial (.inr rfl) (.inl ⟨h, rfl⟩) rfl rfl

theorem tanh_turns {ex : BitVec 64 → BitVec 64} {x y y' : Val} (hx : x.WT c) (hc : c = .f32 ∨ c = .f64) (h : TanhOf (withExp ex) x y)
    (h' : TanhOf (withExp ex) (negVal x) y') : Opposite y y' := by
  rcases hc with rfl | rfl <;> cases x <;> try exact hx.elim
  · rename_i b
    simp only [TanhOf, negVal, withExp, neg32_neg32] at h h'
    subst h h'
    exact converts_turn (c := .f64) (c' := .f32) (x := .f64 _) (x' := .f64 _) trivial trivial (.inr rfl) (.inl rfl) (ratio_turns _ _) rfl rfl
  · rename_i b
    simp only [TanhOf, negVal, withExp, neg64_neg64] at h h'
    subst h h'
    exact ratio_turns _ _

/-! ### Changing the sign -/

theorem nil_sub (h : F.OK) {z y : Nat} (hz : F.Nil z) (hy : y < 2 * F.signBit) : F.Mirror y (F.sub z y) := by
  rw [sub_sum h hy]
  cases hn : F.isNaN y
  · obtain ⟨s, n, hi, rfl⟩ := not_nan_signed hy hn
    by_cases h0 : n = 0
    · subst h0
      obtain ⟨t, e, hd⟩ := nil_finite h hz
      obtain ⟨u, f, hd'⟩ := nil_finite h ⟨s, rfl⟩
      rw [hd, hd']
      simp only [Datum.flip, Fmt.sum, Nat.zero_mul, sgn_nil]
      exact mirror_zero ..
    · obtain ⟨t, rfl⟩ := hz
      have := inf_lt_sign h
      rw [← decode_neg h hy, ← add_eq_sum, add_comm, neg_signed (by omega), add_signed_zero h hi fun e => absurd e h0]
      exact mirror_signed (by omega)
  · rw [decode_isNaN h hy hn]
    refine .inr (.inr ⟨hn, ?_⟩)
    rw [sum_swap]
    show F.isNaN (F.sum .nan _) = true
    rw [sum_nan_left]
    exact nan_is_nan h

theorem nan_mul (h : F.OK) {a b : Nat} (ha : a < 2 * F.signBit) (hn : F.isNaN a = true) : F.isNaN (F.mul a b) = true := by
  have : F.mul a b = F.nanBits := by simp [Fmt.mul, decode_isNaN h ha hn]
  rw [this]
  exact nan_is_nan h

/-- Zero minus a number. -/
theorem zero_minus {x y z : Val} (hx : x.WT c) (hy : y.WT c) (hc : c = .f32 ∨ c = .f64) (h0 : Stands x 0) (h : OpResult ieee c .sub x y z) : Opposite y z := by
  rcases hc with rfl | rfl
  · cases x <;> try exact hx.elim
    cases y <;> try exact hy.elim
    rename_i x y
    simp only [OpResult] at h
    subst h
    rw [opposite32]
    show b32.Mirror _ (BitVec.ofNat 32 (b32.sub x.toNat y.toNat)).toNat
    rw [of32 (sub_lt b32_ok _ _)]
    exact nil_sub b32_ok (stands_nil32.1 h0) (bits32 _)
  · cases x <;> try exact hx.elim
    cases y <;> try exact hy.elim
    rename_i x y
    simp only [OpResult] at h
    subst h
    rw [opposite64]
    show b64.Mirror _ (BitVec.ofNat 64 (b64.sub x.toNat y.toNat)).toNat
    rw [of64 (sub_lt b64_ok _ _)]
    exact nil_sub b64_ok (stands_nil64.1 h0) (bits64 _)

/-- A number times minus one. -/
theorem times_minus {x y z : Val} (hx : x.WT c) (hc : c = .f32 ∨ c = .f64) (hy : y.WT c) (h1 : MinusOne y) (h : OpResult ieee c .mul x y z) : Opposite x z := by
  have key : y = negVal (litVal c 1) := by
    rcases hc with rfl | rfl <;> cases y <;> try exact hy.elim
    · cases h1; exact congrArg Val.f32 (by decide +kernel)
    · cases h1; exact congrArg Val.f64 (by decide +kernel)
  by_cases hn : NotNaN x
  · have e : OpResult ieee c .mul x (litVal c 1) x := neutral_op .mul hx hn nofun
    exact op_turns (op := .mul) hx (lit_one_WT c) hx hy hc (.inr ⟨rfl, .inl key⟩) e h
  · refine .inr (.inr ⟨hn, ?_⟩)
    rcases hc with rfl | rfl
    · cases x <;> try exact hx.elim
      cases y <;> try exact hy.elim
      rename_i x y
      simp only [OpResult] at h
      subst h
      simp only [NotNaN, Bool.not_eq_false] at hn ⊢
      show b32.isNaN (BitVec.ofNat 32 (b32.mul x.toNat y.toNat)).toNat = true
      rw [of32 (mul_lt b32_ok _ _)]
      exact nan_mul b32_ok (bits32 _) hn
    · cases x <;> try exact hx.elim
      cases y <;> try exact hy.elim
      rename_i x y
      simp only [OpResult] at h
      subst h
      simp only [NotNaN, Bool.not_eq_false] at hn ⊢
      show b64.isNaN (BitVec.ofNat 64 (b64.mul x.toNat y.toNat)).toNat = true
      rw [of64 (mul_lt b64_ok _ _)]
      exact nan_mul b64_ok (bits64 _) hn

end Aitisa
