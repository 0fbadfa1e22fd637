import Verif.Spec.Parts
import Verif.Proof.Neutral
import Verif.Proof.Mirror
import Verif.Props.Ieee
import Verif.Props.SquareRoot

/-!
# C89: positive and negative part

On every machine, `aitisa_relu` splits a `float` or `double` tensor without NaN into a part above 0 and a part below 0: their difference is the tensor again, bit
for bit, except that minus zero becomes zero, and their sum is the tensor without its signs.
-/

namespace Aitisa

variable {F : Fmt}

/-- What relu does to bits. -/
def Fmt.above (F : Fmt) (b : Nat) : Nat := if 0 < b ∧ b ≤ F.infBits then b else 0

theorem parts_fmt (h : F.OK) {a n : Nat} (ha : a < 2 * F.signBit) (hn : F.isNaN a = false) (hm : F.Mirror a n) :
    F.sub (F.above a) (F.above n) = (if a = F.signBit then 0 else a) ∧ F.add (F.above a) (F.above n) = a % F.signBit := by
  have hs := inf_lt_sign h
  have hi := inf_pos h
  have z0 : F.IsInt 0 0 := isInt_zero h
  obtain ⟨s, k, hk, rfl⟩ := not_nan_signed ha hn
  have ks : k < F.signBit := by omega
  have zz : F.add 0 0 = 0 ∧ F.sub 0 0 = 0 := add_zero_fmt h (by omega) (by
    have := isNaN_signed (F := F) (s := false) (n := 0) (by omega)
    simpa [Fmt.signed] using this) (by omega) (by omega) z0
  by_cases k0 : k = 0
  · subst k0
    have na : F.above (F.signed s 0) = 0 := by
      unfold Fmt.above
      rw [if_neg]
      cases s <;> simp [Fmt.signed] <;> omega
    have nn : F.above n = 0 := by
      have : ∃ t, n = F.signed t 0 := by
        rcases hm with rfl | ⟨-, h⟩ | ⟨h, -⟩
        · exact ⟨!s, neg_signed (by omega)⟩
        · exact h
        · rw [hn] at h; cases h
      obtain ⟨t, rfl⟩ := this
      unfold Fmt.above
      rw [if_neg]
      cases t <;> simp [Fmt.signed] <;> omega
    rw [na, nn, zz.1, zz.2]
    cases s <;> simp [Fmt.signed]
  · have hneg : n = F.signed (!s) k := by
      rcases hm with rfl | ⟨⟨t, e⟩, -⟩ | ⟨h, -⟩
      · exact neg_signed ks
      · exfalso; cases s <;> cases t <;> simp [Fmt.signed] at e <;> omega
      · rw [hn] at h; cases h
    subst hneg
    cases s
    · have e1 : F.signed false k = k := by simp [Fmt.signed]
      have e2 : F.above (F.signed (!false) k) = 0 := by unfold Fmt.above; rw [if_neg]; simp [Fmt.signed]; omega
      rw [e2]
      rw [e1] at hn ⊢
      have e3 : F.above k = k := by unfold Fmt.above; rw [if_pos ⟨by omega, hk⟩]
      have := add_zero_fmt h (a := k) (y := 0) (by omega) hn (by omega) (by omega) z0
      rw [e3, this.1, this.2, if_neg (by omega), Nat.mod_eq_of_lt ks]
      exact ⟨rfl, rfl⟩
    · have e1 : F.signed (!true) k = k := by simp [Fmt.signed]
      have e2 : F.above (F.signed true k) = 0 := by unfold Fmt.above; rw [if_neg]; simp [Fmt.signed]; omega
      have e3 : F.above k = k := by unfold Fmt.above; rw [if_pos ⟨by omega, hk⟩]
      have nk : F.isNaN k = false := by
        have := isNaN_signed (F := F) (s := false) ks
        simp only [Fmt.signed, Bool.false_eq_true, if_false, Nat.zero_add] at this
        rw [this, decide_eq_false_iff_not]; omega
      have := add_zero_fmt h (a := k) (y := 0) (by omega) nk (by omega) (by omega) z0
      rw [e1, e2, e3]
      refine ⟨?_, ?_⟩
      · have hz := nil_sub h (z := 0) (y := k) ⟨false, by simp [Fmt.signed]⟩ (by omega)
        rw [if_neg (by simp [Fmt.signed]; omega)]
        rcases hz with e | ⟨⟨t, e⟩, -⟩ | ⟨e, -⟩
        · rw [e]
          have := neg_signed (F := F) (s := false) ks
          simpa [Fmt.signed] using this
        · exfalso; cases t <;> simp [Fmt.signed] at e <;> omega
        · rw [nk] at e; cases e
      · rw [add_comm, this.1]
        simp [Fmt.signed, Nat.mod_eq_of_lt ks]

/-- What relu gives for an element. -/
def aboveVal (x : Val) : Val := if Positive x then x else zeroLike x

theorem above32 (b : BitVec 32) : ∃ d : BitVec 32, aboveVal (.f32 b) = .f32 d ∧ d.toNat = b32.above b.toNat := by
  unfold aboveVal Fmt.above
  by_cases hp : 0 < b.toNat ∧ b.toNat ≤ b32.infBits
  · rw [if_pos (show Positive (.f32 b) from hp), if_pos hp]; exact ⟨b, rfl, rfl⟩
  · rw [if_neg (show ¬ Positive (.f32 b) from hp), if_neg hp]; exact ⟨0, rfl, rfl⟩

theorem above64 (b : BitVec 64) : ∃ d : BitVec 64, aboveVal (.f64 b) = .f64 d ∧ d.toNat = b64.above b.toNat := by
  unfold aboveVal Fmt.above
  by_cases hp : 0 < b.toNat ∧ b.toNat ≤ b64.infBits
  · rw [if_pos (show Positive (.f64 b) from hp), if_pos hp]; exact ⟨b, rfl, rfl⟩
  · rw [if_neg (show ¬ Positive (.f64 b) from hp), if_neg hp]; exact ⟨0, rfl, rfl⟩

theorem aboveVal_WT {c : Code} {x : Val} (hc : c = .f32 ∨ c = .f64) (hx : x.WT c) : (aboveVal x).WT c := by
  rcases hc with rfl | rfl <;> cases x <;> try exact hx.elim
  · obtain ⟨d, e, -⟩ := above32 ‹_›; rw [e]; trivial
  · obtain ⟨d, e, -⟩ := above64 ‹_›; rw [e]; trivial

/-- The calculation on one element. -/
theorem parts_val {c : Code} {x z n y : Val} (hc : c = .f32 ∨ c = .f64) (hx : x.WT c) (hz : z.WT c) (hw : n.WT c) (hy : y.WT c) (hn : NotNaN x)
    (h0 : Stands z 0) (h1 : OpResult ieee c .sub z x n) :
    (OpResult ieee c .sub (aboveVal x) (aboveVal n) y → (¬ MinusZero x → y = x) ∧ (MinusZero x → y = zeroLike x)) ∧
    (OpResult ieee c .add (aboveVal x) (aboveVal n) y → y = unsigned x) := by
  have hm := zero_minus hz hx hc h0 h1
  rcases hc with rfl | rfl <;> cases x <;> try exact hx.elim
  · cases n <;> try exact hw.elim
    cases y <;> try exact hy.elim
    rename_i x n y
    obtain ⟨d, e, hd⟩ := above32 x
    obtain ⟨d', e', hd'⟩ := above32 n
    rw [e, e']
    have := parts_fmt b32_ok (bits32 x) hn (opposite32.1 hm)
    rw [← hd, ← hd'] at this
    refine ⟨fun hy => ?_, fun hy => ?_⟩
    · simp only [OpResult, Val.f32.injEq] at hy
      have ey : y.toNat = b32.sub d.toNat d'.toNat := by rw [hy]; exact of32 (sub_lt b32_ok _ _)
      rw [this.1] at ey
      refine ⟨fun hmz => ?_, fun hmz => ?_⟩
      · rw [if_neg (show ¬ x.toNat = b32.signBit from hmz)] at ey
        exact congrArg Val.f32 (BitVec.eq_of_toNat_eq ey)
      · rw [if_pos (show x.toNat = b32.signBit from hmz)] at ey
        exact congrArg Val.f32 (BitVec.eq_of_toNat_eq ey)
    · simp only [OpResult, Val.f32.injEq] at hy
      have ey : y.toNat = b32.add d.toNat d'.toNat := by rw [hy]; exact of32 (add_lt b32_ok _ _)
      rw [this.2] at ey
      refine congrArg Val.f32 (BitVec.eq_of_toNat_eq ?_)
      rw [ey, BitVec.toNat_and]
      exact (Nat.and_two_pow_sub_one_eq_mod x.toNat 31).symm
  · cases n <;> try exact hw.elim
    cases y <;> try exact hy.elim
    rename_i x n y
    obtain ⟨d, e, hd⟩ := above64 x
    obtain ⟨d', e', hd'⟩ := above64 n
    rw [e, e']
    have := parts_fmt b64_ok (bits64 x) hn (opposite64.1 hm)
    rw [← hd, ← hd'] at this
    refine ⟨fun hy => ?_, fun hy => ?_⟩
    · simp only [OpResult, Val.f64.injEq] at hy
      have ey : y.toNat = b64.sub d.toNat d'.toNat := by rw [hy]; exact of64 (sub_lt b64_ok _ _)
      rw [this.1] at ey
      refine ⟨fun hmz => ?_, fun hmz => ?_⟩
      · rw [if_neg (show ¬ x.toNat = b64.signBit from hmz)] at ey
        exact congrArg Val.f64 (BitVec.eq_of_toNat_eq ey)
      · rw [if_pos (show x.toNat = b64.signBit from hmz)] at ey
        exact congrArg Val.f64 (BitVec.eq_of_toNat_eq ey)
    · simp only [OpResult, Val.f64.injEq] at hy
      have ey : y.toNat = b64.add d.toNat d'.toNat := by rw [hy]; exact of64 (add_lt b64_ok _ _)
      rw [this.2] at ey
      refine congrArg Val.f64 (BitVec.eq_of_toNat_eq ?_)
      rw [ey, BitVec.toNat_and]
      exact (Nat.and_two_pow_sub_one_eq_mod x.toNat 63).symm

/-- An operation on whole numbers whose result the type holds. -/
theorem op_int {fp : FloatOps} {c : Code} {op : BinOp} {a b e : Int} (hc : c.isInt = true) (he : ExactOp op a b e) (w : (Val.int e).WT c) :
    OpResult fp c op (.int a) (.int b) (.int e) := by
  refine ⟨e, e, rfl, he, ?_⟩
  cases c <;> first | cases hc | skip
  all_goals obtain ⟨w1, w2⟩ := w
  all_goals first
    | exact ⟨rfl, _, _, rfl, w1, w2⟩
    | exact ⟨_, _, rfl, w1, w2, 0, by omega⟩
    | exact ⟨Int.le_trans w2 (by decide), _, _, rfl, w1, w2, 0, by omega⟩

section

variable {E : Env} {m : Mem} {R R0 : Foot} {T T0 : TV} {c : Code} {xs zs : List Val}
  (hE : Machine E.fp) (wf : m.WF) (h : At m R T) (he : Elems T c xs) (h0 : At m R0 T0) (he0 : Elems T0 c zs)
  (hd : T.device.type = 0) (hd0 : T0.device.type = 0) (hs : T0.dims = T.dims) (hi : prod T.dims ≤ 2147483647) (hc : c = .f32 ∨ c = .f64)

include hE wf h he h0 he0 hd hd0 hs hi

/-- The four calls, where `ns` are the differences and `ys` the results. -/
theorem split_of {op : BinOp} {ns ys : List Val} (o1 o2 o3 o4 : Ptr) (ln : ns.length = zs.length) (wn : ∀ n ∈ ns, n.WT c)
    (hn : ∀ i (_ : i < zs.length) (_ : i < xs.length) (_ : i < ns.length), OpResult E.fp c .sub zs[i] xs[i] ns[i])
    (wp : ∀ p ∈ xs.map aboveVal, p.WT c) (wq : ∀ p ∈ ns.map aboveVal, p.WT c) (ly : ys.length = xs.length)
    (hy : ∀ i (_ : i < (xs.map aboveVal).length) (_ : i < (ns.map aboveVal).length) (_ : i < ys.length),
      OpResult E.fp c op (xs.map aboveVal)[i] (ns.map aboveVal)[i] ys[i]) :
    (∀ y m', SplitRun E m op R.h R0.h o1 o2 o3 o4 y m' → ∃ R', y = R'.h ∧ At m' R' ⟨c.dtype, T.device, T.dims, encAll c ys⟩) ∧
      (E.NoFail → E.MallocOK → ∃ y m', SplitRun E m op R.h R0.h o1 o2 o3 o4 y m') := by
  have l1 := he.len
  have l0 := he0.len
  rw [hs] at l0
  have first := (C57_relu hE wf h he o1).creates.yields
  have second : ∀ {m1 : Mem} {Rp : Foot}, Produces m m1 Rp ⟨c.dtype, T.device, T.dims, encAll c (xs.map aboveVal)⟩ →
      MakesIf E (binaryOp .sub R0.h R.h o2) m1 ⟨c.dtype, T0.device, T0.dims, encAll c ns⟩ := fun P =>
    (C26_binary (E := E) (op := .sub) P.wf (h0.frame wf P.frame) he0 (h.frame wf P.frame) he hd0 hd hs.symm (by rw [hs]; exact hi) ln
      hn o2).yields
  have third : ∀ {m2 : Mem} {Rn : Foot}, m2.WF → At m2 Rn ⟨c.dtype, T0.device, T0.dims, encAll c ns⟩ →
      MakesIf E (relu Rn.h o3) m2 ⟨c.dtype, T0.device, T0.dims, encAll c (ns.map aboveVal)⟩ := fun wf' a =>
    (C57_relu (T := ⟨c.dtype, T0.device, T0.dims, encAll c ns⟩) (xs := ns) hE wf' a ⟨rfl, rfl, wn, by rw [hs, ln, l0]⟩ o3).creates.yields
  have fourth : ∀ {m3 : Mem} {Rp Rq : Foot}, m3.WF → At m3 Rp ⟨c.dtype, T.device, T.dims, encAll c (xs.map aboveVal)⟩ →
      At m3 Rq ⟨c.dtype, T0.device, T0.dims, encAll c (ns.map aboveVal)⟩ →
      MakesIf E (binaryOp op Rp.h Rq.h o4) m3 ⟨c.dtype, T.device, T.dims, encAll c ys⟩ := fun wf' a b =>
    (C26_binary (E := E) (op := op) (T1 := ⟨c.dtype, T.device, T.dims, encAll c (xs.map aboveVal)⟩)
      (T2 := ⟨c.dtype, T0.device, T0.dims, encAll c (ns.map aboveVal)⟩) (xs := xs.map aboveVal) (ys := ns.map aboveVal) wf' a
      ⟨rfl, rfl, wp, by rw [List.length_map, l1]⟩ b ⟨rfl, rfl, wq, by rw [List.length_map, hs, ln, l0]⟩ hd hd0 hs hi (by rw [List.length_map, ly])
      hy o4).yields
  refine ⟨?_, ?_⟩
  · rintro y m' ⟨p, m1, n, m2, q, m3, e1, e2, e3, e4⟩
    obtain ⟨Rp, rfl, P⟩ := first.only e1
    obtain ⟨Rn, rfl, Q⟩ := (second P).only e2
    obtain ⟨Rq, rfl, S⟩ := (third Q.wf Q.tensor).only e3
    obtain ⟨Ry, rfl, U⟩ := (fourth S.wf ((P.tensor.frame P.wf Q.frame).frame Q.wf S.frame) S.tensor).only e4
    exact ⟨Ry, rfl, U.tensor⟩
  · intro nf mf
    obtain ⟨Rp, m1, e1, P⟩ := first.runs nf mf
    obtain ⟨Rn, m2, e2, Q⟩ := (second P).runs nf mf
    obtain ⟨Rq, m3, e3, S⟩ := (third Q.wf Q.tensor).runs nf mf
    obtain ⟨Ry, m4, e4, U⟩ := (fourth S.wf ((P.tensor.frame P.wf Q.frame).frame Q.wf S.frame) S.tensor).runs nf mf
    exact ⟨_, _, _, _, _, _, _, _, e1, e2, e3, e4⟩

include hc

/-- The four calls on floating-point tensors, and what the results are made of. -/
theorem split_run (op : BinOp) (o1 o2 o3 o4 : Ptr) :
    ∃ ys : List Val, (∀ y m', SplitRun E m op R.h R0.h o1 o2 o3 o4 y m' → ∃ R', y = R'.h ∧ At m' R' ⟨c.dtype, T.device, T.dims, encAll c ys⟩) ∧
      (E.NoFail → E.MallocOK → ∃ y m', SplitRun E m op R.h R0.h o1 o2 o3 o4 y m') ∧ ys.length = xs.length ∧
      ∀ i (_ : i < xs.length) (_ : i < zs.length) (_ : i < ys.length), ys[i].WT c ∧
        ∃ n : Val, n.WT c ∧ OpResult ieee c .sub zs[i] xs[i] n ∧ OpResult ieee c op (aboveVal xs[i]) (aboveVal n) ys[i] := by
  have l1 := he.len
  have l0 := he0.len
  rw [hs] at l0
  obtain ⟨ns, ln, wn, hn⟩ := results_exist (op := .sub) hc he0.wt he.wt (by omega)
  have wp : ∀ p ∈ xs.map aboveVal, p.WT c := fun p hp => by
    obtain ⟨x, hx, rfl⟩ := List.mem_map.1 hp; exact aboveVal_WT hc (he.wt x hx)
  have wq : ∀ p ∈ ns.map aboveVal, p.WT c := fun p hp => by
    obtain ⟨x, hx, rfl⟩ := List.mem_map.1 hp; exact aboveVal_WT hc (wn x hx)
  obtain ⟨ys, ly, wy, hy⟩ := results_exist (op := op) hc wp wq (by simp; omega)
  rw [List.length_map] at ly
  obtain ⟨A, B⟩ := split_of hE wf h he h0 he0 hd hd0 hs hi o1 o2 o3 o4 ln wn (fun i a b d => by rw [hE.op]; exact hn i a b d) wp wq ly
    (fun i a b d => by rw [hE.op]; exact hy i a b d)
  refine ⟨ys, A, B, ly, fun i a b d => ⟨wy _ (List.getElem_mem d), ns[i], wn _ (List.getElem_mem _), hn i b a (by omega), ?_⟩⟩
  have := hy i (by simpa using a) (by simp; omega) d
  rwa [List.getElem_map, List.getElem_map] at this

/-- C89. The part above 0 less the part below 0 is the tensor again, bit for bit, except that minus zero becomes zero; infinities included. -/
theorem C89_difference (hz : ∀ z ∈ zs, Stands z 0) (hx : ∀ x ∈ xs, NotNaN x) (o1 o2 o3 o4 : Ptr) :
    ∃ ys : List Val, (∀ y m', SplitRun E m .sub R.h R0.h o1 o2 o3 o4 y m' → ∃ R', y = R'.h ∧ At m' R' ⟨c.dtype, T.device, T.dims, encAll c ys⟩) ∧
      (E.NoFail → E.MallocOK → ∃ y m', SplitRun E m .sub R.h R0.h o1 o2 o3 o4 y m') ∧
      Pointwise (fun x y => (¬ MinusZero x → y = x) ∧ (MinusZero x → y = zeroLike x)) xs ys := by
  obtain ⟨ys, a, b, l, hp⟩ := split_run hE wf h he h0 he0 hd hd0 hs hi hc .sub o1 o2 o3 o4
  have lz : zs.length = xs.length := by rw [he0.len, he.len, hs]
  refine ⟨ys, a, b, l.symm, fun i i1 i2 => ?_⟩
  obtain ⟨wy, n, wn, r1, r2⟩ := hp i i1 (by omega) i2
  exact (parts_val hc (he.wt _ (List.getElem_mem i1)) (he0.wt _ (List.getElem_mem (by omega))) wn wy (hx _ (List.getElem_mem i1))
    (hz _ (List.getElem_mem (by omega))) r1).1 r2

/-- C89. The sum of the two parts is the tensor without its signs. -/
theorem C89_sum (hz : ∀ z ∈ zs, Stands z 0) (hx : ∀ x ∈ xs, NotNaN x) (o1 o2 o3 o4 : Ptr) :
    (∀ y m', SplitRun E m .add R.h R0.h o1 o2 o3 o4 y m' →
      ∃ R', y = R'.h ∧ At m' R' ⟨c.dtype, T.device, T.dims, encAll c (xs.map unsigned)⟩) ∧
    (E.NoFail → E.MallocOK → ∃ y m', SplitRun E m .add R.h R0.h o1 o2 o3 o4 y m') := by
  obtain ⟨ys, a, b, l, hp⟩ := split_run hE wf h he h0 he0 hd hd0 hs hi hc .add o1 o2 o3 o4
  have lz : zs.length = xs.length := by rw [he0.len, he.len, hs]
  have : ys = xs.map unsigned := List.ext_getElem (by simp [l]) fun i i2 i3 => by
    have i1 : i < xs.length := by omega
    obtain ⟨wy, n, wn, r1, r2⟩ := hp i i1 (by omega) i2
    rw [List.getElem_map]
    exact (parts_val hc (he.wt _ (List.getElem_mem i1)) (he0.wt _ (List.getElem_mem (by omega))) wn wy (hx _ (List.getElem_mem i1))
      (hz _ (List.getElem_mem (by omega))) r1).2 r2
  subst this
  exact ⟨a, b⟩

omit hc

/-- C89, integer types: the parts of whole numbers whose opposites the type holds (for a signed type: all but the least) give the tensor again, and without its
signs. -/
theorem C89_integers (hc : c.isInt = true) (hz : ∀ z ∈ zs, Stands z 0) (hx : ∀ n, Val.int n ∈ xs → (Val.int (-n)).WT c) (o1 o2 o3 o4 : Ptr) :
    ((∀ y m', SplitRun E m .sub R.h R0.h o1 o2 o3 o4 y m' → ∃ R', y = R'.h ∧ At m' R' ⟨c.dtype, T.device, T.dims, encAll c xs⟩) ∧
      (E.NoFail → E.MallocOK → ∃ y m', SplitRun E m .sub R.h R0.h o1 o2 o3 o4 y m')) ∧
    ((∀ y m', SplitRun E m .add R.h R0.h o1 o2 o3 o4 y m' →
        ∃ R', y = R'.h ∧ At m' R' ⟨c.dtype, T.device, T.dims, encAll c (xs.map unsigned)⟩) ∧
      (E.NoFail → E.MallocOK → ∃ y m', SplitRun E m .add R.h R0.h o1 o2 o3 o4 y m')) := by
  have lz : zs.length = xs.length := by rw [he0.len, he.len, hs]
  have int : ∀ {v : Val}, v.WT c → ∃ n, v = .int n := fun {v} w => by
    cases v
    · exact ⟨_, rfl⟩
    all_goals exfalso; cases c <;> first | exact w | cases hc
  have zero : ∀ i (hi : i < zs.length), zs[i] = .int 0 := fun i hi => by
    have h1 := hz _ (List.getElem_mem hi)
    obtain ⟨n, e⟩ := int (he0.wt _ (List.getElem_mem hi))
    rw [e] at h1 ⊢
    exact congrArg Val.int h1
  have w0 : (Val.int 0).WT c := by cases c <;> first | decide | cases hc
  have above : ∀ n : Int, aboveVal (.int n) = .int (max n 0) := fun n => by
    unfold aboveVal
    by_cases hp : 0 < n
    · rw [if_pos (show Positive (.int n) from hp)]; congr 1; omega
    · rw [if_neg (show ¬ Positive (.int n) from hp)]; show Val.int 0 = _; congr 1; omega
  have waw : ∀ {n : Int}, (Val.int n).WT c → (aboveVal (.int n)).WT c := fun {n} w => by
    unfold aboveVal
    split
    · exact w
    · exact w0
  have wn : ∀ n ∈ xs.map negVal, n.WT c := fun v hv => by
    obtain ⟨x, hm, rfl⟩ := List.mem_map.1 hv
    obtain ⟨n, rfl⟩ := int (he.wt x hm)
    exact hx n hm
  have hn : ∀ i (_ : i < zs.length) (_ : i < xs.length) (_ : i < (xs.map negVal).length), OpResult E.fp c .sub zs[i] xs[i] (xs.map negVal)[i] :=
    fun i a b d => by
      obtain ⟨n, e⟩ := int (he.wt _ (List.getElem_mem b))
      have hm := hx n (e ▸ List.getElem_mem b)
      rw [List.getElem_map, zero i a, e]
      exact op_int hc (show -n = 0 - n by omega) hm
  have wp : ∀ p ∈ xs.map aboveVal, p.WT c := fun p hp => by
    obtain ⟨x, hm, rfl⟩ := List.mem_map.1 hp
    have w := he.wt x hm
    obtain ⟨n, rfl⟩ := int w
    exact waw w
  have wq : ∀ p ∈ (xs.map negVal).map aboveVal, p.WT c := fun p hp => by
    obtain ⟨x, hm, rfl⟩ := List.mem_map.1 hp
    have w := wn x hm
    obtain ⟨n, rfl⟩ := int w
    exact waw w
  refine ⟨split_of hE wf h he h0 he0 hd hd0 hs hi o1 o2 o3 o4 (by simp [lz]) wn hn wp wq rfl fun i a b d => ?_,
    split_of hE wf h he h0 he0 hd hd0 hs hi o1 o2 o3 o4 (by simp [lz]) wn hn wp wq (by simp) fun i a b d => ?_⟩
  · have w := he.wt _ (List.getElem_mem d)
    obtain ⟨n, e⟩ := int w
    rw [e] at w
    simp only [List.getElem_map, e, negVal, above]
    exact op_int hc (show n = max n 0 - max (-n) 0 by omega) w
  · simp only [List.length_map] at d
    have w := he.wt _ (List.getElem_mem d)
    obtain ⟨n, e⟩ := int w
    have w' := hx n (e ▸ List.getElem_mem d)
    rw [e] at w
    simp only [List.getElem_map, e, negVal, above, unsigned]
    refine op_int hc (show (n.natAbs : Int) = max n 0 + max (-n) 0 by omega) ?_
    rcases Int.natAbs_eq n with q | q
    · rw [← q]; exact w
    · rw [show (n.natAbs : Int) = -n by omega]; exact w'

end

/-! ### Examples -/

/-- 1, -2, minus infinity and minus zero. -/
def exParts : List Val := [.f32 0x3f800000, .f32 0xc0000000, .f32 0xff800000, .f32 0x80000000]

/-- Four zeros. -/
def exNils : List Val := [.f32 0, .f32 0, .f32 0x80000000, .f32 0]

/-- 1, -2 and minus infinity are found again, and minus zero becomes zero; the sum is 1, 2, infinity and zero. -/
example : (∃ y m', SplitRun ieeeEnv ((Mem.empty.addT (tvOf .f32 [4] exParts)).addT (tvOf .f32 [4] exNils)) .sub Mem.empty.footT.h
      (Mem.empty.addT (tvOf .f32 [4] exParts)).footT.h .indet .indet .indet .indet y m' ∧
      ∃ R', y = R'.h ∧ At m' R' (tvOf .f32 [4] [.f32 0x3f800000, .f32 0xc0000000, .f32 0xff800000, .f32 0])) ∧
    ∃ y m', SplitRun ieeeEnv ((Mem.empty.addT (tvOf .f32 [4] exParts)).addT (tvOf .f32 [4] exNils)) .add Mem.empty.footT.h
      (Mem.empty.addT (tvOf .f32 [4] exParts)).footT.h .indet .indet .indet .indet y m' ∧
      ∃ R', y = R'.h ∧ At m' R' (tvOf .f32 [4] [.f32 0x3f800000, .f32 0x40000000, .f32 0x7f800000, .f32 0]) := by
  have wf0 := Mem.addT_wf Mem.empty_wf (tvOf .f32 [4] exParts)
  have hp : At (Mem.empty.addT (tvOf .f32 [4] exParts)) Mem.empty.footT (tvOf .f32 [4] exParts) := tvOf_at _ (by simp) rfl ⟨by decide, by decide⟩
  have h1 := addT_old wf0 hp (tvOf .f32 [4] exNils)
  have h0 : At ((Mem.empty.addT (tvOf .f32 [4] exParts)).addT (tvOf .f32 [4] exNils)) (Mem.empty.addT (tvOf .f32 [4] exParts)).footT
    (tvOf .f32 [4] exNils) := tvOf_at _ (by simp) rfl ⟨by decide, by decide⟩
  have wf := Mem.addT_wf wf0 (tvOf .f32 [4] exNils)
  have e1 : Elems (tvOf .f32 [4] exParts) .f32 exParts := tvOf_elems (by decide) rfl
  have e0 : Elems (tvOf .f32 [4] exNils) .f32 exNils := tvOf_elems (by decide) rfl
  have hz : ∀ z ∈ exNils, Stands z 0 := by
    intro z hz
    simp only [exNils, List.mem_cons, List.not_mem_nil, or_false] at hz
    rcases hz with rfl | rfl | rfl | rfl <;> decide +kernel
  have hn : ∀ x ∈ exParts, NotNaN x := by
    intro z hz
    simp only [exParts, List.mem_cons, List.not_mem_nil, or_false] at hz
    rcases hz with rfl | rfl | rfl | rfl <;> decide +kernel
  constructor
  · obtain ⟨ys, a, b, hl, hp⟩ := C89_difference (E := ieeeEnv) ieee_machine wf h1 e1 h0 e0 rfl rfl rfl (by decide) (.inl rfl) hz hn
      .indet .indet .indet .indet
    have : ys = [.f32 0x3f800000, .f32 0xc0000000, .f32 0xff800000, .f32 0] := by
      obtain _ | ⟨y1, _ | ⟨y2, _ | ⟨y3, _ | ⟨y4, _ | ⟨y5, ys⟩⟩⟩⟩⟩ := ys <;> try (simp [exParts] at hl; done)
      have q1 := (hp 0 (by decide) (by simp)).1 (by show ¬ (_ = _); decide)
      have q2 := (hp 1 (by decide) (by simp)).1 (by show ¬ (_ = _); decide)
      have q3 := (hp 2 (by decide) (by simp)).1 (by show ¬ (_ = _); decide)
      have q4 := (hp 3 (by decide) (by simp)).2 (by show _ = _; decide)
      simp only [List.getElem_cons_zero, List.getElem_cons_succ, exParts, zeroLike] at q1 q2 q3 q4
      rw [q1, q2, q3, q4]
    subst this
    obtain ⟨y, m', r⟩ := b (fun _ _ => rfl) (fun _ _ => rfl)
    exact ⟨y, m', r, a y m' r⟩
  · obtain ⟨a, b⟩ := C89_sum (E := ieeeEnv) ieee_machine wf h1 e1 h0 e0 rfl rfl rfl (by decide) (.inl rfl) hz hn .indet .indet .indet .indet
    obtain ⟨y, m', r⟩ := b (fun _ _ => rfl) (fun _ _ => rfl)
    exact ⟨y, m', r, a y m' r⟩

/-- -3 and 4, as bytes. -/
example : ∃ y m', SplitRun ieeeEnv ((Mem.empty.addT (tvOf .i8 [2] [.int (-3), .int 4])).addT (tvOf .i8 [2] [.int 0, .int 0])) .sub Mem.empty.footT.h
      (Mem.empty.addT (tvOf .i8 [2] [.int (-3), .int 4])).footT.h .indet .indet .indet .indet y m' ∧
      ∃ R', y = R'.h ∧ At m' R' (tvOf .i8 [2] [.int (-3), .int 4]) := by
  have wf0 := Mem.addT_wf Mem.empty_wf (tvOf .i8 [2] [.int (-3), .int 4])
  have hp : At (Mem.empty.addT (tvOf .i8 [2] [.int (-3), .int 4])) Mem.empty.footT (tvOf .i8 [2] [.int (-3), .int 4]) :=
    tvOf_at _ (by simp) rfl ⟨by decide, by decide⟩
  have h1 := addT_old wf0 hp (tvOf .i8 [2] [.int 0, .int 0])
  have h0 : At ((Mem.empty.addT (tvOf .i8 [2] [.int (-3), .int 4])).addT (tvOf .i8 [2] [.int 0, .int 0]))
    (Mem.empty.addT (tvOf .i8 [2] [.int (-3), .int 4])).footT (tvOf .i8 [2] [.int 0, .int 0]) := tvOf_at _ (by simp) rfl ⟨by decide, by decide⟩
  obtain ⟨⟨a, b⟩, -⟩ := C89_integers (E := ieeeEnv) ieee_machine (Mem.addT_wf wf0 _) h1 (tvOf_elems (by decide) rfl) h0 (tvOf_elems (by decide) rfl)
    rfl rfl rfl (by decide) rfl (by simp [Stands]) (by
      intro n hn
      simp only [List.mem_cons, List.not_mem_nil, or_false, Val.int.injEq] at hn
      rcases hn with rfl | rfl <;> decide) .indet .indet .indet .indet
  obtain ⟨y, m', r⟩ := b (fun _ _ => rfl) (fun _ _ => rfl)
  exact ⟨y, m', r, a y m' r⟩

/-- The condition is needed: the opposite of the least `int8_t` is itself, so both its parts are 0. -/
example : OpResult ieee .i8 .sub (.int 0) (.int (-128)) (.int (-128)) ∧ aboveVal (.int (-128)) = .int 0 :=
  ⟨⟨128, -128, rfl, rfl, -128, 127, rfl, by decide, by decide, 1, rfl⟩, by decide⟩

end Aitisa
