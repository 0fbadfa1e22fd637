import Verif.Proof.NormVal
import Verif.Props.BatchNorm
import Verif.Props.Order

/-!
# C79: batch normalisation of floating-point tensors

On the usual machines (binary32 and binary64): how far results are from the exact ones, that they keep the order of the input, and that elements
equal to the mean give the bias.
-/

namespace Aitisa

variable {E : Env} {m m' : Mem} {R Rs Rb Rm Rv R' Rs' Rb' Rm' Rv' : Foot} {T Sc Bi Me Va T' Sc' Bi' Me' Va' : TV} {c : Code}
  {xs ss bs ms vs xs' : List Val} {axis : Nat} {eps : BitVec 64}

/-- The arguments of a call of batch normalisation: the five tensors with their elements, all requirements met (C45), sizes within the limits of C44. -/
structure NormArgs (fp : FloatOps) (m : Mem) (c : Code) (R : Foot) (T : TV) (xs : List Val) (axis : Nat) (Rs : Foot) (Sc : TV) (ss : List Val) (Rb : Foot)
    (Bi : TV) (bs : List Val) (Rm : Foot) (Me : TV) (ms : List Val) (Rv : Foot) (Va : TV) (vs : List Val) (eps : BitVec 64) : Prop where
  h : At m R T
  hs : At m Rs Sc
  hb : At m Rb Bi
  hm : At m Rm Me
  hv : At m Rv Va
  ex : Elems T c xs
  es : Elems Sc c ss
  eb : Elems Bi c bs
  em : Elems Me c ms
  ev : Elems Va c vs
  cx : T.device.type = 0
  cs : Sc.device.type = 0
  cb : Bi.device.type = 0
  cm : Me.device.type = 0
  cv : Va.device.type = 0
  req : ∀ p ∈ bnRequires fp T axis Sc Bi Me Va eps, p.1
  pos : ∀ x ∈ T.dims.drop 1, 0 < x
  small : BnSmall T axis c

/-- The elements stand for the rational numbers, given by positions. -/
def Stand (xs : List Val) (A : Nat → Rat) : Prop := ∀ i (_ : i < xs.length), xs[i].rat = some (A i)

theorem Stand.at {xs : List Val} {A : Nat → Rat} (h : Stand xs A) {N i : Nat} (hl : xs.length = N) (hi : i < N) : (xs.getD i (.int 0)).rat = some (A i) := by
  subst hl
  have := h i hi
  simpa [List.getD_eq_getElem?_getD, hi] using this

theorem axis_lt : ∀ {ds cs : List Nat} {k : Nat}, InRange ds cs → k < ds.length → cs.getD k 0 < ds.getD k 0
  | [], _, _, _, hk => absurd hk (by simp)
  | _ :: _, [], _, h, _ => h.elim
  | d :: ds, x :: cs, 0, h, _ => h.1
  | d :: ds, x :: cs, k + 1, h, hk => by
    have := axis_lt (k := k) h.2 (by simpa using hk)
    simpa using this

theorem NormArgs.lens {fp : FloatOps} (A : NormArgs fp m c R T xs axis Rs Sc ss Rb Bi bs Rm Me ms Rv Va vs eps) :
    axis < T.dims.length ∧ ss.length = T.dims.getD axis 0 ∧ bs.length = T.dims.getD axis 0 ∧ ms.length = T.dims.getD axis 0 ∧
      vs.length = T.dims.getD axis 0 := by
  have hr := A.req
  simp only [bnRequires, List.forall_mem_cons, Int.toNat_natCast] at hr
  obtain ⟨⟨hr2, hr5⟩, hax, -, ⟨gs, gb⟩, -, ⟨gm, gv⟩, -⟩ := hr
  refine ⟨by omega, ?_, ?_, ?_, ?_⟩
  · rw [A.es.len, gs]; simp [prod]
  · rw [A.eb.len, gb]; simp [prod]
  · rw [A.em.len, gm]; simp [prod]
  · rw [A.ev.len, gv]; simp [prod]

/-- The call and the formula for each element. -/
theorem norm_run (hE : Machine E.fp) (hc : c = .f32 ∨ c = .f64) (wf : m.WF) (A : NormArgs E.fp m c R T xs axis Rs Sc ss Rb Bi bs Rm Me ms Rv Va vs eps)
    {ε : Rat} {v d : Nat → Rat} (hε : (Val.f64 eps).rat = some ε) (hv : Stand vs v) (hd : ∀ i, i < vs.length → Denominator c ε (v i) (d i)) (out : Ptr) :
    ∃ zs : List Val, zs.length = prod T.dims ∧
      (∀ cs, InRange T.dims cs → NormTo ieee c eps (ss.getD (cs.getD axis 0) (.int 0)) (bs.getD (cs.getD axis 0) (.int 0))
        (ms.getD (cs.getD axis 0) (.int 0)) (vs.getD (cs.getD axis 0) (.int 0)) (elemAt T.dims xs cs) (elemAt T.dims zs cs)) ∧
      AttemptsMalloc E (batchNorm R.h axis Rs.h Rb.h Rm.h Rv.h eps out) m ⟨c.dtype, T.device, T.dims, encAll c zs⟩ := by
  obtain ⟨hax, l1, l2, l3, l4⟩ := A.lens
  obtain ⟨zs, hl, hz, ha⟩ := C44_batchNorm_partial (E := E) wf A.h A.hs A.hb A.hm A.hv A.ex A.es A.eb A.em A.ev A.cx A.cs A.cb A.cm A.cv axis eps out A.req A.pos
    A.small
    (fun ch hch => by
      rw [hE.converts, hE.op, hE.negative, hE.root]
      exact (norm_exists hc (wt_getD A.ev.wt l4 hch) hε (hv.at l4 hch) (hd ch (by omega))).1)
    (fun cs hcs => by
      rw [hE.norm]
      have hch := axis_lt hcs hax
      exact (norm_exists hc (wt_getD A.ev.wt l4 hch) hε (hv.at l4 hch) (hd _ (by omega))).2 (wt_getD A.es.wt l1 hch) (wt_getD A.eb.wt l2 hch)
        (wt_getD A.em.wt l3 hch) (elemAt_WT A.ex rfl hcs))
  rw [hE.norm] at hz
  exact ⟨zs, hl, hz, ha⟩

section
variable (hE : Machine E.fp) (hc : c = .f32 ∨ c = .f64) (wf : m.WF) (A : NormArgs E.fp m c R T xs axis Rs Sc ss Rb Bi bs Rm Me ms Rv Va vs eps)
  {ε : Rat} {s b μ v d : Nat → Rat} (hε : (Val.f64 eps).rat = some ε) (hv : Stand vs v) (hd : ∀ i, i < vs.length → Denominator c ε (v i) (d i))
include hE hc wf A hε hv hd

/-- C79, the error: each result is near `s * ((x - m) / d) + b` with the parameters of its channel. -/
theorem C79_near {X : List Nat → Rat} (hx : Rationals T.dims xs X) (hs : Stand ss s) (hb : Stand bs b) (hm : Stand ms μ) (out : Ptr) :
    ∃ zs : List Val, zs.length = prod T.dims ∧
      (∀ cs, InRange T.dims cs → NearNorm c (elemAt T.dims zs cs) (s (cs.getD axis 0)) (b (cs.getD axis 0)) (μ (cs.getD axis 0)) (d (cs.getD axis 0)) (X cs)) ∧
      AttemptsMalloc E (batchNorm R.h axis Rs.h Rb.h Rm.h Rv.h eps out) m ⟨c.dtype, T.device, T.dims, encAll c zs⟩ := by
  obtain ⟨hax, l1, l2, l3, l4⟩ := A.lens
  obtain ⟨zs, hl, hz, ha⟩ := norm_run hE hc wf A hε hv hd out
  refine ⟨zs, hl, fun cs hcs => ?_, ha⟩
  have hch := axis_lt hcs hax
  exact norm_near hc (wt_getD A.es.wt l1 hch) (wt_getD A.eb.wt l2 hch) (wt_getD A.em.wt l3 hch) (wt_getD A.ev.wt l4 hch) (elemAt_WT A.ex rfl hcs) hε
    (hs.at l1 hch) (hb.at l2 hch) (hm.at l3 hch) (hv.at l4 hch) (hx cs hcs) (hd _ (by omega)) (hz cs hcs)

/-- C79, elements equal to the mean of their channel: the result is the bias, exactly. -/
theorem C79_mean (hs : Stand ss s) (hb : Stand bs b) (hm : Stand ms μ) (out : Ptr) :
    ∃ zs : List Val, zs.length = prod T.dims ∧
      (∀ cs, InRange T.dims cs → (elemAt T.dims xs cs).rat = some (μ (cs.getD axis 0)) → (elemAt T.dims zs cs).rat = some (b (cs.getD axis 0))) ∧
      AttemptsMalloc E (batchNorm R.h axis Rs.h Rb.h Rm.h Rv.h eps out) m ⟨c.dtype, T.device, T.dims, encAll c zs⟩ := by
  obtain ⟨hax, l1, l2, l3, l4⟩ := A.lens
  obtain ⟨zs, hl, hz, ha⟩ := norm_run hE hc wf A hε hv hd out
  refine ⟨zs, hl, fun cs hcs hx => ?_, ha⟩
  have hch := axis_lt hcs hax
  exact norm_mean hc (wt_getD A.es.wt l1 hch) (wt_getD A.eb.wt l2 hch) (wt_getD A.em.wt l3 hch) (wt_getD A.ev.wt l4 hch) (elemAt_WT A.ex rfl hcs) hε
    (hs.at l1 hch) (hb.at l2 hch) (hm.at l3 hch) (hv.at l4 hch) hx (hd _ (by omega)) (hz cs hcs)

/-- C79, order: if the scales are not negative, from one input to another with the same parameters the results rise with the elements. -/
theorem C79_order (wf' : m'.WF) (A' : NormArgs E.fp m' c R' T' xs' axis Rs' Sc' ss Rb' Bi' bs Rm' Me' ms Rv' Va' vs eps) (hdims : T'.dims = T.dims)
    (hs : ∀ s ∈ ss, NonNeg s) (hle : Below xs xs') (out out' : Ptr) :
    ∃ zs zs' : List Val, zs.length = prod T.dims ∧ zs'.length = prod T.dims ∧
      (∀ cs, InRange T.dims cs → InOrder (elemAt T.dims zs cs) (elemAt T.dims zs' cs)) ∧
      AttemptsMalloc E (batchNorm R.h axis Rs.h Rb.h Rm.h Rv.h eps out) m ⟨c.dtype, T.device, T.dims, encAll c zs⟩ ∧
      AttemptsMalloc E (batchNorm R'.h axis Rs'.h Rb'.h Rm'.h Rv'.h eps out') m' ⟨c.dtype, T'.device, T.dims, encAll c zs'⟩ := by
  obtain ⟨hax, l1, l2, l3, l4⟩ := A.lens
  obtain ⟨zs, hl, hz, ha⟩ := norm_run hE hc wf A hε hv hd out
  obtain ⟨zs', hl', hz', ha'⟩ := norm_run hE hc wf' A' hε hv hd out'
  rw [hdims] at hl' hz' ha'
  refine ⟨zs, zs', hl, hl', fun cs hcs => ?_, ha, ha'⟩
  have hch := axis_lt hcs hax
  have hx' := elemAt_WT A'.ex hdims hcs
  have hn := hz' cs hcs
  exact norm_le hc (wt_getD A.es.wt l1 hch) (wt_getD A.eb.wt l2 hch) (wt_getD A.em.wt l3 hch) (wt_getD A.ev.wt l4 hch) (elemAt_WT A.ex rfl hcs)
    hx' hε (hv.at l4 hch) (hd _ (by omega)) (by
      have hlt : cs.getD axis 0 < ss.length := by omega
      have e : ss.getD (cs.getD axis 0) (.int 0) = ss[cs.getD axis 0] := by rw [List.getD_eq_getElem?_getD, List.getElem?_eq_getElem hlt, Option.getD_some]
      rw [e]
      exact hs _ (List.getElem_mem hlt))
    (below_at A.ex.len hle hcs) (hz cs hcs) hn

end

/-- C79, the denominator: its square is between the bounds `((1 - 2^-p) d)^2` and `((1 + 2^-p) d)^2` around a number `τ` that differs from variance plus
epsilon by two roundings. -/
theorem C79_denominator (hc : c = .f32 ∨ c = .f64) {ε v d : Rat} (hD : Denominator c ε v d) : 0 < d ∧ ∃ τ : Rat,
    ((1 - 1 / 2 ^ c.fmt.p) * d) * ((1 - 1 / 2 ^ c.fmt.p) * d) ≤ τ ∧ τ ≤ (c.fmt.grow * d) * (c.fmt.grow * d) ∧
    (τ - (v + ε)).abs ≤ (c.fmt.grow ^ 2 - 1) * (v.abs + ε.abs) + (c.fmt.grow + 1) * (2 ^ c.fmt.emin / 2) :=
  denominator_close hc hD

/-- C79, the error in round numbers: five parts in `2^24` (`float`) or `2^53` (`double`), and some of the smallest numbers. -/
theorem C79_simple (hc : c = .f32 ∨ c = .f64) {w : Val} {s b m d x q : Rat} (h0 : 0 < d) (h : NearNorm c w s b m d x) (hq : w.rat = some q) :
    (q - (s * ((x - m) / d) + b)).abs ≤ 5 / 2 ^ c.fmt.p * (s.abs * ((x - m).abs / d) + b.abs) + (s.abs / d + s.abs + 2) * 2 ^ c.fmt.emin := by
  refine Rat.le_trans (h.1 q hq) ?_
  have hi : 0 ≤ d⁻¹ := Rat.le_of_lt (Rat.inv_pos.2 h0)
  have ha : 0 ≤ (x - m).abs := by grind [Rat.abs]
  have hs : 0 ≤ s.abs := by grind [Rat.abs]
  have hb : 0 ≤ b.abs := by grind [Rat.abs]
  have hH : (0 : Rat) < 2 ^ c.fmt.emin := zpow_pos _
  have hg : c.fmt.grow = 1 + 1 / 2 ^ c.fmt.p := rfl
  have hu0 := grow_unit c.fmt
  have hu1 : (1 : Rat) / 2 ^ c.fmt.p ≤ 1 / 16 := by rcases hc with rfl | rfl <;> decide +kernel
  have h5 : (5 : Rat) / 2 ^ c.fmt.p = 5 * (1 / 2 ^ c.fmt.p) := by rw [Rat.div_def, Rat.div_def, Rat.one_mul]
  unfold Fmt.normSlack
  rw [h5, hg]
  simp only [Rat.div_def _ d]
  have e1 := Rat.mul_nonneg hs (Rat.mul_nonneg ha hi)
  have e2 := Rat.mul_nonneg hs hi
  generalize s.abs * ((x - m).abs * d⁻¹) = Z at *
  generalize s.abs * d⁻¹ = D at *
  generalize s.abs = S at *
  generalize b.abs = B at *
  generalize (2 : Rat) ^ c.fmt.emin = H at *
  generalize (1 : Rat) / 2 ^ c.fmt.p = u at *
  clear hg h5 h hi ha h0 hq
  have p2 : 0 ≤ u * u := Rat.mul_nonneg hu0 hu0
  have q2 : u * u ≤ 1 / 16 * u := Rat.mul_le_mul_of_nonneg_right hu1 hu0
  have q3 : u * (u * u) ≤ 1 / 16 * (u * u) := Rat.mul_le_mul_of_nonneg_right hu1 p2
  have p3 := Rat.mul_nonneg hu0 p2
  have q4 : u * (u * (u * u)) ≤ 1 / 16 * (u * (u * u)) := Rat.mul_le_mul_of_nonneg_right hu1 p3
  have g4 : (1 + u) ^ 4 - 1 ≤ 5 * u := by
    rw [show (1 + u) ^ 4 = 1 + 4 * u + 6 * (u * u) + 4 * (u * (u * u)) + u * (u * (u * u)) by grind]
    grind
  have g3 : (1 + u) ^ 3 ≤ 2 := by
    rw [show (1 + u) ^ 3 = 1 + 3 * u + 3 * (u * u) + u * (u * u) by grind]
    grind
  have g2 : (1 + u) ^ 2 ≤ 2 := by
    rw [show (1 + u) ^ 2 = 1 + 2 * u + u * u by grind]
    grind
  have z1 := Rat.mul_le_mul_of_nonneg_right g4 (show 0 ≤ Z + B by grind)
  have z2 := Rat.mul_le_mul_of_nonneg_right g3 e2
  have z3 := Rat.mul_le_mul_of_nonneg_right g2 hs
  have z4 := Rat.mul_le_mul_of_nonneg_right (show (1 + u) ^ 3 * D + (1 + u) ^ 2 * S + (1 + u) + 1 ≤ 2 * (D + S + 2) by grind) (show 0 ≤ H / 2 by grind)
  have e : 2 * (D + S + 2) * (H / 2) = (D + S + 2) * H := by grind
  rw [e] at z4
  grind

/-! ## Examples -/

/-- Two samples of two channels: 2, 2; 1, 3. -/
def exBn : TV := tvOf .f32 [2, 2] [.f32 0x40000000, .f32 0x40000000, .f32 0x3F800000, .f32 0x40400000]
/-- Scales 1, 2. -/
def exBnS : TV := tvOf .f32 [2] [.f32 0x3F800000, .f32 0x40000000]
/-- Variances 0.75, 3.75; with epsilon 0.25 the denominators are 1 and 2. -/
def exBnV : TV := tvOf .f32 [2] [.f32 0x3F400000, .f32 0x40700000]

def exBnMem : Mem := ((Mem.empty.addT exBn).addT exBnS).addT exBnV

theorem exBnMem_wf : exBnMem.WF := Mem.addT_wf (Mem.addT_wf (Mem.addT_wf Mem.empty_wf _) _) _

theorem exBn_args : NormArgs ieeeEnv.fp exBnMem .f32 Mem.empty.footT exBn [.f32 0x40000000, .f32 0x40000000, .f32 0x3F800000, .f32 0x40400000] 1
    (Mem.empty.addT exBn).footT exBnS [.f32 0x3F800000, .f32 0x40000000] (Mem.empty.addT exBn).footT exBnS [.f32 0x3F800000, .f32 0x40000000]
    (Mem.empty.addT exBn).footT exBnS [.f32 0x3F800000, .f32 0x40000000] ((Mem.empty.addT exBn).addT exBnS).footT exBnV [.f32 0x3F400000, .f32 0x40700000]
    0x3FD0000000000000 :=
  have w1 := Mem.addT_wf Mem.empty_wf exBn
  have w2 := Mem.addT_wf w1 exBnS
  have hs : At exBnMem (Mem.empty.addT exBn).footT exBnS := addT_old w2 (tvOf_at _ (by simp) rfl ⟨by decide, by decide⟩) _
  have es : Elems exBnS .f32 _ := tvOf_elems (by decide) rfl
  { h := addT_old w2 (addT_old w1 (tvOf_at _ (by simp) rfl ⟨by decide, by decide⟩) _) _
    hs := hs
    hb := hs
    hm := hs
    hv := tvOf_at _ (by simp) rfl ⟨by decide, by decide⟩
    ex := tvOf_elems (by decide) rfl
    es := es
    eb := es
    em := es
    ev := tvOf_elems (by decide) rfl
    cx := rfl
    cs := rfl
    cb := rfl
    cm := rfl
    cv := rfl
    req := by
      simp only [bnRequires, List.forall_mem_cons]
      exact ⟨by decide, by decide, by decide, by decide, by decide, by decide, by show ¬ (_ : Bool) = true; decide +kernel, by simp⟩
    pos := by decide
    small := ⟨by decide, by decide, by decide, by decide, by decide⟩ }

/-- The variances and the denominators. -/
def exBnVar : Nat → Rat
  | 0 => 3 / 4
  | _ => 15 / 4
def exBnDen : Nat → Rat
  | 0 => 1
  | _ => 2
def exBnPar : Nat → Rat
  | 0 => 1
  | _ => 2

theorem exBn_var : Stand [.f32 0x3F400000, .f32 0x40700000] exBnVar := fun i hi => by
  match i, hi with
  | 0, _ => exact show (Val.f32 0x3F400000).rat = some (3 / 4) by decide +kernel
  | 1, _ => exact show (Val.f32 0x40700000).rat = some (15 / 4) by decide +kernel

theorem exBn_par : Stand [.f32 0x3F800000, .f32 0x40000000] exBnPar := fun i hi => by
  match i, hi with
  | 0, _ => exact show (Val.f32 0x3F800000).rat = some 1 by decide +kernel
  | 1, _ => exact show (Val.f32 0x40000000).rat = some 2 by decide +kernel

theorem exBn_den : ∀ i, i < [Val.f32 0x3F400000, .f32 0x40700000].length → Denominator .f32 (1 / 4) (exBnVar i) (exBnDen i) := fun i hi => by
  have r : ∀ {b : BitVec 32} {q : Rat}, (Val.f32 b).rat = some q → RoundedTo q (.f32 b) := fun {b _} h => rounded_self b32_ok (bits32 b) h
  have e4 : (Val.f32 0x3E800000).rat = some (1 / 4) := by decide +kernel
  have e1 : (Val.f32 0x3F800000).rat = some 1 := by decide +kernel
  have e2 : (Val.f32 0x40000000).rat = some 2 := by decide +kernel
  have e5 : (Val.f32 0x40800000).rat = some 4 := by decide +kernel
  match i, hi with
  | 0, _ => exact ⟨.f32 0x3E800000, .f32 0x3F800000, .f32 0x3F800000, 1 / 4, 1, trivial, trivial, trivial, r e4, e4,
      r (by rw [e1]; decide +kernel), e1, by decide, root_rounded (c := .f32) (x := .f32 0x3F800000) trivial (.inl rfl) ⟨_, rfl, show Val.f32 _ = .f32 _ by decide +kernel⟩ e1 (by decide), e1⟩
  | 1, _ => exact ⟨.f32 0x3E800000, .f32 0x40800000, .f32 0x40000000, 1 / 4, 4, trivial, trivial, trivial, r e4, e4,
      r (by rw [e5]; decide +kernel), e5, by decide, root_rounded (c := .f32) (x := .f32 0x40800000) trivial (.inl rfl) ⟨_, rfl, show Val.f32 _ = .f32 _ by decide +kernel⟩ e5 (by decide), e2⟩

/-- The element 2 of channel 1, where the mean is 2, gives the bias 2. -/
example (out : Ptr) : ∃ zs : List Val, zs.length = 4 ∧ (elemAt [2, 2] zs [0, 1]).rat = some 2 ∧
    AttemptsMalloc ieeeEnv (batchNorm Mem.empty.footT.h 1 (Mem.empty.addT exBn).footT.h (Mem.empty.addT exBn).footT.h (Mem.empty.addT exBn).footT.h
      ((Mem.empty.addT exBn).addT exBnS).footT.h 0x3FD0000000000000 out) exBnMem ⟨Code.f32.dtype, exBn.device, [2, 2], encAll .f32 zs⟩ := by
  obtain ⟨zs, hl, h, ha⟩ := C79_mean (E := ieeeEnv) ieee_uniform.1 (.inl rfl) exBnMem_wf exBn_args (by decide +kernel) exBn_var exBn_den exBn_par exBn_par exBn_par out
  exact ⟨zs, hl, h [0, 1] ⟨by decide, by decide, trivial⟩ (show (Val.f32 0x40000000).rat = some 2 by decide +kernel), ha⟩

/-- The element 3 of channel 1: `2 * ((3 - 2) / 2) + 2`, with no more error than allowed. -/
example (out : Ptr) : ∃ zs : List Val, zs.length = 4 ∧ NearNorm .f32 (elemAt [2, 2] zs [1, 1]) 2 2 2 2 3 ∧
    AttemptsMalloc ieeeEnv (batchNorm Mem.empty.footT.h 1 (Mem.empty.addT exBn).footT.h (Mem.empty.addT exBn).footT.h (Mem.empty.addT exBn).footT.h
      ((Mem.empty.addT exBn).addT exBnS).footT.h 0x3FD0000000000000 out) exBnMem ⟨Code.f32.dtype, exBn.device, [2, 2], encAll .f32 zs⟩ := by
  obtain ⟨zs, hl, h, ha⟩ := C79_near (E := ieeeEnv) ieee_uniform.1 (.inl rfl) exBnMem_wf exBn_args (by decide +kernel) exBn_var exBn_den
    (X := fun cs => match cs with | [1, 0] => 1 | [1, 1] => 3 | _ => 2) (by
      refine all_coords fun b hb => ?_
      match b, hb with
      | 0, _ => exact show (Val.f32 0x40000000).rat = some 2 by decide +kernel
      | 1, _ => exact show (Val.f32 0x40000000).rat = some 2 by decide +kernel
      | 2, _ => exact show (Val.f32 0x3F800000).rat = some 1 by decide +kernel
      | 3, _ => exact show (Val.f32 0x40400000).rat = some 3 by decide +kernel) exBn_par exBn_par exBn_par out
  exact ⟨zs, hl, h [1, 1] ⟨by decide, by decide, trivial⟩, ha⟩

/-- A tensor against itself. -/
example : ∃ zs zs' : List Val, ∀ cs, InRange [2, 2] cs → InOrder (elemAt [2, 2] zs cs) (elemAt [2, 2] zs' cs) := by
  obtain ⟨zs, zs', -, -, h, -⟩ := C79_order (E := ieeeEnv) ieee_uniform.1 (.inl rfl) exBnMem_wf exBn_args (by decide +kernel) exBn_var exBn_den exBnMem_wf exBn_args rfl
    (fun s hs => by
      simp only [List.mem_cons, List.not_mem_nil, or_false] at hs
      rcases hs with rfl | rfl
      · exact ⟨1, by decide +kernel, by decide⟩
      · exact ⟨2, by decide +kernel, by decide⟩)
    ⟨rfl, fun i h1 h2 => AtMost.refl (by
      match i, h1 with
      | 0, _ => exact show b32.isNaN _ = false by decide +kernel
      | 1, _ => exact show b32.isNaN _ = false by decide +kernel
      | 2, _ => exact show b32.isNaN _ = false by decide +kernel
      | 3, _ => exact show b32.isNaN _ = false by decide +kernel)⟩ .indet .indet
  exact ⟨zs, zs', h⟩

end Aitisa
