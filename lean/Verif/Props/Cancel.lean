import Verif.Proof.Cancel
import Verif.Props.Nearest
import Verif.Props.Scale

/-!
# C87: sums, differences and quotients that tell numbers apart

On every machine (binary32 and binary64), although results are rounded: a sum or difference of two numbers is zero, positive or negative exactly if the exact
one is; it is exact if the numbers are close or the result is tiny; a quotient is 1 exactly if the numbers are equal.
-/

namespace Aitisa

variable {E : Env} {m : Mem} {R1 R2 : Foot} {T1 T2 : TV} {c : Code} {xs ys : List Val}

theorem sign_val32 {z : BitVec 32} {e : Rat} (h : (b32.rat z.toNat = some 0 ↔ e = 0) ∧ (b32.lt 0 z.toNat = true ↔ 0 < e) ∧ (b32.lt z.toNat 0 = true ↔ e < 0)) :
    SignOf e (.f32 z) := by
  refine ⟨h.1, ?_, ?_⟩
  · rw [← h.2.1]; exact (lt_zero_iff b32_ok (bits32 z)).symm
  · rw [← h.2.2]
    show b32.lt z.toNat (ieee.ofInt32 0).toNat = true ↔ _
    rw [show ieee.ofInt32 0 = 0 by simp [ieee, ofInt_zero]]; rfl

theorem sign_val64 {z : BitVec 64} {e : Rat} (h : (b64.rat z.toNat = some 0 ↔ e = 0) ∧ (b64.lt 0 z.toNat = true ↔ 0 < e) ∧ (b64.lt z.toNat 0 = true ↔ e < 0)) :
    SignOf e (.f64 z) := by
  refine ⟨h.1, ?_, ?_⟩
  · rw [← h.2.1]; exact (lt_zero_iff b64_ok (bits64 z)).symm
  · rw [← h.2.2]
    show b64.lt z.toNat (ieee.ofInt64 0).toNat = true ↔ _
    rw [show ieee.ofInt64 0 = 0 by simp [ieee, ofInt_zero]]; rfl

/-- The negative of a number is a number of the format. -/
theorem rat_opposite {F : Fmt} (h : F.OK) {b : Nat} {y : Rat} (hb : b < 2 * F.signBit) (hy : F.rat b = some y) :
    ∃ b', b' < 2 * F.signBit ∧ F.rat b' = some (-y) := by
  obtain ⟨s, n, hn, rfl, rfl⟩ := rat_some h hb hy
  have hs := inf_lt_sign h
  refine ⟨F.signed (!s) n, by unfold Fmt.signed; split <;> omega, ?_⟩
  rw [rat_signed h hn]
  cases s <;> simp only [sgn, Bool.not_true, Bool.not_false, if_true, if_false, Bool.false_eq_true, Rat.intCast_neg] <;> congr 1 <;> grind

theorem diff_val {x y z : Val} {a b : Rat} (hx : x.WT c) (hy : y.WT c) (hz : z.WT c) (hc : c = .f32 ∨ c = .f64) (ha : x.rat = some a) (hb : y.rat = some b)
    (hr : RoundedTo (a - b) z) : SignOf (a - b) z ∧ (Alike a b ∨ (a - b).abs < 2 * c.tiny → z.rat = some (a - b)) := by
  rcases hc with rfl | rfl <;> cases x <;> try exact hx.elim
  all_goals (cases y <;> try exact hy.elim)
  all_goals (cases z <;> try exact hz.elim)
  · have := diff_rounded b32_ok (bits32 _) (bits32 _) (bits32 _) ha hb hr
    exact ⟨sign_val32 this.1, by rw [tiny32]; exact this.2⟩
  · have := diff_rounded b64_ok (bits64 _) (bits64 _) (bits64 _) ha hb hr
    exact ⟨sign_val64 this.1, by rw [tiny64]; exact this.2⟩

theorem sum_val {x y z : Val} {a b : Rat} (hx : x.WT c) (hy : y.WT c) (hz : z.WT c) (hc : c = .f32 ∨ c = .f64) (ha : x.rat = some a) (hb : y.rat = some b)
    (hr : RoundedTo (a + b) z) : SignOf (a + b) z ∧ (Alike a (-b) ∨ (a + b).abs < 2 * c.tiny → z.rat = some (a + b)) := by
  have e : a + b = a - -b := by grind
  rcases hc with rfl | rfl <;> cases x <;> try exact hx.elim
  all_goals (cases y <;> try exact hy.elim)
  all_goals (cases z <;> try exact hz.elim)
  · obtain ⟨b', l, hb'⟩ := rat_opposite b32_ok (bits32 _) hb
    rw [e] at hr ⊢
    have := diff_rounded b32_ok (bits32 _) l (bits32 _) ha hb' hr
    exact ⟨sign_val32 this.1, by rw [tiny32]; exact this.2⟩
  · obtain ⟨b', l, hb'⟩ := rat_opposite b64_ok (bits64 _) hb
    rw [e] at hr ⊢
    have := diff_rounded b64_ok (bits64 _) l (bits64 _) ha hb' hr
    exact ⟨sign_val64 this.1, by rw [tiny64]; exact this.2⟩

theorem quot_val {x y z : Val} {a b : Rat} (hx : x.WT c) (hy : y.WT c) (hz : z.WT c) (hc : c = .f32 ∨ c = .f64) (ha : x.rat = some a) (hb : y.rat = some b)
    (h0 : b ≠ 0) (hr : RoundedTo (a / b) z) : z.rat = some 1 ↔ a = b := by
  rcases hc with rfl | rfl <;> cases x <;> try exact hx.elim
  all_goals (cases y <;> try exact hy.elim)
  all_goals (cases z <;> try exact hz.elim)
  · exact quotient_one b32_ok (bits32 _) (bits32 _) (bits32 _) ha hb h0 hr
  · exact quotient_one b64_ok (bits64 _) (bits64 _) (bits64 _) ha hb h0 hr

/-- The results of C75 are of the element type. -/
theorem binary_typed {op : BinOp} (hE : Machine E.fp) (wf : m.WF) (hc : c = .f32 ∨ c = .f64) (h1 : At m R1 T1) (he1 : Elems T1 c xs)
    (h2 : At m R2 T2) (he2 : Elems T2 c ys) (hd1 : T1.device.type = 0) (hd2 : T2.device.type = 0) (hd : T2.dims = T1.dims)
    (hi : prod T1.dims ≤ 2147483647) (out : Ptr) :
    ∃ zs, DeliversMalloc E (binaryOp op R1.h R2.h out) m out c T1.device T1.dims zs ∧ zs.length = xs.length ∧
      ∀ i (_ : i < xs.length) (_ : i < ys.length) (_ : i < zs.length), zs[i].WT c ∧
        ∀ a b e : Rat, xs[i].rat = some a → ys[i].rat = some b → RatOp op a b e → RoundedTo e zs[i] := by
  have l1 := he1.len
  have l2 := he2.len
  rw [hd] at l2
  have hex : ∀ i, ∃ z, ∀ (h1 : i < xs.length) (h2 : i < ys.length), OpResult ieee c op xs[i] ys[i] z := fun i => by
    by_cases hi : i < xs.length ∧ i < ys.length
    · obtain ⟨z, hz⟩ := op_float (fp := ieee) (op := op) (he1.wt _ (List.getElem_mem hi.1)) (he2.wt _ (List.getElem_mem hi.2)) hc
      exact ⟨z, fun _ _ => hz⟩
    · exact ⟨.int 0, fun a b => absurd ⟨a, b⟩ hi⟩
  obtain ⟨f, hf⟩ := Classical.axiomOfChoice hex
  have hz : ∀ i (_ : i < xs.length) (_ : i < ys.length) (_ : i < ((List.range xs.length).map f).length),
      OpResult E.fp c op xs[i] ys[i] ((List.range xs.length).map f)[i] := fun i a b d => by
    rw [hE.op, List.getElem_map, List.getElem_range]; exact hf i a b
  refine ⟨(List.range xs.length).map f, C26_binary wf h1 he1 h2 he2 hd1 hd2 hd hi (by simp) hz out, by simp, ?_⟩
  intro i i1 i2 i3
  have hr := hz i i1 i2 i3
  rw [hE.op] at hr
  have w1 := he1.wt _ (List.getElem_mem i1)
  have w2 := he2.wt _ (List.getElem_mem i2)
  refine ⟨?_, fun a b e ha hb he => op_rounded w1 w2 hc hr ha hb he⟩
  clear hz hf
  generalize ((List.range xs.length).map f)[i] = z at *
  generalize xs[i] = x at *
  generalize ys[i] = y at *
  rcases hc with rfl | rfl <;> cases x <;> try exact w1.elim
  all_goals (cases y <;> try exact w2.elim)
  all_goals (cases z <;> first | trivial | cases hr)

section
variable (hE : Machine E.fp) (wf : m.WF) (hc : c = .f32 ∨ c = .f64) (h1 : At m R1 T1) (he1 : Elems T1 c xs)
  (h2 : At m R2 T2) (he2 : Elems T2 c ys) (hd1 : T1.device.type = 0) (hd2 : T2.device.type = 0) (hd : T2.dims = T1.dims)
  (hi : prod T1.dims ≤ 2147483647)
include hE wf hc h1 he1 h2 he2 hd1 hd2 hd hi

/-- C87, `aitisa_sub` on `float` and `double` tensors, where both elements are numbers: the sign of the difference is that of the exact one (the difference is
zero only for equal numbers), and the difference is exact where neither number is more than twice the other or it is below twice the smallest number of full
precision. -/
theorem C87_sub (out : Ptr) :
    ∃ zs, DeliversMalloc E (binaryOp .sub R1.h R2.h out) m out c T1.device T1.dims zs ∧ zs.length = xs.length ∧
      ∀ i (_ : i < xs.length) (_ : i < ys.length) (_ : i < zs.length) (a b : Rat), xs[i].rat = some a → ys[i].rat = some b →
        SignOf (a - b) zs[i] ∧ (Alike a b ∨ (a - b).abs < 2 * c.tiny → zs[i].rat = some (a - b)) := by
  obtain ⟨zs, hz, hl, hp⟩ := binary_typed (op := .sub) hE wf hc h1 he1 h2 he2 hd1 hd2 hd hi out
  refine ⟨zs, hz, hl, fun i i1 i2 i3 a b ha hb => ?_⟩
  obtain ⟨w, hr⟩ := hp i i1 i2 i3
  exact diff_val (he1.wt _ (List.getElem_mem _)) (he2.wt _ (List.getElem_mem _)) w hc ha hb (hr a b _ ha hb rfl)

/-- C87, `aitisa_add`: likewise (the sum is zero only for opposite numbers). -/
theorem C87_add (out : Ptr) :
    ∃ zs, DeliversMalloc E (binaryOp .add R1.h R2.h out) m out c T1.device T1.dims zs ∧ zs.length = xs.length ∧
      ∀ i (_ : i < xs.length) (_ : i < ys.length) (_ : i < zs.length) (a b : Rat), xs[i].rat = some a → ys[i].rat = some b →
        SignOf (a + b) zs[i] ∧ (Alike a (-b) ∨ (a + b).abs < 2 * c.tiny → zs[i].rat = some (a + b)) := by
  obtain ⟨zs, hz, hl, hp⟩ := binary_typed (op := .add) hE wf hc h1 he1 h2 he2 hd1 hd2 hd hi out
  refine ⟨zs, hz, hl, fun i i1 i2 i3 a b ha hb => ?_⟩
  obtain ⟨w, hr⟩ := hp i i1 i2 i3
  exact sum_val (he1.wt _ (List.getElem_mem _)) (he2.wt _ (List.getElem_mem _)) w hc ha hb (hr a b _ ha hb rfl)

/-- C87, `aitisa_div`, where both elements are numbers and the divisor is not zero: the quotient is 1 only for equal numbers. -/
theorem C87_div (out : Ptr) :
    ∃ zs, DeliversMalloc E (binaryOp .div R1.h R2.h out) m out c T1.device T1.dims zs ∧ zs.length = xs.length ∧
      ∀ i (_ : i < xs.length) (_ : i < ys.length) (_ : i < zs.length) (a b : Rat), xs[i].rat = some a → ys[i].rat = some b → b ≠ 0 →
        (zs[i].rat = some 1 ↔ a = b) := by
  obtain ⟨zs, hz, hl, hp⟩ := binary_typed (op := .div) hE wf hc h1 he1 h2 he2 hd1 hd2 hd hi out
  refine ⟨zs, hz, hl, fun i i1 i2 i3 a b ha hb h0 => ?_⟩
  obtain ⟨w, hr⟩ := hp i i1 i2 i3
  exact quot_val (he1.wt _ (List.getElem_mem _)) (he2.wt _ (List.getElem_mem _)) w hc ha hb h0 (hr a b _ ha hb ⟨h0, rfl⟩)

end

/-! ## Cases meeting the hypotheses -/

/-- −1.5 and the number after 0.1: neither equal nor more than twice the elements of `exO`. -/
def exClose : List Val := [.f32 0xBFC00000, .f32 0x3DCCCCCE]

theorem exClose_rat : (Val.f32 0xBFC00000).rat = some (-3 / 2) ∧ (Val.f32 0x3DCCCCCE).rat = some (13421774 / (2 : Rat) ^ 27) := ⟨by decide +kernel, by decide +kernel⟩

theorem exClose_alike : Alike (-1) (-3 / 2) ∧ Alike (13421773 / (2 : Rat) ^ 27) (13421774 / (2 : Rat) ^ 27) :=
  ⟨.inr ⟨by decide +kernel, by decide +kernel⟩, .inl ⟨by decide +kernel, by decide +kernel⟩⟩

/-- 0.1 minus the next number is −2^-27 and −1 − (−1.5) is 0.5, exactly. -/
example : ∃ z1 z2, DeliversMalloc ieeeEnv (binaryOp .sub Mem.empty.footT.h (Mem.empty.addT (tvOf .f32 [2] exO)).footT.h .indet)
      ((Mem.empty.addT (tvOf .f32 [2] exO)).addT (tvOf .f32 [2] exClose)) .indet .f32 ⟨DEVICE_CPU, 0⟩ [2] [z1, z2] ∧
    z1.rat = some (-1 - -3 / 2) ∧ z2.rat = some (13421773 / (2 : Rat) ^ 27 - 13421774 / (2 : Rat) ^ 27) := by
  obtain ⟨zs, hz, hl, hp⟩ := C87_sub (E := ieeeEnv) (T1 := tvOf .f32 [2] exO) (T2 := tvOf .f32 [2] exClose) (c := .f32) ieee_machine
    (Mem.addT_wf (Mem.addT_wf Mem.empty_wf _) _) (.inl rfl)
    (addT_old (Mem.addT_wf Mem.empty_wf _) (tvOf_at _ (by simp) rfl ⟨by decide, by decide⟩) _) (tvOf_elems (xs := exO) (by decide) rfl)
    (tvOf_at _ (by simp) rfl ⟨by decide, by decide⟩) (tvOf_elems (xs := exClose) (by decide) rfl) rfl rfl rfl (by decide) .indet
  obtain _ | ⟨z1, _ | ⟨z2, _ | ⟨z3, zs⟩⟩⟩ := zs
  · exact absurd hl (by decide)
  · exact absurd hl (by simp [exO])
  · exact ⟨z1, z2, hz, (hp 0 (by decide) (by decide) (by simp) _ _ exO_rat.1 exClose_rat.1).2 (.inl exClose_alike.1),
      (hp 1 (by decide) (by decide) (by simp) _ _ exO_rat.2 exClose_rat.2).2 (.inl exClose_alike.2)⟩
  · exact absurd hl (by simp [exO])

/-- The sums −1 + 0.5 and 0.1 + 3: the second is not exact, but positive. -/
example : ∃ z1 z2, DeliversMalloc fusedEnv (binaryOp .add Mem.empty.footT.h (Mem.empty.addT (tvOf .f32 [2] exO)).footT.h .indet)
      ((Mem.empty.addT (tvOf .f32 [2] exO)).addT (tvOf .f32 [2] exW)) .indet .f32 ⟨DEVICE_CPU, 0⟩ [2] [z1, z2] ∧
    z1.rat = some (-1 + 1 / 2) ∧ Positive z2 := by
  obtain ⟨zs, hz, hl, hp⟩ := C87_add (E := fusedEnv) (T1 := tvOf .f32 [2] exO) (T2 := tvOf .f32 [2] exW) (c := .f32) fused_machine
    (Mem.addT_wf (Mem.addT_wf Mem.empty_wf _) _) (.inl rfl)
    (addT_old (Mem.addT_wf Mem.empty_wf _) (tvOf_at _ (by simp) rfl ⟨by decide, by decide⟩) _) (tvOf_elems (xs := exO) (by decide) rfl)
    (tvOf_at _ (by simp) rfl ⟨by decide, by decide⟩) (tvOf_elems (xs := exW) (by decide) rfl) rfl rfl rfl (by decide) .indet
  obtain _ | ⟨z1, _ | ⟨z2, _ | ⟨z3, zs⟩⟩⟩ := zs
  · exact absurd hl (by decide)
  · exact absurd hl (by simp [exO])
  · exact ⟨z1, z2, hz, (hp 0 (by decide) (by decide) (by simp) _ _ exO_rat.1 exW_rat.1).2 (.inl (.inr ⟨by decide +kernel, by decide +kernel⟩)),
      (hp 1 (by decide) (by decide) (by simp) _ _ exO_rat.2 exW_rat.2).1.2.1.2 (by decide +kernel)⟩
  · exact absurd hl (by simp [exO])

/-- 0.1 divided by the next number is not 1. -/
example : ∃ z1 z2, DeliversMalloc ieeeEnv (binaryOp .div Mem.empty.footT.h (Mem.empty.addT (tvOf .f32 [2] exO)).footT.h .indet)
      ((Mem.empty.addT (tvOf .f32 [2] exO)).addT (tvOf .f32 [2] exClose)) .indet .f32 ⟨DEVICE_CPU, 0⟩ [2] [z1, z2] ∧ z2.rat ≠ some 1 := by
  obtain ⟨zs, hz, hl, hp⟩ := C87_div (E := ieeeEnv) (T1 := tvOf .f32 [2] exO) (T2 := tvOf .f32 [2] exClose) (c := .f32) ieee_machine
    (Mem.addT_wf (Mem.addT_wf Mem.empty_wf _) _) (.inl rfl)
    (addT_old (Mem.addT_wf Mem.empty_wf _) (tvOf_at _ (by simp) rfl ⟨by decide, by decide⟩) _) (tvOf_elems (xs := exO) (by decide) rfl)
    (tvOf_at _ (by simp) rfl ⟨by decide, by decide⟩) (tvOf_elems (xs := exClose) (by decide) rfl) rfl rfl rfl (by decide) .indet
  obtain _ | ⟨z1, _ | ⟨z2, _ | ⟨z3, zs⟩⟩⟩ := zs
  · exact absurd hl (by decide)
  · exact absurd hl (by simp [exO])
  · exact ⟨z1, z2, hz, fun h => absurd ((hp 1 (by decide) (by decide) (by simp) _ _ exO_rat.2 exClose_rat.2 (by decide +kernel)).1 h) (by decide +kernel)⟩
  · exact absurd hl (by simp [exO])

end Aitisa
