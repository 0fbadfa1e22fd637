import Verif.Spec.Larger
import Verif.Props.Exact
import Verif.Props.SquareRoot

/-!
# C90: the larger and the smaller of two numbers

The API has no maximum or minimum of two tensors. With whole numbers whose difference the element type holds, `aitisa_sub`, `aitisa_relu` and one more call give
them exactly, in every element type and on every machine.
-/

namespace Aitisa

variable {E : Env} {m : Mem} {R1 R2 : Foot} {T1 T2 : TV} {c : Code} {xs ys : List Val} {A B : List Nat → Int}

section

variable (hE : Machine E.fp) (wf : m.WF) (h1 : At m R1 T1) (he1 : Elems T1 c xs) (h2 : At m R2 T2) (he2 : Elems T2 c ys)
  (hd1 : T1.device.type = 0) (hd2 : T2.device.type = 0) (hd : T2.dims = T1.dims) (hi : prod T1.dims ≤ 2147483647)
  (n1 : Numbers T1.dims xs A) (n2 : Numbers T1.dims ys B)

include hE wf h1 he1 h2 he2 hd1 hd2 hd hi n1 n2

/-- The three calls; the last is applied to a tensor `T` that existed before. -/
theorem excess_run {op : BinOp} {R : Foot} {T : TV} {vs : List Val} {V Z : List Nat → Int} (h : At m R T) (he : Elems T c vs) (ht : T.device.type = 0)
    (hs : T.dims = T1.dims) (n : Numbers T1.dims vs V) (hw : ∀ cs, InRange T1.dims cs → Within c (A cs - B cs))
    (hZ : ∀ cs, InRange T1.dims cs → WholeOp op (V cs) (max (A cs - B cs) 0) (Z cs) ∧ Within c (Z cs)) (o1 o2 o3 : Ptr) :
    (∀ y m', ExcessRun E m op R1.h R2.h R.h o1 o2 o3 y m' → ∃ R' ws, y = R'.h ∧ At m' R' ⟨c.dtype, T.device, T1.dims, encAll c ws⟩ ∧
      Elems ⟨c.dtype, T.device, T1.dims, encAll c ws⟩ c ws ∧ Numbers T1.dims ws Z) ∧
    (E.NoFail → E.MallocOK → ∃ y m', ExcessRun E m op R1.h R2.h R.h o1 o2 o3 y m') := by
  obtain ⟨ds, D, nd⟩ := C56_binary (op := .sub) (Z := fun cs => A cs - B cs) hE wf h1 he1 h2 he2 hd1 hd2 hd hi n1 n2 (fun cs hc => ⟨rfl, hw cs hc⟩) o1
  have second : ∀ {m1 : Mem} {Rd : Foot}, Delivers E (binaryOp .sub R1.h R2.h o1) m o1 c T1.device T1.dims ds →
      Produces m m1 Rd ⟨c.dtype, T1.device, T1.dims, encAll c ds⟩ →
      ∃ rs, Delivers E (relu Rd.h o2) m1 o2 c T1.device T1.dims rs ∧ Numbers T1.dims rs (fun cs => max (A cs - B cs) 0) := fun D P =>
    C56_relu (T := ⟨c.dtype, T1.device, T1.dims, encAll c ds⟩) (xs := ds) hE P.wf P.tensor ⟨rfl, rfl, D.wt, D.len⟩ nd o2
  have third : ∀ {m1 m2 : Mem} {Rd Rr : Foot} {rs : List Val}, Produces m m1 Rd ⟨c.dtype, T1.device, T1.dims, encAll c ds⟩ →
      (∀ r ∈ rs, r.WT c) → rs.length = prod T1.dims → Numbers T1.dims rs (fun cs => max (A cs - B cs) 0) →
      Produces m1 m2 Rr ⟨c.dtype, T1.device, T1.dims, encAll c rs⟩ →
      ∃ ws, DeliversMalloc E (binaryOp op R.h Rr.h o3) m2 o3 c T.device T.dims ws ∧ Numbers T.dims ws Z := fun {m1 m2 Rd Rr rs} P wr lr nr Q =>
    C56_binary (T1 := T) (T2 := ⟨c.dtype, T1.device, T1.dims, encAll c rs⟩) (xs := vs) (ys := rs) (A := V) (B := fun cs => max (A cs - B cs) 0) hE Q.wf
      ((h.frame wf P.frame).frame P.wf Q.frame) he Q.tensor ⟨rfl, rfl, wr, lr⟩ ht hd1 hs.symm (by rw [hs]; exact hi) (by rw [hs]; exact n)
      (by rw [hs]; exact nr) (by rw [hs]; exact hZ) o3
  constructor
  · rintro y m' ⟨d, m1, r, m2, e1, e2, e3⟩
    rcases D with D | ⟨-, e⟩
    · obtain ⟨Rd, rfl, P⟩ := D.creates.yields.only e1
      obtain ⟨rs, D2, nr⟩ := second D P
      obtain ⟨Rr, rfl, Q⟩ := D2.creates.yields.only e2
      obtain ⟨ws, D3, nw⟩ := third P D2.wt D2.len nr Q
      rcases D3 with D3 | ⟨-, e⟩
      · obtain ⟨Ry, rfl, U⟩ := D3.creates.yields.only e3
        rw [hs] at nw
        have := U.tensor
        have l := D3.len
        rw [hs] at this l
        exact ⟨Ry, ws, rfl, this, ⟨rfl, rfl, D3.wt, l⟩, nw⟩
      · rw [e3] at e; cases e
    · rw [e1] at e; cases e
  · intro nf mf
    rcases D with D | ⟨e, -⟩
    · obtain ⟨Rd, m1, e1, P⟩ := D.creates.yields.runs nf mf
      obtain ⟨rs, D2, nr⟩ := second D P
      obtain ⟨Rr, m2, e2, Q⟩ := D2.creates.yields.runs nf mf
      obtain ⟨ws, D3, nw⟩ := third P D2.wt D2.len nr Q
      obtain ⟨Ry, m3, e3, -⟩ := D3.yields.runs nf mf
      exact ⟨_, _, _, _, _, _, e1, e2, e3⟩
    · exact absurd mf e

/-- C90. `aitisa_sub` of the tensors, `aitisa_relu` of the difference, and `aitisa_add` of the second tensor and that: the larger of the two numbers everywhere. -/
theorem C90_larger (hA : ∀ cs, InRange T1.dims cs → Within c (A cs)) (hB : ∀ cs, InRange T1.dims cs → Within c (B cs))
    (hw : ∀ cs, InRange T1.dims cs → Within c (A cs - B cs)) (o1 o2 o3 : Ptr) :
    (∀ y m', ExcessRun E m .add R1.h R2.h R2.h o1 o2 o3 y m' → ∃ R' ws, y = R'.h ∧ At m' R' ⟨c.dtype, T2.device, T1.dims, encAll c ws⟩ ∧
      Elems ⟨c.dtype, T2.device, T1.dims, encAll c ws⟩ c ws ∧ Numbers T1.dims ws (fun cs => max (A cs) (B cs))) ∧
    (E.NoFail → E.MallocOK → ∃ y m', ExcessRun E m .add R1.h R2.h R2.h o1 o2 o3 y m') :=
  excess_run hE wf h1 he1 h2 he2 hd1 hd2 hd hi n1 n2 h2 he2 hd2 hd n2 hw (fun cs hc => ⟨by show max (A cs) (B cs) = _ + _; omega, by
    show Within c (max (A cs) (B cs))
    rcases Int.le_total (A cs) (B cs) with q | q
    · rw [Int.max_eq_right q]; exact hB cs hc
    · rw [Int.max_eq_left q]; exact hA cs hc⟩) o1 o2 o3

/-- C90. Likewise, with `aitisa_sub` of the first tensor and what relu gave: the smaller of the two numbers everywhere. -/
theorem C90_smaller (hA : ∀ cs, InRange T1.dims cs → Within c (A cs)) (hB : ∀ cs, InRange T1.dims cs → Within c (B cs))
    (hw : ∀ cs, InRange T1.dims cs → Within c (A cs - B cs)) (o1 o2 o3 : Ptr) :
    (∀ y m', ExcessRun E m .sub R1.h R2.h R1.h o1 o2 o3 y m' → ∃ R' ws, y = R'.h ∧ At m' R' ⟨c.dtype, T1.device, T1.dims, encAll c ws⟩ ∧
      Elems ⟨c.dtype, T1.device, T1.dims, encAll c ws⟩ c ws ∧ Numbers T1.dims ws (fun cs => min (A cs) (B cs))) ∧
    (E.NoFail → E.MallocOK → ∃ y m', ExcessRun E m .sub R1.h R2.h R1.h o1 o2 o3 y m') :=
  excess_run hE wf h1 he1 h2 he2 hd1 hd2 hd hi n1 n2 h1 he1 hd1 rfl n1 hw (fun cs hc => ⟨by show min (A cs) (B cs) = _ - _; omega, by
    show Within c (min (A cs) (B cs))
    rcases Int.le_total (A cs) (B cs) with q | q
    · rw [Int.min_eq_left q]; exact hA cs hc
    · rw [Int.min_eq_right q]; exact hB cs hc⟩) o1 o2 o3

end

/-! ### Examples -/

/-- The larger of 6 and 3, and of -20 and 4, in `double`. -/
example : ∃ y m', ExcessRun ieeeEnv (wholeM .f64 [2] [6, -20] [2] [3, 4]) .add exH1.h (wholeH2 .f64 [2] [6, -20]).h (wholeH2 .f64 [2] [6, -20]).h
      .indet .indet .indet y m' ∧ ∃ R' ws, y = R'.h ∧ At m' R' (tvOf .f64 [2] ws) ∧
      Numbers [2] ws (fun cs => max (numsOf [2] [6, -20] cs) (numsOf [2] [3, 4] cs)) := by
  obtain ⟨a, b⟩ := C90_larger (E := ieeeEnv) (c := .f64) (T1 := wholeT .f64 [2] [6, -20]) (T2 := wholeT .f64 [2] [3, 4]) (A := numsOf [2] [6, -20]) (B := numsOf [2] [3, 4])
    ieee_machine (wholeM_wf _ _ _ _ _) (wholeM_at1 (by simp) rfl ⟨by decide, by decide⟩) (wholeT_elems (by decide) rfl)
    (wholeM_at2 (by simp) rfl ⟨by decide, by decide⟩) (wholeT_elems (by decide) rfl) rfl rfl rfl (by decide) (wholeT_numbers (by decide) rfl)
    (wholeT_numbers (by decide) rfl) (by refine all_coords ?_; simp only [wholeT, tvOf]; decide) (by refine all_coords ?_; simp only [wholeT, tvOf]; decide)
    (by refine all_coords ?_; simp only [wholeT, tvOf]; decide) .indet .indet .indet
  obtain ⟨y, m', r⟩ := b (fun _ _ => rfl) (fun _ _ => rfl)
  obtain ⟨R', ws, e, h, -, n⟩ := a y m' r
  exact ⟨y, m', r, R', ws, e, h, n⟩

/-- The condition is needed: in `int8_t` the difference of 100 and -100 is reduced to -56, and -100 would be taken for the larger number. -/
example : OpResult ieee .i8 .sub (.int 100) (.int (-100)) (.int (-56)) :=
  ⟨200, -56, rfl, rfl, -128, 127, rfl, by decide, by decide, 1, rfl⟩

end Aitisa
