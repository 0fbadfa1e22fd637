import Verif.Spec.SquareRoot
import Verif.Proof.SquareRoot
import Verif.Props.PoolRoot
import Verif.Props.Cancel

/-!
# C88: calculations that can be undone

On every machine (binary32 and binary64), although both the square and its root are rounded - in `float` the root twice -, `aitisa_sqrt` of the result of
`aitisa_mul` of a tensor with itself gives back the numbers without their signs, exactly. A difference of numbers that are close is undone by adding.
-/

namespace Aitisa

variable {E : Env} {m : Mem} {R : Foot} {T : TV} {c : Code} {xs : List Val}

theorem Path.ends {l : List (Ptr → M (Status × Ptr))} {T' : TV} (wf : m.WF) (h : At m R T) (p : Path E l T T') : EndsIn E m l R.h T' :=
  ⟨fun _ _ ch => by
    obtain ⟨-, -, R', e, a, -⟩ := p.only wf h ch
    exact ⟨R', e, a⟩, fun nf mf => p.runs wf h nf mf⟩

theorem not_negative_rat {x : Val} {a : Rat} (hx : x.WT c) (hc : c = .f32 ∨ c = .f64) (ha : x.rat = some a) (h0 : 0 ≤ a) : ¬ Negative ieee x := by
  rcases hc with rfl | rfl
  · cases x <;> simp only [Val.WT] at hx
    rename_i b
    have := rat_not_negative b32_ok (bits32 b) ha h0
    show ¬ b32.lt b.toNat (BitVec.ofNat 32 (b32.ofInt 0)).toNat = true
    rw [of32 (ofInt_lt b32_ok _), this]; simp
  · cases x <;> simp only [Val.WT] at hx
    rename_i b
    have := rat_not_negative b64_ok (bits64 b) ha h0
    show ¬ b64.lt b.toNat (BitVec.ofNat 64 (b64.ofInt 0)).toNat = true
    rw [of64 (ofInt_lt b64_ok _), this]; simp

/-- A rounded square is a number that is not negative. -/
theorem square_number {F : Fmt} (h : F.OK) {b : Nat} {a : Rat} (hl : a * a < F.limit) (hr : F.Rounded (a * a) b) :
    ∃ v, F.rat b = some v ∧ 0 ≤ v := by
  have aa : 0 ≤ a * a := by
    rcases Rat.le_total (a := 0) (b := a) with h | h
    · exact Rat.mul_nonneg h h
    · have := Rat.mul_nonneg (a := -a) (b := -a) (by grind) (by grind); grind
  have hi := inf_pos h
  have hs := inf_lt_sign h
  obtain ⟨v, hv, near⟩ := hr.1 (by grind [Rat.abs])
  have h0 := rat_signed h (s := false) (n := 0) hi
  rw [show F.signed false 0 = 0 by simp [Fmt.signed], show F.mag 0 = 0 by simp [Fmt.mag]] at h0
  have h0' : F.rat 0 = some 0 := by rw [h0]; simp [sgn, Rat.div_def]
  have := (near 0 0 (by rw [two_sign h]; omega) h0').1
  exact ⟨v, hv, by grind [Rat.abs]⟩

/-- The calculation on one element. -/
theorem square_val {x z y : Val} {a : Rat} (hx : x.WT c) (hc : c = .f32 ∨ c = .f64) (ha : x.rat = some a) (hs : Squarable c a)
    (hz : OpResult ieee c .mul x x z) : z.WT c ∧ ¬ Negative ieee z ∧ (y.WT c → RootOf ieee c z y → y.rat = some a.abs) := by
  have hr := op_rounded (e := a * a) hx hx hc hz ha ha rfl
  have hw : z.WT c := by
    rcases hc with rfl | rfl <;> cases x <;> try exact hx.elim
    all_goals (cases z <;> first | trivial | cases hz)
  have hlim : a * a < c.fmt.limit := by
    rcases hs with rfl | hs
    · rcases hc with rfl | rfl
      · have := limit_pos b32_ok; simpa [Code.fmt] using this
      · have := limit_pos b64_ok; simpa [Code.fmt] using this
    · exact hs.2
  have hnum : ∃ v, z.rat = some v ∧ 0 ≤ v := by
    rcases hc with rfl | rfl <;> cases z <;> try exact hw.elim
    · exact square_number b32_ok hlim hr
    · exact square_number b64_ok hlim hr
  obtain ⟨v, hv, h0⟩ := hnum
  refine ⟨hw, not_negative_rat hw hc hv h0, fun hy hroot => ?_⟩
  have hq := root_rounded hw hc hroot hv h0
  have hf : a = 0 ∨ c.tiny ≤ a * a := hs.imp id And.left
  rcases hc with rfl | rfl <;> cases x <;> try exact hx.elim
  all_goals (cases z <;> try exact hw.elim)
  all_goals (cases y <;> try exact hy.elim)
  · exact square_root b32_ok (bits32 _) (bits32 _) (bits32 _) ha (by rwa [tiny32] at hf) hr hv hq
  · exact square_root b64_ok (bits64 _) (bits64 _) (bits64 _) ha (by rwa [tiny64] at hf) hr hv hq

/-- C88. `aitisa_mul` of a `float` or `double` tensor with itself, then `aitisa_sqrt` of the result: the numbers without their signs, exactly, if no square
is beyond the range or tiny (other than 0). -/
theorem C88_square_root (hE : Machine E.fp) (wf : m.WF) (hc : c = .f32 ∨ c = .f64) (h : At m R T) (he : Elems T c xs) (hd : T.device.type = 0)
    (hi : prod T.dims ≤ 2147483647) (hx : ∀ x ∈ xs, ∃ a, x.rat = some a ∧ Squarable c a) (out1 out2 : Ptr) :
    ∃ ys : List Val, EndsIn E m [fun h => binaryOp .mul h h out1, fun h => sqrt h out2] R.h ⟨c.dtype, T.device, T.dims, encAll c ys⟩ ∧
      (∀ y ∈ ys, y.WT c) ∧ Pointwise (fun x y => ∀ a, x.rat = some a → y.rat = some a.abs) xs ys := by
  have hex : ∀ x : Val, ∃ z, x ∈ xs → OpResult ieee c .mul x x z := fun x => by
    by_cases hm : x ∈ xs
    · obtain ⟨z, hz⟩ := op_float (fp := ieee) (op := .mul) (he.wt x hm) (he.wt x hm) hc
      exact ⟨z, fun _ => hz⟩
    · exact ⟨.int 0, fun a => absurd a hm⟩
  obtain ⟨f, hf⟩ := Classical.axiomOfChoice hex
  have wz : ∀ z ∈ xs.map f, z.WT c := fun z hz => by
    obtain ⟨x, hm, rfl⟩ := List.mem_map.1 hz
    obtain ⟨a, ha, hs⟩ := hx x hm
    exact (square_val (y := .int 0) (he.wt x hm) hc ha hs (hf x hm)).1
  have nz : ∀ z ∈ xs.map f, ¬ Negative ieee z := fun z hz => by
    obtain ⟨x, hm, rfl⟩ := List.mem_map.1 hz
    obtain ⟨a, ha, hs⟩ := hx x hm
    exact (square_val (y := .int 0) (he.wt x hm) hc ha hs (hf x hm)).2.1
  obtain ⟨ys, pw, wy⟩ := roots_exist wz nz (fun n hn => by have := wz _ hn; rcases hc with rfl | rfl <;> exact this.elim)
  refine ⟨ys, Path.ends wf h ⟨⟨c.dtype, T.device, T.dims, encAll c (xs.map f)⟩, fun m' R' wf' h' => ?_, _,
    sqrt_gives (c := c) (xs := xs.map f) (ys := ys) hE ⟨rfl, rfl, wz, by rw [List.length_map, he.len]⟩
      (fun z hz => by rw [hE.negative]; exact nz z hz) (by rw [hE.root]; exact pw) out2, rfl⟩, wy,
    ⟨by have := pw.1; simpa using this, fun i i1 i2 a ha => ?_⟩⟩
  · exact (C26_binary wf' h' he h' he hd hd rfl hi (by simp) (fun i i1 _ _ => by
      rw [hE.op, List.getElem_map]; exact hf _ (List.getElem_mem i1)) out1).yields
  · obtain ⟨a', ha', hs⟩ := hx _ (List.getElem_mem i1)
    rw [ha] at ha'
    cases ha'
    have := pw.2 i (by simpa using i1) i2
    rw [List.getElem_map] at this
    exact (square_val (he.wt _ (List.getElem_mem i1)) hc ha hs (hf _ (List.getElem_mem i1))).2.2 (wy _ (List.getElem_mem i2)) this

/-! ### Differences and sums -/

/-- A number is itself correctly rounded. -/
theorem self_rounded {x : Val} {a : Rat} (hc : c = .f32 ∨ c = .f64) (hx : x.WT c) (ha : x.rat = some a) : RoundedTo a x := by
  rcases hc with rfl | rfl <;> cases x <;> try exact hx.elim
  · exact rounded_self b32_ok (bits32 _) ha
  · exact rounded_self b64_ok (bits64 _) ha

/-- Results of an operator on elements of a floating-point type. -/
theorem results_exist {op : BinOp} {ys : List Val} (hc : c = .f32 ∨ c = .f64) (w1 : ∀ x ∈ xs, x.WT c) (w2 : ∀ y ∈ ys, y.WT c) (hl : ys.length = xs.length) :
    ∃ zs : List Val, zs.length = xs.length ∧ (∀ z ∈ zs, z.WT c) ∧
      ∀ i (_ : i < xs.length) (_ : i < ys.length) (_ : i < zs.length), OpResult ieee c op xs[i] ys[i] zs[i] := by
  have hex : ∀ i, ∃ z : Val, ∀ (h1 : i < xs.length) (h2 : i < ys.length), z.WT c ∧ OpResult ieee c op xs[i] ys[i] z := fun i => by
    by_cases hi : i < xs.length ∧ i < ys.length
    · have a1 := w1 _ (List.getElem_mem hi.1)
      have a2 := w2 _ (List.getElem_mem hi.2)
      obtain ⟨z, hz⟩ := op_float (fp := ieee) (op := op) a1 a2 hc
      refine ⟨z, fun _ _ => ⟨?_, hz⟩⟩
      generalize xs[i] = x at *
      generalize ys[i] = y at *
      rcases hc with rfl | rfl <;> cases x <;> try exact a1.elim
      all_goals (cases y <;> try exact a2.elim)
      all_goals (cases z <;> first | trivial | cases hz)
    · exact ⟨.int 0, fun a b => absurd ⟨a, b⟩ hi⟩
  obtain ⟨f, hf⟩ := Classical.axiomOfChoice hex
  refine ⟨(List.range xs.length).map f, by simp, fun z hz => ?_, fun i h1 h2 _ => ?_⟩
  · obtain ⟨i, hi, rfl⟩ := List.mem_map.1 hz
    have := List.mem_range.1 hi
    exact (hf i this (by omega)).1
  · rw [List.getElem_map, List.getElem_range]; exact (hf i h1 h2).2

section
variable {R1 R2 : Foot} {T1 T2 : TV} {ys : List Val} (hE : Machine E.fp) (wf : m.WF) (hc : c = .f32 ∨ c = .f64) (h1 : At m R1 T1) (he1 : Elems T1 c xs)
  (h2 : At m R2 T2) (he2 : Elems T2 c ys) (hd1 : T1.device.type = 0) (hd2 : T2.device.type = 0) (hd : T2.dims = T1.dims)
  (hi : prod T1.dims ≤ 2147483647)
include hE wf hc h1 he1 h2 he2 hd1 hd2 hd hi

theorem undo_run (op op' : BinOp) (out1 out2 : Ptr) :
    ∃ ws : List Val, EndsIn E m [fun h => binaryOp op h R2.h out1, fun h => binaryOp op' h R2.h out2] R1.h ⟨c.dtype, T1.device, T1.dims, encAll c ws⟩ ∧
      ws.length = xs.length ∧ ∀ i (_ : i < xs.length) (_ : i < ys.length) (_ : i < ws.length), ws[i].WT c ∧
        ∃ z : Val, z.WT c ∧ OpResult ieee c op xs[i] ys[i] z ∧ OpResult ieee c op' z ys[i] ws[i] := by
  have l1 := he1.len
  have l2 := he2.len
  rw [hd] at l2
  obtain ⟨zs, lz, wz, hz⟩ := results_exist (op := op) hc he1.wt he2.wt (by omega)
  obtain ⟨ws, lw, ww, hw⟩ := results_exist (op := op') hc wz he2.wt (by omega)
  have first := (C26_binary (E := E) (op := op) wf h1 he1 h2 he2 hd1 hd2 hd hi lz (fun i a b d => by rw [hE.op]; exact hz i a b d) out1).yields
  have second : ∀ {m1 : Mem} {Rz : Foot}, Produces m m1 Rz ⟨c.dtype, T1.device, T1.dims, encAll c zs⟩ →
      MakesIf E (binaryOp op' Rz.h R2.h out2) m1 ⟨c.dtype, T1.device, T1.dims, encAll c ws⟩ := fun {m1 Rz} P =>
    (C26_binary (E := E) (op := op') (T1 := ⟨c.dtype, T1.device, T1.dims, encAll c zs⟩) (xs := zs) P.wf P.tensor ⟨rfl, rfl, wz, by rw [lz, l1]⟩
      (h2.frame wf P.frame) he2 hd1 hd2 hd hi lw (fun i a b d => by rw [hE.op]; exact hw i a b d) out2).yields
  refine ⟨ws, ⟨?_, ?_⟩, by omega, fun i a b d => ⟨ww _ (List.getElem_mem d), zs[i], wz _ (List.getElem_mem _), hz i a b (by omega), hw i (by omega) b d⟩⟩
  · rintro h' m' ⟨hh, m1, e, hh', m1', e', rfl, rfl⟩
    obtain ⟨Rz, rfl, P⟩ := first.only e
    obtain ⟨Rw, rfl, Q⟩ := (second P).only e'
    exact ⟨Rw, rfl, Q.tensor⟩
  · intro nf mf
    obtain ⟨Rz, m1, e, P⟩ := first.runs nf mf
    obtain ⟨Rw, m2, e', Q⟩ := (second P).runs nf mf
    exact ⟨_, _, _, _, e, _, _, e', rfl, rfl⟩

/-- C88. `aitisa_sub` of a second tensor, then `aitisa_add` of it to the result: the numbers of the first tensor again, exactly, where neither number is
more than twice the other or their difference is below twice the smallest number of full precision. -/
theorem C88_sub_add (out1 out2 : Ptr) :
    ∃ ws : List Val, EndsIn E m [fun h => binaryOp .sub h R2.h out1, fun h => binaryOp .add h R2.h out2] R1.h
        ⟨c.dtype, T1.device, T1.dims, encAll c ws⟩ ∧ ws.length = xs.length ∧
      ∀ i (_ : i < xs.length) (_ : i < ys.length) (_ : i < ws.length) (a b : Rat), xs[i].rat = some a → ys[i].rat = some b →
        (Alike a b ∨ (a - b).abs < 2 * c.tiny) → ws[i].rat = some a := by
  obtain ⟨ws, he, hl, hp⟩ := undo_run hE wf hc h1 he1 h2 he2 hd1 hd2 hd hi .sub .add out1 out2
  refine ⟨ws, he, hl, fun i i1 i2 i3 a b ha hb hab => ?_⟩
  obtain ⟨ww, z, wz, hz, hw⟩ := hp i i1 i2 i3
  have w1 := he1.wt _ (List.getElem_mem i1)
  have w2 := he2.wt _ (List.getElem_mem i2)
  have hr := (diff_val w1 w2 wz hc ha hb (op_rounded w1 w2 hc hz ha hb rfl)).2 hab
  have hq := op_rounded (e := a - b + b) wz w2 hc hw hr hb rfl
  rw [show a - b + b = a by grind] at hq
  rw [← ha]
  exact C75_unique ww w1 hq (self_rounded hc w1 ha)

/-- C88. Likewise `aitisa_add` of a second tensor, then `aitisa_sub` of it from the result. -/
theorem C88_add_sub (out1 out2 : Ptr) :
    ∃ ws : List Val, EndsIn E m [fun h => binaryOp .add h R2.h out1, fun h => binaryOp .sub h R2.h out2] R1.h
        ⟨c.dtype, T1.device, T1.dims, encAll c ws⟩ ∧ ws.length = xs.length ∧
      ∀ i (_ : i < xs.length) (_ : i < ys.length) (_ : i < ws.length) (a b : Rat), xs[i].rat = some a → ys[i].rat = some b →
        (Alike a (-b) ∨ (a + b).abs < 2 * c.tiny) → ws[i].rat = some a := by
  obtain ⟨ws, he, hl, hp⟩ := undo_run hE wf hc h1 he1 h2 he2 hd1 hd2 hd hi .add .sub out1 out2
  refine ⟨ws, he, hl, fun i i1 i2 i3 a b ha hb hab => ?_⟩
  obtain ⟨ww, z, wz, hz, hw⟩ := hp i i1 i2 i3
  have w1 := he1.wt _ (List.getElem_mem i1)
  have w2 := he2.wt _ (List.getElem_mem i2)
  have hr := (sum_val w1 w2 wz hc ha hb (op_rounded w1 w2 hc hz ha hb rfl)).2 hab
  have hq := op_rounded (e := a + b - b) wz w2 hc hw hr hb rfl
  rw [show a + b - b = a by grind] at hq
  rw [← ha]
  exact C75_unique ww w1 hq (self_rounded hc w1 ha)

end

/-! ### Examples -/

/-- -1 and 0.1 are found again. -/
example : ∃ y1 y2 : Val, EndsIn ieeeEnv (Mem.empty.addT (tvOf .f32 [2] exO)) [fun h => binaryOp .mul h h .indet, fun h => sqrt h .indet] Mem.empty.footT.h
      (tvOf .f32 [2] [y1, y2]) ∧ y1.rat = some 1 ∧ y2.rat = some (13421773 / (2 : Rat) ^ 27) := by
  obtain ⟨ys, he, -, hl, hp⟩ := C88_square_root (E := ieeeEnv) (T := tvOf .f32 [2] exO) (c := .f32) ieee_machine (Mem.addT_wf Mem.empty_wf _) (.inl rfl)
    (tvOf_at _ (by simp) rfl ⟨by decide, by decide⟩) (tvOf_elems (xs := exO) (by decide) rfl) rfl (by decide) (by
      intro x hx
      simp only [exO, List.mem_cons, List.not_mem_nil, or_false] at hx
      rcases hx with rfl | rfl
      · exact ⟨_, exO_rat.1, .inr ⟨by decide +kernel, by decide +kernel⟩⟩
      · exact ⟨_, exO_rat.2, .inr ⟨by decide +kernel, by decide +kernel⟩⟩) .indet .indet
  obtain _ | ⟨y1, _ | ⟨y2, _ | ⟨y3, ys⟩⟩⟩ := ys
  · exact absurd hl (by decide)
  · exact absurd hl (by simp [exO])
  · exact ⟨y1, y2, he, hp 0 (by decide) (by simp) _ exO_rat.1, (hp 1 (by decide) (by simp) _ exO_rat.2).trans (congrArg some (by decide +kernel))⟩
  · exact absurd hl (by simp [exO])

/-- The condition is needed: the square of 2^-80 is rounded to 0, and so is its root. -/
example : (Val.f32 0x17800000).rat = some (1 / (2 : Rat) ^ 80) ∧ OpResult ieee .f32 .mul (.f32 0x17800000) (.f32 0x17800000) (.f32 0) ∧
    RootOf ieee .f32 (.f32 0) (.f32 0) :=
  ⟨by decide +kernel, by simp only [OpResult]; decide +kernel, ⟨_, rfl, by simp only [Converts]; decide +kernel⟩⟩

/-- -1 and 0.1, minus -1.5 and the number after 0.1, plus the same. -/
example : ∃ w1 w2 : Val, EndsIn fusedEnv ((Mem.empty.addT (tvOf .f32 [2] exO)).addT (tvOf .f32 [2] exClose))
      [fun h => binaryOp .sub h (Mem.empty.addT (tvOf .f32 [2] exO)).footT.h .indet, fun h => binaryOp .add h (Mem.empty.addT (tvOf .f32 [2] exO)).footT.h .indet]
      Mem.empty.footT.h (tvOf .f32 [2] [w1, w2]) ∧ w1.rat = some (-1) ∧ w2.rat = some (13421773 / (2 : Rat) ^ 27) := by
  obtain ⟨ws, he, hl, hp⟩ := C88_sub_add (E := fusedEnv) (T1 := tvOf .f32 [2] exO) (T2 := tvOf .f32 [2] exClose) (c := .f32) fused_machine
    (Mem.addT_wf (Mem.addT_wf Mem.empty_wf _) _) (.inl rfl)
    (addT_old (Mem.addT_wf Mem.empty_wf _) (tvOf_at _ (by simp) rfl ⟨by decide, by decide⟩) _) (tvOf_elems (xs := exO) (by decide) rfl)
    (tvOf_at _ (by simp) rfl ⟨by decide, by decide⟩) (tvOf_elems (xs := exClose) (by decide) rfl) rfl rfl rfl (by decide) .indet .indet
  obtain _ | ⟨w1, _ | ⟨w2, _ | ⟨w3, ws⟩⟩⟩ := ws
  · exact absurd hl (by decide)
  · exact absurd hl (by simp [exO])
  · exact ⟨w1, w2, he, hp 0 (by decide) (by decide) (by simp) _ _ exO_rat.1 exClose_rat.1 (.inl exClose_alike.1),
      hp 1 (by decide) (by decide) (by simp) _ _ exO_rat.2 exClose_rat.2 (.inl exClose_alike.2)⟩
  · exact absurd hl (by simp [exO])

/-- -1 plus 0.5 minus 0.5. -/
example : ∃ w1 w2 : Val, EndsIn ieeeEnv ((Mem.empty.addT (tvOf .f32 [2] exO)).addT (tvOf .f32 [2] exW))
      [fun h => binaryOp .add h (Mem.empty.addT (tvOf .f32 [2] exO)).footT.h .indet, fun h => binaryOp .sub h (Mem.empty.addT (tvOf .f32 [2] exO)).footT.h .indet]
      Mem.empty.footT.h (tvOf .f32 [2] [w1, w2]) ∧ w1.rat = some (-1) := by
  obtain ⟨ws, he, hl, hp⟩ := C88_add_sub (E := ieeeEnv) (T1 := tvOf .f32 [2] exO) (T2 := tvOf .f32 [2] exW) (c := .f32) ieee_machine
    (Mem.addT_wf (Mem.addT_wf Mem.empty_wf _) _) (.inl rfl)
    (addT_old (Mem.addT_wf Mem.empty_wf _) (tvOf_at _ (by simp) rfl ⟨by decide, by decide⟩) _) (tvOf_elems (xs := exO) (by decide) rfl)
    (tvOf_at _ (by simp) rfl ⟨by decide, by decide⟩) (tvOf_elems (xs := exW) (by decide) rfl) rfl rfl rfl (by decide) .indet .indet
  obtain _ | ⟨w1, _ | ⟨w2, _ | ⟨w3, ws⟩⟩⟩ := ws
  · exact absurd hl (by decide)
  · exact absurd hl (by simp [exO])
  · exact ⟨w1, w2, he, hp 0 (by decide) (by decide) (by simp) _ _ exO_rat.1 exW_rat.1 (.inl (.inr ⟨by decide +kernel, by decide +kernel⟩))⟩
  · exact absurd hl (by simp [exO])

end Aitisa
