import Verif.Proof.Border
import Verif.Props.Pooling
import Verif.Props.Conv

/-!
# C82: padding is a border of zeros
-/

namespace Aitisa

variable {E : Env} {m m' : Mem} {R R' R1 R1' R2 R2' : Foot} {T T' T1 T1' T2 T2' : TV} {c : Code} {xs xs' ys : List Val} {ws : List Win} {fuel : Nat} {B C O : Nat}

theorem bordered_out : (ws.map Win.bordered).map Win.out = ws.map Win.out := by
  simp [Function.comp_def, Win.bordered, Win.out]

theorem bordered_k : (ws.map Win.bordered).map Win.k = ws.map Win.k := by simp [Function.comp_def, Win.bordered]

theorem bordered_fits (h : ∀ w ∈ ws, w.Fits ∧ w.Small) : ∀ w ∈ ws.map Win.bordered, w.Fits ∧ w.Small := by
  intro w hw
  obtain ⟨v, hv, rfl⟩ := List.mem_map.1 hw
  obtain ⟨f, s⟩ := h v hv
  exact ⟨⟨f.k, f.s, f.d, f.fits⟩, ⟨s.x, s.s, s.d⟩⟩

theorem bordered_wide (h : ∀ w ∈ ws, w.Fits ∧ w.Wide) : ∀ w ∈ ws.map Win.bordered, w.Fits ∧ w.Wide := by
  intro w hw
  obtain ⟨v, hv, rfl⟩ := List.mem_map.1 hw
  obtain ⟨f, s⟩ := h v hv
  exact ⟨⟨f.k, f.s, f.d, f.fits⟩, ⟨s.k, s.s, by simp [Win.bordered], s.x, s.span⟩⟩

section
variable (hE : Machine E.fp) (wf : m.WF) (wf' : m'.WF) (h1 : At m R T) (he : Elems T c xs) (h1' : At m' R' T') (he' : Elems T' c xs')
  (hs : T.dims = B :: C :: ws.map Win.x) (hs' : T'.dims = B :: C :: (ws.map Win.bordered).map Win.x) (hB : Bordered c B C ws xs xs')
  (hw : 1 ≤ ws.length) (hw' : ws.length ≤ 3) (h : ∀ w ∈ ws, w.Fits ∧ w.Small) (hso : ShapeOK (B :: C :: ws.map Win.out) c.size)
  (hi : prod (ws.map Win.out) ≤ 2147483647) (hK : prod (ws.map Win.k) ≤ 9223372036854775807)
  (hf : prod (ws.map Win.k) ≤ fuel) (hf' : prod (ws.map Win.out) ≤ fuel)
include hE wf wf' h1 he h1' he' hs hs' hB hw hw' h hso hi hK hf hf'

/-- C82, max pooling: pooling with padding gives the elements that pooling without padding gives on a tensor with a border of zeros as
wide as the padding, for every element type in which the maxima are representable (always so for `float` and `double`). -/
theorem C82_max_pooling
    (hd : ∀ b ch os, InRange (B :: C :: ws.map Win.out) (b :: ch :: os) → ∃ y, ScanOf E.fp c (winElems T.dims xs ws b ch os) y) (out out' : Ptr) :
    ∃ zs : List Val, zs.length = prod (B :: C :: ws.map Win.out) ∧
      Attempts E (maxPool fuel ws out R.h) m ⟨c.dtype, T.device, B :: C :: ws.map Win.out, encAll c zs⟩ ∧
      Attempts E (maxPool fuel (ws.map Win.bordered) out' R'.h) m' ⟨c.dtype, T'.device, B :: C :: ws.map Win.out, encAll c zs⟩ := by
  obtain ⟨zs, hl, hz⟩ := exists_elems (ds := B :: C :: ws.map Win.out) (P := fun x w => ∀ b ch os, x = b :: ch :: os →
    ScanOf E.fp c (winElems T.dims xs ws b ch os) w) (fun x hx => by
      match x, hx with
      | b :: ch :: os, hio =>
        obtain ⟨y, hy⟩ := hd b ch os hio
        exact ⟨y, by rintro _ _ _ ⟨⟩; exact hy⟩)
  refine ⟨zs, hl, C38_max wf h1 he hs hw hw' h hso hi hK hf hf' hl (fun b ch os hio => hz _ hio b ch os rfl) out, ?_⟩
  have := C38_max (E := E) (fuel := fuel) (zs := zs) wf' h1' he' hs' (by simpa using hw) (by simpa using hw') (bordered_fits h) (by rw [bordered_out]; exact hso)
    (by rw [bordered_out]; exact hi) (by rw [bordered_k]; exact hK) (by rw [bordered_k]; exact hf) (by rw [bordered_out]; exact hf')
    (by rw [bordered_out]; exact hl) (by
      rw [bordered_out]
      intro b ch os hio
      have e := hz _ hio b ch os rfl
      rw [hE.scan, hs] at e
      rw [hE.scan, hs']
      exact scan_pads (win_pads (fun w hw => (h w hw).1) hB hio.1 hio.2.1 hio.2.2) e) out'
  rw [bordered_out] at this
  exact this

/-- C82, average pooling: likewise. The divisor is the size of the window, padding included. -/
theorem C82_avg_pooling
    (hd : ∀ b ch os, InRange (B :: C :: ws.map Win.out) (b :: ch :: os) →
      ∃ y, AvgOf E.fp c (prod (ws.map Win.k)) (winElems T.dims xs ws b ch os) y) (out out' : Ptr) :
    ∃ zs : List Val, zs.length = prod (B :: C :: ws.map Win.out) ∧
      Attempts E (avgPool fuel ws out R.h) m ⟨c.dtype, T.device, B :: C :: ws.map Win.out, encAll c zs⟩ ∧
      Attempts E (avgPool fuel (ws.map Win.bordered) out' R'.h) m' ⟨c.dtype, T'.device, B :: C :: ws.map Win.out, encAll c zs⟩ := by
  obtain ⟨zs, hl, hz⟩ := exists_elems (ds := B :: C :: ws.map Win.out) (P := fun x w => ∀ b ch os, x = b :: ch :: os →
    AvgOf E.fp c (prod (ws.map Win.k)) (winElems T.dims xs ws b ch os) w) (fun x hx => by
      match x, hx with
      | b :: ch :: os, hio =>
        obtain ⟨y, hy⟩ := hd b ch os hio
        exact ⟨y, by rintro _ _ _ ⟨⟩; exact hy⟩)
  refine ⟨zs, hl, C38_avg wf h1 he hs hw hw' h hso hi hK hf hf' hl (fun b ch os hio => hz _ hio b ch os rfl) out, ?_⟩
  have := C38_avg (E := E) (fuel := fuel) (zs := zs) wf' h1' he' hs' (by simpa using hw) (by simpa using hw') (bordered_fits h) (by rw [bordered_out]; exact hso)
    (by rw [bordered_out]; exact hi) (by rw [bordered_k]; exact hK) (by rw [bordered_k]; exact hf) (by rw [bordered_out]; exact hf')
    (by rw [bordered_out]; exact hl) (by
      rw [bordered_out, bordered_k]
      intro b ch os hio
      have e := hz _ hio b ch os rfl
      rw [hE.avg, hs] at e
      rw [hE.avg, hs']
      exact avg_pads (win_pads (fun w hw => (h w hw).1) hB hio.1 hio.2.1 hio.2.2) e) out'
  rw [bordered_out] at this
  exact this

end

/-- C82, convolution with filters whose elements are finite. Without fused multiply-adds the elements are the same; with them, a zero may
have the other sign. -/
theorem C82_conv (hE : Machine E.fp) (wf : m.WF) (wf' : m'.WF) (h1 : At m R1 T1) (h2 : At m R2 T2) (e1 : Elems T1 .f32 xs) (e2 : Elems T2 .f32 ys)
    (h1' : At m' R1' T1') (h2' : At m' R2' T2') (e1' : Elems T1' .f32 xs') (e2' : Elems T2' .f32 ys)
    (s1 : T1.dims = B :: C :: ws.map Win.x) (s2 : T2.dims = O :: C :: ws.map Win.k) (s1' : T1'.dims = B :: C :: (ws.map Win.bordered).map Win.x)
    (s2' : T2'.dims = T2.dims) (hB : Bordered .f32 B C ws xs xs') (fin : ∀ y ∈ ys, Finite y) (h : ∀ w ∈ ws, w.Fits ∧ w.Wide)
    (hso : ShapeOK (B :: O :: ws.map Win.out) 4) (hC : 0 < C) (st st' : Status) (groups : Int) (out out' : Ptr) :
    ∃ zs zs' : List Val, zs.length = prod (B :: O :: ws.map Win.out) ∧
      Leaves E (conv (some st) (some st') R1.h R2.h (dimsCells (ws.map Win.s)) (dimsCells (ws.map Win.p)) (dimsCells (ws.map Win.d)) groups out) m out
        (if st = .success then st' else st) ⟨Code.f32.dtype, T1.device, B :: O :: ws.map Win.out, encAll .f32 zs⟩ ∧
      Leaves E (conv (some st) (some st') R1'.h R2'.h (dimsCells (ws.map Win.s)) (dimsCells (ws.map fun _ => 0)) (dimsCells (ws.map Win.d)) groups out') m' out'
        (if st = .success then st' else st) ⟨Code.f32.dtype, T1'.device, B :: O :: ws.map Win.out, encAll .f32 zs'⟩ ∧
      Pointwise SameNumber zs zs' ∧ (E.fp.mac32 = ieee.mac32 → zs' = zs) := by
  obtain ⟨zs, hl, hz, hv⟩ := C40_conv (E := E) wf h1 h2 e1 e2 s1 s2 h hso hC st st' groups out
  obtain ⟨zs', hl', hz', hv'⟩ := C40_conv (E := E) wf' h1' h2' e1' e2' s1' (by rw [bordered_k]; exact s2'.trans s2) (bordered_wide h)
    (by rw [bordered_out]; exact hso) hC st st' groups out'
  rw [bordered_out] at hl' hz' hv'
  have key : ∀ i (h1 : i < zs.length) (h2 : i < zs'.length), SameNumber zs[i] zs'[i] ∧ (E.fp.mac32 = ieee.mac32 → zs[i] = zs'[i]) := by
    intro i h1 h2
    have hi := unlin_inRange (ds := B :: O :: ws.map Win.out) (by omega : i < _)
    have hi' := lin_unlin (ds := B :: O :: ws.map Win.out) (by omega : i < _)
    match hcs : unlin (B :: O :: ws.map Win.out) i, hi with
    | b :: oc :: os, hio =>
      rw [hcs] at hi'
      have a := hz b oc os hio
      have a' := hz' b oc os hio
      rw [elemAt_get (by omega)] at a a'
      simp only [hi'] at a a'
      rw [s1, s2] at a
      rw [s1', s2', s2] at a'
      have hlen : ws.length = os.length := by have := hio.2.2.length; simpa using this.symm
      refine conv_same hE e2.wt fin (conv_pads (fun w hw => (h w hw).1) hB hio.1 (by rw [e2.len, s2]) hio.2.1 hio.2.2) (fun p hp => ?_) a a'
      simp only [convTerms, List.mem_flatMap, List.mem_range, List.mem_filterMap, Option.map_eq_some_iff] at hp
      obtain ⟨ic, hic, j, hj, cs, hw, rfl⟩ := hp
      exact ⟨e1.wt _ (grid_mem (by rw [e1.len, s1]) ⟨hio.1, hic, winAt_inRange hlen (by rw [unlin_length]; simp) hw⟩),
        e2.wt _ (grid_mem (by rw [e2.len, s2]) ⟨hio.2.1, hic, unlin_inRange hj⟩)⟩
  refine ⟨zs, zs', hl, hv, ?_, ⟨by omega, fun i h1 h2 => (key i h1 h2).1⟩, fun e => ?_⟩
  · simpa [Function.comp_def, Win.bordered] using hv'
  · exact (List.ext_getElem (by omega) fun i h1 h2 => (key i h1 h2).2 e).symm

/-! ### Examples -/

/-- -1 and 2.5. -/
def exBd : List Val := [.f32 0xBF800000, .f32 0x40200000]

/-- With a border of one zero. -/
def exBd' : List Val := [.f32 0, .f32 0xBF800000, .f32 0x40200000, .f32 0]

/-- Two elements, window 2, stride 1, padding 1. -/
def exBw : Win := ⟨2, 2, 1, 1, 1⟩

theorem exBd_bordered : Bordered .f32 1 1 [exBw] exBd exBd' := by
  intro b ch qs h
  match b, ch, qs, h with
  | 0, 0, [0], _ => rfl
  | 0, 0, [1], _ => rfl
  | 0, 0, [2], _ => rfl
  | 0, 0, [3], _ => rfl
  | 0, 0, [q + 4], ⟨_, _, h, _⟩ => exact absurd h (by simp [exBw, Win.bordered])
  | 0, ch + 1, _, ⟨_, h, _⟩ => omega
  | b + 1, _, _, ⟨h, _⟩ => omega
  | 0, 0, [], ⟨_, _, h⟩ => exact h.elim
  | 0, 0, _ :: _ :: _, ⟨_, _, _, h⟩ => exact h.elim

theorem exBw_fits : ∀ w ∈ [exBw], w.Fits ∧ w.Small := by
  intro w hw
  simp only [List.mem_singleton] at hw
  subst hw
  exact ⟨⟨by decide, by decide, by decide, by decide⟩, ⟨by decide, by decide, by decide⟩⟩

/-- The maxima: 0 (of 0 and -1), 2.5, 2.5. -/
example : ∃ zs : List Val, zs.length = 3 ∧
    Attempts ieeeEnv (maxPool 10 [exBw] .indet Mem.empty.footT.h) (Mem.empty.addT (tvOf .f32 [1, 1, 2] exBd))
      ⟨Code.f32.dtype, ⟨DEVICE_CPU, 0⟩, [1, 1, 3], encAll .f32 zs⟩ ∧
    Attempts ieeeEnv (maxPool 10 [⟨4, 2, 1, 0, 1⟩] .indet Mem.empty.footT.h) (Mem.empty.addT (tvOf .f32 [1, 1, 4] exBd'))
      ⟨Code.f32.dtype, ⟨DEVICE_CPU, 0⟩, [1, 1, 3], encAll .f32 zs⟩ :=
  C82_max_pooling (T := tvOf .f32 [1, 1, 2] exBd) (T' := tvOf .f32 [1, 1, 4] exBd') (ws := [exBw]) (B := 1) (C := 1) (fuel := 10) ieee_machine
    (Mem.addT_wf Mem.empty_wf _) (Mem.addT_wf Mem.empty_wf _) (tvOf_at _ (by simp) rfl ⟨by decide, by decide⟩) (tvOf_elems (by decide) rfl)
    (tvOf_at _ (by simp) rfl ⟨by decide, by decide⟩) (tvOf_elems (by decide) rfl) rfl rfl exBd_bordered (by simp) (by simp) exBw_fits
    ⟨by decide, by decide⟩ (by decide) (by decide) (by decide) (by decide) (fun _ _ _ _ => ⟨_, _, scansTo_iff.2 rfl, rfl⟩) .indet .indet

/-- The averages: -0.5, 0.75, 1.25. -/
example : ∃ zs : List Val, zs.length = 3 ∧
    Attempts ieeeEnv (avgPool 10 [exBw] .indet Mem.empty.footT.h) (Mem.empty.addT (tvOf .f32 [1, 1, 2] exBd))
      ⟨Code.f32.dtype, ⟨DEVICE_CPU, 0⟩, [1, 1, 3], encAll .f32 zs⟩ ∧
    Attempts ieeeEnv (avgPool 10 [⟨4, 2, 1, 0, 1⟩] .indet Mem.empty.footT.h) (Mem.empty.addT (tvOf .f32 [1, 1, 4] exBd'))
      ⟨Code.f32.dtype, ⟨DEVICE_CPU, 0⟩, [1, 1, 3], encAll .f32 zs⟩ :=
  C82_avg_pooling (T := tvOf .f32 [1, 1, 2] exBd) (T' := tvOf .f32 [1, 1, 4] exBd') (ws := [exBw]) (B := 1) (C := 1) (fuel := 10) ieee_machine
    (Mem.addT_wf Mem.empty_wf _) (Mem.addT_wf Mem.empty_wf _) (tvOf_at _ (by simp) rfl ⟨by decide, by decide⟩) (tvOf_elems (by decide) rfl)
    (tvOf_at _ (by simp) rfl ⟨by decide, by decide⟩) (tvOf_elems (by decide) rfl) rfl rfl exBd_bordered (by simp) (by simp) exBw_fits
    ⟨by decide, by decide⟩ (by decide) (by decide) (by decide) (by decide) (fun _ _ _ _ => ⟨_, avgOf_iff.2 (converts_iff.1 rfl)⟩) .indet .indet

/-- Filter 0.5, -3. -/
def exBf : List Val := [.f32 0x3F000000, .f32 0xC0400000]

example : ∃ zs zs' : List Val, zs.length = 3 ∧
    Leaves fusedEnv (conv (some .success) (some .success) Mem.empty.footT.h (Mem.empty.addT (tvOf .f32 [1, 1, 2] exBd)).footT.h (dimsCells [1]) (dimsCells [1])
      (dimsCells [1]) 1 .indet) ((Mem.empty.addT (tvOf .f32 [1, 1, 2] exBd)).addT (tvOf .f32 [1, 1, 2] exBf)) .indet .success
      ⟨Code.f32.dtype, ⟨DEVICE_CPU, 0⟩, [1, 1, 3], encAll .f32 zs⟩ ∧
    Leaves fusedEnv (conv (some .success) (some .success) Mem.empty.footT.h (Mem.empty.addT (tvOf .f32 [1, 1, 4] exBd')).footT.h (dimsCells [1]) (dimsCells [0])
      (dimsCells [1]) 1 .indet) ((Mem.empty.addT (tvOf .f32 [1, 1, 4] exBd')).addT (tvOf .f32 [1, 1, 2] exBf)) .indet .success
      ⟨Code.f32.dtype, ⟨DEVICE_CPU, 0⟩, [1, 1, 3], encAll .f32 zs'⟩ ∧ Pointwise SameNumber zs zs' ∧ (fused.mac32 = ieee.mac32 → zs' = zs) :=
  C82_conv (T1 := tvOf .f32 [1, 1, 2] exBd) (T1' := tvOf .f32 [1, 1, 4] exBd') (T2 := tvOf .f32 [1, 1, 2] exBf) (T2' := tvOf .f32 [1, 1, 2] exBf)
    (ws := [exBw]) (B := 1) (O := 1) (C := 1) fused_machine
    (Mem.addT_wf (Mem.addT_wf Mem.empty_wf _) _) (Mem.addT_wf (Mem.addT_wf Mem.empty_wf _) _)
    (addT_old (Mem.addT_wf Mem.empty_wf _) (tvOf_at _ (by simp) rfl ⟨by decide, by decide⟩) _) (tvOf_at _ (by simp) rfl ⟨by decide, by decide⟩)
    (tvOf_elems (by decide) rfl) (tvOf_elems (by decide) rfl)
    (addT_old (Mem.addT_wf Mem.empty_wf _) (tvOf_at _ (by simp) rfl ⟨by decide, by decide⟩) _) (tvOf_at _ (by simp) rfl ⟨by decide, by decide⟩)
    (tvOf_elems (by decide) rfl) (tvOf_elems (by decide) rfl) rfl rfl rfl rfl exBd_bordered (by
      intro y hy
      simp only [exBf, List.mem_cons, List.not_mem_nil, or_false] at hy
      rcases hy with rfl | rfl <;> (simp only [Finite]; decide +kernel)) (by
      intro w hw
      simp only [List.mem_singleton] at hw
      subst hw
      exact ⟨⟨by decide, by decide, by decide, by decide⟩, ⟨by decide, by decide, by decide, by decide, by decide⟩⟩)
    ⟨by decide, by decide⟩ (by omega) .success .success 1 .indet .indet

/-- Why only the number is the same when multiply-adds are fused: the least positive number times its opposite rounds to -0, and a further
zero term makes that +0. -/
example : ConvOf fused [(.f32 1, .f32 0x80000001)] (.f32 0x80000000) ∧
    ConvOf fused [(.f32 1, .f32 0x80000001), (.f32 0, .f32 0x3F800000)] (.f32 0) := by
  refine ⟨⟨.f32 0, ?_, .f32 0x80000000, ?_, rfl⟩, ⟨.f32 0, ?_, .f32 0x80000000, ?_, .f32 0, ?_, rfl⟩⟩ <;>
    exact congrArg Val.f32 (by decide +kernel)

end Aitisa
