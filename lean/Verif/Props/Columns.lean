import Verif.Spec.Columns
import Verif.Props.Border
import Verif.Props.Overlap
import Verif.Props.Order
import Verif.Props.Regroup

/-!
# C83: a convolution is a product of matrices
-/

namespace Aitisa

variable {E : Env} {m m' : Mem} {R1 R1' R2 R2' : Foot} {T1 T1' T2 T2' : TV} {xs ys ps : List Val} {ws : List Win} {B C O : Nat}

theorem Pads.same {α : Type} {Z : α → Prop} {l l' : List α} (h : Pads Z l l') (hZ : ∀ z, ¬ Z z) : l = l' := by
  induction h with
  | nil => rfl
  | keep x _ ih => rw [ih]
  | extra hz _ _ => exact absurd hz (hZ _)

/-- Without padding no position is outside. -/
theorem inside_at {os qs : List Nat} (hf : ∀ w ∈ ws, w.Fits) (hp : ∀ w ∈ ws, w.p = 0) (ho : InRange (ws.map Win.out) os) (hq : InRange (ws.map Win.k) qs) :
    winAt ws os qs ≠ none := by
  obtain ⟨cs, e, -⟩ := bordered_at hf ho hq
  have : ws.map Win.bordered = ws := by
    rw [List.map_congr_left (g := id) fun w hw => ?_, List.map_id]
    obtain ⟨x, k, s, p, d⟩ := w
    have := hp _ hw
    simp only at this
    subst this
    rfl
  rw [this] at e
  rw [e]
  nofun

/-- The terms of an element of the convolution, and those of an element of the product. -/
theorem column_pads {b oc : Nat} {os : List Nat} (hf : ∀ w ∈ ws, w.Fits) (hP : Patches B C ws xs ps) (hl : ys.length = prod (O :: C :: ws.map Win.k))
    (hb : b < B) (hoc : oc < O) (ho : InRange (ws.map Win.out) os) :
    Pads (fun p => (p.1 = .f32 0 ∧ p.2 ∈ ys) ∧ ¬ ∀ w ∈ ws, w.p = 0)
      (convTerms (B :: C :: ws.map Win.x) (O :: C :: ws.map Win.k) xs ys ws C b oc os)
      ((List.range (C * prod (ws.map Win.k))).map fun q =>
        (elemAt [B, C * prod (ws.map Win.k), prod (ws.map Win.out)] ps [b, q, lin (ws.map Win.out) os], elemAt [O, C * prod (ws.map Win.k)] ys [oc, q])) := by
  have e : ((List.range (C * prod (ws.map Win.k))).map fun q =>
        (elemAt [B, C * prod (ws.map Win.k), prod (ws.map Win.out)] ps [b, q, lin (ws.map Win.out) os], elemAt [O, C * prod (ws.map Win.k)] ys [oc, q])) =
      (List.range C).flatMap fun ic => (List.range (prod (ws.map Win.k))).filterMap fun j =>
        some (elemAt [B, C * prod (ws.map Win.k), prod (ws.map Win.out)] ps [b, ic * prod (ws.map Win.k) + j, lin (ws.map Win.out) os],
          elemAt (O :: C :: ws.map Win.k) ys (oc :: ic :: unlin (ws.map Win.k) j)) := by
    have e1 : ∀ ic, ((List.range (prod (ws.map Win.k))).filterMap fun j =>
        some (elemAt [B, C * prod (ws.map Win.k), prod (ws.map Win.out)] ps [b, ic * prod (ws.map Win.k) + j, lin (ws.map Win.out) os],
          elemAt (O :: C :: ws.map Win.k) ys (oc :: ic :: unlin (ws.map Win.k) j))) =
        (List.range (prod (ws.map Win.k))).map fun j =>
          (elemAt [B, C * prod (ws.map Win.k), prod (ws.map Win.out)] ps [b, ic * prod (ws.map Win.k) + j, lin (ws.map Win.out) os],
            elemAt [O, C * prod (ws.map Win.k)] ys [oc, ic * prod (ws.map Win.k) + j]) := fun ic => by
      refine (congrFun (List.filterMap_eq_map (f := fun j => (elemAt [B, C * prod (ws.map Win.k), prod (ws.map Win.out)] ps
        [b, ic * prod (ws.map Win.k) + j, lin (ws.map Win.out) os], elemAt (O :: C :: ws.map Win.k) ys (oc :: ic :: unlin (ws.map Win.k) j)))) _).trans ?_
      refine List.map_congr_left fun j hj => ?_
      simp [elemAt, lin, prod, lin_unlin (List.mem_range.1 hj)]
    simp only [e1]
    rw [range_grid fun ic j => (elemAt [B, C * prod (ws.map Win.k), prod (ws.map Win.out)] ps [b, ic * prod (ws.map Win.k) + j, lin (ws.map Win.out) os],
      elemAt [O, C * prod (ws.map Win.k)] ys [oc, ic * prod (ws.map Win.k) + j])]
    refine List.map_congr_left fun q _ => ?_
    have : q / prod (ws.map Win.k) * prod (ws.map Win.k) + q % prod (ws.map Win.k) = q := by
      rw [Nat.mul_comm]; exact Nat.div_add_mod ..
    rw [this]
  rw [e]
  unfold convTerms
  refine Pads.flatMap fun ic hic => Pads.filterMap fun j hj => ⟨_, rfl, ?_⟩
  have hic := List.mem_range.1 hic
  have hj := List.mem_range.1 hj
  have hq := unlin_inRange hj
  have hv := hP b ic _ os hb hic hq ho
  rw [lin_unlin hj] at hv
  rw [hv]
  cases hw : winAt ws os (unlin (ws.map Win.k) j)
  · exact .inr ⟨rfl, ⟨rfl, grid_mem hl ⟨hoc, hic, hq⟩⟩, fun hp => inside_at hf hp ho hq hw⟩
  · exact .inl rfl

theorem Pads.weaken {α : Type} {Z Z' : α → Prop} {l l' : List α} (h : Pads Z l l') (hZ : ∀ z, Z z → Z' z) : Pads Z' l l' := by
  have := h.map id hZ
  simpa using this

theorem f32_zero {fp : FloatOps} (hE : Machine fp) : ZeroOf fp .f32 (.f32 0) := hE.zero .f32

/-- An element of the convolution and the element of the product. -/
theorem column_same {b oc : Nat} {os : List Nat} {y w : Val} (hE : Machine E.fp) (hm : FactorsSwap E.fp) (hf : ∀ w ∈ ws, w.Fits) (hP : Patches B C ws xs ps)
    (lx : xs.length = prod (B :: C :: ws.map Win.x)) (wx : ∀ x ∈ xs, x.WT .f32)
    (hl : ys.length = prod (O :: C :: ws.map Win.k)) (wt : ∀ y ∈ ys, y.WT .f32) (fin : (∀ w ∈ ws, w.p = 0) ∨ ∀ y ∈ ys, Finite y)
    (hb : b < B) (hoc : oc < O) (ho : InRange (ws.map Win.out) os)
    (h : ConvOf E.fp (convTerms (B :: C :: ws.map Win.x) (O :: C :: ws.map Win.k) xs ys ws C b oc os) y)
    (h' : DotTo E.fp .f32 (.f32 0) ((List.range (C * prod (ws.map Win.k))).map fun q =>
      (elemAt [O, C * prod (ws.map Win.k)] ys [oc, q], elemAt [B, C * prod (ws.map Win.k), prod (ws.map Win.out)] ps [b, q, lin (ws.map Win.out) os])) w) :
    SameNumber y w ∧ ((∀ w ∈ ws, w.p = 0) ∨ E.fp.mac32 = ieee.mac32 → y = w) := by
  have pads := column_pads hf hP hl hb hoc ho
  have c := dotTo_swap hm h'
  rw [List.map_map] at c
  replace c : ConvOf E.fp _ w := ⟨_, f32_zero hE, c⟩
  by_cases hp : ∀ w ∈ ws, w.p = 0
  · rw [pads.same fun z hz => hz.2 hp] at h
    have : y = w := C40_unique h c
    exact ⟨.inl this, fun _ => this⟩
  · have hlen : ws.length = os.length := by have := ho.length; simpa using this.symm
    obtain ⟨s, e⟩ := conv_same hE wt (fin.resolve_left hp) (pads.weaken fun _ h => h.1) (fun p hp => by
      simp only [convTerms, List.mem_flatMap, List.mem_range, List.mem_filterMap, Option.map_eq_some_iff] at hp
      obtain ⟨ic, hic, j, hj, cs, hw, rfl⟩ := hp
      exact ⟨wx _ (grid_mem lx ⟨hb, hic, winAt_inRange hlen (by rw [unlin_length]; simp) hw⟩),
        wt _ (grid_mem hl ⟨hoc, hic, unlin_inRange hj⟩)⟩) h c
    exact ⟨s, fun h => e (h.resolve_left hp)⟩

/-- C83: the convolution of `B` samples with `O` filters over `C` channels has the elements, in the same order, of the product of the
filters, one in each row of a matrix, with the matrices of patches. -/
theorem C83_conv (hE : Machine E.fp) (hm : FactorsSwap E.fp) (wf : m.WF) (wf' : m'.WF) (h1 : At m R1 T1) (h2 : At m R2 T2)
    (e1 : Elems T1 .f32 xs) (e2 : Elems T2 .f32 ys) (h1' : At m' R1' T1') (h2' : At m' R2' T2') (e1' : Elems T1' .f32 ps) (e2' : Elems T2' .f32 ys)
    (s1 : T1.dims = B :: C :: ws.map Win.x) (s2 : T2.dims = O :: C :: ws.map Win.k) (hB : 0 < B) (hC : 0 < C)
    (s1' : T1'.dims = [B, C * prod (ws.map Win.k), prod (ws.map Win.out)]) (s2' : T2'.dims = [O, C * prod (ws.map Win.k)])
    (hP : Patches B C ws xs ps) (fin : (∀ w ∈ ws, w.p = 0) ∨ ∀ y ∈ ys, Finite y) (h : ∀ w ∈ ws, w.Fits ∧ w.Wide)
    (hso : ShapeOK (B :: O :: ws.map Win.out) 4) (c1 : T1'.device.type = DEVICE_CPU) (c2 : T2'.device.type = DEVICE_CPU)
    (bO : O ≤ 2147483647) (bK : C * prod (ws.map Win.k) ≤ 2147483647) (bN : prod (ws.map Win.out) ≤ 2147483647) (bB : B ≤ 2147483647)
    (bi : prod (B :: O :: ws.map Win.out) ≤ 2147483647) (st st' : Status) (groups : Int) (out out' : Ptr) :
    ∃ zs zs' : List Val, zs.length = prod (B :: O :: ws.map Win.out) ∧
      Leaves E (conv (some st) (some st') R1.h R2.h (dimsCells (ws.map Win.s)) (dimsCells (ws.map Win.p)) (dimsCells (ws.map Win.d)) groups out) m out
        (if st = .success then st' else st) ⟨Code.f32.dtype, T1.device, B :: O :: ws.map Win.out, encAll .f32 zs⟩ ∧
      DeliversCareless E (matmul R2'.h R1'.h out') m' out' .f32 T2'.device [B, O, prod (ws.map Win.out)] zs' ∧
      Pointwise SameNumber zs zs' ∧ ((∀ w ∈ ws, w.p = 0) ∨ E.fp.mac32 = ieee.mac32 → zs' = zs) := by
  obtain ⟨zs, hl, hz, hv⟩ := C40_conv (E := E) wf h1 h2 e1 e2 s1 s2 h hso hC st st' groups out
  have hf := fun w hw => (h w hw).1
  have l2 := e2.len
  rw [s2] at l2
  have l1' := e1'.len
  rw [s1'] at l1'
  have l2' := e2'.len
  rw [s2'] at l2'
  obtain ⟨zs', hl', hd⟩ := exists_elems (ds := [B, O, prod (ws.map Win.out)])
    (P := fun cs w => ∀ b i j, cs = [b, i, j] → DotTo E.fp .f32 (.f32 0) ((List.range (C * prod (ws.map Win.k))).map fun q =>
      (elemAt [O, C * prod (ws.map Win.k)] ys [i, q], elemAt [B, C * prod (ws.map Win.k), prod (ws.map Win.out)] ps [b, q, j])) w) (by
    intro cs hc
    match cs, hc with
    | [b, i, j], ⟨hb, hi, hj, _⟩ =>
      obtain ⟨w, hw⟩ := dotTo_floats (fp := E.fp) (z := .f32 0) (l := (List.range (C * prod (ws.map Win.k))).map fun q =>
        (elemAt [O, C * prod (ws.map Win.k)] ys [i, q], elemAt [B, C * prod (ws.map Win.k), prod (ws.map Win.out)] ps [b, q, j])) (.inl rfl) trivial (by
        intro p hp
        simp only [List.mem_map, List.mem_range] at hp
        obtain ⟨q, hq, rfl⟩ := hp
        exact ⟨e2'.wt _ (grid_mem l2' ⟨hi, hq, trivial⟩), e1'.wt _ (grid_mem l1' ⟨hb, hq, hj, trivial⟩)⟩)
      exact ⟨w, fun b' i' j' e => by simp only [List.cons.injEq, and_true] at e; obtain ⟨rfl, rfl, rfl⟩ := e; exact hw⟩)
  have hN : prod [B, O, prod (ws.map Win.out)] = prod (B :: O :: ws.map Win.out) := by simp [prod]
  have key : ∀ i (h1 : i < zs.length) (h2 : i < zs'.length), SameNumber zs[i] zs'[i] ∧ ((∀ w ∈ ws, w.p = 0) ∨ E.fp.mac32 = ieee.mac32 → zs[i] = zs'[i]) := by
    intro i h1 h2
    have hi := unlin_inRange (ds := B :: O :: ws.map Win.out) (by omega : i < _)
    have hi' := lin_unlin (ds := B :: O :: ws.map Win.out) (by omega : i < _)
    match hcs : unlin (B :: O :: ws.map Win.out) i, hi with
    | b :: oc :: os, hio =>
      rw [hcs] at hi'
      have a := hz b oc os hio
      have a' := hd [b, oc, lin (ws.map Win.out) os] ⟨hio.1, hio.2.1, lin_lt hio.2.2, trivial⟩ _ _ _ rfl
      have hi'' : lin [B, O, prod (ws.map Win.out)] [b, oc, lin (ws.map Win.out) os] = i := by rw [← hi']; simp [lin, prod]
      rw [elemAt_get (by omega)] at a a'
      simp only [hi'] at a
      simp only [hi''] at a'
      rw [s1, s2] at a
      exact column_same hE hm hf hP (by rw [e1.len, s1]) e1.wt l2 e2.wt fin hio.1 hio.2.1 hio.2.2 a a'
  refine ⟨zs, zs', hl, hv, ?_, ⟨by omega, fun i h1 h2 => (key i h1 h2).1⟩, fun e => ?_⟩
  · refine C31_tensor_tensor wf' h2' e2' h1' e1' c2 c1 (f32_zero hE) (b1 := []) (b2 := [B]) (bd := [B]) s2' s1' (.inr (by simp)) (by simp) (by simpa using hB)
      (Broadcasts.nil_right [B]).symm ?_ bO bK bN (by simpa [prod] using bB) (by rw [← hN] at bi; exact bi) hl' ?_ out'
    · refine ⟨?_, by simp⟩
      have := hso.fits
      simp only [prodMax, List.cons_append, List.nil_append, Nat.mul_one] at this ⊢
      exact Nat.le_trans (Nat.mul_le_mul_right _ (Nat.mul_le_mul_left _ (Nat.mul_le_mul_left _ (prod_le_max _)))) this
    · intro cs i j hc hi hj
      match cs, hc with
      | [b], hc =>
        have hb : b < B := hc.1
        have := hd [b, i, j] ⟨hb, hi, hj, trivial⟩ _ _ _ rfl
        have hu : (if B = 1 then 0 else b) = b := by split <;> omega
        simpa [under, s1', s2', hu] using this
  · exact (List.ext_getElem (by omega) fun i h1 h2 => (key i h1 h2).2 e).symm

/-! ### Examples -/

/-- The patches of -1, 2.5 with padding 1 under a filter of length 2: the columns 0, -1 and -1, 2.5 and 2.5, 0. -/
def exBp : List Val := [.f32 0, .f32 0xBF800000, .f32 0x40200000, .f32 0xBF800000, .f32 0x40200000, .f32 0]

theorem exBp_patches : Patches 1 1 [exBw] exBd exBp := by
  intro b ic qs os hb hic hq ho
  obtain rfl : b = 0 := by omega
  obtain rfl : ic = 0 := by omega
  match qs, os, hq, ho with
  | [q], [o], ⟨hq, _⟩, ⟨ho, _⟩ =>
    have hq : q < 2 := hq
    have ho : o < 3 := ho
    match q, o, hq, ho with
    | 0, 0, _, _ => rfl
    | 0, 1, _, _ => rfl
    | 0, 2, _, _ => rfl
    | 1, 0, _, _ => rfl
    | 1, 1, _, _ => rfl
    | 1, 2, _, _ => rfl

/-- The filter 0.5, -3 on -1, 2.5, padded by a zero on each side. -/
example : ∃ zs zs' : List Val, zs.length = 3 ∧
    Leaves ieeeEnv (conv (some .success) (some .success) Mem.empty.footT.h (Mem.empty.addT (tvOf .f32 [1, 1, 2] exBd)).footT.h (dimsCells [1]) (dimsCells [1])
      (dimsCells [1]) 1 .indet) ((Mem.empty.addT (tvOf .f32 [1, 1, 2] exBd)).addT (tvOf .f32 [1, 1, 2] exBf)) .indet .success
      ⟨Code.f32.dtype, ⟨DEVICE_CPU, 0⟩, [1, 1, 3], encAll .f32 zs⟩ ∧
    DeliversCareless ieeeEnv (matmul (Mem.empty.addT (tvOf .f32 [1, 2, 3] exBp)).footT.h Mem.empty.footT.h .indet)
      ((Mem.empty.addT (tvOf .f32 [1, 2, 3] exBp)).addT (tvOf .f32 [1, 2] exBf)) .indet .f32 ⟨DEVICE_CPU, 0⟩ [1, 1, 3] zs' ∧
    Pointwise SameNumber zs zs' ∧ ((∀ w ∈ [exBw], w.p = 0) ∨ ieee.mac32 = ieee.mac32 → zs' = zs) :=
  C83_conv (T1 := tvOf .f32 [1, 1, 2] exBd) (T1' := tvOf .f32 [1, 2, 3] exBp) (T2 := tvOf .f32 [1, 1, 2] exBf) (T2' := tvOf .f32 [1, 2] exBf)
    (ws := [exBw]) (B := 1) (O := 1) (C := 1) ieee_machine C73_swap.1
    (Mem.addT_wf (Mem.addT_wf Mem.empty_wf _) _) (Mem.addT_wf (Mem.addT_wf Mem.empty_wf _) _)
    (addT_old (Mem.addT_wf Mem.empty_wf _) (tvOf_at _ (by simp) rfl ⟨by decide, by decide⟩) _) (tvOf_at _ (by simp) rfl ⟨by decide, by decide⟩)
    (tvOf_elems (by decide) rfl) (tvOf_elems (by decide) rfl)
    (addT_old (Mem.addT_wf Mem.empty_wf _) (tvOf_at _ (by simp) rfl ⟨by decide, by decide⟩) _) (tvOf_at _ (by simp) rfl ⟨by decide, by decide⟩)
    (tvOf_elems (by decide) rfl) (tvOf_elems (by decide) rfl) rfl rfl (by omega) (by omega) rfl rfl exBp_patches (.inr (by
      intro y hy
      simp only [exBf, List.mem_cons, List.not_mem_nil, or_false] at hy
      rcases hy with rfl | rfl <;> (simp only [Finite]; decide +kernel))) (by
      intro w hw
      simp only [List.mem_singleton] at hw
      subst hw
      exact ⟨⟨by decide, by decide, by decide, by decide⟩, ⟨by decide, by decide, by decide, by decide, by decide⟩⟩)
    ⟨by decide, by decide⟩ rfl rfl (by decide) (by decide) (by decide) (by decide) (by decide) .success .success 1 .indet .indet

end Aitisa
