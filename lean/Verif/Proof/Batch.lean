import Verif.Proof.Commute
import Verif.Props.Conv
import Verif.Props.Pooling
import Verif.Props.NN
import Verif.Props.BatchNorm
import Verif.Props.Matmul

/-! # Parts of a batch -/

namespace Aitisa

section rows
variable {B b n st : Nat} {ds : List Nat}

theorem full_pos : ∀ {ds : List Nat}, SliceFits ds (ds.map fun d => ⟨0, d, 1⟩) → ∀ d ∈ ds, 0 < d
  | [], _, _, h => by simp at h
  | d :: ds, ⟨h, hs⟩, x, hx => by
    rcases List.mem_cons.1 hx with rfl | hx
    · exact h.1
    · exact full_pos hs x hx

theorem full_dims : ∀ {ds : List Nat}, (∀ d ∈ ds, 0 < d) → sliceDims (ds.map fun d => ⟨0, d, 1⟩) = ds
  | [], _ => rfl
  | d :: ds, h => by
    have := h d (by simp)
    simp only [List.map_cons, sliceDims]
    rw [if_neg (by omega), full_dims fun x hx => h x (by simp [hx])]
    simp [ceilDiv]

theorem full_source : ∀ {ds cs : List Nat}, InRange ds cs → source (ds.map fun d => ⟨0, d, 1⟩) cs = cs
  | [], [], _ => rfl
  | d :: ds, k :: cs, ⟨h, hs⟩ => by
    simp only [List.map_cons, source]
    rw [if_neg (by omega)]
    simp [full_source hs]

theorem rows_dims (hn : n ≠ 0) (hf : SliceFits (B :: ds) (rowsOf b n st ds)) : sliceDims (rowsOf b n st ds) = ceilDiv n st :: ds := by
  simp only [rowsOf, sliceDims, if_neg hn]
  rw [full_dims (full_pos hf.2)]

theorem rows_le (hf : SliceFits (B :: ds) (rowsOf b n st ds)) : ceilDiv n st ≤ B := by
  obtain ⟨⟨h1, h2, h3⟩, -⟩ := hf
  simp only at h1 h2 h3
  by_cases h0 : ceilDiv n st = 0
  · omega
  · have h4 := (ceilDiv_lt (n := ceilDiv n st - 1) (sz := n) h3).1 (by omega)
    have h5 := Nat.le_mul_of_pos_left (ceilDiv n st - 1) h3
    omega

theorem rows_lt (hf : SliceFits (B :: ds) (rowsOf b n st ds)) {k : Nat} (hk : k < ceilDiv n st) : b + st * k < B := by
  obtain ⟨⟨h1, h2, h3⟩, -⟩ := hf
  simp only at h1 h2 h3
  have := (ceilDiv_lt h3).1 hk
  omega

theorem rows_inRange (hf : SliceFits (B :: ds) (rowsOf b n st ds)) {k : Nat} {cs : List Nat} (h : InRange (ceilDiv n st :: ds) (k :: cs)) :
    InRange (B :: ds) ((b + st * k) :: cs) := ⟨rows_lt hf h.1, h.2⟩

theorem rows_elem {xs : List Val} (hn : n ≠ 0) (hf : SliceFits (B :: ds) (rowsOf b n st ds)) {k : Nat} {cs : List Nat}
    (h : InRange (ceilDiv n st :: ds) (k :: cs)) (hl : xs.length = prod (B :: ds)) :
    elemAt (ceilDiv n st :: ds) (sliceElems (B :: ds) (rowsOf b n st ds) xs) (k :: cs) = elemAt (B :: ds) xs ((b + st * k) :: cs) := by
  have hd := rows_dims hn hf
  obtain ⟨v, h1, h2⟩ := sliceElems_get hf hl (oc := k :: cs) (by rw [hd]; exact h)
  rw [hd] at h1
  have hs : source (rowsOf b n st ds) (k :: cs) = (b + st * k) :: cs := by
    simp only [rowsOf, source, if_neg hn, List.headD_cons, List.tail_cons]
    rw [full_source h.2]
  rw [hs] at h2
  simp only [elemAt, List.getD, h1, h2]

theorem prodMax_first {a b : Nat} (h : a ≤ b) (ds : List Nat) : prodMax (a :: ds) ≤ prodMax (b :: ds) := by
  simp only [prodMax]
  exact Nat.mul_le_mul_right _ (by omega)

theorem shape_first {a b : Nat} {ds : List Nat} {sz : Nat} (h : a ≤ b) (hs : ShapeOK (b :: ds) sz) : ShapeOK (a :: ds) sz :=
  ⟨Nat.le_trans (Nat.mul_le_mul_right _ (prodMax_first h ds)) hs.fits, hs.rank⟩

/-- Elements are determined by their coordinates. -/
theorem elems_ext {ds : List Nat} {xs ys : List Val} (h1 : xs.length = prod ds) (h2 : ys.length = prod ds)
    (h : ∀ cs, InRange ds cs → elemAt ds xs cs = elemAt ds ys cs) : xs = ys := by
  refine List.ext_getElem (by omega) fun i a b => ?_
  have hi : i < prod ds := by omega
  have := h _ (unlin_inRange hi)
  simpa [elemAt, lin_unlin hi, List.getD, a, b] using this

/-- A property of all positions is one of all elements. -/
theorem elems_all {ds : List Nat} {xs : List Val} {P : Val → Prop} (hl : xs.length = prod ds) (h : ∀ cs, InRange ds cs → P (elemAt ds xs cs)) :
    ∀ x ∈ xs, P x := by
  intro x hx
  obtain ⟨i, hi, rfl⟩ := List.mem_iff_getElem.1 hx
  have hi' : i < prod ds := by omega
  have := h _ (unlin_inRange hi')
  simpa [elemAt, lin_unlin hi', List.getD, hi] using this

/-- A value for each position of a batch. -/
theorem exists_grid {B C : Nat} {ds : List Nat} {P : Nat → Nat → List Nat → Val → Prop}
    (h : ∀ b ch os, InRange (B :: C :: ds) (b :: ch :: os) → ∃ z, P b ch os z) :
    ∃ zs : List Val, zs.length = prod (B :: C :: ds) ∧
      ∀ b ch os, InRange (B :: C :: ds) (b :: ch :: os) → P b ch os (elemAt (B :: C :: ds) zs (b :: ch :: os)) := by
  obtain ⟨zs, hl, hz⟩ := exists_elems (ds := B :: C :: ds) (P := fun cs y => P (cs.getD 0 0) (cs.getD 1 0) (cs.drop 2) y) (by
    intro cs hcs
    match cs, hcs with
    | b :: ch :: os, hcs => exact h b ch os hcs)
  exact ⟨zs, hl, fun b ch os ho => hz _ ho⟩

theorem all_grid {B C : Nat} {ds : List Nat} {xs : List Val} {P : Val → Prop} (hl : xs.length = prod (B :: C :: ds))
    (h : ∀ b ch os, InRange (B :: C :: ds) (b :: ch :: os) → P (elemAt (B :: C :: ds) xs (b :: ch :: os))) : ∀ x ∈ xs, P x :=
  elems_all hl fun cs hc => match cs, hc with
    | b :: ch :: os, hc => h b ch os hc

end rows

section
variable {B C b n st : Nat} {ws : List Win} {xs ys : List Val}

theorem filterMap_same {α β : Type} {l : List α} {f g : α → Option β} (h : ∀ a ∈ l, f a = g a) : l.filterMap f = l.filterMap g := by
  induction l with
  | nil => rfl
  | cons a l ih => rw [List.filterMap_cons, List.filterMap_cons, h a (by simp), ih fun b hb => h b (by simp [hb])]

/-- Windows of a part of the batch. -/
theorem rows_win (hn : n ≠ 0) (hf : SliceFits (B :: C :: ws.map Win.x) (rowsOf b n st (C :: ws.map Win.x)))
    (hl : xs.length = prod (B :: C :: ws.map Win.x)) {k ch : Nat} {os : List Nat} (hk : k < ceilDiv n st) (hc : ch < C)
    (ho : os.length = ws.length) :
    winElems (ceilDiv n st :: C :: ws.map Win.x) (sliceElems (B :: C :: ws.map Win.x) (rowsOf b n st (C :: ws.map Win.x)) xs) ws k ch os =
      winElems (B :: C :: ws.map Win.x) xs ws (b + st * k) ch os := by
  unfold winElems
  refine filterMap_same fun j hj => ?_
  have hq := unlin_inRange (List.mem_range.1 hj)
  cases h : winAt ws os (unlin (ws.map Win.k) j) with
  | none => rfl
  | some cs =>
    have := winAt_inRange ho.symm (by have := hq.length; simp at this; omega) h
    simp only [Option.map_some, Option.some.injEq]
    exact rows_elem hn hf ⟨hk, hc, this⟩ hl

/-- Convolution terms of a part of the batch. -/
theorem rows_conv {fs : List Nat} (hn : n ≠ 0) (hf : SliceFits (B :: C :: ws.map Win.x) (rowsOf b n st (C :: ws.map Win.x)))
    (hl : xs.length = prod (B :: C :: ws.map Win.x)) {k oc : Nat} {os : List Nat} (hk : k < ceilDiv n st)
    (ho : os.length = ws.length) :
    convTerms (ceilDiv n st :: C :: ws.map Win.x) fs (sliceElems (B :: C :: ws.map Win.x) (rowsOf b n st (C :: ws.map Win.x)) xs) ys ws C k oc os =
      convTerms (B :: C :: ws.map Win.x) fs xs ys ws C (b + st * k) oc os := by
  unfold convTerms
  rw [List.flatMap_def, List.flatMap_def]
  congr 1
  refine List.map_congr_left fun ic hic => ?_
  refine filterMap_same fun j hj => ?_
  have hq := unlin_inRange (List.mem_range.1 hj)
  cases h : winAt ws os (unlin (ws.map Win.k) j) with
  | none => rfl
  | some cs =>
    have := winAt_inRange ho.symm (by have := hq.length; simp at this; omega) h
    simp only [Option.map_some, Option.some.injEq, Prod.mk.injEq, and_true]
    exact rows_elem hn hf ⟨hk, List.mem_range.1 hic, this⟩ hl

end

theorem Tries.yields {E : Env} {x : M (Status × Ptr)} {m : Mem} {T : TV} (h : Tries E x m T) : MakesIf E x m T := by
  rcases h with ⟨R, m', e, P⟩ | ⟨nf, _, _, e, -⟩
  · refine ⟨fun e' => ?_, fun _ _ => ⟨R, m', e, P⟩⟩
    rw [e] at e'; cases e'; exact ⟨R, rfl, P⟩
  · refine ⟨fun e' => ?_, fun nf' => absurd nf' nf⟩
    rw [e] at e'; cases e'

theorem AttemptsMalloc.yields {E : Env} {x : M (Status × Ptr)} {m : Mem} {T : TV} (h : AttemptsMalloc E x m T) : MakesIf E x m T := by
  rcases h with ⟨R, m', e, P⟩ | ⟨nf, h⟩
  · refine ⟨fun e' => ?_, fun _ _ => ⟨R, m', e, P⟩⟩
    rw [e] at e'; cases e'; exact ⟨R, rfl, P⟩
  · refine ⟨fun e' => ?_, fun a b => nf.elim (fun f => absurd a f) fun f => absurd b f⟩
    rcases h with ⟨_, _, e, -⟩ | e <;> rw [e] at e' <;> cases e'

end Aitisa
