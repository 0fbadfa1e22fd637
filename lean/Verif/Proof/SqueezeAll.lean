import Verif.Proof.Squeeze

/-!
# Every outcome of squeeze
-/

namespace Aitisa

/-- The marking loop for any list of axes in range. -/
theorem mark_any {E : Env} {m : Mem} {ds ax : List Nat} (hr : ∀ a ∈ ax, a < ds.length)
    (g : Nat → Arr × Int → M (Arr × Int))
    (hg : ∀ i (hi : i < ax.length) ps o, ps.length = ds.length → g i (dimsCells ps, o) E m =
      .ok (if ds[ax[i]]'(hr _ (List.getElem_mem hi)) = 1 then (dimsCells (ps.set ax[i] 0), o - 1)
        else (dimsCells ps, o)) m) :
    ∃ ps, loopN g ax.length 0 (dimsCells ds, (ds.length : Int)) E m =
      .ok (dimsCells ps, (ds.length : Int) - ((ax.countP fun a => ds[a]? == some 1 : Nat) : Int)) m ∧ Marked ds ax ps := by
  obtain ⟨s', m', e, rfl, ps, hM, rfl⟩ := loopN_inv (E := E) g (fun i s m' => m' = m ∧
      ∃ ps, Marked ds (ax.take i) ps ∧ s = (dimsCells ps,
        (ds.length : Int) - (((ax.take i).countP fun a => ds[a]? == some 1 : Nat) : Int))) ax.length (by
    rintro i s m' hi ⟨rfl, ps, hM, rfl⟩
    have ha := hr _ (List.getElem_mem hi)
    have hcount : ((ax.take (i + 1)).countP fun a => ds[a]? == some 1) =
        ((ax.take i).countP fun a => ds[a]? == some 1) + if ds[ax[i]] = 1 then 1 else 0 := by
      rw [List.take_succ_eq_append_getElem hi, List.countP_append, List.countP_singleton]
      simp [List.getElem?_eq_getElem ha]
    rw [hg i hi ps _ hM.1, hcount]
    by_cases h1 : ds[ax[i]] = 1
    · rw [if_pos h1, if_pos h1]
      refine ⟨_, _, rfl, rfl, ps.set ax[i] 0, ?_, ?_⟩
      · rw [List.take_succ_eq_append_getElem hi]
        by_cases hmem : ax[i] ∈ ax.take i
        · have hz : ps[ax[i]]'(by rw [hM.1]; exact ha) = 0 := by
            rw [hM.2 _ _ ha]; simp [h1, hmem]
          have hset : ps.set ax[i] 0 = ps := by
            conv => lhs; rw [← hz]
            exact List.set_getElem_self _
          rw [hset]
          refine ⟨hM.1, fun i' hi' hi'' => ?_⟩
          rw [hM.2 i' hi' hi'']
          rw [← List.take_succ_eq_append_getElem hi]
          have : i' ∈ ax.take (i + 1) ↔ i' ∈ ax.take i := by
            rw [List.take_succ_eq_append_getElem hi, List.mem_append, List.mem_singleton]
            constructor
            · rintro (h | rfl)
              · exact h
              · exact hmem
            · exact .inl
          simp only [this]
        · exact (hM.unit ha h1 hmem).1
      · congr 1; omega
    · rw [if_neg h1, if_neg h1]
      refine ⟨_, _, rfl, rfl, ps, ?_, rfl⟩
      rw [List.take_succ_eq_append_getElem hi]; exact hM.nonunit ha h1)
    (s := (dimsCells ds, (ds.length : Int))) (m := m) (by
      refine ⟨rfl, ds, by simpa using Marked.nil ds, by simp⟩)
  refine ⟨ps, ?_, by simpa using hM⟩
  simpa using e

theorem countP_range_unit (ds : List Nat) :
    ((List.range ds.length).countP fun a => ds[a]? == some 1) = ds.count 1 := by
  induction ds with
  | nil => rfl
  | cons d ds ih =>
    rw [List.length_cons, List.range_succ_eq_map, List.countP_cons, List.countP_map, List.count_cons]
    have e : ((fun a => (d :: ds)[a]? == some 1) ∘ Nat.succ) = fun a => ds[a]? == some 1 := by
      funext a; simp
    rw [e, ih]
    simp

theorem squeezeMark_any {E : Env} {m : Mem} {ds ax : List Nat} (hn : ds.length ≤ 2147483647)
    (hr : ∀ a ∈ ax, a < ds.length) :
    ∃ ps, squeezeMark (dimsCells ds) ds.length (dimsCells ax) ax.length E m =
      .ok (dimsCells ps, (ds.length : Int) - (unitHits ds ax : Int)) m ∧ Marked ds (axesOf ds.length ax) ps := by
  unfold squeezeMark unitHits
  by_cases h0 : ax = []
  · subst h0
    obtain ⟨ps, e, hM⟩ := mark_any (E := E) (m := m) (ds := ds) (ax := List.range ds.length)
      (by simp) (fun i s => do
        let d ← (dimsCells ds).rd i
        if d = 1 then return (← s.1.wr i 0, s.2 - 1) else return s) (by
      intro i hi ps o hl
      have hi' : i < ds.length := by simpa using hi
      have hw := wr_set (ps := ps) (a := i) (by omega) 0 E m
      simp only [List.getElem_range]
      by_cases h1 : ds[i] = 1
      · have h1' : (ds[i] : Int) = 1 := by omega
        rw [if_pos h1]
        simp only [Int.ofNat_zero, Int.natCast_zero] at hw
        msimp [rd_dims hi', h1', hw]
      · have h1' : ¬ (ds[i] : Int) = 1 := by omega
        rw [if_neg h1]
        msimp [rd_dims hi', h1'])
    refine ⟨ps, ?_, by simpa [axesOf] using hM⟩
    rw [List.length_range, countP_range_unit] at e
    msimp [copy_dims hn]
    simp only [forI, Int.toNat_natCast, List.length_nil, Int.natCast_zero, if_true]
    exact e
  · obtain ⟨ps, e, hM⟩ := mark_any (E := E) (m := m) hr (fun i s => do
        let a ← (dimsCells ax).rd i
        let d ← (dimsCells ds).rd a
        if d = 1 then return (← s.1.wr a 0, s.2 - 1) else return s) (by
      intro i hi ps o hl
      have hi' := hr _ (List.getElem_mem hi)
      have hw := wr_set (ps := ps) (a := ax[i]) (by omega) 0 E m
      by_cases h1 : ds[ax[i]] = 1
      · have h1' : (ds[ax[i]] : Int) = 1 := by omega
        rw [if_pos h1]
        simp only [Int.ofNat_zero, Int.natCast_zero] at hw
        msimp [rd_dims hi, rd_dims hi', h1', hw]
      · have h1' : ¬ (ds[ax[i]] : Int) = 1 := by omega
        rw [if_neg h1]
        msimp [rd_dims hi, rd_dims hi', h1'])
    refine ⟨ps, ?_, by simpa [axesOf, h0] using hM⟩
    have hl : ¬ (ax.length : Int) = 0 := by
      have := List.length_pos_iff.2 h0; omega
    msimp [copy_dims hn]
    rw [if_neg hl, if_neg h0]
    simp only [forI, Int.toNat_natCast]
    exact e

theorem keptDims_of_marked {A : Nat → Bool} {k : Nat} {ds ps : List Nat} (hl : ps.length = ds.length)
    (h : ∀ i (h : i < ps.length) (h' : i < ds.length), ps[i] = if ds[i] = 1 ∧ A (k + i) = true then 0 else ds[i]) :
    ps.filter (· ≠ 0) = keptDims A k ds := by
  induction ds generalizing ps k with
  | nil =>
    have : ps = [] := List.eq_nil_of_length_eq_zero (by simpa using hl)
    subst this; rfl
  | cons d ds ih =>
    cases ps with
    | nil => simp at hl
    | cons p ps =>
      have h0 := h 0 (by simp) (by simp)
      have ht := ih (k := k + 1) (ps := ps) (by simpa using hl) fun i h1 h2 => by
        have := h (i + 1) (by simpa using h1) (by simpa using h2)
        simp only [List.getElem_cons_succ] at this
        rw [this, show k + 1 + i = k + (i + 1) by omega]
      simp only [List.getElem_cons_zero, Nat.add_zero] at h0
      unfold keptDims
      rw [List.filter_cons, ht]
      by_cases hc : d = 1 ∧ A k = true
      · rw [if_pos hc] at h0; subst h0
        simp [hc]
      · rw [if_neg hc] at h0; subst h0
        by_cases hz : p = 0
        · simp [hz]
        · have hn : ¬ (p = 0 ∨ (p = 1 ∧ A k = true)) := fun h => h.elim hz hc
          rw [if_neg hn, if_pos (by simpa using hz)]

theorem keptDims_marked {ds ax ps : List Nat} (hM : Marked ds (axesOf ds.length ax) ps) :
    ps.filter (· ≠ 0) = keptDims (asked ax) 0 ds := by
  refine keptDims_of_marked hM.1 fun i h1 h2 => ?_
  rw [hM.2 i h1 h2]
  have : i ∈ axesOf ds.length ax ↔ asked ax (0 + i) = true := by
    unfold axesOf asked
    by_cases h0 : ax = []
    · simp [h0, h2]
    · simp [h0]
  simp only [this]

theorem keptDims_pos {A : Nat → Bool} {k : Nat} {ds : List Nat} : ∀ d ∈ keptDims A k ds, 0 < d := by
  induction ds generalizing k with
  | nil => simp [keptDims]
  | cons d ds ih =>
    unfold keptDims
    split
    · exact ih
    · rename_i h
      intro x hx
      rcases List.mem_cons.1 hx with rfl | hx
      · omega
      · exact ih x hx

theorem keptDims_prod {A : Nat → Bool} {k : Nat} {ds : List Nat} (h : 0 ∉ ds) : prod (keptDims A k ds) = prod ds := by
  induction ds generalizing k with
  | nil => rfl
  | cons d ds ih =>
    have h1 : ¬ d = 0 := fun e => h (by simp [e])
    have h2 : 0 ∉ ds := fun e => h (by simp [e])
    unfold keptDims
    split
    · rename_i hc
      rcases hc with hc | ⟨rfl, -⟩
      · exact absurd hc h1
      · rw [ih h2]; simp [prod]
    · simp only [prod]; rw [ih h2]

theorem prod_eq_zero_of_mem {ds : List Nat} (h : 0 ∈ ds) : prod ds = 0 := by
  induction ds with
  | nil => simp at h
  | cons d ds ih =>
    rcases List.mem_cons.1 h with h | h
    · subst h; simp [prod]
    · simp [prod, ih h]

theorem scratch_sane {E : Env} (hE : E.Sane) {n : Nat} (hn : n ≤ 2147483647) (m : Mem) :
    ∃ b, scratch n 8 E m = .ok (.blk m.next) (m.push b) := by
  unfold scratch
  rw [run_rawAlloc, if_pos]
  · exact ⟨_, rfl⟩
  · rw [hE]; unfold toSizeT; omega

/-- A request for a negative number of cells is refused. -/
theorem scratch_neg {E : Env} (hE : E.Sane) {n : Int} (hn : n < 0) (hn' : -1152921504606846976 ≤ n) (m : Mem) :
    scratch n 8 E m = .ok .null m.miss := by
  unfold scratch
  rw [run_rawAlloc, if_neg]
  rw [hE]; unfold toSizeT; omega

section cases
variable {E : Env} {m : Mem} {R : Foot} {T : TV} {ax : List Nat}

/-- More entries name unit dims than there are dims: the rank is negative, the request for the new dims is refused and
the copy of the old dims is leaked. -/
theorem squeeze_many (hE : E.Sane) (wf : m.WF) (h : At m R T) (hr : ∀ a ∈ ax, a < T.dims.length)
    (hlen : ax.length < 1152921504606846976) (hm : T.dims.length < unitHits T.dims ax) (out : Ptr) :
    ∃ b, squeeze R.h (dimsCells ax) ax.length out E m = .ok (.allocFailed, out) (m.push b).miss := by
  obtain ⟨b1, e1⟩ := scratch_sane hE h.shape.rank m
  have hnn : ¬ (ax.length : Int) < 0 := by omega
  obtain ⟨ps, em, hM⟩ := squeezeMark_any (E := E) (m := m.push b1) h.shape.rank hr
  have hu : unitHits T.dims ax ≤ ax.length + T.dims.length := by
    unfold unitHits
    split
    · have := List.count_le_length (a := 1) (l := T.dims); omega
    · have := List.countP_le_length (p := fun a => T.dims[a]? == some 1) (l := ax); omega
  have hlen' : unitHits T.dims ax - T.dims.length ≤ ax.length := by omega
  have e2 := scratch_neg hE (n := (T.dims.length : Int) - (unitHits T.dims ax : Int)) (by omega) (by omega) (m.push b1)
  refine ⟨b1, ?_⟩
  unfold squeeze
  msimp [h.tDimsArr, h.tNdim, hnn, badAxis_nat, e1, em, e2]

theorem squeeze_over (hE : E.Sane) (wf : m.WF) (h : At m R T) (hr : ∀ a ∈ ax, a < T.dims.length)
    (hle : unitHits T.dims ax ≤ T.dims.length)
    (ho : T.dims.length < (keptDims (asked ax) 0 T.dims).length + unitHits T.dims ax) (out : Ptr) :
    squeeze R.h (dimsCells ax) ax.length out E m = .ub .outOfBounds := by
  obtain ⟨b1, e1⟩ := scratch_sane hE h.shape.rank m
  have hnn : ¬ (ax.length : Int) < 0 := by omega
  obtain ⟨ps, em, hM⟩ := squeezeMark_any (E := E) (m := m.push b1) h.shape.rank hr
  obtain ⟨n, hn⟩ : ∃ n : Nat, (T.dims.length : Int) - (unitHits T.dims ax : Int) = n :=
    ⟨T.dims.length - unitHits T.dims ax, by omega⟩
  have hrk := h.shape.rank
  obtain ⟨b2, e2⟩ := scratch_sane hE (n := n) (by omega) (m.push b1)
  have hnz : nz ps = (keptDims (asked ax) 0 T.dims).length := by
    rw [← keptDims_marked hM]; exact List.countP_eq_length_filter
  have hub := squeezeCompact_oob (E := E) (m := (m.push b1).push b2) (ps := ps) (n := n) (by omega) (by omega)
  rw [hM.1] at hub
  rw [hn] at em
  unfold squeeze
  msimp [h.tDimsArr, h.tNdim, hnn, badAxis_nat, e1, em, e2, hub]

theorem squeeze_under (hE : E.Sane) (wf : m.WF) (h : At m R T) (hr : ∀ a ∈ ax, a < T.dims.length)
    (hu : (keptDims (asked ax) 0 T.dims).length + unitHits T.dims ax < T.dims.length) (out : Ptr) :
    squeeze R.h (dimsCells ax) ax.length out E m = .ub .uninit := by
  obtain ⟨b1, e1⟩ := scratch_sane hE h.shape.rank m
  have hnn : ¬ (ax.length : Int) < 0 := by omega
  obtain ⟨ps, em, hM⟩ := squeezeMark_any (E := E) (m := m.push b1) h.shape.rank hr
  have hnz : nz ps = (keptDims (asked ax) 0 T.dims).length := by
    rw [← keptDims_marked hM]; exact List.countP_eq_length_filter
  obtain ⟨k, hk⟩ : ∃ k : Nat, (T.dims.length : Int) - (unitHits T.dims ax : Int) = ((nz ps + (k + 1) : Nat) : Int) :=
    ⟨T.dims.length - unitHits T.dims ax - nz ps - 1, by omega⟩
  have hrk := h.shape.rank
  obtain ⟨b2, e2⟩ := scratch_sane hE (n := nz ps + (k + 1)) (by omega) (m.push b1)
  have hcomp := squeezeCompact_run (E := E) (m := (m.push b1).push b2) (ps := ps)
    (n := nz ps + (k + 1)) (by omega) (by omega)
  rw [hM.1, show nz ps + (k + 1) - nz ps = k + 1 by omega] at hcomp
  have hf : nz ps = (ps.filter (· ≠ 0)).length := List.countP_eq_length_filter
  have hsz := sizeOfDims_uninit (ds := ps.filter (· ≠ 0)) (k := k) (by omega) (fun j _ => by
    refine Nat.le_trans (prod_take_le _ _) ?_
    rw [prodMax_filter, prodMax_marked hM]
    exact h.shape.prodMax_le) E ((m.push b1).push b2)
  have h2 := (h.push wf b1).push (wf.push b1) b2
  rw [hk] at em
  rw [← hf] at hsz
  unfold squeeze reshape
  msimp [h.tDimsArr, h.tNdim, hnn, badAxis_nat, e1, em, e2, hcomp, h2.tSize, hsz]

/-- The number of dims that are left is the computed rank: the tensor is reshaped, or refused if it has no elements. -/
theorem squeeze_exact (wf : m.WF) (h : At m R T) (hr : ∀ a ∈ ax, a < T.dims.length)
    (hx : (keptDims (asked ax) 0 T.dims).length + unitHits T.dims ax = T.dims.length) (out : Ptr) :
    (0 ∉ T.dims → Creates E (squeeze R.h (dimsCells ax) ax.length out) m out
      { T with dims := keptDims (asked ax) 0 T.dims }) ∧
    (0 ∈ T.dims → Refuses E (squeeze R.h (dimsCells ax) ax.length out) m out .dimensionsMismatch ∨
      (¬ E.NoFail ∧ ∃ m', squeeze R.h (dimsCells ax) ax.length out E m = .ok (.allocFailed, out) m' ∧ Frame m m' ∧ m'.WF)) := by
  obtain ⟨ps, -, hM⟩ := squeezeMark_any (E := E) (m := m) h.shape.rank hr
  have hk := keptDims_marked hM
  have hnz : nz ps = (ps.filter (· ≠ 0)).length := List.countP_eq_length_filter
  have hlen : (ps.filter (· ≠ 0)).length ≤ T.dims.length := by rw [hk]; omega
  have hs : ShapeOK (ps.filter (· ≠ 0)) T.dtype.size :=
    ⟨by rw [prodMax_filter, prodMax_marked hM]; exact h.shape.fits, Nat.le_trans hlen h.shape.rank⟩
  have hmark : ∀ m, squeezeMark (dimsCells T.dims) T.dims.length (dimsCells ax) ax.length E m =
      .ok (dimsCells ps, ((ps.filter (· ≠ 0)).length : Int)) m := by
    intro m
    obtain ⟨ps', e, hM'⟩ := squeezeMark_any (E := E) (m := m) h.shape.rank hr
    have : ps' = ps := by
      apply List.ext_getElem (by rw [hM.1, hM'.1])
      intro i h1 h2
      rw [hM.2 i h2 (by rw [← hM.1]; exact h2), hM'.2 i h1 (by rw [← hM.1]; exact h2)]
    subst this
    rw [e, hk]
    congr 2
    omega
  have hcomp : ∀ m, squeezeCompact (dimsCells ps) T.dims.length ((ps.filter (· ≠ 0)).length : Int) E m =
      .ok (dimsCells (ps.filter (· ≠ 0))) m := by
    intro m
    rw [← hM.1, squeezeCompact_run (Nat.le_trans hlen h.shape.rank) (by omega)]
    rw [hnz]; simp
  have hnn : ¬ (ax.length : Int) < 0 := by omega
  rw [← hk]
  have hpr0 : 0 ∉ T.dims → prod (ps.filter (· ≠ 0)) = prod T.dims := fun h0 => by rw [hk]; exact keptDims_prod h0
  have hpr1 : 0 ∈ T.dims → prod (ps.filter (· ≠ 0)) ≠ prod T.dims := fun h0 => by
    rw [hk, prod_eq_zero_of_mem h0]
    exact Nat.pos_iff_ne_zero.1 (prod_pos keptDims_pos)
  have hx : 0 ∈ T.dims → ∀ b1 b2, reshape R.h (dimsCells (ps.filter (· ≠ 0))) (ps.filter (· ≠ 0)).length out E
      ((m.push b1).push b2) = .ok (.dimensionsMismatch, out) ((m.push b1).push b2) := fun h0 b1 b2 =>
    reshape_mismatch ((h.push wf b1).push (wf.push b1) b2) hs (hpr1 h0) out
  unfold Creates Refuses squeeze
  rcases scratch_run T.dims.length 8 E m with ⟨b1, e1⟩ | ⟨e1, nf⟩
  · rcases scratch_run (ps.filter (· ≠ 0)).length 8 E (m.push b1) with ⟨b2, e2⟩ | ⟨e2, nf⟩
    · refine ⟨fun h0 => ?_, fun h0 => ?_⟩
      · have wf2 := (wf.push b1).push b2
        have h2 := (h.push wf b1).push (wf.push b1) b2
        rcases reshape_run (E := E) wf2 h2 hs (hpr0 h0) out with ⟨R', m3, e3, P⟩ | ⟨m3, e3, fr, wf3, nf⟩
        · left
          obtain ⟨m4, e4, P'⟩ := P.unscratch2 (E := E)
          refine ⟨R', m4, ?_, P'⟩
          msimp [h.tDimsArr, h.tNdim, hnn, badAxis_nat, e1, hmark, e2, hcomp, e3]
          msimp [] at e4
          exact andThen_pure e4 _
        · right
          obtain ⟨m4, e4, fr4, wf4⟩ := free2 (E := E) fr wf3
          refine ⟨m4, ?_, fr4, wf4, nf⟩
          msimp [h.tDimsArr, h.tNdim, hnn, badAxis_nat, e1, hmark, e2, hcomp, e3]
          msimp [] at e4
          exact andThen_pure e4 _
      · left
        have hk2 : ((m.push b1).push b2).blk (m.push b1).next = some ⟨.own, b2⟩ := by simp [Mem.push, upd]
        have hk1 : ((m.push b1).push b2).blk m.next = some ⟨.own, b1⟩ := by simp [Mem.push, upd]
        have hne : m.next ≠ (m.push b1).next := by simp
        have hk2' : (((m.push b1).push b2).set m.next none).blk (m.push b1).next = some ⟨.own, b2⟩ := by
          rw [Mem.set_blk_ne _ _ hne.symm]; exact hk2
        refine ⟨(((m.push b1).push b2).set m.next none).set (m.push b1).next none, ?_, ?_, ?_, ?_⟩
        · msimp [h.tDimsArr, h.tNdim, hnn, badAxis_nat, e1, hmark, e2, hcomp, hx h0 b1 b2, run_rawFree hk1, run_rawFree hk2']
        · exact (((Frame.push m b1).trans (Frame.push _ b2)).set (Nat.le_refl _) _).set (by simp) _
        · exact (((wf.push b1).push b2).free _).free _
        · intro b hb
          simp only [Mem.set, Mem.push, upd]
          split
          · rfl
          · split
            · rfl
            · exact wf b hb
    · have hrun : squeeze R.h (dimsCells ax) ax.length out E m = .ok (.allocFailed, out) (m.push b1).miss := by
        unfold squeeze
        msimp [h.tDimsArr, h.tNdim, hnn, badAxis_nat, e1, hmark, e2]
      unfold squeeze at hrun
      exact ⟨fun _ => .inr ⟨_, hrun, (Frame.push _ _).trans (Frame.miss _), (wf.push _).miss, nf⟩,
        fun _ => .inr ⟨nf, _, hrun, (Frame.push _ _).trans (Frame.miss _), (wf.push _).miss⟩⟩
  · have hrun : squeeze R.h (dimsCells ax) ax.length out E m = .ok (.allocFailed, out) m.miss := by
      unfold squeeze
      msimp [h.tDimsArr, h.tNdim, hnn, badAxis_nat, e1]
    unfold squeeze at hrun
    exact ⟨fun _ => .inr ⟨_, hrun, Frame.miss _, wf.miss, nf⟩, fun _ => .inr ⟨nf, _, hrun, Frame.miss _, wf.miss⟩⟩

theorem squeeze_oob_sane (hE : E.Sane) (h : At m R T) (hr : ∃ a ∈ ax, T.dims.length ≤ a) (out : Ptr) :
    squeeze R.h (dimsCells ax) ax.length out E m = .ub .outOfBounds := by
  obtain ⟨b1, e1⟩ := scratch_sane hE h.shape.rank m
  have hnn : ¬ (ax.length : Int) < 0 := by omega
  have hub := fun m => squeezeMark_oob (E := E) (m := m) h.shape.rank hr
  unfold squeeze
  msimp [h.tDimsArr, h.tNdim, hnn, badAxis_nat, e1, hub]

end cases

end Aitisa
