import Verif.Proof.Index
import Verif.Spec.Squeeze

/-! # squeeze -/

namespace Aitisa

/-! ### Temporary blocks -/

theorem Frame.set {m m' : Mem} (h : Frame m m') {n : Nat} (hn : m.next ≤ n) (b) : Frame m (m'.set n b) :=
  ⟨h.next, fun x hx => by rw [Mem.set_blk_ne _ _ (by omega), h.same x hx]⟩

theorem Frame.push (m : Mem) (b : Body) : Frame m (m.push b) :=
  ⟨by simp, fun x hx => Mem.push_blk_ne _ _ (by omega)⟩

theorem Frame.pushC (m : Mem) (b : Body) : Frame m (m.pushC b) :=
  ⟨by simp, fun x hx => Mem.pushC_blk_ne _ _ (by omega)⟩

theorem Mem.WF.free {m : Mem} (h : m.WF) (n : Nat) : (m.set n none).WF := by
  intro b hb; rw [Mem.set_blk]; split
  · rfl
  · exact h b hb

/-- A temporary block allocated before a tensor is produced and freed afterwards. -/
theorem Produces.unscratch {m m' : Mem} {b : Body} {R : Foot} {T : TV} (P : Produces (m.push b) m' R T) :
    Produces m (m'.set m.next none) R T where
  ext :=
    { (Frame.push m b).trans P.frame |>.set (Nat.le_refl _) none with
      wf := P.wf.free _
      live := fun x hx hn => by
        have hne : x ≠ m.next := by rintro rfl; simp at hn
        rw [Mem.set_blk_ne _ _ hne] at hn
        exact P.ext.live x (by simp; omega) hn }
  tensor := P.tensor.set_ne (fun hb => by have := P.fresh _ hb; simp at this; omega) _
  fresh b hb := by have := P.fresh b hb; simp at this; omega

theorem Frame.kept {m m' : Mem} {b : Body} (f : Frame (m.push b) m') : m'.blk m.next = some ⟨.own, b⟩ := by
  rw [f.same _ (by simp)]; simp

theorem Frame.keptC {m m' : Mem} {b : Body} (f : Frame (m.pushC b) m') : m'.blk m.next = some ⟨.malloc, b⟩ := by
  rw [f.same _ (by simp)]; simp

theorem scratch_run (n : Int) (k : Nat) (E : Env) (m : Mem) :
    (∃ b, scratch n k E m = .ok (.blk m.next) (m.push b)) ∨
    (scratch n k E m = .ok .null m.miss ∧ ¬ E.NoFail) := by
  unfold scratch
  rw [run_rawAlloc]
  by_cases h : E.allocOk m.tick (toSizeT (k * n)) = true
  · left; rw [if_pos h]; exact ⟨_, rfl⟩
  · right; rw [if_neg h]; exact ⟨rfl, fun nf => h (nf _ _)⟩

theorem scratch_ok {E : Env} (nf : E.NoFail) (n : Int) (k : Nat) (m : Mem) :
    ∃ b, scratch n k E m = .ok (.blk m.next) (m.push b) := by
  rcases scratch_run n k E m with h | ⟨_, h⟩
  · exact h
  · exact absurd nf h

theorem Frame.miss (m : Mem) : Frame m m.miss := ⟨Nat.le_refl _, fun _ _ => rfl⟩

theorem cells_nat {n : Nat} (h : n ≤ 2147483647) : cells (n : Int) 8 = List.replicate n none := by
  unfold cells toSizeT
  congr 1
  omega

/-! ### Validation -/

theorem squeezeBadAxis_ok {E : Env} {m : Mem} {ax : List Int} (h : ∀ a ∈ ax, 0 ≤ a) :
    squeezeBadAxis (Arr.of ax) ax.length E m = .ok false m := by
  unfold squeezeBadAxis
  rw [run_ite]
  split
  · obtain ⟨s', m', e, hm⟩ := loopE_inv (E := E) (ρ := Unit) (fun i (_ : Unit) => do
      let a ← (Arr.of ax).rd i
      if a < 0 then return .inr () else return .inl ()) (fun _ _ m' => m' = m) ax.length (by
        rintro i s m' hi rfl
        refine ⟨(), m', ?_, rfl⟩
        have hr : (Arr.of ax).rd i E m' = .ok ax[i] m' := run_rd (by simp [Arr.of, hi]) E m'
        have := h _ (List.getElem_mem hi)
        msimp [hr, show ¬ ax[i] < 0 by omega]) (s := ()) (m := m) rfl
    rw [hm] at e
    rw [Int.toNat_natCast]
    msimp [e]
  · rfl

theorem squeezeBadAxis_bad {E : Env} {m : Mem} {ax : List Int} (h : ∃ a ∈ ax, a < 0) :
    squeezeBadAxis (Arr.of ax) ax.length E m = .ok true m := by
  obtain ⟨a, ha, hneg⟩ := h
  obtain ⟨i0, hi0, rfl⟩ := List.mem_iff_getElem.1 ha
  have hfirst : ∃ j, ∃ hj : j < ax.length, ax[j] < 0 ∧ ∀ k (hk : k < j), 0 ≤ ax[k]'(Nat.lt_trans hk hj) := by
    clear ha
    induction i0 using Nat.strongRecOn with
    | _ i ih =>
      by_cases h : ∃ k, ∃ hk : k < i, ax[k]'(by omega) < 0
      · obtain ⟨k, hk, hn⟩ := h; exact ih k hk (by omega) hn
      · refine ⟨i, hi0, hneg, fun k hk => ?_⟩
        apply Classical.byContradiction
        intro hn; exact h ⟨k, hk, by omega⟩
  obtain ⟨j, hj, hjn, hlt⟩ := hfirst
  unfold squeezeBadAxis
  have hpos : (ax.length : Int) > 0 := by omega
  rw [run_ite, if_pos hpos]
  obtain ⟨r, m', e, hm⟩ := loopE_ret (E := E) (ρ := Unit) (fun i (_ : Unit) => do
    let a ← (Arr.of ax).rd i
    if a < 0 then return .inr () else return .inl ()) (fun _ _ m' => m' = m) ax.length j
    (fun _ m' => m' = m) hj (by
      rintro i s m' hi rfl
      refine ⟨(), m', ?_, rfl⟩
      have hr : (Arr.of ax).rd i E m' = .ok (ax[i]'(by omega)) m' :=
        run_rd (by simp [Arr.of, show i < ax.length by omega]) E m'
      have := hlt i hi
      msimp [hr, show ¬ (ax[i]'(by omega)) < 0 by omega]) (by
      rintro s m' rfl
      refine ⟨(), m', ?_, rfl⟩
      have hr : (Arr.of ax).rd j E m' = .ok ax[j] m' := run_rd (by simp [Arr.of, hj]) E m'
      msimp [hr, hjn]) (s := ()) (m := m) rfl
  rw [hm] at e
  rw [Int.toNat_natCast]
  msimp [e]

/-! ### Marking -/

/-- `ps` is `ds` with the unit dims at the positions in `A` replaced by 0. -/
def Marked (ds A ps : List Nat) : Prop :=
  ps.length = ds.length ∧ ∀ i (h : i < ps.length) (h' : i < ds.length),
    ps[i] = if ds[i] = 1 ∧ i ∈ A then 0 else ds[i]

theorem NoRepeatedUnit.of_nodup (ds : List Nat) {ax : List Nat} (h : ax.Nodup) : NoRepeatedUnit ds ax := by
  intro j k a hjk hj hk _
  obtain ⟨hj', e⟩ := List.getElem?_eq_some_iff.1 hj
  obtain ⟨hk', e'⟩ := List.getElem?_eq_some_iff.1 hk
  have := (List.getElem_inj h).1 (e.trans e'.symm)
  omega

theorem Marked.nil (ds : List Nat) : Marked ds [] ds := ⟨rfl, fun i h h' => by simp⟩

/-- Number of nonzero cells. -/
def nz (ps : List Nat) : Nat := ps.countP (· ≠ 0)

theorem Marked.unit {ds A ps : List Nat} (h : Marked ds A ps) {a : Nat} (ha : a < ds.length) (h1 : ds[a] = 1)
    (hA : a ∉ A) : Marked ds (A ++ [a]) (ps.set a 0) ∧ nz (ps.set a 0) + 1 = nz ps := by
  have hap : a < ps.length := by rw [h.1]; exact ha
  have hpa : ps[a] = 1 := by rw [h.2 a hap ha]; simp [hA, h1]
  refine ⟨⟨by simp [h.1], fun i hi hi' => ?_⟩, ?_⟩
  · rw [List.getElem_set]
    by_cases hai : a = i
    · subst hai; simp [h1]
    · rw [if_neg hai, h.2 i (by rw [h.1]; exact hi') hi']
      simp [show ¬ i = a from fun e => hai e.symm]
  · unfold nz
    rw [List.countP_set hap]
    have hc : 0 < List.countP (fun x => decide (x ≠ 0)) ps := by
      apply List.countP_pos_iff.2
      exact ⟨ps[a], List.getElem_mem hap, by simp [hpa]⟩
    rw [if_pos (by simp [hpa]), if_neg (by simp)]
    omega

theorem Marked.nonunit {ds A ps : List Nat} (h : Marked ds A ps) {a : Nat} (ha : a < ds.length)
    (h1 : ds[a] ≠ 1) : Marked ds (A ++ [a]) ps := by
  refine ⟨h.1, fun i hi hi' => ?_⟩
  rw [h.2 i hi hi']
  by_cases hia : i = a
  · subst hia; simp [h1]
  · simp [hia]

/-- The marking loop over the axes `ax`. -/
theorem mark_loop {E : Env} {m : Mem} {ds ax : List Nat} (hnd : NoRepeatedUnit ds ax) (hr : ∀ a ∈ ax, a < ds.length)
    (g : Nat → Arr × Int → M (Arr × Int))
    (hg : ∀ i (hi : i < ax.length) ps o, ps.length = ds.length → g i (dimsCells ps, o) E m =
      .ok (if ds[ax[i]]'(hr _ (List.getElem_mem hi)) = 1 then (dimsCells (ps.set ax[i] 0), o - 1)
        else (dimsCells ps, o)) m) :
    ∃ ps, loopN g ax.length 0 (dimsCells ds, (ds.length : Int)) E m =
      .ok (dimsCells ps, ((nz ps + ds.count 0 : Nat) : Int)) m ∧ Marked ds ax ps := by
  obtain ⟨s', m', e, rfl, ps, hM, rfl⟩ := loopN_inv (E := E) g (fun i s m' => m' = m ∧
      ∃ ps, Marked ds (ax.take i) ps ∧ s = (dimsCells ps, ((nz ps + ds.count 0 : Nat) : Int))) ax.length (by
    rintro i s m' hi ⟨rfl, ps, hM, rfl⟩
    have ha := hr _ (List.getElem_mem hi)
    rw [hg i hi ps _ hM.1]
    by_cases h1 : ds[ax[i]] = 1
    · have hnot : ax[i] ∉ ax.take i := by
        intro hmem
        obtain ⟨k, hk, hke⟩ := List.mem_iff_getElem.1 hmem
        simp only [List.length_take] at hk
        rw [List.getElem_take] at hke
        refine hnd (j := k) (k := i) (a := ax[i]) (by omega) ?_ (List.getElem?_eq_getElem hi) ?_
        · rw [List.getElem?_eq_getElem (by omega), hke]
        · rw [List.getElem?_eq_getElem ha, h1]
      obtain ⟨hM', hz⟩ := hM.unit ha h1 hnot
      rw [if_pos h1]
      refine ⟨_, _, rfl, rfl, ps.set ax[i] 0, ?_, ?_⟩
      · rw [List.take_succ_eq_append_getElem hi]; exact hM'
      · congr 1; omega
    · rw [if_neg h1]
      refine ⟨_, _, rfl, rfl, ps, ?_, rfl⟩
      rw [List.take_succ_eq_append_getElem hi]; exact hM.nonunit ha h1)
    (s := (dimsCells ds, (ds.length : Int))) (m := m) (by
      refine ⟨rfl, ds, by simpa using Marked.nil ds, ?_⟩
      congr 1
      have := List.length_eq_countP_add_countP (fun x : Nat => decide (x ≠ 0)) (l := ds)
      unfold nz
      rw [List.count]
      have e : ds.countP (fun a => decide ¬ (decide (a ≠ 0) = true)) = ds.countP (· == 0) := by
        congr 1; funext a; simp; rfl
      omega)
  refine ⟨ps, e, ?_⟩
  simpa using hM

theorem dimsCells_append (a b : List Nat) : dimsCells (a ++ b) = dimsCells a ++ dimsCells b := by
  simp [dimsCells]

theorem copy_dims {E : Env} {m : Mem} {ds : List Nat} (h : ds.length ≤ 2147483647) :
    forI (ds.length : Int) (cells ds.length 8) (fun i p => do
      let d ← (dimsCells ds).rd i
      p.wr i d) E m = .ok (dimsCells ds) m := by
  rw [cells_nat h]
  unfold forI
  rw [Int.toNat_natCast]
  have := loopN_fn (E := E) (fun i (p : Arr) => do
      let d ← (dimsCells ds).rd i
      p.wr i d)
    (fun i => dimsCells (ds.take i) ++ (List.replicate (ds.length - i) none : Arr)) (fun _ => m) ds.length (by
    intro i hi
    have hw : Arr.wr (dimsCells (ds.take i) ++ (List.replicate (ds.length - i) none : Arr)) (i : Int) (ds[i] : Int) E m =
        .ok (dimsCells (ds.take (i + 1)) ++ (List.replicate (ds.length - (i + 1)) none : Arr)) m := by
      rw [run_wr (by simp; omega)]
      congr 1
      rw [List.set_append_right _ _ (by simp; omega)]
      have e1 : i - (dimsCells (ds.take i)).length = 0 := by simp; omega
      have e2 : ds.length - i = (ds.length - (i + 1)) + 1 := by omega
      rw [e1, e2, List.replicate_succ, List.set_cons_zero, List.take_succ_eq_append_getElem hi,
        dimsCells_append, List.append_assoc]
      rfl
    msimp [rd_dims hi, hw])
  simpa [dimsCells] using this

theorem wr_set {ps : List Nat} {a : Nat} (h : a < ps.length) (v : Nat) (E : Env) (m : Mem) :
    (dimsCells ps).wr (a : Int) (v : Int) E m = .ok (dimsCells (ps.set a v)) m := by
  rw [run_wr (by simpa using h)]
  simp [dimsCells, List.map_set]

/-- The axes that are asked for: all of them if the list is empty. -/
def axesOf (n : Nat) (ax : List Nat) : List Nat := if ax = [] then List.range n else ax

theorem squeezeMark_run {E : Env} {m : Mem} {ds ax : List Nat} (hn : ds.length ≤ 2147483647) (hnd : NoRepeatedUnit ds ax)
    (hr : ∀ a ∈ ax, a < ds.length) :
    ∃ ps, squeezeMark (dimsCells ds) ds.length (dimsCells ax) ax.length E m =
      .ok (dimsCells ps, ((nz ps + ds.count 0 : Nat) : Int)) m ∧ Marked ds (axesOf ds.length ax) ps := by
  unfold squeezeMark
  by_cases h0 : ax = []
  · subst h0
    obtain ⟨ps, e, hM⟩ := mark_loop (E := E) (m := m) (ds := ds) (ax := List.range ds.length)
      (.of_nodup _ List.nodup_range)
      (by simp) (fun i s => do
        let d ← (dimsCells ds).rd i
        if d = 1 then return (← s.1.wr i 0, s.2 - 1) else return s) (by
      intro i hi ps o hl
      have hi' : i < ds.length := by simpa using hi
      have hw := wr_set (ps := ps) (a := i) (by omega) 0 E m
      simp only [List.getElem_range]
      by_cases h1 : ds[i] = 1
      · have h1' : (ds[i] : Int) = 1 := by omega
        rw [if_pos h1]
        simp only [Int.ofNat_zero, Int.natCast_zero] at hw
        msimp [rd_dims hi', h1', hw]
      · have h1' : ¬ (ds[i] : Int) = 1 := by omega
        rw [if_neg h1]
        msimp [rd_dims hi', h1'])
    refine ⟨ps, ?_, by simpa [axesOf] using hM⟩
    rw [List.length_range] at e
    msimp [copy_dims hn]
    simp only [forI, Int.toNat_natCast, List.length_nil, Int.natCast_zero, if_true]
    exact e
  · obtain ⟨ps, e, hM⟩ := mark_loop (E := E) (m := m) hnd hr (fun i s => do
        let a ← (dimsCells ax).rd i
        let d ← (dimsCells ds).rd a
        if d = 1 then return (← s.1.wr a 0, s.2 - 1) else return s) (by
      intro i hi ps o hl
      have hi' := hr _ (List.getElem_mem hi)
      have hw := wr_set (ps := ps) (a := ax[i]) (by omega) 0 E m
      by_cases h1 : ds[ax[i]] = 1
      · have h1' : (ds[ax[i]] : Int) = 1 := by omega
        rw [if_pos h1]
        simp only [Int.ofNat_zero, Int.natCast_zero] at hw
        msimp [rd_dims hi, rd_dims hi', h1', hw]
      · have h1' : ¬ (ds[ax[i]] : Int) = 1 := by omega
        rw [if_neg h1]
        msimp [rd_dims hi, rd_dims hi', h1'])
    refine ⟨ps, ?_, by simpa [axesOf, h0] using hM⟩
    have hl : ¬ (ax.length : Int) = 0 := by
      have := List.length_pos_iff.2 h0; omega
    msimp [copy_dims hn]
    rw [if_neg hl]
    simp only [forI, Int.toNat_natCast]
    exact e

theorem squeezeMark_oob {E : Env} {m : Mem} {ds ax : List Nat} (hn : ds.length ≤ 2147483647)
    (hr : ∃ a ∈ ax, ds.length ≤ a) :
    squeezeMark (dimsCells ds) ds.length (dimsCells ax) ax.length E m = .ub .outOfBounds := by
  obtain ⟨a, ha, hge⟩ := hr
  obtain ⟨i0, hi0, rfl⟩ := List.mem_iff_getElem.1 ha
  have hfirst : ∃ j, ∃ hj : j < ax.length, ds.length ≤ ax[j] ∧
      ∀ k (hk : k < j), ax[k]'(Nat.lt_trans hk hj) < ds.length := by
    clear ha
    induction i0 using Nat.strongRecOn with
    | _ i ih =>
      by_cases h : ∃ k, ∃ hk : k < i, ds.length ≤ ax[k]'(by omega)
      · obtain ⟨k, hk, hn⟩ := h; exact ih k hk (by omega) hn
      · refine ⟨i, hi0, hge, fun k hk => ?_⟩
        apply Classical.byContradiction
        intro hn; exact h ⟨k, hk, by omega⟩
  obtain ⟨j, hj, hjn, hlt⟩ := hfirst
  unfold squeezeMark
  have hl : ¬ (ax.length : Int) = 0 := by omega
  msimp [copy_dims hn]
  rw [if_neg hl]
  simp only [forI, Int.toNat_natCast]
  refine loopN_ubInv _ (fun _ s m' => m' = m ∧ s.1.length = ds.length) _ j _ hj ?_ ?_ ⟨rfl, by simp⟩
  · rintro i s m' hi ⟨rfl, hl'⟩
    have hi1 : i < ax.length := by omega
    have hi' := hlt i hi
    by_cases h1 : ds[ax[i]] = 1
    · have h1' : (ds[ax[i]] : Int) = 1 := by omega
      refine ⟨(s.1.set ax[i] (some 0), s.2 - 1), m', ?_, rfl, by simp [hl']⟩
      msimp [rd_dims hi1, rd_dims hi', h1', run_wr (show ax[i] < s.1.length by omega)]
    · have h1' : ¬ (ds[ax[i]] : Int) = 1 := by omega
      refine ⟨s, m', ?_, rfl, hl'⟩
      msimp [rd_dims hi1, rd_dims hi', h1']
  · rintro s m' ⟨rfl, hl'⟩
    have hoob : (dimsCells ds).rd (ax[j] : Int) E m' = .ub .outOfBounds := by
      unfold Arr.rd
      rw [if_neg (by simp; omega)]; rfl
    msimp [rd_dims hj, hoob]

/-! ### Compaction -/

/-- State of the compaction loop after `i` iterations. -/
def compactState (ps : List Nat) (n i : Nat) : Arr × Int :=
  (dimsCells ((ps.take i).filter (· ≠ 0)) ++ (List.replicate (n - nz (ps.take i)) none : Arr),
    ((nz (ps.take i) : Nat) : Int))

theorem nz_take (ps : List Nat) (i : Nat) : nz (ps.take i) = ((ps.take i).filter (· ≠ 0)).length :=
  List.countP_eq_length_filter

theorem nz_take_le (ps : List Nat) (i : Nat) : nz (ps.take i) ≤ nz ps := by
  unfold nz
  conv => rhs; rw [← List.take_append_drop i ps, List.countP_append]
  omega

theorem compact_step {E : Env} {m : Mem} {ps : List Nat} {n i : Nat} (hi : i < ps.length)
    (hl : nz (ps.take (i + 1)) ≤ n) :
    (do let d ← (dimsCells ps).rd i
        if d ≠ 0 then return (← (compactState ps n i).1.wr (compactState ps n i).2 d, (compactState ps n i).2 + 1)
        else return compactState ps n i : M (Arr × Int)) E m = .ok (compactState ps n (i + 1)) m := by
  unfold compactState
  by_cases h0 : ps[i] = 0
  · have h0' : (ps[i] : Int) = 0 := by omega
    have e1 : (ps.take (i + 1)).filter (· ≠ 0) = (ps.take i).filter (· ≠ 0) := by
      rw [List.take_succ_eq_append_getElem hi, List.filter_append]; simp [h0]
    have e2 : nz (ps.take (i + 1)) = nz (ps.take i) := by rw [nz_take, nz_take, e1]
    rw [e1, e2]
    msimp [rd_dims hi, h0']
  · have h0' : ¬ (ps[i] : Int) = 0 := by omega
    have e1 : (ps.take (i + 1)).filter (· ≠ 0) = (ps.take i).filter (· ≠ 0) ++ [ps[i]] := by
      rw [List.take_succ_eq_append_getElem hi, List.filter_append]; simp [h0]
    have e2 : nz (ps.take (i + 1)) = nz (ps.take i) + 1 := by rw [nz_take, nz_take, e1]; simp
    have hw : Arr.wr (dimsCells ((ps.take i).filter (· ≠ 0)) ++ (List.replicate (n - nz (ps.take i)) none : Arr))
        ((nz (ps.take i) : Nat) : Int) (ps[i] : Int) E m =
        .ok (dimsCells ((ps.take (i + 1)).filter (· ≠ 0)) ++ (List.replicate (n - nz (ps.take (i + 1))) none : Arr)) m := by
      rw [run_wr (by rw [List.length_append, dimsCells_length, ← nz_take, List.length_replicate]; omega)]
      congr 1
      rw [List.set_append_right _ _ (by rw [dimsCells_length, ← nz_take]; omega), dimsCells_length, ← nz_take,
        Nat.sub_self, e1, e2, show n - nz (ps.take i) = (n - (nz (ps.take i) + 1)) + 1 by omega,
        List.replicate_succ, List.set_cons_zero, dimsCells_append, List.append_assoc]
      rfl
    have e3 : ((nz (ps.take i) : Nat) : Int) + 1 = ((nz (ps.take (i + 1)) : Nat) : Int) := by omega
    msimp [rd_dims hi, h0', hw, e3]

theorem compact_init {ps : List Nat} {n : Nat} (hn : n ≤ 2147483647) :
    (cells (n : Int) 8, (0 : Int)) = compactState ps n 0 := by
  rw [cells_nat hn]; rfl

theorem squeezeCompact_run {E : Env} {m : Mem} {ps : List Nat} {n : Nat} (hn : n ≤ 2147483647)
    (hle : nz ps ≤ n) :
    squeezeCompact (dimsCells ps) ps.length n E m =
      .ok (dimsCells (ps.filter (· ≠ 0)) ++ (List.replicate (n - nz ps) none : Arr)) m := by
  unfold squeezeCompact forI
  rw [compact_init (ps := ps) hn, Int.toNat_natCast]
  have := loopN_fn (E := E) (fun i (s : Arr × Int) => do
      let d ← (dimsCells ps).rd i
      if d ≠ 0 then return (← s.1.wr s.2 d, s.2 + 1) else return s)
    (compactState ps n) (fun _ => m) ps.length
    (fun i hi => compact_step hi (Nat.le_trans (nz_take_le ps _) hle))
  rw [run_bind, this]
  msimp [compactState, List.take_length]

/-- With too few cells the compaction writes past the end. -/
theorem squeezeCompact_oob {E : Env} {m : Mem} {ps : List Nat} {n : Nat} (hn : n ≤ 2147483647)
    (hlt : n < nz ps) :
    squeezeCompact (dimsCells ps) ps.length n E m = .ub .outOfBounds := by
  have hfirst : ∃ j, j < ps.length ∧ n < nz (ps.take (j + 1)) ∧ ∀ k, k ≤ j → nz (ps.take k) ≤ n := by
    suffices H : ∀ l, n < nz (ps.take l) → ∃ j, j < ps.length ∧ n < nz (ps.take (j + 1)) ∧
        ∀ k, k ≤ j → nz (ps.take k) ≤ n from H ps.length (by rwa [List.take_length])
    intro l
    induction l with
    | zero => intro h; simp [nz] at h
    | succ l ih =>
      intro h
      by_cases h' : ∃ k, k ≤ l ∧ n < nz (ps.take k)
      · obtain ⟨k, hk, hk'⟩ := h'
        have : nz (ps.take k) ≤ nz (ps.take l) := by
          have := nz_take_le (ps.take l) k
          rwa [List.take_take, Nat.min_eq_left hk] at this
        exact ih (by omega)
      · refine ⟨l, ?_, h, fun k hk => ?_⟩
        · apply Nat.lt_of_not_le
          intro hle
          apply h'
          refine ⟨l, Nat.le_refl _, ?_⟩
          rw [List.take_of_length_le hle]
          rwa [List.take_of_length_le (by omega)] at h
        · apply Nat.le_of_not_lt
          intro hk'; exact h' ⟨k, hk, hk'⟩
  obtain ⟨j, hj, hjn, hle⟩ := hfirst
  unfold squeezeCompact forI
  rw [compact_init (ps := ps) hn, Int.toNat_natCast]
  have := loopN_ub (E := E) (fun i (s : Arr × Int) => do
      let d ← (dimsCells ps).rd i
      if d ≠ 0 then return (← s.1.wr s.2 d, s.2 + 1) else return s)
    (compactState ps n) (fun _ => m) ps.length j .outOfBounds hj
    (fun i hi => compact_step (by omega) (hle _ (by omega))) (by
      have hjle := hle j (Nat.le_refl _)
      have h0 : ps[j] ≠ 0 := by
        intro h0
        have : nz (ps.take (j + 1)) = nz (ps.take j) := by
          rw [nz_take, nz_take, List.take_succ_eq_append_getElem hj, List.filter_append]; simp [h0]
        omega
      have h1 : nz (ps.take (j + 1)) = nz (ps.take j) + 1 := by
        rw [nz_take, nz_take, List.take_succ_eq_append_getElem hj, List.filter_append]; simp [h0]
      have h0' : ¬ (ps[j] : Int) = 0 := by omega
      have hw : Arr.wr (compactState ps n j).1 (compactState ps n j).2 (ps[j] : Int) E m = .ub .outOfBounds := by
        unfold compactState Arr.wr
        rw [if_neg]
        · rfl
        · rw [List.length_append, dimsCells_length, ← nz_take, List.length_replicate]; omega
      msimp [rd_dims hj, h0', hw])
  rw [run_bind, this]
  rfl

/-! ### The operator -/

theorem Without.of_marked {A : Nat → Prop} {ds ps : List Nat} {k : Nat} (hp : ∀ d ∈ ds, 0 < d)
    (hl : ps.length = ds.length)
    (h : ∀ i (h1 : i < ps.length) (h2 : i < ds.length),
      (ds[i] = 1 ∧ A (k + i) → ps[i] = 0) ∧ (¬ (ds[i] = 1 ∧ A (k + i)) → ps[i] = ds[i])) :
    Without A k ds (ps.filter (· ≠ 0)) := by
  induction ds generalizing k ps with
  | nil =>
    have : ps = [] := by simpa using hl
    subst this; rfl
  | cons d ds ih =>
    cases ps with
    | nil => simp at hl
    | cons p ps =>
      have h0 := h 0 (by simp) (by simp)
      simp only [List.getElem_cons_zero, Nat.add_zero] at h0
      have hrest := ih (k := k + 1) (ps := ps) (fun x hx => hp x (by simp [hx])) (by simpa using hl)
        (fun i h1 h2 => by
          have := h (i + 1) (by simpa using h1) (by simpa using h2)
          simp only [List.getElem_cons_succ] at this
          rwa [show k + 1 + i = k + (i + 1) by omega])
      have hd := hp d (by simp)
      by_cases hc : d = 1 ∧ A k
      · left
        refine ⟨hc.1, hc.2, ?_⟩
        rw [h0.1 hc]; simpa using hrest
      · right
        refine ⟨hc, ps.filter (· ≠ 0), ?_, hrest⟩
        rw [h0.2 hc]
        rw [List.filter_cons_of_pos (by simp; omega)]

theorem Without.prod {A : Nat → Prop} {k : Nat} {ds ds' : List Nat} (h : Without A k ds ds') :
    Aitisa.prod ds' = Aitisa.prod ds ∧ prodMax ds' = prodMax ds ∧ ds'.length ≤ ds.length := by
  induction ds generalizing k ds' with
  | nil => simp only [Without] at h; subst h; simp
  | cons d ds ih =>
    rcases h with ⟨rfl, _, h⟩ | ⟨_, r, rfl, h⟩
    · obtain ⟨h1, h2, h3⟩ := ih h
      simp only [Aitisa.prod, prodMax, List.length_cons, h1, h2, Nat.max_self, Nat.one_mul, true_and]
      omega
    · obtain ⟨h1, h2, h3⟩ := ih h
      simp only [Aitisa.prod, prodMax, List.length_cons, h1, h2, Nat.max_self, Nat.one_mul, true_and]
      omega

theorem Without.unique {A : Nat → Prop} {k : Nat} {ds d1 d2 : List Nat} (h1 : Without A k ds d1)
    (h2 : Without A k ds d2) : d1 = d2 := by
  induction ds generalizing k d1 d2 with
  | nil => simp only [Without] at h1 h2; rw [h1, h2]
  | cons d ds ih =>
    rcases h1 with ⟨ha, hb, h1⟩ | ⟨ha, r, rfl, h1⟩ <;> rcases h2 with ⟨ha', hb', h2⟩ | ⟨ha', r', rfl, h2⟩
    · exact ih h1 h2
    · exact absurd ⟨ha, hb⟩ ha'
    · exact absurd ⟨ha', hb'⟩ ha
    · rw [ih h1 h2]

theorem dimsCells_eq_of (ax : List Nat) : dimsCells ax = Arr.of (ax.map fun n : Nat => (n : Int)) := by
  simp [dimsCells, Arr.of]

theorem badAxis_nat {E : Env} {m : Mem} (ax : List Nat) :
    squeezeBadAxis (dimsCells ax) ax.length E m = .ok false m := by
  have := squeezeBadAxis_ok (E := E) (m := m) (ax := ax.map fun n : Nat => (n : Int)) (by
    intro a ha
    obtain ⟨n, _, rfl⟩ := List.mem_map.1 ha
    omega)
  rw [List.length_map] at this
  rw [dimsCells_eq_of]; exact this

/-- Two temporary blocks around the production of a tensor, freed in allocation order. -/
theorem Produces.unscratch2 {m m' : Mem} {b b' : Body} {R : Foot} {T : TV}
    (P : Produces ((m.push b).push b') m' R T) :
    ∃ m'', (do rawFree (.blk m.next); rawFree (.blk (m.push b).next) : M Unit) E m' = .ok () m'' ∧
      Produces m m'' R T := by
  have hk2 := P.frame.kept
  have hk1 : m'.blk m.next = some ⟨.own, b⟩ := ((Frame.push (m.push b) b').trans P.frame).kept
  have hne : m.next ≠ (m.push b).next := by simp
  refine ⟨(m'.set m.next none).set (m.push b).next none, ?_, ?_⟩
  · have : (m'.set m.next none).blk (m.push b).next = some ⟨.own, b'⟩ := by
      rw [Mem.set_blk_ne _ _ hne.symm]; exact hk2
    msimp [run_rawFree hk1, run_rawFree this]
  · rw [Mem.set_comm _ _ _ hne]
    exact P.unscratch.unscratch

theorem free2 {E : Env} {m m' : Mem} {b b' : Body} (f : Frame ((m.push b).push b') m') (wf : m'.WF) :
    ∃ m'', (do rawFree (.blk m.next); rawFree (.blk (m.push b).next) : M Unit) E m' = .ok () m'' ∧
      Frame m m'' ∧ m''.WF := by
  have hk2 := f.kept
  have hk1 : m'.blk m.next = some ⟨.own, b⟩ := ((Frame.push (m.push b) b').trans f).kept
  have hne : m.next ≠ (m.push b).next := by simp
  refine ⟨(m'.set m.next none).set (m.push b).next none, ?_, ?_, (wf.free _).free _⟩
  · have : (m'.set m.next none).blk (m.push b).next = some ⟨.own, b'⟩ := by
      rw [Mem.set_blk_ne _ _ hne.symm]; exact hk2
    msimp [run_rawFree hk1, run_rawFree this]
  · exact ((((Frame.push m b).trans (Frame.push _ b')).trans f).set (Nat.le_refl _) _).set (by simp) _

theorem andThen_pure {α : Type} {r : Res Unit} {f : Unit → Mem → Res Unit} {m : Mem}
    (h : r.andThen f = .ok () m) (a : α) :
    (r.andThen fun u m' => (f u m').andThen fun _ m'' => .ok a m'') = .ok a m := by
  cases r with
  | ok u m1 => simp only [Res.andThen] at h ⊢; rw [h]
  | ub u => simp [Res.andThen] at h
  | abort => simp [Res.andThen] at h
  | fuel => simp [Res.andThen] at h

theorem squeeze_run {E : Env} {m : Mem} {R : Foot} {T : TV} (wf : m.WF) (h : At m R T)
    (hp : ∀ d ∈ T.dims, 0 < d) {ax : List Nat} (hnd : NoRepeatedUnit T.dims ax) (hr : ∀ a ∈ ax, a < T.dims.length) (out : Ptr) :
    ∃ ds', Without (fun i => ax = [] ∨ i ∈ ax) 0 T.dims ds' ∧
      Creates E (squeeze R.h (dimsCells ax) ax.length out) m out { T with dims := ds' } := by
  obtain ⟨ps, -, hM⟩ := squeezeMark_run (E := E) (m := m) h.shape.rank hnd hr
  have hW : Without (fun i => ax = [] ∨ i ∈ ax) 0 T.dims (ps.filter (· ≠ 0)) := by
    refine Without.of_marked hp hM.1 fun i h1 h2 => ?_
    have hi := hM.2 i h1 h2
    have hax : i ∈ axesOf T.dims.length ax ↔ (ax = [] ∨ i ∈ ax) := by
      unfold axesOf
      by_cases h0 : ax = []
      · simp [h0, h2]
      · simp [h0]
    simp only [hax] at hi
    simp only [Nat.zero_add]
    rw [hi]
    constructor
    · intro hc; rw [if_pos hc]
    · intro hc; rw [if_neg hc]
  refine ⟨_, hW, ?_⟩
  obtain ⟨hpr, hpm, hlen⟩ := hW.prod
  have hs : ShapeOK (ps.filter (· ≠ 0)) T.dtype.size :=
    ⟨by rw [hpm]; exact h.shape.fits, Nat.le_trans hlen h.shape.rank⟩
  have hz : T.dims.count 0 = 0 := by
    rw [List.count_eq_zero]
    intro h0; have := hp 0 h0; omega
  have hnz : nz ps = (ps.filter (· ≠ 0)).length := List.countP_eq_length_filter
  have hmark : ∀ m, squeezeMark (dimsCells T.dims) T.dims.length (dimsCells ax) ax.length E m =
      .ok (dimsCells ps, ((ps.filter (· ≠ 0)).length : Int)) m := by
    intro m
    obtain ⟨ps', e, hM'⟩ := squeezeMark_run (E := E) (m := m) h.shape.rank hnd hr
    have : ps' = ps := by
      apply List.ext_getElem (by rw [hM.1, hM'.1])
      intro i h1 h2
      rw [hM.2 i h2 (by rw [← hM.1]; exact h2), hM'.2 i h1 (by rw [← hM.1]; exact h2)]
    subst this
    rw [e, hz, hnz]; rfl
  have hcomp : ∀ m, squeezeCompact (dimsCells ps) T.dims.length ((ps.filter (· ≠ 0)).length : Int) E m =
      .ok (dimsCells (ps.filter (· ≠ 0))) m := by
    intro m
    rw [← hM.1, squeezeCompact_run (Nat.le_trans hlen h.shape.rank) (by omega)]
    rw [hnz]; simp
  have hnn : ¬ (ax.length : Int) < 0 := by omega
  unfold Creates squeeze
  rcases scratch_run T.dims.length 8 E m with ⟨b1, e1⟩ | ⟨e1, nf⟩
  · rcases scratch_run (ps.filter (· ≠ 0)).length 8 E (m.push b1) with ⟨b2, e2⟩ | ⟨e2, nf⟩
    · have wf2 := (wf.push b1).push b2
      have h2 := (h.push wf b1).push (wf.push b1) b2
      rcases reshape_run (E := E) wf2 h2 hs hpr out with ⟨R', m3, e3, P⟩ | ⟨m3, e3, fr, wf3, nf⟩
      · left
        obtain ⟨m4, e4, P'⟩ := P.unscratch2 (E := E)
        refine ⟨R', m4, ?_, P'⟩
        msimp [h.tDimsArr, h.tNdim, hnn, badAxis_nat, e1, hmark, e2, hcomp, e3]
        msimp [] at e4
        exact andThen_pure e4 _
      · right
        obtain ⟨m4, e4, fr4, wf4⟩ := free2 (E := E) fr wf3
        refine ⟨m4, ?_, fr4, wf4, nf⟩
        msimp [h.tDimsArr, h.tNdim, hnn, badAxis_nat, e1, hmark, e2, hcomp, e3]
        msimp [] at e4
        exact andThen_pure e4 _
    · right
      refine ⟨(m.push b1).miss, ?_, (Frame.push _ _).trans (Frame.miss _), (wf.push _).miss, nf⟩
      msimp [h.tDimsArr, h.tNdim, hnn, badAxis_nat, e1, hmark, e2]
  · right
    refine ⟨_, ?_, Frame.miss _, wf.miss, nf⟩
    msimp [h.tDimsArr, h.tNdim, hnn, badAxis_nat, e1]

/-! ### Axis lists that are undefined behaviour -/

theorem squeeze_oob_axis {E : Env} (nf : E.NoFail) {m : Mem} {R : Foot} {T : TV} (wf : m.WF) (h : At m R T)
    {ax : List Nat} (hr : ∃ a ∈ ax, T.dims.length ≤ a) (out : Ptr) :
    squeeze R.h (dimsCells ax) ax.length out E m = .ub .outOfBounds := by
  obtain ⟨b1, e1⟩ := scratch_ok nf T.dims.length 8 m
  have hnn : ¬ (ax.length : Int) < 0 := by omega
  have hub := fun m => squeezeMark_oob (E := E) (m := m) h.shape.rank hr
  unfold squeeze
  msimp [h.tDimsArr, h.tNdim, hnn, badAxis_nat, e1, hub]

/-- The marking loop with an axis list that names a unit axis twice: the rank it computes is too small. -/
theorem squeezeMark_dup {E : Env} {m : Mem} {ds ax : List Nat} (hn : ds.length ≤ 2147483647)
    (hp : ∀ d ∈ ds, 0 < d) (hr : ∀ a ∈ ax, a < ds.length)
    (hdup : ∃ j k, j < k ∧ ∃ (hj : j < ax.length) (hk : k < ax.length), ax[j] = ax[k] ∧
      ds[ax[j]]'(hr _ (List.getElem_mem hj)) = 1) :
    ∃ ps o, squeezeMark (dimsCells ds) ds.length (dimsCells ax) ax.length E m = .ok (dimsCells ps, o) m ∧
      ps.length = ds.length ∧ o < (nz ps : Int) ∧ o = ds.length - (ax.countP fun a => ds[a]? == some 1 : Nat) := by
  obtain ⟨j, k, hjk, hj, hk, heq, hunit⟩ := hdup
  unfold squeezeMark
  have hl : ¬ (ax.length : Int) = 0 := by omega
  msimp [copy_dims hn]
  rw [if_neg hl]
  simp only [forI, Int.toNat_natCast]
  obtain ⟨s', m', e, rfl, ps, o, rfl, hM, hle, hlt, ho⟩ := loopN_inv (E := E) (fun i (s : Arr × Int) => do
      let a ← (dimsCells ax).rd i
      let d ← (dimsCells ds).rd a
      if d = 1 then return (← s.1.wr a 0, s.2 - 1) else return s) (fun i s m' => m' = m ∧
      ∃ ps o, s = (dimsCells ps, o) ∧ Marked ds (ax.take i) ps ∧ o ≤ (nz ps : Int) ∧
        (k < i → o < (nz ps : Int)) ∧
        o = ds.length - ((ax.take i).countP fun a => ds[a]? == some 1 : Nat)) ax.length (by
    rintro i s m' hi ⟨rfl, ps, o, rfl, hM, hle, hlt, ho⟩
    have ha := hr _ (List.getElem_mem hi)
    have hcount : ((ax.take (i + 1)).countP fun a => ds[a]? == some 1) =
        ((ax.take i).countP fun a => ds[a]? == some 1) + if ds[ax[i]] = 1 then 1 else 0 := by
      rw [List.take_succ_eq_append_getElem hi, List.countP_append, List.countP_singleton]
      simp [List.getElem?_eq_getElem ha]
    by_cases h1 : ds[ax[i]] = 1
    · have h1' : (ds[ax[i]] : Int) = 1 := by omega
      refine ⟨(dimsCells (ps.set ax[i] 0), o - 1), m', ?_, rfl, ps.set ax[i] 0, o - 1, rfl, ?_⟩
      · have hw := wr_set (ps := ps) (a := ax[i]) (by rw [hM.1]; exact ha) 0 E m'
        msimp [rd_dims hi, rd_dims ha, h1']
        rw [show ((0 : Nat) : Int) = 0 from rfl] at hw
        rw [hw]; rfl
      · rw [hcount, if_pos h1, List.take_succ_eq_append_getElem hi]
        by_cases hmem : ax[i] ∈ ax.take i
        · have hz : ps[ax[i]]'(by rw [hM.1]; exact ha) = 0 := by
            rw [hM.2 _ _ ha]; simp [h1, hmem]
          have hset : ps.set ax[i] 0 = ps := by
            conv => lhs; rw [← hz]
            exact List.set_getElem_self _
          rw [hset]
          refine ⟨⟨hM.1, fun i' hi' hi'' => ?_⟩, by omega, by omega, by omega⟩
          rw [hM.2 i' hi' hi'']
          rw [← List.take_succ_eq_append_getElem hi]
          have : i' ∈ ax.take (i + 1) ↔ i' ∈ ax.take i := by
            rw [List.take_succ_eq_append_getElem hi, List.mem_append, List.mem_singleton]
            constructor
            · rintro (h | rfl)
              · exact h
              · exact hmem
            · exact .inl
          simp only [this]
        · obtain ⟨hM', hz⟩ := hM.unit ha h1 hmem
          refine ⟨hM', by omega, fun hki => ?_, by omega⟩
          rcases Nat.lt_or_ge k i with hk' | hk'
          · have := hlt hk'; omega
          · have : k = i := by omega
            subst this
            exact absurd (List.mem_iff_getElem.2 ⟨j, by simp; omega, by rw [List.getElem_take]; exact heq⟩) hmem
    · have h1' : ¬ (ds[ax[i]] : Int) = 1 := by omega
      refine ⟨(dimsCells ps, o), m', ?_, rfl, ps, o, rfl, ?_⟩
      · msimp [rd_dims hi, rd_dims ha, h1']
      · rw [hcount, if_neg h1, List.take_succ_eq_append_getElem hi]
        refine ⟨hM.nonunit ha h1, hle, fun hki => ?_, by omega⟩
        rcases Nat.lt_or_ge k i with hk' | hk'
        · exact hlt hk'
        · have : k = i := by omega
          subst this
          exact absurd (by simpa [heq] using hunit) h1)
    (s := (dimsCells ds, (ds.length : Int))) (m := m) (by
      refine ⟨rfl, ds, _, rfl, by simpa using Marked.nil ds, ?_, by omega, by simp⟩
      unfold nz
      rw [List.countP_eq_length.2]
      · omega
      · intro d hd; have := hp d hd; simp; omega)
  refine ⟨ps, o, e, hM.1, hlt (by omega), ?_⟩
  simpa using ho

theorem squeeze_dup_axis {E : Env} (nf : E.NoFail) {m : Mem} {R : Foot} {T : TV} (wf : m.WF) (h : At m R T)
    (hp : ∀ d ∈ T.dims, 0 < d) {ax : List Nat} (hr : ∀ a ∈ ax, a < T.dims.length)
    (hdup : ∃ j k, j < k ∧ ∃ (hj : j < ax.length) (hk : k < ax.length), ax[j] = ax[k] ∧
      T.dims[ax[j]]'(hr _ (List.getElem_mem hj)) = 1)
    (hfew : (ax.countP fun a => T.dims[a]? == some 1) ≤ T.dims.length) (out : Ptr) :
    squeeze R.h (dimsCells ax) ax.length out E m = .ub .outOfBounds := by
  obtain ⟨b1, e1⟩ := scratch_ok nf T.dims.length 8 m
  have hnn : ¬ (ax.length : Int) < 0 := by omega
  obtain ⟨ps, o, em, hl, hlt, ho⟩ := squeezeMark_dup (E := E) (m := m.push b1) h.shape.rank hp hr hdup
  obtain ⟨n, rfl⟩ : ∃ n : Nat, o = n := ⟨o.toNat, by omega⟩
  obtain ⟨b2, e2⟩ := scratch_ok nf n 8 (m.push b1)
  have hrk := h.shape.rank
  have hub := squeezeCompact_oob (E := E) (m := (m.push b1).push b2) (ps := ps) (n := n)
    (by omega) (by omega)
  rw [hl] at hub
  unfold squeeze
  msimp [h.tDimsArr, h.tNdim, hnn, badAxis_nat, e1, em, e2, hub]

theorem prodMax_filter (ps : List Nat) : prodMax (ps.filter (· ≠ 0)) = prodMax ps := by
  induction ps with
  | nil => rfl
  | cons p ps ih =>
    by_cases hp : p = 0
    · subst hp; simp [List.filter_cons, prodMax] at ih ⊢; exact ih
    · simp [List.filter_cons, hp, prodMax] at ih ⊢; rw [ih]

theorem prodMax_marked {ds A ps : List Nat} (h : Marked ds A ps) : prodMax ps = prodMax ds := by
  suffices H : ∀ (ps ds : List Nat), ps.length = ds.length →
      (∀ i (h : i < ps.length) (h' : i < ds.length), ps[i] = ds[i] ∨ (ps[i] = 0 ∧ ds[i] = 1)) →
      prodMax ps = prodMax ds by
    refine H ps ds h.1 fun i h1 h2 => ?_
    rw [h.2 i h1 h2]
    split
    · rename_i hc; exact .inr ⟨rfl, hc.1⟩
    · exact .inl rfl
  intro ps
  induction ps with
  | nil => intro ds hl _; cases ds <;> simp_all
  | cons p ps ih =>
    intro ds hl hh
    cases ds with
    | nil => simp at hl
    | cons d ds =>
      have h0 := hh 0 (by simp) (by simp)
      have ht := ih ds (by simpa using hl) fun i h1 h2 => by
        have := hh (i + 1) (by simpa using h1) (by simpa using h2)
        simpa using this
      simp only [prodMax, ht]
      congr 1
      simp at h0
      omega

theorem nz_marked {ds A ps : List Nat} (h : Marked ds A ps) : nz ps ≤ nz ds := by
  suffices H : ∀ (ps ds : List Nat), ps.length = ds.length →
      (∀ i (h : i < ps.length) (h' : i < ds.length), ps[i] = ds[i] ∨ ps[i] = 0) → nz ps ≤ nz ds by
    refine H ps ds h.1 fun i h1 h2 => ?_
    rw [h.2 i h1 h2]
    split
    · exact .inr rfl
    · exact .inl rfl
  intro ps
  induction ps with
  | nil => intro ds hl _; simp [nz]
  | cons p ps ih =>
    intro ds hl hh
    cases ds with
    | nil => simp at hl
    | cons d ds =>
      have h0 := hh 0 (by simp) (by simp)
      have ht := ih ds (by simpa using hl) fun i h1 h2 => by
        have := hh (i + 1) (by simpa using h1) (by simpa using h2)
        simpa using this
      simp at h0
      unfold nz at ht ⊢
      simp only [List.countP_cons]
      rcases h0 with rfl | rfl
      · omega
      · simp; simp at ht; omega

/-- `size_of_dims` of an array whose first cells are set and the next is not. -/
theorem sizeOfDims_uninit {ds : List Nat} {k : Nat} (hr : ds.length + (k + 1) ≤ 2147483647)
    (hp : ∀ k, k ≤ ds.length → prod (ds.take k) ≤ 9223372036854775807) (E : Env) (m : Mem) :
    sizeOfDims (dimsCells ds ++ (List.replicate (k + 1) none : Arr)) ((ds.length + (k + 1) : Nat) : Int) E m =
      .ub .uninit := by
  unfold sizeOfDims forI
  rw [toI32_id (by unfold I32_MIN I32_MAX; omega), Int.toNat_natCast]
  have := loopN_ub (E := E) (fun i r => do
      let d ← Arr.rd (dimsCells ds ++ (List.replicate (k + 1) none : Arr)) i
      i64 (r * d)) (fun k => ((prod (ds.take k) : Nat) : Int)) (fun _ => m) (ds.length + (k + 1)) ds.length .uninit
      (by omega) (by
    intro i hi
    have hg : (dimsCells ds ++ (List.replicate (k + 1) none : Arr))[i]? = some (some (ds[i] : Int)) := by
      rw [List.getElem?_append_left (by simpa using hi)]; exact dimsCells_get hi
    simp only [run_bind, run_rd hg, andThen_ok]
    rw [← Int.natCast_mul, ← prod_take_succ _ _ hi]
    exact run_i64_nat (hp _ (by omega)) E m) (by
    have : Arr.rd (dimsCells ds ++ (List.replicate (k + 1) none : Arr)) ((ds.length : Nat) : Int) E m =
        .ub .uninit := by
      unfold Arr.rd
      rw [if_pos (by simp; omega), Int.toNat_natCast, List.getElem?_append_right (by simp)]
      simp
    msimp [this])
  simpa [prod] using this

theorem squeeze_zero_dim {E : Env} (nf : E.NoFail) {m : Mem} {R : Foot} {T : TV} (wf : m.WF) (h : At m R T)
    (h0 : 0 ∈ T.dims) {ax : List Nat} (hnd : NoRepeatedUnit T.dims ax) (hr : ∀ a ∈ ax, a < T.dims.length) (out : Ptr) :
    squeeze R.h (dimsCells ax) ax.length out E m = .ub .uninit := by
  obtain ⟨b1, e1⟩ := scratch_ok nf T.dims.length 8 m
  have hnn : ¬ (ax.length : Int) < 0 := by omega
  obtain ⟨ps, em, hM⟩ := squeezeMark_run (E := E) (m := m.push b1) h.shape.rank hnd hr
  obtain ⟨b2, e2⟩ := scratch_ok nf (nz ps + T.dims.count 0 : Nat) 8 (m.push b1)
  obtain ⟨k, hk⟩ : ∃ k, T.dims.count 0 = k + 1 := ⟨T.dims.count 0 - 1, by
    have := List.count_pos_iff.2 h0; omega⟩
  have hrk := h.shape.rank
  have hle : nz ps + T.dims.count 0 ≤ T.dims.length := by
    have h1 : nz ps ≤ nz T.dims := nz_marked hM
    have := List.length_eq_countP_add_countP (fun x : Nat => decide (x ≠ 0)) (l := T.dims)
    unfold nz at h1 ⊢
    rw [List.count]
    have e : T.dims.countP (fun a => decide ¬ (decide (a ≠ 0) = true)) = T.dims.countP (· == 0) := by
      congr 1; funext a; simp; rfl
    omega
  have hcomp := squeezeCompact_run (E := E) (m := (m.push b1).push b2) (ps := ps)
    (n := nz ps + T.dims.count 0) (by omega) (by omega)
  rw [hM.1, hk, show nz ps + (k + 1) - nz ps = k + 1 by omega] at hcomp
  have hnz : nz ps = (ps.filter (· ≠ 0)).length := List.countP_eq_length_filter
  have hsz := sizeOfDims_uninit (ds := ps.filter (· ≠ 0)) (k := k) (by omega) (fun j _ => by
    refine Nat.le_trans (prod_take_le _ _) ?_
    rw [prodMax_filter, prodMax_marked hM]
    exact h.shape.prodMax_le) E ((m.push b1).push b2)
  have h2 := (h.push wf b1).push (wf.push b1) b2
  rw [hk] at em e2
  rw [← hnz] at hsz
  unfold squeeze reshape
  msimp [h.tDimsArr, h.tNdim, hnn, badAxis_nat, e1, em, e2, hcomp, h2.tSize, hsz]

theorem squeeze_neg_count {E : Env} {m : Mem} {R : Foot} {T : TV} (h : At m R T) (axis : Arr) {n : Int} (hn : n < 0)
    (out : Ptr) : squeeze R.h axis n out E m = .ok (.invalidArgument, out) m := by
  unfold squeeze
  msimp [h.tDimsArr, h.tNdim, hn]

theorem squeeze_neg_axis {E : Env} {m : Mem} {R : Foot} {T : TV} (h : At m R T) {ax : List Int}
    (hn : ∃ a ∈ ax, a < 0) (out : Ptr) :
    squeeze R.h (Arr.of ax) ax.length out E m = .ok (.invalidArgument, out) m := by
  have hnn : ¬ (ax.length : Int) < 0 := by omega
  unfold squeeze
  msimp [h.tDimsArr, h.tNdim, hnn, squeezeBadAxis_bad hn]

end Aitisa
