import Verif.Proof.Slice

/-! # slice (continued) and duplicate -/

namespace Aitisa

-- unfolding it during unification computes with unary numbers
attribute [local irreducible] toI32

variable {E : Env} {m : Mem} {R : Foot} {T : TV}

/-! ### What the elements of a slice are -/

theorem source_inRange {ds : List Nat} {ax : List Axis} (h : SliceFits ds ax) {oc : List Nat}
    (hc : InRange (sliceDims ax) oc) : InRange ds (source ax oc) := by
  have := srcAt_inRange h (lin_lt hc)
  rwa [srcAt, unlin_lin hc] at this

theorem sliceElems_get {ds : List Nat} {ax : List Axis} {xs : List Val} (h : SliceFits ds ax) (hl : xs.length = prod ds)
    {oc : List Nat} (hc : InRange (sliceDims ax) oc) :
    ∃ v, (sliceElems ds ax xs)[lin (sliceDims ax) oc]? = some v ∧ xs[lin ds (source ax oc)]? = some v := by
  have hlt := lin_lt (source_inRange h hc)
  refine ⟨xs[lin ds (source ax oc)]'(by omega), ?_, List.getElem?_eq_getElem (by omega)⟩
  have ho := lin_lt hc
  rw [sliceElems, List.getElem?_map, List.getElem?_range ho, Option.map_some, srcAt, unlin_lin hc]
  simp [List.getD, show lin ds (source ax oc) < xs.length by omega]

theorem sliceElems_mem {ds : List Nat} {ax : List Axis} {xs : List Val} (h : SliceFits ds ax) (hl : xs.length = prod ds) :
    ∀ y ∈ sliceElems ds ax xs, y ∈ xs := by
  intro y hy
  simp only [sliceElems, List.mem_map, List.mem_range] at hy
  obtain ⟨i, hi, rfl⟩ := hy
  have := lin_lt (srcAt_inRange h hi)
  have hlt : lin ds (srcAt ax i) < xs.length := by omega
  simp only [List.getD, List.getElem?_eq_getElem hlt, Option.getD_some]
  exact List.getElem_mem hlt

/-- Validated `int` parameters are a request. -/
theorem axes_of {ds : List Nat} {bg sz st : List Int} (hb : bg.length = ds.length) (hz : sz.length = ds.length)
    (ht : st.length = ds.length) (h : ∀ i, i < ds.length → GoodAt ds bg sz st i) :
    ∃ ax, Arr.of bg = bgs ax ∧ Arr.of sz = szs ax ∧ Arr.of st = sts ax ∧ SliceFits ds ax := by
  induction ds generalizing bg sz st with
  | nil =>
    simp at hb hz ht
    subst hb hz ht
    exact ⟨[], rfl, rfl, rfl, trivial⟩
  | cons d ds ih =>
    cases bg with
    | nil => simp at hb
    | cons b bg =>
    cases sz with
    | nil => simp at hz
    | cons s sz =>
    cases st with
    | nil => simp at ht
    | cons t st =>
      obtain ⟨ax, e1, e2, e3, hf⟩ := ih (by simpa using hb) (by simpa using hz) (by simpa using ht) fun i hi => by
        have := h (i + 1) (by simpa using hi)
        simpa [GoodAt] using this
      obtain ⟨h1, h2, h3, h4, h5⟩ : AxisOK d b s t := by simpa [GoodAt] using h 0 (by simp)
      refine ⟨⟨b.toNat, s.toNat, t.toNat⟩ :: ax, ?_, ?_, ?_, ?_, hf⟩
      · simp only [Arr.of, bgs, dimsCells, List.map_cons] at e1 ⊢
        rw [e1, Int.toNat_of_nonneg h1]
      · simp only [Arr.of, szs, dimsCells, List.map_cons] at e2 ⊢
        rw [e2, Int.toNat_of_nonneg h3]
      · simp only [Arr.of, sts, dimsCells, List.map_cons] at e3 ⊢
        rw [e3, Int.toNat_of_nonneg (by omega)]
      · refine ⟨?_, ?_, ?_⟩ <;> simp only <;> omega

/-! ### Refusals and undefined behaviour of slice -/

theorem slice_refuse {bg sz st : List Int} (h : At m R T) (hb : bg.length = T.dims.length)
    (hz : sz.length = T.dims.length) (ht : st.length = T.dims.length)
    (hbad : ∃ i, i < T.dims.length ∧ ¬ GoodAt T.dims bg sz st i)
    (hsum : ∀ i, i < T.dims.length → SumFits bg sz i) (out : Ptr) :
    slice R.h (Arr.of bg) (Arr.of sz) (Arr.of st) out E m = .ok (.invalidArgument, out) m := by
  obtain ⟨i, hi, hbad⟩ := hbad
  obtain ⟨j, hj, hjb, hlt⟩ := first_such (P := fun i => ¬ GoodAt T.dims bg sz st i) hi hbad
  have := sliceCheck_bad (E := E) (m := m) h.shape.rank hb hz ht hj hjb (hsum j hj)
    fun k hk => ⟨Classical.byContradiction fun hn => hlt k hk hn, hsum k (by omega)⟩
  unfold slice
  msimp [h.tNdim, h.tDimsArr, this]

theorem slice_overflow {bg sz st : List Int} (h : At m R T) (hb : bg.length = T.dims.length)
    (hz : sz.length = T.dims.length) (ht : st.length = T.dims.length) {j : Nat} (hj : j < T.dims.length)
    (hs0 : 0 ≤ sz.getD j 0) (hov : 2147483647 < bg.getD j 0 + sz.getD j 0)
    (hg : ∀ i, i < j → GoodAt T.dims bg sz st i ∧ SumFits bg sz i) (out : Ptr) :
    slice R.h (Arr.of bg) (Arr.of sz) (Arr.of st) out E m = .ub .overflow := by
  have := sliceCheck_overflow (E := E) (m := m) h.shape.rank hb hz ht hj hs0 hov hg
  unfold slice
  msimp [h.tNdim, h.tDimsArr, this]

theorem sliceCheck_axes {ax : List Axis} (h : At m R T) (hf : SliceFits T.dims ax) (ha : AxFit ax) :
    sliceCheck (dimsCells T.dims) T.dims.length (bgs ax) (szs ax) (sts ax) E m = .ok .success m := by
  have hlen := hf.length
  unfold bgs szs sts
  rw [← of_ints (ax.map (·.bg)), ← of_ints (ax.map (·.sz)), ← of_ints (ax.map (·.st))]
  refine sliceCheck_ok h.shape.rank (by simp [hlen]) (by simp [hlen]) (by simp [hlen]) fun i hi => ?_
  have hia : i < ax.length := by omega
  have hfit := hf.getElem hia hi
  have hint := ha _ (List.getElem_mem hia)
  unfold GoodAt SumFits AxisOK
  simp only [List.getD, List.getElem?_eq_getElem hi, List.getElem?_map, List.getElem?_eq_getElem hia, Option.map_some,
    Option.getD_some]
  obtain ⟨h1, h2, h3⟩ := hfit
  refine ⟨⟨?_, ?_, ?_, ?_, ?_⟩, ?_, ?_⟩ <;> omega

/-- A slice of a rank-0 tensor writes before the beginning of an array. -/
theorem slice_rank0 (nf : E.NoFail) (wf : m.WF) (h : At m R T) (h0 : T.dims = []) (bg sz st : Arr) (out : Ptr) :
    slice R.h bg sz st out E m = .ub .outOfBounds := by
  have hf : SliceFits T.dims [] := by rw [h0]; trivial
  have ha : AxFit [] := by intro a h; simp at h
  have hcheck : sliceCheck (dimsCells T.dims) T.dims.length bg sz st E m = .ok .success m := by
    rw [h0]; rfl
  unfold slice
  rcases sliceCreate_run (E := E) wf h hf ha out with ⟨R', m1, e1, P⟩ | ⟨nf', _⟩
  · have h1 := h.frame wf P.frame
    rcases scratch3_run T.dims.length 8 E P.wf with ⟨b1, b2, b3, s1, s2, s3⟩ | ⟨_, _, _, _, _, _, _, _, _, _, _, _, nf'⟩
    · simp only [List.map_nil] at e1
      rw [h0, List.length_nil, show ((0 : Nat) : Int) = 0 from rfl] at s1 s2 s3
      unfold sliceTemplate
      msimp [h.tNdim, h.tDimsArr, hcheck, Int.toNat_natCast]
      simp only [h0, List.length_nil, rdAll, run_pure, andThen_ok]
      have h1n := h1.tNdim (E := E)
      have h1d := h1.tDimsArr (E := E)
      rw [h0] at h1n h1d
      msimp [e1, h1n, h1d, List.length_nil, show ((0 : Nat) : Int) = 0 from rfl, s1, s2, s3, Int.toNat_zero, rdAll, offsets]
    · exact absurd nf nf'
  · exact absurd nf nf'

/-- A slice with more than `INT_MAX` elements overflows the loop counter. -/
theorem slice_too_large {ax : List Axis} {c : Code} {xs : List Val} (nf : E.NoFail) (wf : m.WF) (h : At m R T)
    (he : Elems T c xs) (h0 : T.dims ≠ []) (hf : SliceFits T.dims ax) (ha : AxFit ax)
    (hi : 2147483647 < prod (sliceDims ax)) (out : Ptr) :
    slice R.h (bgs ax) (szs ax) (sts ax) out E m = .ub .overflow := by
  have hlen := hf.length
  have hcheck := sliceCheck_axes (E := E) h hf ha
  have rb : rdAll (bgs ax) T.dims.length E m = .ok (ints (ax.map (·.bg))) m := by
    have := rdAll_dims (E := E) (m := m) (ax.map (·.bg)); rwa [List.length_map, hlen] at this
  have rz : rdAll (szs ax) T.dims.length E m = .ok (ints (ax.map (·.sz))) m := by
    have := rdAll_dims (E := E) (m := m) (ax.map (·.sz)); rwa [List.length_map, hlen] at this
  have rt : rdAll (sts ax) T.dims.length E m = .ok (ints (ax.map (·.st))) m := by
    have := rdAll_dims (E := E) (m := m) (ax.map (·.st)); rwa [List.length_map, hlen] at this
  unfold slice
  rcases sliceCreate_run (E := E) wf h hf ha out with ⟨R', m1, e1, P⟩ | ⟨nf', _⟩
  · have h1 := h.frame wf P.frame
    rcases scratch3_run T.dims.length 8 E P.wf with ⟨b1, b2, b3, s1, s2, s3⟩ | ⟨_, _, _, _, _, _, _, _, _, _, _, _, nf'⟩
    · have H := ((P.holds.push b1).push b2).push b3
      obtain ⟨m4, hm4⟩ : ∃ m4, m4 = ((m1.push b1).push b2).push b3 := ⟨_, rfl⟩
      rw [← hm4] at s3 H
      have h4 : At m4 R T := h.frame wf H.ext.toFrame
      have hkern : ∀ ip op axs off, sliceKernel c ip op (prod (sliceDims ax) : Int) axs off E m4 = .ub .overflow := by
        intro ip op axs off
        unfold sliceKernel forI32
        have : ¬ ((prod (sliceDims ax) : Int) ≤ I32_MAX) := by unfold I32_MAX; omega
        rw [if_neg this]
        msimp []
      unfold sliceTemplate
      msimp [h.tNdim, h.tDimsArr, hcheck, Int.toNat_natCast, rb, rz, rt, e1, h1.tNdim, h1.tDimsArr, s1, s2, s3,
        rdAll_dims, offsets_run h0 h.shape.prodMax_le, h4.tDtype, he.dtype, find_dtype c, h4.tData, H.tensor.tData,
        H.tensor.tSize, hkern]
    · exact absurd nf nf'
  · exact absurd nf nf'

/-! ### duplicate -/

/-- The request that duplicate makes. -/
def dupAx (ds : List Nat) : List Axis := ds.map fun d : Nat => ⟨0, (toI32 (d : Int)).toNat, 1⟩

theorem toI32_nat {d : Nat} (h : d ≤ 2147483647) : toI32 d = d := toI32_id (by unfold I32_MIN I32_MAX; omega)

theorem le_prod {ds : List Nat} (hp : ∀ d ∈ ds, 0 < d) {d : Nat} (hd : d ∈ ds) : d ≤ prod ds := by
  induction ds with
  | nil => simp at hd
  | cons x ds ih =>
    have hx := hp x (by simp)
    have hpp : 0 < prod ds := prod_pos fun y hy => hp y (List.mem_cons_of_mem _ hy)
    show d ≤ x * prod ds
    rcases List.mem_cons.1 hd with rfl | hd
    · exact Nat.le_mul_of_pos_right _ hpp
    · exact Nat.le_trans (ih (fun y hy => hp y (List.mem_cons_of_mem _ hy)) hd) (Nat.le_mul_of_pos_left _ hx)

theorem ceilDiv_one (s : Nat) : ceilDiv s 1 = s := by simp [ceilDiv]

theorem sliceDims_dup {ds : List Nat} (h : ∀ d ∈ ds, 0 < d ∧ d ≤ 2147483647) : sliceDims (dupAx ds) = ds := by
  induction ds with
  | nil => rfl
  | cons d ds ih =>
    have hd := h d (by simp)
    have := ih fun x hx => h x (List.mem_cons_of_mem _ hx)
    simp only [dupAx, List.map_cons, sliceDims, toI32_nat hd.2, Int.toNat_natCast, ceilDiv_one] at this ⊢
    rw [if_neg (by omega), this]

theorem dupFits {ds : List Nat} (h : ∀ d ∈ ds, 0 < d ∧ 0 ≤ toI32 d) : SliceFits ds (dupAx ds) ∧ AxFit (dupAx ds) := by
  constructor
  · induction ds with
    | nil => trivial
    | cons d ds ih =>
      have hd := h d (by simp)
      refine ⟨⟨hd.1, ?_, Nat.le_refl _⟩, ih fun x hx => h x (List.mem_cons_of_mem _ hx)⟩
      simp only
      unfold toI32 at hd ⊢
      omega
  · intro a ha
    obtain ⟨d, hd, rfl⟩ := List.mem_map.1 ha
    simp only
    unfold toI32
    omega

theorem source_dup {ds : List Nat} (h : ∀ d ∈ ds, 0 < d ∧ d ≤ 2147483647) {cs : List Nat} (hc : cs.length = ds.length) :
    source (dupAx ds) cs = cs := by
  induction ds generalizing cs with
  | nil => cases cs <;> simp at hc; rfl
  | cons d ds ih =>
    cases cs with
    | nil => simp at hc
    | cons x cs =>
      have hd := h d (by simp)
      have := ih (fun x hx => h x (List.mem_cons_of_mem _ hx)) (cs := cs) (by simpa using hc)
      simp only [dupAx, List.map_cons, source, toI32_nat hd.2, Int.toNat_natCast] at this ⊢
      rw [if_neg (by omega), List.tail_cons, this]
      simp

theorem sliceElems_dup {ds : List Nat} (h : ∀ d ∈ ds, 0 < d ∧ d ≤ 2147483647) {xs : List Val} (hl : xs.length = prod ds) :
    sliceElems ds (dupAx ds) xs = xs := by
  have hs := sliceDims_dup h
  apply List.ext_getElem
  · rw [sliceElems_length, hs, hl]
  · intro i h1 h2
    rw [sliceElems_length, hs] at h1
    simp only [sliceElems, List.getElem_map, List.getElem_range, srcAt, hs]
    rw [source_dup h (unlin_length _ _), lin_unlin h1]
    simp [List.getD, h2]

theorem dup_arrays (ds : List Nat) :
    Arr.of ((ints ds).map fun _ => 0) = bgs (dupAx ds) ∧ Arr.of ((ints ds).map fun _ => 1) = sts (dupAx ds) := by
  constructor <;> simp [Arr.of, bgs, sts, dimsCells, dupAx, Function.comp_def]

theorem map_toNat (f : Nat → Int) {ds : List Nat} (h : ∀ d ∈ ds, 0 ≤ f d) :
    ds.map (fun d => some (f d)) = ds.map fun d => some ((f d).toNat : Int) :=
  List.map_congr_left fun d hd => by rw [Int.toNat_of_nonneg (h d hd)]

theorem dup_sizes {ds : List Nat} (h : ∀ d ∈ ds, 0 ≤ toI32 (d : Int)) :
    Arr.of ((ints ds).map toI32) = szs (dupAx ds) := by
  have := map_toNat (fun d : Nat => toI32 (d : Int)) h
  simpa only [Arr.of, szs, dimsCells, dupAx, ints, List.map_map, Function.comp_def] using this

theorem free3 {b1 b2 b3 : Body} {m' : Mem} (f : Frame (((m.push b1).push b2).push b3) m') :
    rawFree (.blk m.next) E m' = .ok () (m'.drop [m.next]) ∧
    rawFree (.blk (m.next + 1)) E (m'.drop [m.next]) = .ok () (m'.drop [m.next + 1, m.next]) ∧
    rawFree (.blk (m.next + 2)) E (m'.drop [m.next + 1, m.next]) =
      .ok () (m'.drop [m.next + 2, m.next + 1, m.next]) := by
  have n3 := f.kept
  have n2 := ((Frame.push _ b3).trans f).kept
  have n1 := (((Frame.push _ b2).trans (Frame.push _ b3)).trans f).kept
  simp only [Mem.push_next] at n1 n2 n3
  refine ⟨free_first n1, free_drop n2 ?_, free_drop n3 ?_⟩ <;> simp only [List.mem_cons, List.not_mem_nil, or_false] <;> omega

theorem duplicate_general {c : Code} {xs : List Val} (wf : m.WF) (h : At m R T) (he : Elems T c xs) (h0 : T.dims ≠ [])
    (hd : ∀ d ∈ T.dims, 0 < d ∧ 0 ≤ toI32 d) (hi : prod (sliceDims (dupAx T.dims)) ≤ 2147483647) (out : Ptr) :
    Creates E (duplicate R.h out) m out
      ⟨c.dtype, T.device, sliceDims (dupAx T.dims), encAll c (sliceElems T.dims (dupAx T.dims) xs)⟩ ∨
    (¬ E.NoFail ∧ duplicate R.h out E m = .ub .nullDeref) := by
  have hrk := toI32_nat h.shape.rank
  obtain ⟨hf, ha⟩ := dupFits hd
  obtain ⟨e1, e3⟩ := dup_arrays T.dims
  have e2 := dup_sizes fun d hd' => (hd d hd').2
  unfold Creates duplicate
  rcases scratch3_run T.dims.length 4 E wf with ⟨b1, b2, b3, s1, s2, s3⟩ | ⟨p1, p2, p3, m2, m3, m4, s1, s2, s3, hn, fr, wf4, nf⟩
  · have x3 : Ext m (((m.push b1).push b2).push b3) [m.next + 2, m.next + 1, m.next] :=
      ((((Ext.refl wf).push b1).push b2).push b3)
    have h3 : At (((m.push b1).push b2).push b3) R T := h.frame wf x3.toFrame
    rcases slice_run (E := E) x3.wf h3 he h0 hf ha hi .indet with ⟨R', m4, e4, P⟩ | ⟨nf, ⟨o, m4, e4, fr, wf4⟩ | e4⟩
    · left; left
      obtain ⟨f1, f2, f3⟩ := free3 (E := E) P.frame
      refine ⟨R', m4.drop [m.next + 2, m.next + 1, m.next], ?_, P.temps x3 (by simp; omega) (by simp)⟩
      msimp [h.tDimsArr, h.tNdim, hrk, s1, s2, s3, Int.toNat_natCast, rdAll_dims, e1, e2, e3, e4, f1, f2, f3]
    · left; right
      obtain ⟨f1, f2, f3⟩ := free3 (E := E) fr
      refine ⟨m4.drop [m.next + 2, m.next + 1, m.next], ?_, (x3.toFrame.trans fr).dropTemps (by simp), wf4.drop _, nf⟩
      msimp [h.tDimsArr, h.tNdim, hrk, s1, s2, s3, Int.toNat_natCast, rdAll_dims, e1, e2, e3, e4, f1, f2, f3]
    · right
      refine ⟨nf, ?_⟩
      msimp [h.tDimsArr, h.tNdim, hrk, s1, s2, s3, Int.toNat_natCast, rdAll_dims, e1, e2, e3, e4]
  · left; right
    refine ⟨m4, ?_, fr, wf4, nf⟩
    msimp [h.tDimsArr, h.tNdim, hrk, s1, s2, s3, hn]

/-- duplicate of a tensor with positive dims and at most `INT_MAX` elements. -/
theorem duplicate_run {c : Code} {xs : List Val} (wf : m.WF) (h : At m R T) (he : Elems T c xs) (h0 : T.dims ≠ [])
    (hd : ∀ d ∈ T.dims, 0 < d) (hi : prod T.dims ≤ 2147483647) (out : Ptr) :
    Creates E (duplicate R.h out) m out T ∨ (¬ E.NoFail ∧ duplicate R.h out E m = .ub .nullDeref) := by
  have hle : ∀ d ∈ T.dims, 0 < d ∧ d ≤ 2147483647 := fun d hd' => ⟨hd d hd', Nat.le_trans (le_prod hd hd') hi⟩
  have hs := sliceDims_dup hle
  have := duplicate_general (E := E) wf h he h0 (fun d hd' => ⟨hd d hd', by rw [toI32_nat (hle d hd').2]; omega⟩)
    (by rw [hs]; exact hi) out
  rw [hs, sliceElems_dup hle he.len, ← he.dtype, ← he.bytes] at this
  exact this

theorem dup_bad (f : Int → Int) {ds : List Nat} (hd : ∃ d ∈ ds, d = 0 ∨ f (d : Int) < 0) :
    ∃ i, i < ds.length ∧ ¬ GoodAt ds ((ints ds).map fun _ => 0) ((ints ds).map f) ((ints ds).map fun _ => 1) i := by
  obtain ⟨d, hdm, hd⟩ := hd
  obtain ⟨i, hi, e⟩ := List.getElem_of_mem hdm
  refine ⟨i, hi, ?_⟩
  unfold GoodAt AxisOK
  simp only [List.getD, ints, List.map_map, List.getElem?_map, List.getElem?_eq_getElem hi, Option.map_some,
    Option.getD_some, Function.comp_apply, e]
  omega

theorem dup_sum (f : Int → Int) {ds : List Nat} {i : Nat} (hi : i < ds.length) (hf : ∀ n, FitsInt (f n)) :
    SumFits ((ints ds).map fun _ => 0) ((ints ds).map f) i := by
  unfold SumFits
  simp only [List.getD, ints, List.map_map, List.getElem?_map, List.getElem?_eq_getElem hi, Option.map_some,
    Option.getD_some, Function.comp_apply]
  have := hf (ds[i] : Nat)
  unfold FitsInt at this
  omega

theorem toI32_fits (n : Int) : FitsInt (toI32 n) := by unfold toI32 FitsInt; omega

theorem duplicate_refuse (wf : m.WF) (h : At m R T) (hd : ∃ d ∈ T.dims, d = 0 ∨ toI32 (d : Int) < 0) (out : Ptr) :
    Refuses E (duplicate R.h out) m out .invalidArgument ∨
    (¬ E.NoFail ∧ ∃ m', duplicate R.h out E m = .ok (.allocFailed, out) m' ∧ Frame m m' ∧ m'.WF) := by
  have hrk := toI32_nat h.shape.rank
  unfold Refuses duplicate
  rcases scratch3_run T.dims.length 4 E wf with ⟨b1, b2, b3, s1, s2, s3⟩ | ⟨p1, p2, p3, m2, m3, m4, s1, s2, s3, hn, fr, wf4, nf⟩
  · have x3 : Ext m (((m.push b1).push b2).push b3) [m.next + 2, m.next + 1, m.next] :=
      ((((Ext.refl wf).push b1).push b2).push b3)
    have h3 : At (((m.push b1).push b2).push b3) R T := h.frame wf x3.toFrame
    obtain ⟨f1, f2, f3⟩ := free3 (E := E) (Frame.refl (((m.push b1).push b2).push b3))
    have e4 := slice_refuse (E := E) h3 (bg := (ints T.dims).map fun _ => 0) (sz := (ints T.dims).map toI32)
      (st := (ints T.dims).map fun _ => 1) (by simp) (by simp) (by simp)
      (dup_bad _ hd) (fun i hi => dup_sum _ hi toI32_fits) .indet
    left
    refine ⟨(((m.push b1).push b2).push b3).drop [m.next + 2, m.next + 1, m.next], ?_, x3.toFrame.dropTemps (by simp),
      x3.wf.drop _, ?_⟩
    · msimp [h.tDimsArr, h.tNdim, hrk, s1, s2, s3, Int.toNat_natCast, rdAll_dims, e4, f1, f2, f3]
    · intro b hb
      rw [Mem.drop_blk]
      split
      · rfl
      · rename_i hn
        exact Classical.byContradiction fun hne => hn (x3.live b hb hne)
  · right
    refine ⟨nf, m4, ?_, fr, wf4⟩
    msimp [h.tDimsArr, h.tNdim, hrk, s1, s2, s3, hn]

theorem duplicate_rank0 (nf : E.NoFail) (wf : m.WF) (h : At m R T) (h0 : T.dims = []) (out : Ptr) :
    duplicate R.h out E m = .ub .outOfBounds := by
  have hrk := toI32_nat h.shape.rank
  unfold duplicate
  rcases scratch3_run T.dims.length 4 E wf with ⟨b1, b2, b3, s1, s2, s3⟩ | ⟨p1, p2, p3, m2, m3, m4, s1, s2, s3, hn, fr, wf4, nf'⟩
  · have x3 : Ext m (((m.push b1).push b2).push b3) [m.next + 2, m.next + 1, m.next] :=
      ((((Ext.refl wf).push b1).push b2).push b3)
    have h3 : At (((m.push b1).push b2).push b3) R T := h.frame wf x3.toFrame
    have e4 := slice_rank0 nf x3.wf h3 h0
    msimp [h.tDimsArr, h.tNdim, hrk, s1, s2, s3, Int.toNat_natCast, rdAll_dims, e4]
  · exact absurd nf nf'

theorem duplicate_too_large' {c : Code} {xs : List Val} (nf : E.NoFail) (wf : m.WF) (h : At m R T) (he : Elems T c xs)
    (h0 : T.dims ≠ []) (hd' : ∀ d ∈ T.dims, 0 < d ∧ 0 ≤ toI32 (d : Int))
    (hi : 2147483647 < prod (sliceDims (dupAx T.dims))) (out : Ptr) :
    duplicate R.h out E m = .ub .overflow := by
  have hrk := toI32_nat h.shape.rank
  obtain ⟨hf, ha⟩ := dupFits hd'
  obtain ⟨e1, e3⟩ := dup_arrays T.dims
  have e2 := dup_sizes fun d h => (hd' d h).2
  unfold duplicate
  rcases scratch3_run T.dims.length 4 E wf with ⟨b1, b2, b3, s1, s2, s3⟩ | ⟨p1, p2, p3, m2, m3, m4, s1, s2, s3, hn, fr, wf4, nf'⟩
  · have x3 : Ext m (((m.push b1).push b2).push b3) [m.next + 2, m.next + 1, m.next] :=
      ((((Ext.refl wf).push b1).push b2).push b3)
    have h3 : At (((m.push b1).push b2).push b3) R T := h.frame wf x3.toFrame
    have e4 := slice_too_large nf x3.wf h3 he h0 hf ha hi
    msimp [h.tDimsArr, h.tNdim, hrk, s1, s2, s3, Int.toNat_natCast, rdAll_dims, e1, e2, e3, e4]
  · exact absurd nf nf'

theorem duplicate_too_large {c : Code} {xs : List Val} (nf : E.NoFail) (wf : m.WF) (h : At m R T) (he : Elems T c xs)
    (h0 : T.dims ≠ []) (hd : ∀ d ∈ T.dims, 0 < d ∧ d ≤ 2147483647) (hi : 2147483647 < prod T.dims) (out : Ptr) :
    duplicate R.h out E m = .ub .overflow :=
  duplicate_too_large' nf wf h he h0 (fun d h => ⟨(hd d h).1, by rw [toI32_nat (hd d h).2]; omega⟩)
    (by rw [sliceDims_dup hd]; exact hi) out

theorem dimsCells_inj {a b : List Nat} (h : dimsCells a = dimsCells b) : a = b := by
  induction a generalizing b with
  | nil => cases b with
    | nil => rfl
    | cons y b => simp [dimsCells] at h
  | cons x a ih =>
    cases b with
    | nil => simp [dimsCells] at h
    | cons y b =>
      simp only [dimsCells, List.map_cons, List.cons.injEq, Option.some.injEq] at h
      rw [ih (b := b) (by simpa only [dimsCells] using h.2)]
      have := h.1
      congr 1; omega

/-- The dims that duplicate keeps: the dims modulo `2^32`, without those that become 0. -/
theorem sliceDims_low {ds : List Nat} (h : ∀ d ∈ ds, 0 ≤ toI32 (d : Int)) :
    sliceDims (dupAx ds) = (ds.map (· % 4294967296)).filter (· ≠ 0) := by
  induction ds with
  | nil => rfl
  | cons d ds ih =>
    have hd := h d (by simp)
    have := ih fun x hx => h x (List.mem_cons_of_mem _ hx)
    have ht : (toI32 (d : Int)).toNat = d % 4294967296 := by unfold toI32 at hd ⊢; omega
    simp only [dupAx, List.map_cons, sliceDims, ceilDiv_one, ht, List.filter_cons] at this ⊢
    rw [this]
    by_cases h0 : d % 4294967296 = 0 <;> simp [h0]

theorem toI32_neg_iff (d : Nat) : toI32 (d : Int) < 0 ↔ 2147483648 ≤ d % 4294967296 := by unfold toI32; omega

end Aitisa
