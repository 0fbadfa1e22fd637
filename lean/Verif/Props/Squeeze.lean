import Verif.Proof.SqueezeAll
import Verif.Spec.Example

/-!
# Properties C19, C20: squeeze
-/

namespace Aitisa

/-! ## C19 -/

/-- C19. For positive dims and distinct in-range axes, squeeze delivers the same data with exactly the requested
unit dims removed (all unit dims if the list is empty). -/
theorem C19_squeeze {E : Env} {m : Mem} {R : Foot} {T : TV} (wf : m.WF) (h : At m R T)
    (hp : ∀ d ∈ T.dims, 0 < d) {ax : List Nat} (hnd : ax.Nodup) (hr : ∀ a ∈ ax, a < T.dims.length) (out : Ptr) :
    ∃ ds', Without (fun i => ax = [] ∨ i ∈ ax) 0 T.dims ds' ∧
      Creates E (squeeze R.h (dimsCells ax) ax.length out) m out { T with dims := ds' } :=
  squeeze_run wf h hp (.of_nodup _ hnd) hr out

/-- The removed dims are unit dims, so the number of elements is the same. -/
theorem C19_same_size {A : Nat → Prop} {ds ds' : List Nat} (h : Without A 0 ds ds') : prod ds' = prod ds :=
  h.prod.1

/-- The specified dims are determined: there is exactly one result. -/
theorem C19_deterministic {A : Nat → Prop} {ds d1 d2 : List Nat} (h1 : Without A 0 ds d1) (h2 : Without A 0 ds d2) :
    d1 = d2 := h1.unique h2

/-- Squeezing all axes leaves no unit dim and keeps the other dims in order. -/
theorem C19_all_axes {ds ds' : List Nat} (h : Without (fun _ => True) 0 ds ds') : ds' = ds.filter (· ≠ 1) := by
  generalize 0 = k at h
  induction ds generalizing k ds' with
  | nil => exact h
  | cons d ds ih =>
    rcases h with ⟨rfl, _, h⟩ | ⟨hn, r, rfl, h⟩
    · have := ih _ h; simpa using this
    · have hd : d ≠ 1 := fun e => hn ⟨e, trivial⟩
      have := ih _ h
      simp [this, hd]

/-- C19. A negative count is refused, without effect. -/
theorem C19_negative_count {E : Env} {m : Mem} {R : Foot} {T : TV} (h : At m R T) (axis : Arr) {n : Int}
    (hn : n < 0) (out : Ptr) : squeeze R.h axis n out E m = .ok (.invalidArgument, out) m :=
  squeeze_neg_count h axis hn out

/-- C19. A list with a negative axis is refused, without effect. -/
theorem C19_negative_axis {E : Env} {m : Mem} {R : Foot} {T : TV} (h : At m R T) {ax : List Int}
    (hn : ∃ a ∈ ax, a < 0) (out : Ptr) :
    squeeze R.h (Arr.of ax) ax.length out E m = .ok (.invalidArgument, out) m :=
  squeeze_neg_axis h hn out

/-- A tensor with two unit dims. -/
def exSq : TV := tvOf .i32 [1, 3, 1, 2] ([1, -2, 3, -4, 5, -6].map .int)

theorem exSq_at : At (Mem.empty.addT exSq) Mem.empty.footT exSq :=
  tvOf_at _ (by simp) rfl ⟨by decide, by decide⟩

theorem exSq_wf : (Mem.empty.addT exSq).WF := Mem.addT_wf Mem.empty_wf _

example : Creates okEnv (squeeze Mem.empty.footT.h (dimsCells [2, 1]) 2 .indet) (Mem.empty.addT exSq) .indet
    { exSq with dims := [1, 3, 2] } := by
  obtain ⟨ds', hW, hC⟩ := C19_squeeze (E := okEnv) exSq_wf exSq_at (by decide) (ax := [2, 1]) (by decide) (by decide) .indet
  have : Without (fun i => [2, 1] = [] ∨ i ∈ [2, 1]) 0 exSq.dims [1, 3, 2] := by
    simp [exSq, tvOf, Without]
  rw [C19_deterministic hW this] at hC
  exact hC

example : Creates okEnv (squeeze Mem.empty.footT.h (dimsCells []) 0 .indet) (Mem.empty.addT exSq) .indet
    { exSq with dims := [3, 2] } := by
  obtain ⟨ds', hW, hC⟩ := C19_squeeze (E := okEnv) exSq_wf exSq_at (by decide) (ax := []) (by decide) (by decide) .indet
  have : Without (fun i => ([] : List Nat) = [] ∨ i ∈ []) 0 exSq.dims [3, 2] := by
    simp [exSq, tvOf, Without]
  rw [C19_deterministic hW this] at hC
  exact hC

/-! ## C20 -/

/-- C20, the true part: for positive dims and in-range axes of which no unit axis is repeated, squeeze is free of
undefined behaviour, whatever the allocator does. Missing: the claim for every axis list and every tensor, which is
false, see below. -/
theorem C20_memory_safe_partial {E : Env} {m : Mem} {R : Foot} {T : TV} (wf : m.WF) (h : At m R T)
    (hp : ∀ d ∈ T.dims, 0 < d) {ax : List Nat} (hnd : NoRepeatedUnit T.dims ax)
    (hr : ∀ a ∈ ax, a < T.dims.length) (out : Ptr) (u : UB) :
    squeeze R.h (dimsCells ax) ax.length out E m ≠ .ub u := by
  obtain ⟨_, _, h⟩ := squeeze_run (E := E) wf h hp hnd hr out
  rcases h with ⟨_, _, e, _⟩ | ⟨_, e, _⟩ <;> rw [e] <;> simp

/-- C20 fails: a list with an axis `>= ndim` is an out-of-bounds access, for every tensor. -/
theorem C20_axis_too_large {E : Env} (nf : E.NoFail) {m : Mem} {R : Foot} {T : TV} (wf : m.WF) (h : At m R T)
    {ax : List Nat} (hr : ∃ a ∈ ax, T.dims.length ≤ a) (out : Ptr) :
    squeeze R.h (dimsCells ax) ax.length out E m = .ub .outOfBounds :=
  squeeze_oob_axis nf wf h hr out

/-- C20 fails: a list that names a unit axis twice overflows a heap buffer (as long as at most `ndim` entries name
unit axes: with more the computed rank is negative and the request for the buffer is for almost `2^64` bytes). -/
theorem C20_repeated_axis {E : Env} (nf : E.NoFail) {m : Mem} {R : Foot} {T : TV} (wf : m.WF) (h : At m R T)
    (hp : ∀ d ∈ T.dims, 0 < d) {ax : List Nat} (hr : ∀ a ∈ ax, a < T.dims.length)
    (hdup : ¬ NoRepeatedUnit T.dims ax)
    (hfew : (ax.countP fun a => T.dims[a]? == some 1) ≤ T.dims.length) (out : Ptr) :
    squeeze R.h (dimsCells ax) ax.length out E m = .ub .outOfBounds := by
  refine squeeze_dup_axis nf wf h hp hr ?_ hfew out
  simp only [NoRepeatedUnit, Classical.not_forall, Classical.not_not] at hdup
  obtain ⟨j, k, a, hjk, hj, hk, h1⟩ := hdup
  obtain ⟨hj', rfl⟩ := List.getElem?_eq_some_iff.1 hj
  obtain ⟨hk', e'⟩ := List.getElem?_eq_some_iff.1 hk
  obtain ⟨hd, h1⟩ := List.getElem?_eq_some_iff.1 h1
  exact ⟨j, k, hjk, hj', hk', e'.symm, h1⟩

/-- C20 fails: any tensor with a zero-length dim makes squeeze read an uninitialised value, for every valid list of
axes. -/
theorem C20_zero_dim {E : Env} (nf : E.NoFail) {m : Mem} {R : Foot} {T : TV} (wf : m.WF) (h : At m R T)
    (h0 : 0 ∈ T.dims) {ax : List Nat} (hnd : ax.Nodup) (hr : ∀ a ∈ ax, a < T.dims.length) (out : Ptr) :
    squeeze R.h (dimsCells ax) ax.length out E m = .ub .uninit :=
  squeeze_zero_dim nf wf h h0 (.of_nodup _ hnd) hr out

/-- C20. Exactly which axis lists are safe for a tensor with positive dims (lists with at most `ndim` unit
entries): those in range with no unit axis repeated. -/
theorem C20_safe_iff {E : Env} (nf : E.NoFail) {m : Mem} {R : Foot} {T : TV} (wf : m.WF) (h : At m R T)
    (hp : ∀ d ∈ T.dims, 0 < d) {ax : List Nat}
    (hfew : (ax.countP fun a => T.dims[a]? == some 1) ≤ T.dims.length) (out : Ptr) :
    (∀ u, squeeze R.h (dimsCells ax) ax.length out E m ≠ .ub u) ↔
      (∀ a ∈ ax, a < T.dims.length) ∧ NoRepeatedUnit T.dims ax := by
  constructor
  · intro hs
    have hr : ∀ a ∈ ax, a < T.dims.length := by
      intro a ha
      rcases Nat.lt_or_ge a T.dims.length with hlt | hge
      · exact hlt
      · exact absurd (C20_axis_too_large nf wf h ⟨a, ha, hge⟩ out) (hs _)
    refine ⟨hr, Classical.byContradiction fun hd => ?_⟩
    exact hs _ (C20_repeated_axis nf wf h hp hr hd hfew out)
  · rintro ⟨hr, hd⟩ u
    exact C20_memory_safe_partial wf h hp hd hr out u

/-- C20. Every outcome of squeeze for axes in range, with an allocator that grants what fits in the address space. Let
`h` be the number of entries that name a unit dim (with repetitions) and `k` the dims that are neither zero nor asked to
be removed. If `h > ndim` the call reports a failed allocation and leaks one block; otherwise it overflows the heap
buffer if `k` has more than `ndim - h` entries, reads uninitialised memory if it has fewer, and if it has exactly as many
the result is the input with the dims `k` or, for an input without elements, a refusal. -/
theorem C20_outcomes {E : Env} (hE : E.Sane) {m : Mem} {R : Foot} {T : TV} (wf : m.WF) (h : At m R T) {ax : List Nat}
    (hr : ∀ a ∈ ax, a < T.dims.length) (hlen : ax.length < 1152921504606846976) (out : Ptr) :
    (T.dims.length < unitHits T.dims ax →
      ∃ m', squeeze R.h (dimsCells ax) ax.length out E m = .ok (.allocFailed, out) m' ∧ Frame m m' ∧
        m'.next = m.next + 1 ∧ m'.blk m.next ≠ none) ∧
    (unitHits T.dims ax ≤ T.dims.length →
      T.dims.length < (keptDims (asked ax) 0 T.dims).length + unitHits T.dims ax →
      squeeze R.h (dimsCells ax) ax.length out E m = .ub .outOfBounds) ∧
    ((keptDims (asked ax) 0 T.dims).length + unitHits T.dims ax < T.dims.length →
      squeeze R.h (dimsCells ax) ax.length out E m = .ub .uninit) ∧
    ((keptDims (asked ax) 0 T.dims).length + unitHits T.dims ax = T.dims.length →
      (0 ∉ T.dims → Creates E (squeeze R.h (dimsCells ax) ax.length out) m out
        { T with dims := keptDims (asked ax) 0 T.dims }) ∧
      (0 ∈ T.dims → Refuses E (squeeze R.h (dimsCells ax) ax.length out) m out .dimensionsMismatch ∨
        (¬ E.NoFail ∧ ∃ m', squeeze R.h (dimsCells ax) ax.length out E m = .ok (.allocFailed, out) m' ∧
          Frame m m' ∧ m'.WF))) := by
  refine ⟨fun hm => ?_, fun hle ho => squeeze_over hE wf h hr hle ho out, fun hu => squeeze_under hE wf h hr hu out,
    fun hx => squeeze_exact wf h hr hx out⟩
  obtain ⟨b, e⟩ := squeeze_many hE wf h hr hlen hm out
  exact ⟨_, e, (Frame.push _ _).trans (Frame.miss _), rfl, by simp [Mem.push, Mem.miss, upd]⟩

/-- C20. Exactly which axis lists are safe, for every well-formed tensor and every list: those with a negative entry
(refused), and those in range that name unit dims more often than there are dims, or for which the computed rank is the
number of dims that are left. -/
theorem C20_exact_partial {E : Env} (hE : E.Sane) {m : Mem} {R : Foot} {T : TV} (wf : m.WF) (h : At m R T) {ax : List Int}
    (hlen : ax.length < 1152921504606846976) (out : Ptr) :
    (∀ u, squeeze R.h (Arr.of ax) ax.length out E m ≠ .ub u) ↔
      (∃ a ∈ ax, a < 0) ∨ ((∀ a ∈ ax, a < T.dims.length) ∧
        (T.dims.length < unitHits T.dims (ax.map Int.toNat) ∨
          (keptDims (asked (ax.map Int.toNat)) 0 T.dims).length + unitHits T.dims (ax.map Int.toNat) = T.dims.length)) := by
  by_cases hneg : ∃ a ∈ ax, a < 0
  · refine ⟨fun _ => .inl hneg, fun _ u => ?_⟩
    rw [squeeze_neg_axis h hneg out]; simp
  have hpos : ∀ a ∈ ax, 0 ≤ a := fun a ha => Int.not_lt.1 fun hl => hneg ⟨a, ha, hl⟩
  have hax : Arr.of ax = dimsCells (ax.map Int.toNat) := by
    rw [dimsCells_eq_of, List.map_map]
    congr 1
    conv => lhs; rw [← List.map_id ax]
    apply List.map_congr_left
    intro a ha
    have := hpos a ha
    simp; omega
  have hl : ax.length = (ax.map Int.toNat).length := by simp
  rw [hax, hl]
  rw [hl] at hlen
  have hmem : (∀ a ∈ ax, a < (T.dims.length : Int)) ↔ ∀ a ∈ ax.map Int.toNat, a < T.dims.length := by
    constructor
    · intro hh a ha
      obtain ⟨i, hi, rfl⟩ := List.mem_map.1 ha
      have := hh i hi; have := hpos i hi; omega
    · intro hh a ha
      have := hh _ (List.mem_map_of_mem ha); have := hpos a ha; omega
  rw [hmem]
  generalize ax.map Int.toNat = al at *
  constructor
  · intro hs
    right
    have hr : ∀ a ∈ al, a < T.dims.length := by
      intro a ha
      rcases Nat.lt_or_ge a T.dims.length with hlt | hge
      · exact hlt
      · exact absurd (squeeze_oob_sane hE h ⟨a, ha, hge⟩ out) (hs _)
    refine ⟨hr, ?_⟩
    rcases Nat.lt_or_ge T.dims.length (unitHits T.dims al) with hm | hm
    · exact .inl hm
    · right
      rcases Nat.lt_trichotomy ((keptDims (asked al) 0 T.dims).length + unitHits T.dims al) T.dims.length with hu | hx | ho
      · exact absurd (squeeze_under hE wf h hr hu out) (hs _)
      · exact hx
      · exact absurd (squeeze_over hE wf h hr hm ho out) (hs _)
  · rintro (hc | ⟨hr, hm | hx⟩) u
    · exact absurd hc hneg
    · obtain ⟨b, e⟩ := squeeze_many hE wf h hr hlen hm out
      rw [e]; simp
    · obtain ⟨h1, h2⟩ := squeeze_exact (E := E) wf h hr hx out
      by_cases h0 : 0 ∈ T.dims
      · rcases h2 h0 with ⟨_, e, _⟩ | ⟨_, _, e, _⟩ <;> rw [e] <;> simp
      · rcases h1 h0 with ⟨_, _, e, _⟩ | ⟨_, e, _⟩ <;> rw [e] <;> simp

/-- An allocator that grants requests below `2^63` bytes. -/
def saneEnv : Env := { okEnv with allocOk := fun _ s => decide (s < 9223372036854775808) }

theorem saneEnv_sane : saneEnv.Sane := fun _ _ => by simp [saneEnv]

/-- Naming the unit axis 2 of a tensor of rank 4 five times is reported as a failed allocation. -/
example : ∃ m', squeeze Mem.empty.footT.h (dimsCells [2, 2, 2, 2, 2]) 5 .indet saneEnv (Mem.empty.addT exSq) =
    .ok (.allocFailed, .indet) m' ∧ m'.next = (Mem.empty.addT exSq).next + 1 := by
  obtain ⟨m', e, -, hn, -⟩ := (C20_outcomes saneEnv_sane exSq_wf exSq_at (ax := [2, 2, 2, 2, 2]) (by decide) (by decide)
    .indet).1 (by decide)
  exact ⟨m', e, hn⟩

example : squeeze Mem.empty.footT.h (dimsCells [2, 2]) 2 .indet okEnv (Mem.empty.addT exSq) = .ub .outOfBounds :=
  C20_repeated_axis okEnv_noFail exSq_wf exSq_at (by decide) (ax := [2, 2]) (by decide)
    (fun h => h (j := 0) (k := 1) (a := 2) (by decide) rfl rfl rfl) (by decide) .indet

example : squeeze Mem.empty.footT.h (dimsCells [0, 4]) 2 .indet okEnv (Mem.empty.addT exSq) = .ub .outOfBounds :=
  C20_axis_too_large okEnv_noFail exSq_wf exSq_at (ax := [0, 4]) ⟨4, by decide, by decide⟩ .indet

/-- A tensor without elements. -/
def exSqZ : TV := tvOf .i32 [1, 0, 2] []

theorem exSqZ_at : At (Mem.empty.addT exSqZ) Mem.empty.footT exSqZ :=
  tvOf_at _ (by simp) rfl ⟨by decide, by decide⟩

example : squeeze Mem.empty.footT.h (dimsCells [0]) 1 .indet okEnv (Mem.empty.addT exSqZ) = .ub .uninit :=
  C20_zero_dim okEnv_noFail (Mem.addT_wf Mem.empty_wf _) exSqZ_at (by decide) (ax := [0]) (by decide) (by decide) .indet

/-- With a zero-length dim a repeated unit axis is safe: the two errors compensate each other, and the call is refused. -/
example : Refuses okEnv (squeeze Mem.empty.footT.h (dimsCells [0, 0]) 2 .indet) (Mem.empty.addT exSqZ) .indet
    .dimensionsMismatch := by
  rcases (squeeze_exact (E := okEnv) (Mem.addT_wf Mem.empty_wf _) exSqZ_at (ax := [0, 0]) (by decide) (by decide) .indet).2
    (by decide) with h | ⟨h, _⟩
  · exact h
  · exact absurd okEnv_noFail h

end Aitisa
