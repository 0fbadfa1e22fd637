import Verif.Proof.Broadcast
import Verif.Spec.Example

/-!
# Properties C14-C17: indices, strides, broadcasting
-/

namespace Aitisa

/-! ## C14 -/

/-- C14. For positive dims and a linear index in `[0, size)`: `aitisa_linidx_to_coords` fills the array with
in-range coordinates, and `aitisa_coords_to_linidx` maps these back to the index. No assertion fires, nothing
is undefined, memory is unchanged. -/
theorem C14_linidx_coords {E : Env} {m : Mem} {R : Foot} {T : TV} (h : At m R T) (hp : ∀ d ∈ T.dims, 0 < d)
    (i : Nat) (hi : i < prod T.dims) (buf : Arr) (hb : buf.length = T.dims.length) :
    ∃ cs, linidxToCoords R.h i buf E m = .ok (dimsCells cs) m ∧ InRange T.dims cs ∧
      coordsToLinidx R.h (dimsCells cs) T.dims.length E m = .ok (i : Int) m := by
  refine ⟨_, linidxToCoords_run h hp hi hb, unlin_inRange hi, ?_⟩
  rw [coordsToLinidx_run h (unlin_inRange hi), lin_unlin hi]

/-- C14, converse: in-range coordinates have a linear index in `[0, size)`, which maps back to them. -/
theorem C14_coords_linidx {E : Env} {m : Mem} {R : Foot} {T : TV} (h : At m R T) (cs : List Nat)
    (hc : InRange T.dims cs) (buf : Arr) (hb : buf.length = T.dims.length) :
    ∃ i : Nat, coordsToLinidx R.h (dimsCells cs) T.dims.length E m = .ok (i : Int) m ∧ i < prod T.dims ∧
      linidxToCoords R.h i buf E m = .ok (dimsCells cs) m := by
  refine ⟨_, coordsToLinidx_run h hc, lin_lt hc, ?_⟩
  rw [linidxToCoords_run h hc.pos (lin_lt hc) hb, unlin_lin hc]

/-- C14. The linear index is the row-major one. -/
theorem C14_row_major {E : Env} {m : Mem} {R : Foot} {T : TV} (h : At m R T) (cs : List Nat)
    (hc : InRange T.dims cs) :
    coordsToLinidx R.h (dimsCells cs) T.dims.length E m = .ok (lin T.dims cs : Int) m :=
  coordsToLinidx_run h hc

/-- Consecutive indices differ in the last coordinate first: what row-major means. -/
theorem C14_last_coordinate (ds : List Nat) (d : Nat) (cs : List Nat) (c : Nat) (hl : cs.length = ds.length) :
    lin (ds ++ [d]) (cs ++ [c]) = lin ds cs * d + c := by
  induction ds generalizing cs with
  | nil => cases cs <;> simp [lin, prod] at hl ⊢
  | cons x ds ih =>
    cases cs with
    | nil => simp at hl
    | cons y cs =>
      simp only [List.cons_append, lin, ih cs (by simpa using hl), prod_append, prod, Nat.mul_one]
      rw [Nat.add_mul, Nat.mul_assoc, Nat.add_assoc]

example : ∃ cs, linidxToCoords Mem.empty.footT.h (4 : Nat) [none, none] okEnv exMem = .ok (dimsCells cs) exMem ∧
    InRange [2, 3] cs ∧ coordsToLinidx Mem.empty.footT.h (dimsCells cs) 2 okEnv exMem = .ok 4 exMem :=
  C14_linidx_coords (E := okEnv) exA_at (by decide) 4 (by decide) [none, none] rfl

/-! ## C15 -/

/-- C15. For tensors with the library's layout, offsets are row-major linear indices, in both directions,
and below the size. -/
theorem C15_offset {E : Env} {m : Mem} {R : Foot} {T : TV} (h : At m R T) (cs : List Nat)
    (hc : InRange T.dims cs) :
    ∃ i : Nat, coordsToOffset R.h (dimsCells cs) T.dims.length E m = .ok (i : Int) m ∧
      coordsToLinidx R.h (dimsCells cs) T.dims.length E m = .ok (i : Int) m ∧ i < prod T.dims :=
  ⟨_, coordsToOffset_run h hc, coordsToLinidx_run h hc, lin_lt hc⟩

/-- C15, the other direction. -/
theorem C15_coords {E : Env} {m : Mem} {R : Foot} {T : TV} (h : At m R T) (hp : ∀ d ∈ T.dims, 0 < d)
    (i : Nat) (hi : i < prod T.dims) (buf buf' : Arr) (hb : buf.length = T.dims.length)
    (hb' : buf'.length = T.dims.length) :
    ∃ cs, offsetToCoords R.h i buf E m = .ok (dimsCells cs) m ∧
      linidxToCoords R.h i buf' E m = .ok (dimsCells cs) m ∧ InRange T.dims cs :=
  ⟨_, offsetToCoords_run h hp hi hb, linidxToCoords_run h hp hi hb', unlin_inRange hi⟩

example : ∃ i : Nat, coordsToOffset Mem.empty.footT.h (dimsCells [1, 2]) 2 okEnv exMem = .ok (i : Int) exMem ∧
    coordsToLinidx Mem.empty.footT.h (dimsCells [1, 2]) 2 okEnv exMem = .ok (i : Int) exMem ∧ i < 6 :=
  C15_offset (E := okEnv) exA_at [1, 2] (by simp [InRange, exA, tvOf])

/-! ## C16 -/

/-- C16. The stride of a dimension is the product of the later dims. -/
theorem C16_stride {E : Env} {m : Mem} {R : Foot} {T : TV} (h : At m R T) (d : Nat) (hd : d < T.dims.length) :
    getStride R.h d E m = .ok (prod (T.dims.drop (d + 1)) : Int) m := getStride_run h hd

/-- C16. `aitisa_get_all_strides` agrees with `aitisa_get_stride` in every position. -/
theorem C16_all_strides {E : Env} {m : Mem} {R : Foot} {T : TV} (h : At m R T) (buf : Arr)
    (hb : buf.length = T.dims.length) :
    ∃ ss : List Nat, getAllStrides R.h buf E m = .ok (dimsCells ss) m ∧ ss.length = T.dims.length ∧
      ∀ d (hd : d < ss.length), getStride R.h d E m = .ok (ss[d] : Int) m := by
  refine ⟨strides T.dims, getAllStrides_run h hb, strides_length _, fun d hd => ?_⟩
  rw [getStride_run h (by rwa [strides_length] at hd), strides_get]

/-- C16. The offset of a coordinate is the sum of coordinate times stride. -/
theorem C16_offset_sum {E : Env} {m : Mem} {R : Foot} {T : TV} (h : At m R T) (cs : List Nat)
    (hc : InRange T.dims cs) (buf : Arr) (hb : buf.length = T.dims.length) :
    ∃ ss : List Nat, getAllStrides R.h buf E m = .ok (dimsCells ss) m ∧
      coordsToOffset R.h (dimsCells cs) T.dims.length E m = .ok (dotNat cs ss : Int) m := by
  refine ⟨strides T.dims, getAllStrides_run h hb, ?_⟩
  rw [coordsToOffset_run h hc, lin_eq_dot _ _ hc.length]

example : getStride Mem.empty.footT.h (0 : Nat) okEnv exMem = .ok 3 exMem :=
  C16_stride (E := okEnv) exA_at 0 (by decide)

/-! ## C17 -/

/-- C17. With an output array of the larger rank: if every right-aligned pair of dims is compatible,
`aitisa_broadcast_array` succeeds and fills the array with the pairwise larger dims. -/
theorem C17_broadcast (E : Env) (m : Mem) (a b : List Nat) (buf : Arr)
    (hb : buf.length = max a.length b.length) (hc : ∀ i, Compatible (fromRight a i) (fromRight b i)) :
    ∃ c, Broadcasts a b c ∧
      broadcastArray (dimsCells a) a.length (dimsCells b) b.length buf buf.length E m =
        .ok (.success, dimsCells c) m := by
  obtain ⟨c, hc1, hc2⟩ := broadcastArray_run (E := E) (m := m) (dimsCells_get (ds := a)) (dimsCells_get (ds := b)) hb hc
  exact ⟨c, hc1, hc2⟩

/-- C17. Otherwise it reports a mismatch. -/
theorem C17_mismatch (E : Env) (m : Mem) (a b : List Nat) (buf : Arr)
    (hb : buf.length = max a.length b.length) (hc : ¬ ∀ i, Compatible (fromRight a i) (fromRight b i)) :
    ∃ o, broadcastArray (dimsCells a) a.length (dimsCells b) b.length buf buf.length E m =
        .ok (.dimensionsMismatch, o) m :=
  broadcastArray_mismatch (dimsCells_get (ds := a)) (dimsCells_get (ds := b)) hb hc

/-- C17. The argument order is irrelevant: same status, and on success the same dims. -/
theorem C17_comm (E : Env) (m : Mem) (a b : List Nat) (buf buf' : Arr)
    (hb : buf.length = max a.length b.length) (hb' : buf'.length = max b.length a.length) (st : Status) (o : Arr)
    (h : broadcastArray (dimsCells a) a.length (dimsCells b) b.length buf buf.length E m = .ok (st, o) m) :
    ∃ o', broadcastArray (dimsCells b) b.length (dimsCells a) a.length buf' buf'.length E m = .ok (st, o') m ∧
      (st = .success → o' = o) := by
  by_cases hc : ∀ i, Compatible (fromRight a i) (fromRight b i)
  · obtain ⟨c, h1, e⟩ := C17_broadcast E m a b buf hb hc
    obtain ⟨c', h1', e'⟩ := C17_broadcast E m b a buf' hb' (fun i => (hc i).symm)
    rw [h] at e; cases e
    exact ⟨_, e', fun _ => by rw [h1'.unique h1.symm]⟩
  · obtain ⟨o1, e⟩ := C17_mismatch E m a b buf hb hc
    obtain ⟨o2, e'⟩ := C17_mismatch E m b a buf' hb' (fun h => hc fun i => (h i).symm)
    rw [h] at e; cases e
    exact ⟨_, e', by simp⟩

/-- C17. A shape broadcast with itself or with the empty shape is itself. -/
theorem C17_identity (E : Env) (m : Mem) (a : List Nat) (buf : Arr) (hb : buf.length = a.length) :
    broadcastArray (dimsCells a) a.length (dimsCells a) a.length buf buf.length E m =
      .ok (.success, dimsCells a) m ∧
    broadcastArray (dimsCells a) a.length (dimsCells []) ([] : List Nat).length buf buf.length E m =
      .ok (.success, dimsCells a) m ∧
    broadcastArray (dimsCells []) ([] : List Nat).length (dimsCells a) a.length buf buf.length E m =
      .ok (.success, dimsCells a) m := by
  have h1 : Broadcasts a a a := Broadcasts.self a
  have h2 : Broadcasts a [] a := Broadcasts.nil_right a
  refine ⟨?_, ?_, ?_⟩
  · obtain ⟨c, h, e⟩ := C17_broadcast E m a a buf (by simp [hb]) h1.1
    rw [e, h.unique h1]
  · obtain ⟨c, h, e⟩ := C17_broadcast E m a [] buf (by simp [hb]) h2.1
    rw [e, h.unique h2]
  · obtain ⟨c, h, e⟩ := C17_broadcast E m [] a buf (by simp [hb]) h2.symm.1
    rw [e, h.unique h2.symm]

/-- Broadcasting is associative where both sides are defined. -/
theorem C17_assoc {a b c ab bc l r : List Nat} (h1 : Broadcasts a b ab) (h2 : Broadcasts ab c l)
    (h3 : Broadcasts b c bc) (h4 : Broadcasts a bc r) : l = r := by
  apply fromRight_ext
  intro i
  rw [h2.2, h1.2, h4.2, h3.2]
  cases fromRight a i <;> cases fromRight b i <;> cases fromRight c i <;> simp [larger, Nat.max_assoc]

example : ∃ c, Broadcasts [2, 1, 3] [4, 1] c ∧
    broadcastArray (dimsCells [2, 1, 3]) 3 (dimsCells [4, 1]) 2 [none, none, none] 3 okEnv exMem =
      .ok (.success, dimsCells c) exMem :=
  C17_broadcast okEnv exMem [2, 1, 3] [4, 1] [none, none, none] rfl (by
    intro i
    match i with
    | 0 => simp [fromRight, Compatible]
    | 1 => simp [fromRight, Compatible]
    | i + 2 => cases h : fromRight [2, 1, 3] (i + 2) <;> simp [fromRight, Compatible])

/-- The documented rule does not treat zero specially: 0 against 1 gives 1, not 0. -/
theorem C17_zero_one (E : Env) (m : Mem) :
    broadcastArray (dimsCells [0]) 1 (dimsCells [1]) 1 [none] 1 E m = .ok (.success, dimsCells [1]) m := by
  obtain ⟨c, h, e⟩ := C17_broadcast E m [0] [1] [none] rfl (by
    intro i; cases i <;> simp [fromRight, Compatible])
  have : c = [1] := by
    apply fromRight_ext
    intro i
    rw [h.2]
    cases i <;> simp [fromRight, larger]
  rw [this] at e; exact e

end Aitisa
