import Verif.Proof.Duplicate
import Verif.Spec.Example

/-!
# Properties C21 - C25: slice and duplicate
-/

namespace Aitisa

/-! ## C21 -/

/-- C21. For a request within the dims, slice attempts a tensor whose dims are the numbers of positions taken on the
axes of nonzero size, and whose element at coordinates `oc` is the input element at `begin + step * oc`. The
call fails only if the allocator does. -/
theorem C21_slice {E : Env} {m : Mem} {R : Foot} {T : TV} {c : Code} {xs : List Val} (wf : m.WF) (h : At m R T)
    (he : Elems T c xs) (h0 : T.dims ≠ []) {ax : List Axis} (hf : SliceFits T.dims ax) (ha : AxFit ax)
    (hi : prod (sliceDims ax) ≤ 2147483647) (out : Ptr) :
    ∃ ys, Attempts E (slice R.h (bgs ax) (szs ax) (sts ax) out) m ⟨T.dtype, T.device, sliceDims ax, encAll c ys⟩ ∧
      Elems ⟨T.dtype, T.device, sliceDims ax, encAll c ys⟩ c ys ∧
      ∀ oc, InRange (sliceDims ax) oc → InRange T.dims (source ax oc) ∧
        ∃ v, ys[lin (sliceDims ax) oc]? = some v ∧ xs[lin T.dims (source ax oc)]? = some v := by
  refine ⟨sliceElems T.dims ax xs, ?_, ?_, fun oc hc => ⟨source_inRange hf hc, sliceElems_get hf he.len hc⟩⟩
  · rw [he.dtype]; exact slice_run wf h he h0 hf ha hi out
  · exact ⟨he.dtype, rfl, fun y hy => he.wt y (sliceElems_mem hf he.len y hy), sliceElems_length ..⟩

/-- C21. When memory is available the call succeeds. -/
theorem C21_success {E : Env} (nf : E.NoFail) {m : Mem} {R : Foot} {T : TV} {c : Code} {xs : List Val} (wf : m.WF)
    (h : At m R T) (he : Elems T c xs) (h0 : T.dims ≠ []) {ax : List Axis} (hf : SliceFits T.dims ax) (ha : AxFit ax)
    (hi : prod (sliceDims ax) ≤ 2147483647) (out : Ptr) :
    ∃ R' m' ys, slice R.h (bgs ax) (szs ax) (sts ax) out E m = .ok (.success, R'.h) m' ∧
      Produces m m' R' ⟨T.dtype, T.device, sliceDims ax, encAll c ys⟩ ∧
      ∀ oc, InRange (sliceDims ax) oc →
        ∃ v, ys[lin (sliceDims ax) oc]? = some v ∧ xs[lin T.dims (source ax oc)]? = some v := by
  obtain ⟨ys, ha', _, hg⟩ := C21_slice (E := E) wf h he h0 hf ha hi out
  rcases ha' with ⟨R', m', e, P⟩ | ⟨nf', _⟩
  · exact ⟨R', m', ys, e, P, fun oc hc => (hg oc hc).2⟩
  · exact absurd nf nf'

/-- C21. The extent of an axis of nonzero size is the exact ceiling of `size / step`. -/
theorem C21_extent (a : Axis) (h : 1 ≤ a.st) : IsCeil a.sz a.st (ceilDiv a.sz a.st) := isCeil_div _ h

/-- C21. All `int` arrays that pass the documented conditions are such requests. -/
theorem C21_params {ds : List Nat} {bg sz st : List Int} (hb : bg.length = ds.length) (hz : sz.length = ds.length)
    (ht : st.length = ds.length) (h : ∀ i, i < ds.length → GoodAt ds bg sz st i) :
    ∃ ax, Arr.of bg = bgs ax ∧ Arr.of sz = szs ax ∧ Arr.of st = sts ax ∧ SliceFits ds ax :=
  axes_of hb hz ht h

/-- C21, limit: if the slice has more than `INT_MAX` elements the `int` loop counter overflows. -/
theorem C21_too_large {E : Env} (nf : E.NoFail) {m : Mem} {R : Foot} {T : TV} {c : Code} {xs : List Val} (wf : m.WF)
    (h : At m R T) (he : Elems T c xs) (h0 : T.dims ≠ []) {ax : List Axis} (hf : SliceFits T.dims ax) (ha : AxFit ax)
    (hi : 2147483647 < prod (sliceDims ax)) (out : Ptr) :
    slice R.h (bgs ax) (szs ax) (sts ax) out E m = .ub .overflow :=
  slice_too_large nf wf h he h0 hf ha hi out

/-- C21, limit: the slice of a rank-0 tensor writes out of bounds. -/
theorem C21_rank0 {E : Env} (nf : E.NoFail) {m : Mem} {R : Foot} {T : TV} (wf : m.WF) (h : At m R T) (h0 : T.dims = [])
    (bg sz st : Arr) (out : Ptr) : slice R.h bg sz st out E m = .ub .outOfBounds :=
  slice_rank0 nf wf h h0 bg sz st out

/-- A 2x5 tensor of `int16`. -/
def exSl : TV := tvOf .i16 [2, 5] ([0, 1, 2, 3, 4, 10, 11, 12, 13, 14].map .int)

theorem exSl_at : At (Mem.empty.addT exSl) Mem.empty.footT exSl :=
  tvOf_at _ (by simp) rfl ⟨by decide, by decide⟩

theorem exSl_elems : Elems exSl .i16 ([0, 1, 2, 3, 4, 10, 11, 12, 13, 14].map .int) :=
  tvOf_elems (by decide) rfl

/-- Row 1 is dropped to an index, columns 1 and 3 are taken: the result is `[11, 13]`. -/
example : ∃ R' m', slice Mem.empty.footT.h (Arr.of [1, 1]) (Arr.of [0, 3]) (Arr.of [1, 2]) .indet okEnv
      (Mem.empty.addT exSl) = .ok (.success, R'.h) m' ∧
    Produces (Mem.empty.addT exSl) m' R' (tvOf .i16 [2] [.int 11, .int 13]) := by
  obtain ⟨R', m', ys, e, P, hg⟩ := C21_success okEnv_noFail (Mem.addT_wf Mem.empty_wf _) exSl_at exSl_elems (by decide)
    (ax := [⟨1, 0, 1⟩, ⟨1, 3, 2⟩]) (by simp [SliceFits, Axis.Fits, exSl, tvOf]) (by simp [AxFit]) (by decide) .indet
  have hlen : ys.length = 2 := by
    have hl := P.tensor.len
    rw [show (TV.mk exSl.dtype exSl.device (sliceDims [⟨1, 0, 1⟩, ⟨1, 3, 2⟩]) (encAll .i16 ys)).bytes.length =
      ys.length * 2 from encAll_length .i16 ys] at hl
    have : prod (sliceDims [⟨1, 0, 1⟩, ⟨1, 3, 2⟩]) * exSl.dtype.size = 4 := by decide
    rw [this] at hl
    omega
  obtain ⟨v0, a0, b0⟩ := hg [0] (by simp [sliceDims, InRange, ceilDiv])
  obtain ⟨v1, a1, b1⟩ := hg [1] (by simp [sliceDims, InRange, ceilDiv])
  have : ys = [.int 11, .int 13] := by
    match ys, hlen with
    | [x, y], _ =>
      simp [sliceDims, ceilDiv, lin, source, exSl, tvOf, prod] at a0 a1 b0 b1
      rw [a0, a1, ← b0, ← b1]
  subst this
  exact ⟨R', m', e, P⟩

/-! ## C22 -/

/-- C22, the true part: a request with a bad axis is refused, without any effect, if every `begin + size` fits in an
`int`. Missing: the other requests, for which the claim is false, see `C22_overflow`. -/
theorem C22_refuse_partial {E : Env} {m : Mem} {R : Foot} {T : TV} (h : At m R T) {bg sz st : List Int}
    (hb : bg.length = T.dims.length) (hz : sz.length = T.dims.length) (ht : st.length = T.dims.length)
    (hbad : ∃ i, i < T.dims.length ∧ ¬ GoodAt T.dims bg sz st i)
    (hsum : ∀ i, i < T.dims.length → SumFits bg sz i) (out : Ptr) :
    slice R.h (Arr.of bg) (Arr.of sz) (Arr.of st) out E m = .ok (.invalidArgument, out) m :=
  slice_refuse h hb hz ht hbad hsum out

/-- C22 fails: if at the first bad axis `begin + size` exceeds `INT_MAX`, the check itself overflows. -/
theorem C22_overflow {E : Env} {m : Mem} {R : Foot} {T : TV} (h : At m R T) {bg sz st : List Int}
    (hb : bg.length = T.dims.length) (hz : sz.length = T.dims.length) (ht : st.length = T.dims.length) {j : Nat}
    (hj : j < T.dims.length) (hs0 : 0 ≤ sz.getD j 0) (hov : 2147483647 < bg.getD j 0 + sz.getD j 0)
    (hg : ∀ i, i < j → GoodAt T.dims bg sz st i ∧ SumFits bg sz i) (out : Ptr) :
    slice R.h (Arr.of bg) (Arr.of sz) (Arr.of st) out E m = .ub .overflow :=
  slice_overflow h hb hz ht hj hs0 hov hg out

/-- The check of axis `j` adds two `int`s with a sum above `INT_MAX`. -/
def SumOverflows (bg sz : List Int) (j : Nat) : Prop := 0 ≤ sz.getD j 0 ∧ 2147483647 < bg.getD j 0 + sz.getD j 0

/-- C22, exactly when the claim holds: for all `int` arrays with some bad axis, the request is refused without any effect
unless the check reaches an axis whose sum overflows (all axes before it being good), and then its behaviour is
undefined. -/
theorem C22_exact_partial {E : Env} {m : Mem} {R : Foot} {T : TV} (h : At m R T) {bg sz st : List Int}
    (hb : bg.length = T.dims.length) (hz : sz.length = T.dims.length) (ht : st.length = T.dims.length)
    (hib : ∀ x ∈ bg, FitsInt x) (hiz : ∀ x ∈ sz, FitsInt x)
    (hbad : ∃ i, i < T.dims.length ∧ ¬ GoodAt T.dims bg sz st i) (out : Ptr) :
    (slice R.h (Arr.of bg) (Arr.of sz) (Arr.of st) out E m = .ub .overflow ↔
      ∃ j, j < T.dims.length ∧ SumOverflows bg sz j ∧ ∀ i, i < j → GoodAt T.dims bg sz st i) ∧
    (slice R.h (Arr.of bg) (Arr.of sz) (Arr.of st) out E m = .ok (.invalidArgument, out) m ↔
      ¬ ∃ j, j < T.dims.length ∧ SumOverflows bg sz j ∧ ∀ i, i < j → GoodAt T.dims bg sz st i) := by
  have hfit : ∀ i, i < T.dims.length → ¬ SumOverflows bg sz i → SumFits bg sz i := by
    intro i hi hn
    have h1 : i < bg.length := by omega
    have h2 : i < sz.length := by omega
    have f1 := hib _ (List.getElem_mem h1)
    have f2 := hiz _ (List.getElem_mem h2)
    unfold SumOverflows at hn
    unfold FitsInt at f1 f2
    unfold SumFits
    simp only [List.getD, List.getElem?_eq_getElem h1, List.getElem?_eq_getElem h2, Option.getD_some] at hn ⊢
    omega
  by_cases hex : ∃ j, j < T.dims.length ∧ SumOverflows bg sz j ∧ ∀ i, i < j → GoodAt T.dims bg sz st i
  · have hov : slice R.h (Arr.of bg) (Arr.of sz) (Arr.of st) out E m = .ub .overflow := by
      obtain ⟨j0, hj0, ho0, hg0⟩ := hex
      obtain ⟨j, hj, ⟨ho, hlt⟩, hmin⟩ := first_such (P := fun j => SumOverflows bg sz j ∧ j ≤ j0) hj0
        ⟨ho0, Nat.le_refl _⟩
      exact slice_overflow h hb hz ht hj ho.1 ho.2 (fun i hi =>
        ⟨hg0 i (by omega), hfit i (by omega) fun hc => hmin i hi ⟨hc, by omega⟩⟩) out
    rw [hov]
    simp [hex]
  · have hrf : slice R.h (Arr.of bg) (Arr.of sz) (Arr.of st) out E m = .ok (.invalidArgument, out) m := by
      obtain ⟨i, hi, hbad⟩ := hbad
      obtain ⟨j, hj, hjb, hlt⟩ := first_such (P := fun i => ¬ GoodAt T.dims bg sz st i) hi hbad
      have hgood : ∀ k, k < j → GoodAt T.dims bg sz st k := fun k hk =>
        Classical.byContradiction fun hn => hlt k hk hn
      have hno : ∀ k, k ≤ j → ¬ SumOverflows bg sz k := fun k hk hc =>
        hex ⟨k, by omega, hc, fun i hi => hgood i (by omega)⟩
      have := sliceCheck_bad (E := E) (m := m) h.shape.rank hb hz ht hj hjb (hfit j hj (hno j (Nat.le_refl _)))
        fun k hk => ⟨hgood k hk, hfit k (by omega) (hno k (by omega))⟩
      unfold slice
      msimp [h.tNdim, h.tDimsArr, this]
    rw [hrf]
    simp [hex]

/-- `begin + size = 6` exceeds the dim 5. -/
example : slice Mem.empty.footT.h (Arr.of [0, 2]) (Arr.of [2, 4]) (Arr.of [1, 1]) .indet okEnv (Mem.empty.addT exSl) =
    .ok (.invalidArgument, .indet) (Mem.empty.addT exSl) :=
  C22_refuse_partial exSl_at rfl rfl rfl ⟨1, by decide, by decide⟩
    (by intro i hi; match i, hi with | 0, _ => simp [SumFits] | 1, _ => simp [SumFits]) .indet

example : slice Mem.empty.footT.h (Arr.of [0, 4]) (Arr.of [2, 2147483647]) (Arr.of [1, 1]) .indet okEnv
    (Mem.empty.addT exSl) = .ub .overflow :=
  C22_overflow exSl_at rfl rfl rfl (j := 1) (by decide) (by decide) (by decide)
    (by intro i hi; match i, hi with | 0, _ => exact ⟨by decide, by simp [SumFits]⟩) .indet

/-! ## C23 -/

/-- C23. The ceiling of the binary64 quotient of two `int`s is the exact ceiling, for whatever nearest binary64 number
the division returns. -/
theorem C23_ceil {a b n k q : Nat} (ha : 0 < a) (hb : 0 < b) (ha' : a < 2 ^ 31) (hq : Nearest a b q k)
    (hn : IsCeil q (2 ^ k) n) : IsCeil a b n :=
  hq.ceil ha hb (by omega) hn

/-- C23. The same for the floor. -/
theorem C23_floor {a b n k q : Nat} (hb : 0 < b) (ha' : a < 2 ^ 31) (hq : Nearest a b q k)
    (hn : IsFloor q (2 ^ k) n) : IsFloor a b n :=
  hq.floor hb (by omega) hn

/-- C23. Every quotient has a nearest binary64 number (the one the model computes). -/
theorem C23_exists {a b : Nat} (ha : 0 < a) (hb : 0 < b) (ha' : a < 2 ^ 31) : ∃ q k, Nearest a b q k :=
  ⟨_, _, dDiv_nearest ha hb (by omega)⟩

/-- C23. The floor of quotient plus one, as in pooling: both the division and the addition round, whatever nearest numbers
they return, and the floor is still exact. -/
theorem C23_floor_plus_one {a b n k q j f r : Nat} (hb : 0 < b) (ha' : a < 2 ^ 31) (hb' : b < 2 ^ 31) (hq : Nearest a b q k)
    (hp : PlusOne q k n j) (hf : IsFloor n (2 ^ j) f) (hr : IsFloor a b r) : f = r + 1 := by
  rw [isFloor_unique hf (isFloor_div _ (Nat.pow_pos (by decide))), isFloor_unique hr (isFloor_div _ hb)]
  exact hp.floor hq hb (by omega) (by omega)

/-- C23. Every such quotient plus one has a nearest binary64 number (the one the model computes). -/
theorem C23_plus_one_exists {a b q k : Nat} (hb : 0 < b) (ha' : a < 2 ^ 31) (hq : Nearest a b q k) : ∃ n j, PlusOne q k n j := by
  refine ⟨_, _, dAddOne_plusOne (x := (q, k)) ?_⟩
  have h2 := hq.upper
  have e1 : a * 2 ^ k ≤ 2 ^ 31 * 2 ^ k := Nat.mul_le_mul_right _ (by omega)
  have e2 : q ≤ q * b := Nat.le_mul_of_pos_right _ hb
  have e3 := hq.shift (by omega)
  show q ≤ 2 ^ k * 2 ^ 51
  omega

/-- 2147483645 / 2147483646 is just below 1; adding 1 rounds, and the floor is 1. -/
example : dFloor (dAddOne (dDiv 2147483645 2147483646)) = 1 := by decide

/-- 2147483647 / 2147483646 is just above 1; its ceiling is 2. -/
example : dCeil (dDiv 2147483647 2147483646) = 2 := by decide

/-! ## C24 -/

/-- C24. duplicate attempts a new tensor with the same value; on failure (possible only if the allocator fails)
`*output` is unchanged or a null pointer has been dereferenced. -/
theorem C24_copy {E : Env} {m : Mem} {R : Foot} {T : TV} {c : Code} {xs : List Val} (wf : m.WF) (h : At m R T)
    (he : Elems T c xs) (h0 : T.dims ≠ []) (hd : ∀ d ∈ T.dims, 0 < d) (hi : prod T.dims ≤ 2147483647) (out : Ptr) :
    Creates E (duplicate R.h out) m out T ∨ (¬ E.NoFail ∧ duplicate R.h out E m = .ub .nullDeref) :=
  duplicate_run wf h he h0 hd hi out

/-- C24. The copy is independent: after any change confined to the memory of the copy, the original has its value;
after any change confined to the memory of the original, the copy has it. -/
theorem C24_independent {E : Env} (nf : E.NoFail) {m : Mem} {R : Foot} {T : TV} {c : Code} {xs : List Val} (wf : m.WF)
    (h : At m R T) (he : Elems T c xs) (h0 : T.dims ≠ []) (hd : ∀ d ∈ T.dims, 0 < d) (hi : prod T.dims ≤ 2147483647)
    (out : Ptr) :
    ∃ R' m', duplicate R.h out E m = .ok (.success, R'.h) m' ∧ At m' R T ∧ At m' R' T ∧
      (∀ b ∈ R'.list, b ∉ R.list) ∧
      (∀ m'', (∀ b, b ∉ R'.list → m''.blk b = m'.blk b) → At m'' R T) ∧
      (∀ m'', (∀ b, b ∉ R.list → m''.blk b = m'.blk b) → At m'' R' T) := by
  rcases duplicate_run (E := E) wf h he h0 hd hi out with (⟨R', m', e, P⟩ | ⟨_, _, _, _, nf'⟩) | ⟨nf', _⟩
  · have hdis : ∀ b ∈ R'.list, b ∉ R.list := fun b hb hb' => by
      have := P.fresh b hb
      have := h.lt wf hb'
      omega
    have h1 := h.frame wf P.frame
    exact ⟨R', m', e, h1, P.tensor, hdis,
      fun m'' hm => h1.congr fun b hb => hm b fun hb' => hdis b hb' hb,
      fun m'' hm => P.tensor.congr fun b hb => hm b (hdis b hb)⟩
  · exact absurd nf nf'
  · exact absurd nf nf'

example : ∃ R' m', duplicate Mem.empty.footT.h .indet okEnv (Mem.empty.addT exSl) = .ok (.success, R'.h) m' ∧
    At m' R' exSl := by
  obtain ⟨R', m', e, _, h, _⟩ := C24_independent okEnv_noFail (Mem.addT_wf Mem.empty_wf _) exSl_at exSl_elems (by decide)
    (by decide) (by decide) .indet
  exact ⟨R', m', e, h⟩

/-! ## C25 -/

/-- C25, the true part: with memory available duplicate succeeds for rank `>= 1`, positive dims and at most `INT_MAX`
elements. Missing: all other tensors, for which the claim is false, see below. -/
theorem C25_partial {E : Env} (nf : E.NoFail) {m : Mem} {R : Foot} {T : TV} {c : Code} {xs : List Val} (wf : m.WF)
    (h : At m R T) (he : Elems T c xs) (h0 : T.dims ≠ []) (hd : ∀ d ∈ T.dims, 0 < d) (hi : prod T.dims ≤ 2147483647)
    (out : Ptr) : ∃ R' m', duplicate R.h out E m = .ok (.success, R'.h) m' ∧ Produces m m' R' T := by
  rcases duplicate_run (E := E) wf h he h0 hd hi out with (⟨R', m', e, P⟩ | ⟨_, _, _, _, nf'⟩) | ⟨nf', _⟩
  · exact ⟨R', m', e, P⟩
  · exact absurd nf nf'
  · exact absurd nf nf'

/-- C25 fails: a rank-0 tensor makes duplicate write out of bounds. -/
theorem C25_rank0 {E : Env} (nf : E.NoFail) {m : Mem} {R : Foot} {T : TV} (wf : m.WF) (h : At m R T) (h0 : T.dims = [])
    (out : Ptr) : duplicate R.h out E m = .ub .outOfBounds :=
  duplicate_rank0 nf wf h h0 out

/-- C25 fails: a tensor with a zero-length dim (or a dim that becomes negative as an `int`) is refused. -/
theorem C25_refused {E : Env} (nf : E.NoFail) {m : Mem} {R : Foot} {T : TV} (wf : m.WF) (h : At m R T)
    (hd : ∃ d ∈ T.dims, d = 0 ∨ toI32 (d : Int) < 0) (out : Ptr) :
    Refuses E (duplicate R.h out) m out .invalidArgument := by
  rcases duplicate_refuse (E := E) wf h hd out with h | ⟨nf', _⟩
  · exact h
  · exact absurd nf nf'

/-- C25 fails: with more than `INT_MAX` elements in dims that fit in an `int`, the loop counter overflows. -/
theorem C25_too_large {E : Env} (nf : E.NoFail) {m : Mem} {R : Foot} {T : TV} {c : Code} {xs : List Val} (wf : m.WF)
    (h : At m R T) (he : Elems T c xs) (h0 : T.dims ≠ []) (hd : ∀ d ∈ T.dims, 0 < d ∧ d ≤ 2147483647)
    (hi : 2147483647 < prod T.dims) (out : Ptr) : duplicate R.h out E m = .ub .overflow :=
  duplicate_too_large nf wf h he h0 hd hi out

/-- C25 fails: a one-dimensional tensor of `2^32 + k` elements is "duplicated", with success reported, to its first
`k` elements. -/
theorem C25_truncated {E : Env} (nf : E.NoFail) {m : Mem} {R : Foot} {T : TV} {c : Code} {xs : List Val} (wf : m.WF)
    (h : At m R T) (he : Elems T c xs) {k : Nat} (hk : 0 < k) (hk' : k ≤ 2147483647) (hd : T.dims = [4294967296 + k])
    (out : Ptr) :
    ∃ R' m', duplicate R.h out E m = .ok (.success, R'.h) m' ∧
      Produces m m' R' ⟨T.dtype, T.device, [k], encAll c (xs.take k)⟩ := by
  have ht : toI32 ((4294967296 + k : Nat) : Int) = k := by unfold toI32; omega
  have hax : dupAx T.dims = [⟨0, k, 1⟩] := by
    rw [hd]; simp only [dupAx, List.map_cons, List.map_nil, ht, Int.toNat_natCast]
  have hsd : sliceDims [⟨0, k, 1⟩] = [k] := by
    simp only [sliceDims, ceilDiv_one]; rw [if_neg (by omega)]
  have hel : sliceElems T.dims (dupAx T.dims) xs = xs.take k := by
    have hl : xs.length = 4294967296 + k := by rw [he.len, hd]; exact Nat.mul_one _
    apply List.ext_getElem
    · rw [sliceElems_length, hax, hsd, List.length_take, hl]
      show k * 1 = _
      omega
    · intro i h1 h2
      rw [List.length_take] at h2
      have hi : i < k := by omega
      have hc : InRange (sliceDims (dupAx T.dims)) [i] := by rw [hax, hsd]; exact ⟨hi, trivial⟩
      obtain ⟨v, e1, e2⟩ := sliceElems_get (ds := T.dims) (ax := dupAx T.dims) (xs := xs)
        (dupFits (by
          intro d hd'; rw [hd, List.mem_singleton] at hd'; subst hd'
          rw [ht]; omega)).1 he.len hc
      have l1 : lin (sliceDims (dupAx T.dims)) [i] = i := by rw [hax, hsd]; simp [lin, prod]
      have l2 : lin T.dims (source (dupAx T.dims) [i]) = i := by
        rw [hax, hd]
        simp only [source]
        rw [if_neg (by omega)]
        simp [lin, prod]
      rw [l1] at e1; rw [l2] at e2
      obtain ⟨_, e1⟩ := List.getElem?_eq_some_iff.1 e1
      obtain ⟨_, e2⟩ := List.getElem?_eq_some_iff.1 e2
      rw [List.getElem_take, e1, e2]
  have hgen := duplicate_general (E := E) wf h he (by rw [hd]; simp)
    (by intro d hd'; rw [hd, List.mem_singleton] at hd'; subst hd'; rw [ht]; omega)
    (by rw [hax, hsd]; show k * 1 ≤ _; omega) out
  rw [hel, hax, hsd, ← he.dtype] at hgen
  rcases hgen with (⟨R', m', e, P⟩ | ⟨_, _, _, _, nf'⟩) | ⟨nf', _⟩
  · exact ⟨R', m', e, P⟩
  · exact absurd nf nf'
  · exact absurd nf nf'

/-- A scalar. -/
example : duplicate Mem.empty.footS.h .indet okEnv (Mem.empty.addS (Code.i32).dtype ⟨DEVICE_CPU, 0⟩ (encAll .i32 [.int 7])) = .ub .outOfBounds :=
  C25_rank0 okEnv_noFail (Mem.addS_wf Mem.empty_wf _ _ _) (addS_at _ _ _ _ rfl (by decide)) rfl .indet

example : Refuses okEnv (duplicate Mem.empty.footT.h .indet) (Mem.empty.addT (tvOf .i32 [2, 0] [])) .indet
    .invalidArgument :=
  C25_refused okEnv_noFail (Mem.addT_wf Mem.empty_wf _) (tvOf_at _ (by simp) rfl ⟨by decide, by decide⟩)
    ⟨0, by decide, .inl rfl⟩ .indet

/-- C25. Every outcome of duplicate with memory available. Rank 0: an out-of-bounds access. Some dim that is zero, or is
negative as an `int`: refused. Otherwise the copy has the dims modulo `2^32`, without those that become zero, if it has at
most `INT_MAX` elements, and the loop counter overflows if it has more. -/
theorem C25_outcomes {E : Env} (nf : E.NoFail) {m : Mem} {R : Foot} {T : TV} {c : Code} {xs : List Val} (wf : m.WF)
    (h : At m R T) (he : Elems T c xs) (out : Ptr) :
    (T.dims = [] → duplicate R.h out E m = .ub .outOfBounds) ∧
    ((∃ d ∈ T.dims, d = 0 ∨ 2147483648 ≤ d % 4294967296) → Refuses E (duplicate R.h out) m out .invalidArgument) ∧
    (T.dims ≠ [] → (∀ d ∈ T.dims, 0 < d ∧ d % 4294967296 < 2147483648) →
      (prod ((T.dims.map (· % 4294967296)).filter (· ≠ 0)) ≤ 2147483647 →
        ∃ R' m' ys, duplicate R.h out E m = .ok (.success, R'.h) m' ∧
          Produces m m' R' ⟨T.dtype, T.device, (T.dims.map (· % 4294967296)).filter (· ≠ 0), encAll c ys⟩) ∧
      (2147483647 < prod ((T.dims.map (· % 4294967296)).filter (· ≠ 0)) →
        duplicate R.h out E m = .ub .overflow)) := by
  refine ⟨fun h0 => duplicate_rank0 nf wf h h0 out, fun ⟨d, hd, hb⟩ => ?_, fun h0 hd => ?_⟩
  · exact C25_refused nf wf h ⟨d, hd, by rw [toI32_neg_iff]; exact hb⟩ out
  · have hd' : ∀ d ∈ T.dims, 0 < d ∧ 0 ≤ toI32 (d : Int) := fun d hh => by
      have h1 := hd d hh
      have h2 := toI32_neg_iff d
      exact ⟨h1.1, by omega⟩
    rw [← sliceDims_low fun d hh => (hd' d hh).2]
    refine ⟨fun hi => ?_, fun hi => duplicate_too_large' nf wf h he h0 hd' hi out⟩
    rcases duplicate_general (E := E) wf h he h0 hd' hi out with (⟨R', m', e, P⟩ | ⟨_, _, _, _, nf'⟩) | ⟨nf', _⟩
    · exact ⟨R', m', _, e, by rw [he.dtype]; exact P⟩
    · exact absurd nf nf'
    · exact absurd nf nf'

/-- C25, exactly when the claim holds: duplicate delivers a copy if and only if the tensor has rank at least 1, no zero dim
and at most `INT_MAX` elements. -/
theorem C25_exact_partial {E : Env} (nf : E.NoFail) {m : Mem} {R : Foot} {T : TV} {c : Code} {xs : List Val} (wf : m.WF)
    (h : At m R T) (he : Elems T c xs) (out : Ptr) :
    (∃ R' m', duplicate R.h out E m = .ok (.success, R'.h) m' ∧ Produces m m' R' T) ↔
      T.dims ≠ [] ∧ (∀ d ∈ T.dims, 0 < d) ∧ prod T.dims ≤ 2147483647 := by
  obtain ⟨o1, o2, o3⟩ := C25_outcomes nf wf h he out
  constructor
  · rintro ⟨R', m', e, P⟩
    have h0 : T.dims ≠ [] := by
      intro h0; rw [o1 h0] at e; cases e
    have hd : ∀ d ∈ T.dims, 0 < d ∧ d % 4294967296 < 2147483648 := by
      intro d hd
      apply Classical.byContradiction
      intro hn
      obtain ⟨m2, e2, -⟩ := o2 ⟨d, hd, by omega⟩
      rw [e2] at e; simp at e
    obtain ⟨o4, o5⟩ := o3 h0 hd
    refine ⟨h0, fun d h => (hd d h).1, ?_⟩
    rcases Nat.lt_or_ge 2147483647 (prod ((T.dims.map (· % 4294967296)).filter (· ≠ 0))) with hl | hl
    · rw [o5 hl] at e; cases e
    · obtain ⟨R2, m2, ys, e2, P2⟩ := o4 hl
      rw [e] at e2
      simp only [Res.ok.injEq, Prod.mk.injEq, true_and] at e2
      obtain ⟨hR, rfl⟩ := e2
      have d1 := P.tensor.tDimsArr (E := E)
      have d2 := P2.tensor.tDimsArr (E := E)
      rw [← hR, d1] at d2
      simp only [Res.ok.injEq, and_true] at d2
      rw [dimsCells_inj d2]; exact hl
  · rintro ⟨h0, hd, hi⟩
    exact C25_partial nf wf h he h0 hd hi out

example : ¬ ∃ R' m', duplicate Mem.empty.footT.h .indet okEnv (Mem.empty.addT (tvOf .i32 [2, 0] [])) =
    .ok (.success, R'.h) m' ∧ Produces (Mem.empty.addT (tvOf .i32 [2, 0] [])) m' R' (tvOf .i32 [2, 0] []) := by
  rw [C25_exact_partial (E := okEnv) okEnv_noFail (Mem.addT_wf Mem.empty_wf _)
    (tvOf_at (c := .i32) _ (by simp) rfl ⟨by decide, by decide⟩) (tvOf_elems (by simp) rfl) .indet]
  rintro ⟨-, h, -⟩
  exact absurd (h 0 (by simp [tvOf])) (by simp)

end Aitisa
