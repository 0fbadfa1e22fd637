import Verif.Proof.Arith
import Verif.Spec.Example

/-!
# Properties C10-C13, C18, C30, C35, C36, C49: elementwise operators and reshape
-/

namespace Aitisa

/-! ## C10 -/

/-- C10. For every element type, device, shape of at most `INT_MAX` elements, and every `value` whose
conversion is defined: `aitisa_full` delivers a tensor of the requested shape all of whose elements are the
converted value (or reports allocation failure). -/
theorem C10_full {E : Env} {m : Mem} (wf : m.WF) (c : Code) (dev : Device) (ds : List Nat)
    (hs : ShapeOK ds c.size) (hi : prod ds ≤ 2147483647) (value : BitVec 64) (v : Val)
    (hv : Converts E.fp c (.f64 value) v) (out : Ptr) :
    Delivers E (full c.dtype dev (dimsCells ds) ds.length value out) m out c dev ds
      (List.replicate (prod ds) v) where
  creates := full_run wf c dev hs hi value (converts_iff.1 hv) out
  wt := by
    intro y hy
    rw [(List.mem_replicate.1 hy).2]
    exact cCast_WT (converts_iff.1 hv)
  len := by simp

/-- C10. An unrepresentable value is undefined behaviour (never a silent wrap), whatever the shape. -/
theorem C10_unrepresentable {E : Env} {m : Mem} (wf : m.WF) (nf : E.NoFail) (c : Code) (dev : Device)
    (ds : List Nat) (hs : ShapeOK ds c.size) (value : BitVec 64)
    (hv : ¬ ∃ v, Converts E.fp c (.f64 value) v) (out : Ptr) :
    ∃ u, full c.dtype dev (dimsCells ds) ds.length value out E m = .ub u := by
  cases hc : cCast E.fp c (.f64 value) with
  | ok v => exact absurd ⟨v, converts_iff.2 hc⟩ hv
  | error u =>
    refine ⟨u, ?_⟩
    have hcr := create_run (E := E) wf c.dtype dev (ds := ds) hs 0 .indet
    unfold Creates at hcr
    unfold full
    rcases hcr with ⟨R', m1, e, P⟩ | ⟨m1, e, fr, wf1, nf'⟩
    · have htab : tableCode c.dtype = pure c := by unfold tableCode; rw [find_dtype]
      msimp [e, P.tensor.tSize, htab, fullCell_err hc]
    · exact absurd nf nf'

/-- C10, the limit is real: above `INT_MAX` elements the `int` loop counter of `aitisa_full` overflows. -/
theorem C10_int_counter {E : Env} {m : Mem} (wf : m.WF) (nf : E.NoFail) (c : Code) (dev : Device)
    (ds : List Nat) (hs : ShapeOK ds c.size) (hi : 2147483647 < prod ds) (value : BitVec 64) (v : Val)
    (hv : Converts E.fp c (.f64 value) v) (out : Ptr) :
    full c.dtype dev (dimsCells ds) ds.length value out E m = .ub .overflow := by
  have hcr := create_run (E := E) wf c.dtype dev (ds := ds) hs 0 .indet
  obtain ⟨rest, hcell⟩ := fullCell_ok (converts_iff.1 hv)
  unfold Creates at hcr
  unfold full
  rcases hcr with ⟨R', m1, e, P⟩ | ⟨m1, e, fr, wf1, nf'⟩
  · have htab : tableCode c.dtype = pure c := by unfold tableCode; rw [find_dtype]
    have h32 : ¬ ((prod ds : Int) ≤ I32_MAX) := by unfold I32_MAX; omega
    msimp [e, P.tensor.tSize, htab, hcell, forI32, h32]
  · exact absurd nf nf'

example : Delivers okEnv (full Code.i8.dtype ⟨DEVICE_CPU, 0⟩ (dimsCells [2, 2]) 2 (BitVec.ofInt 64 (-7)) .indet)
    Mem.empty .indet .i8 ⟨DEVICE_CPU, 0⟩ [2, 2] (List.replicate 4 (.int (-7))) :=
  C10_full (E := okEnv) Mem.empty_wf .i8 ⟨DEVICE_CPU, 0⟩ [2, 2] ⟨by decide, by decide⟩ (by decide)
    _ _ ⟨-7, rfl, rfl, -128, 127, rfl, by decide, by decide⟩ _

example : ∃ u, full Code.i8.dtype ⟨DEVICE_CPU, 0⟩ (dimsCells [2, 2]) 2 (BitVec.ofInt 64 128) .indet okEnv
    Mem.empty = .ub u :=
  C10_unrepresentable Mem.empty_wf okEnv_noFail .i8 ⟨DEVICE_CPU, 0⟩ [2, 2] ⟨by decide, by decide⟩ _
    (by rw [show (∃ v, Converts okEnv.fp .i8 (.f64 (BitVec.ofInt 64 128)) v) ↔
          ∃ v, cCast okEnv.fp .i8 (.f64 (BitVec.ofInt 64 128)) = .ok v from
          ⟨fun ⟨v, h⟩ => ⟨v, converts_iff.1 h⟩, fun ⟨v, h⟩ => ⟨v, converts_iff.2 h⟩⟩]
        rintro ⟨v, h⟩; cases h) _

/-! ## C11 -/

/-- C11. `aitisa_cast` to a different element type delivers a tensor with the same dims and device whose
element `i` is the C conversion of input element `i`, provided every conversion is defined. -/
theorem C11_cast {E : Env} {m : Mem} {R : Foot} {T : TV} {c c' : Code} {xs : List Val} (wf : m.WF)
    (h : At m R T) (he : Elems T c xs) (hne : c ≠ c') (hs : ShapeOK T.dims c'.size)
    (hd : ∀ x ∈ xs, ∃ y, Converts E.fp c' x y) (out : Ptr) :
    ∃ ys, Delivers E (cast R.h c'.dtype out) m out c' T.device T.dims ys ∧
      Pointwise (Converts E.fp c') xs ys := by
  obtain ⟨ys, hys⟩ := exists_mapM (f := cCast E.fp c') (xs := xs)
    (fun x hx => (hd x hx).imp fun y hy => converts_iff.1 hy)
  refine ⟨ys, ⟨cast_run wf h he hne hs hys out, mapM_mem hys fun x _ y hy => cCast_WT hy, ?_⟩, ?_⟩
  · rw [(mapM_ok hys).1, he.len]
  · exact (pointwise_of_mapM hys).imp fun x _ y hy => converts_iff.2 hy

/-- C11. Conversions other than floating to integer are always defined, so there is nothing to assume. -/
theorem C11_total {fp : FloatOps} {c c' : Code} (hc : c.isInt = true ∨ c'.isInt = false) {x : Val}
    (wt : x.WT c) : ∃ y, Converts fp c' x y := by
  rcases hc with hc | hc
  · cases x with
    | int n =>
      by_cases h : c'.isInt = true
      · refine ⟨.int (c'.wrap n), ?_⟩
        rw [converts_iff]
        cases c' <;> first | rfl | (simp [Code.isInt] at h)
      · cases c' <;> simp [Code.isInt] at h <;> exact ⟨_, rfl⟩
    | f32 b => cases c <;> simp [Val.WT, Code.isInt] at wt hc
    | f64 b => cases c <;> simp [Val.WT, Code.isInt] at wt hc
  · cases c' <;> simp [Code.isInt] at hc <;> exact ⟨_, rfl⟩

/-- C11. If some conversion is undefined the call is undefined. -/
theorem C11_undefined {E : Env} {m : Mem} {R : Foot} {T : TV} {c c' : Code} {xs : List Val} (wf : m.WF)
    (h : At m R T) (he : Elems T c xs) (hne : c ≠ c') (hs : ShapeOK T.dims c'.size) (nf : E.NoFail)
    (hd : ∃ x ∈ xs, ¬ ∃ y, Converts E.fp c' x y) (out : Ptr) :
    ∃ u, cast R.h c'.dtype out E m = .ub u := by
  cases hm : xs.mapM (cCast E.fp c') with
  | error u => exact ⟨u, cast_ub wf h he hne hs nf hm out⟩
  | ok ys =>
    obtain ⟨x, hx, hn⟩ := hd
    obtain ⟨i, hi, rfl⟩ := List.mem_iff_getElem.mp hx
    obtain ⟨hl, hf⟩ := mapM_ok hm
    exact absurd ⟨_, converts_iff.2 (hf i hi (by omega))⟩ hn

example : ∃ ys, Delivers okEnv (cast Mem.empty.footT.h Code.u8.dtype .indet) exMem .indet .u8
      ⟨DEVICE_CPU, 0⟩ [2, 3] ys ∧ Pointwise (Converts toyFp .u8) ([1, -2, 3, -4, 5, -6].map .int) ys :=
  C11_cast (E := okEnv) exMem_wf exA_at exA_elems (by decide) ⟨by decide, by decide⟩
    (fun x hx => C11_total (.inl rfl) (exA_elems.wt x hx)) _

/-- In that case the converted elements are 1, 254, 3, 252, 5, 250. -/
example : Pointwise (Converts toyFp .u8) ([1, -2, 3, -4, 5, -6].map .int)
    ([1, 254, 3, 252, 5, 250].map .int) :=
  (pointwise_of_mapM (f := cCast toyFp .u8) rfl).imp fun _ _ _ h => converts_iff.2 h

/-! ## C12 -/

/-- The full claim: a successful cast delivers a tensor of the requested type. -/
def C12_claim : Prop := ∀ (E : Env) (m m' : Mem) (R : Foot) (T : TV) (c c' : Code) (xs : List Val)
  (out h' : Ptr), m.WF → At m R T → Elems T c xs → ShapeOK T.dims c'.size →
  cast R.h c'.dtype out E m = .ok (.success, h') m' →
  ∃ R' T', h' = R'.h ∧ At m' R' T' ∧ T'.dtype = c'.dtype

/-- For every tensor, casting to its own type reports success and leaves `*output` as it was. -/
theorem C12_same_type {E : Env} {m : Mem} {R : Foot} {T : TV} (h : At m R T) (out : Ptr) (sz : Nat) :
    cast R.h ⟨T.dtype.code, sz⟩ out E m = .ok (.success, out) m := by
  unfold cast; msimp [h.tDtype]

/-- C12 is violated. -/
theorem C12_violated : ¬ C12_claim := by
  intro hc
  obtain ⟨R', T', h, _⟩ := hc okEnv exMem exMem Mem.empty.footT exA .i32 .i32 _ .null .null exMem_wf exA_at
    exA_elems ⟨by decide, by decide⟩ (C12_same_type exA_at _ _)
  cases h

/-- C12 for different types. Missing: the case of equal types, where the claim is false. -/
theorem C12_partial {E : Env} {m m' : Mem} {R : Foot} {T : TV} {c c' : Code} {xs : List Val} {out h' : Ptr}
    (wf : m.WF) (h : At m R T) (he : Elems T c xs) (hne : c ≠ c') (hs : ShapeOK T.dims c'.size)
    (hr : cast R.h c'.dtype out E m = .ok (.success, h') m') :
    ∃ R' T', h' = R'.h ∧ Produces m m' R' T' ∧ T'.dtype = c'.dtype ∧ T'.dims = T.dims := by
  cases hm : xs.mapM (cCast E.fp c') with
  | ok ys =>
    rcases cast_run wf h he hne hs hm out with ⟨R', m1, e, P⟩ | ⟨m1, e, _⟩
    · rw [e] at hr
      simp only [Res.ok.injEq, Prod.mk.injEq, true_and] at hr
      obtain ⟨rfl, rfl⟩ := hr
      exact ⟨R', _, rfl, P, rfl, rfl⟩
    · rw [e] at hr; simp at hr
  | error u =>
    have hcr := create_run (E := E) wf c'.dtype T.device (ds := T.dims) hs 0 .indet
    unfold Creates at hcr
    have hcode : ¬ c.dtype.code = c'.dtype.code := fun hh => hne (code_inj hh)
    rcases hcr with ⟨R', m1, e, P⟩ | ⟨m1, e, fr, wf1, nf'⟩
    · have h1 := h.frame wf P.frame
      have e2 := unary_ub (E := E) wf h he P hm
      unfold cast castTemplate at hr
      msimp [h.tDtype, he.dtype, hcode, h.tDevice, h.tDimsArr, h.tNdim, e, h1.tDtype, h1.tSize, h1.tData,
        P.tensor.tData, find_dtype, e2] at hr
    · unfold cast at hr
      msimp [h.tDtype, he.dtype, hcode, h.tDevice, h.tDimsArr, h.tNdim, e] at hr
      simp at hr

/-- C12, exactly when the claim holds: a call that reports success has delivered a new tensor if and only if the
requested type differs from the type of the input. -/
theorem C12_exact_partial {E : Env} {m m' : Mem} {R : Foot} {T : TV} {c c' : Code} {xs : List Val} {out h' : Ptr}
    (wf : m.WF) (h : At m R T) (he : Elems T c xs) (hs : ShapeOK T.dims c'.size)
    (hr : cast R.h c'.dtype out E m = .ok (.success, h') m') :
    (∃ R' T', h' = R'.h ∧ Produces m m' R' T' ∧ T'.dtype = c'.dtype ∧ T'.dims = T.dims) ↔ c ≠ c' := by
  constructor
  · rintro ⟨R', T', -, P, -⟩ rfl
    have := C12_same_type (E := E) h out c.dtype.size
    rw [he.dtype] at this
    change cast R.h c.dtype out E m = _ at this
    rw [this] at hr
    simp only [Res.ok.injEq, Prod.mk.injEq, true_and] at hr
    obtain ⟨rfl, rfl⟩ := hr
    have hf := P.fresh R'.t (by simp [mem_foot])
    have := P.tensor.lt wf (b := R'.t) (by simp [mem_foot])
    omega
  · intro hne
    exact C12_partial wf h he hne hs hr

/-! ## C13 -/

/-- Every value of integer type `c` is a value of integer type `c'`. -/
def Code.fitsIn (c c' : Code) : Prop :=
  ∃ lo hi lo' hi', intRange c = some (lo, hi) ∧ intRange c' = some (lo', hi') ∧ lo' ≤ lo ∧ hi ≤ hi'

/-- C13. Casting to a type that contains all values, and back, restores the tensor (dtype, device, dims and
every byte). -/
theorem C13_round_trip {E : Env} {m m1 m2 : Mem} {R : Foot} {T : TV} {c c' : Code} {xs : List Val}
    {out out' h1 h2 : Ptr} (wf : m.WF) (h : At m R T) (he : Elems T c xs) (hne : c ≠ c') (hf : c.fitsIn c')
    (hs : ShapeOK T.dims c'.size)
    (r1 : cast R.h c'.dtype out E m = .ok (.success, h1) m1)
    (r2 : cast h1 c.dtype out' E m1 = .ok (.success, h2) m2) :
    ∃ R2, h2 = R2.h ∧ Produces m1 m2 R2 T := by
  obtain ⟨lo, hi, lo', hi', hr, hr', hlo, hhi⟩ := hf
  have hint : c.isInt = true := by cases c <;> simp [intRange] at hr <;> rfl
  have hint' : c'.isInt = true := by cases c' <;> simp [intRange] at hr' <;> rfl
  have hfix : ∀ x ∈ xs, cCast E.fp c' x = .ok x ∧ cCast E.fp c x = .ok x := by
    intro x hx
    have wt := he.wt x hx
    cases x with
    | f32 b => cases c <;> simp [Val.WT, Code.isInt] at wt hint
    | f64 b => cases c <;> simp [Val.WT, Code.isInt] at wt hint
    | int n =>
      obtain ⟨lo1, hi1, hr1, h1, h2⟩ := WT_range.1 wt
      rw [hr] at hr1; cases hr1
      rw [← converts_iff, ← converts_iff]
      have hd : ∀ c : Code, (∃ lo hi, intRange c = some (lo, hi) ∧ lo ≤ n ∧ n ≤ hi) →
          Converts E.fp c (.int n) (.int n) := by
        rintro c ⟨lo, hi, hr, h1, h2⟩
        cases c <;> first
          | (simp [intRange] at hr; done)
          | exact ⟨n, rfl, _, _, hr, h1, h2, 0, by simp⟩
      exact ⟨hd c' ⟨_, _, hr', by omega, by omega⟩, hd c ⟨_, _, hr, h1, h2⟩⟩
  have e1 : xs.mapM (cCast E.fp c') = .ok xs :=
    mapM_of_pointwise ⟨rfl, fun i h1 _ => (hfix _ (List.getElem_mem h1)).1⟩
  have e2 : xs.mapM (cCast E.fp c) = .ok xs :=
    mapM_of_pointwise ⟨rfl, fun i h1 _ => (hfix _ (List.getElem_mem h1)).2⟩
  rcases cast_run wf h he hne hs e1 out with ⟨R1, m1', e, P⟩ | ⟨m1', e, _⟩
  · rw [e] at r1
    simp only [Res.ok.injEq, Prod.mk.injEq, true_and] at r1
    obtain ⟨rfl, rfl⟩ := r1
    have he1 : Elems ⟨c'.dtype, T.device, T.dims, encAll c' xs⟩ c' xs :=
      ⟨rfl, rfl, mapM_mem e1 fun x _ y hy => cCast_WT hy, he.len⟩
    have hs1 := h.shape
    rw [he.dtype] at hs1
    rcases cast_run P.ext.wf P.tensor he1 (Ne.symm hne) hs1 e2 out' with ⟨R2, m2', e', P'⟩ | ⟨m2', e', _⟩
    · rw [e'] at r2
      simp only [Res.ok.injEq, Prod.mk.injEq, true_and] at r2
      obtain ⟨rfl, rfl⟩ := r2
      refine ⟨R2, rfl, ?_⟩
      have : (⟨c.dtype, T.device, T.dims, encAll c xs⟩ : TV) = T := by
        rw [← he.bytes, ← he.dtype]
      rw [← this]; exact P'
    · rw [e'] at r2; simp at r2
  · rw [e] at r1; simp at r1

example : Code.u8.fitsIn .i16 ∧ Code.i32.fitsIn .i64 ∧ ¬ Code.i8.fitsIn .u64 := by
  refine ⟨⟨_, _, _, _, rfl, rfl, by decide, by decide⟩, ⟨_, _, _, _, rfl, rfl, by decide, by decide⟩, ?_⟩
  rintro ⟨lo, hi, lo', hi', h1, h2, h3, _⟩
  simp only [intRange, Option.some.injEq, Prod.mk.injEq] at h1 h2
  omega

/-- Concrete case: both calls of the round trip succeed on the example tensor. -/
example : ∃ h1 m1 h2 m2, cast Mem.empty.footT.h Code.i64.dtype .null okEnv exMem = .ok (.success, h1) m1 ∧
    cast h1 Code.i32.dtype .null okEnv m1 = .ok (.success, h2) m2 := by
  obtain ⟨ys, ⟨D, wt, len⟩, pw⟩ := C11_cast (E := okEnv) (c' := .i64) exMem_wf exA_at exA_elems (by decide)
    ⟨by decide, by decide⟩ (fun x hx => C11_total (.inl rfl) (exA_elems.wt x hx)) .null
  have hs : ShapeOK exA.dims Code.i32.size := ⟨by decide, by decide⟩
  rcases D with ⟨R1, m1, e, P⟩ | ⟨_, _, _, _, nf⟩
  · obtain ⟨zs, ⟨D', _, _⟩, _⟩ := C11_cast (E := okEnv) (c' := .i32) P.ext.wf P.tensor ⟨rfl, rfl, wt, len⟩ (by decide)
      hs (fun x hx => C11_total (.inl rfl) (wt x hx)) .null
    rcases D' with ⟨R2, m2, e', P'⟩ | ⟨_, _, _, _, nf⟩
    · exact ⟨_, _, _, _, e, e'⟩
    · exact absurd okEnv_noFail nf
  · exact absurd okEnv_noFail nf

/-! ## C18 -/

/-- C18. `aitisa_reshape` to a shape of the same size: same dtype, device and bytes, new dims. -/
theorem C18_reshape {E : Env} {m : Mem} {R : Foot} {T : TV} (wf : m.WF) (h : At m R T) (ds : List Nat)
    (hs : ShapeOK ds T.dtype.size) (hp : prod ds = prod T.dims) (out : Ptr) :
    Creates E (reshape R.h (dimsCells ds) ds.length out) m out ⟨T.dtype, T.device, ds, T.bytes⟩ :=
  reshape_run wf h hs hp out

/-- C18. Any other size is refused: `STATUS_DIMENSIONS_MISMATCH`, memory and `*output` unchanged. -/
theorem C18_mismatch {E : Env} {m : Mem} {R : Foot} {T : TV} (h : At m R T) (ds : List Nat)
    (hs : ShapeOK ds T.dtype.size) (hp : prod ds ≠ prod T.dims) (out : Ptr) :
    reshape R.h (dimsCells ds) ds.length out E m = .ok (.dimensionsMismatch, out) m :=
  reshape_mismatch h hs hp out

/-- C18. Reshaping twice is reshaping once to the last shape: if the first call and the second succeed, the
tensor at the end is the one a direct reshape produces. -/
theorem C18_twice {E : Env} {m m1 m2 : Mem} {R : Foot} {T : TV} (wf : m.WF) (h : At m R T) (ds ds' : List Nat)
    (hs : ShapeOK ds T.dtype.size) (hs' : ShapeOK ds' T.dtype.size) {out out' h1 h2 : Ptr}
    (r1 : reshape R.h (dimsCells ds) ds.length out E m = .ok (.success, h1) m1)
    (r2 : reshape h1 (dimsCells ds') ds'.length out' E m1 = .ok (.success, h2) m2) :
    (∃ R2, h2 = R2.h ∧ At m2 R2 ⟨T.dtype, T.device, ds', T.bytes⟩) ∧
    ∀ out'', Creates E (reshape R.h (dimsCells ds') ds'.length out'') m out'' ⟨T.dtype, T.device, ds', T.bytes⟩ := by
  by_cases hp : prod ds = prod T.dims
  · rcases reshape_run (E := E) wf h hs hp out with ⟨R1, m1', e, P⟩ | ⟨m1', e, _⟩
    · rw [e] at r1
      simp only [Res.ok.injEq, Prod.mk.injEq, true_and] at r1
      obtain ⟨rfl, rfl⟩ := r1
      by_cases hp' : prod ds' = prod ds
      · rcases reshape_run (E := E) P.ext.wf P.tensor (ds := ds') hs' hp' out' with ⟨R2, m2', e', P'⟩ | ⟨m2', e', _⟩
        · rw [e'] at r2
          simp only [Res.ok.injEq, Prod.mk.injEq, true_and] at r2
          obtain ⟨rfl, rfl⟩ := r2
          exact ⟨⟨R2, rfl, P'.tensor⟩, fun o => reshape_run wf h hs' (hp'.trans hp) o⟩
        · rw [e'] at r2; simp at r2
      · rw [reshape_mismatch (E := E) P.tensor (ds := ds') hs' hp' out'] at r2; simp at r2
    · rw [e] at r1; simp at r1
  · rw [reshape_mismatch (E := E) h hs hp out] at r1; simp at r1

example : Creates okEnv (reshape Mem.empty.footT.h (dimsCells [3, 1, 2]) 3 .indet) exMem .indet
    ⟨Code.i32.dtype, ⟨DEVICE_CPU, 0⟩, [3, 1, 2], encAll .i32 ([1, -2, 3, -4, 5, -6].map .int)⟩ :=
  C18_reshape (E := okEnv) exMem_wf exA_at [3, 1, 2] ⟨by decide, by decide⟩ rfl .indet

example : reshape Mem.empty.footT.h (dimsCells [3, 3]) 2 .indet okEnv exMem =
    .ok (.dimensionsMismatch, .indet) exMem :=
  C18_mismatch (E := okEnv) exA_at [3, 3] ⟨by decide, by decide⟩ (by decide) .indet

/-! ## C30 -/

theorem isNeg_iff {fp : FloatOps} {x : Val} : isNeg fp x = true ↔ Negative fp x := by
  cases x <;> simp [isNeg, Negative]

theorem rootOf_iff {fp : FloatOps} {c : Code} {x y : Val} : RootOf fp c x y ↔ sqrtF fp c x = .ok y := by
  unfold RootOf sqrtF
  rw [← converts_iff]
  cases x <;> simp [Converts, toDouble]

/-- C30. No element negative (and the roots representable): success, element `i` is
`(dtype) sqrt((double) x_i)`. -/
theorem C30_sqrt {E : Env} {m : Mem} {R : Foot} {T : TV} {c : Code} {xs : List Val} (wf : m.WF)
    (h : At m R T) (he : Elems T c xs) (hpos : ∀ x ∈ xs, ¬ Negative E.fp x)
    (hd : ∀ x ∈ xs, ∃ y, RootOf E.fp c x y) (out : Ptr) :
    ∃ ys, Delivers E (sqrt R.h out) m out c T.device T.dims ys ∧ Pointwise (RootOf E.fp c) xs ys := by
  obtain ⟨ys, hys⟩ := exists_mapM (f := sqrtF E.fp c) (xs := xs)
    (fun x hx => (hd x hx).imp fun y hy => rootOf_iff.1 hy)
  refine ⟨ys, ⟨?_, mapM_mem hys fun x _ y hy => cCast_WT hy, by rw [(mapM_ok hys).1, he.len]⟩, ?_⟩
  · have := sqrt_run wf h he (fun x hx => by
      have := hpos x hx; rw [← isNeg_iff] at this; simpa using this) hys out
    rw [he.dtype] at this; exact this
  · exact (pointwise_of_mapM hys).imp fun x _ y hy => rootOf_iff.2 hy

/-- C30. Some element negative (and the roots before the first negative one representable):
`STATUS_MATH_ERROR`. `*output` is nevertheless set to a new tensor of the same shape, existing memory is
unchanged. -/
theorem C30_negative {E : Env} {m : Mem} {R : Foot} {T : TV} {c : Code} {xs : List Val} (wf : m.WF)
    (h : At m R T) (he : Elems T c xs) (hneg : ∃ x ∈ xs, Negative E.fp x)
    (hd : ∀ x ∈ xs, ¬ Negative E.fp x → ∃ y, RootOf E.fp c x y) (out : Ptr) :
    (∃ R' m' T', sqrt R.h out E m = .ok (.mathError, R'.h) m' ∧ Produces m m' R' T' ∧
      T'.dims = T.dims ∧ T'.dtype = T.dtype) ∨
    (∃ m', sqrt R.h out E m = .ok (.allocFailed, out) m' ∧ Frame m m' ∧ m'.WF ∧ ¬ E.NoFail) := by
  -- the first negative element
  have hfirst : ∀ n, (∃ i, ∃ hi : i < xs.length, i < n ∧ isNeg E.fp xs[i] = true) →
      ∃ j, ∃ hj : j < xs.length, isNeg E.fp xs[j] = true ∧
        ∀ i (hi : i < j), isNeg E.fp (xs[i]'(Nat.lt_trans hi hj)) = false := by
    intro n
    induction n with
    | zero => rintro ⟨i, _, h, _⟩; omega
    | succ n ih =>
      rintro ⟨i, hi, hin, hneg⟩
      by_cases hex : ∃ i, ∃ hi : i < xs.length, i < n ∧ isNeg E.fp xs[i] = true
      · exact ih hex
      · refine ⟨i, hi, hneg, fun k hk => ?_⟩
        cases hb : isNeg E.fp (xs[k]'(Nat.lt_trans hk hi)) with
        | false => rfl
        | true => exact absurd ⟨k, Nat.lt_trans hk hi, by omega, hb⟩ hex
  obtain ⟨x, hx, hxn⟩ := hneg
  obtain ⟨i, hi, rfl⟩ := List.mem_iff_getElem.mp hx
  obtain ⟨j, hj, hjn, hjf⟩ := hfirst (i + 1) ⟨i, hi, by omega, isNeg_iff.2 hxn⟩
  refine sqrt_neg wf h he hj hjn (fun k hk => ⟨hjf k hk, ?_⟩) out
  obtain ⟨y, hy⟩ := hd _ (List.getElem_mem (Nat.lt_trans hk hj)) (by
    rw [← isNeg_iff, hjf k hk]; simp)
  exact ⟨y, rootOf_iff.1 hy⟩

/-- Concrete cases. -/
def exP : TV := tvOf .u8 [4] ([0, 1, 9, 200].map .int)

theorem exP_at : At (Mem.empty.addT exP) Mem.empty.footT exP := tvOf_at _ (by simp) rfl ⟨by decide, by decide⟩

example : ∃ ys, Delivers okEnv (sqrt Mem.empty.footT.h .indet) (Mem.empty.addT exP) .indet .u8
    ⟨DEVICE_CPU, 0⟩ [4] ys ∧ Pointwise (RootOf toyFp .u8) ([0, 1, 9, 200].map .int) ys :=
  C30_sqrt (E := okEnv) (Mem.addT_wf Mem.empty_wf _) exP_at (tvOf_elems (by decide) rfl)
    (by
      have : ∀ x ∈ ([0, 1, 9, 200].map Val.int), isNeg okEnv.fp x = false := by decide
      intro x hx; rw [← isNeg_iff, this x hx]; simp)
    (by
      intro x hx
      simp only [List.map_cons, List.map_nil, List.mem_cons, List.not_mem_nil, or_false] at hx
      rcases hx with rfl | rfl | rfl | rfl <;> exact ⟨_, rootOf_iff.2 rfl⟩) _

example : ∃ h m', sqrt Mem.empty.footT.h .indet okEnv exMem = .ok (.mathError, h) m' := by
  rcases C30_negative (E := okEnv) (xs := [1, -2, 3, -4, 5, -6].map .int) exMem_wf exA_at exA_elems
    ⟨.int (-2), by simp, by simp [Negative]⟩ (by
      intro x hx hn
      simp only [List.map_cons, List.map_nil, List.mem_cons, List.not_mem_nil, or_false] at hx
      rcases hx with rfl | rfl | rfl | rfl | rfl | rfl <;>
        first | exact ⟨_, rootOf_iff.2 rfl⟩ | (simp [Negative] at hn; done)) .indet with
    ⟨R', m', T', e, _⟩ | ⟨_, _, _, _, nf⟩
  · exact ⟨_, _, e⟩
  · exact absurd okEnv_noFail nf

/-! ## C35 -/

theorem clamped_iff {fp : FloatOps} {c : Code} {x y : Val} (wt : x.WT c) :
    ClampedAtZero fp x y ↔ reluF fp c x = .ok y := by
  unfold reluF
  cases x with
  | int n =>
    have hz : zeroOf fp c = .int 0 := by cases c <;> simp [Val.WT] at wt <;> rfl
    simp only [ClampedAtZero, isPos, hz, Except.ok.injEq]
    by_cases h : n > 0
    · simp [h, show max n 0 = n by omega, eq_comm]
    · simp [h, show max n 0 = 0 by omega, eq_comm]
  | f32 b =>
    have hz : zeroOf fp c = .f32 (fp.ofInt32 0) := by cases c <;> simp [Val.WT] at wt <;> rfl
    simp only [ClampedAtZero, isPos, hz, Except.ok.injEq]
    cases h : fp.lt32 (fp.ofInt32 0) b <;> simp [eq_comm]
  | f64 b =>
    have hz : zeroOf fp c = .f64 (fp.ofInt64 0) := by cases c <;> simp [Val.WT] at wt <;> rfl
    simp only [ClampedAtZero, isPos, hz, Except.ok.injEq]
    cases h : fp.lt64 (fp.ofInt64 0) b <;> simp [eq_comm]

/-- The list of clamped elements. -/
theorem relu_elems {fp : FloatOps} {c : Code} {xs : List Val} (wt : ∀ x ∈ xs, x.WT c) :
    ∃ ys, xs.mapM (reluF fp c) = .ok ys ∧ (∀ y ∈ ys, y.WT c) ∧ Pointwise (ClampedAtZero fp) xs ys ∧
      ys.mapM (reluF fp c) = .ok ys := by
  have hys := mapM_total (f := reluF fp c) (g := fun v => if isPos fp v then v else zeroOf fp c)
    (fun _ => rfl) xs
  refine ⟨_, hys, ?_, (pointwise_of_mapM hys).imp fun x hx y hy => (clamped_iff (wt x hx)).2 hy, ?_⟩
  · refine mapM_mem hys fun x hx y hy => ?_
    unfold reluF at hy; cases hy
    split
    · exact wt x hx
    · exact zeroOf_WT fp c
  · refine mapM_of_pointwise ⟨rfl, fun i h1 _ => ?_⟩
    simp only [List.getElem_map]
    unfold reluF
    split
    · simp
    · simp

/-- C35. Every element is clamped at zero; shape, dtype and device are kept. -/
theorem C35_relu {E : Env} {m : Mem} {R : Foot} {T : TV} {c : Code} {xs : List Val} (wf : m.WF)
    (h : At m R T) (he : Elems T c xs) (out : Ptr) :
    ∃ ys, Delivers E (relu R.h out) m out c T.device T.dims ys ∧ Pointwise (ClampedAtZero E.fp) xs ys := by
  obtain ⟨ys, hys, wt, pw, _⟩ := relu_elems (fp := E.fp) he.wt
  refine ⟨ys, ⟨?_, wt, by rw [(mapM_ok hys).1, he.len]⟩, pw⟩
  have := relu_run wf h he hys out
  rw [he.dtype] at this; exact this

/-- C35. relu is idempotent: applying it to its own result gives a tensor with the same value. -/
theorem C35_idempotent {E : Env} {m m1 m2 : Mem} {R : Foot} {T : TV} {c : Code} {xs : List Val} (wf : m.WF)
    (h : At m R T) (he : Elems T c xs) {out out' h1 h2 : Ptr}
    (r1 : relu R.h out E m = .ok (.success, h1) m1) (r2 : relu h1 out' E m1 = .ok (.success, h2) m2) :
    ∃ R1 R2 T', h1 = R1.h ∧ h2 = R2.h ∧ At m2 R1 T' ∧ At m2 R2 T' ∧ ∀ b ∈ R1.list, b ∉ R2.list := by
  obtain ⟨ys, hys, wt, pw, hid⟩ := relu_elems (fp := E.fp) he.wt
  rcases relu_run wf h he hys out with ⟨R1, m1', e, P⟩ | ⟨m1', e, _⟩
  · rw [e] at r1
    simp only [Res.ok.injEq, Prod.mk.injEq, true_and] at r1
    obtain ⟨rfl, rfl⟩ := r1
    have he1 : Elems { T with bytes := encAll c ys } c ys :=
      ⟨he.dtype, rfl, wt, by rw [(mapM_ok hys).1, he.len]⟩
    rcases relu_run P.ext.wf P.tensor he1 hid out' with ⟨R2, m2', e', P'⟩ | ⟨m2', e', _⟩
    · rw [e'] at r2
      simp only [Res.ok.injEq, Prod.mk.injEq, true_and] at r2
      obtain ⟨rfl, rfl⟩ := r2
      exact ⟨R1, R2, _, rfl, rfl, P.tensor.frame P.ext.wf P'.frame, P'.tensor,
        fun b hb hb' => P'.disjoint P.ext.wf P.tensor hb' hb⟩
    · rw [e'] at r2; simp at r2
  · rw [e] at r1; simp at r1

example : ∃ ys, Delivers okEnv (relu Mem.empty.footT.h .indet) exMem .indet .i32 ⟨DEVICE_CPU, 0⟩ [2, 3] ys ∧
    Pointwise (ClampedAtZero toyFp) ([1, -2, 3, -4, 5, -6].map .int) ys :=
  C35_relu (E := okEnv) exMem_wf exA_at exA_elems _

/-! ## C36 -/

theorem sigmoidOf_iff {fp : FloatOps} {c : Code} {x y : Val} (hc : c = .f32 ∨ c = .f64) (wt : x.WT c) :
    SigmoidOf fp x y ↔ sigmoidF fp c x = .ok y := by
  rcases hc with rfl | rfl <;> cases x <;> simp only [Val.WT] at wt <;>
    simp only [SigmoidOf, sigmoidF, cCast, expNeg, Except.ok.injEq] <;> exact eq_comm

theorem tanhOf_iff {fp : FloatOps} {c : Code} {x y : Val} (hc : c = .f32 ∨ c = .f64) (wt : x.WT c) :
    TanhOf fp x y ↔ tanhF fp c x = .ok y := by
  rcases hc with rfl | rfl <;> cases x <;> simp only [Val.WT] at wt <;>
    simp only [TanhOf, tanhF, cCast, expNeg, expOf, toDouble, Except.ok.injEq] <;> exact eq_comm

theorem float_defined {f : Code → Val → Except UB Val} {c : Code} {xs : List Val} (hc : c = .f32 ∨ c = .f64)
    (h : ∀ x, ∃ y, f .f32 x = .ok y) (h' : ∀ x, ∃ y, f .f64 x = .ok y) : ∃ ys, xs.mapM (f c) = .ok ys := by
  rcases hc with rfl | rfl
  · exact exists_mapM fun x _ => h x
  · exact exists_mapM fun x _ => h' x

/-- C36, sigmoid on `float` and `double` tensors. -/
theorem C36_sigmoid {E : Env} {m : Mem} {R : Foot} {T : TV} {c : Code} {xs : List Val} (wf : m.WF)
    (hc : c = .f32 ∨ c = .f64) (h : At m R T) (he : Elems T c xs) (out : Ptr) :
    ∃ ys, Delivers E (sigmoid R.h out) m out c T.device T.dims ys ∧ Pointwise (SigmoidOf E.fp) xs ys := by
  obtain ⟨ys, hys⟩ := float_defined (f := sigmoidF E.fp) (xs := xs) hc
    (fun x => ⟨_, rfl⟩) (fun x => ⟨_, rfl⟩)
  refine ⟨ys, ⟨?_, mapM_mem hys fun x _ y hy => cCast_WT hy, by rw [(mapM_ok hys).1, he.len]⟩,
    (pointwise_of_mapM hys).imp fun x hx y hy => (sigmoidOf_iff hc (he.wt x hx)).2 hy⟩
  have := sigmoid_run wf hc h he hys out
  rw [he.dtype] at this; exact this

/-- C36, tanh on `float` and `double` tensors. -/
theorem C36_tanh {E : Env} {m : Mem} {R : Foot} {T : TV} {c : Code} {xs : List Val} (wf : m.WF)
    (hc : c = .f32 ∨ c = .f64) (h : At m R T) (he : Elems T c xs) (out : Ptr) :
    ∃ ys, Delivers E (tanh R.h out) m out c T.device T.dims ys ∧ Pointwise (TanhOf E.fp) xs ys := by
  obtain ⟨ys, hys⟩ := float_defined (f := tanhF E.fp) (xs := xs) hc
    (fun x => ⟨_, rfl⟩) (fun x => ⟨_, rfl⟩)
  refine ⟨ys, ⟨?_, mapM_mem hys fun x _ y hy => cCast_WT hy, by rw [(mapM_ok hys).1, he.len]⟩,
    (pointwise_of_mapM hys).imp fun x hx y hy => (tanhOf_iff hc (he.wt x hx)).2 hy⟩
  have := tanh_run wf hc h he hys out
  rw [he.dtype] at this; exact this

/-- The call returns `st`, but `*output` has been set to a new uninitialised tensor shaped like the input
(unless already that allocation failed). Existing memory is unchanged. -/
def RefusesWithOutput (E : Env) (x : M (Status × Ptr)) (m : Mem) (out : Ptr) (st : Status) (T : TV) : Prop :=
  (∃ R' m', x E m = .ok (st, R'.h) m' ∧ Produces m m' R'
    ⟨T.dtype, T.device, T.dims, List.replicate (prod T.dims * T.dtype.size) none⟩) ∨
  (∃ m', x E m = .ok (.allocFailed, out) m' ∧ Frame m m' ∧ m'.WF ∧ ¬ E.NoFail)

theorem refuse_like {E : Env} {m : Mem} {R : Foot} {T : TV} (wf : m.WF) (h : At m R T) (out : Ptr)
    (x : M (Status × Ptr)) {st : Status}
    (hx : ∀ (R' : Foot) m1, createLike R.h out E m = .ok (.success, R'.h) m1 → At m1 R T → x E m = .ok (st, R'.h) m1)
    (hf : ∀ m1, createLike R.h out E m = .ok (.allocFailed, out) m1 → x E m = .ok (.allocFailed, out) m1) :
    RefusesWithOutput E x m out st T := by
  rcases createLike_run (E := E) wf h out with ⟨R', m1, e, P⟩ | ⟨m1, e, fr, wf1, nf⟩
  · exact .inl ⟨R', m1, hx R' m1 e (h.frame wf P.frame), P⟩
  · exact .inr ⟨m1, hf m1 e, fr, wf1, nf⟩

/-- C36, refusal: for every dtype other than `float` and `double` (integer types and unknown codes), sigmoid
returns `STATUS_NOT_SUPPORTED`. -/
theorem C36_sigmoid_refuses {E : Env} {m : Mem} {R : Foot} {T : TV} (wf : m.WF) (h : At m R T)
    (hc : T.dtype.code ≠ 8 ∧ T.dtype.code ≠ 9) (out : Ptr) :
    RefusesWithOutput E (sigmoid R.h out) m out .notSupported T := by
  have hf : Code.findFloat T.dtype.code = none := by
    refine findFloat_none fun c hf => ⟨?_, ?_⟩ <;> rintro rfl <;>
      unfold Code.find at hf <;> split at hf <;> simp_all
  refine refuse_like wf h out _ (fun R' m1 e h1 => ?_) (fun m1 e => ?_)
  · unfold sigmoid; msimp [e, h1.tDtype, h1.tSize, hf]
  · unfold sigmoid; msimp [e]

/-- C36, refusal for tanh. -/
theorem C36_tanh_refuses {E : Env} {m : Mem} {R : Foot} {T : TV} (wf : m.WF) (h : At m R T)
    (hc : T.dtype.code ≠ 8 ∧ T.dtype.code ≠ 9) (out : Ptr) :
    RefusesWithOutput E (tanh R.h out) m out .notSupported T := by
  have hf : Code.findFloat T.dtype.code = none := by
    refine findFloat_none fun c hf => ⟨?_, ?_⟩ <;> rintro rfl <;>
      unfold Code.find at hf <;> split at hf <;> simp_all
  refine refuse_like wf h out _ (fun R' m1 e h1 => ?_) (fun m1 e => ?_)
  · unfold tanh; msimp [e, h1.tDtype, h1.tSize, hf]
  · unfold tanh; msimp [e]

/-- A 2-element `float` tensor. -/
def exF : TV := tvOf .f32 [2] [.f32 5, .f32 (-3)]

theorem exF_at : At (Mem.empty.addT exF) Mem.empty.footT exF := tvOf_at _ (by simp) rfl ⟨by decide, by decide⟩

example : ∃ ys, Delivers okEnv (sigmoid Mem.empty.footT.h .indet) (Mem.empty.addT exF) .indet .f32
    ⟨DEVICE_CPU, 0⟩ [2] ys ∧ Pointwise (SigmoidOf toyFp) [.f32 5, .f32 (-3)] ys :=
  C36_sigmoid (E := okEnv) (Mem.addT_wf Mem.empty_wf _) (.inl rfl) exF_at (tvOf_elems (by decide) rfl) _

example : RefusesWithOutput okEnv (tanh Mem.empty.footT.h .null) exMem .null .notSupported exA :=
  C36_tanh_refuses exMem_wf exA_at (by decide) _

/-! ## C49 -/

theorem find_none {n : Nat} (h : 10 ≤ n) : Code.find n = none := by
  unfold Code.find; split <;> first | rfl | omega

/-- C49 for relu. -/
theorem C49_relu {E : Env} {m : Mem} {R : Foot} {T : TV} (wf : m.WF) (h : At m R T)
    (hc : 10 ≤ T.dtype.code) (out : Ptr) : RefusesWithOutput E (relu R.h out) m out .notSupported T := by
  refine refuse_like wf h out _ (fun R' m1 e h1 => ?_) (fun m1 e => ?_)
  · unfold relu; msimp [e, h1.tDtype, h1.tSize, find_none hc]
  · unfold relu; msimp [e]

/-- C49 for sigmoid. -/
theorem C49_sigmoid {E : Env} {m : Mem} {R : Foot} {T : TV} (wf : m.WF) (h : At m R T)
    (hc : 10 ≤ T.dtype.code) (out : Ptr) : RefusesWithOutput E (sigmoid R.h out) m out .notSupported T :=
  C36_sigmoid_refuses wf h (by omega) out

/-- C49 for tanh. -/
theorem C49_tanh {E : Env} {m : Mem} {R : Foot} {T : TV} (wf : m.WF) (h : At m R T)
    (hc : 10 ≤ T.dtype.code) (out : Ptr) : RefusesWithOutput E (tanh R.h out) m out .notSupported T :=
  C36_tanh_refuses wf h (by omega) out

/-- C49 for sqrt. -/
theorem C49_sqrt {E : Env} {m : Mem} {R : Foot} {T : TV} (wf : m.WF) (h : At m R T)
    (hc : 10 ≤ T.dtype.code) (out : Ptr) : RefusesWithOutput E (sqrt R.h out) m out .notSupported T := by
  refine refuse_like wf h out _ (fun R' m1 e h1 => ?_) (fun m1 e => ?_)
  · unfold sqrt; msimp [e, h1.tDtype, h1.tSize, find_none hc]
  · unfold sqrt; msimp [e]

/-- C49 for cast, unknown code on either side. `*output` is again a new uninitialised tensor, of the
requested dtype. -/
theorem C49_cast {E : Env} {m : Mem} {R : Foot} {T : TV} (wf : m.WF) (h : At m R T) (dt : DType)
    (hs : ShapeOK T.dims dt.size) (hne : T.dtype.code ≠ dt.code) (hc : 10 ≤ T.dtype.code ∨ 10 ≤ dt.code)
    (out : Ptr) :
    (∃ R' m', cast R.h dt out E m = .ok (.notSupported, R'.h) m' ∧ Produces m m' R'
      ⟨dt, T.device, T.dims, List.replicate (prod T.dims * dt.size) none⟩) ∨
    (∃ m', cast R.h dt out E m = .ok (.allocFailed, out) m' ∧ Frame m m' ∧ m'.WF ∧ ¬ E.NoFail) := by
  rcases create_run (E := E) wf dt T.device (ds := T.dims) hs 0 .indet with
    ⟨R', m1, e, P⟩ | ⟨m1, e, fr, wf1, nf'⟩
  · left
    have h1 := h.frame wf P.frame
    refine ⟨R', m1, ?_, P⟩
    unfold cast castTemplate
    rcases hc with hc | hc
    · msimp [h.tDtype, hne, h.tDevice, h.tDimsArr, h.tNdim, e, h1.tDtype, h1.tSize, h1.tData,
        P.tensor.tData, find_none hc]
    · cases hf : Code.find T.dtype.code <;>
      msimp [h.tDtype, hne, h.tDevice, h.tDimsArr, h.tNdim, e, h1.tDtype, h1.tSize, h1.tData,
        P.tensor.tData, find_none hc, hf]
  · right
    refine ⟨m1, ?_, fr, wf1, nf'⟩
    unfold cast
    msimp [h.tDtype, hne, h.tDevice, h.tDimsArr, h.tNdim, e]

/-- A tensor with an unknown dtype code. -/
def exU : TV := ⟨⟨10, 1⟩, ⟨DEVICE_CPU, 0⟩, [2], [some 1, some 2]⟩

theorem exU_at : At (Mem.empty.addT exU) Mem.empty.footT exU := addT_at _ _ (by decide) rfl ⟨by decide, by decide⟩

example : RefusesWithOutput okEnv (relu Mem.empty.footT.h .null) (Mem.empty.addT exU) .null .notSupported exU :=
  C49_relu (Mem.addT_wf Mem.empty_wf _) exU_at (by decide) _

end Aitisa
