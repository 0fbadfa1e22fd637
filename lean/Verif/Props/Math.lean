import Verif.Proof.Binary
import Verif.Spec.Example

/-!
# Properties C26-C29: binary operators
-/

namespace Aitisa

/-! ## C26 -/

/-- C26. For two CPU tensors of the same element type and dims with at most `INT_MAX` elements, whose element operations
are all defined in C (`zs` being the results), the operator delivers a tensor of the same element type and dims on the
first tensor's device with elements `zs`. -/
theorem C26_binary {E : Env} {m : Mem} {R1 R2 : Foot} {T1 T2 : TV} {c : Code} {op : BinOp} {xs ys zs : List Val} (wf : m.WF)
    (h1 : At m R1 T1) (he1 : Elems T1 c xs) (h2 : At m R2 T2) (he2 : Elems T2 c ys)
    (hd1 : T1.device.type = 0) (hd2 : T2.device.type = 0) (hd : T2.dims = T1.dims) (hi : prod T1.dims ≤ 2147483647)
    (hzl : zs.length = xs.length)
    (hz : ∀ i (_ : i < xs.length) (_ : i < ys.length) (_ : i < zs.length), OpResult E.fp c op xs[i] ys[i] zs[i])
    (out : Ptr) : DeliversMalloc E (binaryOp op R1.h R2.h out) m out c T1.device T1.dims zs := by
  have hN := he1.len
  have hN2 := he2.len
  rw [hd] at hN2
  have hz' : ∀ i (_ : i < xs.length) (_ : i < ys.length) (_ : i < zs.length), cBin E.fp c op xs[i] ys[i] = .ok zs[i] :=
    fun i a b d => (opResult_iff (he1.wt _ (List.getElem_mem a)) (he2.wt _ (List.getElem_mem b))).1 (hz i a b d)
  rcases binaryOp_run wf h1 he1 h2 he2 hd1 hd2 hd hi hz' hzl out with h | h
  · refine .inl ⟨h, ?_, by omega⟩
    intro z hzm
    obtain ⟨i, hi, rfl⟩ := List.getElem_of_mem hzm
    have hix : i < xs.length := by omega
    have hiy : i < ys.length := by omega
    exact cBin_WT (he1.wt _ (List.getElem_mem hix)) (he2.wt _ (List.getElem_mem hiy)) (hz' i hix hiy hi)
  · exact .inr h

/-- C26, the limit is real: above `INT_MAX` elements the `int` loop counter overflows. -/
theorem C26_int_counter {E : Env} {m : Mem} {R1 R2 : Foot} {T1 T2 : TV} {op : BinOp} (nf : E.NoFail) (mf : E.MallocOK) (wf : m.WF)
    (h1 : At m R1 T1) (h2 : At m R2 T2) (hd1 : T1.device.type = 0) (hd2 : T2.device.type = 0)
    (ht : T1.dtype.code = T2.dtype.code) (hd : T2.dims = T1.dims) (hi : 2147483647 < prod T1.dims) (out : Ptr) :
    binaryOp op R1.h R2.h out E m = .ub .overflow :=
  binaryOp_large nf mf wf h1 h2 hd1 hd2 ht hd hi out

/-- Two `int8_t` tensors. -/
def exB1 : TV := tvOf .i8 [2, 2] ([100, -7, 5, -128].map .int)

/-- The second. -/
def exB2 : TV := tvOf .i8 [2, 2] ([100, 2, -5, -1].map .int)

/-- Memory holding both. -/
def exBMem : Mem := (Mem.empty.addT exB1).addT exB2

theorem exBMem_wf : exBMem.WF := Mem.addT_wf (Mem.addT_wf Mem.empty_wf _) _

theorem exB1_at : At exBMem Mem.empty.footT exB1 :=
  addT_old (Mem.addT_wf Mem.empty_wf _) (tvOf_at _ (by simp) rfl ⟨by decide, by decide⟩) _

theorem exB2_at : At exBMem (Mem.empty.addT exB1).footT exB2 := tvOf_at _ (by simp) rfl ⟨by decide, by decide⟩

theorem exB1_elems : Elems exB1 .i8 ([100, -7, 5, -128].map .int) := tvOf_elems (by decide) rfl

theorem exB2_elems : Elems exB2 .i8 ([100, 2, -5, -1].map .int) := tvOf_elems (by decide) rfl

theorem okEnv_malloc : okEnv.MallocOK := fun _ _ => rfl

/-- Sums wrap around: 100 + 100 = -56 in `int8_t`. -/
example : DeliversMalloc okEnv (binaryOp .add Mem.empty.footT.h (Mem.empty.addT exB1).footT.h .indet) exBMem .indet .i8
    ⟨DEVICE_CPU, 0⟩ [2, 2] ([-56, -5, 0, 127].map .int) :=
  C26_binary (T1 := exB1) (T2 := exB2) (zs := [-56, -5, 0, 127].map .int) exBMem_wf exB1_at exB1_elems exB2_at exB2_elems rfl rfl rfl (by decide) rfl
    (by
      intro i h1 h2 h3
      rw [opResult_iff (exB1_elems.wt _ (List.getElem_mem h1)) (exB2_elems.wt _ (List.getElem_mem h2))]
      have : i < 4 := h1
      match i, this with
      | 0, _ => decide +revert
      | 1, _ => decide +revert
      | 2, _ => decide +revert
      | 3, _ => decide +revert) _

/-- Quotients round toward zero, and -128 / -1 wraps. -/
example : DeliversMalloc okEnv (binaryOp .div Mem.empty.footT.h (Mem.empty.addT exB1).footT.h .indet) exBMem .indet .i8
    ⟨DEVICE_CPU, 0⟩ [2, 2] ([1, -3, -1, -128].map .int) :=
  C26_binary (T1 := exB1) (T2 := exB2) (zs := [1, -3, -1, -128].map .int) exBMem_wf exB1_at exB1_elems exB2_at exB2_elems rfl rfl rfl (by decide) rfl
    (by
      intro i h1 h2 h3
      rw [opResult_iff (exB1_elems.wt _ (List.getElem_mem h1)) (exB2_elems.wt _ (List.getElem_mem h2))]
      have : i < 4 := h1
      match i, this with
      | 0, _ => decide +revert
      | 1, _ => decide +revert
      | 2, _ => decide +revert
      | 3, _ => decide +revert) _

/-! ## C27 -/

/-- C27. A tensor that is not on the CPU: `STATUS_NOT_SUPPORTED`, whatever else is wrong. -/
theorem C27_device {E : Env} {m : Mem} {R1 R2 : Foot} {T1 T2 : TV} {op : BinOp} (h1 : At m R1 T1) (h2 : At m R2 T2)
    (hd : T1.device.type ≠ 0 ∨ T2.device.type ≠ 0) (out : Ptr) :
    binaryOp op R1.h R2.h out E m = .ok (.notSupported, out) m :=
  binaryOp_device h1 h2 hd out

/-- C27. Both on the CPU, different element types: `STATUS_TYPE_MISMATCH`, whatever the dims. -/
theorem C27_type {E : Env} {m : Mem} {R1 R2 : Foot} {T1 T2 : TV} {op : BinOp} (h1 : At m R1 T1) (h2 : At m R2 T2)
    (hd1 : T1.device.type = 0) (hd2 : T2.device.type = 0) (ht : T1.dtype.code ≠ T2.dtype.code) (out : Ptr) :
    binaryOp op R1.h R2.h out E m = .ok (.typeMismatch, out) m :=
  binaryOp_type h1 h2 hd1 hd2 ht out

/-- C27. Same element type, different dims: `STATUS_INVALID_ARGUMENT`. -/
theorem C27_dims {E : Env} {m : Mem} {R1 R2 : Foot} {T1 T2 : TV} {op : BinOp} (h1 : At m R1 T1) (h2 : At m R2 T2)
    (hd1 : T1.device.type = 0) (hd2 : T2.device.type = 0) (ht : T1.dtype.code = T2.dtype.code) (hd : T1.dims ≠ T2.dims)
    (out : Ptr) : binaryOp op R1.h R2.h out E m = .ok (.invalidArgument, out) m :=
  binaryOp_dims h1 h2 hd1 hd2 ht hd out

/-- A `float` tensor on a GPU. -/
def exB3 : TV := ⟨Code.f32.dtype, ⟨1, 0⟩, [2], encAll .f32 ([1, 2].map .f32)⟩

/-- A tensor with dims `[2, 3]` and a different one, differing in the last dim only. -/
def exB4 : TV := tvOf .i32 [2, 4] ([1, 2, 3, 4, 5, 6, 7, 8].map .int)

example : binaryOp .add Mem.empty.footT.h exMem.footT.h .indet okEnv (exMem.addT exB3) =
    .ok (.notSupported, .indet) (exMem.addT exB3) :=
  C27_device (addT_old exMem_wf exA_at _) (addT_at _ exB3 (by decide) rfl ⟨by decide, by decide⟩) (.inr (by decide)) _

example : binaryOp .add Mem.empty.footT.h exMem.footT.h .indet okEnv (exMem.addT exB1) =
    .ok (.typeMismatch, .indet) (exMem.addT exB1) :=
  C27_type (addT_old exMem_wf exA_at _) (tvOf_at _ (by simp) rfl ⟨by decide, by decide⟩) rfl rfl (by decide) _

example : binaryOp .add Mem.empty.footT.h exMem.footT.h .indet okEnv (exMem.addT exB4) =
    .ok (.invalidArgument, .indet) (exMem.addT exB4) :=
  C27_dims (T1 := exA) (T2 := exB4) (addT_old exMem_wf exA_at _) (tvOf_at _ (by simp) rfl ⟨by decide, by decide⟩) rfl rfl rfl (by decide) _

/-! ## C28 -/

/-- C28. For operands inside the range of the integer type, a result exists exactly if the operation is not one of the bad
ones (and then it is the exact result reduced into the range, see `OpResult`). -/
theorem C28_defined_iff {fp : FloatOps} {c : Code} {op : BinOp} {a b lo hi : Int} (hc : intRange c = some (lo, hi))
    (ha : lo ≤ a ∧ a ≤ hi) (hb : lo ≤ b ∧ b ≤ hi) :
    (∃ z, OpResult fp c op (.int a) (.int b) z) ↔ ¬ BadIntOp c op a b := by
  have hex : ∀ e, ExactOp op a b e → ∀ e', ExactOp op a b e' → e' = e := fun e h e' h' => by
    rw [exact_iff] at h h'; rw [h] at h'; injection h' with h'; exact h'.symm
  constructor
  · rintro ⟨z, e, r, -, he, hr⟩ (⟨rfl, rfl⟩ | ⟨e', lo', hi', he', hc', hr', hlt⟩ | ⟨rfl, rfl, hlt⟩)
    · exact he.1 rfl
    · cases hex _ he _ he'
      rcases hc' with rfl | rfl <;> obtain ⟨rfl, lo, hi, h1, h2⟩ := hr <;> rw [h1] at hr' <;> injection hr' with hr' <;>
        injection hr' with h3 h4 <;> omega
    · have : e = a * b := he
      have := hr.1
      omega
  · intro hg
    cases he : op.exact a b with
    | none =>
      cases op <;> simp only [BinOp.exact, reduceCtorEq] at he
      split at he
      · exact absurd (.inl ⟨rfl, by assumption⟩) hg
      · cases he
    | some e =>
      have he := exact_iff.2 he
      have hr : ∀ c : Code, c.isInt = true → ∃ r, ReducesTo c e r := fun c h => ⟨_, (reduces_iff h).2 rfl⟩
      have hin : ∀ lo hi, (c = .i32 ∨ c = .i64) → intRange c = some (lo, hi) → lo ≤ e ∧ e ≤ hi := fun lo hi h h' => by
        apply Classical.byContradiction
        intro hn
        exact hg (.inr (.inl ⟨e, lo, hi, he, h, h', by omega⟩))
      cases c
      case f32 => cases hc
      case f64 => cases hc
      case i32 =>
        exact ⟨_, e, e, rfl, he, rfl, _, _, rfl, (hin _ _ (.inl rfl) rfl).1, (hin _ _ (.inl rfl) rfl).2⟩
      case i64 =>
        exact ⟨_, e, e, rfl, he, rfl, _, _, rfl, (hin _ _ (.inr rfl) rfl).1, (hin _ _ (.inr rfl) rfl).2⟩
      case u16 =>
        obtain ⟨r, hr⟩ := hr .u16 rfl
        injection hc with hc
        injection hc with h1 h2
        subst h1 h2
        refine ⟨_, e, r, rfl, he, ?_, hr⟩
        cases op
        · have : e = a + b := he
          omega
        · have : e = a - b := he
          omega
        · have : e = a * b := he
          apply Classical.byContradiction
          intro hn
          exact hg (.inr (.inr ⟨rfl, rfl, by omega⟩))
        · have := (cquot_iff.1 he).2
          have := tdiv_bound a b
          omega
      case i8 => exact ⟨_, e, _, rfl, he, (hr .i8 rfl).choose_spec⟩
      case u8 => exact ⟨_, e, _, rfl, he, (hr .u8 rfl).choose_spec⟩
      case i16 => exact ⟨_, e, _, rfl, he, (hr .i16 rfl).choose_spec⟩
      case u32 => exact ⟨_, e, _, rfl, he, (hr .u32 rfl).choose_spec⟩
      case u64 => exact ⟨_, e, _, rfl, he, (hr .u64 rfl).choose_spec⟩

/-- Either all element operations are defined or there is a first undefined one. -/
theorem ops_split {E : Env} {c : Code} {op : BinOp} {xs ys : List Val} (hl : ys.length = xs.length) :
    (∃ zs : List Val, zs.length = xs.length ∧
      ∀ i (_ : i < xs.length) (_ : i < ys.length) (_ : i < zs.length), cBin E.fp c op xs[i] ys[i] = .ok zs[i]) ∨
    (∃ (k : Nat) (u : UB) (z : Nat → Val) (_ : k < xs.length) (_ : k < ys.length),
      (∀ i (_ : i < xs.length) (_ : i < ys.length), i < k → cBin E.fp c op xs[i] ys[i] = .ok (z i)) ∧
      cBin E.fp c op xs[k] ys[k] = .error u) := by
  have hz : ∀ i, ∃ z, ∀ (_ : i < xs.length) (_ : i < ys.length), (∃ z', cBin E.fp c op xs[i] ys[i] = .ok z') →
      cBin E.fp c op xs[i] ys[i] = .ok z := by
    intro i
    by_cases h : ∃ (_ : i < xs.length) (_ : i < ys.length) (z' : Val), cBin E.fp c op xs[i] ys[i] = .ok z'
    · obtain ⟨_, _, z', hz'⟩ := h
      exact ⟨z', fun _ _ _ => hz'⟩
    · exact ⟨.int 0, fun h1 h2 h3 => absurd ⟨h1, h2, h3⟩ h⟩
  by_cases hall : ∃ j, j < xs.length ∧ ∀ (h : j < xs.length) (h' : j < ys.length) z, cBin E.fp c op xs[j] ys[j] ≠ .ok z
  · right
    obtain ⟨j, hjx, hno⟩ := hall
    obtain ⟨k, hk, hP, hmin⟩ := first_such
      (P := fun i => ∀ (h : i < xs.length) (h' : i < ys.length) z, cBin E.fp c op xs[i] ys[i] ≠ .ok z) hjx hno
    have hky : k < ys.length := by omega
    cases hu : cBin E.fp c op xs[k] ys[k] with
    | ok z => exact absurd hu (hP hk hky z)
    | error u =>
      refine ⟨k, u, fun i => (hz i).choose, hk, hky, fun i h1 h2 h3 => (hz i).choose_spec h1 h2 ?_, hu⟩
      apply Classical.byContradiction
      intro hn
      exact hmin i h3 fun _ _ z hz => hn ⟨z, hz⟩
  · left
    refine ⟨(List.range xs.length).map fun i => (hz i).choose, by simp, fun i h1 h2 h3 => ?_⟩
    have := (hz i).choose_spec h1 h2 (by
      apply Classical.byContradiction
      intro hn
      exact hall ⟨i, h1, fun _ _ z hz => hn ⟨z, hz⟩⟩)
    simpa using this

/-- C28. A single bad element operation makes the whole call undefined behaviour (all allocations succeeding). -/
theorem C28_undefined {E : Env} {m : Mem} {R1 R2 : Foot} {T1 T2 : TV} {c : Code} {op : BinOp} {xs ys : List Val} {j : Nat}
    {a b : Int} (nf : E.NoFail) (mf : E.MallocOK) (wf : m.WF)
    (h1 : At m R1 T1) (he1 : Elems T1 c xs) (h2 : At m R2 T2) (he2 : Elems T2 c ys)
    (hd1 : T1.device.type = 0) (hd2 : T2.device.type = 0) (hd : T2.dims = T1.dims) (hi : prod T1.dims ≤ 2147483647)
    (hxj : xs[j]? = some (.int a)) (hyj : ys[j]? = some (.int b)) (hbad : BadIntOp c op a b) (out : Ptr) :
    ∃ u, binaryOp op R1.h R2.h out E m = .ub u := by
  have hN := he1.len
  have hN2 := he2.len
  rw [hd] at hN2
  have hjx : j < xs.length := by
    rcases Nat.lt_or_ge j xs.length with h | h
    · exact h
    · rw [List.getElem?_eq_none h] at hxj; cases hxj
  have hjy : j < ys.length := by omega
  have ex : xs[j] = .int a := by rw [List.getElem?_eq_getElem hjx] at hxj; injection hxj
  have ey : ys[j] = .int b := by rw [List.getElem?_eq_getElem hjy] at hyj; injection hyj
  have wa := he1.wt _ (List.getElem_mem hjx)
  have wb := he2.wt _ (List.getElem_mem hjy)
  rw [ex] at wa
  rw [ey] at wb
  obtain ⟨lo, hi', hci, ra⟩ := WT_range.1 wa
  obtain ⟨lo2, hi2, hci2, rb⟩ := WT_range.1 wb
  rw [hci] at hci2
  injection hci2 with e2
  injection e2 with e2 e3
  subst e2 e3
  have hno : ∀ z, cBin E.fp c op xs[j] ys[j] ≠ .ok z := by
    rw [ex, ey]
    intro z hz
    exact (C28_defined_iff (fp := E.fp) hci ra rb).1 ⟨z, (opResult_iff wa wb).2 hz⟩ hbad
  rcases ops_split (E := E) (c := c) (op := op) (xs := xs) (ys := ys) (by omega) with ⟨zs, hzl, hz⟩ | ⟨k, u, z, hk, hky, hz, hu⟩
  · exact absurd (hz j hjx hjy (by omega)) (hno _)
  · exact ⟨u, binaryOp_ub nf mf wf h1 he1 h2 he2 hd1 hd2 hd hi hk hky hz hu out⟩

/-- C28. Conversely, if no element operation is bad the operator delivers a result, of which element `i` is the C result. -/
theorem C28_defined {E : Env} {m : Mem} {R1 R2 : Foot} {T1 T2 : TV} {c : Code} {op : BinOp} {xs ys : List Int} {lo hi : Int}
    (hc : intRange c = some (lo, hi)) (wf : m.WF)
    (h1 : At m R1 T1) (he1 : Elems T1 c (xs.map .int)) (h2 : At m R2 T2) (he2 : Elems T2 c (ys.map .int))
    (hd1 : T1.device.type = 0) (hd2 : T2.device.type = 0) (hd : T2.dims = T1.dims) (hi : prod T1.dims ≤ 2147483647)
    (hgood : ∀ i (_ : i < xs.length) (_ : i < ys.length), ¬ BadIntOp c op xs[i] ys[i]) (out : Ptr) :
    ∃ zs, DeliversMalloc E (binaryOp op R1.h R2.h out) m out c T1.device T1.dims zs ∧
      ∀ i (_ : i < xs.length) (_ : i < ys.length) (_ : i < zs.length), OpResult E.fp c op (.int xs[i]) (.int ys[i]) zs[i] := by
  have hN := he1.len
  have hN2 := he2.len
  rw [hd] at hN2
  simp only [List.length_map] at hN hN2
  have hz : ∀ i, ∃ z, ∀ (_ : i < xs.length) (_ : i < ys.length), OpResult E.fp c op (.int xs[i]) (.int ys[i]) z := by
    intro i
    by_cases hix : i < xs.length
    · have hiy : i < ys.length := by omega
      have wa := he1.wt (.int xs[i]) (List.mem_map_of_mem (List.getElem_mem hix))
      have wb := he2.wt (.int ys[i]) (List.mem_map_of_mem (List.getElem_mem hiy))
      obtain ⟨lo, hi', hci, ra⟩ := WT_range.1 wa
      obtain ⟨lo2, hi2, hci2, rb⟩ := WT_range.1 wb
      rw [hci] at hci2
      injection hci2 with e2
      injection e2 with e2 e3
      subst e2 e3
      obtain ⟨z, hz⟩ := (C28_defined_iff (fp := E.fp) hci ra rb).2 (hgood i hix hiy)
      exact ⟨z, fun _ _ => hz⟩
    · exact ⟨.int 0, fun h => absurd h hix⟩
  refine ⟨(List.range xs.length).map fun i => (hz i).choose, ?_, ?_⟩
  · refine C26_binary wf h1 he1 h2 he2 hd1 hd2 hd hi (by simp) ?_ out
    intro i h1 h2 h3
    simp only [List.length_map] at h1 h2
    simpa using (hz i).choose_spec h1 h2
  · intro i h1 h2 h3
    simpa using (hz i).choose_spec h1 h2

/-- 65535 * 32769 exceeds `INT_MAX`: undefined for `uint16_t`. -/
example : BadIntOp .u16 .mul 65535 32769 := .inr (.inr ⟨rfl, rfl, by decide⟩)

/-- -128 / -1 is fine for `int8_t`... -/
example : ¬ BadIntOp .i8 .div (-128) (-1) := by
  rintro (⟨_, h⟩ | ⟨_, _, _, _, h | h, _⟩ | ⟨h, _⟩) <;> cases h

/-- ... but the corresponding quotient is not for `int32_t`. -/
example : BadIntOp .i32 .div (-2147483648) (-1) :=
  .inr (.inl ⟨2147483648, _, _, ⟨by decide, 0, by decide, by decide, by decide, by decide⟩, .inl rfl, rfl, by decide⟩)

/-- Dividing `exB1` by a tensor with a zero in the third place. -/
def exB5 : TV := tvOf .i8 [2, 2] ([100, 2, 0, -1].map .int)

example : ∃ u, binaryOp .div Mem.empty.footT.h (Mem.empty.addT exB1).footT.h .indet okEnv ((Mem.empty.addT exB1).addT exB5) = .ub u :=
  C28_undefined (j := 2) (a := 5) (b := 0) okEnv_noFail okEnv_malloc (Mem.addT_wf (Mem.addT_wf Mem.empty_wf _) _)
    (addT_old (Mem.addT_wf Mem.empty_wf _) (tvOf_at _ (by simp) rfl ⟨by decide, by decide⟩) _) exB1_elems
    (tvOf_at _ (by simp) rfl ⟨by decide, by decide⟩) (tvOf_elems (xs := [100, 2, 0, -1].map .int) (by decide) rfl)
    rfl rfl rfl (by decide) rfl rfl (.inl ⟨rfl, rfl⟩) _

/-! ## C29 -/

theorem Commutes.swap {fp : FloatOps} {c : Code} {op : BinOp} {x y z : Val} (hx : x.WT c) (h : Commutes fp c op) (hr : OpResult fp c op x y z) :
    OpResult fp c op y x z := by
  have hex : ∀ a b e, (op = .add ∨ op = .mul) → ExactOp op a b e → ExactOp op b a e := by
    rintro a b e (rfl | rfl) (he : _ = _)
    · rw [he]; exact Int.add_comm _ _
    · rw [he]; exact Int.mul_comm _ _
  have hop : op = .add ∨ op = .mul := by
    cases op <;> cases c <;> first | exact .inl rfl | exact .inr rfl | exact absurd h id
  match x, y, hr with
  | .int a, .int b, ⟨e, r, hz, he, hr⟩ => exact ⟨e, r, hz, hex _ _ _ hop he, hr⟩
  | .f32 a, .f32 b, hr =>
    have hc : c = .f32 := by cases c <;> first | rfl | exact absurd hx id
    subst hc
    rcases hop with rfl | rfl
    · exact hr.trans (congrArg Val.f32 (h a b))
    · exact hr.trans (congrArg Val.f32 (h a b))
  | .f64 a, .f64 b, hr =>
    have hc : c = .f64 := by cases c <;> first | rfl | exact absurd hx id
    subst hc
    rcases hop with rfl | rfl
    · exact hr.trans (congrArg Val.f64 (h a b))
    · exact hr.trans (congrArg Val.f64 (h a b))

/-- C29. If the operator delivers on `(a, b)` by C26, then it delivers the same elements on `(b, a)`. -/
theorem C29_commutes {E : Env} {m : Mem} {R1 R2 : Foot} {T1 T2 : TV} {c : Code} {op : BinOp} {xs ys zs : List Val} (wf : m.WF)
    (hop : Commutes E.fp c op) (h1 : At m R1 T1) (he1 : Elems T1 c xs) (h2 : At m R2 T2) (he2 : Elems T2 c ys)
    (hd1 : T1.device.type = 0) (hd2 : T2.device.type = 0) (hd : T2.dims = T1.dims) (hi : prod T1.dims ≤ 2147483647)
    (hzl : zs.length = xs.length)
    (hz : ∀ i (_ : i < xs.length) (_ : i < ys.length) (_ : i < zs.length), OpResult E.fp c op xs[i] ys[i] zs[i])
    (out : Ptr) :
    DeliversMalloc E (binaryOp op R1.h R2.h out) m out c T1.device T1.dims zs ∧
    DeliversMalloc E (binaryOp op R2.h R1.h out) m out c T2.device T1.dims zs := by
  have hN := he1.len
  have hN2 := he2.len
  rw [hd] at hN2
  refine ⟨C26_binary wf h1 he1 h2 he2 hd1 hd2 hd hi hzl hz out, ?_⟩
  rw [← hd]
  exact C26_binary wf h2 he2 h1 he1 hd2 hd1 hd.symm (by rw [hd]; exact hi) (by omega)
    (fun i a b d => hop.swap (he1.wt _ (List.getElem_mem b)) (hz i b a d)) out

/-- C29, directly on the calls (all allocations succeeding): whenever `op(a, b)` and `op(b, a)` both return successfully, the tensors have equal dtype,
dims and bytes. -/
theorem C29_equal_results {E : Env} {m : Mem} {R1 R2 : Foot} {T1 T2 : TV} {c : Code} {op : BinOp} {xs ys : List Val}
    (nf : E.NoFail) (mf : E.MallocOK) (wf : m.WF)
    (hop : Commutes E.fp c op) (h1 : At m R1 T1) (he1 : Elems T1 c xs) (h2 : At m R2 T2) (he2 : Elems T2 c ys)
    (out : Ptr) {t1 t2 : Ptr} {m1 m2 : Mem}
    (r1 : binaryOp op R1.h R2.h out E m = .ok (.success, t1) m1) (r2 : binaryOp op R2.h R1.h out E m = .ok (.success, t2) m2) :
    ∃ Q1 Q2 U1 U2, t1 = Q1.h ∧ t2 = Q2.h ∧ Produces m m1 Q1 U1 ∧ Produces m m2 Q2 U2 ∧
      U1.dtype = U2.dtype ∧ U1.dims = U2.dims ∧ U1.bytes = U2.bytes := by
  have hcode : T1.dtype.code = T2.dtype.code := by rw [he1.dtype, he2.dtype]
  have hdev : T1.device.type = 0 ∧ T2.device.type = 0 := by
    apply Classical.byContradiction
    intro hn
    rw [C27_device h1 h2 (by omega)] at r1
    cases r1
  have hd : T2.dims = T1.dims := by
    apply Classical.byContradiction
    intro hn
    rw [C27_dims h1 h2 hdev.1 hdev.2 hcode (fun h => hn h.symm)] at r1
    cases r1
  have hi : prod T1.dims ≤ 2147483647 := by
    apply Classical.byContradiction
    intro hn
    rw [binaryOp_large nf mf wf h1 h2 hdev.1 hdev.2 hcode hd (by omega)] at r1
    cases r1
  have hN := he1.len
  have hN2 := he2.len
  rw [hd] at hN2
  rcases ops_split (E := E) (c := c) (op := op) (xs := xs) (ys := ys) (by omega) with ⟨zs, hzl, hz⟩ | ⟨k, u, z, hk, hky, hz, hu⟩
  · obtain ⟨D1, D2⟩ := C29_commutes wf hop h1 he1 h2 he2 hdev.1 hdev.2 hd hi hzl
      (fun i a b d => (opResult_iff (he1.wt _ (List.getElem_mem a)) (he2.wt _ (List.getElem_mem b))).2 (hz i a b d)) out
    rcases D1 with ⟨⟨Q1, n1, e1, P1⟩ | ⟨_, _, _, _, hn⟩, _, _⟩ | ⟨hn, _⟩
    · rw [r1] at e1
      cases e1
      rcases D2 with ⟨⟨Q2, n2, e2, P2⟩ | ⟨_, _, _, _, hn⟩, _, _⟩ | ⟨hn, _⟩
      · rw [r2] at e2
        cases e2
        exact ⟨Q1, Q2, _, _, rfl, rfl, P1, P2, rfl, rfl, rfl⟩
      · exact absurd nf hn
      · exact absurd mf hn
    · exact absurd nf hn
    · exact absurd mf hn
  · rw [binaryOp_ub nf mf wf h1 he1 h2 he2 hdev.1 hdev.2 hd hi hk hky hz hu out] at r1
    cases r1

/-- The toy arithmetic is commutative. -/
example : Commutes okEnv.fp .f32 .add := fun a b => BitVec.add_comm a b

example : DeliversMalloc okEnv (binaryOp .mul Mem.empty.footT.h (Mem.empty.addT exB1).footT.h .indet) exBMem .indet .i8
      ⟨DEVICE_CPU, 0⟩ [2, 2] ([16, -14, -25, -128].map .int) ∧
    DeliversMalloc okEnv (binaryOp .mul (Mem.empty.addT exB1).footT.h Mem.empty.footT.h .indet) exBMem .indet .i8
      ⟨DEVICE_CPU, 0⟩ [2, 2] ([16, -14, -25, -128].map .int) :=
  C29_commutes (E := okEnv) (op := .mul) (c := .i8) (T1 := exB1) (T2 := exB2) (zs := [16, -14, -25, -128].map .int) exBMem_wf trivial exB1_at exB1_elems exB2_at exB2_elems rfl rfl rfl (by decide) rfl
    (by
      intro i h1 h2 h3
      rw [opResult_iff (exB1_elems.wt _ (List.getElem_mem h1)) (exB2_elems.wt _ (List.getElem_mem h2))]
      have : i < 4 := h1
      match i, this with
      | 0, _ => decide +revert
      | 1, _ => decide +revert
      | 2, _ => decide +revert
      | 3, _ => decide +revert) _

end Aitisa
