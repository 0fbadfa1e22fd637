import Verif.Proof.Bytes
import Verif.Proof.Grows
import Verif.Proof.Keeps
import Verif.Spec.Example

/-!
# Properties C01-C05, C08, C09: creating, destroying, resolving and accessing tensors
-/

namespace Aitisa

/-! ## C01 -/

/-- C01. For every dtype, device, rank and dims whose products fit in `int64_t`, and every pattern of
allocation failures: `aitisa_create` without data returns success with a new tensor of exactly the
requested dtype, device and dims and `size * dtype.size` (uninitialised) data bytes, in new memory; or
`STATUS_ALLOC_FAILED` with `*output` unchanged. Existing memory is unchanged in both cases. -/
theorem C01_create {E : Env} {m : Mem} (wf : m.WF) (dt : DType) (dev : Device) (ds : List Nat)
    (hs : ShapeOK ds dt.size) (out : Ptr) :
    Creates E (create dt dev (dimsCells ds) ds.length .null 0 out) m out
      ⟨dt, dev, ds, List.replicate (prod ds * dt.size) none⟩ :=
  create_run wf dt dev hs 0 out

/-- C01, what the accessors say about the created tensor. -/
theorem C01_create_accessors {E : Env} {m : Mem} (wf : m.WF) (dt : DType) (dev : Device) (ds : List Nat)
    (hs : ShapeOK ds dt.size) (out h : Ptr) (m' : Mem)
    (hr : create dt dev (dimsCells ds) ds.length .null 0 out E m = .ok (.success, h) m') :
    tNdim h E m' = .ok (ds.length : Int) m' ∧ tSize h E m' = .ok (prod ds : Int) m' ∧
    tDtype h E m' = .ok dt m' ∧ tDevice h E m' = .ok dev m' ∧
    (∀ i (hi : i < ds.length), tDim h i E m' = .ok (ds[i] : Int) m') ∧
    ∃ p bs, tData h E m' = .ok p m' ∧ derefB p E m' = .ok bs m' ∧ bs.length = prod ds * dt.size := by
  rcases create_run (E := E) wf dt dev hs 0 out with ⟨R, m1, e, P⟩ | ⟨m1, e, _⟩
  · rw [e] at hr
    simp only [Res.ok.injEq, Prod.mk.injEq, true_and] at hr
    obtain ⟨rfl, rfl⟩ := hr
    have a := P.tensor
    exact ⟨a.tNdim, a.tSize, a.tDtype, a.tDevice, fun i hi => a.tDim hi,
      _, _, a.tData, a.derefB, by simp⟩
  · rw [e] at hr; simp at hr

/-- Concrete case: a 2x3 float tensor on a machine where no allocation fails. -/
example : ∃ R m', create Code.f32.dtype ⟨DEVICE_CPU, 0⟩ (dimsCells [2, 3]) 2 .null 0 .indet okEnv Mem.empty =
      .ok (.success, R.h) m' ∧
    Produces Mem.empty m' R ⟨Code.f32.dtype, ⟨DEVICE_CPU, 0⟩, [2, 3], List.replicate 24 none⟩ := by
  rcases C01_create (E := okEnv) Mem.empty_wf Code.f32.dtype ⟨DEVICE_CPU, 0⟩ [2, 3]
    ⟨by decide, by decide⟩ .indet with h | ⟨_, _, _, _, h⟩
  · exact h
  · exact absurd okEnv_noFail h

/-- Concrete case: the failure branch occurs. -/
example : ∃ m', create Code.f32.dtype ⟨DEVICE_CPU, 0⟩ (dimsCells [2, 3]) 2 .null 0 .indet (failAt 4) Mem.empty =
      .ok (.allocFailed, .indet) m' := ⟨_, rfl⟩

/-! ## C02 -/

/-- C02, rejection: a length that does not match the shape is refused; `*output` and all existing memory
are unchanged. (If already the descriptor cannot be allocated, the status is `STATUS_ALLOC_FAILED`.) -/
theorem C02_reject {E : Env} {m : Mem} (wf : m.WF) (dt : DType) (dev : Device) (ds : List Nat)
    (hs : ShapeOK ds dt.size) (hsz : 0 < dt.size) (data : Ptr) (hd : data ≠ .null) (len : Nat)
    (hlen : len / dt.size ≠ prod ds) (out : Ptr) :
    ∃ st m', create dt dev (dimsCells ds) ds.length data len out E m = .ok (st, out) m' ∧
      Frame m m' ∧ m'.WF ∧
      st = if E.allocOk m.tick 56 then .invalidArgument else .allocFailed := by
  unfold create
  simp only [run_bind, run_rawAlloc]
  by_cases ha : E.allocOk m.tick 56 = true
  · have hsz0 : dt.size ≠ 0 := by omega
    have hne : ¬ ((len / dt.size : Nat) : Int) = (prod ds : Int) := by omega
    msimp [ha, hd, sizeOfDims_run hs.rank (fun k _ => hs.prefix k), lenMismatch, hsz0, hne]
    rw [run_putBody (Mem.push_blk_same _ _)]
    msimp [decide_true]
    have e1 := ((Ext.refl wf).push (.tensor ⟨0, 0, 0, .indet, .dense, .indet, .indet⟩)).set
      (Nat.le_refl _) (Mem.push_blk_same _ _)
      ⟨.own, .tensor ⟨prod ds, 0, 0, .indet, .dense, .indet, .indet⟩⟩
    exact ⟨_, _, rfl, e1.toFrame, e1.wf, rfl⟩
  · msimp [ha]
    exact ⟨_, _, rfl, (Ext.refl wf).miss.toFrame, wf, rfl⟩

/-- C02, adoption: with a matching length the new tensor's data *is* the caller's block `q` with unchanged
contents, all other blocks of the tensor are new, and existing memory is unchanged. Or allocation fails
and `*output` is unchanged. -/
theorem C02_adopt {E : Env} {m : Mem} (wf : m.WF) (dt : DType) (dev : Device) (ds : List Nat)
    (hs : ShapeOK ds dt.size) (hsz : 0 < dt.size) (q : Nat) (bs : List Byte)
    (hq : m.blk q = some ⟨.own, .bytes bs⟩) (hbl : bs.length = prod ds * dt.size)
    (len : Nat) (hlen : len / dt.size = prod ds) (out : Ptr) :
    (∃ R m', create dt dev (dimsCells ds) ds.length (.blk q) len out E m = .ok (.success, R.h) m' ∧
      R.p = q ∧ At m' R ⟨dt, dev, ds, bs⟩ ∧ Ext m m' R.list ∧ ∀ b ∈ R.list, b ≠ q → m.next ≤ b) ∨
    (∃ m', create dt dev (dimsCells ds) ds.length (.blk q) len out E m = .ok (.allocFailed, out) m' ∧
      Frame m m' ∧ m'.WF ∧ ¬ E.NoFail) :=
  create_data_run wf dt dev hs hsz hq len hlen hbl out

/-- The tensor owns the adopted buffer: destroying the tensor releases it. -/
theorem C02_owned {E : Env} {m m' : Mem} (wf : m.WF) (dt : DType) (dev : Device) (ds : List Nat)
    (hs : ShapeOK ds dt.size) (hsz : 0 < dt.size) (q : Nat) (bs : List Byte)
    (hq : m.blk q = some ⟨.own, .bytes bs⟩) (hbl : bs.length = prod ds * dt.size)
    (len : Nat) (hlen : len / dt.size = prod ds) (out h : Ptr)
    (hr : create dt dev (dimsCells ds) ds.length (.blk q) len out E m = .ok (.success, h) m') :
    ∃ m'', destroy h E m' = .ok (.success, .null) m'' ∧ m''.blk q = none ∧
      ∀ b, b ≠ q → m''.blk b = m.blk b := by
  rcases create_data_run (E := E) wf dt dev hs hsz hq len hlen hbl out with
    ⟨R, m1, e, hp, a, x, fr⟩ | ⟨m1, e, _⟩
  · rw [e] at hr
    simp only [Res.ok.injEq, Prod.mk.injEq, true_and] at hr
    obtain ⟨rfl, rfl⟩ := hr
    refine ⟨_, destroy_run a, ?_, ?_⟩
    · rw [Mem.drop_blk, if_pos]; rw [← hp]; simp [mem_foot]
    · intro b hb
      rw [Mem.drop_blk]
      split
      · rename_i hm
        rw [wf _ (fr b hm hb)]
      · rename_i hm
        by_cases hlt : b < m.next
        · exact x.same b hlt
        · rw [wf b (by omega)]
          apply Classical.byContradiction
          intro hn
          exact hm (x.live b (by omega) hn)
  · rw [e] at hr; simp at hr

/-- Concrete case: a caller's 8 byte buffer becomes a tensor of two `int32_t`; with a wrong length it is
refused. -/
example : ∃ m', create Code.i32.dtype ⟨DEVICE_CPU, 0⟩ (dimsCells [2]) 1 (.blk 0) 8 .null okEnv
      (Mem.empty.push (.bytes (encAll .i32 [.int 5, .int 6]))) = .ok (.success, .blk 1) m' ∧
    tData (.blk 1) okEnv m' = .ok (.blk 0) m' := ⟨_, rfl, rfl⟩

example : ∃ m', create Code.i32.dtype ⟨DEVICE_CPU, 0⟩ (dimsCells [2]) 1 (.blk 0) 12 .null okEnv
      (Mem.empty.push (.bytes (encAll .i32 [.int 5, .int 6]))) = .ok (.invalidArgument, .null) m' := ⟨_, rfl⟩

/-- The comparison uses the truncated quotient: a length with a remainder is accepted. -/
theorem C02_remainder_accepted : ∃ m', create Code.i32.dtype ⟨DEVICE_CPU, 0⟩ (dimsCells [2]) 1 (.blk 0) 11
      .null okEnv (Mem.empty.push (.bytes (encAll .i32 [.int 5, .int 6]))) =
      .ok (.success, .blk 1) m' := ⟨_, rfl⟩

/-- A dtype of size 0 with a data pointer divides by zero, for every shape. -/
theorem C02_zero_size_ub {E : Env} {m : Mem} (h : E.allocOk m.tick 56 = true) (code : Nat) (dev : Device)
    (ds : List Nat) (hs : ShapeOK ds 0) (data : Ptr) (hd : data ≠ .null) (len : Nat) (out : Ptr) :
    create ⟨code, 0⟩ dev (dimsCells ds) ds.length data len out E m = .ub .divZero := by
  unfold create
  simp only [run_bind, run_rawAlloc]
  msimp [h, hd, sizeOfDims_run hs.rank (fun k _ => hs.prefix k), lenMismatch]
  rw [run_putBody (Mem.push_blk_same _ _)]
  msimp []

/-! ## C03 -/

/-- C03. `aitisa_resolve` of a well-formed tensor yields its dtype, device, rank, a pointer to an array
holding exactly its dims, its data pointer, and the byte length modulo `2^32`; memory is unchanged. -/
theorem C03_resolve {E : Env} {m : Mem} {R : Foot} {T : TV} (h : At m R T) :
    resolve R.h E m = .ok ⟨T.dtype, T.device, optPtr R.d, T.dims.length, .blk R.p,
      (prod T.dims * T.dtype.size : Nat) % 4294967296⟩ m ∧
    (∀ i (hi : i < T.dims.length), loadI (optPtr R.d) i E m = .ok (T.dims[i] : Int) m) ∧
    derefB (.blk R.p) E m = .ok T.bytes m := by
  refine ⟨?_, fun i hi => h.loadDim hi, h.derefB⟩
  unfold resolve
  have hm : ((prod T.dims : Int) * (T.dtype.size : Int)) = ((prod T.dims * T.dtype.size : Nat) : Int) := by
    simp
  msimp [h.tDtype, h.tDevice, h.tDims, h.tNdim, h.tData, h.tSize, hm, run_i64_nat h.shape.bytes_le]
  rfl

/-- C03 after creation: what was passed to `aitisa_create` comes back. -/
theorem C03_create_resolve {E : Env} {m m' : Mem} (wf : m.WF) (dt : DType) (dev : Device) (ds : List Nat)
    (hs : ShapeOK ds dt.size) (out h : Ptr)
    (hr : create dt dev (dimsCells ds) ds.length .null 0 out E m = .ok (.success, h) m') :
    ∃ r, resolve h E m' = .ok r m' ∧ r.dtype = dt ∧ r.device = dev ∧ r.ndim = ds.length ∧
      r.len = (prod ds * dt.size : Nat) % 4294967296 ∧
      ∀ i (hi : i < ds.length), loadI r.dims i E m' = .ok (ds[i] : Int) m' := by
  rcases create_run (E := E) wf dt dev hs 0 out with ⟨R, m1, e, P⟩ | ⟨m1, e, _⟩
  · rw [e] at hr
    simp only [Res.ok.injEq, Prod.mk.injEq, true_and] at hr
    obtain ⟨rfl, rfl⟩ := hr
    obtain ⟨h1, h2, _⟩ := C03_resolve (E := E) P.tensor
    exact ⟨_, h1, rfl, rfl, rfl, rfl, h2⟩
  · rw [e] at hr; simp at hr

example : resolve Mem.empty.footT.h okEnv exMem =
    .ok ⟨Code.i32.dtype, ⟨DEVICE_CPU, 0⟩, .blk 3, 2, .blk 2, 24⟩ exMem := (C03_resolve exA_at).1

/-- The reported length is wrong for tensors of 4 GiB and more. -/
theorem C03_len_truncated : ∃ T : TV, ∃ m : Mem, ∃ R, ∃ r, At m R T ∧
    resolve R.h okEnv m = .ok r m ∧ r.len ≠ (T.bytes.length : Int) := by
  obtain ⟨n, hn⟩ : ∃ n : Nat, n = 4294967296 := ⟨_, rfl⟩
  have ha : At (Mem.empty.addT ⟨Code.u8.dtype, ⟨DEVICE_CPU, 0⟩, [n], List.replicate n none⟩) Mem.empty.footT
      ⟨Code.u8.dtype, ⟨DEVICE_CPU, 0⟩, [n], List.replicate n none⟩ :=
    addT_at _ _ (by simp) (by simp [prod, Code.dtype, Code.size])
      ⟨by simp [prodMax, Code.dtype, Code.size]; omega, by simp⟩
  refine ⟨_, _, _, _, ha, (C03_resolve ha).1, ?_⟩
  simp [prod, Code.dtype, Code.size]
  omega

/-! ## C04 -/

/-- C04. Destroying a tensor succeeds, sets the handle to null, and removes exactly the blocks of the
tensor from memory. -/
theorem C04_destroy {E : Env} {m : Mem} {R : Foot} {T : TV} (h : At m R T) :
    ∃ m', destroy R.h E m = .ok (.success, .null) m' ∧ m'.next = m.next ∧
      ∀ b, m'.blk b = if b ∈ R.list then none else m.blk b :=
  ⟨_, destroy_run h, rfl, fun b => Mem.drop_blk m R.list b⟩

/-- C04. Create then destroy restores the memory exactly (same live blocks, same contents). -/
theorem C04_create_destroy {E : Env} {m m' : Mem} (wf : m.WF) (dt : DType) (dev : Device) (ds : List Nat)
    (hs : ShapeOK ds dt.size) (out h : Ptr)
    (hr : create dt dev (dimsCells ds) ds.length .null 0 out E m = .ok (.success, h) m') :
    ∃ m'', destroy h E m' = .ok (.success, .null) m'' ∧ ∀ b, m''.blk b = m.blk b := by
  rcases create_run (E := E) wf dt dev hs 0 out with ⟨R, m1, e, P⟩ | ⟨m1, e, _⟩
  · rw [e] at hr
    simp only [Res.ok.injEq, Prod.mk.injEq, true_and] at hr
    obtain ⟨rfl, rfl⟩ := hr
    exact ⟨_, destroy_run P.tensor, P.destroyed wf⟩
  · rw [e] at hr; simp at hr

/-- C04. Destroying a null handle does nothing. -/
theorem C04_destroy_null (E : Env) (m : Mem) : destroy .null E m = .ok (.success, .null) m := by
  unfold destroy; msimp []

/-- C04. Destroying twice through the same variable is therefore safe. -/
theorem C04_destroy_twice {E : Env} {m : Mem} {R : Foot} {T : TV} (h : At m R T) :
    ∃ m', destroy R.h E m = .ok (.success, .null) m' ∧ destroy .null E m' = .ok (.success, .null) m' :=
  ⟨_, destroy_run h, C04_destroy_null _ _⟩

/-- Another copy of the handle dangles: destroying through it is a use after free. -/
theorem C04_destroy_copy_ub {E : Env} {m m' : Mem} {R : Foot} {T : TV} (h : At m R T) {r}
    (hr : destroy R.h E m = .ok r m') : destroy R.h E m' = .ub .useAfterFree := by
  rw [destroy_run h] at hr
  simp only [Res.ok.injEq] at hr
  obtain ⟨_, rfl⟩ := hr
  unfold destroy destroyShape Foot.h
  have : (m.drop R.list).blk R.t = none := by rw [Mem.drop_blk, if_pos (by simp [mem_foot])]
  have hd : derefT (.blk R.t) E (m.drop R.list) = .ub .useAfterFree := by
    simp [derefT, derefBlk, this]
  msimp [hd]

example : ∃ m', destroy Mem.empty.footT.h okEnv exMem = .ok (.success, .null) m' ∧ ∀ b, m'.blk b = none := by
  refine ⟨_, destroy_run exA_at, fun b => ?_⟩
  rw [Mem.drop_blk]
  split
  · rfl
  · rename_i hb
    simp [Mem.footT, Foot.list, Mem.empty] at hb
    simp [exMem, Mem.addT, Mem.push, upd, hb, Mem.empty]

/-! ## C05 -/

/-- The full claim: whenever `aitisa_create` fails, no new block is left. -/
def C05_claim : Prop := ∀ (E : Env) (m : Mem) (dt : DType) (dev : Device) (ds : List Nat) (data : Ptr)
  (len : Nat) (out : Ptr) (st : Status) (h : Ptr) (m' : Mem), m.WF → ShapeOK ds dt.size → 0 < dt.size →
  create dt dev (dimsCells ds) ds.length data len out E m = .ok (st, h) m' → st ≠ .success →
  ∀ b, m.next ≤ b → m'.blk b = none

/-- C05 is violated: refusing a buffer of the wrong length leaks the descriptor. -/
theorem C05_violated : ¬ C05_claim := by
  intro hc
  have h := hc okEnv Mem.empty Code.i32.dtype ⟨DEVICE_CPU, 0⟩ [2] (.blk 0) 12 .null .invalidArgument .null _
    Mem.empty_wf ⟨by decide, by decide⟩ (by decide) rfl (by decide) 0 (Nat.le_refl _)
  simp [Mem.set, upd, Mem.empty] at h

/-- C05 is also violated by a failing allocation: four blocks are leaked when the data cannot be
allocated. -/
theorem C05_violated_oom : ∃ m', create Code.f32.dtype ⟨DEVICE_CPU, 0⟩ (dimsCells [2, 3]) 2 .null 0 .null
    (failAt 4) Mem.empty = .ok (.allocFailed, .null) m' ∧
    (∀ b, b < 4 → m'.blk b ≠ none) := by
  refine ⟨_, rfl, ?_⟩
  intro b hb
  have : b = 0 ∨ b = 1 ∨ b = 2 ∨ b = 3 := by omega
  rcases this with rfl | rfl | rfl | rfl <;> decide

/-- C05, what does hold: whatever the outcome, at most five blocks are new (so a failing call leaks a
bounded amount), for all arguments. -/
theorem C05_leak_bound_partial {E : Env} {m m' : Mem} (dt dev dims n data len out r)
    (hr : create dt dev dims n data len out E m = .ok r m') (wf' : m'.WF) :
    ∀ b, m.next ≤ b → m'.blk b ≠ none → b < m.next + 5 := by
  intro b hb hn
  have := Grows.create dt dev dims n data len out E m _ _ hr
  have hlt : b < m'.next := by
    apply Nat.lt_of_not_le; intro hle; exact hn (wf' b hle)
  omega

/-- C05, exactly what is leaked, for all arguments and every pattern of allocation failures: a call of
`aitisa_create` releases nothing. Every block it was granted is still allocated when it returns, and the
number of these is the number of requests it made, less the one refused request when the status is
`STATUS_ALLOC_FAILED`; with every other status no request was refused. -/
theorem C05_exact_partial {E : Env} {m m' : Mem} (dt dev dims n data len out st h)
    (hr : create dt dev dims n data len out E m = .ok (st, h) m') :
    (∀ b, m.blk b ≠ none → m'.blk b ≠ none) ∧ m.next ≤ m'.next ∧
      (∀ b, m.next ≤ b → b < m'.next → m'.blk b ≠ none) ∧
      m'.tick = m.tick + (m'.next - m.next) + (if st = .allocFailed then 1 else 0) := by
  obtain ⟨h1, h2, h3, r, h4, h5⟩ := Keepr.create dt dev dims n data len out E m _ _ hr
  refine ⟨h1, h2, h3, ?_⟩
  rcases h5 with ⟨h5, rfl⟩ | ⟨h5, rfl⟩
  · simp only at h5; rw [if_pos h5]; exact h4
  · simp only at h5; rw [if_neg h5]; exact h4

/-- C05, exactly when the claim holds: a call that returns an error leaves no new block if and only if it
was granted no request at all, that is when its very first request (for the 56 bytes of the descriptor) was refused. -/
theorem C05_holds_iff_partial {E : Env} {m m' : Mem} (wf : m.WF) (dt dev dims n data len out st h)
    (hr : create dt dev dims n data len out E m = .ok (st, h) m') (hst : st ≠ .success) :
    (∀ b, m.next ≤ b → m'.blk b = none) ↔ E.allocOk m.tick 56 = false := by
  obtain ⟨-, h2, h3, h4⟩ := C05_exact_partial dt dev dims n data len out st h hr
  constructor
  · intro hn
    have hnx : m'.next = m.next := by
      apply Nat.le_antisymm _ h2
      apply Nat.le_of_not_lt
      intro hlt
      exact h3 _ (Nat.le_refl _) hlt (hn _ (Nat.le_refl _))
    by_cases ha : E.allocOk m.tick 56 = true
    · exfalso
      have := Keepr.create_granted dt dev dims n data len out ha hr
      omega
    · simpa using ha
  · intro ha b hb
    unfold create at hr
    simp [rawAlloc, ha] at hr
    obtain ⟨_, rfl⟩ := hr
    exact wf b hb

/-- A failing call: the third request is refused and the two blocks granted before it are leaked. -/
example : ∃ m', create Code.f32.dtype ⟨DEVICE_CPU, 0⟩ (dimsCells [2, 3]) 2 .null 0 .null (failAt 2) Mem.empty =
    .ok (.allocFailed, .null) m' ∧ m'.next = 2 ∧ m'.tick = 3 := ⟨_, rfl, rfl, rfl⟩

/-! ## C08 -/

/-- C08. Typed read after typed write on any buffer. -/
theorem C08_read_write {c : Code} {bs bs' : List Byte} {i : Int} {v : Val} (wt : v.WT c)
    (h : wrElem c bs i v = .ok bs') (j : Int) :
    rdElem c bs' j = if j = i then .ok v else rdElem c bs j := rdElem_wrElem wt h

/-- C08. Writing back what was read is the identity on the bytes. -/
theorem C08_write_back {c : Code} {bs : List Byte} {i : Int} {v : Val}
    (h : rdElem c bs i = .ok v) : wrElem c bs i v = .ok bs := wrElem_rdElem h

/-- C08. Every value read is a value of the element type. -/
theorem C08_typed {c : Code} {bs : List Byte} {i : Int} {v : Val} (h : rdElem c bs i = .ok v) : v.WT c := by
  unfold rdElem at h
  split at h
  · split at h
    · simp only [Except.ok.injEq] at h; rw [← h]; exact decVal_WT c _
    · simp at h
  · simp at h

/-- C08. An access is accepted exactly when it is inside the buffer. -/
theorem C08_bounds {c : Code} {bs : List Byte} {i : Int} (v : Val) :
    (∃ bs', wrElem c bs i v = .ok bs') ↔ 0 ≤ i ∧ (i + 1) * c.size ≤ bs.length := by
  constructor
  · rintro ⟨bs', h⟩
    apply Classical.byContradiction
    intro hn
    rw [wrElem_oob hn] at h; simp at h
  · intro h; exact ⟨_, by unfold wrElem; rw [if_pos h]⟩

/-- C08 for loads and stores through memory: a store changes only the addressed block, and reads behave
as for an array. -/
theorem C08_memory {E : Env} {m : Mem} {p : Nat} {bs : List Byte} {c : Code} {i : Int} {v : Val} {m' : Mem}
    (hp : m.blk p = some ⟨.own, .bytes bs⟩) (wt : v.WT c) (h : storeElem c (.blk p) i v E m = .ok () m') :
    loadElem c (.blk p) i E m' = .ok v m' ∧
    (∀ j w, j ≠ i → (loadElem c (.blk p) j E m' = .ok w m' ↔ loadElem c (.blk p) j E m = .ok w m)) ∧
    ∀ b, b ≠ p → m'.blk b = m.blk b := by
  unfold storeElem at h
  msimp [run_derefB hp] at h
  cases hw : wrElem c bs i v with
  | error u => rw [hw] at h; simp at h
  | ok bs' =>
    rw [hw] at h
    msimp [run_putBody hp] at h
    simp only [Res.ok.injEq, true_and] at h
    subst h
    have hrd := fun j => rdElem_wrElem (j := j) wt hw
    have key : ∀ j, loadElem c (.blk p) j E (m.set p (some ⟨.own, .bytes bs'⟩)) =
        liftU (rdElem c bs' j) E (m.set p (some ⟨.own, .bytes bs'⟩)) := by
      intro j; unfold loadElem; msimp [run_derefB (Mem.set_blk_same _ _ _)]
    have key0 : ∀ j, loadElem c (.blk p) j E m = liftU (rdElem c bs j) E m := by
      intro j; unfold loadElem; msimp [run_derefB hp]
    refine ⟨?_, ?_, fun b hb => Mem.set_blk_ne _ _ hb⟩
    · rw [key, hrd i, if_pos rfl]; rfl
    · intro j w hj
      rw [key, key0, hrd j, if_neg hj]
      cases rdElem c bs j <;> simp

example : ∃ bs', wrElem .i16 (List.replicate 8 none) 2 (.int (-3)) = .ok bs' ∧
    rdElem .i16 bs' 2 = .ok (.int (-3)) ∧ rdElem .i16 bs' 1 = .error .uninit ∧
    wrElem .i16 (List.replicate 8 none) 4 (.int (-3)) = .error .outOfBounds :=
  ⟨_, rfl, by rw [C08_read_write (bs := List.replicate 8 none) (i := 2) (v := .int (-3)) (by decide) rfl]; rfl, rfl, rfl⟩

/-! ## C09 -/

/-- C09. `set_item` at a valid index makes that element `v` and changes nothing else: not the other
elements, not the shape, not any other block. -/
theorem C09_set_item {E : Env} {m : Mem} {R : Foot} {T : TV} {c : Code} {xs : List Val}
    (h : At m R T) (he : Elems T c xs) {i : Nat} (hi : i < prod T.dims) {v : Val} (wt : v.WT c)
    (rest : List Byte) :
    ∃ m' T', setItem R.h i ((encVal c v).map some ++ rest) E m = .ok () m' ∧ At m' R T' ∧
      Elems T' c (xs.set i v) ∧ T'.dims = T.dims ∧ T'.device = T.device ∧
      ∀ b, b ≠ R.p → m'.blk b = m.blk b := by
  have hl : i < (xs.map some).length := by simp [he.len, hi]
  have hrun := setItem_run (E := E) h he.dtype (by rw [he.bytes, encAll_eq]) hl (v := v) (rest := rest) rfl
  have hmap : (xs.map some).set i (some v) = (xs.set i v).map some := by
    rw [List.map_set]
  rw [hmap, ← encAll_eq] at hrun
  refine ⟨_, { T with bytes := encAll c (xs.set i v) }, hrun, h.setData ?_, ⟨he.dtype, rfl, ?_, ?_⟩, rfl, rfl,
    fun b hb => Mem.set_blk_ne _ _ hb⟩
  · rw [he.bytes, encAll_length, encAll_length]; simp
  · intro x hx
    rcases List.mem_or_eq_of_mem_set hx with hx | rfl
    · exact he.wt x hx
    · exact wt
  · simp [he.len]

/-- C09, other tensors: a tensor sharing no block with the written one is unchanged. -/
theorem C09_others {E : Env} {m m' : Mem} {R R' : Foot} {T T' : TV} {c : Code} {xs : List Val}
    (h : At m R T) (he : Elems T c xs) {i : Nat} (hi : i < prod T.dims) {v : Val} (wt : v.WT c)
    (rest : List Byte) (h' : At m R' T') (hd : ∀ b ∈ R'.list, b ∉ R.list)
    (hr : setItem R.h i ((encVal c v).map some ++ rest) E m = .ok () m') : At m' R' T' := by
  obtain ⟨m1, T1, e, _, _, _, _, same⟩ := C09_set_item (E := E) h he hi wt rest
  rw [e] at hr
  simp only [Res.ok.injEq, true_and] at hr
  subst hr
  exact h'.congr fun b hb => same b fun hp => hd b hb (by rw [hp]; simp [mem_foot])

example : ∃ m' T', setItem Mem.empty.footT.h 4 ((encVal .i32 (.int 77)).map some ++ []) okEnv exMem = .ok () m' ∧
    At m' Mem.empty.footT T' ∧ Elems T' .i32 ([1, -2, 3, -4, 77, -6].map .int) := by
  obtain ⟨m', T', h1, h2, h3, _⟩ := C09_set_item (E := okEnv) exA_at exA_elems (i := 4) (by decide)
    (v := .int 77) (by decide) []
  exact ⟨m', T', h1, h2, h3⟩

end Aitisa
