import Verif.Proof.Elem

/-!
# Concrete environments and memories

Used to exhibit concrete instances of the hypotheses of the theorems.
-/

namespace Aitisa

/-- A toy floating-point unit: the bit patterns are read as two's complement integers. -/
def toyFp : FloatOps where
  add32 := (· + ·)
  sub32 := (· - ·)
  mul32 := (· * ·)
  div32 := BitVec.sdiv
  add64 := (· + ·)
  sub64 := (· - ·)
  mul64 := (· * ·)
  div64 := BitVec.sdiv
  mac32 := fun z a b => z + a * b
  mac64 := fun z a b => z + a * b
  lt32 := BitVec.slt
  lt64 := BitVec.slt
  neg32 := (- ·)
  neg64 := (- ·)
  exp64 := fun x => if x.toInt < 0 then 0 else x + 1
  sqrt64 := fun x => BitVec.ofNat 64 (Nat.log2 x.toNat)
  widen := BitVec.signExtend 64
  narrow := BitVec.truncate 32
  ofInt32 := BitVec.ofInt 32
  ofInt64 := BitVec.ofInt 64
  trunc32 := fun b => some b.toInt
  trunc64 := fun b => some b.toInt

/-- Every allocation succeeds, asserts are on. -/
def okEnv : Env := ⟨fun _ _ => true, fun _ _ => true, fun n => 7 * n, true, toyFp⟩

/-- The allocation request with number `k` fails. -/
def failAt (k : Nat) : Env := { okEnv with allocOk := fun t _ => t ≠ k, mallocOk := fun t _ => t ≠ k }

theorem okEnv_noFail : okEnv.NoFail := fun _ _ => rfl

theorem Mem.empty_wf : Mem.empty.WF := fun _ _ => rfl

/-- Memory `m` with one more tensor of rank at least 1. -/
def Mem.addT (m : Mem) (T : TV) : Mem :=
  ((((m.push (.tensor ⟨prod T.dims, 0, T.dims.length, .blk (m.next + 3), .dense, .blk (m.next + 4),
      .blk (m.next + 1)⟩)).push
    (.storage ⟨T.dtype, T.device, prod T.dims, .blk (m.next + 2)⟩)).push
    (.bytes T.bytes)).push
    (.i64s (dimsCells T.dims))).push
    (.i64s (defaultMin2maj T.dims.length))

/-- Where `addT` puts the tensor. -/
def Mem.footT (m : Mem) : Foot := ⟨m.next, m.next + 1, m.next + 2, some (m.next + 3), some (m.next + 4)⟩

theorem Mem.addT_wf {m : Mem} (h : m.WF) (T : TV) : (m.addT T).WF :=
  ((((h.push _).push _).push _).push _).push _

theorem addT_at (m : Mem) (T : TV) (h0 : T.dims ≠ []) (hl : T.bytes.length = prod T.dims * T.dtype.size)
    (hs : ShapeOK T.dims T.dtype.size) : At (m.addT T) m.footT T where
  tensor := by
    have h1 : m.next ≠ m.next + 1 + 1 + 1 + 1 := by omega
    have h2 : m.next ≠ m.next + 1 + 1 + 1 := by omega
    have h3 : m.next ≠ m.next + 1 + 1 := by omega
    simp [Mem.addT, Mem.footT, Mem.push, upd, optPtr, h1, h2, h3]
  storage := by simp [Mem.addT, Mem.footT, Mem.push, upd]
  data := by simp [Mem.addT, Mem.footT, Mem.push, upd]
  dims := .inr ⟨m.next + 3, h0, rfl, by simp [Mem.addT, Mem.push, upd]⟩
  layout := .inr ⟨m.next + 4, h0, rfl, by simp [Mem.addT, Mem.push, upd]⟩
  nodup := by simp [Mem.footT, Foot.list]
  len := hl
  shape := hs

theorem addT_old {m : Mem} (wf : m.WF) {R : Foot} {T : TV} (h : At m R T) (T' : TV) :
    At (m.addT T') R T :=
  ((((h.push wf _).push (wf.push _) _).push ((wf.push _).push _) _).push
    (((wf.push _).push _).push _) _).push ((((wf.push _).push _).push _).push _) _

/-- Memory with one more tensor of rank 0. -/
def Mem.addS (m : Mem) (dt : DType) (dev : Device) (bs : List Byte) : Mem :=
  ((m.push (.tensor ⟨1, 0, 0, .null, .dense, .null, .blk (m.next + 1)⟩)).push
    (.storage ⟨dt, dev, 1, .blk (m.next + 2)⟩)).push (.bytes bs)

/-- Where `addS` puts the tensor. -/
def Mem.footS (m : Mem) : Foot := ⟨m.next, m.next + 1, m.next + 2, none, none⟩

theorem addS_at (m : Mem) (dt : DType) (dev : Device) (bs : List Byte) (hl : bs.length = dt.size)
    (hs : dt.size ≤ 255) : At (m.addS dt dev bs) m.footS ⟨dt, dev, [], bs⟩ where
  tensor := by
    have h3 : m.next ≠ m.next + 1 + 1 := by omega
    simp [Mem.addS, Mem.footS, Mem.push, upd, optPtr, prod, h3]
  storage := by simp [Mem.addS, Mem.footS, Mem.push, upd, prod]
  data := by simp [Mem.addS, Mem.footS, Mem.push, upd]
  dims := .inl ⟨rfl, rfl⟩
  layout := .inl ⟨rfl, rfl⟩
  nodup := by simp [Mem.footS, Foot.list]
  len := by simp [hl, prod]
  shape := ⟨by simp only [prodMax]; omega, by simp⟩

theorem Mem.addS_wf {m : Mem} (h : m.WF) (dt dev bs) : (m.addS dt dev bs).WF :=
  ((h.push _).push _).push _

/-- A tensor value with the given elements on the CPU. -/
def tvOf (c : Code) (dims : List Nat) (xs : List Val) : TV := ⟨c.dtype, ⟨DEVICE_CPU, 0⟩, dims, encAll c xs⟩

theorem tvOf_elems {c : Code} {dims : List Nat} {xs : List Val} (h : ∀ x ∈ xs, x.WT c)
    (hl : xs.length = prod dims) : Elems (tvOf c dims xs) c xs := ⟨rfl, rfl, h, hl⟩

theorem tvOf_at (m : Mem) {c : Code} {dims : List Nat} {xs : List Val} (h0 : dims ≠ [])
    (hl : xs.length = prod dims) (hs : ShapeOK dims c.size) :
    At (m.addT (tvOf c dims xs)) m.footT (tvOf c dims xs) :=
  addT_at m _ h0 (by simp [tvOf, encAll_length, hl, Code.dtype]) hs

instance (c : Code) (v : Val) : Decidable (v.WT c) :=
  match c, v with
  | .f32, .f32 _ => isTrue trivial
  | .f64, .f64 _ => isTrue trivial
  | .f32, .f64 _ | .f32, .int _ | .f64, .f32 _ | .f64, .int _ => isFalse id
  | .i8, .int n | .u8, .int n | .i16, .int n | .u16, .int n | .i32, .int n | .u32, .int n
  | .i64, .int n | .u64, .int n => inferInstanceAs (Decidable (_ ≤ n ∧ n ≤ _))
  | .i8, .f32 _ | .u8, .f32 _ | .i16, .f32 _ | .u16, .f32 _ | .i32, .f32 _ | .u32, .f32 _
  | .i64, .f32 _ | .u64, .f32 _ => isFalse id
  | .i8, .f64 _ | .u8, .f64 _ | .i16, .f64 _ | .u16, .f64 _ | .i32, .f64 _ | .u32, .f64 _
  | .i64, .f64 _ | .u64, .f64 _ => isFalse id

/-- A 2x3 `int32_t` tensor. -/
def exA : TV := tvOf .i32 [2, 3] ([1, -2, 3, -4, 5, -6].map .int)

/-- Memory holding just `exA`. -/
def exMem : Mem := Mem.empty.addT exA

theorem exMem_wf : exMem.WF := Mem.addT_wf Mem.empty_wf _

theorem exA_at : At exMem Mem.empty.footT exA :=
  tvOf_at _ (by simp) rfl ⟨by decide, by decide⟩

theorem exA_elems : Elems exA .i32 ([1, -2, 3, -4, 5, -6].map .int) :=
  tvOf_elems (by decide) rfl

end Aitisa
