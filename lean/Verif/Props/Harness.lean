import Verif.Proof.Harness
import Verif.Props.Core
import Verif.Props.AutoTest

set_option linter.unusedSimpArgs false

/-!
# C54, C55: the data of the auto-tests and the comparison of the results
-/

namespace Aitisa

variable {E : Env} {m m' : Mem}

/-! ## C54 -/

/-- C54: filling a buffer of at least `len` bytes completes without undefined behaviour (in particular the arithmetic does not
overflow), for every element type and every length an `unsigned int` can express. It puts the prescribed values in all whole elements
of the first `len` bytes and changes nothing else. -/
theorem C54_assign (g : Filler) {p len : Nat} {bs : List Byte} (c : Code) (h : m.blk p = some ⟨.own, .bytes bs⟩) (hl : len ≤ bs.length)
    (h32 : len ≤ 4294967295) :
    ∃ xs m', g.assign (.blk p) len c.toNat E m = .ok () m' ∧ Filled m m' p c xs (bs.drop (len / c.size * c.size)) ∧
      xs.length = len / c.size ∧ ∀ i (hi : i < xs.length), g.Puts E.fp c i xs[i] :=
  assign_run g c h hl h32

/-- C54: for a number that is no element type nothing happens. -/
theorem C54_other_type (g : Filler) (p : Ptr) (len : Nat) (dtype : Int) (h : ∀ c : Code, dtype ≠ c.toNat) :
    g.assign p len dtype E m = .ok () m := by
  have : switchCode dtype = none := by
    unfold switchCode
    split
    · next h0 =>
      cases hf : Code.find dtype.toNat with
      | none => rfl
      | some c =>
        have h1 : dtype.toNat = c.toNat := by
          unfold Code.find at hf
          split at hf <;> first | (cases hf; assumption) | cases hf
        exact absurd (by omega) (h c)
    · rfl
  cases g <;> simp only [Filler.assign, naturalAssign, randomAssign, this] <;> rfl

/-- C54: the number of an element type denotes that element type; other numbers are outside the table. -/
theorem C54_dtype_table (n : Int) :
    (∀ c : Code, n = c.toNat → intToDtype n E m = .ok c.dtype m) ∧
    ((∀ c : Code, n ≠ c.toNat) → intToDtype n E m = .ub .outOfBounds) := by
  refine ⟨fun c h => h ▸ dtype_table c, fun h => ?_⟩
  unfold intToDtype
  by_cases h0 : 0 ≤ n ∧ n < 10
  · exfalso
    have : n = 0 ∨ n = 1 ∨ n = 2 ∨ n = 3 ∨ n = 4 ∨ n = 5 ∨ n = 6 ∨ n = 7 ∨ n = 8 ∨ n = 9 := by omega
    rcases this with e | e | e | e | e | e | e | e | e | e <;> rw [e] at h
    exacts [h .i8 rfl, h .u8 rfl, h .i16 rfl, h .u16 rfl, h .i32 rfl, h .u32 rfl, h .i64 rfl, h .u64 rfl, h .f32 rfl, h .f64 rfl]
  · rw [if_neg h0]; rfl

/-- C54: the device numbers are those of the interface: 0 is the CPU, 1 is CUDA, and any other number is read outside the table. -/
theorem C54_device_table (n : Int) :
    (n = 0 → intToDevice n E m = .ok ⟨0, 0⟩ m) ∧ (n = 1 → intToDevice n E m = .ok ⟨1, 0⟩ m) ∧
    (n ≠ 0 → n ≠ 1 → intToDevice n E m = .ub .outOfBounds) := by
  refine ⟨fun h => by rw [h]; rfl, fun h => by rw [h]; rfl, fun h0 h1 => ?_⟩
  unfold intToDevice
  rw [if_neg (by omega)]; rfl

/-- C54: the constant of the numbering is the double nearest to one tenth: its value is an integer number of units of `2^-1074`, and no
other integer number of units that a double of its binade can hold (a multiple of `2^-56`) is as near to one tenth. -/
theorem C54_one_tenth : ∃ k : Int, b64.units oneTenth.toNat = some (k * 2 ^ 1018) ∧ 2 ^ 52 ≤ k ∧ k < 2 ^ 53 ∧
    ∀ j : Int, j ≠ k → (10 * k - 2 ^ 56).natAbs < (10 * j - 2 ^ 56).natAbs := by
  refine ⟨0x1999999999999A, by decide +kernel, by decide, by decide, fun j hj => by omega⟩

/-- C54: setting up a unary input. Unless `new` throws, the input gets a new buffer whose length is `prod ds * size` reduced to an
`unsigned int`, all of it initialised with the prescribed values; nothing else changes. -/
theorem C54_fill (g : Filler) (wf : m.WF) (o : UnaryInput) (c : Code) {q : Nat} {k : Origin} {ds : List Nat} (hn : o.ndim = ds.length)
    (hq : o.dims = .blk q) (hd : m.blk q = some ⟨k, .i64s (dimsCells ds)⟩) (hb : ∀ d ∈ ds, d ≤ 2147483648) (hc : o.dtype = c.toNat) :
    (∃ p xs m', o.fill g E m = .ok { o with data := .blk p, len := prod ds * c.size % 4294967296 } m' ∧ Supplied m m' p c xs ∧
      xs.length = prod ds * c.size % 4294967296 / c.size ∧ ∀ i (hi : i < xs.length), g.Puts E.fp c i xs[i]) ∨
    (¬ E.MallocOK ∧ o.fill g E m = .abort) :=
  unary_fill g wf o c hn hq hd hb hc

/-- C54: setting up a binary input: two new, different buffers. -/
theorem C54_fill2 (g : Filler) (wf : m.WF) (o : BinaryInput) (c1 c2 : Code) {q1 q2 : Nat} {k1 k2 : Origin} {ds1 ds2 : List Nat}
    (hn1 : o.ndim1 = ds1.length) (hn2 : o.ndim2 = ds2.length)
    (hq1 : o.dims1 = .blk q1) (hq2 : o.dims2 = .blk q2)
    (hd1 : m.blk q1 = some ⟨k1, .i64s (dimsCells ds1)⟩) (hd2 : m.blk q2 = some ⟨k2, .i64s (dimsCells ds2)⟩)
    (hb1 : ∀ d ∈ ds1, d ≤ 2147483648) (hb2 : ∀ d ∈ ds2, d ≤ 2147483648)
    (hc1 : o.dtype1 = c1.toNat) (hc2 : o.dtype2 = c2.toNat) :
    (∃ p1 p2 xs ys m', o.fill g E m = .ok { o with
          data1 := .blk p1, len1 := prod ds1 * c1.size % 4294967296, data2 := .blk p2, len2 := prod ds2 * c2.size % 4294967296 } m' ∧
      p1 ≠ p2 ∧ m.next ≤ p1 ∧ m.next ≤ p2 ∧ (∀ b, b ≠ p1 → b ≠ p2 → m'.blk b = m.blk b) ∧ m'.WF ∧
      (m'.blk p1 = some ⟨.own, .bytes (encAll c1 xs)⟩ ∧ ∀ x ∈ xs, x.WT c1) ∧
      (m'.blk p2 = some ⟨.own, .bytes (encAll c2 ys)⟩ ∧ ∀ y ∈ ys, y.WT c2) ∧
      xs.length = prod ds1 * c1.size % 4294967296 / c1.size ∧ ys.length = prod ds2 * c2.size % 4294967296 / c2.size ∧
      (∀ i (hi : i < xs.length), g.Puts E.fp c1 i xs[i]) ∧ ∀ i (hi : i < ys.length), g.Puts E.fp c2 i ys[i]) ∨
    (¬ E.MallocOK ∧ o.fill g E m = .abort) :=
  binary_fill g wf o c1 c2 hn1 hn2 hq1 hq2 hd1 hd2 hb1 hb2 hc1 hc2

/-- The steps of a test up to the tensor: the input is constructed from its dims, filled, and passed to `aitisa_create`. -/
def fixture (g : Filler) (ds : List Nat) (c : Code) (device : Int) : M (Status × Ptr) := do
  let o ← UnaryInput.ofVec ds.length (ds.map Int.ofNat) c.toNat device .null 0
  let o ← o.fill g
  o.tensor

theorem size_pos (c : Code) : 0 < c.size := by cases c <;> decide

theorem fixture_setup (g : Filler) (wf : m.WF) (hE : E.MallocOK) (ds : List Nat) (c : Code) (device : Int) (hr : ds.length ≤ 2147483647)
    (hb : ∀ d ∈ ds, d ≤ 2147483648) :
    ∃ q p cnt xs m', (do
        let o ← UnaryInput.ofVec ds.length (ds.map Int.ofNat) c.toNat device .null 0
        o.fill g : M UnaryInput) E m =
        .ok ⟨ds.length, .blk q, c.toNat, device, .blk p, prod ds * c.size % 4294967296, .blk cnt⟩ m' ∧
      m'.WF ∧ m.next ≤ q ∧ m.next ≤ p ∧ m.next ≤ m'.next ∧ (∀ b, b < m.next → m'.blk b = m.blk b) ∧
      m'.blk q = some ⟨.own, .i64s (dimsCells ds)⟩ ∧ m'.blk p = some ⟨.own, .bytes (encAll c xs)⟩ ∧ (∀ x ∈ xs, x.WT c) ∧
      xs.length = prod ds * c.size % 4294967296 / c.size ∧ ∀ i (hi : i < xs.length), g.Puts E.fp c i xs[i] := by
  have hrk : rankOk (ds.length : Int) (ds.map Int.ofNat) := ⟨by omega, by simp, by unfold I64_MAX; omega⟩
  rcases newDims_mk (E := E) wf hrk with ⟨_, m1, _, e1, f1, q, rfl, rfl, hq⟩ | ⟨h, -⟩
  case inr => exact absurd hE h
  rcases newCount_mk (E := E) f1.wf with ⟨_, m2, _, e2, f2, cnt, rfl, rfl, -⟩ | ⟨h, -⟩
  case inr => exact absurd hE h
  have hne : q ≠ cnt := by
    have h1 := f1.lt (b := q) (by simp)
    have h2 := (f2.new cnt (by simp)).1
    omega
  have hq2 : m2.blk q = some ⟨.own, .i64s (dimsCells ds)⟩ := by
    rw [f2.old q (by simpa using hne), hq]
    rw [Int.toNat_natCast, List.take_of_length_le (by simp)]
    simp [dimsCells, Arr.of]
  rcases unary_fill (E := E) g f2.wf ⟨ds.length, .blk q, c.toNat, device, .null, 0, .blk cnt⟩ c rfl rfl hq2 hb rfl with
    ⟨p, xs, m3, e3, hS, hl, hP⟩ | ⟨h, -⟩
  case inr => exact absurd hE h
  have hqp : q ≠ p := by
    have h1 := f1.lt (b := q) (by simp)
    have h2 := hS.new
    have h3 := f2.le
    omega
  refine ⟨q, p, cnt, xs, m3, ?_, hS.wf, (f1.new q (by simp)).1, Nat.le_trans f1.le (Nat.le_trans f2.le hS.new), ?_, fun b hb => ?_, ?_, hS.data, hS.wt, hl, hP⟩
  · unfold UnaryInput.ofVec
    msimp [e1, e2, e3]
  · have h3 := Frame.lt_next hS.wf hS.data
    have := hS.new
    have := f1.le
    have := f2.le
    omega
  · have h1 := (f1.new q (by simp)).1
    have h2 := (f2.new cnt (by simp)).1
    have h3 := hS.new
    have := f1.le
    have := f2.le
    rw [hS.other b (by omega), f2.old b (by simp; omega), f1.old b (by simp; omega)]
  · rw [hS.other q hqp, hq2]

/-- C54: a fixture as a whole. If the data fit in an `unsigned int`, and memory suffices, the test works on a tensor of the given type and
dims, on the CPU, whose elements are the prescribed values. Nothing that existed before is touched. -/
theorem C54_tensor (g : Filler) (wf : m.WF) (hE : E.MallocOK) (hA : E.NoFail) (ds : List Nat) (c : Code) (device : Int)
    (hs : ShapeOK ds c.size) (hb : ∀ d ∈ ds, d ≤ 2147483648) (hf : prod ds * c.size < 4294967296) :
    ∃ R T xs m', fixture g ds c device E m = .ok (.success, R.h) m' ∧ At m' R T ∧ Elems T c xs ∧ T.dims = ds ∧ T.device = ⟨0, 0⟩ ∧
      (∀ i (hi : i < xs.length), g.Puts E.fp c i xs[i]) ∧ ∀ b, b < m.next → m'.blk b = m.blk b := by
  obtain ⟨q, p, cnt, xs, m1, e1, w1, hq, hp, hn, ho, hdq, hdp, hwt, hl, hP⟩ := fixture_setup (E := E) g wf hE ds c device hs.rank hb
  have hlen : xs.length = prod ds := by rw [hl, Nat.mod_eq_of_lt hf, Nat.mul_div_cancel _ (size_pos c)]
  have hbl : (encAll c xs).length = prod ds * c.dtype.size := by
    rw [encAll_eq, encOpt_length, List.length_map, hlen]; rfl
  rcases C02_adopt (E := E) w1 c.dtype ⟨0, 0⟩ ds hs (size_pos c) p (encAll c xs) hdp hbl (prod ds * c.size % 4294967296)
    (by rw [Nat.mod_eq_of_lt hf]; exact Nat.mul_div_cancel _ (size_pos c)) .indet with ⟨R, m2, e2, hRp, hat, hx, -⟩ | ⟨_, -, -, -, h⟩
  case inr => exact absurd hA h
  refine ⟨R, ⟨c.dtype, ⟨0, 0⟩, ds, encAll c xs⟩, xs, m2, ?_, hat, ⟨rfl, rfl, hwt, hlen⟩, rfl, rfl, hP, fun b hb => ?_⟩
  · unfold fixture
    rw [show (do
        let o ← UnaryInput.ofVec ds.length (ds.map Int.ofNat) c.toNat device .null 0
        let o ← o.fill g
        o.tensor : M (Status × Ptr)) E m = ((do
        let o ← UnaryInput.ofVec ds.length (ds.map Int.ofNat) c.toNat device .null 0
        o.fill g : M UnaryInput) >>= fun o => o.tensor) E m by simp only [run_bind, andThen_assoc'], run_bind, e1, andThen_ok]
    unfold UnaryInput.tensor
    msimp [dtype_table, run_derefI hdq]
    rw [show intToDevice 0 E m1 = .ok ⟨0, 0⟩ m1 from rfl]
    msimp [run_derefI hdq]
    exact e2
  · rw [hx.same b (by omega), ho b hb]

/-- C54: if the data do not fit in an `unsigned int`, the length of the buffer is wrong and `aitisa_create` refuses it: the test goes on
with an uninitialised handle (`.indet`), the status being ignored. -/
theorem C54_large (g : Filler) (wf : m.WF) (hE : E.MallocOK) (hA : E.NoFail) (ds : List Nat) (c : Code) (device : Int)
    (hs : ShapeOK ds c.size) (hb : ∀ d ∈ ds, d ≤ 2147483648) (hf : 4294967296 ≤ prod ds * c.size) :
    ∃ m', fixture g ds c device E m = .ok (.invalidArgument, .indet) m' := by
  obtain ⟨q, p, cnt, xs, m1, e1, w1, hq, hp, hn, ho, hdq, hdp, hwt, hl, hP⟩ := fixture_setup (E := E) g wf hE ds c device hs.rank hb
  have hlen : prod ds * c.size % 4294967296 / c.dtype.size ≠ prod ds := by
    intro h
    have h1 := len_exact (prod ds) c
    have h2 : prod ds * c.size % 4294967296 < 4294967296 := Nat.mod_lt _ (by omega)
    have h3 : prod ds * c.size % 4294967296 / c.size = prod ds := h
    rw [h3] at h1
    omega
  obtain ⟨st, m2, e2, -, -, hst⟩ := C02_reject (E := E) w1 c.dtype ⟨0, 0⟩ ds hs (size_pos c) (.blk p) (by simp) (prod ds * c.size % 4294967296) hlen .indet
  rw [hA, if_pos rfl] at hst
  subst hst
  refine ⟨m2, ?_⟩
  unfold fixture
  rw [show (do
      let o ← UnaryInput.ofVec ds.length (ds.map Int.ofNat) c.toNat device .null 0
      let o ← o.fill g
      o.tensor : M (Status × Ptr)) E m = ((do
      let o ← UnaryInput.ofVec ds.length (ds.map Int.ofNat) c.toNat device .null 0
      o.fill g : M UnaryInput) >>= fun o => o.tensor) E m by simp only [run_bind, andThen_assoc'], run_bind, e1, andThen_ok]
  unfold UnaryInput.tensor
  msimp [dtype_table, run_derefI hdq]
  rw [show intToDevice 0 E m1 = .ok ⟨0, 0⟩ m1 from rfl]
  msimp [run_derefI hdq]
  exact e2

/-- The inputs of the tests of the repository: dims and element type. `/repo/auto_test/test_code/activation_test.h` 21-26,
`binary_op_test.h` 18-33, `conv_test.h` 79-90, `matmul_test.h` 18-45. -/
def repoInputs : List (List Nat × Code) :=
  [([3, 6, 10, 120, 600], .f64), ([3, 40, 100, 600], .f32), ([3, 4, 120, 60], .f32),
   ([10, 6], .i32), ([2013, 2018], .f64), ([10, 3, 2], .u64), ([5], .f32),
   ([6, 32, 124, 128], .f32), ([64, 32, 2, 2], .f32), ([7, 16, 100, 180], .f32), ([32, 16, 3, 3], .f32),
   ([10], .f32), ([1995, 2020], .f64), ([2020, 2018], .f64), ([10, 5], .f32), ([3], .f32), ([2, 2, 4, 3, 2], .f32),
   ([2, 2, 4, 2, 3], .f32), ([2, 4, 3], .f32), ([3, 2, 3, 2], .f32)]

/-- All of them meet the conditions of `C54_tensor`. -/
theorem C54_repo_inputs : ∀ x ∈ repoInputs, ShapeOK x.1 x.2.size ∧ (∀ d ∈ x.1, d ≤ 2147483648) ∧ prod x.1 * x.2.size < 4294967296 := by
  have h : ∀ x ∈ repoInputs, (prodMax x.1 * max x.2.size 1 ≤ 9223372036854775807 ∧ x.1.length ≤ 2147483647) ∧
    (∀ d ∈ x.1, d ≤ 2147483648) ∧ prod x.1 * x.2.size < 4294967296 := by decide
  exact fun x hx => ⟨⟨(h x hx).1.1, (h x hx).1.2⟩, (h x hx).2⟩

/-- A shape that does not fit: 46341 by 46341 `float`s. -/
example : ShapeOK [46341, 46341] 4 ∧ (∀ d ∈ [46341, 46341], d ≤ 2147483648) ∧ 4294967296 ≤ prod [46341, 46341] * 4 :=
  ⟨⟨by decide, by decide⟩, by decide, by decide⟩

/-- Bytes 200 and 255 of the numbering of `int8_t`: 201 and 256 become -55 and 0. -/
example : NaturalAt toyFp .i8 200 (.int (-55)) ∧ NaturalAt toyFp .i8 255 (.int 0) ∧ NaturalAt toyFp .i32 255 (.int 256) := by
  refine ⟨⟨_, rfl, (reduces_iff rfl).2 (by decide)⟩, ⟨_, rfl, (reduces_iff rfl).2 (by decide)⟩, ⟨_, rfl, (reduces_iff rfl).2 (by decide)⟩⟩

/-- Does the run give this status, rank and element? -/
def Res.gives3 (r : Res (Status × Int × Val)) (st : Status) (n : Int) (v : Val) : Bool :=
  match r with
  | .ok x _ => decide (x = (st, n, v))
  | _ => false

/-- The fixture on a small input. -/
example : ((do let (st, t) ← fixture .natural [2, 3] .i16 1; let r ← resolve t; let x ← loadElem .i16 r.data 5; return (st, r.ndim, x) :
    M (Status × Int × Val)) okEnv Mem.empty).gives3 .success 2 (.int 6) = true := by decide +kernel

/-! ## C55 -/

/-- C55: a comparison of the result `T` of the library (element type `c`, elements `xs`) and the result `T'` of the user (element type
`c'`, elements `ys`), as resolved, passes exactly if the two agree; it reads nothing outside and changes nothing. -/
theorem C55_compare {R R' : Foot} {T T' : TV} {xs ys : List Val} {c c' : Code} (h : At m R T) (h' : At m R' T') (hx : Elems T c xs)
    (hy : Elems T' c' ys) (dev : Option Nat) (close : Val → Val → Bool) :
    ∃ b, (do let a ← resolve R.h; let u ← resolve R'.h; compareResults dev c close a u : M Bool) E m = .ok b m ∧
      (b = true ↔ Agree dev close T T' xs ys) := by
  obtain ⟨b, e, hb⟩ := compare_run (E := E) h h' hx hy dev close rfl rfl
  refine ⟨b, ?_, hb⟩
  msimp [(C03_resolve (E := E) h).1, (C03_resolve (E := E) h').1]
  exact e

/-- C55: a result with the same dims, type and elements passes exactly if the device is the one asked for and every element is close to
itself (which, for a bound on `|x - y|`, NaN and infinity are not). -/
theorem C55_same {R R' : Foot} {T T' : TV} {xs : List Val} {c : Code} (h : At m R T) (h' : At m R' T') (hx : Elems T c xs)
    (hy : Elems T' c xs) (hd : T.dims = T'.dims) (dev : Option Nat) (close : Val → Val → Bool) :
    ∃ b, (do let a ← resolve R.h; let u ← resolve R'.h; compareResults dev c close a u : M Bool) E m = .ok b m ∧
      (b = true ↔ T'.device.type = dev.getD T.device.type ∧ ∀ x ∈ xs, close x x = true) := by
  obtain ⟨b, e, hb⟩ := C55_compare (E := E) h h' hx hy dev close
  refine ⟨b, e, hb.trans ⟨fun h => ⟨h.device, fun x hx => ?_⟩, fun ⟨h1, h2⟩ => ⟨hd, by rw [hx.dtype, hy.dtype], h1, rfl, fun i hi _ =>
    h2 _ (List.getElem_mem hi)⟩⟩⟩
  obtain ⟨i, hi, rfl⟩ := List.getElem_of_mem hx
  exact h.elems.2 i hi hi

/-- The example tensor compared with itself: passes if its own device is asked for, fails if CUDA is, fails if no element is close to
anything. -/
example : (do let a ← resolve Mem.empty.footT.h; let u ← resolve Mem.empty.footT.h
              compareResults none .i32 (fun x y => x == y) a u : M Bool) okEnv exMem = .ok true exMem ∧
    (do let a ← resolve Mem.empty.footT.h; let u ← resolve Mem.empty.footT.h
        compareResults (some 1) .i32 (fun x y => x == y) a u : M Bool) okEnv exMem = .ok false exMem ∧
    (do let a ← resolve Mem.empty.footT.h; let u ← resolve Mem.empty.footT.h
        compareResults none .i32 (fun _ _ => false) a u : M Bool) okEnv exMem = .ok false exMem := by
  refine ⟨?_, ?_, ?_⟩
  · obtain ⟨b, e, hb⟩ := C55_same (E := okEnv) exA_at exA_at exA_elems exA_elems rfl none (fun x y => x == y)
    rw [e, hb.2 ⟨rfl, by simp⟩]
  · obtain ⟨b, e, hb⟩ := C55_same (E := okEnv) exA_at exA_at exA_elems exA_elems rfl (some 1) (fun x y => x == y)
    cases b
    · exact e
    · exact absurd (hb.1 rfl).1 (by decide)
  · obtain ⟨b, e, hb⟩ := C55_same (E := okEnv) exA_at exA_at exA_elems exA_elems rfl none (fun _ _ => false)
    cases b
    · exact e
    · exact absurd ((hb.1 rfl).2 (.int 1) (by simp)) (by decide)

end Aitisa
