import Verif.Props.AutoTest

/-!
# C67: the objects of the auto-test framework hold what they were given
-/

namespace Aitisa

variable {E : Env} {m m' : Mem}

/-- `x` gives an object with `P` and leaves every existing block as it was, or memory is short and an exception is thrown. -/
def Builds {α : Type} (E : Env) (m : Mem) (x : M α) (P : α → Mem → Prop) : Prop :=
  (∃ o m', x E m = .ok o m' ∧ P o m' ∧ ∀ b, m.blk b ≠ none → m'.blk b = m.blk b) ∨ (¬ E.MallocOK ∧ x E m = .abort)

/-- `p` points to an array of the given integers that did not exist before. -/
def NewInts (m m' : Mem) (p : Ptr) (l : List Int) : Prop := ∃ a, p = .blk a ∧ m.blk a = none ∧ m'.blk a = some ⟨.own, .i64s (Arr.of l)⟩

theorem Mk.builds {α : Type} {x : M α} {P : α → Mem → Prop} {Q : α → Mem → List Nat → Prop} (hw : m.WF) (h : Mk x E m Q)
    (hq : ∀ o m' L, Fresh m m' L → Q o m' L → P o m') : Builds E m x P :=
  h.imp_left fun ⟨o, m', L, e, f, q⟩ => ⟨o, m', e, hq _ _ _ f q, fun b hb => f.old b fun hL => hb (hw b (f.new b hL).1)⟩

theorem Fresh.kept {L : List Nat} (f : Fresh m m' L) (hw : m.WF) {b : Nat} {B : Block} (hb : m.blk b = some B) : m'.blk b = some B := by
  rw [f.old b fun hL => ?_, hb]
  rw [hw b (f.new b hL).1] at hb
  cases hb

/-- An array that has been made, followed by other steps. -/
theorem newInts_mk (hw : m.WF) {n : Int} {l : List Int} (h0 : 0 ≤ n) (h1 : n ≤ l.length) :
    Mk (newInts n l) E m fun p m' L => ∃ b, p = .blk b ∧ L = [b] ∧ m'.blk b = some ⟨.own, .i64s (Arr.of (l.take n.toNat))⟩ := by
  unfold newInts
  rw [if_neg (by omega), if_pos h1]
  exact cppNew_mk hw _ _

/-! ## Construction -/

/-- C67, an empty input: no rank, no dims, no data. -/
theorem C67_unary_new (hw : m.WF) : Builds E m UnaryInput.new fun o _ =>
    o.ndim = 0 ∧ o.dims = .null ∧ o.dtype = 0 ∧ o.device = 0 ∧ o.data = .null ∧ o.len = 0 := by
  have h : Mk UnaryInput.new E m fun o _ _ => ∃ c, o = ⟨0, .null, 0, 0, .null, 0, .blk c⟩ := by
    refine (newCount_mk hw).bind ?_
    rintro _ m1 _ f ⟨c, rfl, rfl, hc⟩
    exact .pure f.wf ⟨c, rfl⟩
  refine h.builds hw ?_
  rintro _ _ _ - ⟨c, rfl⟩
  exact ⟨rfl, rfl, rfl, rfl, rfl, rfl⟩

/-- C67, an input built from buffers: each part is what was given. -/
theorem C67_unary_ptr (hw : m.WF) (ndim : Int) (dims : Ptr) (dtype device : Int) (data : Ptr) (len : Nat) :
    Builds E m (UnaryInput.ofPtr ndim dims dtype device data len) fun o _ =>
      o.ndim = ndim ∧ o.dims = dims ∧ o.dtype = dtype ∧ o.device = device ∧ o.data = data ∧ o.len = len := by
  have h : Mk (UnaryInput.ofPtr ndim dims dtype device data len) E m fun o _ _ => ∃ c, o = ⟨ndim, dims, dtype, device, data, len, .blk c⟩ := by
    refine (newCount_mk hw).bind ?_
    rintro _ m1 _ f ⟨c, rfl, rfl, hc⟩
    exact .pure f.wf ⟨c, rfl⟩
  refine h.builds hw ?_
  rintro _ _ _ - ⟨c, rfl⟩
  exact ⟨rfl, rfl, rfl, rfl, rfl, rfl⟩

/-- C67, an input built from a vector of dims: it has an array of its own with the first `ndim` of them. -/
theorem C67_unary_vec (hw : m.WF) {ndim : Int} {ds : List Int} (hr : rankOk ndim ds) (dtype device : Int) (data : Ptr) (len : Nat) :
    Builds E m (UnaryInput.ofVec ndim ds dtype device data len) fun o m' =>
      o.ndim = ndim ∧ NewInts m m' o.dims (ds.take ndim.toNat) ∧ o.dtype = dtype ∧ o.device = device ∧ o.data = data ∧ o.len = len := by
  have h : Mk (UnaryInput.ofVec ndim ds dtype device data len) E m fun o m' L =>
      ∃ a c, a ∈ L ∧ o = ⟨ndim, .blk a, dtype, device, data, len, .blk c⟩ ∧ m'.blk a = some ⟨.own, .i64s (Arr.of (ds.take ndim.toNat))⟩ := by
    refine (newDims_mk hw hr).bind ?_
    rintro _ m1 _ f1 ⟨b, rfl, rfl, hb⟩
    refine (newCount_mk f1.wf).bind ?_
    rintro _ m3 _ f3 ⟨c, rfl, rfl, hc⟩
    exact .pure f3.wf ⟨b, c, by simp, rfl, f3.kept f1.wf hb⟩
  refine h.builds hw ?_
  rintro _ _ _ f ⟨a, c, ha, rfl, hd⟩
  exact ⟨rfl, ⟨a, rfl, hw a (f.new a ha).1, hd⟩, rfl, rfl, rfl, rfl⟩

/-- C67, an empty pair of inputs. -/
theorem C67_binary_new (hw : m.WF) : Builds E m BinaryInput.new fun o _ =>
    o.ndim1 = 0 ∧ o.dims1 = .null ∧ o.dtype1 = 0 ∧ o.device1 = 0 ∧ o.data1 = .null ∧ o.len1 = 0 ∧
    o.ndim2 = 0 ∧ o.dims2 = .null ∧ o.dtype2 = 0 ∧ o.device2 = 0 ∧ o.data2 = .null ∧ o.len2 = 0 := by
  have h : Mk BinaryInput.new E m fun o _ _ => ∃ c, o = ⟨0, .null, 0, 0, .null, 0, 0, .null, 0, 0, .null, 0, .blk c⟩ := by
    refine (newCount_mk hw).bind ?_
    rintro _ m1 _ f ⟨c, rfl, rfl, hc⟩
    exact .pure f.wf ⟨c, rfl⟩
  refine h.builds hw ?_
  rintro _ _ _ - ⟨c, rfl⟩
  exact ⟨rfl, rfl, rfl, rfl, rfl, rfl, rfl, rfl, rfl, rfl, rfl, rfl⟩

/-- C67, a pair of inputs built from buffers. -/
theorem C67_binary_ptr (hw : m.WF) (ndim1 : Int) (dims1 : Ptr) (dtype1 device1 : Int) (data1 : Ptr) (len1 : Nat)
    (ndim2 : Int) (dims2 : Ptr) (dtype2 device2 : Int) (data2 : Ptr) (len2 : Nat) :
    Builds E m (BinaryInput.ofPtr ndim1 dims1 dtype1 device1 data1 len1 ndim2 dims2 dtype2 device2 data2 len2) fun o _ =>
      o.ndim1 = ndim1 ∧ o.dims1 = dims1 ∧ o.dtype1 = dtype1 ∧ o.device1 = device1 ∧ o.data1 = data1 ∧ o.len1 = len1 ∧
      o.ndim2 = ndim2 ∧ o.dims2 = dims2 ∧ o.dtype2 = dtype2 ∧ o.device2 = device2 ∧ o.data2 = data2 ∧ o.len2 = len2 := by
  have h : Mk (BinaryInput.ofPtr ndim1 dims1 dtype1 device1 data1 len1 ndim2 dims2 dtype2 device2 data2 len2) E m fun o _ _ =>
      ∃ c, o = ⟨ndim1, dims1, dtype1, device1, data1, len1, ndim2, dims2, dtype2, device2, data2, len2, .blk c⟩ := by
    refine (newCount_mk hw).bind ?_
    rintro _ m1 _ f ⟨c, rfl, rfl, hc⟩
    exact .pure f.wf ⟨c, rfl⟩
  refine h.builds hw ?_
  rintro _ _ _ - ⟨c, rfl⟩
  exact ⟨rfl, rfl, rfl, rfl, rfl, rfl, rfl, rfl, rfl, rfl, rfl, rfl⟩

theorem binary_vec_mk (hw : m.WF) {ndim1 : Int} {ds1 : List Int} (h1 : rankOk ndim1 ds1) (dtype1 device1 : Int) (data1 : Ptr) (len1 : Nat)
    {ndim2 : Int} {ds2 : List Int} (h2 : rankOk ndim2 ds2) (dtype2 device2 : Int) (data2 : Ptr) (len2 : Nat) :
    Mk (BinaryInput.ofVec ndim1 ds1 dtype1 device1 data1 len1 ndim2 ds2 dtype2 device2 data2 len2) E m fun o m' L =>
      ∃ a b c, a ∈ L ∧ b ∈ L ∧ a ≠ b ∧
        o = ⟨ndim1, .blk a, dtype1, device1, data1, len1, ndim2, .blk b, dtype2, device2, data2, len2, .blk c⟩ ∧
        m'.blk a = some ⟨.own, .i64s (Arr.of (ds1.take ndim1.toNat))⟩ ∧ m'.blk b = some ⟨.own, .i64s (Arr.of (ds2.take ndim2.toNat))⟩ := by
  refine (newDims_mk hw h1).bind ?_
  rintro _ m1 _ f1 ⟨a, rfl, rfl, ha⟩
  refine (newDims_mk f1.wf h2).bind ?_
  rintro _ m2 _ f2 ⟨b, rfl, rfl, hb⟩
  refine (newCount_mk f2.wf).bind ?_
  rintro _ m3 _ f3 ⟨c, rfl, rfl, hc⟩
  refine .pure f3.wf ⟨a, b, c, by simp, by simp, ?_, rfl, f3.kept f2.wf (f2.kept f1.wf ha), f3.kept f2.wf hb⟩
  rintro rfl
  have := f1.lt (b := a) (by simp)
  have := (f2.new a (by simp)).1
  omega

/-- C67, a pair of inputs built from vectors of dims: two arrays of its own. -/
theorem C67_binary_vec (hw : m.WF) {ndim1 : Int} {ds1 : List Int} (h1 : rankOk ndim1 ds1) (dtype1 device1 : Int) (data1 : Ptr) (len1 : Nat)
    {ndim2 : Int} {ds2 : List Int} (h2 : rankOk ndim2 ds2) (dtype2 device2 : Int) (data2 : Ptr) (len2 : Nat) :
    Builds E m (BinaryInput.ofVec ndim1 ds1 dtype1 device1 data1 len1 ndim2 ds2 dtype2 device2 data2 len2) fun o m' =>
      o.ndim1 = ndim1 ∧ NewInts m m' o.dims1 (ds1.take ndim1.toNat) ∧ o.dtype1 = dtype1 ∧ o.device1 = device1 ∧ o.data1 = data1 ∧
      o.len1 = len1 ∧ o.ndim2 = ndim2 ∧ NewInts m m' o.dims2 (ds2.take ndim2.toNat) ∧ o.dtype2 = dtype2 ∧ o.device2 = device2 ∧
      o.data2 = data2 ∧ o.len2 = len2 ∧ o.dims1 ≠ o.dims2 := by
  refine (binary_vec_mk hw h1 dtype1 device1 data1 len1 h2 dtype2 device2 data2 len2).builds hw ?_
  rintro _ _ _ f ⟨a, b, c, ha, hb, hne, rfl, hd1, hd2⟩
  exact ⟨rfl, ⟨a, rfl, hw a (f.new a ha).1, hd1⟩, rfl, rfl, rfl, rfl, rfl, ⟨b, rfl, hw b (f.new b hb).1, hd2⟩, rfl, rfl, rfl, rfl,
    fun e => hne (Ptr.blk.inj e)⟩

/-- C67, an empty input of a convolution: one group, no other parameter. -/
theorem C67_conv_new (hw : m.WF) : Builds E m ConvInput.new fun o _ =>
    o.base.ndim1 = 0 ∧ o.base.dims1 = .null ∧ o.base.data1 = .null ∧ o.base.ndim2 = 0 ∧ o.base.dims2 = .null ∧ o.base.data2 = .null ∧
    o.stride = .null ∧ o.padding = .null ∧ o.dilation = .null ∧ o.groups = 1 := by
  have h : Mk ConvInput.new E m fun o _ _ =>
      ∃ c, o = ⟨⟨0, .null, 0, 0, .null, 0, 0, .null, 0, 0, .null, 0, .blk c⟩, .null, .null, .null, 1⟩ := by
    refine Mk.bind (Q := fun o _ _ => ∃ c, o = ⟨0, .null, 0, 0, .null, 0, 0, .null, 0, 0, .null, 0, .blk c⟩) ?_ ?_
    · refine (newCount_mk hw).bind ?_
      rintro _ m1 _ f ⟨c, rfl, rfl, hc⟩
      exact .pure f.wf ⟨c, rfl⟩
    · rintro _ m1 _ f ⟨c, rfl⟩
      exact .pure f.wf ⟨c, rfl⟩
  refine h.builds hw ?_
  rintro _ _ _ - ⟨c, rfl⟩
  exact ⟨rfl, rfl, rfl, rfl, rfl, rfl, rfl, rfl, rfl, rfl⟩

/-- C67, the input of a convolution, built from buffers. -/
theorem C67_conv_ptr (hw : m.WF) (ndim1 : Int) (dims1 : Ptr) (dtype1 device1 : Int) (data1 : Ptr) (len1 : Nat)
    (ndim2 : Int) (dims2 : Ptr) (dtype2 device2 : Int) (data2 : Ptr) (len2 : Nat) (stride padding dilation : Ptr) (groups : Int) :
    Builds E m (ConvInput.ofPtr ndim1 dims1 dtype1 device1 data1 len1 ndim2 dims2 dtype2 device2 data2 len2 stride padding dilation groups)
      fun o _ => o.base.ndim1 = ndim1 ∧ o.base.dims1 = dims1 ∧ o.base.dtype1 = dtype1 ∧ o.base.device1 = device1 ∧ o.base.data1 = data1 ∧
        o.base.len1 = len1 ∧ o.base.ndim2 = ndim2 ∧ o.base.dims2 = dims2 ∧ o.base.dtype2 = dtype2 ∧ o.base.device2 = device2 ∧
        o.base.data2 = data2 ∧ o.base.len2 = len2 ∧ o.stride = stride ∧ o.padding = padding ∧ o.dilation = dilation ∧ o.groups = groups := by
  have h : Mk (ConvInput.ofPtr ndim1 dims1 dtype1 device1 data1 len1 ndim2 dims2 dtype2 device2 data2 len2 stride padding dilation groups)
      E m fun o _ _ => ∃ c, o = ⟨⟨ndim1, dims1, dtype1, device1, data1, len1, ndim2, dims2, dtype2, device2, data2, len2, .blk c⟩,
        stride, padding, dilation, groups⟩ := by
    refine Mk.bind (Q := fun o _ _ => ∃ c,
      o = ⟨ndim1, dims1, dtype1, device1, data1, len1, ndim2, dims2, dtype2, device2, data2, len2, .blk c⟩) ?_ ?_
    · refine (newCount_mk hw).bind ?_
      rintro _ m1 _ f ⟨c, rfl, rfl, hc⟩
      exact .pure f.wf ⟨c, rfl⟩
    · rintro _ m1 _ f ⟨c, rfl⟩
      exact .pure f.wf ⟨c, rfl⟩
  refine h.builds hw ?_
  rintro _ _ _ - ⟨c, rfl⟩
  exact ⟨rfl, rfl, rfl, rfl, rfl, rfl, rfl, rfl, rfl, rfl, rfl, rfl, rfl, rfl, rfl, rfl⟩

/-- C67, the input of a convolution, built from vectors: an array of its own for each parameter, with one entry for each of the
`ndim1 - 2` spatial axes. -/
theorem C67_conv_vec (hw : m.WF) {ndim1 : Int} {ds1 : List Int} (h1 : rankOk ndim1 ds1) (dtype1 device1 : Int) (data1 : Ptr) (len1 : Nat)
    {ndim2 : Int} {ds2 : List Int} (h2 : rankOk ndim2 ds2) (dtype2 device2 : Int) (data2 : Ptr) (len2 : Nat) {stride padding dilation : List Int}
    (hn : 2 ≤ ndim1) (hs : ndim1 - 2 ≤ stride.length) (hp : ndim1 - 2 ≤ padding.length) (hd : ndim1 - 2 ≤ dilation.length) (groups : Int) :
    Builds E m (ConvInput.ofVec ndim1 ds1 dtype1 device1 data1 len1 ndim2 ds2 dtype2 device2 data2 len2 stride padding dilation groups)
      fun o m' => o.base.ndim1 = ndim1 ∧ NewInts m m' o.base.dims1 (ds1.take ndim1.toNat) ∧ o.base.dtype1 = dtype1 ∧
        o.base.device1 = device1 ∧ o.base.data1 = data1 ∧ o.base.len1 = len1 ∧ o.base.ndim2 = ndim2 ∧
        NewInts m m' o.base.dims2 (ds2.take ndim2.toNat) ∧ o.base.dtype2 = dtype2 ∧ o.base.device2 = device2 ∧ o.base.data2 = data2 ∧
        o.base.len2 = len2 ∧ NewInts m m' o.stride (stride.take (ndim1 - 2).toNat) ∧ NewInts m m' o.padding (padding.take (ndim1 - 2).toNat) ∧
        NewInts m m' o.dilation (dilation.take (ndim1 - 2).toNat) ∧ o.groups = groups := by
  have h : Mk (ConvInput.ofVec ndim1 ds1 dtype1 device1 data1 len1 ndim2 ds2 dtype2 device2 data2 len2 stride padding dilation groups)
      E m fun o m' L => ∃ a b c s p d, a ∈ L ∧ b ∈ L ∧ s ∈ L ∧ p ∈ L ∧ d ∈ L ∧
        o = ⟨⟨ndim1, .blk a, dtype1, device1, data1, len1, ndim2, .blk b, dtype2, device2, data2, len2, .blk c⟩, .blk s, .blk p, .blk d, groups⟩ ∧
        m'.blk a = some ⟨.own, .i64s (Arr.of (ds1.take ndim1.toNat))⟩ ∧ m'.blk b = some ⟨.own, .i64s (Arr.of (ds2.take ndim2.toNat))⟩ ∧
        m'.blk s = some ⟨.own, .i64s (Arr.of (stride.take (ndim1 - 2).toNat))⟩ ∧
        m'.blk p = some ⟨.own, .i64s (Arr.of (padding.take (ndim1 - 2).toNat))⟩ ∧
        m'.blk d = some ⟨.own, .i64s (Arr.of (dilation.take (ndim1 - 2).toNat))⟩ := by
    refine (binary_vec_mk hw h1 dtype1 device1 data1 len1 h2 dtype2 device2 data2 len2).bind ?_
    rintro _ m1 L1 f1 ⟨a, b, c, ha, hb, -, rfl, hd1, hd2⟩
    refine (newInts_mk f1.wf (by omega) hs).bind ?_
    rintro _ m2 _ f2 ⟨s, rfl, rfl, es⟩
    refine (newInts_mk f2.wf (by omega) hp).bind ?_
    rintro _ m3 _ f3 ⟨p, rfl, rfl, ep⟩
    refine (newInts_mk f3.wf (by omega) hd).bind ?_
    rintro _ m4 _ f4 ⟨d, rfl, rfl, ed⟩
    have k := fun {x : Nat} {B : Block} (e : m1.blk x = some B) => f4.kept f3.wf (f3.kept f2.wf (f2.kept f1.wf e))
    exact .pure f4.wf ⟨a, b, c, s, p, d, by simp [ha], by simp [hb], by simp, by simp, by simp, rfl, k hd1, k hd2,
      f4.kept f3.wf (f3.kept f2.wf es), f4.kept f3.wf ep, ed⟩
  refine h.builds hw ?_
  rintro _ _ _ f ⟨a, b, c, s, p, d, ha, hb, hs, hp, hd, rfl, e1, e2, e3, e4, e5⟩
  have n := fun {x : Nat} (hx : x ∈ _) => hw x (f.new x hx).1
  exact ⟨rfl, ⟨a, rfl, n ha, e1⟩, rfl, rfl, rfl, rfl, rfl, ⟨b, rfl, n hb, e2⟩, rfl, rfl, rfl, rfl, ⟨s, rfl, n hs, e3⟩,
    ⟨p, rfl, n hp, e4⟩, ⟨d, rfl, n hd, e5⟩, rfl⟩

/-- C67, an empty result. -/
theorem C67_result_new (hw : m.WF) : Builds E m ResultObj.new fun o _ =>
    o.ndim = 0 ∧ o.dims = .null ∧ o.dtype = 0 ∧ o.device = 0 ∧ o.data = .null ∧ o.len = 0 := by
  have h : Mk ResultObj.new E m fun o _ _ => ∃ c, o = ⟨0, .null, 0, 0, .null, 0, .blk c⟩ := by
    refine (newCount_mk hw).bind ?_
    rintro _ m1 _ f ⟨c, rfl, rfl, hc⟩
    exact .pure f.wf ⟨c, rfl⟩
  refine h.builds hw ?_
  rintro _ _ _ - ⟨c, rfl⟩
  exact ⟨rfl, rfl, rfl, rfl, rfl, rfl⟩

/-! ## Copies, moves, assignments -/

theorem bindOk {α β : Type} {x : M α} {f : α → M β} {b : β} (h : (x >>= f) E m = .ok b m') : ∃ a m1, x E m = .ok a m1 ∧ f a E m1 = .ok b m' := by
  rw [run_bind] at h
  cases e : x E m with
  | ok a m1 => rw [e] at h; exact ⟨a, m1, rfl, h⟩
  | _ => rw [e] at h; cases h

theorem pureOk {α : Type} {a b : α} (h : (pure a : M α) E m = .ok b m') : b = a ∧ m' = m := by
  cases h; exact ⟨rfl, rfl⟩

/-- C67, a copy has all parts of the original. -/
theorem C67_copy {o o' : UnaryInput} (h : o.copy E m = .ok o' m') : o' = o := by
  obtain ⟨_, _, -, h⟩ := bindOk h
  exact (pureOk h).1

theorem C67_binary_copy {o o' : BinaryInput} (h : o.copy E m = .ok o' m') : o' = o := by
  obtain ⟨_, _, -, h⟩ := bindOk h
  exact (pureOk h).1

theorem C67_conv_copy {o o' : ConvInput} (h : o.copy E m = .ok o' m') : o' = o := by
  obtain ⟨_, _, h1, h⟩ := bindOk h
  rw [(pureOk h).1, C67_binary_copy h1]

theorem C67_result_copy {o o' : ResultObj} (h : o.copy E m = .ok o' m') : o' = o := by
  obtain ⟨_, _, -, h⟩ := bindOk h
  exact (pureOk h).1

/-- C67, a move always succeeds, gives all parts to the new object, touches no memory, and leaves the old object without buffers. -/
theorem C67_move (o : UnaryInput) : ∃ old, o.move E m = .ok (o, old) m ∧ old.dims = .null ∧ old.data = .null ∧ old.count = .null :=
  ⟨_, rfl, rfl, rfl, rfl⟩

theorem C67_binary_move (o : BinaryInput) : ∃ old, o.move E m = .ok (o, old) m ∧ old.dims1 = .null ∧ old.data1 = .null ∧
    old.dims2 = .null ∧ old.data2 = .null ∧ old.count = .null :=
  ⟨_, rfl, rfl, rfl, rfl, rfl, rfl⟩

theorem C67_result_move (o : ResultObj) : ∃ old, o.move E m = .ok (o, old) m ∧ old.dims = .null ∧ old.data = .null ∧ old.count = .null :=
  ⟨_, rfl, rfl, rfl, rfl⟩

/-- C67, an assignment gives the object all parts of the other one. -/
theorem C67_assign {o r o' : UnaryInput} (h : o.assign r E m = .ok o' m') : o' = r := by
  obtain ⟨_, _, -, h⟩ := bindOk h
  split at h
  · obtain ⟨_, _, -, h⟩ := bindOk h
    obtain ⟨_, _, -, h⟩ := bindOk h
    obtain ⟨_, _, -, h⟩ := bindOk h
    exact (pureOk h).1
  · obtain ⟨_, _, -, h⟩ := bindOk h
    exact (pureOk h).1

theorem C67_binary_assign {o r o' : BinaryInput} (h : o.assign r E m = .ok o' m') : o' = r := by
  obtain ⟨_, _, -, h⟩ := bindOk h
  split at h
  · obtain ⟨_, _, -, h⟩ := bindOk h
    obtain ⟨_, _, -, h⟩ := bindOk h
    obtain ⟨_, _, -, h⟩ := bindOk h
    obtain ⟨_, _, -, h⟩ := bindOk h
    obtain ⟨_, _, -, h⟩ := bindOk h
    exact (pureOk h).1
  · obtain ⟨_, _, -, h⟩ := bindOk h
    exact (pureOk h).1

/-- C67, attaching data changes the data and its length and nothing else. -/
theorem C67_setData (o : UnaryInput) (p : Ptr) (n : Nat) : (o.setData p n).data = p ∧ (o.setData p n).len = n ∧
    (o.setData p n).ndim = o.ndim ∧ (o.setData p n).dims = o.dims ∧ (o.setData p n).dtype = o.dtype ∧ (o.setData p n).device = o.device :=
  ⟨rfl, rfl, rfl, rfl, rfl, rfl⟩

theorem C67_binary_setData (o : BinaryInput) (p : Ptr) (n : Nat) :
    (o.setData1 p n).data1 = p ∧ (o.setData1 p n).len1 = n ∧ (o.setData1 p n).data2 = o.data2 ∧ (o.setData1 p n).len2 = o.len2 ∧
    (o.setData2 p n).data2 = p ∧ (o.setData2 p n).len2 = n ∧ (o.setData2 p n).data1 = o.data1 ∧ (o.setData2 p n).len1 = o.len1 :=
  ⟨rfl, rfl, rfl, rfl, rfl, rfl, rfl, rfl⟩

/-! ## Cases -/

/-- The conditions can be met. -/
example : rankOk 3 [2, 3, 4] ∧ (2 : Int) ≤ 3 ∧ (3 : Int) - 2 ≤ [5].length := by
  refine ⟨⟨by decide, by decide, by decide⟩, by decide, by decide⟩

/-- A convolution with stride 5, padding 6, dilation 7, copied. -/
example : (match (do
    let o ← ConvInput.ofVec 3 [1, 2, 3] 8 0 .null 0 3 [4, 2, 1] 8 0 .null 0 [5] [6] [7] 1
    let o' ← o.copy
    let s ← loadI o'.stride 0
    let p ← loadI o'.padding 0
    let d ← loadI o'.dilation 0
    return (s, p, d, o'.groups) : M (Int × Int × Int × Int)) okEnv Mem.empty with
  | .ok v _ => v == (5, 6, 7, 1)
  | _ => false) = true := by decide +kernel

end Aitisa
