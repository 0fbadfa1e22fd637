import Verif.Model.Core

/-!
# The input and result objects of the auto-test framework

`/repo/auto_test/sample.h`, `/repo/auto_test/sample.cpp`, and the class `Conv_Input` of
`/repo/auto_test/test_code/conv_test.h`.  Objects are values (the framework keeps them on the stack or inside other objects); the
buffers and the counter they point to are blocks of the heap.

Simplifications: `new`/`delete` and `malloc`/`free` use the same heap (the code itself mixes them: `aitisa_destroy` releases buffers
made with `new char[]`), and `delete []` releases a block whatever the element type (the code deletes `int64_t` arrays through
`char *`).  A failing `new` throws an exception that nobody catches: the outcome is `abort`.  The counter is an array of one integer.
-/

namespace Aitisa

/-- `new`: throws if there is no memory. -/
def cppNew (sz : Nat) (b : Body) : M Ptr := fun E m =>
  if E.mallocOk m.tick sz then
    .ok (.blk m.next)
      { m with next := m.next + 1, tick := m.tick + 1, blk := upd m.blk m.next (some ⟨.own, b⟩) }
  else .abort

/-- `new int64_t[n]`: throws if `n` is negative or too large. -/
def newInt64s (n : Int) : M Ptr :=
  if 0 ≤ n ∧ 8 * n ≤ I64_MAX then cppNew (8 * n).toNat (.i64s (List.replicate n.toNat none)) else fun _ _ => .abort

/-- `new char[len]` followed by an assignment of all bytes (`/repo/auto_test/test_code/activation_test.h` 37-38). -/
def newChars (bs : List Byte) : M Ptr := cppNew bs.length (.bytes bs)

/-- `new int[n]`, filled from the first `n` elements of a `std::vector` (indexing outside is undefined); throws if `n` is negative. -/
def newInts (n : Int) (l : List Int) : M Ptr :=
  if n < 0 then fun _ _ => .abort
  else if n ≤ l.length then cppNew (4 * n).toNat (.i64s (Arr.of (l.take n.toNat))) else ubM .outOfBounds

/-- `count_ = new int; *count_ = 1;` -/
def newCount : M Ptr := do
  let c ← cppNew 4 (.i64s [none])
  storeI c 0 1
  return c

/-- `(*count_)--`, then `*count_`. -/
def decCount (c : Ptr) : M Int := do
  let n ← loadI c 0
  let n' ← i32 (n - 1)
  storeI c 0 n'
  loadI c 0

/-- `(*count_)++` -/
def incCount (c : Ptr) : M Unit := do
  let n ← loadI c 0
  let n' ← i32 (n + 1)
  storeI c 0 n'

/-- `dims_ = new int64_t[ndim]; for(...) dims_[i] = dims[i];` with `dims` a `std::vector` (indexing outside is undefined),
`/repo/auto_test/sample.cpp` 16-19. -/
def newDims (ndim : Int) (dims : List Int) : M Ptr := do
  let p ← newInt64s ndim
  forI ndim () fun i _ => do
    let d ← Arr.rd (Arr.of dims) i
    storeI p i d
  return p

/-! ## `Unary_Input` -/

/-- `class Unary_Input`, `/repo/auto_test/sample.h` 12-51. -/
structure UnaryInput where
  ndim : Int
  dims : Ptr
  dtype : Int
  device : Int
  data : Ptr
  len : Nat
  count : Ptr
  deriving DecidableEq, Repr

/-- `Unary_Input()`, `/repo/auto_test/sample.h` 14. -/
def UnaryInput.new : M UnaryInput := do
  let c ← newCount
  return ⟨0, .null, 0, 0, .null, 0, c⟩

/-- Constructor from buffers, `/repo/auto_test/sample.cpp` 6-11. -/
def UnaryInput.ofPtr (ndim : Int) (dims : Ptr) (dtype device : Int) (data : Ptr) (len : Nat) : M UnaryInput := do
  let c ← newCount
  return ⟨ndim, dims, dtype, device, data, len, c⟩

/-- Constructor from a vector of dims, `/repo/auto_test/sample.cpp` 13-22. -/
def UnaryInput.ofVec (ndim : Int) (dims : List Int) (dtype device : Int) (data : Ptr) (len : Nat) : M UnaryInput := do
  let p ← newDims ndim dims
  let c ← newCount
  return ⟨ndim, p, dtype, device, data, len, c⟩

/-- Copy constructor, `/repo/auto_test/sample.cpp` 24-29. -/
def UnaryInput.copy (o : UnaryInput) : M UnaryInput := do
  incCount o.count
  return ⟨o.ndim, o.dims, o.dtype, o.device, o.data, o.len, o.count⟩

/-- `to_nullptr`, `/repo/auto_test/sample.h` 42. -/
def UnaryInput.toNull (o : UnaryInput) : UnaryInput := { o with count := .null, dims := .null, data := .null }

/-- Move constructor, `/repo/auto_test/sample.cpp` 31-36: the new object and the old one. -/
def UnaryInput.move (o : UnaryInput) : M (UnaryInput × UnaryInput) :=
  return (⟨o.ndim, o.dims, o.dtype, o.device, o.data, o.len, o.count⟩, o.toNull)

/-- `operator=`, `/repo/auto_test/sample.cpp` 38-53: the new value of `*this`. -/
def UnaryInput.assign (this right : UnaryInput) : M UnaryInput := do
  let n ← decCount this.count
  if n = 0 then
    rawFree this.dims
    rawFree this.data
  incCount right.count
  return ⟨right.ndim, right.dims, right.dtype, right.device, right.data, right.len, right.count⟩

/-- Destructor, `/repo/auto_test/sample.h` 21-30. -/
def UnaryInput.dtor (o : UnaryInput) : M Unit := do
  if o.count ≠ .null then
    let n ← decCount o.count
    if n = 0 then
      rawFree o.dims
      rawFree o.data
      rawFree o.count

/-- `set_data`, `/repo/auto_test/sample.h` 40. -/
def UnaryInput.setData (o : UnaryInput) (data : Ptr) (len : Nat) : UnaryInput := { o with data := data, len := len }

/-! ## `Binary_Input` -/

/-- `class Binary_Input`, `/repo/auto_test/sample.h` 53-117. -/
structure BinaryInput where
  ndim1 : Int
  dims1 : Ptr
  dtype1 : Int
  device1 : Int
  data1 : Ptr
  len1 : Nat
  ndim2 : Int
  dims2 : Ptr
  dtype2 : Int
  device2 : Int
  data2 : Ptr
  len2 : Nat
  count : Ptr
  deriving DecidableEq, Repr

/-- `Binary_Input()`, `/repo/auto_test/sample.h` 55. -/
def BinaryInput.new : M BinaryInput := do
  let c ← newCount
  return ⟨0, .null, 0, 0, .null, 0, 0, .null, 0, 0, .null, 0, c⟩

/-- Constructor from buffers, `/repo/auto_test/sample.cpp` 55-63. -/
def BinaryInput.ofPtr (ndim1 : Int) (dims1 : Ptr) (dtype1 device1 : Int) (data1 : Ptr) (len1 : Nat)
    (ndim2 : Int) (dims2 : Ptr) (dtype2 device2 : Int) (data2 : Ptr) (len2 : Nat) : M BinaryInput := do
  let c ← newCount
  return ⟨ndim1, dims1, dtype1, device1, data1, len1, ndim2, dims2, dtype2, device2, data2, len2, c⟩

/-- Constructor from vectors of dims, `/repo/auto_test/sample.cpp` 65-81. The model fills the first array before it makes the second;
the code makes both and then fills both. -/
def BinaryInput.ofVec (ndim1 : Int) (dims1 : List Int) (dtype1 device1 : Int) (data1 : Ptr) (len1 : Nat)
    (ndim2 : Int) (dims2 : List Int) (dtype2 device2 : Int) (data2 : Ptr) (len2 : Nat) : M BinaryInput := do
  let p1 ← newDims ndim1 dims1
  let p2 ← newDims ndim2 dims2
  let c ← newCount
  return ⟨ndim1, p1, dtype1, device1, data1, len1, ndim2, p2, dtype2, device2, data2, len2, c⟩

/-- Copy constructor, `/repo/auto_test/sample.cpp` 83-90. -/
def BinaryInput.copy (o : BinaryInput) : M BinaryInput := do
  incCount o.count
  return ⟨o.ndim1, o.dims1, o.dtype1, o.device1, o.data1, o.len1, o.ndim2, o.dims2, o.dtype2, o.device2, o.data2, o.len2, o.count⟩

/-- `to_nullptr`, `/repo/auto_test/sample.h` 96-102. -/
def BinaryInput.toNull (o : BinaryInput) : BinaryInput :=
  { o with count := .null, dims1 := .null, dims2 := .null, data1 := .null, data2 := .null }

/-- Move constructor, `/repo/auto_test/sample.cpp` 92-99. -/
def BinaryInput.move (o : BinaryInput) : M (BinaryInput × BinaryInput) :=
  return (⟨o.ndim1, o.dims1, o.dtype1, o.device1, o.data1, o.len1, o.ndim2, o.dims2, o.dtype2, o.device2, o.data2, o.len2, o.count⟩,
    o.toNull)

/-- `operator=`, `/repo/auto_test/sample.cpp` 101-124. -/
def BinaryInput.assign (this right : BinaryInput) : M BinaryInput := do
  let n ← decCount this.count
  if n = 0 then
    rawFree this.dims1
    rawFree this.dims2
    rawFree this.data1
    rawFree this.data2
  incCount right.count
  return ⟨right.ndim1, right.dims1, right.dtype1, right.device1, right.data1, right.len1,
    right.ndim2, right.dims2, right.dtype2, right.device2, right.data2, right.len2, right.count⟩

/-- Destructor, `/repo/auto_test/sample.h` 66-77. -/
def BinaryInput.dtor (o : BinaryInput) : M Unit := do
  if o.count ≠ .null then
    let n ← decCount o.count
    if n = 0 then
      rawFree o.dims1
      rawFree o.dims2
      rawFree o.data1
      rawFree o.data2
      rawFree o.count

/-- `set_data1`, `/repo/auto_test/sample.h` 93. -/
def BinaryInput.setData1 (o : BinaryInput) (data : Ptr) (len : Nat) : BinaryInput := { o with data1 := data, len1 := len }

/-- `set_data2`, `/repo/auto_test/sample.h` 94. -/
def BinaryInput.setData2 (o : BinaryInput) (data : Ptr) (len : Nat) : BinaryInput := { o with data2 := data, len2 := len }

/-! ## `Result` -/

/-- `class Result`, `/repo/auto_test/sample.h` 119-155. -/
structure ResultObj where
  ndim : Int
  dims : Ptr
  dtype : Int
  device : Int
  data : Ptr
  len : Nat
  count : Ptr
  deriving DecidableEq, Repr

/-- `Result()`, `/repo/auto_test/sample.h` 121. -/
def ResultObj.new : M ResultObj := do
  let c ← newCount
  return ⟨0, .null, 0, 0, .null, 0, c⟩

/-- Copy constructor, `/repo/auto_test/sample.cpp` 126-131. -/
def ResultObj.copy (o : ResultObj) : M ResultObj := do
  incCount o.count
  return ⟨o.ndim, o.dims, o.dtype, o.device, o.data, o.len, o.count⟩

/-- `to_nullptr`, `/repo/auto_test/sample.h` 142-146. -/
def ResultObj.toNull (o : ResultObj) : ResultObj := { o with dims := .null, data := .null, count := .null }

/-- Move constructor, `/repo/auto_test/sample.cpp` 133-138. -/
def ResultObj.move (o : ResultObj) : M (ResultObj × ResultObj) :=
  return (⟨o.ndim, o.dims, o.dtype, o.device, o.data, o.len, o.count⟩, o.toNull)

/-- Destructor, `/repo/auto_test/sample.h` 124-132: the counter is not deleted. -/
def ResultObj.dtor (o : ResultObj) : M Unit := do
  if o.count ≠ .null then
    let n ← decCount o.count
    if n = 0 then
      rawFree o.dims
      rawFree o.data

/-- `set_result`, `/repo/auto_test/sample.cpp` 140-150; `memcpy` from a null pointer is undefined even for no bytes. -/
def ResultObj.setResult (o : ResultObj) (ndim : Int) (dims : Ptr) (dtype device : Int) (data : Ptr) (len : Nat) : M ResultObj := do
  let d ← newInt64s ndim
  let p ← cppNew len (.bytes (List.replicate len none))
  let ds ← derefI dims
  if ndim ≤ ds.length then putBody d (.i64s (ds.take ndim.toNat)) else ubM .outOfBounds
  let bs ← derefB data
  if len ≤ bs.length then putBody p (.bytes (bs.take len)) else ubM .outOfBounds
  return { o with ndim := ndim, dtype := dtype, device := device, len := len, dims := d, data := p }

/-! ## `Conv_Input` -/

/-- `class Conv_Input`, `/repo/auto_test/test_code/conv_test.h` 16-70. -/
structure ConvInput where
  base : BinaryInput
  stride : Ptr
  padding : Ptr
  dilation : Ptr
  groups : Int
  deriving DecidableEq, Repr

/-- `Conv_Input()`, `/repo/auto_test/test_code/conv_test.h` 18 and 66-69. -/
def ConvInput.new : M ConvInput := do
  let b ← BinaryInput.new
  return ⟨b, .null, .null, .null, 1⟩

/-- Constructor from buffers, `/repo/auto_test/test_code/conv_test.h` 19-26. -/
def ConvInput.ofPtr (ndim1 : Int) (dims1 : Ptr) (dtype1 device1 : Int) (data1 : Ptr) (len1 : Nat)
    (ndim2 : Int) (dims2 : Ptr) (dtype2 device2 : Int) (data2 : Ptr) (len2 : Nat) (stride padding dilation : Ptr) (groups : Int) :
    M ConvInput := do
  let b ← BinaryInput.ofPtr ndim1 dims1 dtype1 device1 data1 len1 ndim2 dims2 dtype2 device2 data2 len2
  return ⟨b, stride, padding, dilation, groups⟩

/-- Constructor from vectors, `/repo/auto_test/test_code/conv_test.h` 27-45. The model fills each array before it makes the next; the code
makes the three and then fills them. The conversion of `ndim1 - 2` to `int` is left out. -/
def ConvInput.ofVec (ndim1 : Int) (dims1 : List Int) (dtype1 device1 : Int) (data1 : Ptr) (len1 : Nat)
    (ndim2 : Int) (dims2 : List Int) (dtype2 device2 : Int) (data2 : Ptr) (len2 : Nat) (stride padding dilation : List Int) (groups : Int) :
    M ConvInput := do
  let b ← BinaryInput.ofVec ndim1 dims1 dtype1 device1 data1 len1 ndim2 dims2 dtype2 device2 data2 len2
  let s ← newInts (ndim1 - 2) stride
  let p ← newInts (ndim1 - 2) padding
  let d ← newInts (ndim1 - 2) dilation
  return ⟨b, s, p, d, groups⟩

/-- The copy constructor, which the class does not declare: member by member. -/
def ConvInput.copy (o : ConvInput) : M ConvInput := do
  let b ← o.base.copy
  return ⟨b, o.stride, o.padding, o.dilation, o.groups⟩

/-- Destructor, `/repo/auto_test/test_code/conv_test.h` 46-50, then that of the base class. -/
def ConvInput.dtor (o : ConvInput) : M Unit := do
  rawFree o.stride
  rawFree o.padding
  rawFree o.dilation
  o.base.dtor

/-- `operator=`, `/repo/auto_test/test_code/conv_test.h` 51-61: `groups_` is not copied and the old arrays are not deleted. The
function ends without `return`, which is undefined behaviour in C++ even if the result is not used. -/
def ConvInput.assign (this right : ConvInput) : M ConvInput := do
  let _ ← this.base.assign right.base
  let s ← derefI right.stride
  let p ← derefI right.padding
  let d ← derefI right.dilation
  let _ ← cppNew (4 * s.length) (.i64s s)
  let _ ← cppNew (4 * p.length) (.i64s p)
  let _ ← cppNew (4 * d.length) (.i64s d)
  ubM .missingReturn

/-! ## `get_binary_sample` -/

/-- `Sample<Binary_Input>`, `/repo/auto_test/sample.h` 157-180. -/
structure BinarySample where
  input : BinaryInput
  result : ResultObj
  deriving DecidableEq, Repr

/-- Destructor of the sample: members in reverse order. -/
def BinarySample.dtor (s : BinarySample) : M Unit := do
  s.result.dtor
  s.input.dtor

/-- The element types by number, `/repo/auto_test/basic.cpp` 6-10: indexing outside the table is undefined. -/
def intToDtype (n : Int) : M DType :=
  if 0 ≤ n ∧ n < 10 then
    match Code.find n.toNat with
    | some c => pure c.dtype
    | none => ubM .outOfBounds
  else ubM .outOfBounds

/-- The devices by number, `/repo/auto_test/basic.cpp` 11-12. -/
def intToDevice (n : Int) : M Device :=
  if 0 ≤ n ∧ n < 2 then pure ⟨n.toNat, 0⟩ else ubM .outOfBounds

/-- `get_binary_sample`, `/repo/auto_test/sample.h` 189-221, where `input` is the chosen input of the test object, `kernel` its kernel.
The statuses of `aitisa_create` and the kernel are not looked at. The destruction of the test object is
not part of the model of this function. -/
def getBinarySample (kernel : Ptr → Ptr → Ptr → M (Status × Ptr)) (input : BinaryInput) : M BinarySample := do
  let i0 ← BinaryInput.new
  let r0 ← ResultObj.new
  let i ← i0.assign input
  let dt1 ← intToDtype i.dtype1
  let dt2 ← intToDtype i.dtype2
  let dev1 ← intToDevice i.device1
  let dev2 ← intToDevice i.device2
  let ds1 ← derefI i.dims1
  let (_, t1) ← create dt1 dev1 ds1 i.ndim1 i.data1 i.len1 .indet
  let ds2 ← derefI i.dims2
  let (_, t2) ← create dt2 dev2 ds2 i.ndim2 i.data2 i.len2 .indet
  let (_, t) ← kernel t1 t2 .indet
  let z ← resolve t
  let r ← r0.setResult z.ndim z.dims z.dtype.code z.device.type z.data z.len.toNat
  let _ ← destroy t1
  let _ ← destroy t2
  let _ ← destroy t
  return ⟨i, r⟩

end Aitisa
