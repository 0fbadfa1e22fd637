import Verif.Model.AutoTest

/-!
# Data of the auto-tests and comparison of the results

`/repo/auto_test/basic.cpp` and the fixtures and test bodies of `/repo/auto_test/test_code/*.h`.
-/

namespace Aitisa

/-- The `double` 0.1. -/
def POINT1 : BitVec 64 := 0x3FB999999999999A#64

/-- `(DATATYPE)i + 1` (`/repo/auto_test/basic.cpp` 14-19), or `(DATATYPE)i * 0.1 + 0.1` in `double` (20-25), converted to the
element type. -/
def naturalVal (fp : FloatOps) (c : Code) (i : Nat) : Except UB Val := do
  let v ← cCast fp c (.int i)
  match c with
  | .f32 | .f64 => cCast fp c (.f64 (fp.mac64 POINT1 (toDouble fp v) POINT1))
  | c => cBin fp c .add v (.int 1)

/-- The `switch (dtype)` of `/repo/auto_test/basic.cpp` 27-40, 61-74: the cases are the codes of the element types. -/
def switchCode (dtype : Int) : Option Code := if 0 ≤ dtype then Code.find dtype.toNat else none

/-- `natural_assign`, `/repo/auto_test/basic.cpp` 26-41; `len` is an `unsigned int`. -/
def naturalAssign (p : Ptr) (len : Nat) (dtype : Int) : M Unit :=
  match switchCode dtype with
  | none => pure ()
  | some c => loopN (fun i (_ : Unit) => do
      let fp ← getFp
      let w ← liftU (naturalVal fp c i)
      storeElem c p i w) (len / c.size) 0 ()

/-- What a distribution draws: an integer from 0 to 10, or any floating-point number.  (The engine is seeded with 0 at each call; in
the model the numbers are arbitrary.  The standard leaves `uniform_int_distribution` undefined for 8-bit types; here it draws from 0
to 10 as for the others.) -/
def randomVal (c : Code) (r : Nat) : Val :=
  match c with
  | .f32 => .f32 (BitVec.ofNat 32 r)
  | .f64 => .f64 (BitVec.ofNat 64 r)
  | _ => .int (r % 11 : Nat)

/-- `random_assign`, `/repo/auto_test/basic.cpp` 43-75. -/
def randomAssign (p : Ptr) (len : Nat) (dtype : Int) : M Unit :=
  match switchCode dtype with
  | none => pure ()
  | some c => loopN (fun i (_ : Unit) => do
      let r ← cRand
      storeElem c p i (randomVal c r)) (len / c.size) 0 ()

/-- Which of the two a fixture uses. -/
inductive Filler where
  | natural | random
  deriving DecidableEq, Repr

/-- The call. -/
def Filler.assign : Filler → Ptr → Nat → Int → M Unit
  | .natural => naturalAssign
  | .random => randomAssign

/-- `unsigned int nelem = 1; for(unsigned int j=0; j<ndim; j++) nelem *= dims[j];`, e.g.
`/repo/auto_test/test_code/activation_test.h` 32-35: the product is an `int64_t`, its conversion to `unsigned int` wraps. -/
def inputElems (ndim : Int) (dims : Ptr) : M Int :=
  forI ndim 1 fun j n => do
    let d ← loadI dims j
    let x ← i64 (n * d)
    return toU32 x

/-- `nelem * elem_size(dtype)`: unsigned arithmetic (`elem_size`: `/repo/auto_test/basic.h` 17). -/
def inputLen (nelem : Int) (dtype : Int) : M Nat := do
  let dt ← intToDtype dtype
  return (toU32 (nelem * dt.size)).toNat

/-- `new char[len]`. -/
def newBytes (len : Nat) : M Ptr := cppNew len (.bytes (List.replicate len none))

/-- The body of the loop of a fixture with unary inputs, `/repo/auto_test/test_code/activation_test.h` 31-40. -/
def UnaryInput.fill (g : Filler) (o : UnaryInput) : M UnaryInput := do
  let n ← inputElems o.ndim o.dims
  let len ← inputLen n o.dtype
  let p ← newBytes len
  g.assign p len o.dtype
  return o.setData p len

/-- The body of the loop of a fixture with binary inputs, `/repo/auto_test/test_code/binary_op_test.h` 39-62 (`matmul_test.h` 53-76,
`conv_test.h` 94-111). -/
def BinaryInput.fill (g : Filler) (o : BinaryInput) : M BinaryInput := do
  let n1 ← inputElems o.ndim1 o.dims1
  let n2 ← inputElems o.ndim2 o.dims2
  let len1 ← inputLen n1 o.dtype1
  let len2 ← inputLen n2 o.dtype2
  let p1 ← newBytes len1
  let p2 ← newBytes len2
  g.assign p1 len1 o.dtype1
  g.assign p2 len2 o.dtype2
  return (o.setData1 p1 len1).setData2 p2 len2

/-- `aitisa_create(aitisa_int_to_dtype(dtype), aitisa_int_to_device(0), dims, ndim, data, len, &tensor)`, e.g.
`/repo/auto_test/test_code/activation_test.h` 83-86; the status is not looked at. -/
def UnaryInput.tensor (o : UnaryInput) : M (Status × Ptr) := do
  let dt ← intToDtype o.dtype
  let dev ← intToDevice 0
  let ds ← derefI o.dims
  create dt dev ds o.ndim o.data o.len .indet

/-- The comparison of the dims, `/repo/auto_test/test_code/activation_test.h` 120-123: the number of elements, or a failed assertion
of the test. -/
def sameDims (a u : Resolved) : M (Int ⊕ Unit) :=
  loopE (fun j (n : Int) => do
    let d ← loadI a.dims j
    let n' ← i64 (n * d)
    let d' ← loadI u.dims j
    if d ≠ d' then return .inr () else return .inl n') a.ndim.toNat 0 1

/-- The comparison of the elements, `/repo/auto_test/test_code/activation_test.h` 126-140; `close` is the assertion for two elements. -/
def sameData (c : Code) (close : Val → Val → Bool) (a u : Ptr) (n : Int) : M Bool := do
  match ← loopE (fun j (_ : Unit) => do
      let x ← loadElem c a j
      let y ← loadElem c u j
      if close x y then return .inl () else return .inr ()) n.toNat 0 () with
  | .inl _ => return true
  | .inr _ => return false

/-- The comparison of the result `a` of the library with the result `u` of the user, `/repo/auto_test/test_code/activation_test.h`
114-140, `binary_op_test.h` 146-195, `matmul_test.h` 164-195, `conv_test.h` 203-218: does the test pass?  `dev` is the device that is
asked for (none: that of `a`), `c` the element type of the case. -/
def compareResults (dev : Option Nat) (c : Code) (close : Val → Val → Bool) (a u : Resolved) : M Bool := do
  if a.ndim ≠ u.ndim then return false
  if dev.getD a.device.type ≠ u.device.type then return false
  if a.dtype.code ≠ u.dtype.code then return false
  match ← sameDims a u with
  | .inr _ => return false
  | .inl n =>
    if a.len ≠ u.len then return false
    sameData c close a.data u.data n

end Aitisa
