import Verif.Model.Base

/-!
# Element types and C arithmetic

`/repo/src/core/types.h`, `/repo/src/core/types.c`: the ten element types, their byte encoding
(little-endian, two's complement), typed loads and stores, and the C rules for arithmetic and
conversions on them.
-/

namespace Aitisa

/-- The ten defined values of `TypeCode`, `/repo/src/core/types.h` 10-22. -/
inductive Code where
  | i8 | u8 | i16 | u16 | i32 | u32 | i64 | u64 | f32 | f64
  deriving DecidableEq, Repr, Inhabited

/-- Numeric value of the enumeration constant, `/repo/src/core/types.h` 10-22. -/
def Code.toNat : Code → Nat
  | .i8 => 0 | .u8 => 1 | .i16 => 2 | .u16 => 3 | .i32 => 4
  | .u32 => 5 | .i64 => 6 | .u64 => 7 | .f32 => 8 | .f64 => 9

/-- Inverse of `Code.toNat`; `none` for values that are not enumeration constants (including
`TYPE_NTYPES`).  Models the case labels of `/repo/src/core/dispatch.h` 31-45 and the index range of the
function tables `/repo/src/core/types.c` 145-171. -/
def Code.find : Nat → Option Code
  | 0 => some .i8 | 1 => some .u8 | 2 => some .i16 | 3 => some .u16 | 4 => some .i32
  | 5 => some .u32 | 6 => some .i64 | 7 => some .u64 | 8 => some .f32 | 9 => some .f64
  | _ => none

/-- `sizeof` of the element type. -/
def Code.size : Code → Nat
  | .i8 | .u8 => 1
  | .i16 | .u16 => 2
  | .i32 | .u32 | .f32 => 4
  | .i64 | .u64 | .f64 => 8

/-- Signed integer type? -/
def Code.signed : Code → Bool
  | .i8 | .i16 | .i32 | .i64 => true
  | _ => false

/-- Integer type? -/
def Code.isInt : Code → Bool
  | .f32 | .f64 => false
  | _ => true

/-- The constants `kInt8 ... kDouble`, `/repo/src/core/types.c` 10-23. -/
def Code.dtype (c : Code) : DType := ⟨c.toNat, c.size⟩

/-- A value of an element type. -/
inductive Val where
  | int (n : Int)
  | f32 (b : BitVec 32)
  | f64 (b : BitVec 64)
  deriving DecidableEq, Repr, Inhabited

/-- Least value of an integer type. -/
def Code.lo (c : Code) : Int := if c.signed then -(2 ^ (8 * c.size - 1)) else 0

/-- Greatest value of an integer type. -/
def Code.hi (c : Code) : Int := if c.signed then 2 ^ (8 * c.size - 1) - 1 else 2 ^ (8 * c.size) - 1

/-- Conversion of an integer to an integer type: reduction modulo `2^bits` into the range. -/
def Code.wrap (c : Code) (n : Int) : Int := (n - c.lo) % 2 ^ (8 * c.size) + c.lo

/-- Little-endian bytes of a natural number. -/
def leBytes : Nat → Nat → List UInt8
  | 0, _ => []
  | k + 1, x => UInt8.ofNat x :: leBytes k (x / 256)

/-- Natural number of little-endian bytes. -/
def fromLE : List UInt8 → Nat
  | [] => 0
  | b :: bs => b.toNat + 256 * fromLE bs

/-- Object representation of a value as an element of type `c`. -/
def encVal (c : Code) : Val → List UInt8
  | .int n => leBytes c.size (n % 2 ^ (8 * c.size)).toNat
  | .f32 b => leBytes c.size b.toNat
  | .f64 b => leBytes c.size b.toNat

/-- Value represented by bytes read as type `c`. -/
def decVal (c : Code) (bs : List UInt8) : Val :=
  match c with
  | .f32 => .f32 (BitVec.ofNat 32 (fromLE bs))
  | .f64 => .f64 (BitVec.ofNat 64 (fromLE bs))
  | c => .int (c.wrap (fromLE bs))

/-- All bytes initialised? -/
def allInit : List Byte → Option (List UInt8)
  | [] => some []
  | none :: _ => none
  | some b :: r => (allInit r).map (b :: ·)

/-- Typed read of element `i` from the bytes of a block:
`((type_t *)addr)[i]`, `/repo/src/core/types.c` 104-119, with the bounds check of the model. -/
def rdElem (c : Code) (bs : List Byte) (i : Int) : Except UB Val :=
  if 0 ≤ i ∧ (i + 1) * c.size ≤ bs.length then
    match allInit ((bs.drop (i.toNat * c.size)).take c.size) with
    | some l => .ok (decVal c l)
    | none => .error .uninit
  else .error .outOfBounds

/-- Overwrite `src.length` bytes of `bs` starting at `off` (the caller checks the bounds). -/
def splice (bs : List Byte) (off : Nat) (src : List Byte) : List Byte :=
  bs.take off ++ src ++ bs.drop (off + src.length)

/-- Typed write of element `i`: `((type_t *)addr)[i] = value`, `/repo/src/core/types.c` 128-143. -/
def wrElem (c : Code) (bs : List Byte) (i : Int) (v : Val) : Except UB (List Byte) :=
  if 0 ≤ i ∧ (i + 1) * c.size ≤ bs.length then
    .ok (splice bs (i.toNat * c.size) ((encVal c v).map some))
  else .error .outOfBounds

/-- Lift a pure computation that may be undefined. -/
def liftU {α : Type} : Except UB α → M α
  | .ok a => pure a
  | .error u => ubM u

/-- Load element `i` of the typed array at `p`. -/
def loadElem (c : Code) (p : Ptr) (i : Int) : M Val := do
  let bs ← derefB p
  liftU (rdElem c bs i)

/-- Store element `i` of the typed array at `p`. -/
def storeElem (c : Code) (p : Ptr) (i : Int) (v : Val) : M Unit := do
  let bs ← derefB p
  let bs' ← liftU (wrElem c bs i v)
  putBody p (.bytes bs')

/-- `memcpy(dst, src, n)` between the bases of two data blocks. -/
def memcpyB (dst src : Ptr) (n : Nat) : M Unit := do
  let s ← derefB src
  let d ← derefB dst
  if n ≤ s.length ∧ n ≤ d.length then putBody dst (.bytes (splice d 0 (s.take n)))
  else ubM .outOfBounds

/-- Lookup in one of the function tables indexed by `dtype.code`, `/repo/src/core/types.c` 145-191:
reading past the table is undefined. -/
def tableCode (d : DType) : M Code :=
  match Code.find d.code with
  | some c => pure c
  | none => ubM .outOfBounds

/-- The four arithmetic operators of `/repo/src/math/binary_op.c`. -/
inductive BinOp where
  | add | sub | mul | div
  deriving DecidableEq, Repr

/-- Type in which C evaluates arithmetic on operands of integer type `c` (integer promotion). -/
def Code.promote (c : Code) : Code := if c.size < 4 then .i32 else c

/-- Exact result of an integer operator (truncating division); `none` for division by zero. -/
def BinOp.exact : BinOp → Int → Int → Option Int
  | .add, a, b => some (a + b)
  | .sub, a, b => some (a - b)
  | .mul, a, b => some (a * b)
  | .div, a, b => if b = 0 then none else some (a.tdiv b)

/-- `a op b` evaluated in the (promoted) integer type `p`: signed overflow is undefined, unsigned
arithmetic wraps. -/
def evalInt (p : Code) (op : BinOp) (a b : Int) : Except UB Int :=
  match op.exact a b with
  | none => .error .divZero
  | some r =>
    if p.signed then (if p.lo ≤ r ∧ r ≤ p.hi then .ok r else .error .overflow)
    else .ok (p.wrap r)

/-- `type_t result = a op b` for operands of element type `c`
(the `calc_*_value` functions of `/repo/src/math/binary_op.c` 5-193). -/
def cBin (fp : FloatOps) (c : Code) (op : BinOp) : Val → Val → Except UB Val
  | .int a, .int b => (evalInt c.promote op a b).map fun r => .int (c.wrap r)
  | .f32 a, .f32 b =>
    .ok (.f32 (match op with
      | .add => fp.add32 a b | .sub => fp.sub32 a b | .mul => fp.mul32 a b | .div => fp.div32 a b))
  | .f64 a, .f64 b =>
    .ok (.f64 (match op with
      | .add => fp.add64 a b | .sub => fp.sub64 a b | .mul => fp.mul64 a b | .div => fp.div64 a b))
  | _, _ => .error .typeConfusion

/-- C conversion of a value to element type `c`.  Floating to integer truncates and is undefined
outside the range; the other conversions are total. -/
def cCast (fp : FloatOps) (c : Code) (v : Val) : Except UB Val :=
  match c with
  | .f32 => .ok (.f32 (match v with
      | .int n => fp.ofInt32 n | .f32 b => b | .f64 b => fp.narrow b))
  | .f64 => .ok (.f64 (match v with
      | .int n => fp.ofInt64 n | .f32 b => fp.widen b | .f64 b => b))
  | c =>
    match v with
    | .int n => .ok (.int (c.wrap n))
    | .f32 b =>
      match fp.trunc32 b with
      | some n => if c.lo ≤ n ∧ n ≤ c.hi then .ok (.int n) else .error .badCast
      | none => .error .badCast
    | .f64 b =>
      match fp.trunc64 b with
      | some n => if c.lo ≤ n ∧ n ≤ c.hi then .ok (.int n) else .error .badCast
      | none => .error .badCast

/-- Conversion to `double`. -/
def toDouble (fp : FloatOps) : Val → BitVec 64
  | .int n => fp.ofInt64 n
  | .f32 b => fp.widen b
  | .f64 b => b

end Aitisa
