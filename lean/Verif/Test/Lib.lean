import Verif.Spec.Ieee
import Verif.Spec.Example
import Verif.Model.Basic
import Verif.Model.Core

/-!
# Running the unit tests of the repository in the model: the pieces

The files of this directory replay `/repo/test/*.cpp` in the model, with IEEE 754 arithmetic and an allocator that never
refuses. They are tests of the model, not proofs of a property: each runs one fixed program. They show that the model
computes the very numbers the authors of the code expected. Beyond what the C++ tests look at, each also checks that no
undefined behaviour occurred and that everything allocated was released.
-/

namespace Aitisa.Replay

/-- The machine the tests run on. -/
def machine : Env := ⟨fun _ _ => true, fun _ _ => true, fun n => (n * 1103515245 + 12345) % 2147483648, true, ieee⟩

/-- A decimal constant `n / d` of type `double` (`d` a power of ten; both exact, so the quotient is the nearest double). -/
def lit (n : Int) (d : Nat) : BitVec 64 := ieee.div64 (ieee.ofInt64 n) (ieee.ofInt64 d)

/-- The same as the initialiser of a `float`. -/
def litF (n : Int) (d : Nat) : BitVec 32 := ieee.narrow (lit n d)

def cpu : Device := ⟨DEVICE_CPU, 0⟩

/-- `aitisa_create(dtype, device, dims, ndim, NULL, 0, &t)`. -/
def make (c : Code) (dims : List Int) : M Ptr := do
  let (_, t) ← create c.dtype cpu (Arr.of dims) dims.length .null 0 .indet
  return t

/-- `aitisa_full(dtype, device, dims, ndim, value, &t)`. -/
def filled (c : Code) (dims : List Int) (v : BitVec 64) : M Ptr := do
  let (_, t) ← full c.dtype cpu (Arr.of dims) dims.length v .indet
  return t

/-- The loops `for (i = 0; i < size; ++i) data[i] = f(i)` of the tests (one write of the whole array). -/
def assign (c : Code) (t : Ptr) (f : Nat → Val) : M Unit := do
  let n ← tSize t
  let p ← tData t
  let bs ← derefB p
  let ys := ((List.range n.toNat).map f).flatMap fun v => (encVal c v).map some
  if ys.length ≤ bs.length then putBody p (.bytes (splice bs 0 ys)) else ubM .outOfBounds

/-- `data[i] = i * x` in `double`, stored as `float`. -/
def ramp (x : BitVec 64) (i : Nat) : Val := .f32 (ieee.narrow (ieee.mul64 (ieee.ofInt64 i) x))

/-- The usual assignment `data[i] = i * 0.1`. -/
def r1 : Nat → Val := ramp (lit 1 10)

/-- `data[i] = i * x + y` in `double`. -/
def rampD (x y : BitVec 64) (i : Nat) : Val := .f64 (ieee.add64 (ieee.mul64 (ieee.ofInt64 i) x) y)

/-- `data[i] = i * k` for `int32_t`. -/
def rampI (k : Nat) (i : Nat) : Val := .int (i * k : Nat)

/-- The elements of a tensor. -/
def items (c : Code) (t : Ptr) : M (List Val) := do
  let n ← tSize t
  let p ← tData t
  let bs ← derefB p
  liftU ((List.range n.toNat).mapM fun (i : Nat) => rdElem c bs i)

/-- The dims of a tensor. -/
def shapeOf (t : Ptr) : M Arr := tDimsArr t

/-- `aitisa_destroy` on each, then: is nothing left? -/
def finish : List Ptr → M Bool
  | [] => fun _ m => .ok ((List.range m.next).all fun b => (m.blk b).isNone) m
  | t :: r => do
    let _ ← destroy t
    finish r

/-- `abs(a - b) < tol` on floats. -/
def near32 (tol : BitVec 64) : Val → Val → Bool
  | .f32 a, .f32 b =>
    let d := ieee.sub32 a b
    ieee.lt64 (ieee.widen (if b32.signBit ≤ d.toNat then ieee.neg32 d else d)) tol
  | _, _ => false

/-- `abs(a - b) < 0.00001`. -/
def n5 : Val → Val → Bool := near32 (lit 1 100000)

/-- `abs(a - b) < tol` on doubles. -/
def near64 (tol : BitVec 64) : Val → Val → Bool
  | .f64 a, .f64 b =>
    let d := ieee.sub64 a b
    ieee.lt64 (if b64.signBit ≤ d.toNat then ieee.neg64 d else d) tol
  | _, _ => false

/-- `EXPECT_FLOAT_EQ(a, b)`: at most four units in the last place apart. -/
def ulps4 : Val → Val → Bool
  | .f32 a, .f32 b => !b32.isNaN a.toNat && !b32.isNaN b.toNat && decide ((b32.key a.toNat - b32.key b.toNat).natAbs ≤ 4)
  | _, _ => false

/-- Both lists have the same length and agree pairwise. -/
def agree (r : Val → Val → Bool) : List Val → List Val → Bool
  | [], [] => true
  | a :: as, b :: bs => r a b && agree r as bs
  | _, _ => false

/-- The floats of decimals with `d` in the denominator. -/
def floats (d : Nat) (l : List Int) : List Val := l.map fun n => .f32 (litF n d)

def doubles (d : Nat) (l : List Int) : List Val := l.map fun n => .f64 (lit n d)

def ints (l : List Int) : List Val := l.map .int

/-- The program runs to the end and answers yes. -/
def passes (x : M Bool) : Bool :=
  match x machine Mem.empty with
  | .ok b _ => b
  | _ => false

/-- A test with one input: create, assign, run, compare dims (unless the test does not) and elements, destroy. -/
def unary (c c' : Code) (dims : List Int) (f : Nat → Val) (run : Ptr → M (Status × Ptr)) (r : Val → Val → Bool) (odims : Option (List Int))
    (want : List Val) : Bool :=
  passes do
    let h ← make c dims
    assign c h f
    let (st, o) ← run h
    let ds ← shapeOf o
    let xs ← items c' o
    let e ← finish [h, o]
    return st == .success && (match odims with | some l => ds == Arr.of l | none => true) && agree r xs want && e

/-- A test with two inputs. -/
def binary (c : Code) (d1 d2 : List Int) (f g : Nat → Val) (run : Ptr → Ptr → M (Status × Ptr)) (r : Val → Val → Bool) (odims : Option (List Int))
    (want : List Val) : Bool :=
  passes do
    let h1 ← make c d1
    let h2 ← make c d2
    assign c h1 f
    assign c h2 g
    let (st, o) ← run h1 h2
    let ds ← shapeOf o
    let xs ← items c o
    let e ← finish [h1, h2, o]
    return st == .success && (match odims with | some l => ds == Arr.of l | none => true) && agree r xs want && e

end Aitisa.Replay
