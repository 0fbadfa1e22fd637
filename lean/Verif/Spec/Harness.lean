import Verif.Spec.Arith
import Verif.Spec.Ieee
import Verif.Model.Harness

/-!
# Specification vocabulary: data of the auto-tests

Which values the buffers of the tests are meant to hold, and when a comparison of two results is meant to succeed.
-/

namespace Aitisa

/-- The double nearest to one tenth: the rounded quotient of 1 and 10 (`C54_one_tenth` shows that no double is nearer). -/
def oneTenth : BitVec 64 := BitVec.ofNat 64 (b64.div (b64.ofInt 1) (b64.ofInt 10))

/-- The element with index `i` of the natural numbering of type `c`: `i + 1` reduced into the range of an integer type,
`0.1 i + 0.1` for the floating-point types. -/
def NaturalAt (fp : FloatOps) (c : Code) (i : Nat) (v : Val) : Prop :=
  match c with
  | .f32 => v = .f32 (fp.narrow (fp.mac64 oneTenth (fp.widen (fp.ofInt32 i)) oneTenth))
  | .f64 => v = .f64 (fp.mac64 oneTenth (fp.ofInt64 i) oneTenth)
  | c => ∃ r, v = .int r ∧ ReducesTo c ((i : Int) + 1) r

/-- A number that the tests may draw: any number of a floating-point type, an integer from 0 to 10 otherwise. -/
def Drawn (c : Code) (v : Val) : Prop :=
  match c with
  | .f32 => ∃ b, v = .f32 b
  | .f64 => ∃ b, v = .f64 b
  | _ => ∃ r, v = .int r ∧ 0 ≤ r ∧ r ≤ 10

/-- What the two ways of filling put at index `i`. -/
def Filler.Puts (fp : FloatOps) (c : Code) : Filler → Nat → Val → Prop
  | .natural, i, v => NaturalAt fp c i v
  | .random, _, v => Drawn c v

/-- Only the buffer `p` changed: it now starts with the elements `xs` of type `c`, `rest` follows. -/
structure Filled (m m' : Mem) (p : Nat) (c : Code) (xs : List Val) (rest : List Byte) : Prop where
  data : m'.blk p = some ⟨.own, .bytes (encAll c xs ++ rest)⟩
  other : ∀ b, b ≠ p → m'.blk b = m.blk b
  next : m'.next = m.next
  wt : ∀ x ∈ xs, x.WT c

/-- A new buffer `p` was allocated and holds exactly the elements `xs` of type `c`; nothing else changed. -/
structure Supplied (m m' : Mem) (p : Nat) (c : Code) (xs : List Val) : Prop where
  data : m'.blk p = some ⟨.own, .bytes (encAll c xs)⟩
  new : m.next ≤ p
  other : ∀ b, b ≠ p → m'.blk b = m.blk b
  wf : m'.WF
  wt : ∀ x ∈ xs, x.WT c

/-- Two results agree in the way the tests ask for: same dims, same element type, device as asked for, elements pairwise `close`. -/
structure Agree (dev : Option Nat) (close : Val → Val → Bool) (T U : TV) (xs ys : List Val) : Prop where
  dims : T.dims = U.dims
  dtype : T.dtype.code = U.dtype.code
  device : U.device.type = dev.getD T.device.type
  elems : Pointwise (fun x y => close x y = true) xs ys

end Aitisa
