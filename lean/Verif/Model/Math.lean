import Verif.Model.Basic

/-!
# Binary operators

`/repo/src/math/binary_op.c`.
-/

namespace Aitisa

/-- `get_typed_array_value` / `set_typed_array_value`, `/repo/src/core/types.c` 104-107, 128-131: copy one element from
index `i` of one typed array to index `j` of another. -/
def copyElem (c : Code) (src : Ptr) (i : Int) (dst : Ptr) (j : Int) : M Unit := do
  let v ← loadElem c src i
  storeElem c dst j v

/-- One iteration of the element loop, `/repo/src/math/binary_op.c` 239-242 (285-288, 331-334, 377-380), with the
`calc_*_value` function (5-193). -/
def binStep (c : Code) (op : BinOp) (p1 p2 a b r q : Ptr) (i : Int) : M Unit := do
  copyElem c p1 i a 0
  copyElem c p2 i b 0
  let x ← loadElem c a 0
  let y ← loadElem c b 0
  let fp ← getFp
  let w ← liftU (cBin fp c op x y)
  storeElem c r 0 w
  copyElem c r 0 q i

/-- The element loop: the counter is an `int`; the function tables are indexed in the body. -/
def binLoop (dt : DType) (op : BinOp) (p1 p2 a b r q : Ptr) (size : Int) : M Unit :=
  forI32 size () fun i _ => do
    let c ← tableCode dt
    binStep c op p1 p2 a b r q i

/-- `malloc(dtype.size)` for one element. -/
def cellAlloc (dt : DType) : M Ptr := cMalloc dt.size (.bytes (List.replicate dt.size none))

/-- Comparison of the dims, `/repo/src/math/binary_op.c` 220-226: is there a difference? -/
def dimsDiffer (d1 d2 : Arr) (n : Int) : M Bool := do
  match ← loopE (ρ := Unit) (fun i (_ : Unit) => do
      let x ← d1.rd i
      let y ← d2.rd i
      if x ≠ y then return .inr () else return .inl ()) n.toNat 0 () with
  | .inl _ => return false
  | .inr _ => return true

/-- Creation and filling of the output, `/repo/src/math/binary_op.c` 227-247. -/
def binFill (op : BinOp) (h1 h2 : Ptr) (d1 : Arr) (n1 : Int) (out : Ptr) : M (Status × Ptr) := do
  let dt ← tDtype h1
  let dev ← tDevice h1
  let (st, t) ← create dt dev d1 n1 .null 0 out
  if st ≠ .success then return (st, t)
  let size ← tSize h1
  let p1 ← tData h1
  let p2 ← tData h2
  let q ← tData t
  let a ← cellAlloc dt
  let b ← cellAlloc dt
  let r ← cellAlloc dt
  binLoop dt op p1 p2 a b r q size
  cFree a
  cFree b
  cFree r
  return (.success, t)

/-- `aitisa_add`, `aitisa_sub`, `aitisa_mul`, `aitisa_div`, `/repo/src/math/binary_op.c` 204-248, 250-294, 296-340,
342-386: the four functions differ only in the operator. -/
def binaryOp (op : BinOp) (h1 h2 : Ptr) (out : Ptr) : M (Status × Ptr) := do
  let dev1 ← tDevice h1
  let dev2 ← tDevice h2
  if dev1.type ≠ DEVICE_CPU ∨ dev2.type ≠ DEVICE_CPU then return (.notSupported, out)
  let dt1 ← tDtype h1
  let dt2 ← tDtype h2
  if dt1.code ≠ dt2.code then return (.typeMismatch, out)
  let n1 ← tNdim h1
  let n2 ← tNdim h2
  if n1 ≠ n2 then return (.invalidArgument, out)
  let d1 ← tDimsArr h1
  let d2 ← tDimsArr h2
  if ← dimsDiffer d1 d2 n1 then return (.invalidArgument, out)
  binFill op h1 h2 d1 n1 out

end Aitisa
