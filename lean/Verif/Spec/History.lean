import Verif.Spec.Frame

/-!
# Specification vocabulary: histories of calls

A program that uses the API: it calls operators on any arguments, keeps the handles it is given, writes elements through them and
destroys them.
-/

namespace Aitisa

/-- One call of the program. `destroy` and `setItem` name a held handle by its position in the list of held handles. -/
inductive Act where
  | call (c : Call)
  | cast (h : Ptr) (dt : DType)
  | setItem (i : Nat) (idx : Int) (value : List Byte)
  | destroy (i : Nat)

/-- The call and what the program does with its result: a handle given with success is kept (at the front of the list), a destroyed
handle is dropped. The program sets `*output` to `NULL` before a conversion, since a conversion to the tensor's own type leaves it
as it was. -/
def Act.run (hs : List Ptr) : Act → M (Status × List Ptr)
  | .call c => do
    let (st, p) ← c.run .indet
    return (st, if st = .success then p :: hs else hs)
  | .cast h dt => do
    let (st, p) ← Aitisa.cast h dt .null
    return (st, if st = .success ∧ p ≠ .null then p :: hs else hs)
  | .setItem i idx v =>
    match hs[i]? with
    | none => ubM .wildPtr
    | some h => do
      Aitisa.setItem h idx v
      return (.success, hs)
  | .destroy i =>
    match hs[i]? with
    | none => ubM .wildPtr
    | some h => do
      let (st, _) ← Aitisa.destroy h
      return (st, hs.eraseIdx i)

/-- A sequence of calls; it ends at the first that does not succeed. -/
def runAll : List Act → List Ptr → M (Status × List Ptr)
  | [], hs => return (.success, hs)
  | a :: as, hs => do
    let (st, hs') ← a.run hs
    if st = .success then runAll as hs' else return (st, hs')

/-- Destroys every held handle. -/
def destroyAll : List Ptr → M Unit
  | [] => return ()
  | h :: hs => do
    let _ ← destroy h
    destroyAll hs

end Aitisa
