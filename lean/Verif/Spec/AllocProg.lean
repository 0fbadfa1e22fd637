import Verif.Spec.Alloc
import Verif.Spec.History

/-!
# Specification vocabulary: programs that exchange the allocator
-/

namespace Aitisa

/-- The allocator installed for a call: a tensor is destroyed with the allocator it was received with, everything else is done with
the allocator the program chooses. -/
def Act.allocator (k : Nat) (ks : List Nat) : Act → Nat
  | .destroy i => ks.getD i k
  | _ => k

/-- The allocators with which the held handles were received, after a call. -/
def Act.received (k : Nat) (ks : List Nat) (hs hs' : List Ptr) : Act → List Nat
  | .destroy i => ks.eraseIdx i
  | _ => if hs'.length = hs.length then ks else k :: ks

/-- A program that chooses an allocator for each call. It holds handles and remembers for each the allocator with which it was
received. -/
def runMixed : List (Nat × Act) → List Ptr → List Nat → M (Status × List Ptr × List Nat)
  | [], hs, ks => return (.success, hs, ks)
  | (k, a) :: as, hs, ks => do
    let (st, hs') ← M.under (a.allocator k ks) (a.run hs)
    let ks' := a.received k ks hs hs'
    if st = .success then runMixed as hs' ks' else return (st, hs', ks')

/-- Destroys every held handle with its allocator. -/
def destroyMixed : List Ptr → List Nat → M Unit
  | [], _ => return ()
  | h :: hs, ks => do
    let _ ← M.under (ks.headD 0) (destroy h)
    destroyMixed hs ks.tail

end Aitisa
