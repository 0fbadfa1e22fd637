import Verif.Model.AutoTest
import Verif.Spec.Math

/-!
# Specification vocabulary: histories of objects that share buffers

A program that has objects of one class: it constructs them, copies, moves, assigns and destroys them, and attaches new buffers to
them. An object is known by the buffers it points to and by its counter (a null counter: the object has been moved from).
-/

namespace Aitisa

/-- A class of objects: `ι` the ways to construct one, `κ` the ways to attach buffers to one; `hasAssign`: it has an assignment
operator. -/
structure Cls (α ι κ : Type) where
  bufs : α → List Ptr
  count : α → Ptr
  make : ι → M α
  attach : κ → α → M α
  copy : α → M α
  move : α → M (α × α)
  hasAssign : Bool
  assign : α → α → M α
  dtor : α → M Unit

/-- One step of the program. Objects are named by their position. -/
inductive ObjAct (ι κ : Type) where
  | make (a : ι)
  | attach (k : κ) (i : Nat)
  | copy (i : Nat)
  | move (i : Nat)
  | assign (i j : Nat)
  | destroy (i : Nat)

variable {α ι κ : Type}

/-- The step; a new object comes first. -/
def ObjAct.run (C : Cls α ι κ) (xs : List α) : ObjAct ι κ → M (List α)
  | .make a => do
    let o ← C.make a
    return o :: xs
  | .attach k i =>
    match xs[i]? with
    | none => ubM .wildPtr
    | some o => do
      let o' ← C.attach k o
      return xs.set i o'
  | .copy i =>
    match xs[i]? with
    | none => ubM .wildPtr
    | some o => do
      let o' ← C.copy o
      return o' :: xs
  | .move i =>
    match xs[i]? with
    | none => ubM .wildPtr
    | some o => do
      let (o', old) ← C.move o
      return o' :: xs.set i old
  | .assign i j =>
    match xs[i]?, xs[j]? with
    | some o, some r => do
      let o' ← C.assign o r
      return xs.set i o'
    | _, _ => ubM .wildPtr
  | .destroy i =>
    match xs[i]? with
    | none => ubM .wildPtr
    | some o => do
      C.dtor o
      return xs.eraseIdx i

/-- The object at `i` is the only one with its counter. -/
def Sole (C : Cls α ι κ) (xs : List α) (i : Nat) (o : α) : Prop := ∀ j o', xs[j]? = some o' → C.count o' = C.count o → j = i

/-- What a program may do: `ok a` the constructor arguments that make sense, `free k o` the places for the buffers are not taken.
Objects that have been moved from are only moved and destroyed, buffers are attached before an object is shared, and an object that
shares with no other is not assigned to itself. -/
def Legal (C : Cls α ι κ) (ok : ι → Prop) (free : κ → α → Prop) (xs : List α) : ObjAct ι κ → Prop
  | .make a => ok a
  | .attach k i => ∃ o, xs[i]? = some o ∧ C.count o ≠ .null ∧ Sole C xs i o ∧ free k o
  | .copy i => ∃ o, xs[i]? = some o ∧ C.count o ≠ .null ∧ xs.length < 2147483647
  | .move i => ∃ o, xs[i]? = some o
  | .assign i j => C.hasAssign = true ∧ ∃ o r, xs[i]? = some o ∧ xs[j]? = some r ∧ C.count o ≠ .null ∧ C.count r ≠ .null ∧ xs.length ≤ 2147483647 ∧
      (i ≠ j ∨ ¬ Sole C xs i o)
  | .destroy i => ∃ o, xs[i]? = some o

/-- The buffers the objects have after the step. -/
def Moves (C : Cls α ι κ) (xs xs' : List α) : ObjAct ι κ → Prop
  | .make _ => ∃ o, xs' = o :: xs
  | .attach _ i => ∃ o o', xs[i]? = some o ∧ xs' = xs.set i o' ∧ ∀ p ∈ C.bufs o, p ≠ .null → p ∈ C.bufs o'
  | .copy i => ∃ o o', xs[i]? = some o ∧ xs' = o' :: xs ∧ C.bufs o' = C.bufs o
  | .move i => ∃ o o' old, xs[i]? = some o ∧ xs' = o' :: xs.set i old ∧ C.bufs o' = C.bufs o ∧ ∀ p ∈ C.bufs old, p = .null
  | .assign i j => ∃ r o', xs[j]? = some r ∧ xs' = xs.set i o' ∧ C.bufs o' = C.bufs r
  | .destroy i => xs' = xs.eraseIdx i

/-- Of the blocks with numbers from `n` on, exactly those are allocated that are a buffer or the counter of some object, and at most `l`
others, which are counters that have reached 0. -/
def Tidy (C : Cls α ι κ) (n : Nat) (xs : List α) (l : Nat) (m : Mem) : Prop :=
  (∀ o ∈ xs, ∀ p ∈ C.bufs o, p = .null ∨ ∃ b x, p = .blk b ∧ n ≤ b ∧ m.blk b = some ⟨.own, x⟩) ∧
  ∃ K : List Nat, K.length ≤ l ∧ (∀ b ∈ K, m.blk b = some ⟨.own, .i64s [some 0]⟩) ∧ ∀ b, n ≤ b → m.blk b ≠ none → b ∈ K ∨ ∃ o ∈ xs, .blk b ∈ C.bufs o ∨ C.count o = .blk b

/-- The buffers common to `xs` and `xs'` have the same contents before and after. -/
def Intact (C : Cls α ι κ) (xs : List α) (m : Mem) (xs' : List α) (m' : Mem) : Prop :=
  ∀ o ∈ xs, ∀ o' ∈ xs', ∀ b, .blk b ∈ C.bufs o → .blk b ∈ C.bufs o' → m'.blk b = m.blk b

/-- However the program continues for `k` legal steps with the objects `xs` in memory `m`: no step has undefined behaviour, each does
what it should unless `new` throws, blocks with numbers below `n` are never touched, and at every moment exactly the buffers of the
existing objects are allocated. `leak a`: so many counters the step may leave behind. -/
def ObjSafe (C : Cls α ι κ) (ok : ι → Prop) (free : κ → α → Prop) (leak : ObjAct ι κ → Nat) (E : Env) (n : Nat) :
    Nat → List α → Nat → Mem → Prop
  | 0, xs, l, m => Tidy C n xs l m
  | k + 1, xs, l, m => Tidy C n xs l m ∧ ∀ a, Legal C ok free xs a →
      (∃ xs' m', a.run C xs E m = .ok xs' m' ∧ Moves C xs xs' a ∧ Intact C xs m xs' m' ∧ (∀ b, b < n → m'.blk b = m.blk b) ∧
        ObjSafe C ok free leak E n k xs' (l + leak a) m') ∨
      (¬ E.MallocOK ∧ a.run C xs E m = .abort)

/-! ## The classes of the auto-test framework -/

/-- A buffer of the caller made with `new`, or none. -/
def newOpt : Option (List Byte) → M Ptr
  | none => pure .null
  | some bs => newChars bs

/-- The ways to construct an input: without arguments, from an array of dims made with `new`, from a vector of dims; the data buffer is made
with `new` or absent. -/
inductive UnaryArg where
  | default
  | ptr (ds : List Int) (dtype device : Int) (data : Option (List Byte)) (len : Nat)
  | vec (ndim : Int) (ds : List Int) (dtype device : Int) (data : Option (List Byte)) (len : Nat)

/-- The rank fits the vector, and the array fits the address space. -/
def rankOk (ndim : Int) (ds : List Int) : Prop := 0 ≤ ndim ∧ ndim ≤ ds.length ∧ 8 * ndim ≤ I64_MAX

def UnaryArg.ok : UnaryArg → Prop
  | .vec ndim ds _ _ _ _ => rankOk ndim ds
  | _ => True

def UnaryArg.make : UnaryArg → M UnaryInput
  | .default => UnaryInput.new
  | .ptr ds dtype device data len => do
    let d ← cppNew (8 * ds.length) (.i64s (Arr.of ds))
    let p ← newOpt data
    UnaryInput.ofPtr ds.length d dtype device p len
  | .vec ndim ds dtype device data len => do
    let p ← newOpt data
    UnaryInput.ofVec ndim ds dtype device p len

/-- `Unary_Input`; buffers are attached with `set_data`. -/
def unaryCls : Cls UnaryInput UnaryArg (List Byte) where
  bufs o := [o.dims, o.data]
  count o := o.count
  make := UnaryArg.make
  attach bs o := do
    let p ← newChars bs
    return o.setData p bs.length
  copy := UnaryInput.copy
  move := UnaryInput.move
  hasAssign := true
  assign := UnaryInput.assign
  dtor := UnaryInput.dtor

inductive BinaryArg where
  | default
  | ptr (ds1 : List Int) (dtype1 device1 : Int) (data1 : Option (List Byte)) (len1 : Nat)
      (ds2 : List Int) (dtype2 device2 : Int) (data2 : Option (List Byte)) (len2 : Nat)
  | vec (ndim1 : Int) (ds1 : List Int) (dtype1 device1 : Int) (data1 : Option (List Byte)) (len1 : Nat)
      (ndim2 : Int) (ds2 : List Int) (dtype2 device2 : Int) (data2 : Option (List Byte)) (len2 : Nat)

def BinaryArg.ok : BinaryArg → Prop
  | .vec ndim1 ds1 _ _ _ _ ndim2 ds2 _ _ _ _ => rankOk ndim1 ds1 ∧ rankOk ndim2 ds2
  | _ => True

def BinaryArg.make : BinaryArg → M BinaryInput
  | .default => BinaryInput.new
  | .ptr ds1 dtype1 device1 data1 len1 ds2 dtype2 device2 data2 len2 => do
    let d1 ← cppNew (8 * ds1.length) (.i64s (Arr.of ds1))
    let p1 ← newOpt data1
    let d2 ← cppNew (8 * ds2.length) (.i64s (Arr.of ds2))
    let p2 ← newOpt data2
    BinaryInput.ofPtr ds1.length d1 dtype1 device1 p1 len1 ds2.length d2 dtype2 device2 p2 len2
  | .vec ndim1 ds1 dtype1 device1 data1 len1 ndim2 ds2 dtype2 device2 data2 len2 => do
    let p1 ← newOpt data1
    let p2 ← newOpt data2
    BinaryInput.ofVec ndim1 ds1 dtype1 device1 p1 len1 ndim2 ds2 dtype2 device2 p2 len2

/-- `Binary_Input`; buffers are attached with `set_data1` (`false`) and `set_data2` (`true`). -/
def binaryCls : Cls BinaryInput BinaryArg (Bool × List Byte) where
  bufs o := [o.dims1, o.dims2, o.data1, o.data2]
  count o := o.count
  make := BinaryArg.make
  attach k o := do
    let p ← newChars k.2
    return if k.1 then o.setData2 p k.2.length else o.setData1 p k.2.length
  copy := BinaryInput.copy
  move := BinaryInput.move
  hasAssign := true
  assign := BinaryInput.assign
  dtor := BinaryInput.dtor

/-- `Result`; it is filled by `set_result` from arrays of the caller that exist only for the call. The class declares a move
constructor and no assignment operator, so it cannot be assigned. -/
def resultCls : Cls ResultObj Unit (List Int × List Byte × Int × Int) where
  bufs o := [o.dims, o.data]
  count o := o.count
  make _ := ResultObj.new
  attach k o := do
    let d ← cppNew (8 * k.1.length) (.i64s (Arr.of k.1))
    let p ← newChars k.2.1
    let o' ← o.setResult k.1.length d k.2.2.1 k.2.2.2 p k.2.1.length
    rawFree d
    rawFree p
    return o'
  copy := ResultObj.copy
  move := ResultObj.move
  hasAssign := false
  assign _ _ := ubM .missingReturn
  dtor := ResultObj.dtor

end Aitisa
