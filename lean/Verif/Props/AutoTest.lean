import Verif.Proof.AutoTest2
import Verif.Props.Matmul

/-!
# C50: the inputs and results of the auto-test framework share their buffers safely
-/

namespace Aitisa

variable {E : Env} {m : Mem}

/-! ## Every legal history is safe -/

/-- C50 for `Unary_Input`: from any memory, however a program constructs, copies, moves, assigns and destroys inputs and attaches
data to them, no buffer is released while an object has it, none is released twice, and every buffer is released with its last
object. The counter of an object that is assigned to may stay behind. The precondition `Legal` excludes what goes wrong, see below. -/
theorem C50_unary (hw : m.WF) (k : Nat) : ObjSafe unaryCls UnaryArg.ok (fun _ o => o.data = .null) (leaks true) E m.next k [] 0 m :=
  unary_lawful.safe k (Inv.start hw) (Nat.le_refl _)

/-- C50 for `Binary_Input`. -/
theorem C50_binary (hw : m.WF) (k : Nat) :
    ObjSafe binaryCls BinaryArg.ok (fun k o => (if k.1 then o.data2 else o.data1) = .null) (leaks true) E m.next k [] 0 m :=
  binary_lawful.safe k (Inv.start hw) (Nat.le_refl _)

/-- C50 for `Result`: each counter stays behind. -/
theorem C50_result (hw : m.WF) (k : Nat) :
    ObjSafe resultCls (fun _ => True) (fun k o => o.dims = .null ∧ o.data = .null ∧ 8 * (k.1.length : Int) ≤ I64_MAX) (leaks false)
      E m.next k [] 0 m :=
  result_lawful.safe k (Inv.start hw) (Nat.le_refl _)

/-- `set_result` copies the arrays it is given. -/
theorem C50_setResult (hw : m.WF) (o : ResultObj) {nd nb : Nat} {kd kb : Origin} {ds : List Int} {bs : List Byte}
    (hd : m.blk nd = some ⟨kd, .i64s (Arr.of ds)⟩) (hb : m.blk nb = some ⟨kb, .bytes bs⟩) (hr : 8 * (ds.length : Int) ≤ I64_MAX) (dt dv : Int) :
    (∃ o' m' a b, o.setResult ds.length (.blk nd) dt dv (.blk nb) bs.length E m = .ok o' m' ∧
      o' = { o with ndim := ds.length, dtype := dt, device := dv, len := bs.length, dims := .blk a, data := .blk b } ∧
      m.blk a = none ∧ m.blk b = none ∧ a ≠ b ∧ m'.blk a = some ⟨.own, .i64s (Arr.of ds)⟩ ∧ m'.blk b = some ⟨.own, .bytes bs⟩ ∧
      ∀ x, x ≠ a → x ≠ b → m'.blk x = m.blk x) ∨
    (¬ E.MallocOK ∧ o.setResult ds.length (.blk nd) dt dv (.blk nb) bs.length E m = .abort) := by
  refine (setResult_mk (E := E) hw o hd hb hr dt dv).imp_left fun ⟨o', m', L, e, f, a, b, hL, ho, ha, hb⟩ => ?_
  subst hL
  refine ⟨o', m', a, b, e, ho, hw a (f.new a (by simp)).1, hw b (f.new b (by simp)).1, ?_, ha, hb,
    fun x h1 h2 => f.old x (by simp [h1, h2])⟩
  have := f.nodup
  simp at this
  exact fun e => this e.symm

/-! ### A history -/

/-- Steps one after the other. -/
def runActs {α ι κ : Type} (C : Cls α ι κ) : List (ObjAct ι κ) → List α → M (List α)
  | [], xs => pure xs
  | a :: as, xs => do
    let xs ← a.run C xs
    runActs C as xs

/-- Two inputs are made (the first from a vector, without data), data is attached to the first, which is copied, the copy is assigned to
itself, the second is moved; four objects. -/
def exActs : List (ObjAct UnaryArg (List Byte)) :=
  [.make (.vec 2 [2, 3] 8 0 none 0), .attach [some 7] 0, .copy 0, .assign 0 0, .make (.ptr [5] 8 0 (some [some 1]) 1), .move 0]

/-- Exactly so many objects, and exactly so many blocks allocated. -/
def Res.holds {α} (r : Res (List α)) (k n : Nat) : Bool :=
  match r with
  | .ok xs m => xs.length == k && ((List.range m.next).filter fun b => (m.blk b).isSome).length == n
  | _ => false

/-- Two groups of dims, data, counter; then all objects are destroyed. -/
example : (runActs unaryCls exActs [] okEnv Mem.empty).holds 4 6 = true ∧
    (runActs unaryCls (exActs ++ [.destroy 1, .destroy 2, .destroy 0, .destroy 0]) [] okEnv Mem.empty).holds 0 0 = true :=
  ⟨by decide +kernel, by decide +kernel⟩

/-- The steps are legal: attaching data to the only owner, copying it, assigning a copy to itself. -/
example (o : UnaryInput) (h : o.count ≠ .null) (hd : o.data = .null) :
    Legal unaryCls UnaryArg.ok (fun _ o => o.data = .null) [o] (.attach [some 7] 0) ∧
    Legal unaryCls UnaryArg.ok (fun _ o => o.data = .null) [o] (.copy 0) ∧
    Legal unaryCls UnaryArg.ok (fun _ o => o.data = .null) [o, o] (.assign 0 0) := by
  refine ⟨⟨o, rfl, h, fun j o' hj _ => ?_, hd⟩, ⟨o, rfl, h, by simp⟩, rfl, o, o, rfl, rfl, h, h, by simp, .inr fun hs => ?_⟩
  · cases j with
    | zero => rfl
    | succ j => cases hj
  · exact absurd (hs 1 o rfl rfl) (by decide)

/-- Legal arguments. -/
example : UnaryArg.ok (.vec 2 [2, 3] 8 0 none 0) := ⟨by decide, by decide, by decide⟩

/-- When all objects are gone and nothing was assigned, nothing is left. -/
example {n : Nat} (h : Tidy unaryCls n [] 0 m) (b : Nat) (hb : n ≤ b) : m.blk b = none := by
  obtain ⟨-, K, hK, -, h⟩ := h
  refine Decidable.byContradiction fun hn => ?_
  rcases h b hb hn with h1 | ⟨o, h1, -⟩
  · rw [List.eq_nil_of_length_eq_zero (Nat.le_zero.1 hK)] at h1; cases h1
  · cases h1

/-! ## What goes wrong otherwise -/

/-- C50, violated: the only owner of its buffers is assigned to itself. The buffers are released, and the object keeps them: its
destruction is undefined behaviour. -/
theorem C50_selfAssign_violated {o : UnaryInput} {c d : Nat} {x : Body} (hc : o.count = .blk c) (h1 : m.blk c = some ⟨.own, .i64s [some 1]⟩)
    (hd : o.dims = .blk d) (hx : m.blk d = some ⟨.own, x⟩) (hne : d ≠ c) (hdata : o.data = .null) :
    (do let o' ← o.assign o; o'.dtor : M Unit) E m = .ub .badFree := by
  have hx0 : (m.set c (some (ctr 0))).blk d = some ⟨.own, x⟩ := by rw [Mem.set_blk_ne _ _ hne, hx]
  have e1 : decCount (.blk c) E m = .ok 0 (m.set c (some (ctr 0))) := decCount_run h1 (by decide) (by decide)
  have hc2 : ((m.set c (some (ctr 0))).set d none).blk c = some (ctr 0) := by rw [Mem.set_blk_ne _ _ (Ne.symm hne), Mem.set_blk_same]
  have e2 : incCount (.blk c) E ((m.set c (some (ctr 0))).set d none) = .ok () (((m.set c (some (ctr 0))).set d none).set c (some (ctr 1))) :=
    incCount_run hc2 (by decide) (by decide)
  have e3 : decCount (.blk c) E (((m.set c (some (ctr 0))).set d none).set c (some (ctr 1))) =
      .ok 0 ((((m.set c (some (ctr 0))).set d none).set c (some (ctr 1))).set c (some (ctr 0))) :=
    decCount_run (Mem.set_blk_same _ _ _) (by decide) (by decide)
  have hb : ((((m.set c (some (ctr 0))).set d none).set c (some (ctr 1))).set c (some (ctr 0))).blk d = none := by
    rw [Mem.set_blk_ne _ _ hne, Mem.set_blk_ne _ _ hne, Mem.set_blk_same]
  have e4 : rawFree (.blk d) E ((((m.set c (some (ctr 0))).set d none).set c (some (ctr 1))).set c (some (ctr 0))) = .ub .badFree := by
    simp only [rawFree, hb]
  have e5 : ∀ m : Mem, rawFree .null E m = .ok () m := fun _ => rfl
  simp only [UnaryInput.assign, UnaryInput.dtor, hc, hd, hdata, run_bind, e1, andThen_ok, if_true, run_rawFree hx0, e5, e2, run_pure, ne_eq,
    reduceCtorEq, not_false_eq_true, e3, e4]
  rfl

/-- Such an object: the rank is 1, there is no data. -/
example : (do let o ← UnaryInput.ofVec 1 [3] 8 0 .null 0; let o' ← o.assign o; o'.dtor : M Unit) okEnv Mem.empty = .ub .badFree :=
  Res.ubIs_iff.1 (by decide +kernel)

/-- C50, violated: an object that has been moved from cannot be copied, assigned to, or assigned from. -/
theorem C50_moved_violated (o : UnaryInput) :
    (do let (_, old) ← o.move; old.copy : M UnaryInput) E m = .ub .nullDeref ∧
    (∀ r, (do let (_, old) ← o.move; old.assign r : M UnaryInput) E m = .ub .nullDeref) ∧
    ∀ r : UnaryInput, (∃ c v, r.count = .blk c ∧ m.blk c = some ⟨.own, .i64s [some v]⟩ ∧ 2 ≤ v ∧ v ≤ 2147483647) →
      (do let (_, old) ← o.move; r.assign old : M UnaryInput) E m = .ub .nullDeref := by
  refine ⟨rfl, fun r => rfl, fun r ⟨c, v, hc, hv, h2, h3⟩ => ?_⟩
  have e1 := decCount_run (E := E) hv (by omega) (by omega)
  have hz : v - 1 ≠ 0 := by omega
  simp only [UnaryInput.move, UnaryInput.assign, hc, run_bind, run_pure, andThen_ok, e1, if_neg hz]
  rfl

/-- The number of allocated blocks. -/
def Mem.count (m : Mem) : Nat := ((List.range m.next).filter fun b => (m.blk b).isSome).length

/-- The call returns with so many blocks allocated. -/
def Res.leaves {α} (r : Res α) (n : Nat) : Bool :=
  match r with
  | .ok _ m => m.count == n
  | _ => false

/-- An object is made, assigned another, and both are destroyed. -/
def exAssign : M Unit := do
  let a ← UnaryInput.new
  let b ← UnaryInput.new
  let a ← a.assign b
  a.dtor
  b.dtor

/-- C50, violated: the assignment leaves the old counter behind. -/
theorem C50_assign_violated : (exAssign okEnv Mem.empty).leaves 1 = true := by decide +kernel

/-- Data is attached to an object twice. -/
def exSetData : M Unit := do
  let a ← UnaryInput.new
  let p ← newChars [some 1]
  let q ← newChars [some 2]
  let a := a.setData p 1
  let a := a.setData q 1
  a.dtor

/-- C50, violated: the data attached first is never released. -/
theorem C50_setData_violated : (exSetData okEnv Mem.empty).leaves 1 = true := by decide +kernel

/-- A result is made and destroyed. -/
def exResult : M Unit := do
  let a ← ResultObj.new
  a.dtor

/-- C50, violated: the destructor of `Result` leaves the counter behind. -/
theorem C50_result_violated : (exResult okEnv Mem.empty).leaves 1 = true := by decide +kernel

/-! ## `Conv_Input` -/

/-- A block that is not allocated stays so. -/
def Dead {α} (x : M α) : Prop := ∀ E m b a m', m.blk b = none → x E m = .ok a m' → m'.blk b = none

theorem Dead.bind {α β} {x : M α} {f : α → M β} (h : Dead x) (hf : ∀ a, Dead (f a)) : Dead (x >>= f) := by
  intro E m b a m' hb e
  rw [run_bind] at e
  cases ex : x E m with
  | ok v m1 => rw [ex] at e; exact hf v _ _ _ _ _ (h _ _ _ _ _ hb ex) e
  | _ => rw [ex] at e; cases e

theorem Dead.pure {α} (a : α) : Dead (Pure.pure a : M α) := by
  intro E m b a' m' hb e
  cases e; exact hb

theorem Dead.ite {α} {c : Prop} [Decidable c] {x y : M α} (hx : Dead x) (hy : Dead y) : Dead (if c then x else y) := by
  split
  · exact hx
  · exact hy

theorem Dead.set {m : Mem} {b n : Nat} (hb : m.blk b = none) (h : m.blk n ≠ none) (v : Option Block) : (m.set n v).blk b = none := by
  rw [Mem.set_blk_ne _ _ (by rintro rfl; exact h hb), hb]

theorem Dead.rawFree (p : Ptr) : Dead (rawFree p) := by
  intro E m b a m' hb e
  cases p with
  | null => cases e; exact hb
  | indet => cases e
  | blk n =>
    simp only [Aitisa.rawFree] at e
    cases hn : m.blk n with
    | none => rw [hn] at e; cases e
    | some B =>
      rw [hn] at e
      simp only at e
      split at e
      · cases e; exact Dead.set hb (by rw [hn]; simp) _
      · cases e

theorem Dead.ub {α} (u : UB) : Dead (ubM u : M α) := by
  intro E m b a m' _ e
  cases e

theorem Dead.derefI (p : Ptr) : Dead (derefI p) := by
  refine .bind ?_ fun B => ?_
  · intro E m b a m' hb e
    cases p with
    | null => cases e
    | indet => cases e
    | blk n =>
      simp only [derefBlk] at e
      cases hn : m.blk n with
      | none => rw [hn] at e; cases e
      | some B => rw [hn] at e; cases e; exact hb
  · split
    · exact .pure _
    · exact .ub _

theorem Dead.putBody (p : Ptr) (B : Body) : Dead (putBody p B) := by
  intro E m b a m' hb e
  cases p with
  | null => cases e
  | indet => cases e
  | blk n =>
    simp only [Aitisa.putBody] at e
    cases hn : m.blk n with
    | none => rw [hn] at e; cases e
    | some B => rw [hn] at e; simp only at e; split at e <;> cases e; exact Dead.set hb (by rw [hn]; simp) _

theorem Dead.rd (a : Arr) (i : Int) : Dead (Arr.rd a i) := by
  unfold Arr.rd
  refine .ite ?_ (.ub _)
  split
  · exact .pure _
  · exact .ub _

theorem Dead.wr (a : Arr) (i v : Int) : Dead (Arr.wr a i v) := by
  unfold Arr.wr
  exact .ite (.pure _) (.ub _)

theorem Dead.decCount (p : Ptr) : Dead (decCount p) := by
  have l : Dead (loadI p 0) := .bind (.derefI p) fun _ => .rd _ _
  exact l.bind fun _ => .bind (.ite (.pure _) (.ub _)) fun _ => .bind (.bind (.derefI p) fun _ => .bind (.wr _ _ _) fun _ => .putBody _ _) fun _ => l

theorem Dead.binaryDtor (o : BinaryInput) : Dead o.dtor :=
  .ite (.bind (.decCount _) fun _ => .ite (.bind (.rawFree _) fun _ => .bind (.rawFree _) fun _ => .bind (.rawFree _) fun _ =>
    .bind (.rawFree _) fun _ => .rawFree _) (.pure _)) (.pure _)

/-- C50, violated: `Conv_Input` has no copy constructor of its own, and its destructor releases the arrays without counting. Once one
of two copies has been destroyed, the destruction of the other is undefined behaviour. -/
theorem C50_conv_violated {o o' : ConvInput} {s : Nat} {m m1 m2 : Mem} (hs : o.stride = .blk s) (h1 : o.copy E m = .ok o' m1)
    (h2 : o'.dtor E m1 = .ok () m2) : o.dtor E m2 = .ub .badFree := by
  have hs' : o'.stride = .blk s := by
    unfold ConvInput.copy at h1
    rw [run_bind] at h1
    cases e : o.base.copy E m with
    | ok b m3 => rw [e] at h1; cases h1; exact hs
    | _ => rw [e] at h1; cases h1
  have hdead : m2.blk s = none := by
    unfold ConvInput.dtor at h2
    rw [run_bind, hs'] at h2
    cases hb : m1.blk s with
    | none => simp [rawFree, hb] at h2
    | some B =>
      obtain ⟨kh, x⟩ := B
      cases kh with
      | other _ | malloc | fixed | const => simp [rawFree, hb] at h2
      | own =>
        rw [run_rawFree hb] at h2
        have : Dead (do rawFree o'.padding; rawFree o'.dilation; o'.base.dtor : M Unit) :=
          .bind (.rawFree _) fun _ => .bind (.rawFree _) fun _ => .binaryDtor _
        exact this _ _ _ _ _ (Mem.set_blk_same _ _ _) h2
  unfold ConvInput.dtor
  rw [run_bind, hs]
  simp [rawFree, hdead]

/-- Such objects. -/
example : (do
    let o ← ConvInput.ofVec 3 [1, 1, 1] 8 0 .null 0 3 [1, 1, 1] 8 0 .null 0 [1] [0] [1] 1
    let o' ← o.copy
    o'.dtor
    o.dtor : M Unit) okEnv Mem.empty = .ub .badFree := Res.ubIs_iff.1 (by decide +kernel)

/-- The call never returns. -/
def NoOk {α} (x : M α) : Prop := ∀ E m a m', x E m ≠ .ok a m'

theorem NoOk.bind {α β} {x : M α} {f : α → M β} (h : ∀ a, NoOk (f a)) : NoOk (x >>= f) := by
  intro E m b m' e
  rw [run_bind] at e
  cases ex : x E m with
  | ok v m1 => rw [ex] at e; exact h v _ _ _ _ e
  | _ => rw [ex] at e; cases e

/-- C50, violated: the assignment of a `Conv_Input` never returns properly: the function ends without `return`. -/
theorem C50_convAssign_violated (o r : ConvInput) (E : Env) (m : Mem) : ∀ o' m', o.assign r E m ≠ .ok o' m' := by
  have : NoOk (o.assign r) := .bind fun _ => .bind fun _ => .bind fun _ => .bind fun _ => .bind fun _ => .bind fun _ => .bind fun _ =>
    fun _ _ _ _ e => (by cases e)
  exact this E m

/-! ## `get_binary_sample` -/

/-- The sample of an addition: the input is made, the sample is taken, the input of the test object is destroyed. -/
def exSample : M BinarySample := do
  let d1 ← newChars (encAll .i32 [.int 1])
  let d2 ← newChars (encAll .i32 [.int 2])
  let i ← BinaryInput.ofVec 1 [1] 4 0 d1 4 1 [1] 4 0 d2 4
  let s ← getBinarySample (binaryOp .add) i
  i.dtor
  return s

/-- C50, violated: the tensors that `get_binary_sample` makes take the data buffers of the input, and it destroys them: the buffers of
the sample that it returns are released. The destruction of the sample is undefined behaviour. -/
theorem C50_sample_violated : (exSample okEnv Mem.empty).leaves 7 = true ∧
    (do let s ← exSample; s.dtor : M Unit) okEnv Mem.empty = .ub .badFree :=
  ⟨by decide +kernel, Res.ubIs_iff.1 (by decide +kernel)⟩

end Aitisa
