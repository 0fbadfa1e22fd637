import Verif.Spec.ReadOnly
import Verif.Props.Alloc
import Verif.Props.Core

/-!
# C71: calls do not write to memory that existed before, not even for a moment
-/

namespace Aitisa

variable {E : Env} {m m' mm : Mem} {out p : Ptr} {st : Status} {ro : Nat → Bool}

theorem protect_labels (h : ∀ b, ro b = true → b < m.next) (b : Nat) (hb : m.next ≤ b) :
    (if ro b then some Origin.const else none) = none := by
  rw [if_neg fun hr => Nat.not_lt_of_le hb (h b hr)]

theorem relabel_back (m : Mem) (L : Nat → Option Origin) :
    (m.relabel L).relabel (fun b => if (L b).isSome then (m.blk b).map Block.heap else none) = m := by
  refine mem_ext rfl rfl rfl fun b => ?_
  simp only [Mem.relabel]
  cases m.blk b with
  | none => rfl
  | some k =>
    obtain ⟨o, x⟩ := k
    cases L b <;> rfl

/-- A run that does not depend on the origins of old blocks, seen from memory in which they differ. -/
theorem Sim.iff {α : Type} {x : M α} (hx : ∀ m a m', m.WF → x E m = .ok a m' → Sim m.next x E m a m') (wf : m.WF)
    {L : Nat → Option Origin} (hL : ∀ b, m.next ≤ b → L b = none) (a : α) (mm : Mem) :
    x E (m.relabel L) = .ok a mm ↔ ∃ m', x E m = .ok a m' ∧ mm = m'.relabel L := by
  constructor
  · intro h
    have wf2 : (m.relabel L).WF := fun b hb => by show (m.blk b).map _ = none; rw [wf b hb]; rfl
    have h2 := hx _ a mm wf2 h (fun b => if (L b).isSome then (m.blk b).map Block.heap else none) fun b hb => by
      rw [hL b hb]; rfl
    rw [relabel_back] at h2
    have h3 := hx m a _ wf h2 L hL
    rw [h] at h3
    injection h3 with _ h3
    exact ⟨_, h2, h3⟩
  · rintro ⟨m', h, rfl⟩
    exact hx m a m' wf h L hL

/-- C71. Whatever the operator and its arguments, and whichever part of the existing memory is read-only: the call completes exactly
if it completes with all memory writable, with the same status and handle and the same memory. -/
theorem C71_operators (c : Call) (wf : m.WF) (hr : ∀ b, ro b = true → b < m.next) :
    c.run out E (m.protect ro) = .ok (st, p) mm ↔ ∃ m', c.run out E m = .ok (st, p) m' ∧ mm = m'.protect ro :=
  Sim.iff (x := c.run out) (fun m a m' wf h => (c.op out E m a.1 a.2 m' wf h).2.2.2) wf (protect_labels hr) (st, p) mm

/-- C71 for conversion. -/
theorem C71_cast (t : Ptr) (dt : DType) (wf : m.WF) (hr : ∀ b, ro b = true → b < m.next) :
    cast t dt out E (m.protect ro) = .ok (st, p) mm ↔ ∃ m', cast t dt out E m = .ok (st, p) m' ∧ mm = m'.protect ro :=
  Sim.iff (x := cast t dt out) (fun m _ m' wf h =>
    (Tri.cast (n := m.next) (m0 := m) t dt out E m _ m' (Sep.self wf) (fun _ _ => rfl) (Own.self wf true) h).2.2.2) wf
    (protect_labels hr) (st, p) mm

/-- C71 for programs: one that writes to and destroys only tensors it has created itself never writes to memory that existed before it
began. -/
theorem C71_programs (as : List Act) {hs : List Ptr} (wf : m.WF) (hr : ∀ b, ro b = true → b < m.next) :
    runAll as [] E (m.protect ro) = .ok (st, hs) mm ↔ ∃ m', runAll as [] E m = .ok (st, hs) m' ∧ mm = m'.protect ro :=
  Sim.iff (x := runAll as []) (fun m _ m' wf h =>
    (Tri.runAll (n := m.next) (m0 := m) as [] E m _ m' (Sep.self wf) (fun _ _ => rfl) (Own.self wf true) h).2.2.2) wf
    (protect_labels hr) (st, hs) mm

/-- C71. In particular every operator that completes does so when all memory there is, its operands included, is read-only; on
success the tensor it gives is writable. -/
theorem C71_frozen (c : Call) (wf : m.WF) (h : c.run out E m = .ok (st, p) m') :
    ∃ mm, c.run out E m.frozen = .ok (st, p) mm ∧ (∀ b, b < m.next → mm.blk b = m.frozen.blk b) ∧
      (st = .success → ∃ R, Leads mm p R ∧ ∀ b ∈ R.list, m.next ≤ b) := by
  have e : m.frozen = m.protect fun b => decide (b < m.next) := by
    refine mem_ext rfl rfl rfl fun b => ?_
    show (m.blk b).map _ = (m.blk b).map _
    by_cases hb : b < m.next
    · simp [hb]
    · rw [wf b (Nat.le_of_not_lt hb)]; rfl
  have h2 := (C71_operators (out := out) (E := E) (st := st) (p := p) (ro := fun b => decide (b < m.next)) c wf (fun b hb => by simpa using hb)).2 ⟨m', h, rfl⟩
  refine ⟨_, e ▸ h2, ?_⟩
  rw [e]
  have wf2 : (m.protect fun b => decide (b < m.next)).WF := fun b hb => by show (m.blk b).map _ = none; rw [wf b hb]; rfl
  obtain ⟨fr, -, q⟩ := C06_operators c out E _ st p _ wf2 h2
  exact ⟨fr.same, q⟩

/-- C71, the other side: writing an element of a tensor whose data are read-only is undefined behaviour. -/
theorem C71_set_item {R : Foot} {T : TV} {c : Code} {os : List (Option Val)} (h : At m R T) (hdt : T.dtype = c.dtype)
    (hb : T.bytes = encOpt c os) {i : Nat} (hi : i < os.length) {v : Val} {cell rest : List Byte}
    (hc : cell = (encVal c v).map some ++ rest) (hr : ro R.p = true) : setItem R.h i cell E (m.protect ro) = .ub .constWrite := by
  have ok := setItem_run (E := E) h hdt hb hi hc
  have et : (m.protect ro).blk R.t = some ⟨_, _⟩ := relabel_some h.tensor
  have es : (m.protect ro).blk R.s = some ⟨_, _⟩ := relabel_some h.storage
  have ep : (m.protect ro).blk R.p = some ⟨_, _⟩ := relabel_some h.data
  rw [hr] at ep
  unfold setItem tData tDtype Foot.h at ok ⊢
  msimp [run_derefT h.tensor, run_derefS h.storage] at ok
  msimp [run_derefT et, run_derefS es]
  cases hz : i64 (↑i * ↑T.dtype.size) E m with
  | ok z m1 =>
    unfold i64 at hz ok ⊢
    split at hz
    · next hcond =>
      rw [if_pos hcond] at ok ⊢
      msimp [run_derefB h.data] at ok
      msimp [run_derefB ep]
      split at ok
      · next hin =>
        rw [if_pos hin]
        unfold putBody
        simp [ep]
      · cases ok
    · cases hz
  | ub u => rw [hz] at ok; cases ok
  | abort => rw [hz] at ok; cases ok
  | fuel => rw [hz] at ok; cases ok

/-- C71, the other side: a tensor in read-only memory cannot be destroyed. -/
theorem C71_destroy {R : Foot} {T : TV} (h : At m R T) (hr : ∀ b ∈ R.list, ro b = true) :
    destroy R.h E (m.protect ro) = .ub .badFree := by
  have hblk : ∀ b ∈ R.list, ∀ x, m.blk b = some ⟨.own, x⟩ → (m.protect ro).blk b = some ⟨.const, x⟩ := fun b hb x hx => by
    rw [show (m.protect ro).blk b = some ⟨_, _⟩ from relabel_some hx, hr b hb]; rfl
  have bad : ∀ b x, (m.protect ro).blk b = some ⟨.const, x⟩ → rawFree (.blk b) E (m.protect ro) = .ub .badFree := fun b x hx => by
    simp [rawFree, hx]
  have ht := hblk _ (by simp [Foot.list]) _ h.tensor
  have hs := hblk _ (by simp [Foot.list]) _ h.storage
  have hp := hblk _ (by simp [Foot.list]) _ h.data
  unfold destroy destroyShape Foot.h
  rcases h.dims with ⟨h0, hd⟩ | ⟨d, hne, hd, hbd⟩
  · rcases h.layout with ⟨-, hl⟩ | ⟨l, hne, -⟩
    · unfold destroyStorage
      rw [hd, hl] at ht
      msimp [run_derefT ht, run_derefS hs, optPtr, bad _ _ hp]
    · exact absurd h0 hne
  · have hbd := bad _ _ (hblk d (by simp [Foot.list, hd]) _ hbd)
    rw [hd] at ht
    msimp [run_derefT ht, optPtr, hbd]

/-! ## Cases -/

/-- A tensor of shape 2 x 2. -/
def exRoT : TV := tvOf .i32 [2, 2] [.int 1, .int 2, .int 3, .int 4]

/-- Two tensors, in memory that is read-only. -/
def exRoMem : Mem := ((Mem.empty.addT exRoT).addT exRoT).frozen

/-- The call succeeds. -/
def exRoOk (r : Res (Status × Ptr)) : Bool :=
  match r with
  | .ok (st, _) _ => st == .success
  | _ => false

example : exRoOk ((Call.matmul (.blk 0) (.blk 5)).run .null okEnv exRoMem) = true := by decide +kernel

example : exRoOk ((Call.binary .add (.blk 0) (.blk 0)).run .null okEnv exRoMem) = true := by decide +kernel

/-- An element of a read-only tensor is set to the value it has. -/
example : Res.ubIs (setItem (.blk 0) 0 ((encVal .i32 (.int 1)).map some) okEnv exRoMem) .constWrite = true := by decide +kernel

/-- A program that works on read-only operands and writes to its own tensors. -/
example : (match runAll [.call (.matmul (.blk 0) (.blk 5)), .setItem 0 1 ((encVal .i32 (.int 9)).map some), .call (.duplicate (.blk 5)),
    .destroy 1] [] okEnv exRoMem with
  | .ok (.success, hs) _ => hs.length == 1
  | _ => false) = true := by decide +kernel

end Aitisa
