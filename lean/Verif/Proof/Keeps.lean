import Verif.Proof.Grows

/-!
# Computations that release nothing

`Keepr x Q`: when `x` completes, every block that was allocated still is, every block that was granted still is, and the result and the
number of refused requests satisfy `Q`.
-/

namespace Aitisa

variable {α β : Type}

def Keepr (x : M α) (Q : α → Nat → Prop) : Prop :=
  ∀ E m a m', x E m = .ok a m' → (∀ b, m.blk b ≠ none → m'.blk b ≠ none) ∧ m.next ≤ m'.next ∧
    (∀ b, m.next ≤ b → b < m'.next → m'.blk b ≠ none) ∧ ∃ r, m'.tick = m.tick + (m'.next - m.next) + r ∧ Q a r

theorem Keepr.pure {a : α} {Q : α → Nat → Prop} (h : Q a 0) : Keepr (pure a : M α) Q := by
  intro E m b m' e
  simp at e
  obtain ⟨rfl, rfl⟩ := e
  exact ⟨fun _ h => h, Nat.le_refl _, fun b h1 h2 => by omega, 0, by omega, h⟩

theorem Keepr.ub {u : UB} {Q : α → Nat → Prop} : Keepr (ubM u : M α) Q := by intro E m b m' h; simp at h

theorem Keepr.mono {x : M α} {P Q : α → Nat → Prop} (h : Keepr x P) (hi : ∀ a r, P a r → Q a r) : Keepr x Q := by
  intro E m a m' e
  obtain ⟨h1, h2, h3, r, h4, h5⟩ := h E m a m' e
  exact ⟨h1, h2, h3, r, h4, hi a r h5⟩

theorem Keepr.bind {x : M α} {f : α → M β} {P : α → Nat → Prop} {Q : β → Nat → Prop} (hx : Keepr x P)
    (hf : ∀ a r, P a r → Keepr (f a) fun b s => Q b (r + s)) : Keepr (x >>= f) Q := by
  intro E m b m' e
  simp only [run_bind] at e
  cases hr : x E m with
  | ok a m1 =>
    rw [hr] at e
    obtain ⟨h1, h2, h3, r, h4, h5⟩ := hx _ _ _ _ hr
    obtain ⟨g1, g2, g3, s, g4, g5⟩ := hf a r h5 _ _ _ _ e
    refine ⟨fun b hb => g1 b (h1 b hb), by omega, fun b hb hb' => ?_, r + s, by omega, g5⟩
    by_cases hl : b < m1.next
    · exact g1 b (h3 b hb hl)
    · exact g3 b (by omega) hb'
  | ub u => rw [hr] at e; simp at e
  | abort => rw [hr] at e; simp [Res.andThen] at e
  | fuel => rw [hr] at e; simp [Res.andThen] at e

theorem Keepr.ite {c : Prop} [Decidable c] {x y : M α} {Q : α → Nat → Prop} (hx : c → Keepr x Q) (hy : ¬ c → Keepr y Q) :
    Keepr (if c then x else y) Q := by
  split
  · exact hx ‹_›
  · exact hy ‹_›

theorem Keepr.join {c : Prop} [Decidable c] {x y : M α} {f : α → M β} {P : α → Nat → Prop} {Q : β → Nat → Prop}
    (h : Keepr (if c then x else y) P) (hf : ∀ a r, P a r → Keepr (f a) fun b s => Q b (r + s)) :
    Keepr (if c then x >>= f else y >>= f) Q := by
  by_cases hc : c
  · rw [if_pos hc] at h ⊢; exact h.bind hf
  · rw [if_neg hc] at h ⊢; exact h.bind hf

/-- Nothing refused. -/
abbrev Keep0 (x : M α) : Prop := Keepr x fun _ r => r = 0

theorem Keepr.rawAlloc (sz b) : Keepr (rawAlloc sz b) fun p r => (p = .null ∧ r = 1) ∨ (p ≠ .null ∧ r = 0) := by
  intro E m a m' h
  unfold Aitisa.rawAlloc at h
  split at h
  · simp only [Res.ok.injEq] at h
    obtain ⟨rfl, rfl⟩ := h
    refine ⟨fun b hb => ?_, Nat.le_succ _, fun b h1 h2 => ?_, 0, by simp, .inr ⟨by simp, rfl⟩⟩
    · simp only [upd]; split
      · simp
      · exact hb
    · have h2 : b < m.next + 1 := h2
      simp only [upd]; rw [if_pos (by omega)]; simp
  · simp only [Res.ok.injEq] at h
    obtain ⟨rfl, rfl⟩ := h
    exact ⟨fun b hb => hb, Nat.le_refl _, fun b h1 h2 => by have : b < m.next := h2; omega, 1, by simp, .inl ⟨rfl, rfl⟩⟩

theorem Keep0.putBody (p b) : Keep0 (putBody p b) := by
  intro E m a m' h
  unfold Aitisa.putBody at h
  split at h
  · simp at h
  · simp at h
  · next n =>
    cases hn : m.blk n with
    | none => rw [hn] at h; simp at h
    | some k =>
      rw [hn] at h
      simp only at h
      split at h <;> simp at h
      subst h
      refine ⟨fun b hb => ?_, Nat.le_refl _, fun b h1 h2 => by have : b < m.next := h2; omega, 0, by simp [Mem.set], rfl⟩
      rw [Mem.set_blk]; split
      · simp
      · exact hb

theorem Keep0.derefBlk (p) : Keep0 (derefBlk p) := by
  intro E m a m' h
  unfold Aitisa.derefBlk at h
  split at h
  · simp at h
  · simp at h
  · split at h <;> simp at h
    obtain ⟨-, rfl⟩ := h
    exact ⟨fun _ h => h, Nat.le_refl _, fun b h1 h2 => by omega, 0, by omega, rfl⟩

theorem Keep0.bind {x : M α} {f : α → M β} {Q : β → Nat → Prop} (hx : Keep0 x) (hf : ∀ a, Keepr (f a) Q) : Keepr (x >>= f) Q :=
  Keepr.bind hx fun a r h => by subst h; exact (hf a).mono fun b s h => by simpa using h

theorem Keep0.derefI (p) : Keep0 (derefI p) := by
  unfold Aitisa.derefI
  refine Keep0.bind (Keep0.derefBlk p) fun b => ?_
  split
  · exact Keepr.pure rfl
  · exact Keepr.ub

theorem Keep0.i64 (n) : Keep0 (i64 n) := by unfold Aitisa.i64; exact Keepr.ite (fun _ => Keepr.pure rfl) fun _ => Keepr.ub

theorem Keep0.rd (a : Arr) (i) : Keep0 (a.rd i) := by
  unfold Arr.rd
  refine Keepr.ite (fun _ => ?_) fun _ => Keepr.ub
  split
  · exact Keepr.pure rfl
  · exact Keepr.ub

theorem Keep0.wr (a : Arr) (i v) : Keep0 (a.wr i v) := by unfold Arr.wr; exact Keepr.ite (fun _ => Keepr.pure rfl) fun _ => Keepr.ub

theorem Keep0.loopN {σ} {f : Nat → σ → M σ} (h : ∀ i s, Keep0 (f i s)) (k i : Nat) (s : σ) : Keep0 (loopN f k i s) := by
  induction k generalizing i s with
  | zero => exact Keepr.pure rfl
  | succ k ih => rw [loopN_succ]; exact Keep0.bind (h i s) fun s' => ih (i + 1) s'

theorem Keep0.storeI (p i v) : Keep0 (storeI p i v) := by
  unfold Aitisa.storeI
  exact Keep0.bind (Keep0.derefI p) fun l => Keep0.bind (Keep0.wr l i v) fun l' => Keep0.putBody p _

theorem Keep0.sizeOfDims (a n) : Keep0 (sizeOfDims a n) := by
  unfold Aitisa.sizeOfDims forI
  exact Keep0.loopN (fun i s => Keep0.bind (Keep0.rd a i) fun d => Keep0.i64 _) _ _ _

/-- One request was refused and that is the status, or nothing was refused and the status is another. -/
def Tells (st : Status) (r : Nat) : Prop := (st = .allocFailed ∧ r = 1) ∨ (st ≠ .allocFailed ∧ r = 0)

theorem optAlloc (n : Int) (sz b) : Keepr (if n = 0 then (pure Ptr.null : M Ptr) else rawAlloc sz b) fun p r =>
    (n ≠ 0 ∧ p = .null ∧ r = 1) ∨ (¬ (n ≠ 0 ∧ p = .null) ∧ r = 0) :=
  Keepr.ite (fun h => Keepr.pure (.inr ⟨by simp [h], rfl⟩)) fun h => (Keepr.rawAlloc sz b).mono fun p r hr => by
    rcases hr with ⟨h1, h2⟩ | ⟨h1, h2⟩
    · exact .inl ⟨h, h1, h2⟩
    · exact .inr ⟨fun hh => h1 hh.2, h2⟩

theorem Keepr.layout (lt n old) : Keepr (createDefaultLayout lt n old) fun x r => Tells x.1 r := by
  unfold createDefaultLayout
  refine Keepr.ite (fun _ => Keepr.pure (.inr ⟨by simp, rfl⟩)) fun _ => ?_
  dsimp only
  refine Keepr.join (optAlloc n _ _) fun p r hr => ?_
  refine Keepr.ite (fun h => Keepr.pure ?_) fun h => ?_
  · rcases hr with ⟨h1, h2, h3⟩ | ⟨h1, h2⟩
    · exact .inl ⟨rfl, by omega⟩
    · exact absurd h h1
  · rcases hr with ⟨h1, h2, h3⟩ | ⟨h1, rfl⟩
    · exact absurd ⟨h1, h2⟩ h
    · exact Keep0.bind (Keep0.loopN (fun i s => Keep0.storeI p i _) _ _ _) fun _ => Keepr.pure (.inr ⟨by simp, rfl⟩)

theorem Keepr.shape (lt a n) : Keepr (createShape lt a n) fun x r => Tells x.1 r := by
  unfold createShape
  dsimp only
  refine Keepr.join (optAlloc n _ _) fun p r hr => ?_
  refine Keepr.ite (fun h => Keepr.pure ?_) fun h => ?_
  · rcases hr with ⟨h1, h2, h3⟩ | ⟨h1, h2⟩
    · exact .inl ⟨rfl, by omega⟩
    · exact absurd h h1
  · rcases hr with ⟨h1, h2, h3⟩ | ⟨h1, rfl⟩
    · exact absurd ⟨h1, h2⟩ h
    · refine Keep0.bind (Keep0.loopN (fun i s => Keep0.bind (Keep0.rd a i) fun v => Keep0.storeI p i v) _ _ _) fun _ => ?_
      refine Keepr.bind (Keepr.layout _ _ _) fun x r hr => ?_
      obtain ⟨st, l⟩ := x
      refine Keepr.ite (fun _ => Keepr.pure (by simpa using hr)) fun h => Keepr.pure ?_
      have : st = .success := by simpa using h
      subst this
      simpa using hr

theorem Keepr.createStorage (dt dev n data old) : Keepr (createStorage dt dev n data old) fun x r => Tells x.1 r := by
  unfold Aitisa.createStorage
  refine Keepr.bind (Keepr.rawAlloc _ _) fun s r hr => ?_
  refine Keepr.ite (fun h => Keepr.pure ?_) fun h => ?_
  · rcases hr with ⟨h1, rfl⟩ | ⟨h1, h2⟩
    · exact .inl ⟨rfl, by omega⟩
    · exact absurd h h1
  rcases hr with ⟨h1, h2⟩ | ⟨-, rfl⟩
  · exact absurd h1 h
  refine Keepr.ite (fun _ => ?_) fun _ => ?_
  · exact Keep0.bind (Keep0.putBody _ _) fun _ => Keepr.pure (.inr ⟨by simp, rfl⟩)
  · refine Keep0.bind (Keep0.i64 _) fun k => ?_
    refine Keepr.bind (Keepr.rawAlloc _ _) fun p r hr => ?_
    refine Keep0.bind (Keep0.putBody _ _) fun _ => ?_
    refine Keepr.ite (fun h => Keepr.pure ?_) fun h => Keepr.pure ?_
    · rcases hr with ⟨h1, rfl⟩ | ⟨h1, h2⟩
      · exact .inl ⟨rfl, by omega⟩
      · exact absurd h h1
    · rcases hr with ⟨h1, rfl⟩ | ⟨h1, rfl⟩
      · exact absurd h1 h
      · exact .inr ⟨by simp, rfl⟩

theorem Keepr.create (dt dev dims n data len out) : Keepr (create dt dev dims n data len out) fun x r => Tells x.1 r := by
  unfold Aitisa.create
  refine Keepr.bind (Keepr.rawAlloc _ _) fun t r hr => ?_
  refine Keepr.ite (fun h => Keepr.pure ?_) fun h => ?_
  · rcases hr with ⟨h1, rfl⟩ | ⟨h1, h2⟩
    · exact .inl ⟨rfl, by omega⟩
    · exact absurd h h1
  rcases hr with ⟨h1, h2⟩ | ⟨-, rfl⟩
  · exact absurd h1 h
  refine Keep0.bind (Keep0.sizeOfDims _ _) fun size => ?_
  refine Keep0.bind (Keep0.putBody _ _) fun _ => ?_
  dsimp only
  refine Keepr.join (P := fun _ r => r = 0) (Keepr.ite (fun _ => ?_) fun _ => Keepr.pure rfl) fun bad r hr => ?_
  · unfold lenMismatch; exact Keepr.ite (fun _ => Keepr.ub) fun _ => Keepr.pure rfl
  subst hr
  refine Keepr.ite (fun _ => Keepr.pure (.inr ⟨by simp, rfl⟩)) fun _ => ?_
  refine Keepr.bind (Keepr.shape _ _ _) fun x r hr => ?_
  obtain ⟨st, d, l⟩ := x
  refine Keep0.bind (Keep0.putBody _ _) fun _ => ?_
  refine Keepr.ite (fun _ => Keepr.pure (by simpa using hr)) fun h => ?_
  have h1 : st = .success := by simpa using h
  subst h1
  have h2 : r = 0 := by rcases hr with ⟨h, -⟩ | ⟨-, h⟩; · cases h
                        · exact h
  subst h2
  refine Keepr.bind (Keepr.createStorage _ _ _ _ _) fun x r hr => ?_
  obtain ⟨st, s⟩ := x
  refine Keepr.ite (fun _ => Keepr.pure (by simpa using hr)) fun h => ?_
  have h1 : st = .success := by simpa using h
  subst h1
  refine Keep0.bind (Keep0.putBody _ _) fun _ => Keepr.pure (by simpa using hr)

theorem Keepr.after {x : M α} {f : α → M β} {E : Env} {m m1 m' : Mem} {b : α} {a : β} (hx : x E m = .ok b m1)
    (hr : (x >>= f) E m = .ok a m') (hf : Keepr (f b) fun _ _ => True) : m1.next ≤ m'.next := by
  simp only [run_bind] at hr
  rw [hx] at hr
  exact (hf E m1 a m' hr).2.1

/-- A call of `aitisa_create` whose first request is granted keeps at least one new block. -/
theorem Keepr.create_granted {E : Env} {m m' : Mem} (dt dev dims n data len out) {a}
    (ha : E.allocOk m.tick 56 = true) (hr : Aitisa.create dt dev dims n data len out E m = .ok a m') :
    m.next < m'.next := by
  unfold Aitisa.create at hr
  refine Keepr.after (m1 := { m with
    next := m.next + 1, tick := m.tick + 1,
    blk := upd m.blk m.next (some ⟨.own, .tensor ⟨0, 0, 0, .indet, .dense, .indet, .indet⟩⟩) }) (b := .blk m.next) ?_ hr ?_
  · unfold Aitisa.rawAlloc; rw [if_pos ha]
  refine Keepr.ite (fun h => Keepr.pure trivial) fun h => ?_
  refine Keep0.bind (Keep0.sizeOfDims _ _) fun size => ?_
  refine Keep0.bind (Keep0.putBody _ _) fun _ => ?_
  dsimp only
  refine Keepr.join (P := fun _ r => r = 0) (Keepr.ite (fun _ => ?_) fun _ => Keepr.pure rfl) fun bad r hr => ?_
  · unfold lenMismatch; exact Keepr.ite (fun _ => Keepr.ub) fun _ => Keepr.pure rfl
  refine Keepr.ite (fun _ => Keepr.pure trivial) fun _ => ?_
  refine Keepr.bind (Keepr.shape _ _ _) fun x r hr => ?_
  refine Keep0.bind (Keep0.putBody _ _) fun _ => ?_
  refine Keepr.ite (fun _ => Keepr.pure trivial) fun h => ?_
  refine Keepr.bind (Keepr.createStorage _ _ _ _ _) fun x r hr => ?_
  refine Keepr.ite (fun _ => Keepr.pure trivial) fun h => ?_
  exact Keep0.bind (Keep0.putBody _ _) fun _ => Keepr.pure trivial

end Aitisa
