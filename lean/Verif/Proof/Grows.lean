import Verif.Proof.Tensor

/-! # Bounding the number of allocations of a computation -/

namespace Aitisa

/-- `x` allocates at most `k` blocks (freed or not). -/
def Grows {α} (x : M α) (k : Nat) : Prop :=
  ∀ E m a m', x E m = .ok a m' → m'.next ≤ m.next + k

theorem Grows.pure {α} (a : α) : Grows (pure a : M α) 0 := by
  intro E m b m' h; simp at h; rw [h.2]; omega

theorem Grows.ub {α} (u : UB) : Grows (ubM u : M α) 0 := by
  intro E m b m' h; simp at h

theorem Grows.bind {α β} {x : M α} {f : α → M β} {j k : Nat} (hx : Grows x j) (hf : ∀ a, Grows (f a) k) :
    Grows (x >>= f) (j + k) := by
  intro E m b m' h
  simp only [run_bind] at h
  cases hr : x E m with
  | ok a m1 =>
    rw [hr] at h
    have h1 := hx _ _ _ _ hr
    have h2 := hf _ _ _ _ _ h
    omega
  | ub u => rw [hr] at h; simp at h
  | abort => rw [hr] at h; simp [Res.andThen] at h
  | fuel => rw [hr] at h; simp [Res.andThen] at h

theorem Grows.mono {α} {x : M α} {j k : Nat} (h : Grows x j) (hk : j ≤ k) : Grows x k := by
  intro E m a m' hr; have := h _ _ _ _ hr; omega

theorem Grows.ite {α} {c : Prop} [Decidable c] {x y : M α} {k : Nat} (hx : Grows x k) (hy : Grows y k) :
    Grows (if c then x else y) k := by split <;> assumption

theorem Grows.rawAlloc (sz b) : Grows (rawAlloc sz b) 1 := by
  intro E m a m' h
  rw [run_rawAlloc] at h
  split at h <;> simp at h <;> rw [← h.2] <;> simp

theorem Grows.putBody (p b) : Grows (putBody p b) 0 := by
  intro E m a m' h
  unfold Aitisa.putBody at h
  split at h
  · simp at h
  · simp at h
  · split at h
    · simp at h
    · split at h <;> simp at h
      rw [← h]; simp

theorem Grows.derefBlk (p) : Grows (derefBlk p) 0 := by
  intro E m a m' h
  unfold Aitisa.derefBlk at h
  split at h
  · simp at h
  · simp at h
  · split at h <;> simp at h
    rw [← h.2]; simp

theorem Grows.derefI (p) : Grows (derefI p) 0 := by
  unfold Aitisa.derefI
  refine Grows.bind (j := 0) (k := 0) (Grows.derefBlk p) fun b => ?_
  split
  · exact Grows.pure _
  · exact Grows.ub _

theorem Grows.i64 (n) : Grows (i64 n) 0 := by
  unfold Aitisa.i64; exact Grows.ite (Grows.pure _) (Grows.ub _)

theorem Grows.rd (a : Arr) (i) : Grows (a.rd i) 0 := by
  unfold Arr.rd
  refine Grows.ite ?_ (Grows.ub _)
  split
  · exact Grows.pure _
  · exact Grows.ub _

theorem Grows.wr (a : Arr) (i v) : Grows (a.wr i v) 0 := by
  unfold Arr.wr; exact Grows.ite (Grows.pure _) (Grows.ub _)

theorem Grows.loopN {σ} {f : Nat → σ → M σ} (h : ∀ i s, Grows (f i s) 0) (k i : Nat) (s : σ) :
    Grows (loopN f k i s) 0 := by
  induction k generalizing i s with
  | zero => exact Grows.pure s
  | succ k ih =>
    rw [loopN_succ]
    exact Grows.bind (j := 0) (k := 0) (h i s) fun s' => ih (i + 1) s'

theorem Grows.storeI (p i v) : Grows (storeI p i v) 0 := by
  unfold Aitisa.storeI
  exact Grows.bind (j := 0) (k := 0) (Grows.derefI p) fun l =>
    Grows.bind (j := 0) (k := 0) (Grows.wr l i v) fun l' => Grows.putBody p _

theorem Grows.sizeOfDims (a n) : Grows (sizeOfDims a n) 0 := by
  unfold Aitisa.sizeOfDims forI
  exact Grows.loopN (fun i s => Grows.bind (j := 0) (k := 0) (Grows.rd a i) fun d => Grows.i64 _) _ _ _

theorem Grows.layout (lt n old) : Grows (createDefaultLayout lt n old) 1 := by
  unfold createDefaultLayout
  refine Grows.ite ((Grows.pure _).mono (by omega)) ?_
  dsimp only
  have cont : ∀ p, Grows (if n ≠ 0 ∧ p = Ptr.null then Pure.pure (Status.allocFailed, p)
      else do
        forI n () fun i _ => Aitisa.storeI p i (n - 1 - i)
        Pure.pure (Status.success, p)) 0 := fun p =>
    Grows.ite (Grows.pure _)
      (Grows.bind (j := 0) (k := 0) (Grows.loopN (fun i s => Grows.storeI p i _) _ _ _) fun _ => Grows.pure _)
  exact Grows.ite ((Grows.bind (j := 0) (k := 0) (Grows.pure _) cont).mono (by omega))
    (Grows.bind (j := 1) (k := 0) (Grows.rawAlloc _ _) cont)

theorem Grows.shape (lt a n) : Grows (createShape lt a n) 2 := by
  unfold createShape
  dsimp only
  have cont : ∀ d, Grows (if n ≠ 0 ∧ d = Ptr.null then Pure.pure (Status.allocFailed, d, Ptr.indet)
      else do
        forI n () fun i _ => do
            let v ← a.rd i
            Aitisa.storeI d i v
        let __x ← createDefaultLayout lt n Ptr.indet
        match __x with
          | (st, l) => if st ≠ Status.success then Pure.pure (st, d, l) else Pure.pure (Status.success, d, l)) 1 :=
    fun d => by
      refine Grows.ite ((Grows.pure _).mono (by omega)) ?_
      refine Grows.bind (j := 0) (k := 1) (Grows.loopN (fun i s =>
        Grows.bind (j := 0) (k := 0) (Grows.rd a i) fun v => Grows.storeI d i v) _ _ _) fun _ => ?_
      refine Grows.bind (j := 1) (k := 0) (Grows.layout _ _ _) fun p => ?_
      exact Grows.ite (Grows.pure _) (Grows.pure _)
  exact Grows.ite ((Grows.bind (j := 0) (k := 1) (Grows.pure _) cont).mono (by omega))
    (Grows.bind (j := 1) (k := 1) (Grows.rawAlloc _ _) cont)

theorem Grows.createStorage (dt dev n data old) : Grows (createStorage dt dev n data old) 2 := by
  unfold Aitisa.createStorage
  refine Grows.bind (j := 1) (k := 1) (Grows.rawAlloc _ _) fun s => ?_
  refine Grows.ite ((Grows.pure _).mono (by omega)) ?_
  refine Grows.ite ?_ ?_
  · exact (Grows.bind (j := 0) (k := 0) (Grows.putBody _ _) fun _ => Grows.pure _).mono (by omega)
  · refine Grows.bind (j := 0) (k := 1) (Grows.i64 _) fun k => ?_
    refine Grows.bind (j := 1) (k := 0) (Grows.rawAlloc _ _) fun p => ?_
    refine Grows.bind (j := 0) (k := 0) (Grows.putBody _ _) fun _ => ?_
    exact Grows.ite (Grows.pure _) (Grows.pure _)

theorem Grows.lenMismatch (l s n) : Grows (lenMismatch l s n) 0 := by
  unfold Aitisa.lenMismatch; exact Grows.ite (Grows.ub _) (Grows.pure _)

/-- `aitisa_create` allocates at most five blocks. -/
theorem Grows.create (dt dev dims n data len out) : Grows (create dt dev dims n data len out) 5 := by
  unfold Aitisa.create
  refine Grows.bind (j := 1) (k := 4) (Grows.rawAlloc _ _) fun t => ?_
  refine Grows.ite ((Grows.pure _).mono (by omega)) ?_
  refine Grows.bind (j := 0) (k := 4) (Grows.sizeOfDims _ _) fun size => ?_
  refine Grows.bind (j := 0) (k := 4) (Grows.putBody _ _) fun _ => ?_
  dsimp only
  have cont : ∀ bad : Bool, Grows (if bad = true then Pure.pure (Status.invalidArgument, out)
      else do
        let __x ← createShape LayoutType.dense dims n
        match __x with
          | (st, d, l) => do
            Aitisa.putBody t (Body.tensor ⟨size, 0, n, d, .dense, l, .indet⟩)
            if st ≠ Status.success then Pure.pure (st, out)
              else do
                let __x ← Aitisa.createStorage dt dev size data Ptr.indet
                match __x with
                  | (st, s) =>
                    if st ≠ Status.success then Pure.pure (st, out)
                    else do
                      Aitisa.putBody t (Body.tensor ⟨size, 0, n, d, .dense, l, s⟩)
                      Pure.pure (Status.success, t)) 4 := fun bad => by
    refine Grows.ite ((Grows.pure _).mono (by omega)) ?_
    refine Grows.bind (j := 2) (k := 2) (Grows.shape _ _ _) fun r => ?_
    refine Grows.bind (j := 0) (k := 2) (Grows.putBody _ _) fun _ => ?_
    refine Grows.ite ((Grows.pure _).mono (by omega)) ?_
    refine Grows.bind (j := 2) (k := 0) (Grows.createStorage _ _ _ _ _) fun s => ?_
    refine Grows.ite (Grows.pure _) ?_
    exact Grows.bind (j := 0) (k := 0) (Grows.putBody _ _) fun _ => Grows.pure _
  exact Grows.ite (Grows.bind (j := 0) (k := 4) (Grows.lenMismatch _ _ _) cont)
    (Grows.bind (j := 0) (k := 4) (Grows.pure _) cont)

end Aitisa
