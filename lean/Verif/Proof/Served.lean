import Verif.Proof.Mem
import Verif.Model.NN
import Verif.Spec.Oom

/-!
# Counting requests that are refused

`Still x`: `x` makes no request.  `Srv x P`: whenever `x` completes, it made a request that was refused exactly if its result
satisfies `P`.
-/

namespace Aitisa

variable {α β σ ρ : Type} {E : Env} {m m' m1 m2 : Mem}

/-- Requests refused so far. -/
def Mem.slack (m : Mem) : Int := (m.tick : Int) - m.next

/-- See the head of the file. -/
def Still (x : M α) : Prop := ∀ E m a m', x E m = .ok a m' → m'.tick = m.tick ∧ m'.next = m.next

theorem Still.pure {a : α} : Still (pure a : M α) := by intro E m b m' e; cases e; exact ⟨rfl, rfl⟩
theorem Still.ub (u : UB) : Still (ubM u : M α) := by intro E m b m' e; cases e

theorem Still.bind {x : M α} {f : α → M β} (hx : Still x) (hf : ∀ a, Still (f a)) : Still (x >>= f) := by
  intro E m b m' e
  rw [run_bind] at e
  cases hr : x E m with
  | ok a m1 =>
    rw [hr] at e
    obtain ⟨h1, h2⟩ := hx _ _ _ _ hr
    obtain ⟨h3, h4⟩ := hf a _ _ _ _ e
    exact ⟨h3.trans h1, h4.trans h2⟩
  | ub u => rw [hr] at e; cases e
  | abort => rw [hr] at e; cases e
  | fuel => rw [hr] at e; cases e

theorem Still.ite {c : Prop} [Decidable c] {x y : M α} (hx : Still x) (hy : Still y) : Still (if c then x else y) := by
  split <;> assumption

theorem Still.loopN {f : Nat → σ → M σ} (h : ∀ i s, Still (f i s)) (k i : Nat) (s : σ) : Still (loopN f k i s) := by
  induction k generalizing i s with
  | zero => exact Still.pure
  | succ k ih => rw [loopN_succ]; exact Still.bind (h i s) fun s' => ih (i + 1) s'

theorem Still.forI {f : Nat → σ → M σ} (h : ∀ i s, Still (f i s)) (k : Int) (s : σ) : Still (forI k s f) := Still.loopN h _ _ _

theorem Still.forI32 {f : Nat → σ → M σ} (h : ∀ i s, Still (f i s)) (k : Int) (s : σ) : Still (forI32 k s f) :=
  Still.ite (Still.loopN h _ _ _) (Still.ub _)

theorem Still.loopE {f : Nat → σ → M (σ ⊕ ρ)} (h : ∀ i s, Still (f i s)) (k i : Nat) (s : σ) : Still (loopE f k i s) := by
  induction k generalizing i s with
  | zero => exact Still.pure
  | succ k ih =>
    unfold Aitisa.loopE
    refine Still.bind (h i s) fun r => ?_
    cases r with
    | inl s' => exact ih _ _
    | inr r => exact Still.pure

theorem Still.foldlM {f : σ → α → M σ} (h : ∀ s a, Still (f s a)) (l : List α) (s : σ) : Still (l.foldlM f s) := by
  induction l generalizing s with
  | nil => exact Still.pure
  | cons a l ih => rw [List.foldlM_cons]; exact Still.bind (h s a) fun s' => ih s'

theorem Still.liftU (x : Except UB α) : Still (liftU x) := by
  cases x
  · exact Still.ub _
  · exact Still.pure

theorem Still.i64 (k : Int) : Still (i64 k) := Still.ite Still.pure (Still.ub _)
theorem Still.i32 (k : Int) : Still (i32 k) := Still.ite Still.pure (Still.ub _)

theorem Still.rd (a : Arr) (i : Int) : Still (a.rd i) := by
  unfold Arr.rd
  refine Still.ite ?_ (Still.ub _)
  split
  · exact Still.pure
  · exact Still.ub _

theorem Still.wr (a : Arr) (i v : Int) : Still (a.wr i v) := Still.ite Still.pure (Still.ub _)

theorem Still.getFp : Still getFp := by intro E m a m' e; cases e; exact ⟨rfl, rfl⟩
theorem Still.cRand : Still cRand := by intro E m a m' e; cases e; exact ⟨rfl, rfl⟩

theorem Still.derefBlk (p : Ptr) : Still (derefBlk p) := by
  intro E m a m' e
  unfold Aitisa.derefBlk at e
  split at e
  · cases e
  · cases e
  · split at e <;> cases e; exact ⟨rfl, rfl⟩

theorem Still.putBody (p : Ptr) (b : Body) : Still (putBody p b) := by
  intro E m a m' e
  unfold Aitisa.putBody at e
  split at e
  · cases e
  · cases e
  · split at e
    · cases e
    · split at e <;> cases e; exact ⟨rfl, rfl⟩

theorem Still.rawFree (p : Ptr) : Still (rawFree p) := by
  intro E m a m' e
  unfold Aitisa.rawFree at e
  split at e
  · cases e; exact ⟨rfl, rfl⟩
  · cases e
  · split at e
    · cases e
    · split at e <;> cases e; exact ⟨rfl, rfl⟩

syntax "still_lemma" : tactic
macro_rules | `(tactic| still_lemma) => `(tactic| fail)

open Lean in
/-- Registers lemmas. -/
macro "still_add" xs:ident+ : command => do
  let cmds ← xs.mapM fun x => `(command| macro_rules | `(tactic| still_lemma) => `(tactic| with_reducible apply $x:ident))
  return ⟨mkNullNode cmds⟩

still_add Still.liftU Still.i64 Still.i32 Still.rd Still.wr Still.getFp Still.cRand Still.derefBlk Still.putBody Still.rawFree

macro "still_step" : tactic => `(tactic| first
  | exact Still.pure
  | exact Still.ub _
  | still_lemma
  | (with_reducible refine Still.bind ?_ (fun _ => ?_))
  | (with_reducible refine Still.ite ?_ ?_)
  | (with_reducible refine Still.forI (fun _ _ => ?_) _ _)
  | (with_reducible refine Still.forI32 (fun _ _ => ?_) _ _)
  | (with_reducible refine Still.loopN (fun _ _ => ?_) _ _ _)
  | (with_reducible refine Still.loopE (fun _ _ => ?_) _ _ _)
  | (with_reducible refine Still.foldlM (fun _ _ => ?_) _ _)
  | split)

macro "still" : tactic => `(tactic| repeat' still_step)

theorem Still.derefT (p : Ptr) : Still (derefT p) := by unfold Aitisa.derefT; still
theorem Still.derefS (p : Ptr) : Still (derefS p) := by unfold Aitisa.derefS; still
theorem Still.derefB (p : Ptr) : Still (derefB p) := by unfold Aitisa.derefB; still
theorem Still.derefI (p : Ptr) : Still (derefI p) := by unfold Aitisa.derefI; still
still_add Still.derefT Still.derefS Still.derefB Still.derefI
theorem Still.touch (p : Ptr) (a b : Int) : Still (touch p a b) := by unfold Aitisa.touch; still
theorem Still.storeI (p : Ptr) (a b : Int) : Still (storeI p a b) := by unfold Aitisa.storeI; still
theorem Still.loadI (p : Ptr) (a : Int) : Still (loadI p a) := by unfold Aitisa.loadI; still
theorem Still.loadElem (c : Code) (p : Ptr) (a : Int) : Still (loadElem c p a) := by unfold Aitisa.loadElem; still
theorem Still.storeElem (c : Code) (p : Ptr) (a : Int) (v : Val) : Still (storeElem c p a v) := by unfold Aitisa.storeElem; still
theorem Still.memcpyB (p q : Ptr) (k : Nat) : Still (memcpyB p q k) := by unfold Aitisa.memcpyB; still
theorem Still.tableCode (d : DType) : Still (tableCode d) := by unfold Aitisa.tableCode; still
theorem Still.tNdim (h : Ptr) : Still (tNdim h) := by unfold Aitisa.tNdim; still
theorem Still.tDims (h : Ptr) : Still (tDims h) := by unfold Aitisa.tDims; still
theorem Still.tSize (h : Ptr) : Still (tSize h) := by unfold Aitisa.tSize; still
theorem Still.tDtype (h : Ptr) : Still (tDtype h) := by unfold Aitisa.tDtype; still
theorem Still.tData (h : Ptr) : Still (tData h) := by unfold Aitisa.tData; still
theorem Still.tDevice (h : Ptr) : Still (tDevice h) := by unfold Aitisa.tDevice; still
still_add Still.touch Still.storeI Still.loadI Still.loadElem Still.storeElem Still.memcpyB Still.tableCode Still.tNdim Still.tDims Still.tSize
  Still.tDtype Still.tData Still.tDevice
theorem Still.tDim (h : Ptr) (d : Int) : Still (tDim h d) := by unfold Aitisa.tDim; still
theorem Still.tDimsArr (h : Ptr) : Still (tDimsArr h) := by unfold Aitisa.tDimsArr; still
theorem Still.setItem (h : Ptr) (i : Int) (v : List Byte) : Still (setItem h i v) := by unfold Aitisa.setItem; still
theorem Still.sizeOfDims (a : Arr) (k : Int) : Still (sizeOfDims a k) := by unfold Aitisa.sizeOfDims; still
theorem Still.lenMismatch (a b : Nat) (k : Int) : Still (lenMismatch a b k) := by unfold Aitisa.lenMismatch; still
theorem Still.mapLoop (c c' : Code) (p q : Ptr) (k : Int) (f : Val → Except UB Val) : Still (mapLoop c c' p q k f) := by
  unfold Aitisa.mapLoop; still
still_add Still.tDim Still.tDimsArr Still.setItem Still.sizeOfDims Still.lenMismatch Still.mapLoop
theorem Still.castTemplate (h : Ptr) (d : DType) (t : Ptr) : Still (castTemplate h d t) := by unfold Aitisa.castTemplate; still
theorem Still.squeezeBadAxis (a : Arr) (k : Int) : Still (squeezeBadAxis a k) := by unfold Aitisa.squeezeBadAxis; still
theorem Still.squeezeMark (a : Arr) (k : Int) (b : Arr) (l : Int) : Still (squeezeMark a k b l) := by unfold Aitisa.squeezeMark; still
theorem Still.squeezeCompact (a : Arr) (k l : Int) : Still (squeezeCompact a k l) := by unfold Aitisa.squeezeCompact; still
theorem Still.sqrtKernel (c : Code) (p q : Ptr) (k : Int) : Still (sqrtKernel c p q k) := by unfold Aitisa.sqrtKernel; still
theorem Still.softmaxExp (c : Code) (p q : Ptr) (k : Int) (t : BitVec 64) : Still (softmaxExp c p q k t) := by unfold Aitisa.softmaxExp; still
theorem Still.softmaxDiv (c : Code) (q : Ptr) (k : Int) (t : BitVec 64) : Still (softmaxDiv c q k t) := by unfold Aitisa.softmaxDiv; still
still_add Still.castTemplate Still.squeezeBadAxis Still.squeezeMark Still.squeezeCompact Still.sqrtKernel Still.softmaxExp Still.softmaxDiv
theorem Still.softmaxRow (c : Code) (p q : Ptr) (a b k : Int) : Still (softmaxRow c p q a b k) := by unfold Aitisa.softmaxRow; still
theorem Still.batchSize (l : List (Int × Bool)) : Still (batchSize l) := by unfold Aitisa.batchSize; still
theorem Still.linIdx (a b : List Int) : Still (linIdx a b) := by unfold Aitisa.linIdx; still
theorem Still.rdAll (a : Arr) (k : Nat) : Still (rdAll a k) := by
  induction k with
  | zero => exact Still.pure
  | succ k ih => unfold Aitisa.rdAll; exact Still.bind ih fun _ => Still.bind (Still.rd _ _) fun _ => Still.pure
theorem Still.offsets : (l : List Int) → Still (offsets l)
  | [] => Still.ub _
  | [_] => Still.pure
  | _ :: d :: r => by
    unfold Aitisa.offsets
    exact Still.bind (Still.offsets (d :: r)) fun _ => Still.bind (Still.i64 _) fun _ => Still.pure
still_add Still.softmaxRow Still.batchSize Still.linIdx Still.rdAll Still.offsets

/-- See the head of the file. -/
def Srv (x : M α) (P : α → Prop) : Prop :=
  ∀ E m a m', x E m = .ok a m' → m.next ≤ m'.next ∧ m.tick ≤ m'.tick ∧ m.slack ≤ m'.slack ∧ (m'.slack = m.slack ↔ ¬ P a)

/-- Whatever happens, requests are counted and the result satisfies `P`. -/
def Ends (x : M α) (P : α → Prop) : Prop :=
  ∀ E m a m', x E m = .ok a m' → m.next ≤ m'.next ∧ m.tick ≤ m'.tick ∧ m.slack ≤ m'.slack ∧ P a

theorem Still.srv {x : M α} (h : Still x) : Srv x fun _ => False := by
  intro E m a m' e
  obtain ⟨h1, h2⟩ := h _ _ _ _ e
  simp [Mem.slack, h1, h2]

theorem Srv.bind {x : M α} {f : α → M β} {P : α → Prop} {Q : β → Prop} (hx : Srv x P) (hf : ∀ a, ¬ P a → Srv (f a) Q)
    (hg : ∀ a, P a → Ends (f a) Q) : Srv (x >>= f) Q := by
  intro E m b m' e
  rw [run_bind] at e
  cases hr : x E m with
  | ok a m1 =>
    rw [hr] at e
    obtain ⟨h1, h2, h3, h4⟩ := hx _ _ _ _ hr
    by_cases p : P a
    · obtain ⟨g1, g2, g3, g4⟩ := hg a p _ _ _ _ e
      refine ⟨by omega, by omega, by omega, fun hm => ?_, fun hn => absurd g4 hn⟩
      have : m1.slack ≠ m.slack := fun hh => (h4.1 hh) p
      omega
    · obtain ⟨g1, g2, g3, g4⟩ := hf a p _ _ _ _ e
      have h5 := h4.2 p
      rw [h5] at g4
      exact ⟨by omega, by omega, by omega, g4⟩
  | ub u => rw [hr] at e; cases e
  | abort => rw [hr] at e; cases e
  | fuel => rw [hr] at e; cases e

theorem Srv.step {x : M α} {f : α → M β} {Q : β → Prop} (hx : Still x) (hf : ∀ a, Srv (f a) Q) : Srv (x >>= f) Q :=
  Srv.bind hx.srv (fun a _ => hf a) fun _ h => h.elim

theorem Srv.pure {a : α} {Q : α → Prop} (h : ¬ Q a) : Srv (pure a : M α) Q := by
  intro E m b m' e; cases e; simp [h]

theorem Srv.ub {Q : α → Prop} (u : UB) : Srv (ubM u : M α) Q := by intro E m b m' e; cases e

theorem Srv.ite {c : Prop} [Decidable c] {x y : M α} {Q : α → Prop} (hx : c → Srv x Q) (hy : ¬ c → Srv y Q) : Srv (if c then x else y) Q := by
  split
  · exact hx ‹_›
  · exact hy ‹_›

theorem Srv.of_still {x : M α} {Q : α → Prop} (h : Still x) (hq : ∀ E m a m', x E m = .ok a m' → ¬ Q a) : Srv x Q := by
  intro E m a m' e
  obtain ⟨h1, h2, h3, h4⟩ := h.srv _ _ _ _ e
  exact ⟨h1, h2, h3, fun _ => hq _ _ _ _ e, fun _ => h4.2 id⟩

theorem Ends.pure {a : α} {Q : α → Prop} (h : Q a) : Ends (pure a : M α) Q := by
  intro E m b m' e; cases e; simp [h]

theorem Ends.ite_pos {c : Prop} [Decidable c] {x y : M α} {Q : α → Prop} (h : c) (hx : Ends x Q) : Ends (if c then x else y) Q := by
  rw [if_pos h]; exact hx

theorem Ends.bind {x : M α} {f : α → M β} {P : α → Prop} {Q : β → Prop} (hx : Ends x P) (hf : ∀ a, P a → Ends (f a) Q) : Ends (x >>= f) Q := by
  intro E m b m' e
  rw [run_bind] at e
  cases hr : x E m with
  | ok a m1 =>
    rw [hr] at e
    obtain ⟨h1, h2, h3, h4⟩ := hx _ _ _ _ hr
    obtain ⟨g1, g2, g3, g4⟩ := hf a h4 _ _ _ _ e
    exact ⟨by omega, by omega, by omega, g4⟩
  | ub u => rw [hr] at e; cases e
  | abort => rw [hr] at e; cases e
  | fuel => rw [hr] at e; cases e

theorem Still.ends {x : M α} (h : Still x) : Ends x fun _ => True := by
  intro E m a m' e
  obtain ⟨h1, h2⟩ := h _ _ _ _ e
  simp [Mem.slack, h1, h2]

theorem Srv.ends {x : M α} {P : α → Prop} (h : Srv x P) : Ends x fun _ => True := fun E m a m' e =>
  ⟨(h E m a m' e).1, (h E m a m' e).2.1, (h E m a m' e).2.2.1, trivial⟩

theorem Srv.rawAlloc (sz : Nat) (b : Body) : Srv (rawAlloc sz b) fun p => p = .null := by
  intro E m a m' e
  unfold Aitisa.rawAlloc at e
  split at e
  · cases e; simp [Mem.slack]; omega
  · cases e; simp [Mem.slack]; omega

/-- The request of `if n = 0 then NULL else alloc`. -/
theorem Srv.allocUnless (n : Int) (sz : Nat) (b : Body) :
    Srv (if n = 0 then Pure.pure Ptr.null else Aitisa.rawAlloc sz b) fun p => n ≠ 0 ∧ p = .null := by
  refine Srv.ite (fun h => Srv.pure (by simp [h])) fun h E m a m' e => ?_
  obtain ⟨h1, h2, h3, h4⟩ := Srv.rawAlloc _ _ _ _ _ _ e
  exact ⟨h1, h2, h3, by simpa [h] using h4⟩

theorem ite_bind {c : Prop} [Decidable c] (x y : M α) (f : α → M β) :
    (if c then x >>= f else y >>= f) = (if c then x else y) >>= f := by split <;> rfl

theorem Srv.allocJp {n : Int} {sz : Nat} {b : Body} {f : Ptr → M β} {Q : β → Prop} (hf : ∀ p, ¬ (n ≠ 0 ∧ p = .null) → Srv (f p) Q)
    (hg : ∀ p, (n ≠ 0 ∧ p = .null) → Ends (f p) Q) :
    Srv (if n = 0 then Pure.pure Ptr.null >>= f else Aitisa.rawAlloc sz b >>= f) Q := by
  rw [ite_bind]; exact Srv.bind (Srv.allocUnless _ _ _) hf hg

theorem Srv.createDefaultLayout (lt : LayoutType) (n : Int) (old : Ptr) : Srv (createDefaultLayout lt n old) fun r => r.1 = .allocFailed := by
  unfold Aitisa.createDefaultLayout
  refine Srv.ite (fun _ => Srv.pure (by simp)) fun _ => ?_
  refine Srv.allocJp (fun p hp => ?_) fun p hp => Ends.ite_pos hp (Ends.pure rfl)
  simp only [if_neg hp]
  exact Srv.step (by still) fun _ => Srv.pure (by simp)

theorem Srv.createShape (lt : LayoutType) (dims : Arr) (n : Int) : Srv (createShape lt dims n) fun r => r.1 = .allocFailed := by
  unfold Aitisa.createShape
  refine Srv.allocJp (fun p hp => ?_) fun p hp => Ends.ite_pos hp (Ends.pure rfl)
  simp only [if_neg hp]
  refine Srv.step (by still) fun _ => ?_
  refine Srv.bind (Srv.createDefaultLayout _ _ _) (fun r hr => ?_) fun r hr => Ends.ite_pos (by rw [hr]; simp) (Ends.pure hr)
  exact Srv.ite (fun _ => Srv.pure hr) fun _ => Srv.pure (by simp)

theorem Srv.createStorage (dt : DType) (dev : Device) (n : Int) (data old : Ptr) :
    Srv (createStorage dt dev n data old) fun r => r.1 = .allocFailed := by
  unfold Aitisa.createStorage
  refine Srv.bind (Srv.rawAlloc _ _) (fun p hp => ?_) fun p hp => Ends.ite_pos hp (Ends.pure rfl)
  rw [if_neg hp]
  refine Srv.ite (fun _ => Srv.step (by still) fun _ => Srv.pure (by simp)) fun _ => ?_
  refine Srv.step (by still) fun k => ?_
  refine Srv.bind (Srv.rawAlloc _ _) (fun q hq => ?_) fun q hq => ?_
  · rw [if_neg hq]
    exact Srv.step (by still) fun _ => Srv.pure (by simp)
  · rw [if_pos hq]
    exact Ends.bind (Still.ends (by still)) fun _ _ => Ends.pure rfl

theorem Srv.create (dt : DType) (dev : Device) (dims : Arr) (n : Int) (data : Ptr) (len : Nat) (out : Ptr) :
    Srv (create dt dev dims n data len out) fun r => r.1 = .allocFailed := by
  unfold Aitisa.create
  refine Srv.bind (Srv.rawAlloc _ _) (fun p hp => ?_) fun p hp => Ends.ite_pos hp (Ends.pure rfl)
  rw [if_neg hp]
  refine Srv.step (by still) fun _ => Srv.step (by still) fun _ => ?_
  simp only [ite_bind]
  refine Srv.step (by still) fun _ => Srv.ite (fun _ => Srv.pure (by simp)) fun _ => ?_
  refine Srv.bind (Srv.createShape _ _ _) (fun r hr => ?_) fun r hr =>
    Ends.bind (Still.ends (by still)) fun _ _ => Ends.ite_pos (by rw [hr]; simp) (Ends.pure hr)
  refine Srv.step (by still) fun _ => Srv.ite (fun _ => Srv.pure hr) fun _ => ?_
  refine Srv.bind (Srv.createStorage _ _ _ _ _) (fun r hr => ?_) fun r hr => Ends.ite_pos (by rw [hr]; simp) (Ends.pure hr)
  exact Srv.ite (fun _ => Srv.pure hr) fun _ => Srv.step (by still) fun _ => Srv.pure (by simp)


/-- Steps without requests. -/
macro "srv_step" : tactic => `(tactic| first
  | exact Srv.ub _
  | ((with_reducible refine Srv.pure ?_); (solve | assumption | simp_all))
  | ((with_reducible refine Srv.step ?_ (fun _ => ?_)); (focus (still; done)))
  | (with_reducible refine Srv.ite (fun _ => ?_) (fun _ => ?_))
  | split)

macro "srv" : tactic => `(tactic| repeat' srv_step)

/-- A step that may report failure, after which failure is reported at once. -/
macro "srv_try" t:term : tactic => `(tactic| refine Srv.bind $t (fun r hr => ?_) fun r hr => Ends.ite_pos (by rw [hr]; simp) (Ends.pure hr))

theorem Srv.full (dt : DType) (dev : Device) (dims : Arr) (n : Int) (v : BitVec 64) (out : Ptr) :
    Srv (full dt dev dims n v out) fun r => r.1 = .allocFailed := by
  unfold Aitisa.full
  srv_try (Srv.create _ _ _ _ _ _ _)
  srv

theorem Srv.castTemplate (h : Ptr) (d : DType) (t : Ptr) : Srv (castTemplate h d t) fun a => a = .allocFailed := by
  unfold Aitisa.castTemplate; srv

theorem Srv.last {x : M Status} {t : Ptr} (hx : Srv x fun a => a = .allocFailed) :
    Srv (x >>= fun st => Pure.pure (st, t)) fun r => r.1 = .allocFailed :=
  Srv.bind hx (fun _ h => Srv.pure h) fun _ h => Ends.pure h

theorem Srv.cast (h : Ptr) (dt : DType) (out : Ptr) : Srv (cast h dt out) fun r => r.1 = .allocFailed := by
  unfold Aitisa.cast
  srv
  srv_try (Srv.create _ _ _ _ _ _ _)
  exact Srv.ite (fun _ => Srv.pure (by assumption)) fun _ => Srv.last (Srv.castTemplate _ _ _)

theorem Srv.reshape (h : Ptr) (dims : Arr) (n : Int) (out : Ptr) : Srv (reshape h dims n out) fun r => r.1 = .allocFailed := by
  unfold Aitisa.reshape
  srv
  srv_try (Srv.create _ _ _ _ _ _ _)
  srv

theorem Srv.squeeze (h : Ptr) (a : Arr) (k : Int) (out : Ptr) : Srv (squeeze h a k out) fun r => r.1 = .allocFailed := by
  unfold Aitisa.squeeze
  srv
  refine Srv.bind (Srv.rawAlloc _ _) (fun p hp => ?_) fun p hp => Ends.ite_pos hp (Ends.pure rfl)
  rw [if_neg hp]
  srv
  refine Srv.bind (Srv.rawAlloc _ _) (fun q hq => ?_) fun q hq => Ends.ite_pos hq (Ends.pure rfl)
  rw [if_neg hq]
  srv
  refine Srv.bind (Srv.reshape _ _ _ _) (fun r hr => ?_) fun r hr => ?_
  · srv
  · exact Ends.bind (Still.rawFree _).ends fun _ _ => Ends.bind (Still.rawFree _).ends fun _ _ => Ends.pure hr

theorem Srv.createLike (h out : Ptr) : Srv (createLike h out) fun r => r.1 = .allocFailed := by
  unfold Aitisa.createLike
  srv
  exact Srv.create _ _ _ _ _ _ _

theorem Srv.relu (h out : Ptr) : Srv (relu h out) fun r => r.1 = .allocFailed := by
  unfold Aitisa.relu
  srv_try (Srv.createLike _ _)
  srv

theorem Srv.sigmoid (h out : Ptr) : Srv (sigmoid h out) fun r => r.1 = .allocFailed := by
  unfold Aitisa.sigmoid
  srv_try (Srv.createLike _ _)
  srv

theorem Srv.tanh (h out : Ptr) : Srv (tanh h out) fun r => r.1 = .allocFailed := by
  unfold Aitisa.tanh
  srv_try (Srv.createLike _ _)
  srv

/-- A loop whose early results do not report failure. -/
theorem Srv.loopE {f : Nat → σ → M (σ ⊕ ρ)} {Q : ρ → Prop} (h : ∀ i s, Srv (f i s) fun r => ∃ q, r = .inr q ∧ Q q) (k i : Nat) (s : σ) :
    Srv (Aitisa.loopE f k i s) fun r => ∃ q, r = .inr q ∧ Q q := by
  induction k generalizing i s with
  | zero => exact Srv.pure (by simp)
  | succ k ih =>
    unfold Aitisa.loopE
    refine Srv.bind (h i s) (fun r hr => ?_) fun r hr => ?_
    · cases r with
      | inl s' => exact ih _ _
      | inr r => exact Srv.pure hr
    · obtain ⟨q, rfl, hq⟩ := hr
      exact Ends.pure ⟨q, rfl, hq⟩

theorem Srv.sqrtKernel (c : Code) (p q : Ptr) (k : Int) : Srv (sqrtKernel c p q k) fun a => a = .allocFailed := by
  unfold Aitisa.sqrtKernel
  refine Srv.step Still.getFp fun fp => ?_
  refine Srv.bind (Srv.loopE (Q := fun a => a = .allocFailed) (fun i s => ?_) _ _ _) (fun r hr => ?_) fun r hr => ?_
  · srv
  · cases r with
    | inl _ => exact Srv.pure (by simp)
    | inr st => exact Srv.pure fun h => hr ⟨_, rfl, h⟩
  · obtain ⟨q, rfl, hq⟩ := hr
    exact Ends.pure hq

theorem Srv.sqrt (h out : Ptr) : Srv (sqrt h out) fun r => r.1 = .allocFailed := by
  unfold Aitisa.sqrt
  srv_try (Srv.createLike _ _)
  refine Srv.ite (fun _ => Srv.pure (by assumption)) fun _ => Srv.step (by still) fun _ => Srv.step (by still) fun _ => ?_
  split
  · exact Srv.pure (by simp)
  · exact Srv.step (by still) fun _ => Srv.step (by still) fun _ => Srv.last (Srv.sqrtKernel _ _ _ _)

theorem Srv.softmaxAll (h t : Ptr) : Srv (softmaxAll h t) fun a => a = .allocFailed := by
  unfold Aitisa.softmaxAll; srv

theorem Srv.softmaxAxis (h : Ptr) (axis : Int) (t : Ptr) : Srv (softmaxAxis h axis t) fun a => a = .allocFailed := by
  unfold Aitisa.softmaxAxis
  srv
  refine Srv.bind (Srv.rawAlloc _ _) (fun p hp => ?_) fun p hp => Ends.bind (Srv.rawAlloc _ _).ends fun _ _ => Ends.ite_pos (.inl hp) (Ends.pure rfl)
  refine Srv.bind (Srv.rawAlloc _ _) (fun q hq => ?_) fun q hq => Ends.ite_pos (.inr hq) (Ends.pure rfl)
  rw [if_neg (by simp [hp, hq])]
  srv

theorem Srv.softmax (h : Ptr) (axis : Int) (out : Ptr) : Srv (softmax h axis out) fun r => r.1 = .allocFailed := by
  unfold Aitisa.softmax
  refine Srv.step (by still) fun _ => Srv.ite (fun _ => Srv.pure (by simp)) fun _ => ?_
  srv_try (Srv.createLike _ _)
  refine Srv.ite (fun _ => Srv.pure (by assumption)) fun _ => ?_
  simp only [ite_bind]
  exact Srv.last (Srv.ite (fun _ => Srv.softmaxAll _ _) fun _ => Srv.softmaxAxis _ _ _)

theorem Srv.reports {x : M (Status × Ptr)} (h : Srv x fun r => r.1 = .allocFailed) : ReportsOom x := by
  intro E m st p m' e
  obtain ⟨h1, h2, h3, h4⟩ := h _ _ _ _ e
  unfold Granted
  unfold Mem.slack at h3 h4
  constructor
  · intro hs hg
    exact h4.1 (by omega) hs
  · intro hg
    by_cases hs : st = .allocFailed
    · exact hs
    · exact absurd (h4.2 hs) (by omega)

end Aitisa
