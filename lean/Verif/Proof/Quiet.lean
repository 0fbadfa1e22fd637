import Verif.Proof.Relabel
import Verif.Model.BatchNorm
import Verif.Model.Conv

/-!
# Computations that neither allocate nor release

`Quiet n x Q`: whatever the arguments and the state, if `x` completes then it has allocated and released nothing, has changed only
the bytes of data blocks with ids from `n` on, its result satisfies `Q`, and it runs in the same way when blocks below `n` have other
origins (read-only ones, for example).
-/

namespace Aitisa

variable {α β σ ρ : Type} {n : Nat} {E : Env} {m m' m1 m2 : Mem} {Q Q' : α → Prop}

/-- A pointer that does not lead to a block below `n`. -/
def Ptr.New (n : Nat) : Ptr → Prop
  | .blk b => n ≤ b
  | _ => True

/-- The pointers in a block. -/
def Body.New (n : Nat) : Body → Prop
  | .tensor t => t.dims.New n ∧ t.min2maj.New n ∧ t.storage.New n
  | .storage s => s.data.New n
  | _ => True

/-- The blocks from `n` on do not refer to blocks below `n`. -/
structure Sep (n : Nat) (m : Mem) : Prop where
  wf : m.WF
  le : n ≤ m.next
  new : ∀ b k, n ≤ b → m.blk b = some k → k.body.New n

/-- A block without pointers. -/
def Body.Flat : Body → Prop
  | .tensor _ => False
  | .storage _ => False
  | _ => True

theorem Body.Flat.new {b : Body} (h : b.Flat) : b.New n := by cases b <;> first | exact h.elim | trivial

/-- Only the contents of blocks without pointers, from block `n` on, differ. -/
structure Same (n : Nat) (m m' : Mem) : Prop where
  next : m'.next = m.next
  blk : ∀ b, m'.blk b = m.blk b ∨
    (n ≤ b ∧ ∃ h l l', l.Flat ∧ l'.Flat ∧ m.blk b = some ⟨h, l⟩ ∧ m'.blk b = some ⟨h, l'⟩)

theorem Same.refl (n : Nat) (m : Mem) : Same n m m := ⟨rfl, fun _ => .inl rfl⟩

theorem Same.trans (h : Same n m m1) (h' : Same n m1 m2) : Same n m m2 where
  next := h'.next.trans h.next
  blk b := by
    rcases h.blk b with e | ⟨hb, k, l, l', a, a', e, e'⟩ <;> rcases h'.blk b with f | ⟨hb', k', l1, l2, c, c', f, f'⟩
    · exact .inl (f.trans e)
    · exact .inr ⟨hb', k', l1, l2, c, c', by rw [← e, f], f'⟩
    · exact .inr ⟨hb, k, l, l', a, a', e, f.trans e'⟩
    · rw [e'] at f; cases f; exact .inr ⟨hb, k, l, l2, a, c', e, f'⟩

theorem Same.below (h : Same n m m') {b : Nat} (hb : b < n) : m'.blk b = m.blk b := by
  rcases h.blk b with e | ⟨hb', -⟩
  · exact e
  · omega

theorem Same.sep (h : Same n m m') (s : Sep n m) : Sep n m' where
  wf b hb := by
    rw [h.next] at hb
    have := s.wf b hb
    rcases h.blk b with e | ⟨-, k, l, l', -, -, e, -⟩
    · rw [e, this]
    · rw [this] at e; cases e
  le := h.next ▸ s.le
  new b k hb hk := by
    rcases h.blk b with e | ⟨-, k', l, l', -, f, e, e'⟩
    · exact s.new b k hb (e ▸ hk)
    · rw [e'] at hk; cases hk; exact f.new

/-- `x`, which takes `m` to `a` and `m'`, does so whatever the origins of the blocks below `n`. -/
def Sim (n : Nat) (x : M α) (E : Env) (m : Mem) (a : α) (m' : Mem) : Prop :=
  ∀ L : Nat → Option Origin, (∀ b, n ≤ b → L b = none) → x E (m.relabel L) = .ok a (m'.relabel L)

theorem Sim.bind {x : M α} {f : α → M β} {a : α} {b : β} (h : Sim n x E m a m1) (h' : Sim n (f a) E m1 b m2) :
    Sim n (x >>= f) E m b m2 := by
  intro L hL
  rw [run_bind, h L hL]
  exact h' L hL

/-- See the head of the file. -/
def Quiet (n : Nat) (x : M α) (Q : α → Prop) : Prop :=
  ∀ E m a m', Sep n m → x E m = .ok a m' → Same n m m' ∧ Q a ∧ Sim n x E m a m'

theorem Quiet.pure {a : α} (h : Q a) : Quiet n (pure a : M α) Q := by
  intro E m b m' s e; cases e; exact ⟨Same.refl _ _, h, fun _ _ => rfl⟩

theorem Quiet.ub (u : UB) : Quiet n (ubM u : M α) Q := by
  intro E m b m' s e; cases e

theorem Quiet.bind {x : M α} {f : α → M β} {P : α → Prop} {Q : β → Prop} (hx : Quiet n x P) (hf : ∀ a, P a → Quiet n (f a) Q) :
    Quiet n (x >>= f) Q := by
  intro E m b m' s e
  rw [run_bind] at e
  cases hr : x E m with
  | ok a m1 =>
    rw [hr] at e
    obtain ⟨s1, p, i⟩ := hx _ _ _ _ s hr
    obtain ⟨s2, q, j⟩ := hf a p _ _ _ _ (s1.sep s) e
    exact ⟨s1.trans s2, q, i.bind j⟩
  | ub u => rw [hr] at e; cases e
  | abort => rw [hr] at e; cases e
  | fuel => rw [hr] at e; cases e

theorem Quiet.mono {x : M α} (h : Quiet n x Q) (hq : ∀ a, Q a → Q' a) : Quiet n x Q' :=
  fun E m a m' s e => let r := h E m a m' s e; ⟨r.1, hq a r.2.1, r.2.2⟩

theorem Quiet.any {x : M α} (h : Quiet n x Q) : Quiet n x fun _ => True := h.mono fun _ _ => trivial

theorem Quiet.ite {c : Prop} [Decidable c] {x y : M α} (hx : c → Quiet n x Q) (hy : ¬ c → Quiet n y Q) : Quiet n (if c then x else y) Q := by
  split
  · exact hx ‹_›
  · exact hy ‹_›

theorem Quiet.loopN {f : Nat → σ → M σ} {I : σ → Prop} (h : ∀ i s, I s → Quiet n (f i s) I) (k i : Nat) {s : σ} (hs : I s) :
    Quiet n (loopN f k i s) I := by
  induction k generalizing i s with
  | zero => exact Quiet.pure hs
  | succ k ih => rw [loopN_succ]; exact Quiet.bind (h i s hs) fun s' hs' => ih (i + 1) hs'

theorem Quiet.forI {f : Nat → σ → M σ} {I : σ → Prop} (h : ∀ i s, I s → Quiet n (f i s) I) (k : Int) {s : σ} (hs : I s) :
    Quiet n (forI k s f) I := Quiet.loopN h _ _ hs

theorem Quiet.forI32 {f : Nat → σ → M σ} {I : σ → Prop} (h : ∀ i s, I s → Quiet n (f i s) I) (k : Int) {s : σ} (hs : I s) :
    Quiet n (forI32 k s f) I := Quiet.ite (fun _ => Quiet.loopN h _ _ hs) fun _ => Quiet.ub _

theorem Quiet.loopE {f : Nat → σ → M (σ ⊕ ρ)} (h : ∀ i s, Quiet n (f i s) fun _ => True) (k i : Nat) (s : σ) :
    Quiet n (loopE f k i s) fun _ => True := by
  induction k generalizing i s with
  | zero => exact Quiet.pure trivial
  | succ k ih =>
    unfold Aitisa.loopE
    refine Quiet.bind (h i s) fun r _ => ?_
    cases r with
    | inl s' => exact ih _ _
    | inr r => exact Quiet.pure trivial

theorem Quiet.forI32E {f : Nat → σ → M (σ ⊕ ρ)} (h : ∀ i s, Quiet n (f i s) fun _ => True) (k : Int) (s : σ) :
    Quiet n (forI32E k s f) fun _ => True := by
  unfold Aitisa.forI32E
  exact Quiet.ite (fun _ => Quiet.loopE h _ _ _) fun _ => Quiet.ub _

theorem Quiet.forU32E {f : Nat → σ → M (σ ⊕ ρ)} (h : ∀ i s, Quiet n (f i s) fun _ => True) (k : Int) (s : σ) :
    Quiet n (forU32E k s f) fun _ => True := by
  unfold Aitisa.forU32E
  refine Quiet.ite (fun _ => Quiet.loopE h _ _ _) fun _ => ?_
  intro E m a m' s e; cases e

theorem Quiet.whileE {f : σ → M ((σ × Bool) ⊕ ρ)} (h : ∀ s, Quiet n (f s) fun _ => True) (k : Nat) (s : σ) :
    Quiet n (whileE f k s) fun _ => True := by
  induction k generalizing s with
  | zero => intro E m a m' s e; cases e
  | succ k ih =>
    unfold Aitisa.whileE
    refine Quiet.bind (h s) fun r _ => ?_
    split
    · exact Quiet.pure trivial
    · exact Quiet.ite (fun _ => ih _) fun _ => Quiet.pure trivial

theorem Quiet.foldlM {f : σ → α → M σ} (h : ∀ s a, Quiet n (f s a) fun _ => True) (l : List α) (s : σ) :
    Quiet n (l.foldlM f s) fun _ => True := by
  induction l generalizing s with
  | nil => exact Quiet.pure trivial
  | cons a l ih => rw [List.foldlM_cons]; exact Quiet.bind (h s a) fun s' _ => ih s'

/-! ## Primitives -/

theorem Quiet.liftU (x : Except UB α) : Quiet n (liftU x) fun _ => True := by
  cases x with
  | ok a => exact Quiet.pure trivial
  | error u => exact Quiet.ub u

theorem Quiet.i64 (k : Int) : Quiet n (i64 k) fun _ => True := Quiet.ite (fun _ => Quiet.pure trivial) fun _ => Quiet.ub _
theorem Quiet.i32 (k : Int) : Quiet n (i32 k) fun _ => True := Quiet.ite (fun _ => Quiet.pure trivial) fun _ => Quiet.ub _

theorem Quiet.rd (a : Arr) (i : Int) : Quiet n (a.rd i) fun _ => True := by
  unfold Arr.rd
  refine Quiet.ite (fun _ => ?_) fun _ => Quiet.ub _
  split
  · exact Quiet.pure trivial
  · exact Quiet.ub _

theorem Quiet.wr (a : Arr) (i v : Int) : Quiet n (a.wr i v) fun _ => True :=
  Quiet.ite (fun _ => Quiet.pure trivial) fun _ => Quiet.ub _

theorem Quiet.cAssert (b : Bool) : Quiet n (cAssert b) fun _ => True := by
  intro E m a m' s e
  unfold Aitisa.cAssert at e
  split at e
  · cases e
  · next h => cases e; exact ⟨Same.refl _ _, trivial, fun _ _ => if_neg h⟩

theorem Quiet.getFp : Quiet n getFp fun _ => True := by
  intro E m a m' s e; cases e; exact ⟨Same.refl _ _, trivial, fun _ _ => rfl⟩

theorem Quiet.cRand : Quiet n cRand fun _ => True := by
  intro E m a m' s e; cases e; exact ⟨⟨rfl, fun _ => .inl rfl⟩, trivial, fun _ _ => rfl⟩

/-- A computation that looks at the contents of a block. -/
theorem Quiet.derefBlk {p : Ptr} {f : Block → M α} {g : Body → M α} (hg : ∀ b, f b = g b.body)
    (h : ∀ b : Body, (p.New n → b.New n) → Quiet n (g b) Q) : Quiet n (derefBlk p >>= f) Q := by
  intro E m a m' s e
  rw [run_bind] at e
  cases p with
  | null => cases e
  | indet => cases e
  | blk b =>
    unfold Aitisa.derefBlk at e
    cases hb : m.blk b with
    | none => simp only [hb] at e; cases e
    | some K =>
      simp only [hb, Res.andThen, hg] at e
      obtain ⟨s1, q, i⟩ := h K.body (fun hp => s.new b K hp hb) E m a m' s e
      refine ⟨s1, q, fun L hL => ?_⟩
      rw [run_bind]
      unfold Aitisa.derefBlk
      simp only [relabel_some hb, Res.andThen, hg]
      exact i L hL

theorem Quiet.derefT (p : Ptr) : Quiet n (derefT p) fun t => p.New n → t.dims.New n ∧ t.min2maj.New n ∧ t.storage.New n := by
  refine Quiet.derefBlk (g := fun b => match b with | .tensor t => Pure.pure t | _ => ubM .typeConfusion) (fun b => by cases b.body <;> rfl) fun b hb => ?_
  split
  · exact Quiet.pure hb
  · exact Quiet.ub _

theorem Quiet.derefS (p : Ptr) : Quiet n (derefS p) fun s => p.New n → s.data.New n := by
  refine Quiet.derefBlk (g := fun b => match b with | .storage t => Pure.pure t | _ => ubM .typeConfusion) (fun b => by cases b.body <;> rfl) fun b hb => ?_
  split
  · exact Quiet.pure hb
  · exact Quiet.ub _

theorem Quiet.derefB (p : Ptr) : Quiet n (derefB p) fun _ => True := by
  refine Quiet.derefBlk (g := fun b => match b with | .bytes t => Pure.pure t | _ => ubM .typeConfusion) (fun b => by cases b.body <;> rfl) fun b hb => ?_
  split
  · exact Quiet.pure trivial
  · exact Quiet.ub _

theorem Quiet.derefI (p : Ptr) : Quiet n (derefI p) fun _ => True := by
  refine Quiet.derefBlk (g := fun b => match b with | .i64s t => Pure.pure t | _ => ubM .typeConfusion) (fun b => by cases b.body <;> rfl) fun b hb => ?_
  split
  · exact Quiet.pure trivial
  · exact Quiet.ub _

theorem Quiet.touch (p : Ptr) (lo hi : Int) : Quiet n (touch p lo hi) fun _ => True := by
  refine Quiet.derefBlk (g := fun b => match b with | .scratch k => if 0 ≤ lo ∧ hi ≤ k then Pure.pure () else ubM .outOfBounds | _ => ubM .typeConfusion)
    (fun b => by cases b.body <;> rfl) fun b hb => ?_
  split
  · exact Quiet.ite (fun _ => Quiet.pure trivial) fun _ => Quiet.ub _
  · exact Quiet.ub _

/-- Overwriting a block without pointers with another such block. -/
theorem same_put {b : Nat} (hb : n ≤ b) {h : Origin} {l l' : Body} (e : m.blk b = some ⟨h, l⟩) (f : l.Flat) (f' : l'.Flat) :
    Same n m (m.set b (some ⟨h, l'⟩)) := by
  refine ⟨rfl, fun c => ?_⟩
  by_cases hc : c = b
  · subst hc; exact .inr ⟨hb, h, l, l', f, f', e, by simp [Mem.set, upd]⟩
  · exact .inl (by simp [Mem.set, upd, hc])

/-- A write of bytes to a block of bytes. -/
theorem Quiet.writeBytes {p : Ptr} (hp : p.New n) {k : List Byte → M (List Byte)}
    (hm : ∀ E m bs a m', k bs E m = .ok a m' → m' = m ∧ ∀ m2, k bs E m2 = .ok a m2) :
    Quiet n (Aitisa.derefB p >>= fun bs => k bs >>= fun bs' => putBody p (.bytes bs')) fun _ => True := by
  intro E m a m' s e
  unfold Aitisa.derefB Aitisa.derefBlk at e
  cases p with
  | null => cases e
  | indet => cases e
  | blk b =>
    simp only [run_bind] at e
    cases hb : m.blk b with
    | none => simp only [hb] at e; cases e
    | some K =>
      simp only [hb, Res.andThen] at e
      obtain ⟨h, body⟩ := K
      cases body <;> simp only [run_pure, ubM] at e <;> try cases e
      rename_i bs
      cases hk1 : k bs E m with
      | ok bs' m2 =>
        obtain ⟨rfl, hk2⟩ := hm _ _ _ _ _ hk1
        rw [hk1] at e
        simp only [putBody, hb] at e
        split at e
        · cases e
        · next hc =>
          cases e
          refine ⟨same_put hp hb trivial trivial, trivial, fun L hL => ?_⟩
          unfold Aitisa.derefB Aitisa.derefBlk
          simp only [run_bind, relabel_some hb, Res.andThen, run_pure, hk2]
          unfold Aitisa.putBody
          simp only [relabel_some hb, hL b hp, Option.getD_none, if_neg hc]
          rw [← relabel_set, hL b hp]; rfl
      | ub u => rw [hk1] at e; cases e
      | abort => rw [hk1] at e; cases e
      | fuel => rw [hk1] at e; cases e

/-- A write of a cell of an `int64_t` array. -/
theorem Quiet.storeI {p : Ptr} (hp : p.New n) (i v : Int) : Quiet n (storeI p i v) fun _ => True := by
  intro E m a m' s e
  unfold Aitisa.storeI Aitisa.derefI Aitisa.derefBlk at e
  cases p with
  | null => cases e
  | indet => cases e
  | blk b =>
    simp only [run_bind] at e
    cases hb : m.blk b with
    | none => simp only [hb] at e; cases e
    | some K =>
      simp only [hb, Res.andThen] at e
      obtain ⟨h, body⟩ := K
      cases body <;> simp only [run_pure, ubM] at e <;> try cases e
      rename_i bs
      unfold Arr.wr at e
      by_cases hc : 0 ≤ i ∧ i < bs.length
      · rw [if_pos hc] at e
        simp only [putBody, hb, run_pure] at e
        split at e
        · cases e
        · next hk =>
          cases e
          refine ⟨same_put hp hb trivial trivial, trivial, fun L hL => ?_⟩
          unfold Aitisa.storeI Aitisa.derefI Aitisa.derefBlk
          simp only [run_bind, relabel_some hb, Res.andThen, run_pure]
          unfold Arr.wr
          rw [if_pos hc]
          unfold Aitisa.putBody
          simp only [run_pure, relabel_some hb, hL b hp, Option.getD_none, if_neg hk]
          rw [← relabel_set, hL b hp]; rfl
      · rw [if_neg hc] at e; cases e

theorem Quiet.storeElem (c : Code) {p : Ptr} (hp : p.New n) (i : Int) (v : Val) : Quiet n (storeElem c p i v) fun _ => True :=
  Quiet.writeBytes hp fun E m bs a m' h => by
    cases hw : wrElem c bs i v <;> rw [hw] at h <;> cases h; exact ⟨rfl, fun _ => rfl⟩

theorem Quiet.loadElem (c : Code) (p : Ptr) (i : Int) : Quiet n (loadElem c p i) fun _ => True :=
  Quiet.bind (Quiet.derefB p) fun _ _ => Quiet.liftU _

/-- The write of the bytes that a bounds check allows. -/
theorem Quiet.writeIf {p : Ptr} (hp : p.New n) (c : List Byte → Prop) [∀ d, Decidable (c d)] (f : List Byte → List Byte) :
    Quiet n (Aitisa.derefB p >>= fun d => if c d then putBody p (.bytes (f d)) else ubM .outOfBounds) fun _ => True := by
  have : (Aitisa.derefB p >>= fun d => if c d then putBody p (.bytes (f d)) else ubM .outOfBounds) =
      (Aitisa.derefB p >>= fun d => (if c d then Pure.pure (f d) else ubM .outOfBounds) >>= fun bs' => putBody p (.bytes bs')) := by
    congr 1; funext d
    split
    · funext E m; rw [run_bind]; rfl
    · funext E m; rw [run_bind]; rfl
  rw [this]
  refine Quiet.writeBytes hp fun E m bs a m' h => ?_
  split at h
  · next hc => cases h; exact ⟨rfl, fun m2 => by rw [if_pos hc]; rfl⟩
  · cases h

theorem Quiet.memcpyB {dst : Ptr} (hp : dst.New n) (src : Ptr) (k : Nat) : Quiet n (memcpyB dst src k) fun _ => True :=
  Quiet.bind (Quiet.derefB src) fun s _ => Quiet.writeIf hp (fun d => k ≤ s.length ∧ k ≤ d.length) _

theorem Quiet.memcpyTo {dst : Ptr} (hp : dst.New n) (off : Int) (src : Ptr) (frm : Int) (k : Nat) :
    Quiet n (memcpyTo dst off src frm k) fun _ => True :=
  Quiet.bind (Quiet.derefB src) fun s _ => Quiet.writeIf hp (fun d => 0 ≤ off ∧ 0 ≤ frm ∧ frm + k ≤ s.length ∧ off + k ≤ d.length) _

theorem Quiet.memcpyAt {dst : Ptr} (hp : dst.New n) (off : Int) (src : Ptr) (k : Nat) :
    Quiet n (memcpyAt dst off src k) fun _ => True :=
  Quiet.bind (Quiet.derefB src) fun s _ => Quiet.writeIf hp (fun d => 0 ≤ off ∧ k ≤ s.length ∧ off + k ≤ d.length) _

theorem Quiet.tNdim (h : Ptr) : Quiet n (tNdim h) fun _ => True := Quiet.bind (Quiet.derefT h) fun _ _ => Quiet.pure trivial
theorem Quiet.tSize (h : Ptr) : Quiet n (tSize h) fun _ => True := Quiet.bind (Quiet.derefT h) fun _ _ => Quiet.pure trivial
theorem Quiet.tDims (h : Ptr) : Quiet n (tDims h) fun _ => True := Quiet.bind (Quiet.derefT h) fun _ _ => Quiet.pure trivial
theorem Quiet.tDim (h : Ptr) (d : Int) : Quiet n (tDim h d) fun _ => True :=
  Quiet.bind (Quiet.tDims h) fun _ _ => Quiet.bind (Quiet.derefI _) fun _ _ => Quiet.rd _ _
theorem Quiet.tDtype (h : Ptr) : Quiet n (tDtype h) fun _ => True :=
  Quiet.bind (Quiet.derefT h) fun _ _ => Quiet.bind (Quiet.derefS _) fun _ _ => Quiet.pure trivial
theorem Quiet.tDevice (h : Ptr) : Quiet n (tDevice h) fun _ => True :=
  Quiet.bind (Quiet.derefT h) fun _ _ => Quiet.bind (Quiet.derefS _) fun _ _ => Quiet.pure trivial
theorem Quiet.tData (h : Ptr) : Quiet n (tData h) fun p => h.New n → p.New n :=
  Quiet.bind (Quiet.derefT h) fun _ ht => Quiet.bind (Quiet.derefS _) fun _ hs => Quiet.pure fun hn => hs (ht hn).2.2
theorem Quiet.tDimsArr (h : Ptr) : Quiet n (tDimsArr h) fun _ => True :=
  Quiet.bind (Quiet.tDims h) fun _ _ => Quiet.ite (fun _ => Quiet.pure trivial) fun _ => Quiet.derefI _
theorem Quiet.tMin2maj (h : Ptr) : Quiet n (tMin2maj h) fun _ => True :=
  Quiet.bind (Quiet.derefT h) fun _ _ => Quiet.ite (fun _ => Quiet.pure trivial) fun _ => Quiet.derefI _

theorem Quiet.setItem {h : Ptr} (hh : h.New n) (i : Int) (v : List Byte) : Quiet n (setItem h i v) fun _ => True :=
  Quiet.bind (Quiet.tData h) fun _ hp => Quiet.bind (Quiet.tDtype h) fun dt _ => Quiet.bind (Quiet.i64 _) fun off _ =>
    Quiet.writeIf (hp hh) (fun bs => 0 ≤ off ∧ off + dt.size ≤ bs.length ∧ dt.size ≤ v.length) _

theorem Quiet.loadI (p : Ptr) (i : Int) : Quiet n (loadI p i) fun _ => True := Quiet.bind (Quiet.derefI p) fun _ _ => Quiet.rd _ _

theorem Quiet.tableCode (d : DType) : Quiet n (tableCode d) fun _ => True := by
  unfold Aitisa.tableCode
  split
  · exact Quiet.pure trivial
  · exact Quiet.ub _

/-! ## Automation -/

/-- Applies a lemma about a function.  Each lemma extends it. -/
syntax "quiet_lemma" : tactic

/-- Closes side conditions. -/
macro "quiet_side" : tactic => `(tactic| first
  | exact True.intro | assumption | (intros; exact True.intro) | (intros; quiet_lemma) | (intros; simp only []; quiet_lemma) | solve_by_elim)

macro_rules | `(tactic| quiet_lemma) => `(tactic| fail)

open Lean in
/-- Registers lemmas. -/
macro "quiet_add" xs:ident+ : command => do
  let cmds ← xs.mapM fun x => `(command| macro_rules | `(tactic| quiet_lemma) => `(tactic| (with_reducible apply $x:ident) <;> quiet_side))
  return ⟨mkNullNode cmds⟩

quiet_add Quiet.liftU Quiet.i64 Quiet.i32 Quiet.rd Quiet.wr Quiet.cAssert Quiet.getFp Quiet.cRand Quiet.derefT Quiet.derefS
  Quiet.derefB Quiet.derefI Quiet.touch Quiet.storeI Quiet.loadI Quiet.storeElem Quiet.loadElem Quiet.memcpyB Quiet.memcpyTo Quiet.memcpyAt
  Quiet.tNdim Quiet.tSize Quiet.tDims Quiet.tDim Quiet.tDtype Quiet.tDevice Quiet.tData Quiet.tDimsArr Quiet.tMin2maj Quiet.setItem
  Quiet.tableCode

/-- One step of a proof that a computation is quiet. -/
macro "quiet_step" : tactic => `(tactic| first
  | exact Quiet.ub _
  | quiet_lemma
  | ((with_reducible refine Quiet.pure ?_); quiet_side)
  | ((with_reducible apply Quiet.bind); (focus quiet_lemma); intro _ _)
  | (with_reducible refine Quiet.bind (P := fun _ => True) ?_ (fun _ _ => ?_))
  | (with_reducible refine Quiet.ite (fun _ => ?_) (fun _ => ?_))
  | (with_reducible refine Quiet.forI (I := fun _ => True) (fun _ _ _ => ?_) _ trivial)
  | (with_reducible refine Quiet.forI32 (I := fun _ => True) (fun _ _ _ => ?_) _ trivial)
  | (with_reducible refine Quiet.loopN (I := fun _ => True) (fun _ _ _ => ?_) _ _ trivial)
  | (with_reducible refine Quiet.loopE (fun _ _ => ?_) _ _ _)
  | (with_reducible refine Quiet.forI32E (fun _ _ => ?_) _ _)
  | (with_reducible refine Quiet.forU32E (fun _ _ => ?_) _ _)
  | (with_reducible refine Quiet.whileE (fun _ => ?_) _ _)
  | (with_reducible refine Quiet.foldlM (fun _ _ => ?_) _ _)
  | assumption
  | solve_by_elim
  | split)

/-- A proof that a computation is quiet. -/
macro "quiet" : tactic => `(tactic| repeat' quiet_step)

end Aitisa
