import Verif.Proof.LocalOps
import Verif.Spec.Statuses

/-!
# The statuses of completed runs

`Yields E x Q`: whenever `x` completes in the environment `E`, its result satisfies `Q`.
-/

namespace Aitisa

variable {α β σ ρ : Type} {E : Env} {Q : α → Prop} {L L' : List Status} {st : Status}

/-- See the head of the file. -/
def Yields (E : Env) (x : M α) (Q : α → Prop) : Prop := ∀ m a m', x E m = .ok a m' → Q a

/-- No request is refused. -/
def Env.Plenty (E : Env) : Prop := E.NoFail ∧ E.MallocOK

/-- One of the statuses `L`, and not `STATUS_ALLOC_FAILED` if no request is refused. -/
structure Sts (E : Env) (L : List Status) (st : Status) : Prop where
  mem : st ∈ L
  fed : E.Plenty → st ≠ .allocFailed

theorem Sts.lit (h : st ∈ L) (hn : st ≠ .allocFailed) : Sts E L st := ⟨h, fun _ => hn⟩
theorem Sts.alloc (h : E.Plenty → False) (hm : .allocFailed ∈ L) : Sts E L .allocFailed := ⟨hm, fun p => (h p).elim⟩
theorem Sts.sub (h : Sts E L st) (hs : ∀ s ∈ L, s ∈ L') : Sts E L' st := ⟨hs _ h.mem, h.fed⟩
theorem Sts.fail (h : Sts E L st) (hn : st ≠ .success) (hs : ∀ s ∈ L, s ≠ .success → s ∈ L') : Sts E L' st := ⟨hs _ h.mem hn, h.fed⟩

/-- The results of a function that returns a status. -/
def GS (E : Env) (L : List Status) (x : M Status) : Prop := Yields E x (Sts E L)
/-- The results of a function that returns a status and something else. -/
def GP (E : Env) (L : List Status) (x : M (Status × β)) : Prop := Yields E x fun r => Sts E L r.1
/-- The results of a function that may return a status. -/
def GE (E : Env) (L : List Status) (x : M (α ⊕ Status)) : Prop := Yields E x fun r => ∀ s, r = .inr s → Sts E L s
/-- The results of a request. -/
def GA (E : Env) (x : M Ptr) : Prop := Yields E x fun p => E.Plenty → p ≠ .null

theorem Yields.pure {a : α} (h : Q a) : Yields E (Pure.pure a : M α) Q := by intro m b m' e; cases e; exact h
theorem GS.pure (h : Sts E L st) : GS E L (Pure.pure st) := Yields.pure h
theorem GP.pure {b : β} (h : Sts E L st) : GP E L (Pure.pure (st, b)) := Yields.pure h
theorem GE.inr (h : Sts E L st) : GE E L (Pure.pure (.inr st) : M (α ⊕ Status)) := Yields.pure fun _ e => by cases e; exact h
theorem GE.inl {a : α} : GE E L (Pure.pure (.inl a) : M (α ⊕ Status)) := Yields.pure fun _ e => by cases e

theorem Yields.ub (u : UB) : Yields E (ubM u : M α) Q := by intro m b m' e; cases e
theorem GS.ub (u : UB) : GS E L (ubM u) := Yields.ub u
theorem GP.ub (u : UB) : GP E L (ubM u : M (Status × β)) := Yields.ub u
theorem GE.ub (u : UB) : GE E L (ubM u : M (α ⊕ Status)) := Yields.ub u
theorem GE.fuel : GE E L (fun _ _ => .fuel : M (α ⊕ Status)) := by intro m b m' e; cases e

theorem Yields.bind {x : M α} {f : α → M β} {P : α → Prop} {Q : β → Prop} (hx : Yields E x P) (hf : ∀ a, P a → Yields E (f a) Q) :
    Yields E (x >>= f) Q := by
  intro m b m' e
  rw [run_bind] at e
  cases hr : x E m with
  | ok a m1 => rw [hr] at e; exact hf a (hx _ _ _ hr) _ _ _ e
  | ub u => rw [hr] at e; cases e
  | abort => rw [hr] at e; cases e
  | fuel => rw [hr] at e; cases e

theorem Yields.any (x : M α) : Yields E x fun _ => True := fun _ _ _ _ => trivial

/-! One rule for each kind of result of the first part and of the whole. -/

section
variable {x : M α} {y : M Status} {z : M (Status × β)} {w : M (β ⊕ Status)} {v : M Ptr}

theorem GS.bind {f : α → M Status} (h : ∀ a, GS E L (f a)) : GS E L (x >>= f) := Yields.bind (.any x) fun a _ => h a
theorem GP.bind {f : α → M (Status × σ)} (h : ∀ a, GP E L (f a)) : GP E L (x >>= f) := Yields.bind (.any x) fun a _ => h a
theorem GE.bind {f : α → M (σ ⊕ Status)} (h : ∀ a, GE E L (f a)) : GE E L (x >>= f) := Yields.bind (.any x) fun a _ => h a

theorem GS.bindS {f : Status → M Status} (hx : GS E L' y) (h : ∀ a, Sts E L' a → GS E L (f a)) : GS E L (y >>= f) := Yields.bind hx h
theorem GP.bindS {f : Status → M (Status × σ)} (hx : GS E L' y) (h : ∀ a, Sts E L' a → GP E L (f a)) : GP E L (y >>= f) := Yields.bind hx h
theorem GE.bindS {f : Status → M (σ ⊕ Status)} (hx : GS E L' y) (h : ∀ a, Sts E L' a → GE E L (f a)) : GE E L (y >>= f) := Yields.bind hx h

theorem GS.bindP {f : Status × β → M Status} (hx : GP E L' z) (h : ∀ a b, Sts E L' a → GS E L (f (a, b))) : GS E L (z >>= f) :=
  Yields.bind hx fun r => h r.1 r.2
theorem GP.bindP {f : Status × β → M (Status × σ)} (hx : GP E L' z) (h : ∀ a b, Sts E L' a → GP E L (f (a, b))) : GP E L (z >>= f) :=
  Yields.bind hx fun r => h r.1 r.2
theorem GE.bindP {f : Status × β → M (σ ⊕ Status)} (hx : GP E L' z) (h : ∀ a b, Sts E L' a → GE E L (f (a, b))) : GE E L (z >>= f) :=
  Yields.bind hx fun r => h r.1 r.2

theorem GS.bindE {f : β ⊕ Status → M Status} (hx : GE E L' w) (hl : ∀ b, GS E L (f (.inl b))) (hr : ∀ s, Sts E L' s → GS E L (f (.inr s))) :
    GS E L (w >>= f) := Yields.bind hx fun r hP => by
  cases r with
  | inl b => exact hl b
  | inr s => exact hr s (hP s rfl)
theorem GP.bindE {f : β ⊕ Status → M (Status × σ)} (hx : GE E L' w) (hl : ∀ b, GP E L (f (.inl b)))
    (hr : ∀ s, Sts E L' s → GP E L (f (.inr s))) : GP E L (w >>= f) := Yields.bind hx fun r hP => by
  cases r with
  | inl b => exact hl b
  | inr s => exact hr s (hP s rfl)
theorem GE.bindE {f : β ⊕ Status → M (σ ⊕ Status)} (hx : GE E L' w) (hl : ∀ b, GE E L (f (.inl b)))
    (hr : ∀ s, Sts E L' s → GE E L (f (.inr s))) : GE E L (w >>= f) := Yields.bind hx fun r hP => by
  cases r with
  | inl b => exact hl b
  | inr s => exact hr s (hP s rfl)

theorem GS.bindA {f : Ptr → M Status} (hx : GA E v) (h : ∀ p, (E.Plenty → p ≠ .null) → GS E L (f p)) : GS E L (v >>= f) := Yields.bind hx h
theorem GP.bindA {f : Ptr → M (Status × σ)} (hx : GA E v) (h : ∀ p, (E.Plenty → p ≠ .null) → GP E L (f p)) : GP E L (v >>= f) := Yields.bind hx h
theorem GE.bindA {f : Ptr → M (σ ⊕ Status)} (hx : GA E v) (h : ∀ p, (E.Plenty → p ≠ .null) → GE E L (f p)) : GE E L (v >>= f) := Yields.bind hx h

end

theorem GP.bindV {a : α} {f : α → M (Status × β)} (h : GP E L (f a)) : GP E L ((Pure.pure a : M α) >>= f) := fun m b m' e => h m b m' e

theorem GS.ite {c : Prop} [Decidable c] {x y : M Status} (hx : c → GS E L x) (hy : ¬ c → GS E L y) : GS E L (if c then x else y) := by
  split
  · exact hx ‹_›
  · exact hy ‹_›
theorem GP.ite {c : Prop} [Decidable c] {x y : M (Status × β)} (hx : c → GP E L x) (hy : ¬ c → GP E L y) : GP E L (if c then x else y) := by
  split
  · exact hx ‹_›
  · exact hy ‹_›
theorem GE.ite {c : Prop} [Decidable c] {x y : M (α ⊕ Status)} (hx : c → GE E L x) (hy : ¬ c → GE E L y) : GE E L (if c then x else y) := by
  split
  · exact hx ‹_›
  · exact hy ‹_›

theorem GE.loopE {f : Nat → σ → M (σ ⊕ Status)} (h : ∀ i s, GE E L (f i s)) (k i : Nat) (s : σ) : GE E L (loopE f k i s) := by
  induction k generalizing i s with
  | zero => exact GE.inl
  | succ k ih =>
    unfold Aitisa.loopE
    exact GE.bindE (h i s) (fun s' => ih _ _) (fun t ht => GE.inr ht)

theorem GE.forI32E {f : Nat → σ → M (σ ⊕ Status)} (h : ∀ i s, GE E L (f i s)) (k : Int) (s : σ) : GE E L (forI32E k s f) :=
  GE.ite (fun _ => GE.loopE h _ _ _) (fun _ => GE.ub _)

theorem GE.forU32E {f : Nat → σ → M (σ ⊕ Status)} (h : ∀ i s, GE E L (f i s)) (k : Int) (s : σ) : GE E L (forU32E k s f) :=
  GE.ite (fun _ => GE.loopE h _ _ _) (fun _ => GE.fuel)

theorem GE.whileE {f : σ → M ((σ × Bool) ⊕ Status)} (h : ∀ s, GE E L (f s)) (k : Nat) (s : σ) : GE E L (whileE f k s) := by
  induction k generalizing s with
  | zero => exact GE.fuel
  | succ k ih =>
    unfold Aitisa.whileE
    refine GE.bindE (h s) (fun q => ?_) (fun t ht => GE.inr ht)
    exact GE.ite (fun _ => ih _) (fun _ => GE.inl)

theorem GA.rawAlloc (z : Nat) (b : Body) : GA E (rawAlloc z b) := by
  intro m p m' e hp
  unfold Aitisa.rawAlloc at e
  rw [if_pos (hp.1 _ _)] at e
  cases e
  simp

theorem GA.cMalloc (z : Nat) (b : Body) : GA E (cMalloc z b) := by
  intro m p m' e hp
  unfold Aitisa.cMalloc at e
  rw [if_pos (hp.2 _ _)] at e
  cases e
  simp

theorem GA.scratch (n : Int) (k : Nat) : GA E (scratch n k) := GA.rawAlloc _ _

/-! ## Automation -/

syntax "giv_lemma" : tactic
macro_rules | `(tactic| giv_lemma) => `(tactic| fail)

open Lean in
/-- Registers lemmas. -/
macro "giv_add" xs:ident+ : command => do
  let cmds ← xs.mapM fun x => `(command| macro_rules | `(tactic| giv_lemma) => `(tactic| (with_reducible apply $x:ident) <;> (intros; giv_lemma)))
  return ⟨mkNullNode cmds⟩

giv_add GA.rawAlloc GA.scratch

macro_rules | `(tactic| giv_lemma) => `(tactic| (with_reducible apply GE.loopE); intros; giv_lemma)
macro_rules | `(tactic| giv_lemma) => `(tactic| (with_reducible apply GE.forI32E); intros; giv_lemma)
macro_rules | `(tactic| giv_lemma) => `(tactic| (with_reducible apply GE.forU32E); intros; giv_lemma)
macro_rules | `(tactic| giv_lemma) => `(tactic| (with_reducible apply GE.whileE); intros; giv_lemma)
macro_rules | `(tactic| giv_lemma) => `(tactic| assumption)

theorem GE.orRet {x : M (Status × Ptr)} {k : Ptr → M (α ⊕ Status)} (hx : GP E L' x) (hk : ∀ t, GE E L (k t))
    (hs : ∀ s ∈ L', s ≠ .success → s ∈ L) : GE E L (orRet x k) := by
  unfold Aitisa.orRet
  refine GE.bindP hx fun st t h => GE.ite (fun hn => GE.inr (h.fail hn hs)) fun _ => hk t

theorem GS.sub {x : M Status} (hx : GS E L' x) (hs : ∀ s ∈ L', s ∈ L) : GS E L x := fun _ _ _ e => (hx _ _ _ e).sub hs
theorem GP.sub {x : M (Status × β)} (hx : GP E L' x) (hs : ∀ s ∈ L', s ∈ L) : GP E L x := fun _ _ _ e => (hx _ _ _ e).sub hs
theorem GE.sub {x : M (α ⊕ Status)} (hx : GE E L' x) (hs : ∀ s ∈ L', s ∈ L) : GE E L x := fun _ _ _ e s h => (hx _ _ _ e s h).sub hs

/-- Closes goals about a status. -/
macro "giv_close" : tactic => `(tactic| first
  | exact Sts.lit (by decide) (by decide)
  | (refine Sts.alloc (fun hp => ?_) (by decide); simp_all; done)
  | (refine Sts.sub (by assumption) (by decide))
  | (refine Sts.fail (by assumption) (by assumption) (by decide)))

/-- Takes the first part of a sequence. -/
macro "giv_bind" : tactic => `(tactic| first
  | (with_reducible apply GS.bindS; case' hx => (giv_lemma; done))
  | (with_reducible apply GS.bindP; case' hx => (giv_lemma; done))
  | (with_reducible apply GS.bindE; case' hx => (giv_lemma; done))
  | (with_reducible refine GS.bindA ?hx ?hf; case' hx => (giv_lemma; done))
  | (with_reducible refine GS.bind ?hf)
  | (with_reducible apply GP.bindS; case' hx => (giv_lemma; done))
  | (with_reducible apply GP.bindP; case' hx => (giv_lemma; done))
  | (with_reducible apply GP.bindE; case' hx => (giv_lemma; done))
  | (with_reducible refine GP.bindA ?hx ?hf; case' hx => (giv_lemma; done))
  | (with_reducible refine GP.bind ?hf)
  | (with_reducible apply GE.bindS; case' hx => (giv_lemma; done))
  | (with_reducible apply GE.bindP; case' hx => (giv_lemma; done))
  | (with_reducible apply GE.bindE; case' hx => (giv_lemma; done))
  | (with_reducible refine GE.bindA ?hx ?hf; case' hx => (giv_lemma; done))
  | (with_reducible refine GE.bind ?hf))

macro "giv_step" : tactic => `(tactic| first
  | (with_reducible apply GE.orRet; (case' hx => (giv_lemma; done)); (case' hs => decide); intros; try dsimp only)
  | (with_reducible apply GP.bindV; try dsimp only)
  | (giv_bind <;> intros <;> try dsimp only)
  | (with_reducible refine GS.pure ?_; giv_close)
  | (with_reducible refine GP.pure ?_; giv_close)
  | with_reducible exact GE.inl
  | (with_reducible refine GE.inr ?_; giv_close)
  | with_reducible exact GS.ub _
  | with_reducible exact GP.ub _
  | with_reducible exact GE.ub _
  | (with_reducible refine GS.ite (fun _ => ?_) (fun _ => ?_))
  | (with_reducible refine GP.ite (fun _ => ?_) (fun _ => ?_))
  | (with_reducible refine GE.ite (fun _ => ?_) (fun _ => ?_))
  | (with_reducible refine GE.loopE (fun _ _ => ?_) _ _ _)
  | (with_reducible refine GE.forI32E (fun _ _ => ?_) _ _)
  | (with_reducible refine GE.forU32E (fun _ _ => ?_) _ _)
  | (with_reducible refine GE.whileE (fun _ => ?_) _ _)
  | giv_lemma
  | assumption
  | solve_by_elim
  | (with_reducible apply GS.sub; (case' hx => (giv_lemma; done)); decide)
  | (with_reducible apply GP.sub; (case' hx => (giv_lemma; done)); decide)
  | (with_reducible apply GE.sub; (case' hx => (giv_lemma; done)); decide)
  | split)

/-- A proof of the statuses a function can return. -/
macro "giv" : tactic => `(tactic| repeat' giv_step)

/-! ## The library -/

theorem GP.destroy (h : Ptr) : GP E [.success] (Aitisa.destroy h) := by
  unfold Aitisa.destroy; giv
giv_add GP.destroy

theorem GP.createDefaultLayout (n : Int) (o : Ptr) : GP E [.success, .allocFailed] (Aitisa.createDefaultLayout .dense n o) := by
  unfold Aitisa.createDefaultLayout
  rw [if_neg (by simp)]
  dsimp only
  giv
giv_add GP.createDefaultLayout

theorem GP.createShape (dims : Arr) (n : Int) : GP E [.success, .allocFailed] (Aitisa.createShape .dense dims n) := by
  unfold Aitisa.createShape
  dsimp only
  giv
giv_add GP.createShape

theorem GP.createStorage (dt : DType) (dev : Device) (n : Int) (o : Ptr) :
    GP E [.success, .allocFailed] (Aitisa.createStorage dt dev n .null o) := by
  unfold Aitisa.createStorage
  giv
giv_add GP.createStorage

end Aitisa
