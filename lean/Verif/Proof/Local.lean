import Verif.Proof.Mem
import Verif.Model.BatchNorm
import Verif.Model.Conv
import Verif.Proof.Relabel
import Verif.Spec.Local
import Verif.Spec.Math

/-!
# What computations depend on

`Local r x`: `x` is self-contained, its counters only go up, blocks it has released do not come back, it does not depend on the
origin of the blocks it keeps, and with `r = false` it draws no random numbers.
-/

namespace Aitisa

variable {α β σ ρ : Type} {r : Bool} {E E' : Env} {m m' m1 m2 : Mem} {F : Nat → Option Block}

/-- How the memory can develop in surroundings `E`. -/
structure Fwd (r : Bool) (E : Env) (m m' : Mem) : Prop where
  next : m.next ≤ m'.next
  tick : m.tick ≤ m'.tick
  rtick : m.rtick ≤ m'.rtick
  rand : r = false → m'.rtick = m.rtick
  slack : m.tick + m'.next ≤ m'.tick + m.next
  exact : E.NoFail → E.MallocOK → m'.tick + m.next ≤ m.tick + m'.next
  gone : ∀ b, b < m.next → m.blk b = none → m'.blk b = none
  wf : m.WF → m'.WF
  heap : ∀ b x y, b < m.next → m.blk b = some x → m'.blk b = some y → y.heap = x.heap

theorem Fwd.refl (m : Mem) : Fwd r E m m := ⟨Nat.le_refl _, Nat.le_refl _, Nat.le_refl _, fun _ => rfl, Nat.le_refl _, fun _ _ => Nat.le_refl _, fun _ _ h => h, fun h => h, fun _ _ _ _ h h' => (by cases h.symm.trans h'; rfl)⟩

theorem Fwd.trans (h : Fwd r E m m1) (h' : Fwd r E m1 m2) : Fwd r E m m2 where
  next := Nat.le_trans h.next h'.next
  tick := Nat.le_trans h.tick h'.tick
  rtick := Nat.le_trans h.rtick h'.rtick
  rand hr := (h'.rand hr).trans (h.rand hr)
  slack := by have := h.slack; have := h'.slack; omega
  exact h1 h2 := by have := h.exact h1 h2; have := h'.exact h1 h2; omega
  gone b hb hn := h'.gone b (Nat.lt_of_lt_of_le hb h.next) (h.gone b hb hn)
  wf w := h'.wf (h.wf w)
  heap b x y hb hx hy := by
    cases e : m1.blk b with
    | none => rw [h'.gone b (Nat.lt_of_lt_of_le hb h.next) e] at hy; cases hy
    | some z => exact (h'.heap b z y (Nat.lt_of_lt_of_le hb h.next) e hy).trans (h.heap b x z hb hx e)

theorem Apart.fwd (h : Apart m F) (f : Fwd r E m m') : Apart m' F := fun b hb =>
  ⟨f.gone b (h b hb).2 (h b hb).1, Nat.lt_of_lt_of_le (h b hb).2 f.next⟩

theorem Env.Like.left (h : E.Like E' m m2) (g : Fwd r E m m1) (f : Fwd r E m1 m2) : E.Like E' m m1 where
  fp := h.fp
  asserts := h.asserts
  requests := by
    rcases h.requests with h | ⟨h, hr⟩
    · exact .inl fun t s h1 h2 => h t s h1 (Nat.lt_of_lt_of_le h2 f.tick)
    · refine .inr ⟨?_, hr⟩
      unfold Granted at *
      have := f.slack; have := g.slack; have := f.next; have := g.next; have := f.tick; have := g.tick
      omega
  rand t h1 h2 := h.rand t h1 (Nat.lt_of_lt_of_le h2 f.rtick)

theorem Env.Like.right (h : E.Like E' m m2) (f : Fwd r E m m1) (g : Fwd r E m1 m2) : E.Like E' m1 m2 where
  fp := h.fp
  asserts := h.asserts
  requests := by
    rcases h.requests with h | ⟨h, hr⟩
    · exact .inl fun t s h1 h2 => h t s (Nat.le_trans f.tick h1) h2
    · refine .inr ⟨?_, hr⟩
      unfold Granted at *
      have := f.slack; have := g.slack; have := f.next; have := g.next; have := f.tick; have := g.tick
      omega
  rand t h1 h2 := h.rand t (Nat.le_trans f.rtick h1) h2

/-- New origins for blocks that existed before and are kept; none becomes read-only that was not. -/
def Labels (m m' : Mem) (L : Nat → Option Origin) : Prop := ∀ b, L b ≠ none → m'.blk b ≠ none ∧ b < m.next ∧
  (L b = some .const → ∀ x, m.blk b = some x → x.heap = .const)

/-- See the head of the file. -/
def Local (r : Bool) (x : M α) : Prop :=
  ∀ E m a m', x E m = .ok a m' → Fwd r E m m' ∧
    (∀ E' F, Apart m F → E.Like E' m m' → x E' (m.plus F) = .ok a (m'.plus F)) ∧
    ∀ L, Labels m m' L → x E (m.relabel L) = .ok a (m'.relabel L)

theorem Local.selfContained {x : M α} (h : Local r x) : SelfContained x := fun E m a m' e => (h E m a m' e).2.1

theorem Local.granted {x : M α} (h : Local r x) (nf : E.NoFail) (mo : E.MallocOK) {a : α} (e : x E m = .ok a m') : Granted m m' := by
  have f := (h E m a m' e).1
  have := f.slack; have := f.exact nf mo; have := f.next; have := f.tick
  unfold Granted; omega

theorem Local.unrandom {x : M α} (h : Local false x) : Unrandom x := fun E m a m' e => (h E m a m' e).1.rand rfl

theorem Labels.left {L : Nat → Option Origin} (h : Labels m m2 L) (f : Fwd r E m m1) (g : Fwd r E m1 m2) : Labels m m1 L := fun b hb =>
  ⟨fun hn => (h b hb).1 (g.gone b (Nat.lt_of_lt_of_le (h b hb).2.1 f.next) hn), (h b hb).2⟩

theorem Labels.right {L : Nat → Option Origin} (h : Labels m m2 L) (f : Fwd r E m m1) : Labels m1 m2 L := fun b hb =>
  ⟨(h b hb).1, Nat.lt_of_lt_of_le (h b hb).2.1 f.next, fun hc x hx => by
    cases e : m.blk b with
    | none => rw [f.gone b (h b hb).2.1 e] at hx; cases hx
    | some y => exact (f.heap b y x (h b hb).2.1 e hx).trans ((h b hb).2.2 hc y e)⟩

theorem labels_freed {L : Nat → Option Origin} {b : Nat} (h : Labels m (m.set b none) L) : L b = none :=
  Classical.not_not.1 fun hn => (h b hn).1 (Mem.set_blk_same _ _ _)

theorem plus_some {b : Nat} {k : Block} (h : m.blk b = some k) : (m.plus F).blk b = some k := by
  show (match m.blk b with | some k => some k | none => F b) = _
  rw [h]

theorem plus_set {b : Nat} {k : Block} (h : m.blk b = some k) (l : Block) :
    (m.plus F).set b (some l) = (m.set b (some l)).plus F := by
  simp only [Mem.plus, Mem.set, Mem.mk.injEq, true_and]
  funext c
  simp only [upd]
  by_cases hc : c = b
  · simp only [hc, if_true]
  · simp only [if_neg hc]

theorem plus_drop {b : Nat} {k : Block} (h : m.blk b = some k) (ha : Apart m F) :
    (m.plus F).set b none = (m.set b none).plus F := by
  simp only [Mem.plus, Mem.set, Mem.mk.injEq, true_and]
  funext c
  simp only [upd]
  by_cases hc : c = b
  · simp only [hc, if_true]
    cases hF : F b with
    | none => rfl
    | some l =>
      have := (ha b (by rw [hF]; simp)).1
      rw [h] at this; cases this
  · simp only [if_neg hc]

theorem Local.pure (a : α) : Local r (Pure.pure a : M α) := by
  intro E m b m' e
  cases e
  exact ⟨Fwd.refl m, fun _ _ _ _ => rfl, fun _ _ => rfl⟩

theorem Local.ub (u : UB) : Local r (ubM u : M α) := by intro E m b m' e; cases e
theorem Local.fuel : Local r (fun _ _ => .fuel : M α) := by intro E m b m' e; cases e

theorem Local.bind {x : M α} {f : α → M β} (hx : Local r x) (hf : ∀ a, Local r (f a)) : Local r (x >>= f) := by
  intro E m b m' e
  rw [run_bind] at e
  cases hr : x E m with
  | ok a m1 =>
    rw [hr] at e
    obtain ⟨f1, g1, k1⟩ := hx _ _ _ _ hr
    obtain ⟨f2, g2, k2⟩ := hf a _ _ _ _ e
    refine ⟨f1.trans f2, fun E' F ha hl => ?_, fun L hl => ?_⟩
    · rw [run_bind, g1 E' F ha (hl.left f1 f2)]
      exact g2 E' F (ha.fwd f1) (hl.right f1 f2)
    · rw [run_bind, k1 L (hl.left f1 f2)]
      exact k2 L (hl.right f1)
  | ub u => rw [hr] at e; cases e
  | abort => rw [hr] at e; cases e
  | fuel => rw [hr] at e; cases e

theorem Local.ite {c : Prop} [Decidable c] {x y : M α} (hx : Local r x) (hy : Local r y) : Local r (if c then x else y) := by
  split <;> assumption

theorem Local.loopN {f : Nat → σ → M σ} (h : ∀ i s, Local r (f i s)) (k i : Nat) (s : σ) : Local r (loopN f k i s) := by
  induction k generalizing i s with
  | zero => exact Local.pure _
  | succ k ih => rw [loopN_succ]; exact Local.bind (h i s) fun s' => ih (i + 1) s'

theorem Local.forI {f : Nat → σ → M σ} (h : ∀ i s, Local r (f i s)) (k : Int) (s : σ) : Local r (forI k s f) := Local.loopN h _ _ _

theorem Local.forI32 {f : Nat → σ → M σ} (h : ∀ i s, Local r (f i s)) (k : Int) (s : σ) : Local r (forI32 k s f) :=
  Local.ite (Local.loopN h _ _ _) (Local.ub _)

theorem Local.loopE {f : Nat → σ → M (σ ⊕ ρ)} (h : ∀ i s, Local r (f i s)) (k i : Nat) (s : σ) : Local r (loopE f k i s) := by
  induction k generalizing i s with
  | zero => exact Local.pure _
  | succ k ih =>
    unfold Aitisa.loopE
    refine Local.bind (h i s) fun r => ?_
    cases r with
    | inl s' => exact ih _ _
    | inr r => exact Local.pure _

theorem Local.forI32E {f : Nat → σ → M (σ ⊕ ρ)} (h : ∀ i s, Local r (f i s)) (k : Int) (s : σ) : Local r (forI32E k s f) :=
  Local.ite (Local.loopE h _ _ _) (Local.ub _)

theorem Local.forU32E {f : Nat → σ → M (σ ⊕ ρ)} (h : ∀ i s, Local r (f i s)) (k : Int) (s : σ) : Local r (forU32E k s f) :=
  Local.ite (Local.loopE h _ _ _) Local.fuel

theorem Local.whileE {f : σ → M ((σ × Bool) ⊕ ρ)} (h : ∀ s, Local r (f s)) (k : Nat) (s : σ) : Local r (whileE f k s) := by
  induction k generalizing s with
  | zero => exact Local.fuel
  | succ k ih =>
    unfold Aitisa.whileE
    refine Local.bind (h s) fun q => ?_
    match q with
    | .inr q => exact Local.pure _
    | .inl (s', more) => exact Local.ite (ih s') (Local.pure _)

theorem Local.foldlM {f : σ → α → M σ} (h : ∀ s a, Local r (f s a)) (l : List α) (s : σ) : Local r (l.foldlM f s) := by
  induction l generalizing s with
  | nil => exact Local.pure _
  | cons a l ih => rw [List.foldlM_cons]; exact Local.bind (h s a) fun s' => ih s'

theorem Local.liftU (x : Except UB α) : Local r (liftU x) := by
  cases x
  · exact Local.ub _
  · exact Local.pure _

theorem Local.i64 (k : Int) : Local r (i64 k) := Local.ite (Local.pure _) (Local.ub _)
theorem Local.i32 (k : Int) : Local r (i32 k) := Local.ite (Local.pure _) (Local.ub _)

theorem Local.rd (a : Arr) (i : Int) : Local r (a.rd i) := by
  unfold Arr.rd
  refine Local.ite ?_ (Local.ub _)
  split
  · exact Local.pure _
  · exact Local.ub _

theorem Local.wr (a : Arr) (i v : Int) : Local r (a.wr i v) := Local.ite (Local.pure _) (Local.ub _)

theorem Local.getFp : Local r getFp := by
  intro E m a m' e
  cases e
  refine ⟨Fwd.refl m, fun E' F _ hl => ?_, fun _ _ => rfl⟩
  show Res.ok E'.fp _ = _
  rw [hl.fp]

theorem Local.cAssert (b : Bool) : Local r (cAssert b) := by
  intro E m a m' e
  unfold Aitisa.cAssert at e ⊢
  split at e
  · cases e
  · next h =>
    cases e
    refine ⟨Fwd.refl m, fun E' F _ hl => if_neg fun h' => h ?_, fun _ _ => if_neg h⟩
    simp only [Bool.and_eq_true] at h' ⊢
    exact ⟨hl.asserts h'.1, h'.2⟩

theorem Local.cRand : Local true cRand := by
  intro E m a m' e
  cases e
  refine ⟨⟨Nat.le_refl _, Nat.le_refl _, Nat.le_succ _, fun h => (by cases h), Nat.le_refl _, fun _ _ => Nat.le_refl _, fun _ _ h => h, fun h => h, fun _ _ _ _ h h' => (by cases h.symm.trans h'; rfl)⟩, fun E' F _ hl => ?_, fun _ _ => rfl⟩
  show Res.ok (E'.rand m.rtick) _ = _
  rw [hl.rand m.rtick (Nat.le_refl _) (Nat.lt_succ_self _)]
  rfl

theorem fwd_push (b : Block) :
    Fwd r E m { m with next := m.next + 1, tick := m.tick + 1, blk := upd m.blk m.next (some b) } where
  next := Nat.le_succ _
  tick := Nat.le_succ _
  rtick := Nat.le_refl _
  rand _ := rfl
  slack := by show m.tick + (m.next + 1) ≤ m.tick + 1 + m.next; omega
  exact _ _ := by show m.tick + 1 + m.next ≤ m.tick + (m.next + 1); omega
  gone c hc hn := by simp only [upd]; rw [if_neg (Nat.ne_of_lt hc)]; exact hn
  wf h c hc := by
    have hc : m.next + 1 ≤ c := hc
    simp only [upd]; rw [if_neg (by omega)]; exact h c (by omega)
  heap c x y hc hx hy := by
    simp only [upd] at hy; rw [if_neg (Nat.ne_of_lt hc)] at hy; cases hx.symm.trans hy; rfl

theorem plus_push (b : Block) :
    ({ (m.plus F) with next := m.next + 1, tick := m.tick + 1, blk := upd (m.plus F).blk m.next (some b) } : Mem) =
      Mem.plus { m with next := m.next + 1, tick := m.tick + 1, blk := upd m.blk m.next (some b) } F := by
  simp only [Mem.plus, Mem.mk.injEq, true_and]
  funext c
  simp only [upd]
  by_cases hc : c = m.next
  · simp only [hc, if_true]
  · simp only [if_neg hc]

theorem Local.rawAlloc (z : Nat) (b : Body) : Local r (rawAlloc z b) := by
  intro E m a m' e
  unfold Aitisa.rawAlloc at e ⊢
  split at e
  · next h =>
    cases e
    refine ⟨fwd_push _, fun E' F _ hl => ?_, fun L hl => (if_pos h).trans (by
      rw [← relabel_push _ (Classical.not_not.1 fun hn => Nat.lt_irrefl _ (hl _ hn).2.1)]; rfl)⟩
    have e : E'.allocOk (m.plus F).tick z = true := hl.requests.elim (fun q => (q m.tick z (Nat.le_refl _) (Nat.lt_succ_self _)).1.trans h) fun q => (q.2 _ _).1 h
    rw [if_pos e, ← plus_push]
    rfl
  · next h =>
    cases e
    refine ⟨⟨Nat.le_refl _, Nat.le_succ _, Nat.le_refl _, fun _ => rfl, Nat.add_le_add_right (Nat.le_succ _) _, fun n _ => absurd (n _ _) h, fun _ _ h => h, fun h => h, fun _ _ _ _ h h' => (by cases h.symm.trans h'; rfl)⟩, fun E' F _ hl => ?_, fun _ _ => if_neg h⟩
    have e : ¬ E'.allocOk (m.plus F).tick z = true := fun h' => hl.requests.elim
      (fun q => h ((q m.tick z (Nat.le_refl _) (Nat.lt_succ_self _)).1.symm.trans h')) fun q => by
        have : m.tick + 1 - m.tick = m.next - m.next := q.1
        omega
    rw [if_neg e]
    rfl

theorem Local.cMalloc (z : Nat) (b : Body) : Local r (cMalloc z b) := by
  intro E m a m' e
  unfold Aitisa.cMalloc at e ⊢
  split at e
  · next h =>
    cases e
    refine ⟨fwd_push _, fun E' F _ hl => ?_, fun L hl => (if_pos h).trans (by
      rw [← relabel_push _ (Classical.not_not.1 fun hn => Nat.lt_irrefl _ (hl _ hn).2.1)]; rfl)⟩
    have e : E'.mallocOk (m.plus F).tick z = true := hl.requests.elim (fun q => (q m.tick z (Nat.le_refl _) (Nat.lt_succ_self _)).2.trans h) fun q => (q.2 _ _).2 h
    rw [if_pos e, ← plus_push]
    rfl
  · next h =>
    cases e
    refine ⟨⟨Nat.le_refl _, Nat.le_succ _, Nat.le_refl _, fun _ => rfl, Nat.add_le_add_right (Nat.le_succ _) _, fun _ n => absurd (n _ _) h, fun _ _ h => h, fun h => h, fun _ _ _ _ h h' => (by cases h.symm.trans h'; rfl)⟩, fun E' F _ hl => ?_, fun _ _ => if_neg h⟩
    have e : ¬ E'.mallocOk (m.plus F).tick z = true := fun h' => hl.requests.elim
      (fun q => h ((q m.tick z (Nat.le_refl _) (Nat.lt_succ_self _)).2.symm.trans h')) fun q => by
        have : m.tick + 1 - m.tick = m.next - m.next := q.1
        omega
    rw [if_neg e]
    rfl

/-- Reading of a block: only its contents are looked at. -/
theorem Local.onBody (p : Ptr) {g : Body → M α} (hg : ∀ x, Local r (g x)) : Local r (derefBlk p >>= fun k => g k.body) := by
  intro E m a m' e
  cases p with
  | null => cases e
  | indet => cases e
  | blk n =>
    cases hb : m.blk n with
    | none => rw [run_bind] at e; simp only [derefBlk, hb] at e; cases e
    | some k =>
      rw [run_bind, run_derefBlk hb] at e
      obtain ⟨f1, g1, k1⟩ := hg _ _ _ _ _ e
      refine ⟨f1, fun E' F ha hl => ?_, fun L hl => ?_⟩
      · rw [run_bind, run_derefBlk (plus_some hb)]; exact g1 E' F ha hl
      · rw [run_bind, run_derefBlk (relabel_some hb)]; exact k1 L hl

theorem Local.putBody (p : Ptr) (b : Body) : Local r (putBody p b) := by
  intro E m a m' e
  unfold Aitisa.putBody at e ⊢
  cases p with
  | null => cases e
  | indet => cases e
  | blk n =>
    simp only at e ⊢
    cases hb : m.blk n with
    | none => rw [hb] at e; cases e
    | some k =>
      rw [hb] at e; simp only at e
      split at e <;> cases e
      rename_i hk
      refine ⟨⟨Nat.le_refl _, Nat.le_refl _, Nat.le_refl _, fun _ => rfl, Nat.le_refl _, fun _ _ => Nat.le_refl _, fun c _ hn => ?_, fun w c hc => ?_, fun c x y _ hx hy => ?_⟩, fun E' F _ _ => by
        rw [plus_some hb]; simp only [if_neg hk]; rw [plus_set hb], fun L hl => by
        rw [relabel_some hb]; simp only
        rw [if_neg, relabel_set]
        cases hL : L n with
        | none => exact hk
        | some o => intro (ho : o = .const); exact hk ((hl n (by rw [hL]; simp)).2.2 (by rw [hL, ho]) k hb)⟩
      · have : c ≠ n := by rintro rfl; rw [hb] at hn; cases hn
        rw [Mem.set_blk_ne _ _ this]; exact hn
      · have hn := w c hc
        have : c ≠ n := by rintro rfl; rw [hb] at hn; cases hn
        rw [Mem.set_blk_ne _ _ this]; exact hn
      · by_cases hc : c = n
        · subst hc; rw [Mem.set_blk_same] at hy; rw [hb] at hx; cases hx; cases hy; rfl
        · rw [Mem.set_blk_ne _ _ hc] at hy; cases hx.symm.trans hy; rfl

theorem Local.rawFree (p : Ptr) : Local r (rawFree p) := by
  intro E m a m' e
  unfold Aitisa.rawFree at e ⊢
  cases p with
  | null => cases e; exact ⟨Fwd.refl m, fun _ _ _ _ => rfl, fun _ _ => rfl⟩
  | indet => cases e
  | blk n =>
    simp only at e ⊢
    cases hb : m.blk n with
    | none => rw [hb] at e; cases e
    | some k =>
      rw [hb] at e
      simp only at e
      split at e
      · next hk =>
        cases e
        refine ⟨⟨Nat.le_refl _, Nat.le_refl _, Nat.le_refl _, fun _ => rfl, Nat.le_refl _, fun _ _ => Nat.le_refl _, fun c _ hn => ?_, fun w c hc => ?_, fun c x y _ hx hy => ?_⟩, fun E' F ha _ => by
          rw [plus_some hb]; simp only; rw [if_pos hk, plus_drop hb ha], fun L hl => by
          rw [relabel_some hb]; simp only; rw [labels_freed hl]; simp only [Option.getD_none]; rw [if_pos hk, relabel_drop]⟩
        · by_cases hc : c = n
          · rw [hc, Mem.set_blk_same]
          · rw [Mem.set_blk_ne _ _ hc]; exact hn
        · have hn := w c hc
          by_cases hc : c = n
          · rw [hc, Mem.set_blk_same]
          · rw [Mem.set_blk_ne _ _ hc]; exact hn
        · by_cases hc : c = n
          · rw [hc, Mem.set_blk_same] at hy; cases hy
          · rw [Mem.set_blk_ne _ _ hc] at hy; cases hx.symm.trans hy; rfl
      · cases e

theorem Local.cFree (p : Ptr) : Local r (cFree p) := by
  intro E m a m' e
  unfold Aitisa.cFree at e ⊢
  cases p with
  | null => cases e; exact ⟨Fwd.refl m, fun _ _ _ _ => rfl, fun _ _ => rfl⟩
  | indet => cases e
  | blk n =>
    simp only at e ⊢
    cases hb : m.blk n with
    | none => rw [hb] at e; cases e
    | some k =>
      rw [hb] at e
      simp only at e
      split at e
      · next hk =>
        cases e
        refine ⟨⟨Nat.le_refl _, Nat.le_refl _, Nat.le_refl _, fun _ => rfl, Nat.le_refl _, fun _ _ => Nat.le_refl _, fun c _ hn => ?_, fun w c hc => ?_, fun c x y _ hx hy => ?_⟩, fun E' F ha _ => by
          rw [plus_some hb]; simp only; rw [if_pos hk, plus_drop hb ha], fun L hl => by
          rw [relabel_some hb]; simp only; rw [labels_freed hl]; simp only [Option.getD_none]; rw [if_pos hk, relabel_drop]⟩
        · by_cases hc : c = n
          · rw [hc, Mem.set_blk_same]
          · rw [Mem.set_blk_ne _ _ hc]; exact hn
        · have hn := w c hc
          by_cases hc : c = n
          · rw [hc, Mem.set_blk_same]
          · rw [Mem.set_blk_ne _ _ hc]; exact hn
        · by_cases hc : c = n
          · rw [hc, Mem.set_blk_same] at hy; cases hy
          · rw [Mem.set_blk_ne _ _ hc] at hy; cases hx.symm.trans hy; rfl
      · cases e

/-- An assertion loop that reads only if assertions are checked. -/
theorem Local.ifAsserts {y : M Unit} (hy : Local r y) (hs : ∀ E m a m', y E m = .ok a m' → m' = m) :
    Local r (fun E m => if E.asserts then y E m else .ok () m) := by
  intro E m a m' e
  simp only at e ⊢
  by_cases hE : E.asserts = true
  · rw [if_pos hE] at e
    obtain ⟨f, g, k⟩ := hy _ _ _ _ e
    refine ⟨f, fun E' F ha hl => ?_, fun L hl => (if_pos hE).trans (k L hl)⟩
    by_cases hE' : E'.asserts = true
    · rw [if_pos hE']; exact g E' F ha hl
    · rw [if_neg hE', hs _ _ _ _ e]
  · rw [if_neg hE] at e
    cases e
    exact ⟨Fwd.refl m, fun E' F _ hl => if_neg fun h => hE (hl.asserts h), fun _ _ => if_neg hE⟩

/-- A computation that does not change the memory. -/
def Keep (x : M α) : Prop := ∀ E m a m', x E m = .ok a m' → m' = m

theorem Keep.bind {x : M α} {f : α → M β} (hx : Keep x) (hf : ∀ a, Keep (f a)) : Keep (x >>= f) := by
  intro E m b m' e
  rw [run_bind] at e
  cases hr : x E m with
  | ok a m1 => rw [hr] at e; exact (hf a _ _ _ _ e).trans (hx _ _ _ _ hr)
  | ub u => rw [hr] at e; cases e
  | abort => rw [hr] at e; cases e
  | fuel => rw [hr] at e; cases e

theorem Keep.rd (a : Arr) (i : Int) : Keep (a.rd i) := by
  intro E m b m' e
  unfold Arr.rd at e
  by_cases h : 0 ≤ i ∧ i < a.length
  · rw [if_pos h] at e
    cases hv : a[i.toNat]? with
    | none => rw [hv] at e; cases e
    | some v =>
      rw [hv] at e
      cases v <;> cases e; rfl
  · rw [if_neg h] at e; cases e

theorem Keep.cAssert (b : Bool) : Keep (cAssert b) := by
  intro E m a m' e
  unfold Aitisa.cAssert at e
  split at e <;> cases e; rfl

/-! ## Automation -/

syntax "loc_lemma" : tactic
macro_rules | `(tactic| loc_lemma) => `(tactic| fail)

/-- Applies a lemma about a function that takes a continuation. -/
syntax "loc_cont" : tactic
macro_rules | `(tactic| loc_cont) => `(tactic| fail)

/-- Closes side conditions. -/
macro "loc_side" : tactic => `(tactic| first | assumption | (intros; loc_lemma) | (intros; simp only []; loc_lemma) | (intros; exact Local.pure _) | solve_by_elim)

open Lean in
/-- Registers lemmas. -/
macro "loc_add" xs:ident+ : command => do
  let cmds ← xs.mapM fun x => `(command| macro_rules | `(tactic| loc_lemma) => `(tactic| (with_reducible apply $x:ident) <;> loc_side))
  return ⟨mkNullNode cmds⟩

loc_add Local.liftU Local.i64 Local.i32 Local.rd Local.wr Local.getFp Local.cAssert Local.cRand Local.rawAlloc Local.cMalloc
  Local.putBody Local.rawFree Local.cFree

macro "loc_step" : tactic => `(tactic| first
  | (with_reducible refine Local.bind ?_ (fun _ => ?_))
  | with_reducible exact Local.pure _
  | with_reducible exact Local.ub _
  | (with_reducible refine Local.ite ?_ ?_)
  | (with_reducible refine Local.forI (fun _ _ => ?_) _ _)
  | (with_reducible refine Local.forI32 (fun _ _ => ?_) _ _)
  | (with_reducible refine Local.loopN (fun _ _ => ?_) _ _ _)
  | (with_reducible refine Local.loopE (fun _ _ => ?_) _ _ _)
  | (with_reducible refine Local.forI32E (fun _ _ => ?_) _ _)
  | (with_reducible refine Local.forU32E (fun _ _ => ?_) _ _)
  | (with_reducible refine Local.whileE (fun _ => ?_) _ _)
  | (with_reducible refine Local.foldlM (fun _ _ => ?_) _ _)
  | loc_cont
  | with_reducible exact Local.fuel
  | loc_lemma
  | assumption
  | solve_by_elim
  | split)

/-- A proof that a computation is local. -/
macro "loc" : tactic => `(tactic| repeat' loc_step)

end Aitisa
