import Verif.Spec.Tensor

/-! # Execution lemmas for the monad, the memory and the loops -/

namespace Aitisa

@[simp] theorem run_pure {α} (a : α) (E : Env) (m : Mem) : (pure a : M α) E m = .ok a m := (rfl)
@[simp] theorem run_bind {α β} (x : M α) (f : α → M β) (E : Env) (m : Mem) :
    (x >>= f) E m = (x E m).andThen (fun a m' => f a E m') := (rfl)
@[simp] theorem andThen_ok {α β} (a : α) (m : Mem) (f : α → Mem → Res β) :
    (Res.ok a m).andThen f = f a m := (rfl)
@[simp] theorem andThen_ub {α β} (u : UB) (f : α → Mem → Res β) :
    (Res.ub u : Res α).andThen f = .ub u := (rfl)
@[simp] theorem run_ubM {α} (u : UB) (E : Env) (m : Mem) : (ubM u : M α) E m = .ub u := (rfl)
@[simp] theorem run_ite {α} (c : Prop) [Decidable c] (x y : M α) (E : Env) (m : Mem) :
    (if c then x else y) E m = if c then x E m else y E m := by split <;> rfl
@[simp] theorem run_getFp (E : Env) (m : Mem) : getFp E m = .ok E.fp m := (rfl)
@[simp] theorem run_liftU_ok {α} (a : α) (E : Env) (m : Mem) :
    (liftU (.ok a) : M α) E m = .ok a m := (rfl)
@[simp] theorem run_liftU_err {α} (u : UB) (E : Env) (m : Mem) :
    (liftU (.error u) : M α) E m = .ub u := (rfl)

theorem run_i64 {n : Int} (h : I64_MIN ≤ n ∧ n ≤ I64_MAX) (E : Env) (m : Mem) :
    i64 n E m = .ok n m := by simp [i64, h]

theorem run_i32 {n : Int} (h : I32_MIN ≤ n ∧ n ≤ I32_MAX) (E : Env) (m : Mem) :
    i32 n E m = .ok n m := by simp [i32, h]

theorem run_i64_nat {n : Nat} (h : n ≤ 9223372036854775807) (E : Env) (m : Mem) :
    i64 (n : Int) E m = .ok (n : Int) m := run_i64 (by unfold I64_MIN I64_MAX; omega) E m

@[simp] theorem upd_same {α} (f : Nat → α) (n : Nat) (a : α) : upd f n a n = a := by simp [upd]
theorem upd_ne {α} (f : Nat → α) {n k : Nat} (a : α) (h : k ≠ n) : upd f n a k = f k := by
  simp [upd, h]

@[simp] theorem Mem.set_next (m : Mem) (n b) : (m.set n b).next = m.next := (rfl)
@[simp] theorem Mem.set_tick (m : Mem) (n b) : (m.set n b).tick = m.tick := (rfl)
@[simp] theorem Mem.set_rtick (m : Mem) (n b) : (m.set n b).rtick = m.rtick := (rfl)
@[simp] theorem Mem.set_blk_same (m : Mem) (n b) : (m.set n b).blk n = b := by simp [Mem.set]
theorem Mem.set_blk_ne (m : Mem) {n k : Nat} (b) (h : k ≠ n) : (m.set n b).blk k = m.blk k := by
  simp [Mem.set, upd, h]
theorem Mem.set_blk (m : Mem) (n k : Nat) (b) :
    (m.set n b).blk k = if k = n then b else m.blk k := by simp [Mem.set, upd]

@[simp] theorem Mem.set_set (m : Mem) (n : Nat) (a b) : (m.set n a).set n b = m.set n b := by
  simp only [Mem.set, Mem.mk.injEq, true_and]
  funext k; simp only [upd]; split <;> rfl

theorem Mem.set_self (m : Mem) (n : Nat) (b) (h : m.blk n = b) : m.set n b = m := by
  obtain ⟨_, _, _, f⟩ := m
  simp only [Mem.set, Mem.mk.injEq, true_and]
  funext k; simp only [upd]; split <;> simp_all

theorem Mem.set_comm (m : Mem) {n k : Nat} (a b) (h : n ≠ k) :
    (m.set n a).set k b = (m.set k b).set n a := by
  simp only [Mem.set, Mem.mk.injEq, true_and]
  funext j; simp only [upd]; split <;> split <;> simp_all

theorem run_derefBlk {m : Mem} {n : Nat} {b : Block} (h : m.blk n = some b) (E : Env) :
    derefBlk (.blk n) E m = .ok b m := by simp [derefBlk, h]

theorem run_derefT {m : Mem} {n : Nat} {k t} (h : m.blk n = some ⟨k, .tensor t⟩) (E : Env) :
    derefT (.blk n) E m = .ok t m := by simp [derefT, run_derefBlk h]

theorem run_derefS {m : Mem} {n : Nat} {k t} (h : m.blk n = some ⟨k, .storage t⟩) (E : Env) :
    derefS (.blk n) E m = .ok t m := by simp [derefS, run_derefBlk h]

theorem run_derefB {m : Mem} {n : Nat} {k t} (h : m.blk n = some ⟨k, .bytes t⟩) (E : Env) :
    derefB (.blk n) E m = .ok t m := by simp [derefB, run_derefBlk h]

theorem run_derefI {m : Mem} {n : Nat} {k t} (h : m.blk n = some ⟨k, .i64s t⟩) (E : Env) :
    derefI (.blk n) E m = .ok t m := by simp [derefI, run_derefBlk h]

theorem run_putBody {m : Mem} {n : Nat} {k : Block} (h : m.blk n = some k) (b : Body) (E : Env) (hk : k.heap ≠ .const := by simp) :
    putBody (.blk n) b E m = .ok () (m.set n (some ⟨k.heap, b⟩)) := by simp [putBody, h, hk]

theorem run_rawFree {m : Mem} {n : Nat} {b} (h : m.blk n = some ⟨.own, b⟩) (E : Env) :
    rawFree (.blk n) E m = .ok () (m.set n none) := by simp [rawFree, h]

theorem run_cFree {m : Mem} {n : Nat} {b} (h : m.blk n = some ⟨.malloc, b⟩) (E : Env) :
    cFree (.blk n) E m = .ok () (m.set n none) := by simp [cFree, h]

/-- Memory after a successful allocation. -/
def Mem.push (m : Mem) (b : Body) : Mem :=
  { m with next := m.next + 1, tick := m.tick + 1, blk := upd m.blk m.next (some ⟨.own, b⟩) }

/-- Memory after a successful `malloc`. -/
def Mem.pushC (m : Mem) (b : Body) : Mem :=
  { m with next := m.next + 1, tick := m.tick + 1, blk := upd m.blk m.next (some ⟨.malloc, b⟩) }

/-- Memory after a failed allocation. -/
def Mem.miss (m : Mem) : Mem := { m with tick := m.tick + 1 }

theorem run_rawAlloc (sz : Nat) (b : Body) (E : Env) (m : Mem) :
    rawAlloc sz b E m = if E.allocOk m.tick sz then .ok (.blk m.next) (m.push b) else .ok .null m.miss := (rfl)

theorem run_cMalloc (sz : Nat) (b : Body) (E : Env) (m : Mem) :
    cMalloc sz b E m = if E.mallocOk m.tick sz then .ok (.blk m.next) (m.pushC b) else .ok .null m.miss := (rfl)

@[simp] theorem Mem.push_next (m : Mem) (b) : (m.push b).next = m.next + 1 := (rfl)
@[simp] theorem Mem.push_blk_same (m : Mem) (b) : (m.push b).blk m.next = some ⟨.own, b⟩ := by
  simp [Mem.push]
theorem Mem.push_blk_ne (m : Mem) (b) {k : Nat} (h : k ≠ m.next) : (m.push b).blk k = m.blk k := by
  simp [Mem.push, upd, h]
theorem Mem.push_blk (m : Mem) (b) (k : Nat) :
    (m.push b).blk k = if k = m.next then some ⟨.own, b⟩ else m.blk k := by simp [Mem.push, upd]
@[simp] theorem Mem.pushC_next (m : Mem) (b) : (m.pushC b).next = m.next + 1 := (rfl)
@[simp] theorem Mem.pushC_blk_same (m : Mem) (b) : (m.pushC b).blk m.next = some ⟨.malloc, b⟩ := by
  simp [Mem.pushC]
theorem Mem.pushC_blk_ne (m : Mem) (b) {k : Nat} (h : k ≠ m.next) : (m.pushC b).blk k = m.blk k := by
  simp [Mem.pushC, upd, h]
@[simp] theorem Mem.miss_next (m : Mem) : m.miss.next = m.next := (rfl)
@[simp] theorem Mem.miss_blk (m : Mem) : m.miss.blk = m.blk := (rfl)

open Lean.Parser.Tactic in
/-- Symbolic execution: run the monad with the given execution lemmas. -/
macro "msimp" "[" ls:simpLemma,* "]" loc:(location)? : tactic =>
  `(tactic| simp only [run_bind, run_pure, run_ite, andThen_ok, andThen_ub, run_ubM, run_getFp,
      run_liftU_ok, run_liftU_err,
      reduceCtorEq, ne_eq, not_true_eq_false, not_false_eq_true, if_true, if_false, ite_true, ite_false,
      Bool.false_eq_true, and_false, false_and, and_true, true_and, or_false, false_or, $ls,*] $[$loc]?)

/-! ### Frames and extensions -/

theorem Frame.refl (m : Mem) : Frame m m := ⟨Nat.le_refl _, fun _ _ => rfl⟩

theorem Frame.trans {a b c : Mem} (h : Frame a b) (k : Frame b c) : Frame a c :=
  ⟨Nat.le_trans h.next k.next, fun x hx => by
    rw [k.same x (Nat.lt_of_lt_of_le hx h.next), h.same x hx]⟩

theorem Ext.refl {m : Mem} (h : m.WF) : Ext m m [] :=
  { Frame.refl m with wf := h, live := fun b hb hn => absurd (h b hb) hn }

theorem Ext.trans {a b c : Mem} {L L'} (h : Ext a b L) (k : Ext b c L') : Ext a c (L ++ L') :=
  { h.toFrame.trans k.toFrame with
    wf := k.wf
    live := fun x hx hn => by
      by_cases hb : x < b.next
      · rw [k.same x hb] at hn
        exact List.mem_append_left _ (h.live x hx hn)
      · exact List.mem_append_right _ (k.live x (by omega) hn) }

theorem Ext.mono {a b : Mem} {L L'} (h : Ext a b L)
    (hs : ∀ x, a.next ≤ x → b.blk x ≠ none → x ∈ L → x ∈ L') : Ext a b L' :=
  { h with live := fun x hx hn => hs x hx hn (h.live x hx hn) }

theorem Ext.push {a m : Mem} {L} (h : Ext a m L) (b : Body) : Ext a (m.push b) (m.next :: L) where
  next := by have := h.next; simp; omega
  same x hx := by
    have := h.next
    rw [Mem.push_blk_ne _ _ (by omega), h.same x hx]
  wf x hx := by
    simp at hx
    rw [Mem.push_blk_ne _ _ (by omega)]
    exact h.wf x (by omega)
  live x hx hn := by
    by_cases hb : x = m.next
    · simp [hb]
    · rw [Mem.push_blk_ne _ _ hb] at hn
      exact List.mem_cons_of_mem _ (h.live x hx hn)

theorem Ext.pushC {a m : Mem} {L} (h : Ext a m L) (b : Body) : Ext a (m.pushC b) (m.next :: L) where
  next := by have := h.next; simp; omega
  same x hx := by
    have := h.next
    rw [Mem.pushC_blk_ne _ _ (by omega), h.same x hx]
  wf x hx := by
    simp at hx
    rw [Mem.pushC_blk_ne _ _ (by omega)]
    exact h.wf x (by omega)
  live x hx hn := by
    by_cases hb : x = m.next
    · simp [hb]
    · rw [Mem.pushC_blk_ne _ _ hb] at hn
      exact List.mem_cons_of_mem _ (h.live x hx hn)

theorem Ext.miss {a m : Mem} {L} (h : Ext a m L) : Ext a m.miss L where
  next := h.next
  same := h.same
  wf := h.wf
  live := h.live

theorem Ext.set {a m : Mem} {L} (h : Ext a m L) {n : Nat} (hn : a.next ≤ n) {k : Block}
    (hk : m.blk n = some k) (b : Block) : Ext a (m.set n (some b)) L where
  next := h.next
  same x hx := by rw [Mem.set_blk_ne _ _ (by omega), h.same x hx]
  wf x hx := by
    have : x ≠ n := by
      rintro rfl; rw [h.wf _ hx] at hk; simp at hk
    rw [Mem.set_blk_ne _ _ this]; exact h.wf x hx
  live x hx hne := by
    by_cases hx' : x = n
    · subst hx'; exact h.live _ hn (by rw [hk]; simp)
    · rw [Mem.set_blk_ne _ _ hx'] at hne; exact h.live x hx hne

theorem Ext.free {a m : Mem} {L} (h : Ext a m L) {n : Nat} (hn : a.next ≤ n) :
    Ext a (m.set n none) (L.filter (· ≠ n)) where
  next := h.next
  same x hx := by rw [Mem.set_blk_ne _ _ (by omega), h.same x hx]
  wf x hx := by rw [Mem.set_blk]; split <;> simp [h.wf x hx]
  live x hx hne := by
    by_cases hx' : x = n
    · subst hx'; simp at hne
    · rw [Mem.set_blk_ne _ _ hx'] at hne
      simp [h.live x hx hne, hx']

theorem Frame.lt_next {m : Mem} (h : m.WF) {n : Nat} {b} (hb : m.blk n = some b) : n < m.next := by
  apply Nat.lt_of_not_le
  intro hle
  rw [h n hle] at hb; simp at hb

theorem Mem.WF.push {m : Mem} (h : m.WF) (b : Body) : (m.push b).WF := ((Ext.refl h).push b).wf

theorem Mem.WF.miss {m : Mem} (h : m.WF) : m.miss.WF := h

/-! ### Loops -/

theorem loopN_succ {σ} (f : Nat → σ → M σ) (k i : Nat) (s : σ) :
    loopN f (k + 1) i s = (f i s >>= fun s' => loopN f k (i + 1) s') := (rfl)

@[simp] theorem loopN_zero {σ} (f : Nat → σ → M σ) (i : Nat) (s : σ) : loopN f 0 i s = pure s := (rfl)

/-- Loop rule: an invariant preserved by each iteration holds at the end, and the loop completes. -/
theorem loopN_inv {σ} {E : Env} (f : Nat → σ → M σ) (Inv : Nat → σ → Mem → Prop) (n : Nat)
    (step : ∀ i s m, i < n → Inv i s m → ∃ s' m', f i s E m = .ok s' m' ∧ Inv (i + 1) s' m')
    {s : σ} {m : Mem} (h0 : Inv 0 s m) :
    ∃ s' m', loopN f n 0 s E m = .ok s' m' ∧ Inv n s' m' := by
  suffices H : ∀ k i s m, i + k = n → Inv i s m →
      ∃ s' m', loopN f k i s E m = .ok s' m' ∧ Inv n s' m' from H n 0 s m (by omega) h0
  intro k
  induction k with
  | zero => intro i s m hi h; exact ⟨s, m, rfl, by simpa using (by omega : i = n) ▸ h⟩
  | succ k ih =>
    intro i s m hi h
    obtain ⟨s', m', e, h'⟩ := step i s m (by omega) h
    obtain ⟨s'', m'', e', h''⟩ := ih (i + 1) s' m' (by omega) h'
    exact ⟨s'', m'', by simp [loopN_succ, e, e'], h''⟩

/-- Loop rule when the state after `i` iterations is a function of `i`. -/
theorem loopN_fn {σ} {E : Env} (f : Nat → σ → M σ) (S : Nat → σ) (μ : Nat → Mem) (n : Nat)
    (step : ∀ i, i < n → f i (S i) E (μ i) = .ok (S (i + 1)) (μ (i + 1))) :
    loopN f n 0 (S 0) E (μ 0) = .ok (S n) (μ n) := by
  obtain ⟨s', m', e, h1, h2⟩ := loopN_inv (E := E) f (fun i s m => s = S i ∧ m = μ i) n
    (fun i s m hi h => ⟨S (i + 1), μ (i + 1), by rw [h.1, h.2]; exact step i hi, rfl, rfl⟩)
    (s := S 0) (m := μ 0) ⟨rfl, rfl⟩
  rw [e, h1, h2]

/-- A loop whose iteration `j` is undefined, the earlier ones being fine. -/
theorem loopN_ub {σ} {E : Env} (f : Nat → σ → M σ) (S : Nat → σ) (μ : Nat → Mem) (n j : Nat) (u : UB)
    (hj : j < n)
    (step : ∀ i, i < j → f i (S i) E (μ i) = .ok (S (i + 1)) (μ (i + 1)))
    (hub : f j (S j) E (μ j) = .ub u) :
    loopN f n 0 (S 0) E (μ 0) = .ub u := by
  suffices H : ∀ k i, i ≤ j → i + k = n → loopN f k i (S i) E (μ i) = .ub u from
    H n 0 (by omega) (by omega)
  intro k
  induction k with
  | zero => intro i h1 h2; omega
  | succ k ih =>
    intro i h1 h2
    rw [loopN_succ]
    by_cases hij : i = j
    · subst hij; simp [hub]
    · simp [step i (by omega), ih (i + 1) (by omega) (by omega)]

/-- A loop that keeps an invariant until iteration `j`, which is undefined. -/
theorem loopN_ubInv {σ} {E : Env} (f : Nat → σ → M σ) (Inv : Nat → σ → Mem → Prop) (n j : Nat) (u : UB)
    (hj : j < n)
    (step : ∀ i s m, i < j → Inv i s m → ∃ s' m', f i s E m = .ok s' m' ∧ Inv (i + 1) s' m')
    (hub : ∀ s m, Inv j s m → f j s E m = .ub u) {s : σ} {m : Mem} (h0 : Inv 0 s m) :
    loopN f n 0 s E m = .ub u := by
  suffices H : ∀ k i s m, i ≤ j → i + k = n → Inv i s m → loopN f k i s E m = .ub u from
    H n 0 s m (by omega) (by omega) h0
  intro k
  induction k with
  | zero => intro i s m h1 h2; omega
  | succ k ih =>
    intro i s m h1 h2 h3
    rw [loopN_succ]
    by_cases hij : i = j
    · subst hij; simp [hub s m h3]
    · obtain ⟨s', m', e, h'⟩ := step i s m (by omega) h3
      simp [e, ih (i + 1) s' m' (by omega) (by omega) h']

theorem loopE_succ {σ ρ} (f : Nat → σ → M (σ ⊕ ρ)) (k i : Nat) (s : σ) (E : Env) (m : Mem) :
    loopE f (k + 1) i s E m = (f i s E m).andThen fun a m' => (match a with
      | .inl s' => loopE f k (i + 1) s'
      | .inr r => pure (.inr r)) E m' := (rfl)

/-- Loop with early return, never taken. -/
theorem loopE_inv {σ ρ} {E : Env} (f : Nat → σ → M (σ ⊕ ρ)) (Inv : Nat → σ → Mem → Prop) (n : Nat)
    (step : ∀ i s m, i < n → Inv i s m → ∃ s' m', f i s E m = .ok (.inl s') m' ∧ Inv (i + 1) s' m')
    {s : σ} {m : Mem} (h0 : Inv 0 s m) :
    ∃ s' m', loopE f n 0 s E m = .ok (.inl s') m' ∧ Inv n s' m' := by
  suffices H : ∀ k i s m, i + k = n → Inv i s m →
      ∃ s' m', loopE f k i s E m = .ok (.inl s') m' ∧ Inv n s' m' from H n 0 s m (by omega) h0
  intro k
  induction k with
  | zero => intro i s m hi h; exact ⟨s, m, rfl, by simpa using (by omega : i = n) ▸ h⟩
  | succ k ih =>
    intro i s m hi h
    obtain ⟨s', m', e, h'⟩ := step i s m (by omega) h
    obtain ⟨s'', m'', e', h''⟩ := ih (i + 1) s' m' (by omega) h'
    exact ⟨s'', m'', by rw [loopE_succ, e]; exact e', h''⟩

/-- Loop with early return, taken in iteration `j`. -/
theorem loopE_ret {σ ρ} {E : Env} (f : Nat → σ → M (σ ⊕ ρ)) (Inv : Nat → σ → Mem → Prop) (n j : Nat)
    (Q : ρ → Mem → Prop) (hj : j < n)
    (step : ∀ i s m, i < j → Inv i s m → ∃ s' m', f i s E m = .ok (.inl s') m' ∧ Inv (i + 1) s' m')
    (ret : ∀ s m, Inv j s m → ∃ r m', f j s E m = .ok (.inr r) m' ∧ Q r m')
    {s : σ} {m : Mem} (h0 : Inv 0 s m) :
    ∃ r m', loopE f n 0 s E m = .ok (.inr r) m' ∧ Q r m' := by
  suffices H : ∀ k i s m, i ≤ j → i + k = n → Inv i s m →
      ∃ r m', loopE f k i s E m = .ok (.inr r) m' ∧ Q r m' from H n 0 s m (by omega) (by omega) h0
  intro k
  induction k with
  | zero => intro i s m h1 h2; omega
  | succ k ih =>
    intro i s m h1 h2 h
    by_cases hij : i = j
    · subst hij
      obtain ⟨r, m', e, q⟩ := ret s m h
      exact ⟨r, m', by rw [loopE_succ, e]; rfl, q⟩
    · obtain ⟨s', m', e, h'⟩ := step i s m (by omega) h
      obtain ⟨r, m'', e', q⟩ := ih (i + 1) s' m' (by omega) (by omega) h'
      exact ⟨r, m'', by rw [loopE_succ, e]; exact e', q⟩

/-- Loop with early return, undefined in iteration `j`. -/
theorem loopE_ub {σ ρ} {E : Env} (f : Nat → σ → M (σ ⊕ ρ)) (Inv : Nat → σ → Mem → Prop) (n j : Nat)
    (u : UB) (hj : j < n)
    (step : ∀ i s m, i < j → Inv i s m → ∃ s' m', f i s E m = .ok (.inl s') m' ∧ Inv (i + 1) s' m')
    (hub : ∀ s m, Inv j s m → f j s E m = .ub u)
    {s : σ} {m : Mem} (h0 : Inv 0 s m) : loopE f n 0 s E m = .ub u := by
  suffices H : ∀ k i s m, i ≤ j → i + k = n → Inv i s m → loopE f k i s E m = .ub u from
    H n 0 s m (by omega) (by omega) h0
  intro k
  induction k with
  | zero => intro i s m h1 h2; omega
  | succ k ih =>
    intro i s m h1 h2 h
    by_cases hij : i = j
    · subst hij; rw [loopE_succ, hub s m h]; rfl
    · obtain ⟨s', m', e, h'⟩ := step i s m (by omega) h
      rw [loopE_succ, e]; exact ih (i + 1) s' m' (by omega) (by omega) h'

/-! ### Arrays -/

theorem run_rd {a : Arr} {i : Nat} {v : Int} (h : a[i]? = some (some v)) (E : Env) (m : Mem) :
    Arr.rd a (i : Int) E m = .ok v m := by
  have hi : i < a.length := by
    rcases Nat.lt_or_ge i a.length with h' | h'
    · exact h'
    · simp [List.getElem?_eq_none h'] at h
  unfold Arr.rd
  rw [if_pos ⟨by omega, by omega⟩, Int.toNat_natCast, h]
  rfl

theorem run_wr {a : Arr} {i : Nat} (h : i < a.length) (v : Int) (E : Env) (m : Mem) :
    Arr.wr a (i : Int) v E m = .ok (a.set i (some v)) m := by
  simp [Arr.wr, h]

end Aitisa
