import Verif.Proof.QuietOps
import Verif.Proof.Tensor

/-!
# Ownership

A logic for partial correctness: what a completed run owns.  `Own k n L m`: the live blocks from `n` on include those of the
tokens `L`; if `k`, there are no others.
-/

namespace Aitisa

variable {α β σ ρ : Type} {n : Nat} {E : Env} {m m' m0 : Mem} {k : Bool}

/-- Something that was allocated: a tensor, an array or a cell from `malloc` (null: nothing). -/
inductive Tok where
  | ten (R : Foot)
  | raw (p : Ptr)
  | cell (p : Ptr)

/-- The blocks. -/
def Tok.blocks : Tok → List Nat
  | .ten R => R.list
  | .raw (.blk b) => [b]
  | .raw _ => []
  | .cell (.blk b) => [b]
  | .cell _ => []

/-- The five blocks of a tensor are connected and allocated. -/
structure TenOk (m : Mem) (R : Foot) : Prop where
  tensor : ∃ t, m.blk R.t = some ⟨.own, .tensor t⟩ ∧ t.dims = optPtr R.d ∧ t.min2maj = optPtr R.l ∧ t.storage = .blk R.s
  storage : ∃ s, m.blk R.s = some ⟨.own, .storage s⟩ ∧ s.data = .blk R.p
  data : ∃ b, m.blk R.p = some ⟨.own, b⟩
  dims : ∀ d, R.d = some d → ∃ b, m.blk d = some ⟨.own, b⟩
  layout : ∀ l, R.l = some l → ∃ b, m.blk l = some ⟨.own, b⟩

/-- A token is as it should be. -/
def Tok.Ok (m : Mem) : Tok → Prop
  | .ten R => TenOk m R
  | .raw (.blk b) => ∃ x, m.blk b = some ⟨.own, x⟩
  | .raw .null => True
  | .raw .indet => False
  | .cell (.blk b) => ∃ x, m.blk b = some ⟨.malloc, x⟩
  | .cell .null => True
  | .cell .indet => False

/-- The blocks of some tokens. -/
def tokBlocks (L : List Tok) : List Nat := L.flatMap Tok.blocks

/-- See the head of the file. -/
structure Own (k : Bool) (n : Nat) (L : List Tok) (m : Mem) : Prop where
  ok : ∀ x ∈ L, x.Ok m
  nodup : (tokBlocks L).Nodup
  fresh : ∀ b ∈ tokBlocks L, n ≤ b
  live : k = true → ∀ b, n ≤ b → m.blk b ≠ none → b ∈ tokBlocks L

theorem Tok.Ok.live {x : Tok} (h : x.Ok m) {b : Nat} (hb : b ∈ x.blocks) : m.blk b ≠ none := by
  cases x with
  | ten R =>
    obtain ⟨t, et, -⟩ := h.tensor
    obtain ⟨s, es, -⟩ := h.storage
    obtain ⟨d, ed⟩ := h.data
    simp only [Tok.blocks, Foot.list, List.mem_cons, List.mem_append, Option.mem_toList] at hb
    rcases hb with rfl | rfl | rfl | hb | hb
    · simp [et]
    · simp [es]
    · simp [ed]
    · obtain ⟨x, e⟩ := h.dims b hb; simp [e]
    · obtain ⟨x, e⟩ := h.layout b hb; simp [e]
  | raw p =>
    cases p with
    | blk c => simp only [Tok.blocks, List.mem_singleton] at hb; subst hb; obtain ⟨x, e⟩ := h; simp [e]
    | null => cases hb
    | indet => cases hb
  | cell p =>
    cases p with
    | blk c => simp only [Tok.blocks, List.mem_singleton] at hb; subst hb; obtain ⟨x, e⟩ := h; simp [e]
    | null => cases hb
    | indet => cases hb

/-- The token is unaffected by changes elsewhere and by changes of contents. -/
theorem Tok.Ok.keep {x : Tok} (h : x.Ok m) (hs : ∀ b ∈ x.blocks, m'.blk b = m.blk b ∨
    ∃ h l l', l.Flat ∧ l'.Flat ∧ m.blk b = some ⟨h, l⟩ ∧ m'.blk b = some ⟨h, l'⟩) : x.Ok m' := by
  have flat : ∀ b ∈ x.blocks, ∀ o y, m.blk b = some ⟨o, y⟩ → ∃ z, m'.blk b = some ⟨o, z⟩ := by
    intro b hb o y hy
    rcases hs b hb with e | ⟨h, l, l', f, f', e, e'⟩
    · exact ⟨y, e.trans hy⟩
    · rw [hy] at e; cases e; exact ⟨l', e'⟩
  have struct : ∀ b ∈ x.blocks, ∀ y : Body, m.blk b = some ⟨.own, y⟩ → ¬ y.Flat → m'.blk b = m.blk b := by
    intro b hb y hy fy
    rcases hs b hb with e | ⟨h, l, l', f, f', e, e'⟩
    · exact e
    · rw [hy] at e; cases e; exact absurd f fy
  cases x with
  | ten R =>
    obtain ⟨t, et, t1⟩ := h.tensor
    obtain ⟨s, es, s1⟩ := h.storage
    obtain ⟨d, ed⟩ := h.data
    refine ⟨⟨t, ?_, t1⟩, ⟨s, ?_, s1⟩, ?_, ?_, ?_⟩
    · rw [struct R.t (by simp [Tok.blocks, Foot.list]) _ et (fun h => h)]; exact et
    · rw [struct R.s (by simp [Tok.blocks, Foot.list]) _ es (fun h => h)]; exact es
    · exact flat R.p (by simp [Tok.blocks, Foot.list]) _ _ ed
    · intro c hc; obtain ⟨y, e⟩ := h.dims c hc; exact flat c (by simp [Tok.blocks, Foot.list, hc]) _ _ e
    · intro c hc; obtain ⟨y, e⟩ := h.layout c hc; exact flat c (by simp [Tok.blocks, Foot.list, hc]) _ _ e
  | raw p =>
    cases p with
    | blk c => obtain ⟨y, e⟩ := h; exact flat c (by simp [Tok.blocks]) _ _ e
    | null => trivial
    | indet => exact h
  | cell p =>
    cases p with
    | blk c => obtain ⟨y, e⟩ := h; exact flat c (by simp [Tok.blocks]) _ _ e
    | null => trivial
    | indet => exact h

theorem tokBlocks_perm {L L' : List Tok} (h : L.Perm L') : (tokBlocks L).Perm (tokBlocks L') := h.flatMap_right _

theorem Own.perm {L L' : List Tok} (h : Own k n L m) (p : L.Perm L') : Own k n L' m where
  ok x hx := h.ok x (p.mem_iff.2 hx)
  nodup := (tokBlocks_perm p).nodup_iff.1 h.nodup
  fresh b hb := h.fresh b ((tokBlocks_perm p).mem_iff.2 hb)
  live hk b hb hl := (tokBlocks_perm p).mem_iff.1 (h.live hk b hb hl)

theorem Own.leak {L : List Tok} (h : Own k n L m) : Own false n L m := ⟨h.ok, h.nodup, h.fresh, fun h => by cases h⟩

theorem tokBlocks_sub {L L' : List Tok} (h : L'.Sublist L) : (tokBlocks L').Sublist (tokBlocks L) := by
  induction h with
  | slnil => exact List.Sublist.refl _
  | cons a _ ih => exact ih.trans (List.sublist_append_right _ _)
  | cons_cons a _ ih => exact List.Sublist.append (List.Sublist.refl _) ih

theorem Own.sub {L L' : List Tok} (h : Own k n L m) (s : L'.Sublist L) : Own false n L' m :=
  ⟨fun x hx => h.ok x (s.subset hx), h.nodup.sublist (tokBlocks_sub s), fun b hb => h.fresh b ((tokBlocks_sub s).subset hb),
    fun h => by cases h⟩

theorem Own.nil : Own false n [] m := ⟨by simp, by simp [tokBlocks], by simp [tokBlocks], fun h => by cases h⟩

theorem Own.same {L : List Tok} (h : Own k n L m) (s : Same n m m') : Own k n L m' where
  ok x hx := (h.ok x hx).keep fun b _ => by
    rcases s.blk b with e | ⟨-, e⟩
    · exact .inl e
    · exact .inr e
  nodup := h.nodup
  fresh := h.fresh
  live hk b hb hl := h.live hk b hb (by
    rcases s.blk b with e | ⟨-, x, l, l', -, -, e, e'⟩
    · rwa [← e]
    · simp [e])

theorem Own.raw_new {L : List Tok} {p : Ptr} (h : Own k n L m) (hp : Tok.raw p ∈ L) : p.New n := by
  cases p with
  | blk b => exact h.fresh b (List.mem_flatMap.2 ⟨_, hp, by simp [Tok.blocks]⟩)
  | null => trivial
  | indet => trivial

theorem Own.cell_new {L : List Tok} {p : Ptr} (h : Own k n L m) (hp : Tok.cell p ∈ L) : p.New n := by
  cases p with
  | blk b => exact h.fresh b (List.mem_flatMap.2 ⟨_, hp, by simp [Tok.blocks]⟩)
  | null => trivial
  | indet => trivial

theorem Own.ten_new {L : List Tok} {R : Foot} (h : Own k n L m) (hp : Tok.ten R ∈ L) : R.h.New n :=
  h.fresh R.t (List.mem_flatMap.2 ⟨_, hp, by simp [Tok.blocks, Foot.list]⟩)

/-! ## Triples -/

/-- Whenever `x` completes from a state meeting `P` (where the blocks below `n` are those of `m0`), the blocks below `n` are
still those of `m0`, the result meets `Q`, and the run does not depend on the origins of the blocks below `n`. -/
def Tri (n : Nat) (m0 : Mem) (P : Mem → Prop) (x : M α) (Q : α → Mem → Prop) : Prop :=
  ∀ E m a m', Sep n m → (∀ b, b < n → m.blk b = m0.blk b) → P m → x E m = .ok a m' →
    Sep n m' ∧ (∀ b, b < n → m'.blk b = m0.blk b) ∧ Q a m' ∧ Sim n x E m a m'

variable {P P' : Mem → Prop} {Q Q' : α → Mem → Prop} {L L' : List Tok}

theorem Tri.pure {a : α} (h : ∀ m, P m → Q a m) : Tri n m0 P (Pure.pure a : M α) Q := by
  intro E m b m' s ag p e; cases e; exact ⟨s, ag, h m p, fun _ _ => rfl⟩

theorem Tri.ub (u : UB) : Tri n m0 P (ubM u : M α) Q := by intro E m b m' s ag p e; cases e

theorem Tri.bind {x : M α} {f : α → M β} {Q : β → Mem → Prop} {R : α → Mem → Prop} (hx : Tri n m0 P x R)
    (hf : ∀ a, Tri n m0 (R a) (f a) Q) : Tri n m0 P (x >>= f) Q := by
  intro E m b m' s ag p e
  rw [run_bind] at e
  cases hr : x E m with
  | ok a m1 =>
    rw [hr] at e
    obtain ⟨s1, ag1, r, i⟩ := hx _ _ _ _ s ag p hr
    obtain ⟨s2, ag2, q, j⟩ := hf a _ _ _ _ s1 ag1 r e
    exact ⟨s2, ag2, q, i.bind j⟩
  | ub u => rw [hr] at e; cases e
  | abort => rw [hr] at e; cases e
  | fuel => rw [hr] at e; cases e

theorem Tri.pre {x : M α} (h : Tri n m0 P x Q) (hp : ∀ m, P' m → P m) : Tri n m0 P' x Q :=
  fun E m a m' s ag p e => h E m a m' s ag (hp m p) e

theorem Tri.post {x : M α} (h : Tri n m0 P x Q) (hq : ∀ a m, Q a m → Q' a m) : Tri n m0 P x Q' :=
  fun E m a m' s ag p e => let r := h E m a m' s ag p e; ⟨r.1, r.2.1, hq _ _ r.2.2.1, r.2.2.2⟩

theorem Tri.ite {c : Prop} [Decidable c] {x y : M α} (hx : c → Tri n m0 P x Q) (hy : ¬ c → Tri n m0 P y Q) :
    Tri n m0 P (if c then x else y) Q := by
  split
  · exact hx ‹_›
  · exact hy ‹_›

/-- A fact that follows from the precondition. -/
theorem Tri.have {x : M α} {F : Prop} (hf : ∀ m, P m → F) (h : F → Tri n m0 P x Q) : Tri n m0 P x Q :=
  fun E m a m' s ag p e => h (hf m p) E m a m' s ag p e

theorem Tri.ex {ι : Type} {x : M α} {P : ι → Mem → Prop} (h : ∀ i, Tri n m0 (P i) x Q) : Tri n m0 (fun m => ∃ i, P i m) x Q :=
  fun E m a m' s ag ⟨i, p⟩ e => h i E m a m' s ag p e

theorem Tri.and {x : M α} {F : Prop} (h : F → Tri n m0 P x Q) : Tri n m0 (fun m => F ∧ P m) x Q :=
  fun E m a m' s ag ⟨f, p⟩ e => h f E m a m' s ag p e

/-- A quiet computation keeps what is owned. -/
theorem Tri.quiet {x : M α} {F : α → Prop} (h : Quiet n x F) : Tri n m0 (Own k n L) x fun a m => F a ∧ Own k n L m := by
  intro E m a m' s ag p e
  obtain ⟨s1, q, i⟩ := h E m a m' s e
  exact ⟨s1.sep s, fun b hb => (s1.below hb).trans (ag b hb), ⟨q, p.same s1⟩, i⟩

theorem Tri.bindQ {x : M α} {f : α → M β} {Q : β → Mem → Prop} {F : α → Prop} (h : Quiet n x F)
    (hf : ∀ a, F a → Tri n m0 (Own k n L) (f a) Q) : Tri n m0 (Own k n L) (x >>= f) Q :=
  Tri.bind (Tri.quiet h) fun a => Tri.and (hf a)

/-- Loops with an early exit. -/
theorem Tri.loopE {f : Nat → σ → M (σ ⊕ ρ)} {I : Nat → σ → Mem → Prop} {J : ρ → Mem → Prop}
    (h : ∀ i s, Tri n m0 (I i s) (f i s) fun r m => match r with | .inl s' => I (i + 1) s' m | .inr r => J r m)
    (c i : Nat) (s : σ) :
    Tri n m0 (I i s) (loopE f c i s) fun r m => match r with | .inl s' => I (i + c) s' m | .inr r => J r m := by
  induction c generalizing i s with
  | zero => exact Tri.pure fun _ h => h
  | succ c ih =>
    unfold Aitisa.loopE
    refine Tri.bind (h i s) fun r => ?_
    cases r with
    | inl s' => have := ih (i + 1) s'; rw [Nat.add_right_comm] at this; exact this
    | inr r => exact Tri.pure fun _ h => h

theorem Tri.loopN {f : Nat → σ → M σ} {I : Nat → σ → Mem → Prop} (h : ∀ i s, Tri n m0 (I i s) (f i s) fun s' m => I (i + 1) s' m)
    (c i : Nat) (s : σ) : Tri n m0 (I i s) (loopN f c i s) fun s' m => I (i + c) s' m := by
  induction c generalizing i s with
  | zero => exact Tri.pure fun _ h => h
  | succ c ih =>
    rw [loopN_succ]
    refine Tri.bind (h i s) fun s' => ?_
    have := ih (i + 1) s'; rw [Nat.add_right_comm] at this; exact this

/-! ## Allocation and release -/

theorem Sep.push (s : Sep n m) {b : Body} (hb : b.New n) : Sep n (m.push b) where
  wf c hc := by
    have hc' : m.next + 1 ≤ c := hc
    have : (m.push b).blk c = m.blk c := upd_ne _ _ (by omega)
    rw [this]; exact s.wf c (by omega)
  le := Nat.le_succ_of_le s.le
  new c x hc hx := by
    by_cases e : c = m.next
    · subst e; rw [Mem.push_blk_same] at hx; cases hx; exact hb
    · have : (m.push b).blk c = m.blk c := upd_ne _ _ e
      rw [this] at hx; exact s.new c x hc hx

theorem Sep.pushC (s : Sep n m) {b : Body} (hb : b.New n) : Sep n (m.pushC b) where
  wf c hc := by
    have hc' : m.next + 1 ≤ c := hc
    have : (m.pushC b).blk c = m.blk c := upd_ne _ _ (by omega)
    rw [this]; exact s.wf c (by omega)
  le := Nat.le_succ_of_le s.le
  new c x hc hx := by
    by_cases e : c = m.next
    · subst e; rw [Mem.pushC_blk_same] at hx; cases hx; exact hb
    · have : (m.pushC b).blk c = m.blk c := upd_ne _ _ e
      rw [this] at hx; exact s.new c x hc hx

theorem Sep.drop (s : Sep n m) (b : Nat) : Sep n (m.set b none) where
  wf c hc := by
    by_cases e : c = b
    · subst e; simp [Mem.set]
    · have : (m.set b none).blk c = m.blk c := upd_ne _ _ e
      rw [this]; exact s.wf c hc
  le := s.le
  new c x hc hx := by
    by_cases e : c = b
    · subst e; simp [Mem.set] at hx
    · have : (m.set b none).blk c = m.blk c := upd_ne _ _ e
      rw [this] at hx; exact s.new c x hc hx

theorem Sep.put (s : Sep n m) {b : Nat} {y : Block} (hl : m.blk b ≠ none) (hy : y.body.New n) : Sep n (m.set b (some y)) where
  wf c hc := by
    by_cases e : c = b
    · subst e; exact absurd (s.wf c hc) hl
    · have : (m.set b (some y)).blk c = m.blk c := upd_ne _ _ e
      rw [this]; exact s.wf c hc
  le := s.le
  new c x hc hx := by
    by_cases e : c = b
    · subst e; simp [Mem.set] at hx; subst hx; exact hy
    · have : (m.set b (some y)).blk c = m.blk c := upd_ne _ _ e
      rw [this] at hx; exact s.new c x hc hx

theorem Own.lt (h : Own k n L m) (s : Sep n m) {b : Nat} (hb : b ∈ tokBlocks L) : b < m.next := by
  obtain ⟨x, hx, hb⟩ := List.mem_flatMap.1 hb
  exact Nat.lt_of_not_le fun hle => (h.ok x hx).live hb (s.wf b hle)

theorem tokBlocks_cons (x : Tok) (L : List Tok) : tokBlocks (x :: L) = x.blocks ++ tokBlocks L := rfl

theorem Own.alloc (h : Own k n L m) (s : Sep n m) (b : Body) : Own k n (.raw (.blk m.next) :: L) (m.push b) where
  ok x hx := by
    rcases List.mem_cons.1 hx with rfl | hx
    · exact ⟨b, Mem.push_blk_same _ _⟩
    · refine (h.ok x hx).keep fun c hc => .inl (upd_ne _ _ ?_)
      exact Nat.ne_of_lt (h.lt s (List.mem_flatMap.2 ⟨x, hx, hc⟩))
  nodup := by
    rw [tokBlocks_cons]
    refine List.nodup_cons.2 ⟨fun hm => ?_, h.nodup⟩
    exact Nat.lt_irrefl _ (h.lt s hm)
  fresh c hc := by
    rw [tokBlocks_cons] at hc
    rcases List.mem_cons.1 hc with rfl | hc
    · exact s.le
    · exact h.fresh c hc
  live hk c hc hl := by
    rw [tokBlocks_cons]
    by_cases e : c = m.next
    · subst e; exact List.mem_cons_self
    · refine List.mem_cons_of_mem _ (h.live hk c hc ?_)
      rwa [show (m.push b).blk c = m.blk c from upd_ne _ _ e] at hl

theorem Own.cAlloc (h : Own k n L m) (s : Sep n m) (b : Body) : Own k n (.cell (.blk m.next) :: L) (m.pushC b) where
  ok x hx := by
    rcases List.mem_cons.1 hx with rfl | hx
    · exact ⟨b, Mem.pushC_blk_same _ _⟩
    · refine (h.ok x hx).keep fun c hc => .inl (upd_ne _ _ ?_)
      exact Nat.ne_of_lt (h.lt s (List.mem_flatMap.2 ⟨x, hx, hc⟩))
  nodup := by
    rw [tokBlocks_cons]
    refine List.nodup_cons.2 ⟨fun hm => ?_, h.nodup⟩
    exact Nat.lt_irrefl _ (h.lt s hm)
  fresh c hc := by
    rw [tokBlocks_cons] at hc
    rcases List.mem_cons.1 hc with rfl | hc
    · exact s.le
    · exact h.fresh c hc
  live hk c hc hl := by
    rw [tokBlocks_cons]
    by_cases e : c = m.next
    · subst e; exact List.mem_cons_self
    · refine List.mem_cons_of_mem _ (h.live hk c hc ?_)
      rwa [show (m.pushC b).blk c = m.blk c from upd_ne _ _ e] at hl

theorem Own.miss (h : Own k n L m) : Own k n (.raw .null :: L) m where
  ok x hx := by
    rcases List.mem_cons.1 hx with rfl | hx
    · trivial
    · exact h.ok x hx
  nodup := h.nodup
  fresh := h.fresh
  live := h.live

theorem Own.cMiss (h : Own k n L m) : Own k n (.cell .null :: L) m where
  ok x hx := by
    rcases List.mem_cons.1 hx with rfl | hx
    · trivial
    · exact h.ok x hx
  nodup := h.nodup
  fresh := h.fresh
  live := h.live

theorem Own.tick (h : Own k n L m) : Own k n L m.miss := ⟨fun x hx => (h.ok x hx).keep fun _ _ => .inl rfl, h.nodup, h.fresh, h.live⟩

theorem Sep.tick (s : Sep n m) : Sep n m.miss := ⟨s.wf, s.le, s.new⟩

theorem Tri.rawAlloc (z : Nat) {b : Body} (hb : b.New n) :
    Tri n m0 (Own k n L) (rawAlloc z b) fun p m => p.New n ∧ Own k n (.raw p :: L) m := by
  intro E m p m' s ag o e
  unfold Aitisa.rawAlloc at e
  split at e <;> rename_i h <;> cases e
  · exact ⟨s.push hb, fun c hc => (upd_ne _ _ (Nat.ne_of_lt (Nat.lt_of_lt_of_le hc s.le))).trans (ag c hc), ⟨s.le, o.alloc s b⟩,
      fun L hL => (if_pos h).trans (by rw [← relabel_push _ (hL _ s.le)]; rfl)⟩
  · exact ⟨s.tick, ag, ⟨trivial, o.tick.miss⟩, fun L hL => if_neg h⟩

theorem Tri.cMalloc (z : Nat) {b : Body} (hb : b.New n) :
    Tri n m0 (Own k n L) (cMalloc z b) fun p m => p.New n ∧ Own k n (.cell p :: L) m := by
  intro E m p m' s ag o e
  unfold Aitisa.cMalloc at e
  split at e <;> rename_i h <;> cases e
  · exact ⟨s.pushC hb, fun c hc => (upd_ne _ _ (Nat.ne_of_lt (Nat.lt_of_lt_of_le hc s.le))).trans (ag c hc), ⟨s.le, o.cAlloc s b⟩,
      fun L hL => (if_pos h).trans (by rw [← relabel_push _ (hL _ s.le)]; rfl)⟩
  · exact ⟨s.tick, ag, ⟨trivial, o.tick.cMiss⟩, fun L hL => if_neg h⟩

theorem Tri.bindScratch {z : Int} {e : Nat} {f : Ptr → M β} {Q : β → Mem → Prop}
    (hf : ∀ p, p.New n → Tri n m0 (Own k n (.raw p :: L)) (f p) Q) : Tri n m0 (Own k n L) (scratch z e >>= f) Q :=
  Tri.bind (Tri.rawAlloc _ (by trivial)) fun p => Tri.and (hf p)

theorem Own.tail {x : Tok} (h : Own k n (x :: L) m) (hd : ∀ b, b ∈ x.blocks → m'.blk b = none)
    (hs : ∀ b, b ∉ x.blocks → m'.blk b = m.blk b) : Own k n L m' where
  ok y hy := (h.ok y (List.mem_cons_of_mem _ hy)).keep fun b hb => .inl (hs b fun hx =>
    (List.nodup_append.1 h.nodup).2.2 b hx b (List.mem_flatMap.2 ⟨y, hy, hb⟩) rfl)
  nodup := (List.nodup_append.1 h.nodup).2.1
  fresh b hb := h.fresh b (List.mem_append_right _ hb)
  live hk b hb hl := by
    by_cases hx : b ∈ x.blocks
    · exact absurd (hd b hx) hl
    · rw [hs b hx] at hl
      exact (List.mem_append.1 (h.live hk b hb hl)).resolve_left hx

theorem Tri.rawFree {p : Ptr} : Tri n m0 (Own k n (.raw p :: L)) (rawFree p) fun _ m => Own k n L m := by
  intro E m a m' s ag o e
  have hp := o.raw_new List.mem_cons_self
  unfold Aitisa.rawFree at e
  cases p with
  | null => cases e; exact ⟨s, ag, ⟨fun x hx => o.ok x (List.mem_cons_of_mem _ hx), o.nodup, o.fresh, o.live⟩, fun _ _ => rfl⟩
  | indet => cases e
  | blk b =>
    simp only at e
    cases hb : m.blk b with
    | none => rw [hb] at e; cases e
    | some y =>
      rw [hb] at e
      simp only at e
      split at e <;> rename_i hk <;> cases e
      refine ⟨s.drop b, fun c hc => (upd_ne _ _ (Nat.ne_of_lt (Nat.lt_of_lt_of_le hc hp))).trans (ag c hc), o.tail (fun c hc => ?_) fun c hc => ?_,
        fun L hL => ?_⟩
      · rw [Tok.blocks, List.mem_singleton] at hc; subst hc; simp [Mem.set]
      · exact upd_ne _ _ (by simpa [Tok.blocks] using hc)
      · unfold Aitisa.rawFree
        simp only [relabel_some hb, hL b hp, Option.getD_none, if_pos hk, relabel_drop]

theorem Tri.cFree {p : Ptr} : Tri n m0 (Own k n (.cell p :: L)) (cFree p) fun _ m => Own k n L m := by
  intro E m a m' s ag o e
  have hp := o.cell_new List.mem_cons_self
  unfold Aitisa.cFree at e
  cases p with
  | null => cases e; exact ⟨s, ag, ⟨fun x hx => o.ok x (List.mem_cons_of_mem _ hx), o.nodup, o.fresh, o.live⟩, fun _ _ => rfl⟩
  | indet => cases e
  | blk b =>
    simp only at e
    cases hb : m.blk b with
    | none => rw [hb] at e; cases e
    | some y =>
      rw [hb] at e
      simp only at e
      split at e <;> rename_i hk <;> cases e
      refine ⟨s.drop b, fun c hc => (upd_ne _ _ (Nat.ne_of_lt (Nat.lt_of_lt_of_le hc hp))).trans (ag c hc), o.tail (fun c hc => ?_) fun c hc => ?_,
        fun L hL => ?_⟩
      · rw [Tok.blocks, List.mem_singleton] at hc; subst hc; simp [Mem.set]
      · exact upd_ne _ _ (by simpa [Tok.blocks] using hc)
      · unfold Aitisa.cFree
        simp only [relabel_some hb, hL b hp, Option.getD_none, if_pos hk, relabel_drop]

theorem perm_eraseIdx {x : α} : ∀ {l : List α} {i : Nat}, l[i]? = some x → l.Perm (x :: l.eraseIdx i)
  | [], _, h => by cases h
  | a :: l, 0, h => by cases h; exact List.Perm.refl _
  | a :: l, i + 1, h => (List.Perm.cons a (perm_eraseIdx (l := l) (i := i) (by simpa using h))).trans (List.Perm.swap _ _ _)

theorem Tri.bindFree {p : Ptr} {f : Unit → M β} {Q : β → Mem → Prop} (i : Nat) (hi : L[i]? = some (.raw p))
    (hf : Tri n m0 (Own k n (L.eraseIdx i)) (f ()) Q) : Tri n m0 (Own k n L) (Aitisa.rawFree p >>= f) Q :=
  (Tri.bind Tri.rawFree fun _ => hf).pre fun _ h => h.perm (perm_eraseIdx hi)

theorem Tri.bindCFree {p : Ptr} {f : Unit → M β} {Q : β → Mem → Prop} (i : Nat) (hi : L[i]? = some (.cell p))
    (hf : Tri n m0 (Own k n (L.eraseIdx i)) (f ()) Q) : Tri n m0 (Own k n L) (Aitisa.cFree p >>= f) Q :=
  (Tri.bind Tri.cFree fun _ => hf).pre fun _ h => h.perm (perm_eraseIdx hi)

theorem Tri.lastFree {p : Ptr} (i : Nat) (hi : L[i]? = some (.raw p)) :
    Tri n m0 (Own k n L) (Aitisa.rawFree p) fun _ m => Own k n (L.eraseIdx i) m :=
  Tri.rawFree.pre fun _ h => h.perm (perm_eraseIdx hi)

/-! ## Destruction of a tensor -/

theorem destroyShape_own {R : Foot} {t : TensorS} (ht : m.blk R.t = some ⟨.own, .tensor t⟩) (hd : t.dims = optPtr R.d) (hl : t.min2maj = optPtr R.l)
    (nd : R.list.Nodup) (ld : ∀ d, R.d = some d → ∃ b, m.blk d = some ⟨.own, b⟩) (ll : ∀ l, R.l = some l → ∃ b, m.blk l = some ⟨.own, b⟩) :
    ∃ m1, destroyShape R.h E m = .ok () m1 ∧ (m1.next = m.next ∧ m1.tick = m.tick ∧ m1.rtick = m.rtick) ∧
    m1.blk R.t = some ⟨.own, .tensor { t with dims := .null, min2maj := .null }⟩ ∧
    ∀ b, b ≠ R.t → m1.blk b = if b ∈ R.d.toList ++ R.l.toList then none else m.blk b := by
  obtain ⟨hts, htp, hsp, nd1, nl, ndl⟩ := nodup_foot nd
  obtain ⟨t0, t1, t2, t3, t4, t5, t6⟩ := t
  simp only at hd hl
  subst hd hl
  cases hd0 : R.d with
  | none =>
    cases hl0 : R.l with
    | none =>
      rw [hd0, hl0] at ht
      refine ⟨m, ?_, ⟨rfl, rfl, rfl⟩, ?_, ?_⟩
      · unfold destroyShape; msimp [Foot.h, run_derefT ht, optPtr]
      · rw [ht]; rfl
      · intro b _; simp
    | some l =>
      rw [hd0, hl0] at ht
      simp only [optPtr] at ht
      obtain ⟨b1, b2, b3⟩ := nl l hl0
      obtain ⟨y, hy⟩ := ll l hl0
      refine ⟨(m.set l none).set R.t (some ⟨.own, .tensor ⟨t0, t1, t2, .null, t4, .null, t6⟩⟩), ?_, ⟨rfl, rfl, rfl⟩, by simp, ?_⟩
      · unfold destroyShape; msimp [Foot.h, run_derefT ht, optPtr, run_rawFree hy]
        rw [run_putBody (by rw [Mem.set_blk_ne _ _ b1.symm]; exact ht)]
      · intro b hb
        simp only [Mem.set_blk, hb, if_false]
        by_cases hbl : b = l <;> simp [hbl]
  | some d =>
    obtain ⟨a1, a2, a3⟩ := nd1 d hd0
    obtain ⟨x, hx⟩ := ld d hd0
    cases hl0 : R.l with
    | none =>
      rw [hd0, hl0] at ht
      simp only [optPtr] at ht
      refine ⟨(m.set d none).set R.t (some ⟨.own, .tensor ⟨t0, t1, t2, .null, t4, .null, t6⟩⟩), ?_, ⟨rfl, rfl, rfl⟩, by simp, ?_⟩
      · unfold destroyShape; msimp [Foot.h, run_derefT ht, optPtr, run_rawFree hx]
        rw [run_putBody (by rw [Mem.set_blk_ne _ _ a1.symm]; exact ht)]
        msimp [run_derefT (Mem.set_blk_same _ _ _)]
      · intro b hb
        simp only [Mem.set_blk, hb, if_false]
        by_cases hbl : b = d <;> simp [hbl]
    | some l =>
      rw [hd0, hl0] at ht
      simp only [optPtr] at ht
      obtain ⟨b1, b2, b3⟩ := nl l hl0
      obtain ⟨y, hy⟩ := ll l hl0
      have b4 := ndl d l hd0 hl0
      have ht1 : (m.set d none).blk R.t = some ⟨.own, .tensor ⟨t0, t1, t2, .blk d, t4, .blk l, t6⟩⟩ := by
        rw [Mem.set_blk_ne _ _ a1.symm]; exact ht
      refine ⟨((((m.set d none).set R.t (some ⟨.own, .tensor ⟨t0, t1, t2, .null, t4, .blk l, t6⟩⟩)).set l none).set R.t
        (some ⟨.own, .tensor ⟨t0, t1, t2, .null, t4, .null, t6⟩⟩)), ?_, ⟨rfl, rfl, rfl⟩, by simp, ?_⟩
      · unfold destroyShape
        msimp [Foot.h, run_derefT ht, run_rawFree hx, run_putBody ht1, run_derefT (Mem.set_blk_same _ _ _)]
        rw [run_rawFree (b := y) (by rw [Mem.set_blk_ne _ _ b1, Mem.set_blk_ne _ _ b4.symm]; exact hy)]
        simp only [andThen_ok]
        rw [run_putBody (k := ⟨.own, .tensor ⟨t0, t1, t2, .null, t4, .blk l, t6⟩⟩) (by rw [Mem.set_blk_ne _ _ b1.symm]; simp)]
      · intro b hb
        simp only [Mem.set_blk, hb]
        by_cases hbd : b = d <;> by_cases hbl : b = l <;> simp [hbd, hbl]

theorem destroy_own {R : Foot} (h : TenOk m R) (nd : R.list.Nodup) : ∃ m', destroy R.h E m = .ok (.success, .null) m' ∧
    (m'.next = m.next ∧ m'.tick = m.tick ∧ m'.rtick = m.rtick) ∧ ∀ b, m'.blk b = if b ∈ R.list then none else m.blk b := by
  obtain ⟨hts, htp, hsp, nd1, nl, ndl⟩ := nodup_foot nd
  obtain ⟨t, ht, e1, e2, e3⟩ := h.tensor
  obtain ⟨s, hs, e4⟩ := h.storage
  obtain ⟨y, hy⟩ := h.data
  obtain ⟨m1, r1, n1, bt, hb⟩ := destroyShape_own (E := E) ht e1 e2 nd h.dims h.layout
  obtain ⟨t0, t1, t2, t3, t4, t5, t6⟩ := t
  obtain ⟨s0, s1, s2, s3⟩ := s
  simp only at e3 e4 bt
  subst e3 e4
  have bs : m1.blk R.s = some ⟨.own, .storage ⟨s0, s1, s2, .blk R.p⟩⟩ := by
    rw [hb _ hts.symm, if_neg]
    · exact hs
    · intro hm
      simp only [List.mem_append, Option.mem_toList] at hm
      rcases hm with hm | hm
      · exact (nd1 _ hm).2.1 rfl
      · exact (nl _ hm).2.1 rfl
  have bp : m1.blk R.p = some ⟨.own, y⟩ := by
    rw [hb _ htp.symm, if_neg]
    · exact hy
    · intro hm
      simp only [List.mem_append, Option.mem_toList] at hm
      rcases hm with hm | hm
      · exact (nd1 _ hm).2.2 rfl
      · exact (nl _ hm).2.2 rfl
  have key : destroyStorage R.h E m1 = .ok () (((m1.set R.p none).set R.s none).set R.t
      (some ⟨.own, .tensor ⟨t0, t1, t2, .null, t4, .null, .null⟩⟩)) := by
    unfold destroyStorage
    have bs' : (m1.set R.p none).blk R.s = some ⟨.own, .storage ⟨s0, s1, s2, .blk R.p⟩⟩ := by
      rw [Mem.set_blk_ne _ _ hsp]; exact bs
    msimp [Foot.h, run_derefT bt, run_derefS bs, run_rawFree bp, run_putBody bs']
    rw [run_rawFree (Mem.set_blk_same _ _ _)]
    simp only [andThen_ok, Mem.set_set]
    rw [run_putBody (k := ⟨.own, .tensor ⟨t0, t1, t2, .null, t4, .null, .blk R.s⟩⟩)
      (by rw [Mem.set_blk_ne _ _ hts, Mem.set_blk_ne _ _ htp]; exact bt)]
  refine ⟨((m1.set R.p none).set R.s none).set R.t none, ?_, n1, ?_⟩
  · unfold destroy
    have hh : R.h ≠ .null := by simp [Foot.h]
    msimp [hh, r1, key]
    unfold Foot.h
    rw [run_rawFree (Mem.set_blk_same _ _ _)]
    simp only [andThen_ok, Mem.set_set]
  · intro b
    simp only [Mem.set_blk, mem_foot]
    by_cases k1 : b = R.t
    · simp [k1]
    by_cases k2 : b = R.s
    · simp [k2]
    by_cases k3 : b = R.p
    · simp [k3]
    simp [k1, k2, k3, hb b k1]

theorem TenOk.relabel {R : Foot} (h : TenOk m R) {L : Nat → Option Origin} (hL : ∀ b ∈ R.list, L b = none) : TenOk (m.relabel L) R := by
  have key : ∀ b ∈ R.list, (m.relabel L).blk b = m.blk b := fun b hb => by
    show (m.blk b).map _ = _
    rw [hL b hb]
    cases m.blk b <;> rfl
  obtain ⟨t, et, t1⟩ := h.tensor
  obtain ⟨s, es, s1⟩ := h.storage
  obtain ⟨d, ed⟩ := h.data
  refine ⟨⟨t, ?_, t1⟩, ⟨s, ?_, s1⟩, ⟨d, ?_⟩, fun c hc => ?_, fun c hc => ?_⟩
  · rw [key _ (by simp [Foot.list])]; exact et
  · rw [key _ (by simp [Foot.list])]; exact es
  · rw [key _ (by simp [Foot.list])]; exact ed
  · obtain ⟨y, e⟩ := h.dims c hc; exact ⟨y, (key _ (by simp [Foot.list, hc])).trans e⟩
  · obtain ⟨y, e⟩ := h.layout c hc; exact ⟨y, (key _ (by simp [Foot.list, hc])).trans e⟩

theorem mem_ext (h1 : m.next = m'.next) (h2 : m.tick = m'.tick) (h3 : m.rtick = m'.rtick) (h4 : ∀ b, m.blk b = m'.blk b) : m = m' := by
  obtain ⟨a, b, c, d⟩ := m
  obtain ⟨a', b', c', d'⟩ := m'
  simp only at h1 h2 h3 h4
  subst h1 h2 h3
  obtain rfl : d = d' := funext h4
  rfl

theorem Tri.destroy {R : Foot} :
    Tri n m0 (Own k n (.ten R :: L)) (destroy R.h) fun r m => r = (.success, .null) ∧ Own k n L m := by
  intro E m a m' s ag o e
  have hok : TenOk m R := o.ok _ List.mem_cons_self
  have nd := (List.nodup_append.1 o.nodup).1
  obtain ⟨m1, e1, ⟨n1, k1, k2⟩, h1⟩ := destroy_own (E := E) hok nd
  rw [e1] at e; cases e
  have fr : ∀ b ∈ R.list, n ≤ b := fun b hb => o.fresh b (List.mem_append_left _ hb)
  refine ⟨⟨fun c hc => ?_, n1 ▸ s.le, fun c x hc hx => ?_⟩, fun c hc => ?_, ⟨rfl, o.tail (fun c hc => ?_) fun c hc => ?_⟩, fun L hL => ?_⟩
  · rw [n1] at hc; rw [h1, s.wf c hc]; split <;> rfl
  · rw [h1] at hx; split at hx
    · cases hx
    · exact s.new c x hc hx
  · rw [h1, if_neg]
    · exact ag c hc
    · intro hm; exact Nat.not_le_of_lt hc (fr c hm)
  · rw [h1, if_pos]; exact hc
  · rw [h1, if_neg]; exact hc
  · have hok' : TenOk (m.relabel L) R := TenOk.relabel hok fun b hb => hL b (fr b hb)
    obtain ⟨m2, e2, ⟨n2, k3, k4⟩, h2⟩ := destroy_own (E := E) hok' nd
    rw [e2]
    congr 1
    refine mem_ext (n2.trans n1.symm) (k3.trans k1.symm) (k4.trans k2.symm) fun b => ?_
    rw [h2]
    show _ = (m'.blk b).map _
    rw [h1]
    split <;> rfl

theorem Tri.bindDestroy {R : Foot} {f : Status × Ptr → M β} {Q : β → Mem → Prop} (i : Nat) (hi : L[i]? = some (.ten R))
    (hf : Tri n m0 (Own k n (L.eraseIdx i)) (f (.success, .null)) Q) : Tri n m0 (Own k n L) (Aitisa.destroy R.h >>= f) Q :=
  (Tri.bind Tri.destroy fun _ => Tri.and fun e => e ▸ hf).pre fun _ h => h.perm (perm_eraseIdx hi)

end Aitisa
