import Verif.Model.BatchNorm
import Verif.Proof.DotFill
import Verif.Proof.Scratch

/-! # Computations that keep several tensors and arrays -/

namespace Aitisa

variable {E : Env} {m m1 m2 m0 : Mem} {R : Foot} {T : TV} {q : Nat}

/-- Something allocated: a tensor or a scratch array. -/
inductive Item where
  | tensor (R : Foot) (T : TV)
  | raw (p : Ptr) (K : List Nat) (n : Nat)

/-- Its blocks. -/
def Item.blocks : Item → List Nat
  | .tensor R _ => R.list
  | .raw _ K _ => K

/-- It is in memory. -/
def Item.Ok (m : Mem) : Item → Prop
  | .tensor R T => At m R T
  | .raw p K n => Temp m p K n

theorem Item.Ok.congr {x : Item} (h : x.Ok m) (hs : ∀ b ∈ x.blocks, m1.blk b = m.blk b) : x.Ok m1 := by
  cases x with
  | tensor R T => exact At.congr h hs
  | raw p K n => exact Temp.congr h hs

theorem Item.Ok.lt {x : Item} (h : x.Ok m) (wf : m.WF) {b : Nat} (hb : b ∈ x.blocks) : b < m.next := by
  cases x with
  | tensor R T => exact At.lt h wf hb
  | raw p K n =>
    rcases h with ⟨_, rfl⟩ | ⟨k, _, rfl, hk⟩
    · simp [Item.blocks] at hb
    · simp [Item.blocks] at hb; subst hb; exact Frame.lt_next wf hk

theorem Item.Ok.nodup {x : Item} (h : x.Ok m) : x.blocks.Nodup := by
  cases x with
  | tensor R T => exact At.nodup h
  | raw p K n => exact Temp.nodup h

/-- Blocks of a list of items. -/
def blocksOf (L : List Item) : List Nat := L.flatMap Item.blocks

@[simp] theorem blocksOf_nil : blocksOf [] = [] := rfl
@[simp] theorem blocksOf_cons (x : Item) (L : List Item) : blocksOf (x :: L) = x.blocks ++ blocksOf L := by simp [blocksOf]
@[simp] theorem blocksOf_append (L L' : List Item) : blocksOf (L ++ L') = blocksOf L ++ blocksOf L' := by simp [blocksOf]

/-- Since `m`, exactly the items of `L` have been allocated and not released; what existed in `m` is unchanged. -/
structure Pool (m m1 : Mem) (L : List Item) : Prop where
  ext : Ext m m1 (blocksOf L)
  ok : ∀ x ∈ L, x.Ok m1
  fresh : ∀ b ∈ blocksOf L, m.next ≤ b
  nodup : (blocksOf L).Nodup

variable {L L' : List Item}

theorem Pool.nil (wf : m.WF) : Pool m m [] := ⟨Ext.refl wf, by simp, by simp, by simp⟩

theorem Pool.lt (P : Pool m m1 L) {b : Nat} (hb : b ∈ blocksOf L) : b < m1.next := by
  obtain ⟨x, hx, hb⟩ := List.mem_flatMap.1 hb
  exact (P.ok x hx).lt P.ext.wf hb

theorem Pool.perm (P : Pool m m1 L) (h : L.Perm L') : Pool m m1 L' where
  ext := P.ext.mono fun _ _ _ hx => (h.flatMap_right _).mem_iff.1 hx
  ok x hx := P.ok x (h.mem_iff.2 hx)
  fresh b hb := P.fresh b ((h.flatMap_right _).mem_iff.2 hb)
  nodup := (h.flatMap_right _).nodup_iff.1 P.nodup

theorem Pool.append (P : Pool m m1 L) (P' : Pool m1 m2 L') : Pool m m2 (L' ++ L) where
  ext := (P.ext.trans P'.ext).mono fun x _ _ hx => by
    simp only [List.mem_append, blocksOf_append] at hx ⊢; exact hx.symm
  ok x hx := by
    rcases List.mem_append.1 hx with h | h
    · exact P'.ok x h
    · exact (P.ok x h).congr fun b hb => P'.ext.same b ((P.ok x h).lt P.ext.wf hb)
  fresh b hb := by
    simp only [List.mem_append, blocksOf_append] at hb
    rcases hb with h | h
    · have := P'.fresh b h; have := P.ext.next; omega
    · exact P.fresh b h
  nodup := by
    rw [blocksOf_append, List.nodup_append]
    refine ⟨P'.nodup, P.nodup, fun a ha b hb => ?_⟩
    have := P'.fresh a ha
    have := P.lt hb
    omega

theorem Pool.clean (P : Pool m m1 L) (P' : Pool m1 m2 []) : Pool m m2 L := by
  simpa using P.append P'

theorem Produces.pool (P : Produces m m1 R T) : Pool m m1 [.tensor R T] where
  ext := by simpa [Item.blocks] using P.ext
  ok x hx := by cases List.mem_singleton.1 hx; exact P.tensor
  fresh b hb := P.fresh b (by simpa [Item.blocks] using hb)
  nodup := by simpa [Item.blocks] using P.tensor.nodup

theorem Pool.produces (P : Pool m m1 [.tensor R T]) : Produces m m1 R T where
  ext := by simpa [Item.blocks] using P.ext
  tensor := P.ok (.tensor R T) (by simp)
  fresh b hb := P.fresh b (by simpa [Item.blocks] using hb)

theorem Pool.produce (P : Pool m m1 L) (P' : Produces m1 m2 R T) : Pool m m2 (.tensor R T :: L) := P.append P'.pool

theorem Pool.at (P : Pool m m1 L) (h : .tensor R T ∈ L) : At m1 R T := P.ok _ h

theorem Pool.temp (P : Pool m m1 L) {p : Ptr} {K : List Nat} {n : Nat} (h : .raw p K n ∈ L) : Temp m1 p K n := P.ok _ h

/-- What existed before is still there. -/
theorem Pool.old (P : Pool m m1 L) (wf : m.WF) (h : At m R T) : At m1 R T := h.frame wf P.ext.toFrame

theorem Pool.oldTemp (P : Pool m m1 L) (wf : m.WF) {p : Ptr} {K : List Nat} {n : Nat} (h : Temp m p K n) : Temp m1 p K n :=
  h.congr fun k hk => P.ext.same k (Item.Ok.lt (x := .raw p K n) h wf hk)

theorem Pool.scratch (P : Pool m m1 L) (n : Int) (k : Nat) : ∃ p K m2, scratch n k E m1 = .ok p m2 ∧
    Pool m m2 (.raw p K (toSizeT (k * n)) :: L) ∧ (p = .null → ¬ E.NoFail) ∧ Pool m1 m2 [.raw p K (toSizeT (k * n))] := by
  obtain ⟨p, m2, K, e, x, t, hk, nu, f⟩ := (Ext.refl P.ext.wf).scratch (E := E) n k
  have P' : Pool m1 m2 [.raw p K (toSizeT (k * n))] :=
    { ext := by simpa [Item.blocks] using x
      ok := fun y hy => by cases List.mem_singleton.1 hy; exact t
      fresh := fun b hb => (hk b (by simpa [Item.blocks] using hb)).1
      nodup := by simpa [Item.blocks] using t.nodup }
  exact ⟨p, K, m2, e, P.append P', nu, P'⟩

theorem Pool.remove {x : Item} (P : Pool m m1 (x :: L)) : Pool m (m1.drop x.blocks) L where
  ext := (P.ext.drop (K := x.blocks) fun b hb => P.fresh b (by simp [hb])).mono fun b _ hn hm => by
    simp only [blocksOf_cons, List.mem_filter, List.mem_append, decide_not, Bool.not_eq_eq_eq_not, Bool.not_true, decide_eq_false_iff_not] at hm
    rcases hm.1 with h | h
    · exact absurd h hm.2
    · exact h
  ok y hy := (P.ok y (by simp [hy])).congr fun b hb => by
    rw [Mem.drop_blk, if_neg]
    intro hx
    have := P.nodup
    rw [blocksOf_cons, List.nodup_append] at this
    exact this.2.2 b hx b (List.mem_flatMap.2 ⟨y, hy, hb⟩) rfl
  fresh b hb := P.fresh b (by simp [hb])
  nodup := by
    have := P.nodup
    rw [blocksOf_cons, List.nodup_append] at this
    exact this.2.1

theorem Pool.destroy (P : Pool m m1 (.tensor R T :: L)) :
    destroy R.h E m1 = .ok (.success, .null) (m1.drop R.list) ∧ Pool m (m1.drop R.list) L :=
  ⟨destroy_run (P.at (R := R) (T := T) (by simp)), P.remove⟩

theorem Pool.free {p : Ptr} {K : List Nat} {n : Nat} (P : Pool m m1 (.raw p K n :: L)) :
    rawFree p E m1 = .ok () (m1.drop K) ∧ Pool m (m1.drop K) L := by
  have := (P.temp (p := p) (K := K) (n := n) (by simp)).free (E := E) (D := []) (by simp)
  rw [show m1.drop [] = m1 from by simp [Mem.drop], List.append_nil] at this
  exact ⟨this, P.remove⟩

theorem Pool.setData (P : Pool m m1 (.tensor R T :: L)) {bs : List Byte} (hl : bs.length = T.bytes.length) :
    Pool m (m1.set R.p (some ⟨.own, .bytes bs⟩)) (.tensor R { T with bytes := bs } :: L) where
  ext := P.ext.set (P.fresh _ (by simp [Item.blocks, mem_foot])) (P.at (R := R) (T := T) (by simp)).data _
  ok y hy := by
    rcases List.mem_cons.1 hy with rfl | hy
    · exact At.setData (P.at (R := R) (T := T) (by simp)) hl
    · refine (P.ok y (by simp [hy])).congr fun b hb => Mem.set_blk_ne _ _ ?_
      rintro rfl
      have := P.nodup
      rw [blocksOf_cons, List.nodup_append] at this
      exact this.2.2 R.p (by simp [Item.blocks, mem_foot]) R.p (List.mem_flatMap.2 ⟨y, hy, hb⟩) rfl
  fresh := P.fresh
  nodup := P.nodup

/-- A change to a block that existed in the base. -/
theorem Pool.rebase (P : Pool m m1 L) (hq : q < m.next) (b : Block) : Pool (m.set q (some b)) (m1.set q (some b)) L where
  ext :=
    { next := P.ext.next
      same := fun x hx => by
        simp only [Mem.set_blk]
        split
        · rfl
        · exact P.ext.same x hx
      wf := fun x hx => by
        have := P.ext.next
        have hx' : m1.next ≤ x := hx
        rw [Mem.set_blk_ne _ _ (by omega), P.ext.wf x hx']
      live := fun x hx hn => by
        have hx' : m.next ≤ x := hx
        rw [Mem.set_blk_ne _ _ (by omega)] at hn
        exact P.ext.live x hx' hn }
  ok x hx := (P.ok x hx).congr fun y hy => Mem.set_blk_ne _ _ (by
    have := P.fresh y (List.mem_flatMap.2 ⟨x, hx, hy⟩); omega)
  fresh := P.fresh
  nodup := P.nodup

theorem Pool.lost (P : Pool m m1 L) (q : Nat) : Lost m m1 q := ⟨P.ext.next, fun b hb _ => P.ext.same b hb, P.ext.wf⟩

theorem Pool.lostSet {b : Option Block} (P : Pool (m.set q b) m1 L) : Lost m m1 q :=
  ⟨P.ext.next, fun x hx hq => by rw [P.ext.same x hx, Mem.set_blk_ne _ _ hq], P.ext.wf⟩

/-! ### Computations with an early return -/

/-- The computation stopped early because memory ran out: it reports `STATUS_ALLOC_FAILED`, and everything that existed in
`m0`, except perhaps block `q`, is as it was; or a null pointer was dereferenced. -/
def Stops {α : Type} (E : Env) (m0 : Mem) (q : Nat) (r : Res (α ⊕ Status)) : Prop :=
  (¬ E.NoFail ∨ ¬ E.MallocOK) ∧ ((∃ m', r = .ok (.inr .allocFailed) m' ∧ Lost m0 m' q) ∨ r = .ub .nullDeref)

/-- The computation completes as described by `Q`, or stops early. -/
def Runs {α : Type} (E : Env) (m0 : Mem) (q : Nat) (r : Res (α ⊕ Status)) (Q : α → Mem → Prop) : Prop :=
  (∃ a m', r = .ok (.inl a) m' ∧ Q a m') ∨ Stops E m0 q r

variable {α β : Type} {Q : α → Mem → Prop} {Q' : β → Mem → Prop}

theorem Runs.of_eq {r r' : Res (α ⊕ Status)} (h : Runs E m0 q r' Q) (e : r = r') : Runs E m0 q r Q := e ▸ h

theorem Runs.mono {r : Res (α ⊕ Status)} {Q1 : α → Mem → Prop} (h : Runs E m0 q r Q1) (hQ : ∀ a m', Q1 a m' → Q a m') : Runs E m0 q r Q :=
  h.imp (fun ⟨a, m', e, h⟩ => ⟨a, m', e, hQ a m' h⟩) id

theorem Stops.lost {r : Res (α ⊕ Status)} {m1 : Mem} (h : Stops E m1 q r) (l : Lost m0 m1 q) : Stops E m0 q r :=
  ⟨h.1, h.2.imp (fun ⟨m', e, l'⟩ => ⟨m', e, l.trans l'⟩) id⟩

theorem Runs.attempt {x : M (Status × Ptr)} {k : Ptr → M (α ⊕ Status)} (A : Attempts E x m T) (l : Lost m0 m q)
    (hk : ∀ (R : Foot) m1, Produces m m1 R T → Runs E m0 q (k R.h E m1) Q) : Runs E m0 q (orRet x k E m) Q := by
  rcases A with ⟨R, m1, e, P⟩ | ⟨nf, ⟨o, m', e, f, wf⟩ | e⟩
  · refine (hk R m1 P).of_eq ?_
    unfold orRet; msimp [e]
  · refine .inr ⟨.inl nf, .inl ⟨m', ?_, l.frame f wf⟩⟩
    unfold orRet; msimp [e]
  · refine .inr ⟨.inl nf, .inr ?_⟩
    unfold orRet; msimp [e]

theorem Runs.create {x : M (Status × Ptr)} {k : Ptr → M (α ⊕ Status)} {out : Ptr} (A : Creates E x m out T) (l : Lost m0 m q)
    (hk : ∀ (R : Foot) m1, Produces m m1 R T → Runs E m0 q (k R.h E m1) Q) : Runs E m0 q (orRet x k E m) Q := by
  refine Runs.attempt ?_ l hk
  rcases A with h | ⟨m', e, f, wf, nf⟩
  · exact .inl h
  · exact .inr ⟨nf, .inl ⟨out, m', e, f, wf⟩⟩

theorem Runs.malloc {x : M (Status × Ptr)} {k : Ptr → M (α ⊕ Status)} {out : Ptr} (A : TriesMalloc E x m out T) (l : Lost m0 m q)
    (hk : ∀ (R : Foot) m1, Produces m m1 R T → Runs E m0 q (k R.h E m1) Q) : Runs E m0 q (orRet x k E m) Q := by
  rcases A with A | ⟨mf, e⟩
  · exact Runs.create A l hk
  · refine .inr ⟨.inr mf, .inr ?_⟩
    unfold orRet; msimp [e]

theorem Runs.destroy {k : Ptr → M (α ⊕ Status)} (P : Pool m m1 (.tensor R T :: L))
    (hk : Pool m (m1.drop R.list) L → Runs E m0 q (k .null E (m1.drop R.list)) Q) : Runs E m0 q (orRet (destroy R.h) k E m1) Q := by
  obtain ⟨e, P'⟩ := P.destroy (E := E)
  refine (hk P').of_eq ?_
  unfold orRet; msimp [e]

/-- Invariant rule for a loop with an early return. -/
theorem Runs.loop {σ : Type} (f : Nat → σ → M (σ ⊕ Status)) (Inv : Nat → σ → Mem → Prop) (n : Nat)
    (step : ∀ i s m, i < n → Inv i s m → Runs E m0 q (f i s E m) (Inv (i + 1))) {s : σ} {m : Mem} (h0 : Inv 0 s m) :
    Runs E m0 q (loopE f n 0 s E m) (Inv n) := by
  suffices H : ∀ k i s m, i + k = n → Inv i s m → Runs E m0 q (loopE f k i s E m) (Inv n) from H n 0 s m (by omega) h0
  intro k
  induction k with
  | zero => intro i s m hi h; exact .inl ⟨s, m, rfl, by simpa using (by omega : i = n) ▸ h⟩
  | succ k ih =>
    intro i s m hi h
    rw [loopE_succ]
    rcases step i s m (by omega) h with ⟨s', m', e, h'⟩ | ⟨nf, ⟨m', e, l⟩ | e⟩
    · rw [e]; exact ih (i + 1) s' m' (by omega) h'
    · rw [e]; exact .inr ⟨nf, .inl ⟨m', rfl, l⟩⟩
    · rw [e]; exact .inr ⟨nf, .inr rfl⟩

end Aitisa
