import Verif.Spec.AutoTest
import Verif.Proof.Core
import Verif.Model.Conv
import Verif.Proof.Temp

/-!
# Objects that share buffers: the counting invariant
-/

namespace Aitisa

variable {α ι κ : Type} {C : Cls α ι κ} {xs ys : List α} {o o' r : α} {E : Env} {m m' : Mem} {n c : Nat} {K : List Nat} {ps : List Ptr}

/-- The blocks among pointers. -/
def ids (ps : List Ptr) : List Nat := ps.filterMap fun p => match p with | .blk b => some b | _ => none

theorem mem_ids {b : Nat} : b ∈ ids ps ↔ .blk b ∈ ps := by
  unfold ids
  rw [List.mem_filterMap]
  constructor
  · rintro ⟨p, hp, e⟩
    cases p <;> simp at e
    subst e; exact hp
  · exact fun h => ⟨_, h, rfl⟩

theorem ids_cons {p : Ptr} : ids (p :: ps) = (match p with | .blk b => [b] | _ => []) ++ ids ps := by
  cases p <;> rfl

/-- The block of a counter. -/
def ctr (v : Int) : Block := ⟨.own, .i64s [some v]⟩

theorem decCount_run {v : Int} (h : m.blk c = some (ctr v)) (h1 : -2147483648 ≤ v - 1) (h2 : v - 1 ≤ 2147483647) :
    decCount (.blk c) E m = .ok (v - 1) (m.set c (some (ctr (v - 1)))) := by
  unfold decCount
  have e1 : loadI (.blk c) 0 E m = .ok v m := run_loadI (i := 0) h rfl E
  have e2 : i32 (v - 1) E m = .ok (v - 1) m := by unfold i32 I32_MIN I32_MAX; rw [if_pos ⟨h1, h2⟩]; rfl
  have e3 : storeI (.blk c) 0 (v - 1) E m = .ok () (m.set c (some (ctr (v - 1)))) := run_storeI (i := 0) h (by simp) _ E
  have e4 : loadI (.blk c) 0 E (m.set c (some (ctr (v - 1)))) = .ok (v - 1) (m.set c (some (ctr (v - 1)))) :=
    run_loadI (i := 0) (k := .own) (l := [some (v - 1)]) (by simp [Mem.set, upd, ctr]) rfl E
  simp only [run_bind, e1, e2, e3, e4, andThen_ok]

theorem incCount_run {v : Int} (h : m.blk c = some (ctr v)) (h1 : -2147483648 ≤ v + 1) (h2 : v + 1 ≤ 2147483647) :
    incCount (.blk c) E m = .ok () (m.set c (some (ctr (v + 1)))) := by
  unfold incCount
  have e1 : loadI (.blk c) 0 E m = .ok v m := run_loadI (i := 0) h rfl E
  have e2 : i32 (v + 1) E m = .ok (v + 1) m := by unfold i32 I32_MIN I32_MAX; rw [if_pos ⟨h1, h2⟩]; rfl
  have e3 : storeI (.blk c) 0 (v + 1) E m = .ok () (m.set c (some (ctr (v + 1)))) := run_storeI (i := 0) h (by simp) _ E
  simp only [run_bind, e1, e2, e3, andThen_ok]

theorem rawFrees_ids (ps : List Ptr) : ∀ {m : Mem}, (ids ps).Nodup → (∀ p ∈ ps, p = .null ∨ ∃ b x, p = .blk b ∧ m.blk b = some ⟨.own, x⟩) →
    ∃ m', rawFrees ps E m = .ok () m' ∧ m'.next = m.next ∧ ∀ b, m'.blk b = if b ∈ ids ps then none else m.blk b := by
  induction ps with
  | nil => exact fun _ _ => ⟨_, rfl, rfl, fun b => by simp [ids]⟩
  | cons p ps ih =>
    intro m nd h
    unfold rawFrees
    rcases h p List.mem_cons_self with rfl | ⟨b, x, rfl, hb⟩
    · obtain ⟨m', e, h1, h2⟩ := ih nd fun p hp => h p (List.mem_cons_of_mem _ hp)
      exact ⟨m', e, h1, h2⟩
    · obtain ⟨nb, nd⟩ := List.nodup_cons.1 (show (b :: ids ps).Nodup from nd)
      obtain ⟨m', e, h1, h2⟩ := ih (m := m.set b none) nd fun p hp => by
        rcases h p (List.mem_cons_of_mem _ hp) with h | ⟨b', x', rfl, hb'⟩
        · exact .inl h
        · refine .inr ⟨b', x', rfl, ?_⟩
          rw [Mem.set_blk_ne _ _ (by rintro rfl; exact nb (mem_ids.2 hp)), hb']
      refine ⟨m', ?_, h1, fun y => ?_⟩
      · simp only [run_bind, run_rawFree hb, andThen_ok]; exact e
      · rw [h2]
        show _ = if y ∈ b :: ids ps then none else m.blk y
        by_cases hy : y = b
        · subst hy; simp [Mem.set, upd]
        · rw [Mem.set_blk_ne _ _ hy]; simp [hy]

/-- The number of objects with the counter `p`. -/
def cnt (C : Cls α ι κ) [DecidableEq Ptr] (xs : List α) (p : Ptr) : Nat := xs.countP fun o => C.count o == p

/-- All blocks of an object. -/
def blocks (C : Cls α ι κ) (o : α) : List Nat := ids (C.count o :: C.bufs o)

/-- An object as it should be. -/
def Good (C : Cls α ι κ) (n : Nat) (xs : List α) (m : Mem) (o : α) : Prop :=
  (C.count o = .null ∧ ∀ p ∈ C.bufs o, p = .null) ∨
  ∃ c, C.count o = .blk c ∧ n ≤ c ∧ m.blk c = some (ctr (cnt C xs (.blk c))) ∧ (c :: ids (C.bufs o)).Nodup ∧
    ∀ p ∈ C.bufs o, p = .null ∨ ∃ b x, p = .blk b ∧ n ≤ b ∧ m.blk b = some ⟨.own, x⟩

/-- Two objects share everything or nothing. -/
def Rel (C : Cls α ι κ) (o o' : α) : Prop :=
  (C.count o = C.count o' ∧ C.bufs o = C.bufs o') ∨ ∀ b ∈ blocks C o, b ∉ blocks C o'

/-- The invariant. -/
structure Inv (C : Cls α ι κ) (n : Nat) (xs : List α) (K : List Nat) (m : Mem) : Prop where
  wf : m.WF
  le : n ≤ m.next
  obj : ∀ o ∈ xs, Good C n xs m o
  rel : ∀ o ∈ xs, ∀ o' ∈ xs, Rel C o o'
  cap : ∀ c, cnt C xs (.blk c) ≤ 2147483647
  live : ∀ b, n ≤ b → m.blk b ≠ none → b ∈ K ∨ ∃ o ∈ xs, b ∈ blocks C o
  lost : ∀ b ∈ K, m.blk b = some (ctr 0) ∧ ∀ o ∈ xs, b ∉ blocks C o

/-- The buffers of `ys` and the blocks below `n` are as before. -/
def Untouched (C : Cls α ι κ) (n : Nat) (ys : List α) (m m' : Mem) : Prop :=
  (∀ o ∈ ys, ∀ b ∈ ids (C.bufs o), m'.blk b = m.blk b) ∧ ∀ b, b < n → m'.blk b = m.blk b

theorem Inv.perm (h : Inv C n xs K m) (p : xs.Perm ys) : Inv C n ys K m where
  wf := h.wf
  le := h.le
  obj o ho := by
    have := h.obj o (p.mem_iff.2 ho)
    have e : ∀ q, cnt C ys q = cnt C xs q := fun q => (p.countP_eq _).symm
    unfold Good at this ⊢
    simp only [e]; exact this
  rel o ho o' ho' := h.rel o (p.mem_iff.2 ho) o' (p.mem_iff.2 ho')
  cap c := by
    have e : ∀ q, cnt C ys q = cnt C xs q := fun q => (p.countP_eq _).symm
    rw [e]; exact h.cap c
  live b hb hn := (h.live b hb hn).imp_right fun ⟨o, ho, hb⟩ => ⟨o, p.mem_iff.1 ho, hb⟩
  lost b hb := ⟨(h.lost b hb).1, fun o ho => (h.lost b hb).2 o (p.mem_iff.2 ho)⟩

theorem mem_blocks_count (hc : C.count o = .blk c) : c ∈ blocks C o := mem_ids.2 (by simp [hc])

theorem mem_blocks_bufs {b : Nat} (h : b ∈ ids (C.bufs o)) : b ∈ blocks C o :=
  mem_ids.2 (List.mem_cons_of_mem _ (mem_ids.1 h))

theorem blocks_eq (hc : C.count o = .blk c) : blocks C o = c :: ids (C.bufs o) := by unfold blocks; rw [ids_cons, hc]; rfl

/-- A counter is no buffer. -/
theorem Inv.counter_ne (h : Inv C n xs K m) (ho : o ∈ xs) (ho' : o' ∈ xs) (hc : C.count o = .blk c) : c ∉ ids (C.bufs o') := by
  intro hb
  rcases h.rel o ho o' ho' with ⟨e1, e2⟩ | hd
  · rcases h.obj o ho with ⟨e, -⟩ | ⟨c', e, -, -, nd, -⟩
    · rw [hc] at e; cases e
    · rw [hc] at e; cases e
      rw [← e2] at hb
      exact (List.nodup_cons.1 nd).1 hb
  · exact hd c (mem_blocks_count hc) (mem_blocks_bufs hb)

/-- Two counted objects with the same counter have the same buffers. -/
theorem Inv.same (h : Inv C n xs K m) (ho : o ∈ xs) (ho' : o' ∈ xs) (hc : C.count o = .blk c) (hc' : C.count o' = .blk c) :
    C.bufs o = C.bufs o' := by
  rcases h.rel o ho o' ho' with ⟨-, e⟩ | hd
  · exact e
  · exact (hd c (mem_blocks_count hc) (mem_blocks_count hc')).elim

theorem cnt_cons_self {p : Ptr} (h : C.count o = p) : cnt C (o :: xs) p = cnt C xs p + 1 := by simp [cnt, h]

theorem cnt_cons_ne {p : Ptr} (h : C.count o ≠ p) : cnt C (o :: xs) p = cnt C xs p := by simp [cnt, h]

theorem cnt_pos {p : Ptr} (h : cnt C xs p ≠ 0) : ∃ o ∈ xs, C.count o = p := by
  have : 0 < xs.countP fun o => C.count o == p := Nat.pos_of_ne_zero h
  obtain ⟨o, ho, e⟩ := List.countP_pos_iff.1 this
  exact ⟨o, ho, by simpa using e⟩

theorem cnt_zero {p : Ptr} (h : cnt C xs p = 0) : ∀ o ∈ xs, C.count o ≠ p := by
  intro o ho e
  have : 0 < xs.countP fun o => C.count o == p := List.countP_pos_iff.2 ⟨o, ho, by simpa using e⟩
  unfold cnt at h; omega

theorem cnt_le {p : Ptr} : cnt C xs p ≤ xs.length := List.countP_le_length

theorem cnt_cons_le {p : Ptr} : cnt C xs p ≤ cnt C (o :: xs) p := by unfold cnt; rw [List.countP_cons]; omega

/-- One object goes, others with the same counter remain. -/
theorem Inv.releaseShared (h : Inv C n (o :: ys) K m) (hc : C.count o = .blk c) (hk : cnt C ys (.blk c) ≠ 0) :
    Inv C n ys K (m.set c (some (ctr (cnt C ys (.blk c))))) ∧ Untouched C n ys m (m.set c (some (ctr (cnt C ys (.blk c))))) := by
  have hb : n ≤ c ∧ ∃ v, m.blk c = some (ctr v) := by
    rcases h.obj o List.mem_cons_self with ⟨e, -⟩ | ⟨c', e, hn, hv, -⟩
    · rw [hc] at e; cases e
    · rw [hc] at e; cases e
      exact ⟨hn, _, hv⟩
  obtain ⟨hn, v, hv⟩ := hb
  have hlt : c < m.next := Frame.lt_next h.wf hv
  refine ⟨⟨fun b hb => ?_, h.le, fun o1 h1 => ?_, fun a ha b hb => h.rel a (List.mem_cons_of_mem _ ha) b (List.mem_cons_of_mem _ hb),
    fun c => Nat.le_trans cnt_cons_le (h.cap c), fun b hb hl => ?_, fun b hb => ⟨?_, fun o1 h1 => (h.lost b hb).2 o1 (List.mem_cons_of_mem _ h1)⟩⟩,
    fun o1 h1 b hb => ?_, fun b hb => ?_⟩
  · have hb : m.next ≤ b := hb
    rw [Mem.set_blk_ne _ _ (by omega)]; exact h.wf b hb
  · have h1' : o1 ∈ o :: ys := List.mem_cons_of_mem _ h1
    rcases h.obj o1 h1' with h0 | ⟨c1, e1, hn1, hv1, nd1, hp1⟩
    · exact .inl h0
    · refine .inr ⟨c1, e1, hn1, ?_, nd1, fun p hp => ?_⟩
      · by_cases hcc : c1 = c
        · subst hcc; simp [Mem.set, upd]
        · rw [Mem.set_blk_ne _ _ hcc, hv1, cnt_cons_ne (by rw [hc]; simpa using Ne.symm hcc)]
      · rcases hp1 p hp with h0 | ⟨b, x, rfl, hnb, hx⟩
        · exact .inl h0
        · refine .inr ⟨b, x, rfl, hnb, ?_⟩
          rw [Mem.set_blk_ne _ _ (by rintro rfl; exact h.counter_ne List.mem_cons_self h1' hc (mem_ids.2 hp)), hx]
  · have hl' : m.blk b ≠ none := by
      by_cases e : b = c
      · rw [e, hv]; simp
      · rwa [Mem.set_blk_ne _ _ e] at hl
    rcases h.live b hb hl' with hk | ⟨o1, h1, hb1⟩
    · exact .inl hk
    · rcases List.mem_cons.1 h1 with rfl | h1
      · obtain ⟨o2, h2, e2⟩ := cnt_pos hk
        refine .inr ⟨o2, h2, ?_⟩
        have := h.same List.mem_cons_self (List.mem_cons_of_mem _ h2) hc e2
        unfold blocks at hb1 ⊢
        rwa [e2, ← this, ← hc]
      · exact .inr ⟨o1, h1, hb1⟩
  · rw [Mem.set_blk_ne _ _ (by rintro rfl; exact (h.lost _ hb).2 o List.mem_cons_self (mem_blocks_count hc)), (h.lost b hb).1]
  · exact Mem.set_blk_ne _ _ fun e => h.counter_ne List.mem_cons_self (List.mem_cons_of_mem _ h1) hc (e ▸ hb)
  · exact Mem.set_blk_ne _ _ (by omega)

/-- The last object with its counter goes: its buffers are released, and its counter is released or left behind. -/
theorem Inv.releaseLast (h : Inv C n (o :: ys) K m) (hc : C.count o = .blk c) (hk : cnt C ys (.blk c) = 0) {K' : List Nat}
    (hnext : m'.next = m.next) (hd : ∀ b ∈ ids (C.bufs o), m'.blk b = none)
    (hs : ∀ b, b ∉ ids (C.bufs o) → b ≠ c → m'.blk b = m.blk b) (hcK : (m'.blk c = none ∧ K' = K) ∨ (m'.blk c = some (ctr 0) ∧ K' = c :: K)) :
    Inv C n ys K' m' ∧ Untouched C n ys m m' := by
  have hb : n ≤ c ∧ c < m.next ∧ ∀ b ∈ ids (C.bufs o), n ≤ b ∧ b < m.next := by
    rcases h.obj o List.mem_cons_self with ⟨e, -⟩ | ⟨c', e, hn, hv, -, hp⟩
    · rw [hc] at e; cases e
    · rw [hc] at e; cases e
      refine ⟨hn, Frame.lt_next h.wf hv, fun b hb => ?_⟩
      rcases hp _ (mem_ids.1 hb) with e | ⟨b', x, e, hnb, hx⟩
      · cases e
      · cases e; exact ⟨hnb, Frame.lt_next h.wf hx⟩
  obtain ⟨hn, hlt, hbl⟩ := hb
  have hdis : ∀ o1 ∈ ys, ∀ b ∈ blocks C o1, b ∉ ids (C.bufs o) ∧ b ≠ c := by
    intro o1 h1 b hb1
    rcases h.rel o List.mem_cons_self o1 (List.mem_cons_of_mem _ h1) with ⟨e, -⟩ | hd
    · exact (cnt_zero hk o1 h1 (e ▸ hc)).elim
    · exact ⟨fun hb => hd b (mem_blocks_bufs hb) hb1, fun e => hd c (mem_blocks_count hc) (e ▸ hb1)⟩
  refine ⟨⟨fun b hb => ?_, by rw [hnext]; exact h.le, fun o1 h1 => ?_,
    fun a ha b hb => h.rel a (List.mem_cons_of_mem _ ha) b (List.mem_cons_of_mem _ hb), fun c => Nat.le_trans cnt_cons_le (h.cap c),
    fun b hb hl => ?_, ?_⟩, fun o1 h1 b hb => ?_, fun b hb => ?_⟩
  · rw [hnext] at hb
    rw [hs b (fun h => by have := hbl b h; omega) (by omega)]
    exact h.wf b hb
  · rcases h.obj o1 (List.mem_cons_of_mem _ h1) with h0 | ⟨c1, e1, hn1, hv1, nd1, hp1⟩
    · exact .inl h0
    · refine .inr ⟨c1, e1, hn1, ?_, nd1, fun p hp => ?_⟩
      · have := hdis o1 h1 c1 (mem_blocks_count e1)
        rw [hs c1 this.1 this.2, hv1, cnt_cons_ne (by rw [hc]; simpa using Ne.symm this.2)]
      · rcases hp1 p hp with h0 | ⟨b, x, rfl, hnb, hx⟩
        · exact .inl h0
        · have := hdis o1 h1 b (mem_blocks_bufs (mem_ids.2 hp))
          exact .inr ⟨b, x, rfl, hnb, by rw [hs b this.1 this.2, hx]⟩
  · by_cases h1 : b ∈ ids (C.bufs o)
    · exact (hl (hd b h1)).elim
    · by_cases h2 : b = c
      · subst h2
        rcases hcK with ⟨e, -⟩ | ⟨-, e⟩
        · exact (hl e).elim
        · exact .inl (e ▸ List.mem_cons_self)
      · rw [hs b h1 h2] at hl
        rcases h.live b hb hl with hk | ⟨o1, ho1, hb1⟩
        · rcases hcK with ⟨-, e⟩ | ⟨-, e⟩
          · exact .inl (e ▸ hk)
          · exact .inl (e ▸ List.mem_cons_of_mem _ hk)
        · rcases List.mem_cons.1 ho1 with rfl | ho1
          · rw [blocks_eq hc] at hb1
            rcases List.mem_cons.1 hb1 with e | e
            · exact (h2 e).elim
            · exact (h1 e).elim
          · exact .inr ⟨o1, ho1, hb1⟩
  · have key : ∀ b ∈ K, m'.blk b = some (ctr 0) ∧ ∀ o1 ∈ ys, b ∉ blocks C o1 := fun b hb => by
      obtain ⟨k1, k2⟩ := h.lost b hb
      refine ⟨?_, fun o1 h1 => k2 o1 (List.mem_cons_of_mem _ h1)⟩
      have k3 := k2 o List.mem_cons_self
      rw [blocks_eq hc, List.mem_cons, not_or] at k3
      rw [hs b k3.2 k3.1, k1]
    rcases hcK with ⟨-, rfl⟩ | ⟨e, rfl⟩
    · exact key
    · intro b hb
      rcases List.mem_cons.1 hb with rfl | hb
      · exact ⟨e, fun o1 h1 hb1 => (hdis o1 h1 b hb1).2 rfl⟩
      · exact key b hb
  · have := hdis o1 h1 b (mem_blocks_bufs hb)
    exact hs b this.1 this.2
  · exact hs b (fun h => by have := hbl b h; omega) (by omega)

/-- One more object with the counter and the buffers of `r`. -/
theorem Inv.acquire (h : Inv C n ys K m) (hr : r ∈ ys) (hc : C.count r = .blk c) (hcap : cnt C ys (.blk c) + 1 ≤ 2147483647) (e1 : C.count o = C.count r) (e2 : C.bufs o = C.bufs r) :
    Inv C n (o :: ys) K (m.set c (some (ctr (cnt C ys (.blk c) + 1 : Nat)))) ∧
    Untouched C n ys m (m.set c (some (ctr (cnt C ys (.blk c) + 1 : Nat)))) := by
  have hb : n ≤ c ∧ ∃ v, m.blk c = some (ctr v) := by
    rcases h.obj r hr with ⟨e, -⟩ | ⟨c', e, hn, hv, -⟩
    · rw [hc] at e; cases e
    · rw [hc] at e; cases e
      exact ⟨hn, _, hv⟩
  obtain ⟨hn, v, hv⟩ := hb
  have hlt : c < m.next := Frame.lt_next h.wf hv
  have good : ∀ o1 ∈ ys, Good C n (o :: ys) (m.set c (some (ctr (cnt C ys (.blk c) + 1 : Nat)))) o1 := by
    intro o1 h1
    rcases h.obj o1 h1 with h0 | ⟨c1, f1, hn1, hv1, nd1, hp1⟩
    · exact .inl h0
    · refine .inr ⟨c1, f1, hn1, ?_, nd1, fun p hp => ?_⟩
      · by_cases hcc : c1 = c
        · subst hcc
          rw [cnt_cons_self (e1.trans hc)]; simp [Mem.set, upd]
        · rw [Mem.set_blk_ne _ _ hcc, hv1, cnt_cons_ne (by rw [e1, hc]; simpa using Ne.symm hcc)]
      · rcases hp1 p hp with h0 | ⟨b, x, rfl, hnb, hx⟩
        · exact .inl h0
        · refine .inr ⟨b, x, rfl, hnb, ?_⟩
          rw [Mem.set_blk_ne _ _ (by rintro rfl; exact h.counter_ne hr h1 hc (mem_ids.2 hp)), hx]
  have eb : blocks C o = blocks C r := by unfold blocks; rw [e1, e2]
  refine ⟨⟨fun b hb => ?_, h.le, fun o1 h1 => ?_, fun a ha b hb => ?_, fun x => ?_, fun b hb hl => ?_,
    fun b hb => ⟨?_, fun o1 h1 => ?_⟩⟩, fun o1 h1 b hb => ?_, fun b hb => ?_⟩
  · have hb : m.next ≤ b := hb
    rw [Mem.set_blk_ne _ _ (by omega)]; exact h.wf b hb
  · rcases List.mem_cons.1 h1 with rfl | h1
    · have := good r hr
      unfold Good at this ⊢
      rwa [e1, e2]
    · exact good o1 h1
  · have key : ∀ x ∈ o :: ys, ∃ y ∈ ys, C.count x = C.count y ∧ C.bufs x = C.bufs y := by
      intro x hx
      rcases List.mem_cons.1 hx with rfl | hx
      · exact ⟨r, hr, e1, e2⟩
      · exact ⟨x, hx, rfl, rfl⟩
    obtain ⟨a', ha', f1, f2⟩ := key a ha
    obtain ⟨b', hb', g1, g2⟩ := key b hb
    have := h.rel a' ha' b' hb'
    unfold Rel blocks at this ⊢
    rwa [f1, f2, g1, g2]
  · by_cases e : C.count o = .blk x
    · rw [cnt_cons_self e]
      have : x = c := by rw [e1, hc] at e; cases e; rfl
      rw [this]; exact hcap
    · rw [cnt_cons_ne e]; exact h.cap x
  · have hl' : m.blk b ≠ none := by
      by_cases e : b = c
      · rw [e, hv]; simp
      · rwa [Mem.set_blk_ne _ _ e] at hl
    exact (h.live b hb hl').imp_right fun ⟨o1, h1, hb1⟩ => ⟨o1, List.mem_cons_of_mem _ h1, hb1⟩
  · rw [Mem.set_blk_ne _ _ (by rintro rfl; exact (h.lost _ hb).2 r hr (mem_blocks_count hc)), (h.lost b hb).1]
  · rcases List.mem_cons.1 h1 with rfl | h1
    · rw [eb]; exact (h.lost b hb).2 r hr
    · exact (h.lost b hb).2 o1 h1
  · exact Mem.set_blk_ne _ _ fun e => h.counter_ne hr h1 hc (e ▸ hb)
  · exact Mem.set_blk_ne _ _ (by omega)

/-- An object with nothing comes or goes. -/
theorem Inv.null (h1 : C.count o = .null) (h2 : ∀ p ∈ C.bufs o, p = .null) : Inv C n (o :: ys) K m ↔ Inv C n ys K m := by
  have hb : blocks C o = [] := List.eq_nil_iff_forall_not_mem.2 fun b hb => by
    rcases List.mem_cons.1 (mem_ids.1 hb) with e | e
    · rw [h1] at e; cases e
    · cases h2 _ e
  have hg : ∀ o', Good C n (o :: ys) m o' ↔ Good C n ys m o' := fun o' => by
    unfold Good
    simp only [fun c : Nat => cnt_cons_ne (C := C) (o := o) (xs := ys) (p := .blk c) (by rw [h1]; simp)]
  constructor
  · intro h
    refine ⟨h.wf, h.le, fun o1 ho1 => (hg o1).1 (h.obj o1 (List.mem_cons_of_mem _ ho1)),
      fun a ha b hb => h.rel a (List.mem_cons_of_mem _ ha) b (List.mem_cons_of_mem _ hb), fun c => Nat.le_trans cnt_cons_le (h.cap c),
      fun b hb' hl => ?_, fun b hb => ⟨(h.lost b hb).1, fun o1 h1 => (h.lost b hb).2 o1 (List.mem_cons_of_mem _ h1)⟩⟩
    rcases h.live b hb' hl with hk | ⟨o1, ho1, hb1⟩
    · exact .inl hk
    · rcases List.mem_cons.1 ho1 with rfl | ho1
      · rw [hb] at hb1; cases hb1
      · exact .inr ⟨o1, ho1, hb1⟩
  · intro h
    refine ⟨h.wf, h.le, fun o1 ho1 => ?_, fun a ha b hb' => ?_, fun c => by rw [cnt_cons_ne (by rw [h1]; simp)]; exact h.cap c,
      fun b hb' hl => ?_, fun b hb' => ⟨(h.lost b hb').1, fun o1 ho1 => ?_⟩⟩
    · rcases List.mem_cons.1 ho1 with rfl | ho1
      · exact .inl ⟨h1, h2⟩
      · exact (hg o1).2 (h.obj o1 ho1)
    · rcases List.mem_cons.1 ha with rfl | ha
      · exact .inr fun x hx => by rw [hb] at hx; cases hx
      · rcases List.mem_cons.1 hb' with rfl | hb'
        · exact .inr fun x _ hx => by rw [hb] at hx; cases hx
        · exact h.rel a ha b hb'
    · exact (h.live b hb' hl).imp_right fun ⟨o1, h1, hb1⟩ => ⟨o1, List.mem_cons_of_mem _ h1, hb1⟩
    · rcases List.mem_cons.1 ho1 with rfl | ho1
      · rw [hb]; nofun
      · exact (h.lost b hb').2 o1 ho1

/-- An object that has the same. -/
theorem Inv.replace (h : Inv C n (o :: ys) K m) (e1 : C.count o' = C.count o) (e2 : C.bufs o' = C.bufs o) : Inv C n (o' :: ys) K m := by
  have hcnt : ∀ p, cnt C (o' :: ys) p = cnt C (o :: ys) p := fun p => by simp [cnt, List.countP_cons, e1]
  have hg : ∀ o1, Good C n (o' :: ys) m o1 ↔ Good C n (o :: ys) m o1 := fun o1 => by unfold Good; simp only [hcnt]
  have key : ∀ x ∈ o' :: ys, ∃ y ∈ o :: ys, C.count x = C.count y ∧ C.bufs x = C.bufs y := by
    intro x hx
    rcases List.mem_cons.1 hx with rfl | hx
    · exact ⟨o, List.mem_cons_self, e1, e2⟩
    · exact ⟨x, List.mem_cons_of_mem _ hx, rfl, rfl⟩
  refine ⟨h.wf, h.le, fun o1 ho1 => (hg o1).2 ?_, fun a ha b hb => ?_, fun c => by rw [hcnt]; exact h.cap c, fun b hb hl => ?_,
    fun b hb => ⟨(h.lost b hb).1, fun o1 ho1 => ?_⟩⟩
  · obtain ⟨y, hy, f1, f2⟩ := key o1 ho1
    have := h.obj y hy
    unfold Good at this ⊢
    rwa [f1, f2]
  · obtain ⟨a', ha', f1, f2⟩ := key a ha
    obtain ⟨b', hb', g1, g2⟩ := key b hb
    have := h.rel a' ha' b' hb'
    unfold Rel blocks at this ⊢
    rwa [f1, f2, g1, g2]
  · rcases h.live b hb hl with hk | ⟨o1, ho1, hb1⟩
    · exact .inl hk
    · rcases List.mem_cons.1 ho1 with rfl | ho1
      · exact .inr ⟨o', List.mem_cons_self, by unfold blocks at hb1 ⊢; rwa [e1, e2]⟩
      · exact .inr ⟨o1, List.mem_cons_of_mem _ ho1, hb1⟩
  · obtain ⟨y, hy, f1, f2⟩ := key o1 ho1
    have := (h.lost b hb).2 y hy
    unfold blocks at this ⊢
    rwa [f1, f2]

/-- New blocks `L`, nothing else changed. -/
structure Fresh (m m' : Mem) (L : List Nat) : Prop where
  nodup : L.Nodup
  wf : m'.WF
  le : m.next ≤ m'.next
  new : ∀ b ∈ L, m.next ≤ b ∧ ∃ x, m'.blk b = some ⟨.own, x⟩
  old : ∀ b, b ∉ L → m'.blk b = m.blk b

/-- A block of an object is allocated. -/
theorem Inv.block_lt (h : Inv C n xs K m) (ho : o ∈ xs) {b : Nat} (hb : b ∈ blocks C o) : n ≤ b ∧ b < m.next := by
  rcases h.obj o ho with ⟨e, hp⟩ | ⟨c', e, hn, hv, -, hp⟩
  · rcases List.mem_cons.1 (mem_ids.1 hb) with e' | e'
    · rw [e] at e'; cases e'
    · cases hp _ e'
  · rcases List.mem_cons.1 (mem_ids.1 hb) with e' | e'
    · rw [e] at e'; cases e'; exact ⟨hn, Frame.lt_next h.wf hv⟩
    · rcases hp _ e' with e | ⟨b', x, e, hnb, hx⟩
      · cases e
      · cases e; exact ⟨hnb, Frame.lt_next h.wf hx⟩

/-- A new object with new blocks. -/
theorem Inv.add (h : Inv C n ys K m) (hc : C.count o = .blk c) (f : Fresh m m' (c :: ids (C.bufs o))) (h1 : m'.blk c = some (ctr 1))
    (hi : ∀ p ∈ C.bufs o, p ≠ .indet) : Inv C n (o :: ys) K m' ∧ Untouched C n ys m m' := by
  have hle := h.le
  have new : ∀ o1 ∈ ys, ∀ b ∈ blocks C o1, b ∉ c :: ids (C.bufs o) := fun o1 ho1 b hb hb' => by
    have := h.block_lt ho1 hb
    have := (f.new b hb').1
    omega
  have eb := blocks_eq hc
  have hz : cnt C ys (.blk c) = 0 := by
    refine Decidable.byContradiction fun hk => ?_
    obtain ⟨o1, ho1, e⟩ := cnt_pos hk
    exact new o1 ho1 c (mem_blocks_count e) List.mem_cons_self
  refine ⟨⟨f.wf, Nat.le_trans h.le f.le, fun o1 ho1 => ?_, fun a ha b hb => ?_, fun x => ?_, fun b hb hl => ?_,
    fun b hb => ?_⟩, fun o1 ho1 b hb => ?_, fun b hb => ?_⟩
  · rcases List.mem_cons.1 ho1 with rfl | ho1
    · refine .inr ⟨c, hc, by have := (f.new c List.mem_cons_self).1; omega, ?_, f.nodup, fun p hp => ?_⟩
      · rw [cnt_cons_self hc, hz, h1]; rfl
      · cases p with
        | null => exact .inl rfl
        | indet => exact (hi _ hp rfl).elim
        | blk b =>
          obtain ⟨h2, x, hx⟩ := f.new b (List.mem_cons_of_mem _ (mem_ids.2 hp))
          exact .inr ⟨b, x, rfl, by omega, hx⟩
    · rcases h.obj o1 ho1 with h0 | ⟨c1, e1, hn1, hv1, nd1, hp1⟩
      · exact .inl h0
      · refine .inr ⟨c1, e1, hn1, ?_, nd1, fun p hp => ?_⟩
        · have := new o1 ho1 c1 (mem_blocks_count e1)
          rw [f.old _ this, hv1, cnt_cons_ne (by rw [hc]; intro e; cases e; exact this List.mem_cons_self)]
        · rcases hp1 p hp with h0 | ⟨b, x, rfl, hnb, hx⟩
          · exact .inl h0
          · exact .inr ⟨b, x, rfl, hnb, by rw [f.old _ (new o1 ho1 b (mem_blocks_bufs (mem_ids.2 hp))), hx]⟩
  · rcases List.mem_cons.1 ha with rfl | ha
    · rcases List.mem_cons.1 hb with rfl | hb
      · exact .inl ⟨rfl, rfl⟩
      · exact .inr fun x hx hx' => new b hb x hx' (eb ▸ hx)
    · rcases List.mem_cons.1 hb with rfl | hb
      · exact .inr fun x hx hx' => new a ‹a ∈ ys› x hx (eb ▸ hx')
      · exact h.rel a ha b hb
  · by_cases e : C.count o = .blk x
    · rw [cnt_cons_self e]
      have : x = c := by rw [hc] at e; cases e; rfl
      rw [this, hz]; omega
    · rw [cnt_cons_ne e]; exact h.cap x
  · by_cases hb' : b ∈ c :: ids (C.bufs o)
    · exact .inr ⟨o, List.mem_cons_self, eb ▸ hb'⟩
    · rw [f.old b hb'] at hl
      exact (h.live b hb hl).imp_right fun ⟨o1, h1, hb1⟩ => ⟨o1, List.mem_cons_of_mem _ h1, hb1⟩
  · obtain ⟨k1, k2⟩ := h.lost b hb
    have k3 : b ∉ c :: ids (C.bufs o) := fun h' => by
      have := Frame.lt_next h.wf k1
      have := (f.new b h').1
      omega
    refine ⟨by rw [f.old b k3, k1], fun o1 ho1 => ?_⟩
    rcases List.mem_cons.1 ho1 with rfl | ho1
    · rw [eb]; exact k3
    · exact k2 o1 ho1
  · exact f.old b (new o1 ho1 b (mem_blocks_bufs hb))
  · exact f.old b fun hb' => by have := (f.new b hb').1; omega

/-- A sole object gets more blocks. -/
theorem Inv.grow (h : Inv C n (o :: ys) K m) (hc : C.count o = .blk c) (hz : cnt C ys (.blk c) = 0) {L : List Nat} (f : Fresh m m' L)
    (e1 : C.count o' = C.count o) (e2 : (ids (C.bufs o')).Perm (L ++ ids (C.bufs o))) (hi : ∀ p ∈ C.bufs o', p = .indet → p ∈ C.bufs o) :
    Inv C n (o' :: ys) K m' ∧ Untouched C n (o :: ys) m m' := by
  have hle := h.le
  have hc' := e1.trans hc
  have new : ∀ o1 ∈ o :: ys, ∀ b ∈ blocks C o1, b ∉ L := fun o1 ho1 b hb hb' => by
    have := h.block_lt ho1 hb
    have := (f.new b hb').1
    omega
  have eb : ∀ b, b ∈ blocks C o' ↔ b ∈ L ∨ b ∈ blocks C o := fun b => by
    rw [blocks_eq hc', blocks_eq hc, List.mem_cons, e2.mem_iff, List.mem_append, List.mem_cons]
    constructor
    · rintro (h | h | h)
      · exact .inr (.inl h)
      · exact .inl h
      · exact .inr (.inr h)
    · rintro (h | h | h)
      · exact .inr (.inl h)
      · exact .inl h
      · exact .inr (.inr h)
  have disj : ∀ o1 ∈ ys, ∀ b ∈ blocks C o, b ∉ blocks C o1 := by
    intro o1 ho1
    rcases h.rel o List.mem_cons_self o1 (List.mem_cons_of_mem _ ho1) with ⟨e, -⟩ | hd
    · exact (cnt_zero hz o1 ho1 (e ▸ hc)).elim
    · exact hd
  have hcnt : ∀ p, cnt C (o' :: ys) p = cnt C (o :: ys) p := fun p => by simp [cnt, List.countP_cons, e1]
  refine ⟨⟨f.wf, Nat.le_trans h.le f.le, fun o1 ho1 => ?_, fun a ha b hb => ?_, fun c => by rw [hcnt]; exact h.cap c,
    fun b hb hl => ?_, fun b hb => ?_⟩, fun o1 ho1 b hb => ?_, fun b hb => ?_⟩
  · unfold Good
    simp only [hcnt]
    rcases List.mem_cons.1 ho1 with rfl | ho1
    · rcases h.obj o List.mem_cons_self with ⟨e, -⟩ | ⟨c1, e, hn1, hv1, nd1, hp1⟩
      · rw [hc] at e; cases e
      · rw [hc] at e; cases e
        obtain ⟨nc, nd⟩ := List.nodup_cons.1 nd1
        refine .inr ⟨c, hc', hn1, ?_, List.nodup_cons.2 ⟨?_, ?_⟩, fun p hp => ?_⟩
        · rw [f.old _ (new o List.mem_cons_self c (mem_blocks_count hc)), hv1]
        · rw [e2.mem_iff, List.mem_append]
          rintro (h' | h')
          · exact new o List.mem_cons_self c (mem_blocks_count hc) h'
          · exact nc h'
        · rw [e2.nodup_iff, List.nodup_append]
          exact ⟨f.nodup, nd, fun a ha b hb e => new o List.mem_cons_self b (mem_blocks_bufs hb) (e ▸ ha)⟩
        · cases p with
          | null => exact .inl rfl
          | indet =>
            rcases hp1 _ (hi _ hp rfl) with e | ⟨b, x, e, -⟩ <;> cases e
          | blk b =>
            rcases List.mem_append.1 (e2.mem_iff.1 (mem_ids.2 hp)) with hb | hb
            · obtain ⟨h2, x, hx⟩ := f.new b hb
              exact .inr ⟨b, x, rfl, by omega, hx⟩
            · rcases hp1 _ (mem_ids.1 hb) with e | ⟨b', x, e, hnb, hx⟩
              · cases e
              · cases e
                exact .inr ⟨b, x, rfl, hnb, by rw [f.old _ (new o List.mem_cons_self b (mem_blocks_bufs hb)), hx]⟩
    · have h1' : o1 ∈ o :: ys := List.mem_cons_of_mem _ ho1
      rcases h.obj o1 h1' with h0 | ⟨c1, f1, hn1, hv1, nd1, hp1⟩
      · exact .inl h0
      · refine .inr ⟨c1, f1, hn1, ?_, nd1, fun p hp => ?_⟩
        · rw [f.old _ (new o1 h1' c1 (mem_blocks_count f1)), hv1]
        · rcases hp1 p hp with h0 | ⟨b, x, rfl, hnb, hx⟩
          · exact .inl h0
          · exact .inr ⟨b, x, rfl, hnb, by rw [f.old _ (new o1 h1' b (mem_blocks_bufs (mem_ids.2 hp))), hx]⟩
  · rcases List.mem_cons.1 ha with rfl | ha
    · rcases List.mem_cons.1 hb with rfl | hb
      · exact .inl ⟨rfl, rfl⟩
      · refine .inr fun x hx hx' => ?_
        rcases (eb x).1 hx with hx | hx
        · exact new b (List.mem_cons_of_mem _ hb) x hx' hx
        · exact disj b hb x hx hx'
    · rcases List.mem_cons.1 hb with rfl | hb
      · refine .inr fun x hx hx' => ?_
        rcases (eb x).1 hx' with hx' | hx'
        · exact new a (List.mem_cons_of_mem _ ‹a ∈ ys›) x hx hx'
        · exact disj a ‹a ∈ ys› x hx' hx
      · exact h.rel a (List.mem_cons_of_mem _ ha) b (List.mem_cons_of_mem _ hb)
  · by_cases hb' : b ∈ L
    · exact .inr ⟨o', List.mem_cons_self, (eb b).2 (.inl hb')⟩
    · rw [f.old b hb'] at hl
      rcases h.live b hb hl with hk | ⟨o1, h1, hb1⟩
      · exact .inl hk
      · rcases List.mem_cons.1 h1 with rfl | h1
        · exact .inr ⟨o', List.mem_cons_self, (eb b).2 (.inr hb1)⟩
        · exact .inr ⟨o1, List.mem_cons_of_mem _ h1, hb1⟩
  · obtain ⟨k1, k2⟩ := h.lost b hb
    have k3 : b ∉ L := fun h' => by
      have := Frame.lt_next h.wf k1
      have := (f.new b h').1
      omega
    refine ⟨by rw [f.old b k3, k1], fun o1 ho1 => ?_⟩
    rcases List.mem_cons.1 ho1 with rfl | ho1
    · rw [eb, not_or]; exact ⟨k3, k2 o List.mem_cons_self⟩
    · exact k2 o1 (List.mem_cons_of_mem _ ho1)
  · exact f.old b (new o1 ho1 b (mem_blocks_bufs hb))
  · exact f.old b fun hb' => by have := (f.new b hb').1; omega

/-! ## The laws of a class -/

/-- What copying, moving, assigning and destroying do; `del`: the destructor releases the counter. -/
structure Lawful (C : Cls α ι κ) (ok : ι → Prop) (free : κ → α → Prop) (del : Bool) : Prop where
  make : ∀ {a : ι} {E m}, ok a → m.WF →
    (∃ o m' c, C.make a E m = .ok o m' ∧ C.count o = .blk c ∧ Fresh m m' (c :: ids (C.bufs o)) ∧ m'.blk c = some (ctr 1) ∧
      ∀ p ∈ C.bufs o, p ≠ .indet) ∨ (¬ E.MallocOK ∧ C.make a E m = .abort)
  attach : ∀ {k : κ} {o : α} {E m}, free k o → m.WF →
    (∃ o' m' L, C.attach k o E m = .ok o' m' ∧ C.count o' = C.count o ∧ Fresh m m' L ∧ (ids (C.bufs o')).Perm (L ++ ids (C.bufs o)) ∧
      ∀ p ∈ C.bufs o', p = .indet → p ∈ C.bufs o) ∨ (¬ E.MallocOK ∧ C.attach k o E m = .abort)
  copy : ∀ o, ∃ o', C.count o' = C.count o ∧ C.bufs o' = C.bufs o ∧ C.copy o = do incCount (C.count o); return o'
  move : ∀ o, ∃ o' old, C.count o' = C.count o ∧ C.bufs o' = C.bufs o ∧ C.count old = .null ∧ (∀ p ∈ C.bufs old, p = .null) ∧
    C.move o = return (o', old)
  assign : C.hasAssign = true → ∀ o r, ∃ o', C.count o' = C.count r ∧ C.bufs o' = C.bufs r ∧ C.assign o r = do
    let n ← decCount (C.count o)
    if n = 0 then rawFrees (C.bufs o)
    incCount (C.count r)
    return o'
  dtor : ∀ o, C.dtor o = do
    if C.count o ≠ .null then
      let n ← decCount (C.count o)
      if n = 0 then
        rawFrees (C.bufs o)
        if del then rawFree (C.count o)

theorem perm_cons_eraseIdx {i : Nat} : ∀ {xs : List α}, xs[i]? = some o → xs.Perm (o :: xs.eraseIdx i) := by
  induction i with
  | zero => intro xs h; cases xs with
    | nil => cases h
    | cons x xs => simp at h; subst h; exact .refl _
  | succ i ih => intro xs h; cases xs with
    | nil => cases h
    | cons x xs =>
      simp only [List.getElem?_cons_succ] at h
      exact ((ih h).cons x).trans (.swap _ _ _)

theorem perm_set {i : Nat} : ∀ {xs : List α}, xs[i]? = some o → (xs.set i o').Perm (o' :: xs.eraseIdx i) := by
  induction i with
  | zero => intro xs h; cases xs with
    | nil => cases h
    | cons x xs => exact .refl _
  | succ i ih => intro xs h; cases xs with
    | nil => cases h
    | cons x xs =>
      simp only [List.getElem?_cons_succ] at h
      exact ((ih h).cons x).trans (.swap _ _ _)

theorem mem_eraseIdx_of_ne {j : Nat} : ∀ {i : Nat} {xs : List α}, i ≠ j → xs[j]? = some r → r ∈ xs.eraseIdx i := by
  induction j with
  | zero => intro i xs hne h; cases xs with
    | nil => cases h
    | cons x xs =>
      simp at h; subst h
      cases i with
      | zero => exact (hne rfl).elim
      | succ i => simp
  | succ j ih => intro i xs hne h; cases xs with
    | nil => cases h
    | cons x xs =>
      simp only [List.getElem?_cons_succ] at h
      cases i with
      | zero => exact List.mem_of_getElem? h
      | succ i => exact List.mem_cons_of_mem _ (ih (by omega) h)

/-- The number of a counter. -/
theorem Inv.counter (h : Inv C n xs K m) (ho : o ∈ xs) (hc : C.count o = .blk c) : m.blk c = some (ctr (cnt C xs (.blk c))) := by
  rcases h.obj o ho with ⟨e, -⟩ | ⟨c', e, -, hv, -⟩
  · rw [hc] at e; cases e
  · rw [hc] at e; cases e; exact hv

/-- An object that has not been moved from has a counter. -/
theorem Inv.counted (h : Inv C n xs K m) (ho : o ∈ xs) (hc : C.count o ≠ .null) : ∃ c, C.count o = .blk c := by
  rcases h.obj o ho with ⟨e, -⟩ | ⟨c', e, -⟩
  · exact (hc e).elim
  · exact ⟨c', e⟩

/-- Giving up an object: count down, and release the buffers of the last one. -/
theorem Inv.release (h : Inv C n (o :: ys) K m) (hc : C.count o = .blk c) (del : Bool) :
    ∃ K' m', (do
        let n ← decCount (.blk c)
        if n = 0 then
          rawFrees (C.bufs o)
          if del then rawFree (.blk c) : M Unit) E m = .ok () m' ∧
      Inv C n ys K' m' ∧ K'.length ≤ K.length + (if del then 0 else 1) ∧ Untouched C n ys m m' := by
  have hv := h.counter List.mem_cons_self hc
  rw [cnt_cons_self hc] at hv
  have hle : cnt C ys (.blk c) ≤ 2147483647 := Nat.le_trans cnt_cons_le (h.cap c)
  have ed := decCount_run (E := E) hv (by omega) (by omega)
  have e1 : ((cnt C ys (.blk c) + 1 : Nat) : Int) - 1 = (cnt C ys (.blk c) : Nat) := by omega
  rw [e1] at ed
  by_cases hk : cnt C ys (.blk c) = 0
  · rcases h.obj o List.mem_cons_self with ⟨e, -⟩ | ⟨c', e, hn, -, nd, hp⟩
    · rw [hc] at e; cases e
    rw [hc] at e; cases e
    obtain ⟨nc, nd⟩ := List.nodup_cons.1 nd
    obtain ⟨m2, ef, hn2, hb2⟩ := rawFrees_ids (E := E) (C.bufs o) (m := m.set c (some (ctr (cnt C ys (.blk c) : Nat)))) nd fun p hp' => by
      rcases hp p hp' with h0 | ⟨b, x, rfl, -, hx⟩
      · exact .inl h0
      · exact .inr ⟨b, x, rfl, by rw [Mem.set_blk_ne _ _ (by rintro rfl; exact nc (mem_ids.2 hp')), hx]⟩
    have hz : ((cnt C ys (.blk c) : Nat) : Int) = 0 := by omega
    have hc2 : m2.blk c = some (ctr 0) := by rw [hb2, if_neg nc, ← hz]; simp [Mem.set, upd]
    cases del with
    | true =>
      obtain ⟨hi, hu⟩ := h.releaseLast (m' := m2.set c none) (K' := K) hc hk hn2
        (fun b hb => by
          rw [Mem.set_blk_ne _ _ (by rintro rfl; exact nc hb), hb2, if_pos hb])
        (fun b hb hne => by rw [Mem.set_blk_ne _ _ hne, hb2, if_neg hb, Mem.set_blk_ne _ _ hne])
        (.inl ⟨by simp [Mem.set, upd], rfl⟩)
      refine ⟨K, _, ?_, hi, by simp, hu⟩
      simp only [run_bind, ed, andThen_ok, hz, if_true]
      rw [← hz, ef]
      exact run_rawFree hc2 E
    | false =>
      obtain ⟨hi, hu⟩ := h.releaseLast (m' := m2) (K' := c :: K) hc hk hn2
        (fun b hb => by rw [hb2, if_pos hb])
        (fun b hb hne => by rw [hb2, if_neg hb, Mem.set_blk_ne _ _ hne])
        (.inr ⟨hc2, rfl⟩)
      refine ⟨_, m2, ?_, hi, by simp, hu⟩
      simp only [run_bind, ed, andThen_ok, hz, if_true]
      rw [← hz, ef]
      rfl
  · obtain ⟨hi, hu⟩ := h.releaseShared hc hk
    refine ⟨K, _, ?_, hi, by omega, hu⟩
    have hz : ((cnt C ys (.blk c) : Nat) : Int) ≠ 0 := by omega
    simp only [run_bind, ed, andThen_ok, if_neg hz]
    rfl

theorem Inv.intact (h : Inv C n xs K m) {xs' : List α} (hu : Untouched C n ys m m')
    (hs : ∀ o' ∈ xs', ∀ b ∈ ids (C.bufs o'), (∃ o ∈ ys, b ∈ ids (C.bufs o)) ∨ m.blk b = none) : Intact C xs m xs' m' := by
  intro o ho o' ho' b hb hb'
  rcases hs o' ho' b (mem_ids.2 hb') with ⟨y, hy, hyb⟩ | hn
  · exact hu.1 y hy b hyb
  · rcases h.obj o ho with ⟨-, hp⟩ | ⟨c, -, -, -, -, hp⟩
    · cases hp _ hb
    · rcases hp _ hb with e | ⟨b', x, e, -, hx⟩
      · cases e
      · cases e; rw [hn] at hx; cases hx

theorem mem_set {i : Nat} {x : α} (h : x ∈ xs.set i o') (hi : xs[i]? = some o) : x = o' ∨ x ∈ xs.eraseIdx i := by
  simpa using (perm_set hi).mem_iff.1 h

/-- What a step must do. -/
def StepOk (C : Cls α ι κ) (n : Nat) (xs : List α) (K : List Nat) (l : Nat) (E : Env) (m : Mem) (a : ObjAct ι κ) : Prop :=
  (∃ xs' K' m', a.run C xs E m = .ok xs' m' ∧ Moves C xs xs' a ∧ Intact C xs m xs' m' ∧ (∀ b, b < n → m'.blk b = m.blk b) ∧
    Inv C n xs' K' m' ∧ K'.length ≤ K.length + l) ∨
  (¬ E.MallocOK ∧ a.run C xs E m = .abort)

theorem Lawful.step_make {ok : ι → Prop} {free : κ → α → Prop} {del : Bool} (L : Lawful C ok free del) (h : Inv C n xs K m) (a : ι)
    (ha : ok a) : StepOk C n xs K 0 E m (.make a) := by
  rcases L.make (E := E) ha h.wf with ⟨o, m', c, e, hc, f, h1, hi⟩ | ⟨hE, e⟩
  · obtain ⟨h2, hu⟩ := h.add hc f h1 hi
    refine .inl ⟨o :: xs, K, m', ?_, ⟨o, rfl⟩, h.intact hu fun o' ho' b hb => ?_, hu.2, h2, by omega⟩
    · simp only [ObjAct.run, run_bind, e, andThen_ok]; rfl
    · rcases List.mem_cons.1 ho' with rfl | ho'
      · exact .inr (h.wf b (f.new b (List.mem_cons_of_mem _ hb)).1)
      · exact .inl ⟨o', ho', hb⟩
  · exact .inr ⟨hE, by simp only [ObjAct.run, run_bind, e]; rfl⟩

theorem Lawful.step_attach {ok : ι → Prop} {free : κ → α → Prop} {del : Bool} (L : Lawful C ok free del) (h : Inv C n xs K m) {k : κ}
    {i : Nat} (hi : xs[i]? = some o) (hn : C.count o ≠ .null) (hs : Sole C xs i o) (hf : free k o) :
    StepOk C n xs K 0 E m (.attach k i) := by
  rcases L.attach (E := E) hf h.wf with ⟨o', m', N, e, hc', f, hp, hq⟩ | ⟨hE, e⟩
  · have p := perm_cons_eraseIdx hi
    have hI := h.perm p
    obtain ⟨c, hc⟩ := hI.counted List.mem_cons_self hn
    have hz : cnt C (xs.eraseIdx i) (.blk c) = 0 := by
      refine Decidable.byContradiction fun hk => ?_
      obtain ⟨o1, ho1, e1⟩ := cnt_pos hk
      obtain ⟨j, hj⟩ := List.getElem?_of_mem ho1
      rw [List.getElem?_eraseIdx] at hj
      split at hj
      · have := hs j o1 hj (e1.trans hc.symm); omega
      · have := hs (j + 1) o1 hj (e1.trans hc.symm); omega
    obtain ⟨h2, hu⟩ := hI.grow hc hz f hc' hp hq
    refine .inl ⟨xs.set i o', K, m', ?_, ⟨o, o', hi, rfl, fun q hq1 hq2 => ?_⟩, h.intact hu fun x hx b hb => ?_, hu.2,
      h2.perm (perm_set hi).symm, by omega⟩
    · simp only [ObjAct.run, hi, run_bind, e, andThen_ok]; rfl
    · cases q with
      | null => exact (hq2 rfl).elim
      | indet =>
        rcases h.obj o (List.mem_of_getElem? hi) with ⟨-, hp⟩ | ⟨c, -, -, -, -, hp⟩
        · cases hp _ hq1
        · rcases hp _ hq1 with e | ⟨b', x, e, -⟩ <;> cases e
      | blk b => exact mem_ids.1 (hp.mem_iff.2 (List.mem_append.2 (.inr (mem_ids.2 hq1))))
    · rcases mem_set hx hi with rfl | hx
      · rcases List.mem_append.1 (hp.mem_iff.1 hb) with hb | hb
        · exact .inr (h.wf b (f.new b hb).1)
        · exact .inl ⟨o, List.mem_cons_self, hb⟩
      · exact .inl ⟨x, List.mem_cons_of_mem _ hx, hb⟩
  · exact .inr ⟨hE, by simp only [ObjAct.run, hi, run_bind, e]; rfl⟩

/-- Counting up. -/
theorem Inv.inc (h : Inv C n ys K m) (hr : r ∈ ys) (hc : C.count r = .blk c) (hcap : cnt C ys (.blk c) + 1 ≤ 2147483647) :
    incCount (.blk c) E m = .ok () (m.set c (some (ctr (cnt C ys (.blk c) + 1 : Nat)))) :=
  incCount_run (h.counter hr hc) (by omega) (by omega)

theorem Lawful.step_copy {ok : ι → Prop} {free : κ → α → Prop} {del : Bool} (L : Lawful C ok free del) (h : Inv C n xs K m)
    {i : Nat} (hi : xs[i]? = some o) (hn : C.count o ≠ .null) (hl : xs.length < 2147483647) : StepOk C n xs K 0 E m (.copy i) := by
  have ho := List.mem_of_getElem? hi
  obtain ⟨c, hc⟩ := h.counted ho hn
  obtain ⟨o', e1, e2, e⟩ := L.copy o
  have hcap : cnt C xs (.blk c) + 1 ≤ 2147483647 := by
    have : cnt C xs (.blk c) ≤ xs.length := cnt_le
    omega
  obtain ⟨h2, hu⟩ := h.acquire ho hc hcap e1 e2
  refine .inl ⟨o' :: xs, K, _, ?_, ⟨o, o', hi, rfl, e2⟩, h.intact hu fun x hx b hb => ?_, hu.2, h2, by omega⟩
  · simp only [ObjAct.run, hi, run_bind, e, hc, h.inc ho hc hcap, andThen_ok]; rfl
  · rcases List.mem_cons.1 hx with rfl | hx
    · exact .inl ⟨o, ho, e2 ▸ hb⟩
    · exact .inl ⟨x, hx, hb⟩

theorem Lawful.step_move {ok : ι → Prop} {free : κ → α → Prop} {del : Bool} (L : Lawful C ok free del) (h : Inv C n xs K m)
    {i : Nat} (hi : xs[i]? = some o) : StepOk C n xs K 0 E m (.move i) := by
  obtain ⟨o', old, e1, e2, e3, e4, e⟩ := L.move o
  have h1 := ((Inv.null e3 e4).2 ((h.perm (perm_cons_eraseIdx hi)).replace e1 e2)).perm (.swap _ _ _)
  refine .inl ⟨o' :: xs.set i old, K, m, ?_, ⟨o, o', old, hi, rfl, e2, e4⟩, fun _ _ _ _ _ _ _ => rfl, fun _ _ => rfl,
    h1.perm ((perm_set hi).symm.cons _), by omega⟩
  simp only [ObjAct.run, hi, run_bind, e]; rfl

theorem Lawful.step_destroy {ok : ι → Prop} {free : κ → α → Prop} {del : Bool} (L : Lawful C ok free del) (h : Inv C n xs K m)
    {i : Nat} (hi : xs[i]? = some o) : StepOk C n xs K (if del then 0 else 1) E m (.destroy i) := by
  have hI := h.perm (perm_cons_eraseIdx hi)
  have e := L.dtor o
  by_cases hn : C.count o = .null
  · refine .inl ⟨xs.eraseIdx i, K, m, ?_, rfl, fun _ _ _ _ _ _ _ => rfl, fun _ _ => rfl, ?_, by omega⟩
    · simp only [ObjAct.run, hi, run_bind, e, hn]; rfl
    · rcases hI.obj o List.mem_cons_self with ⟨e1, e2⟩ | ⟨c, e1, -⟩
      · exact (Inv.null e1 e2).1 hI
      · rw [hn] at e1; cases e1
  · obtain ⟨c, hc⟩ := hI.counted List.mem_cons_self hn
    obtain ⟨K', m', er, h2, hk, hu⟩ := hI.release (E := E) hc del
    refine .inl ⟨xs.eraseIdx i, K', m', ?_, rfl, h.intact hu fun x hx b hb => .inl ⟨x, hx, hb⟩, hu.2, h2, hk⟩
    rw [if_pos hn, hc] at e
    simp only [ObjAct.run, hi]
    rw [run_bind, e, er]; rfl

theorem Lawful.step_assign {ok : ι → Prop} {free : κ → α → Prop} {del : Bool} (L : Lawful C ok free del) (h : Inv C n xs K m)
    {i j : Nat} (ha : C.hasAssign = true) (hi : xs[i]? = some o) (hj : xs[j]? = some r) (hn : C.count o ≠ .null) (hnr : C.count r ≠ .null)
    (hl : xs.length ≤ 2147483647) (hd : i ≠ j ∨ ¬ Sole C xs i o) : StepOk C n xs K 1 E m (.assign i j) := by
  have hI := h.perm (perm_cons_eraseIdx hi)
  have hrx := List.mem_of_getElem? hj
  obtain ⟨c, hc⟩ := hI.counted List.mem_cons_self hn
  obtain ⟨cr, hcr⟩ := h.counted hrx hnr
  obtain ⟨o', e1, e2, e⟩ := L.assign ha o r
  have hex : ∃ r' ∈ xs.eraseIdx i, C.count r' = .blk cr ∧ C.bufs r' = C.bufs r := by
    by_cases hij : i = j
    · obtain ⟨k, o1, hk, hck, hne⟩ : ∃ k o1, xs[k]? = some o1 ∧ C.count o1 = C.count o ∧ k ≠ i := by
        rcases hd with hd | hd
        · exact (hd hij).elim
        · unfold Sole at hd
          simp only [Classical.not_forall] at hd
          obtain ⟨k, o1, hk, hck, hne⟩ := hd
          exact ⟨k, o1, hk, hck, hne⟩
      subst hij
      have : o = r := by rw [hi] at hj; cases hj; rfl
      subst this
      refine ⟨o1, mem_eraseIdx_of_ne (j := k) (Ne.symm hne) hk, hck.trans hcr, ?_⟩
      exact h.same (List.mem_of_getElem? hk) hrx (hck.trans hcr) hcr
    · exact ⟨r, mem_eraseIdx_of_ne hij hj, hcr, rfl⟩
  obtain ⟨r', hr', hcr', hbr'⟩ := hex
  obtain ⟨K', m1, er, h2, hk, hu⟩ := hI.release (E := E) hc false
  have hcap : cnt C (xs.eraseIdx i) (.blk cr) + 1 ≤ 2147483647 := by
    have h3 : cnt C (xs.eraseIdx i) (.blk cr) ≤ (xs.eraseIdx i).length := cnt_le
    have h4 := (perm_cons_eraseIdx hi).length_eq
    simp only [List.length_cons] at h4
    omega
  obtain ⟨h5, hu2⟩ := h2.acquire (o := o') hr' hcr' hcap (by rw [e1, hcr, hcr']) (by rw [e2, hbr'])
  have hu3 : Untouched C n (xs.eraseIdx i) m (m1.set cr (some (ctr (cnt C (xs.eraseIdx i) (.blk cr) + 1 : Nat)))) :=
    ⟨fun x hx b hb => (hu2.1 x hx b hb).trans (hu.1 x hx b hb), fun b hb => (hu2.2 b hb).trans (hu.2 b hb)⟩
  refine .inl ⟨xs.set i o', K', _, ?_, ⟨r, o', hj, rfl, e2⟩, h.intact hu3 fun x hx b hb => .inl ?_, hu3.2, h5.perm (perm_set hi).symm, hk⟩
  · simp only [ObjAct.run, hi, hj]
    rw [run_bind, e, hc, hcr]
    have er' : (do
        let n ← decCount (.blk c)
        if n = 0 then rawFrees (C.bufs o)
        incCount (.blk cr)
        return o' : M α) E m = ((do
        let n ← decCount (.blk c)
        if n = 0 then
          rawFrees (C.bufs o)
          if false then rawFree (.blk c) : M Unit) E m).andThen fun _ m => (do incCount (.blk cr); return o' : M α) E m := by
      rw [run_bind, run_bind]
      cases decCount (.blk c) E m with
      | ok v m2 =>
        simp only [andThen_ok]
        by_cases hv : v = 0
        · simp only [if_pos hv]
          rw [run_bind, run_bind]
          cases rawFrees (C.bufs o) E m2 <;> rfl
        · simp only [if_neg hv]; rfl
      | _ => rfl
    rw [er', er]
    simp only [andThen_ok, run_bind, h2.inc (E := E) hr' hcr' hcap]
    rfl
  · rcases mem_set hx hi with rfl | hx
    · exact ⟨r', hr', by rw [hbr', ← e2]; exact hb⟩
    · exact ⟨x, hx, hb⟩

/-- How many counters a step may leave behind. -/
def leaks (del : Bool) : ObjAct ι κ → Nat
  | .assign _ _ => 1
  | .destroy _ => if del then 0 else 1
  | _ => 0

theorem Lawful.step {ok : ι → Prop} {free : κ → α → Prop} {del : Bool} (L : Lawful C ok free del) (h : Inv C n xs K m) (a : ObjAct ι κ)
    (ha : Legal C ok free xs a) : StepOk C n xs K (leaks del a) E m a := by
  cases a with
  | make a => exact L.step_make h a ha
  | attach k i => obtain ⟨o, hi, hn, hs, hf⟩ := ha; exact L.step_attach h hi hn hs hf
  | copy i => obtain ⟨o, hi, hn, hl⟩ := ha; exact L.step_copy h hi hn hl
  | move i => obtain ⟨o, hi⟩ := ha; exact L.step_move h hi
  | assign i j => obtain ⟨hs, o, r, hi, hj, hn, hnr, hl, hd⟩ := ha; exact L.step_assign h hs hi hj hn hnr hl hd
  | destroy i => obtain ⟨o, hi⟩ := ha; exact L.step_destroy h hi

theorem Inv.tidy (h : Inv C n xs K m) {l : Nat} (hl : K.length ≤ l) : Tidy C n xs l m := by
  refine ⟨fun o ho p hp => ?_, K, hl, fun b hb => (h.lost b hb).1, fun b hb hn => (h.live b hb hn).imp_right fun ⟨o, ho, hb⟩ => ⟨o, ho, ?_⟩⟩
  · rcases h.obj o ho with ⟨-, h0⟩ | ⟨c, -, -, -, -, h0⟩
    · exact .inl (h0 p hp)
    · exact h0 p hp
  · rcases List.mem_cons.1 (mem_ids.1 hb) with e | e
    · exact .inr e.symm
    · exact .inl e

theorem Lawful.safe {ok : ι → Prop} {free : κ → α → Prop} {del : Bool} (L : Lawful C ok free del) : ∀ (k : Nat) {xs : List α}
    {K : List Nat} {l : Nat} {m : Mem}, Inv C n xs K m → K.length ≤ l → ObjSafe C ok free (leaks del) E n k xs l m
  | 0, _, _, _, _, h, hl => h.tidy hl
  | k + 1, _, _, _, _, h, hl => ⟨h.tidy hl, fun a ha => by
    rcases L.step (E := E) h a ha with ⟨xs', K', m', e, hm, hi, hb, h', hk⟩ | hE
    · exact .inl ⟨xs', m', e, hm, hi, hb, L.safe k h' (by omega)⟩
    · exact .inr hE⟩

theorem Inv.start (hw : m.WF) : Inv C m.next [] [] m :=
  ⟨hw, Nat.le_refl _, fun _ h => (by cases h), fun _ h => (by cases h), fun c => by simp [cnt], fun b hb hn => (hn (hw b hb)).elim,
    fun _ h => (by cases h)⟩

end Aitisa
