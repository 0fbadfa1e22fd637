import Verif.Proof.Squeeze

/-! # Temporary blocks -/

namespace Aitisa

variable {E : Env} {m m1 m' : Mem} {R : Foot} {T : TV} {L K : List Nat} {n : Nat} {b : Body}

theorem free_drop (h : m.blk n = some ⟨.own, b⟩) (hn : n ∉ K) :
    rawFree (.blk n) E (m.drop K) = .ok () (m.drop (n :: K)) := by
  rw [run_rawFree (b := b) (by rw [Mem.drop_blk, if_neg hn]; exact h)]
  congr 1
  refine Mem.ext' rfl rfl rfl fun k => ?_
  simp only [Mem.set_blk, Mem.drop_blk, List.mem_cons]
  by_cases h1 : k = n <;> by_cases h2 : k ∈ K <;> simp [h1, h2]

theorem free_first (h : m.blk n = some ⟨.own, b⟩) : rawFree (.blk n) E m = .ok () (m.drop [n]) := by
  have := free_drop (E := E) (K := []) h (by simp)
  rwa [show m.drop [] = m from by simp [Mem.drop]] at this

theorem cfree_drop (h : m.blk n = some ⟨.malloc, b⟩) (hn : n ∉ K) :
    cFree (.blk n) E (m.drop K) = .ok () (m.drop (n :: K)) := by
  rw [run_cFree (b := b) (by rw [Mem.drop_blk, if_neg hn]; exact h)]
  congr 1
  refine Mem.ext' rfl rfl rfl fun k => ?_
  simp only [Mem.set_blk, Mem.drop_blk, List.mem_cons]
  by_cases h1 : k = n <;> by_cases h2 : k ∈ K <;> simp [h1, h2]

theorem cfree_first (h : m.blk n = some ⟨.malloc, b⟩) : cFree (.blk n) E m = .ok () (m.drop [n]) := by
  have := cfree_drop (E := E) (K := []) h (by simp)
  rwa [show m.drop [] = m from by simp [Mem.drop]] at this

/-- A tensor produced while temporaries existed that are freed by the end. -/
theorem Produces.temps (x : Ext m m1 L) (P : Produces m1 m' R T) (hK : ∀ b ∈ K, m.next ≤ b ∧ b < m1.next)
    (hL : ∀ b ∈ L, m1.blk b ≠ none → b ∈ K) : Produces m (m'.drop K) R T where
  ext :=
    { next := Nat.le_trans x.next P.ext.next
      same := fun y hy => by
        rw [Mem.drop_blk, if_neg (fun h => by have := (hK y h).1; omega),
          P.ext.same y (Nat.lt_of_lt_of_le hy x.next), x.same y hy]
      wf := fun y hy => by
        rw [Mem.drop_blk]; split
        · rfl
        · exact P.wf y hy
      live := fun y hy hn => by
        rw [Mem.drop_blk] at hn
        by_cases hk : y ∈ K
        · rw [if_pos hk] at hn; exact absurd rfl hn
        · rw [if_neg hk] at hn
          by_cases hlt : y < m1.next
          · rw [P.ext.same y hlt] at hn
            exact absurd (hL y (x.live y hy hn) hn) hk
          · exact P.ext.live y (by omega) hn }
  tensor := P.tensor.drop_ne fun y hy hk => by
    have := P.fresh y hy
    have := (hK y hk).2
    omega
  fresh y hy := Nat.le_trans x.next (P.fresh y hy)

theorem Frame.dropTemps (x : Frame m m') (hK : ∀ b ∈ K, m.next ≤ b) : Frame m (m'.drop K) where
  next := x.next
  same y hy := by
    rw [Mem.drop_blk, if_neg (fun h => by have := hK y h; omega), x.same y hy]

theorem Mem.WF.drop (h : m.WF) (K : List Nat) : (m.drop K).WF := by
  intro y hy
  rw [Mem.drop_blk]; split
  · rfl
  · exact h y hy

/-- After a push the pushed block is live in every later frame. -/
theorem Frame.push_live (f : Frame (m.push b) m') : m'.blk m.next = some ⟨.own, b⟩ := f.kept

/-- A tensor has been produced, and the temporaries `L` are still around. -/
structure Holds (m m' : Mem) (R : Foot) (T : TV) (L : List Nat) : Prop where
  ext : Ext m m' (R.list ++ L)
  tensor : At m' R T
  fresh : ∀ b ∈ R.list, m.next ≤ b
  temps : ∀ b ∈ L, m.next ≤ b ∧ b ∉ R.list

theorem Produces.holds (P : Produces m m' R T) : Holds m m' R T [] :=
  ⟨by simpa using P.ext, P.tensor, P.fresh, by simp⟩

theorem Holds.push (h : Holds m m' R T L) (b : Body) : Holds m (m'.push b) R T (m'.next :: L) where
  ext := (h.ext.push b).mono (by intro x _ _ hx; simp at hx ⊢; rcases hx with h | h | h <;> simp [h])
  tensor := h.tensor.push h.ext.wf b
  fresh := h.fresh
  temps x hx := by
    rcases List.mem_cons.1 hx with rfl | hx
    · exact ⟨h.ext.next, fun hr => by have := h.tensor.lt h.ext.wf hr; omega⟩
    · exact h.temps x hx

theorem Holds.pushC (h : Holds m m' R T L) (b : Body) : Holds m (m'.pushC b) R T (m'.next :: L) where
  ext := (h.ext.pushC b).mono (by intro x _ _ hx; simp at hx ⊢; rcases hx with h | h | h <;> simp [h])
  tensor := h.tensor.pushC h.ext.wf b
  fresh := h.fresh
  temps x hx := by
    rcases List.mem_cons.1 hx with rfl | hx
    · exact ⟨h.ext.next, fun hr => by have := h.tensor.lt h.ext.wf hr; omega⟩
    · exact h.temps x hx

theorem Holds.setData (h : Holds m m' R T L) {bs : List Byte} (hl : bs.length = T.bytes.length) :
    Holds m (m'.set R.p (some ⟨.own, .bytes bs⟩)) R { T with bytes := bs } L where
  ext := h.ext.set (h.fresh _ (by simp [mem_foot])) h.tensor.data _
  tensor := h.tensor.setData hl
  fresh := h.fresh
  temps := h.temps

theorem Holds.done (h : Holds m m' R T L) (hK : ∀ b ∈ L, b ∈ K) (hK' : ∀ b ∈ K, b ∈ L) : Produces m (m'.drop K) R T where
  ext := (h.ext.drop (K := K) fun b hb => (h.temps b (hK' b hb)).1).mono fun x hx hn hm => by
    have hk : x ∉ K := by
      intro hk
      rw [Mem.drop_blk, if_pos hk] at hn; exact hn rfl
    simp at hm
    rcases hm with h | h
    · exact h.1
    · exact absurd (hK x h.1) hk
  tensor := h.tensor.drop_ne fun b hb hk => (h.temps b (hK' b hk)).2 hb
  fresh := h.fresh

/-- A scratch allocation. -/
theorem scratch_any (n : Int) (k : Nat) (E : Env) {m : Mem} (wf : m.WF) : ∃ p m', scratch n k E m = .ok p m' ∧ Frame m m' ∧
    m'.WF ∧ ((p = .null ∧ ¬ E.NoFail) ∨ (p = .blk m.next ∧ ∃ b, m' = m.push b)) := by
  rcases scratch_run n k E m with ⟨b, e⟩ | ⟨e, nf⟩
  · exact ⟨_, _, e, Frame.push _ _, wf.push b, .inr ⟨rfl, b, rfl⟩⟩
  · exact ⟨_, _, e, Frame.miss _, wf.miss, .inl ⟨rfl, nf⟩⟩

/-- Three scratch allocations in a row. -/
theorem scratch3_run (n : Int) (k : Nat) (E : Env) {m : Mem} (wf : m.WF) :
    (∃ b1 b2 b3, scratch n k E m = .ok (.blk m.next) (m.push b1) ∧
      scratch n k E (m.push b1) = .ok (.blk (m.next + 1)) ((m.push b1).push b2) ∧
      scratch n k E ((m.push b1).push b2) = .ok (.blk (m.next + 2)) (((m.push b1).push b2).push b3)) ∨
    (∃ p1 p2 p3 m1 m2 m3, scratch n k E m = .ok p1 m1 ∧ scratch n k E m1 = .ok p2 m2 ∧ scratch n k E m2 = .ok p3 m3 ∧
      (p1 = .null ∨ p2 = .null ∨ p3 = .null) ∧ Frame m m3 ∧ m3.WF ∧ ¬ E.NoFail) := by
  obtain ⟨p1, m1, e1, f1, w1, c1⟩ := scratch_any n k E wf
  obtain ⟨p2, m2, e2, f2, w2, c2⟩ := scratch_any n k E w1
  obtain ⟨p3, m3, e3, f3, w3, c3⟩ := scratch_any n k E w2
  have f := (f1.trans f2).trans f3
  rcases c1 with ⟨h1, nf⟩ | ⟨rfl, b1, rfl⟩
  · exact .inr ⟨p1, p2, p3, m1, m2, m3, e1, e2, e3, .inl h1, f, w3, nf⟩
  · rcases c2 with ⟨h2, nf⟩ | ⟨rfl, b2, rfl⟩
    · exact .inr ⟨_, p2, p3, _, m2, m3, e1, e2, e3, .inr (.inl h2), f, w3, nf⟩
    · rcases c3 with ⟨h3, nf⟩ | ⟨rfl, b3, rfl⟩
      · exact .inr ⟨_, _, p3, _, _, m3, e1, e2, e3, .inr (.inr h3), f, w3, nf⟩
      · exact .inl ⟨b1, b2, b3, e1, e2, e3⟩

end Aitisa
