import Verif.Proof.Core

/-! # Well-formed tensors: accessors, destruction, framing, creation from caller data -/

namespace Aitisa

variable {m m' : Mem} {R : Foot} {T : TV} {E : Env}

/-! ### Accessors -/

theorem At.derefT (h : At m R T) : derefT R.h E m = .ok
    ⟨prod T.dims, 0, T.dims.length, optPtr R.d, .dense, optPtr R.l, .blk R.s⟩ m :=
  run_derefT h.tensor E

theorem At.derefS (h : At m R T) : Aitisa.derefS (.blk R.s) E m = .ok
    ⟨T.dtype, T.device, prod T.dims, .blk R.p⟩ m :=
  run_derefS h.storage E

theorem At.derefB (h : At m R T) : Aitisa.derefB (.blk R.p) E m = .ok T.bytes m :=
  run_derefB h.data E

theorem At.tNdim (h : At m R T) : tNdim R.h E m = .ok (T.dims.length : Int) m := by
  unfold Aitisa.tNdim; msimp [h.derefT]

theorem At.tSize (h : At m R T) : tSize R.h E m = .ok (prod T.dims : Int) m := by
  unfold Aitisa.tSize; msimp [h.derefT]

theorem At.tDims (h : At m R T) : tDims R.h E m = .ok (optPtr R.d) m := by
  unfold Aitisa.tDims; msimp [h.derefT]

theorem At.tDtype (h : At m R T) : tDtype R.h E m = .ok T.dtype m := by
  unfold Aitisa.tDtype; msimp [h.derefT, h.derefS]

theorem At.tDevice (h : At m R T) : tDevice R.h E m = .ok T.device m := by
  unfold Aitisa.tDevice; msimp [h.derefT, h.derefS]

theorem At.tData (h : At m R T) : tData R.h E m = .ok (.blk R.p) m := by
  unfold Aitisa.tData; msimp [h.derefT, h.derefS]

theorem At.tDim (h : At m R T) {i : Nat} (hi : i < T.dims.length) :
    tDim R.h i E m = .ok (T.dims[i] : Int) m := by
  unfold Aitisa.tDim
  rcases h.dims with ⟨h0, _⟩ | ⟨d, _, hd, hb⟩
  · simp [h0] at hi
  · msimp [h.tDims, hd, optPtr]
    exact run_loadI hb (dimsCells_get hi) E

theorem At.tDimsArr (h : At m R T) : tDimsArr R.h E m = .ok (dimsCells T.dims) m := by
  unfold Aitisa.tDimsArr
  rcases h.dims with ⟨h0, hd⟩ | ⟨d, _, hd, hb⟩
  · msimp [h.tDims, hd, optPtr, h0]; rfl
  · msimp [h.tDims, hd, optPtr]
    exact run_derefI hb E

theorem At.loadDim (h : At m R T) {i : Nat} (hi : i < T.dims.length) :
    loadI (optPtr R.d) i E m = .ok (T.dims[i] : Int) m := by
  rcases h.dims with ⟨h0, _⟩ | ⟨d, _, hd, hb⟩
  · simp [h0] at hi
  · rw [hd]; exact run_loadI hb (dimsCells_get hi) E

/-! ### Footprints and frames -/

theorem mem_foot {R : Foot} {b : Nat} :
    b ∈ R.list ↔ b = R.t ∨ b = R.s ∨ b = R.p ∨ R.d = some b ∨ R.l = some b := by
  simp [Foot.list, eq_comm (a := b)]

theorem At.live (h : At m R T) {b : Nat} (hb : b ∈ R.list) : ∃ k, m.blk b = some ⟨.own, k⟩ := by
  rw [mem_foot] at hb
  rcases hb with rfl | rfl | rfl | hb | hb
  · exact ⟨_, h.tensor⟩
  · exact ⟨_, h.storage⟩
  · exact ⟨_, h.data⟩
  · rcases h.dims with ⟨_, hd⟩ | ⟨d, _, hd, hd'⟩
    · simp [hd] at hb
    · rw [hd] at hb; cases hb; exact ⟨_, hd'⟩
  · rcases h.layout with ⟨_, hd⟩ | ⟨d, _, hd, hd'⟩
    · simp [hd] at hb
    · rw [hd] at hb; cases hb; exact ⟨_, hd'⟩

theorem At.lt (h : At m R T) (wf : m.WF) {b : Nat} (hb : b ∈ R.list) : b < m.next := by
  obtain ⟨k, hk⟩ := h.live hb
  exact Frame.lt_next wf hk

/-- A tensor depends only on its own blocks. -/
theorem At.congr (h : At m R T) (hs : ∀ b ∈ R.list, m'.blk b = m.blk b) : At m' R T where
  tensor := by rw [hs _ (by simp [mem_foot])]; exact h.tensor
  storage := by rw [hs _ (by simp [mem_foot])]; exact h.storage
  data := by rw [hs _ (by simp [mem_foot])]; exact h.data
  dims := by
    rcases h.dims with hd | ⟨d, h1, h2, h3⟩
    · exact .inl hd
    · exact .inr ⟨d, h1, h2, by rw [hs _ (by simp [mem_foot, h2])]; exact h3⟩
  layout := by
    rcases h.layout with hd | ⟨d, h1, h2, h3⟩
    · exact .inl hd
    · exact .inr ⟨d, h1, h2, by rw [hs _ (by simp [mem_foot, h2])]; exact h3⟩
  nodup := h.nodup
  len := h.len
  shape := h.shape

theorem At.frame (h : At m R T) (wf : m.WF) (f : Frame m m') : At m' R T :=
  h.congr fun _ hb => f.same _ (h.lt wf hb)

theorem At.push (h : At m R T) (wf : m.WF) (b : Body) : At (m.push b) R T :=
  h.frame wf ((Ext.refl wf).push b).toFrame

theorem At.pushC (h : At m R T) (wf : m.WF) (b : Body) : At (m.pushC b) R T :=
  h.frame wf ((Ext.refl wf).pushC b).toFrame

theorem At.set_ne (h : At m R T) {n : Nat} (hn : n ∉ R.list) (b) : At (m.set n b) R T :=
  h.congr fun k hk => Mem.set_blk_ne _ _ (by rintro rfl; exact hn hk)

theorem nodup_foot {R : Foot} (h : R.list.Nodup) :
    R.t ≠ R.s ∧ R.t ≠ R.p ∧ R.s ≠ R.p ∧
    (∀ d, R.d = some d → d ≠ R.t ∧ d ≠ R.s ∧ d ≠ R.p) ∧
    (∀ l, R.l = some l → l ≠ R.t ∧ l ≠ R.s ∧ l ≠ R.p) ∧
    (∀ d l, R.d = some d → R.l = some l → d ≠ l) := by
  obtain ⟨t, s, p, d, l⟩ := R
  cases d <;> cases l <;> simp [Foot.list] at h ⊢ <;> omega

/-- Memory with the data block of a tensor replaced. -/
theorem At.setData (h : At m R T) {bs : List Byte} (hl : bs.length = T.bytes.length) :
    At (m.set R.p (some ⟨.own, .bytes bs⟩)) R { T with bytes := bs } where
  tensor := by rw [Mem.set_blk_ne _ _ (nodup_foot h.nodup).2.1]; exact h.tensor
  storage := by rw [Mem.set_blk_ne _ _ (nodup_foot h.nodup).2.2.1]; exact h.storage
  data := by simp
  dims := by
    rcases h.dims with hd | ⟨d, h1, h2, h3⟩
    · exact .inl hd
    · exact .inr ⟨d, h1, h2, by
        rw [Mem.set_blk_ne _ _ ((nodup_foot h.nodup).2.2.2.1 d h2).2.2]; exact h3⟩
  layout := by
    rcases h.layout with hd | ⟨d, h1, h2, h3⟩
    · exact .inl hd
    · exact .inr ⟨d, h1, h2, by
        rw [Mem.set_blk_ne _ _ ((nodup_foot h.nodup).2.2.2.2.1 d h2).2.2]; exact h3⟩
  nodup := h.nodup
  len := by simp [hl, h.len]
  shape := h.shape

theorem Produces.setData (h : Produces m m' R T) {bs : List Byte} (hl : bs.length = T.bytes.length) :
    Produces m (m'.set R.p (some ⟨.own, .bytes bs⟩)) R { T with bytes := bs } where
  ext := h.ext.set (h.fresh _ (by simp [mem_foot])) h.tensor.data _
  tensor := h.tensor.setData hl
  fresh := h.fresh

/-- Two memories with the same blocks outside `L`, nothing in `L`. -/
def Mem.drop (m : Mem) (L : List Nat) : Mem :=
  { m with blk := fun b => if b ∈ L then none else m.blk b }

@[simp] theorem Mem.drop_next (m : Mem) (L) : (m.drop L).next = m.next := (rfl)
@[simp] theorem Mem.drop_tick (m : Mem) (L) : (m.drop L).tick = m.tick := (rfl)
@[simp] theorem Mem.drop_rtick (m : Mem) (L) : (m.drop L).rtick = m.rtick := (rfl)
theorem Mem.drop_blk (m : Mem) (L : List Nat) (b : Nat) :
    (m.drop L).blk b = if b ∈ L then none else m.blk b := (rfl)

theorem Mem.ext' {a b : Mem} (h1 : a.next = b.next) (h2 : a.tick = b.tick) (h3 : a.rtick = b.rtick)
    (h4 : ∀ k, a.blk k = b.blk k) : a = b := by
  cases a; cases b; simp at *; exact ⟨h1, h2, h3, funext h4⟩

/-! ### Destruction -/

theorem destroyShape_run (h : At m R T) : ∃ m1, destroyShape R.h E m = .ok () m1 ∧
    m1.next = m.next ∧ m1.tick = m.tick ∧ m1.rtick = m.rtick ∧
    m1.blk R.t = some ⟨.own, .tensor ⟨prod T.dims, 0, T.dims.length, .null, .dense, .null, .blk R.s⟩⟩ ∧
    ∀ b, b ≠ R.t → m1.blk b = if b ∈ R.d.toList ++ R.l.toList then none else m.blk b := by
  obtain ⟨hts, htp, hsp, hd, hl, hdl⟩ := nodup_foot h.nodup
  rcases h.dims with ⟨h0, hd0⟩ | ⟨d, h0, hd0, hd1⟩
  · have hl0 : R.l = none := by
      rcases h.layout with hh | ⟨l, hh, _⟩
      · exact hh.2
      · exact absurd h0 hh
    refine ⟨m, ?_, rfl, rfl, rfl, ?_, ?_⟩
    · unfold destroyShape; msimp [h.derefT, hd0, hl0, optPtr]
    · rw [h.tensor, hd0, hl0]; rfl
    · intro b _; simp [hd0, hl0]
  · rcases h.layout with ⟨hh, _⟩ | ⟨l, _, hl0, hl1⟩
    · exact absurd hh h0
    obtain ⟨a1, a2, a3⟩ := hd d hd0
    obtain ⟨b1, b2, b3⟩ := hl l hl0
    have b4 := hdl d l hd0 hl0
    have ht := h.tensor
    rw [hd0, hl0] at ht
    simp only [optPtr] at ht
    have ht1 : (m.set d none).blk R.t = some ⟨.own, .tensor
        ⟨prod T.dims, 0, T.dims.length, .blk d, .dense, .blk l, .blk R.s⟩⟩ := by
      rw [Mem.set_blk_ne _ _ a1.symm]; exact ht
    have ex : destroyShape R.h E m = .ok () ((((m.set d none).set R.t
        (some ⟨.own, .tensor ⟨prod T.dims, 0, T.dims.length, .null, .dense, .blk l, .blk R.s⟩⟩)).set l none).set R.t
        (some ⟨.own, .tensor ⟨prod T.dims, 0, T.dims.length, .null, .dense, .null, .blk R.s⟩⟩)) := by
      unfold destroyShape
      msimp [Foot.h, run_derefT ht, run_rawFree hd1, run_putBody ht1, run_derefT (Mem.set_blk_same _ _ _)]
      rw [run_rawFree (b := .i64s (defaultMin2maj T.dims.length))
        (by rw [Mem.set_blk_ne _ _ b1, Mem.set_blk_ne _ _ b4.symm]; exact hl1)]
      simp only [andThen_ok]
      rw [run_putBody (k := ⟨.own, .tensor ⟨prod T.dims, 0, T.dims.length, .null, .dense, .blk l, .blk R.s⟩⟩)
        (by rw [Mem.set_blk_ne _ _ b1.symm]; simp)]
    refine ⟨_, ex, rfl, rfl, rfl, by simp, ?_⟩
    intro b hb
    simp only [Mem.set_blk, hb, hd0, hl0]
    by_cases hbd : b = d <;> by_cases hbl : b = l <;> simp [hbd, hbl]

theorem destroy_run (h : At m R T) :
    destroy R.h E m = .ok (.success, .null) (m.drop R.list) := by
  obtain ⟨hts, htp, hsp, hd, hl, hdl⟩ := nodup_foot h.nodup
  obtain ⟨m1, r1, n1, t1, rt1, bt, hb⟩ := destroyShape_run (E := E) h
  have bs : m1.blk R.s = some ⟨.own, .storage ⟨T.dtype, T.device, prod T.dims, .blk R.p⟩⟩ := by
    rw [hb _ hts.symm, if_neg]
    · exact h.storage
    · intro hm
      simp only [List.mem_append, Option.mem_toList] at hm
      rcases hm with hm | hm
      · exact (hd _ hm).2.1 rfl
      · exact (hl _ hm).2.1 rfl
  have bp : m1.blk R.p = some ⟨.own, .bytes T.bytes⟩ := by
    rw [hb _ htp.symm, if_neg]
    · exact h.data
    · intro hm
      simp only [List.mem_append, Option.mem_toList] at hm
      rcases hm with hm | hm
      · exact (hd _ hm).2.2 rfl
      · exact (hl _ hm).2.2 rfl
  have key : destroyStorage R.h E m1 = .ok () (((m1.set R.p none).set R.s none).set R.t
      (some ⟨.own, .tensor ⟨prod T.dims, 0, T.dims.length, .null, .dense, .null, .null⟩⟩)) := by
    unfold destroyStorage
    have bs' : (m1.set R.p none).blk R.s =
        some ⟨.own, .storage ⟨T.dtype, T.device, prod T.dims, .blk R.p⟩⟩ := by
      rw [Mem.set_blk_ne _ _ hsp]; exact bs
    msimp [Foot.h, run_derefT bt, run_derefS bs, run_rawFree bp, run_putBody bs']
    rw [run_rawFree (Mem.set_blk_same _ _ _)]
    simp only [andThen_ok, Mem.set_set]
    rw [run_putBody (k := ⟨.own, .tensor ⟨prod T.dims, 0, T.dims.length, .null, .dense, .null, .blk R.s⟩⟩)
      (by rw [Mem.set_blk_ne _ _ hts, Mem.set_blk_ne _ _ htp]; exact bt)]
  unfold destroy
  have hh : R.h ≠ .null := by simp [Foot.h]
  msimp [hh, r1, key]
  unfold Foot.h
  rw [run_rawFree (Mem.set_blk_same _ _ _)]
  simp only [andThen_ok, Mem.set_set]
  congr 1
  apply Mem.ext'
  · simpa using n1
  · simpa using t1
  · simpa using rt1
  · intro k
    rw [Mem.drop_blk]
    simp only [Mem.set_blk, mem_foot]
    by_cases k1 : k = R.t
    · simp [k1]
    by_cases k2 : k = R.s
    · simp [k2]
    by_cases k3 : k = R.p
    · simp [k3]
    simp [k1, k2, k3, hb k k1]

/-! ### Building new tensors inside an operator -/

theorem At.drop_ne (h : At m R T) {L : List Nat} (hd : ∀ b ∈ R.list, b ∉ L) : At (m.drop L) R T :=
  h.congr fun b hb => by rw [Mem.drop_blk, if_neg (hd b hb)]

theorem Ext.drop {a : Mem} {L} (h : Ext a m L) {K : List Nat} (hK : ∀ b ∈ K, a.next ≤ b) :
    Ext a (m.drop K) (L.filter (· ∉ K)) where
  next := h.next
  same x hx := by
    rw [Mem.drop_blk, if_neg, h.same x hx]
    intro hx'; have := hK x hx'; omega
  wf x hx := by rw [Mem.drop_blk]; split <;> simp [h.wf x hx]
  live x hx hn := by
    rw [Mem.drop_blk] at hn
    by_cases hK' : x ∈ K
    · simp [hK'] at hn
    · simp only [hK', if_false] at hn
      simp [h.live x hx hn, hK']

theorem Produces.wf (h : Produces m m' R T) : m'.WF := h.ext.wf
theorem Produces.frame (h : Produces m m' R T) : Frame m m' := h.ext.toFrame

/-- Creating and destroying restores the memory (up to the counters). -/
theorem Produces.destroyed (wf : m.WF) (h : Produces m m' R T) (b : Nat) :
    (m'.drop R.list).blk b = m.blk b := by
  rw [Mem.drop_blk]
  split
  · rename_i hb; rw [wf _ (h.fresh b hb)]
  · rename_i hb
    by_cases hlt : b < m.next
    · exact h.ext.same b hlt
    · rw [wf _ (by omega)]
      cases hm : m'.blk b with
      | none => rfl
      | some k => exact absurd (h.ext.live b (by omega) (by simp [hm])) hb

/-! ### Creation from a caller's buffer -/

/-- The outcome of creating a tensor around an existing data block. -/
theorem create_data_run (wf : m.WF) (dt : DType) (dev : Device) {ds : List Nat}
    (hs : ShapeOK ds dt.size) (hsz : 0 < dt.size) {q : Nat} {bs : List Byte}
    (hq : m.blk q = some ⟨.own, .bytes bs⟩) (len : Nat) (hlen : len / dt.size = prod ds)
    (hbl : bs.length = prod ds * dt.size) (out : Ptr) :
    (∃ R m', create dt dev (dimsCells ds) ds.length (.blk q) len out E m = .ok (.success, R.h) m' ∧
      R.p = q ∧ At m' R ⟨dt, dev, ds, bs⟩ ∧ Ext m m' R.list ∧ ∀ b ∈ R.list, b ≠ q → m.next ≤ b) ∨
    (∃ m', create dt dev (dimsCells ds) ds.length (.blk q) len out E m = .ok (.allocFailed, out) m' ∧
      Frame m m' ∧ m'.WF ∧ ¬ E.NoFail) := by
  unfold create
  simp only [run_bind, run_rawAlloc]
  by_cases ha : E.allocOk m.tick 56 = true
  rotate_left
  · right
    simp only [ha, Bool.false_eq_true, if_false, andThen_ok, if_true]
    exact ⟨m.miss, rfl, (Ext.refl wf).miss.toFrame, wf, fun hnf => ha (hnf _ _)⟩
  have hsz0 : dt.size ≠ 0 := by omega
  msimp [ha, sizeOfDims_run hs.rank (fun k _ => hs.prefix k), lenMismatch, hsz0, hlen]
  rw [run_putBody (Mem.push_blk_same _ _)]
  msimp [decide_false]
  have e1 := ((Ext.refl wf).push (.tensor ⟨0, 0, 0, .indet, .dense, .indet, .indet⟩)).set
    (Nat.le_refl _) (Mem.push_blk_same _ _)
    ⟨.own, .tensor ⟨prod ds, 0, 0, .indet, .dense, .indet, .indet⟩⟩
  generalize hm1 : (m.push (.tensor ⟨0, 0, 0, .indet, .dense, .indet, .indet⟩)).set m.next
    (some ⟨.own, .tensor ⟨prod ds, 0, 0, .indet, .dense, .indet, .indet⟩⟩) = m1 at e1 ⊢
  have hn1 : m1.next = m.next + 1 := by rw [← hm1]; rfl
  have hb1 : m1.blk m.next = some ⟨.own, .tensor ⟨prod ds, 0, 0, .indet, .dense, .indet, .indet⟩⟩ := by
    rw [← hm1]; simp
  rcases createShape_run (E := E) e1.wf hs.rank with ⟨d, l, m2, r2, s2⟩ | ⟨d, l, m2, L, r2, e2, hnf⟩
  rotate_left
  · right
    msimp [r2, run_putBody (k := ⟨.own, _⟩) ((e2.same _ (by omega)).trans hb1)]
    have e3 := (e1.trans e2).set (Nat.le_refl m.next) ((e2.same _ (by omega)).trans hb1)
      ⟨.own, .tensor ⟨prod ds, 0, ds.length, d, .dense, l, .indet⟩⟩
    exact ⟨_, rfl, e3.toFrame, e3.wf, hnf⟩
  have hb2 := (s2.ext.same _ (by omega)).trans hb1
  msimp [r2, run_putBody hb2]
  have e3 := (e1.trans s2.ext).set (Nat.le_refl m.next) hb2
    ⟨.own, .tensor ⟨prod ds, 0, ds.length, optPtr d, .dense, optPtr l, .indet⟩⟩
  generalize hm3 : m2.set m.next (some ⟨.own, .tensor
    ⟨prod ds, 0, ds.length, optPtr d, .dense, optPtr l, .indet⟩⟩) = m3 at e3 ⊢
  have hn3 : m3.next = m2.next := by rw [← hm3]; rfl
  have hle2 := s2.ext.next
  have hb3 : m3.blk m.next = some ⟨.own, .tensor
      ⟨prod ds, 0, ds.length, optPtr d, .dense, optPtr l, .indet⟩⟩ := by rw [← hm3]; simp
  rcases createStorage_data_run (E := E) e3.wf dt dev (prod ds) (data := .blk q) (by simp) .indet with
    ⟨s, m4, r4, e4, bs', fs⟩ | ⟨m4, L, r4, e4, hnf⟩
  rotate_left
  · right
    have e5 := e3.trans e4
    msimp [r4]
    exact ⟨_, rfl, e5.toFrame, e5.wf, hnf⟩
  left
  have hb4 := (e4.same _ (by omega)).trans hb3
  msimp [r4, run_putBody hb4]
  have e5 := (e3.trans e4).set (Nat.le_refl m.next) hb4
    ⟨.own, .tensor ⟨prod ds, 0, ds.length, optPtr d, .dense, optPtr l, .blk s⟩⟩
  have hfr : ∀ b ∈ d.toList ++ l.toList, m.next < b ∧ b < m2.next := by
    intro b hb
    have h1 := s2.fresh b hb
    refine ⟨by omega, ?_⟩
    rcases s2.dims with ⟨_, rfl⟩ | ⟨k, _, rfl, hk⟩ <;>
    rcases s2.layout with ⟨_, rfl⟩ | ⟨k', _, rfl, hk'⟩ <;> simp at hb
    · exact hb ▸ Frame.lt_next s2.ext.wf hk'
    · exact hb ▸ Frame.lt_next s2.ext.wf hk
    · rcases hb with hb | hb
      · exact hb ▸ Frame.lt_next s2.ext.wf hk
      · exact hb ▸ Frame.lt_next s2.ext.wf hk'
  have keep : ∀ b ∈ d.toList ++ l.toList, ∀ v, (m4.set m.next v).blk b = m2.blk b := by
    intro b hb v
    have := hfr b hb
    rw [Mem.set_blk_ne _ _ (by omega), e4.same _ (by omega), ← hm3, Mem.set_blk_ne _ _ (by omega)]
  have hqlt := Frame.lt_next wf hq
  refine ⟨⟨m.next, s, q, d, l⟩, _, rfl, rfl, ?_, ?_, ?_⟩
  · refine ⟨by simp, ?_, ?_, ?_, ?_, ?_, hbl, hs⟩
    · rw [Mem.set_blk_ne _ _ (by simp; omega)]; exact bs'
    · rw [e5.same _ hqlt]; exact hq
    · rcases s2.dims with h | ⟨k, h1, rfl, h3⟩
      · exact .inl h
      · exact .inr ⟨k, h1, rfl, by rw [keep k (by simp)]; exact h3⟩
    · rcases s2.layout with h | ⟨k, h1, rfl, h3⟩
      · exact .inl h
      · exact .inr ⟨k, h1, rfl, by rw [keep k (by simp)]; exact h3⟩
    · have := s2.nodup
      simp only [Foot.list, List.nodup_cons, this, and_true, List.mem_cons, not_or]
      refine ⟨⟨by omega, by omega, ?_⟩, ⟨by omega, ?_⟩, ?_⟩ <;> intro hb <;> have := hfr _ hb <;> omega
  · refine e5.mono ?_
    intro x _ _ hx
    simp only [Foot.list, List.mem_append, List.mem_cons, List.not_mem_nil, or_false] at hx ⊢
    rcases hx with (rfl | h | h) | rfl <;> simp [*]
  · intro b hb hbq
    simp only [Foot.list, List.mem_cons] at hb
    rcases hb with rfl | rfl | rfl | hb
    · exact Nat.le_refl _
    · omega
    · exact absurd rfl hbq
    · exact Nat.le_of_lt (hfr b hb).1

end Aitisa
