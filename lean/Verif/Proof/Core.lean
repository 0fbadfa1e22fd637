import Verif.Proof.Mem

/-! # Core: execution lemmas for shape, storage and tensor functions -/

namespace Aitisa

/-! ### Products -/

theorem prodMax_pos (l : List Nat) : 0 < prodMax l := by
  induction l with
  | nil => simp [prodMax]
  | cons d ds ih => exact Nat.mul_pos (by omega) ih

theorem prod_le_prodMax (l : List Nat) : prod l ≤ prodMax l := by
  induction l with
  | nil => simp [prod, prodMax]
  | cons d ds ih => exact Nat.mul_le_mul (by omega) ih

theorem prodMax_append (a b : List Nat) : prodMax (a ++ b) = prodMax a * prodMax b := by
  induction a with
  | nil => simp [prodMax]
  | cons d ds ih => simp [prodMax, ih, Nat.mul_assoc]

theorem prod_append (a b : List Nat) : prod (a ++ b) = prod a * prod b := by
  induction a with
  | nil => simp [prod]
  | cons d ds ih => simp [prod, ih, Nat.mul_assoc]

theorem prodMax_take_le (l : List Nat) (k : Nat) : prodMax (l.take k) ≤ prodMax l := by
  conv => rhs; rw [← List.take_append_drop k l, prodMax_append]
  exact Nat.le_mul_of_pos_right _ (prodMax_pos _)

theorem prodMax_drop_le (l : List Nat) (k : Nat) : prodMax (l.drop k) ≤ prodMax l := by
  conv => rhs; rw [← List.take_append_drop k l, prodMax_append]
  exact Nat.le_mul_of_pos_left _ (prodMax_pos _)

theorem prod_take_le (l : List Nat) (k : Nat) : prod (l.take k) ≤ prodMax l :=
  Nat.le_trans (prod_le_prodMax _) (prodMax_take_le l k)

theorem prod_drop_le (l : List Nat) (k : Nat) : prod (l.drop k) ≤ prodMax l :=
  Nat.le_trans (prod_le_prodMax _) (prodMax_drop_le l k)

theorem prod_take_succ (l : List Nat) (k : Nat) (h : k < l.length) :
    prod (l.take (k + 1)) = prod (l.take k) * l[k] := by
  rw [List.take_succ_eq_append_getElem h, prod_append]; simp [prod]

theorem ShapeOK.prodMax_le {dims sz} (h : ShapeOK dims sz) : prodMax dims ≤ 9223372036854775807 := by
  have := h.fits
  exact Nat.le_trans (Nat.le_mul_of_pos_right _ (by omega)) this

theorem ShapeOK.prod_le {dims sz} (h : ShapeOK dims sz) : prod dims ≤ 9223372036854775807 :=
  Nat.le_trans (prod_le_prodMax _) h.prodMax_le

theorem ShapeOK.bytes_le {dims sz} (h : ShapeOK dims sz) : prod dims * sz ≤ 9223372036854775807 :=
  Nat.le_trans (Nat.mul_le_mul (prod_le_prodMax _) (by omega)) h.fits

/-! ### `size_of_dims` -/

@[simp] theorem dimsCells_length (ds : List Nat) : (dimsCells ds).length = ds.length := by
  simp [dimsCells]

theorem dimsCells_get {ds : List Nat} {i : Nat} (h : i < ds.length) :
    (dimsCells ds)[i]? = some (some (ds[i] : Int)) := by
  simp [dimsCells, h]

theorem toI32_id {n : Int} (h : I32_MIN ≤ n ∧ n ≤ I32_MAX) : toI32 n = n := by
  unfold toI32 I32_MIN I32_MAX at *; omega

theorem sizeOfDims_run {ds : List Nat} (hr : ds.length ≤ 2147483647)
    (hp : ∀ k, k ≤ ds.length → prod (ds.take k) ≤ 9223372036854775807) (E : Env) (m : Mem) :
    sizeOfDims (dimsCells ds) ds.length E m = .ok (prod ds : Int) m := by
  unfold sizeOfDims forI
  rw [toI32_id (by unfold I32_MIN I32_MAX; omega), Int.toNat_natCast]
  have := loopN_fn (E := E) (fun i r => do
      let d ← (dimsCells ds).rd i
      i64 (r * d)) (fun k => ((prod (ds.take k) : Nat) : Int)) (fun _ => m) ds.length (by
    intro i hi
    simp only [run_bind, run_rd (dimsCells_get hi), andThen_ok]
    rw [← Int.natCast_mul, ← prod_take_succ _ _ hi]
    exact run_i64_nat (hp _ (by omega)) E m)
  simpa [prod] using this

/-! ### Filling an `int64_t` array -/

theorem newI64s_nat {n : Nat} (h : n ≤ 2147483647) :
    newI64s (n : Int) = .i64s (List.replicate n none) := by
  unfold newI64s toSizeT
  congr 2
  omega

theorem run_storeI {m : Mem} {p : Nat} {k} {l : Arr} (h : m.blk p = some ⟨k, .i64s l⟩) {i : Nat}
    (hi : i < l.length) (v : Int) (E : Env) (hk : k ≠ .const := by simp) :
    storeI (.blk p) i v E m = .ok () (m.set p (some ⟨k, .i64s (l.set i (some v))⟩)) := by
  simp [storeI, run_derefI h, run_wr hi, run_putBody h _ _ hk]

theorem run_loadI {m : Mem} {p : Nat} {k} {l : Arr} (h : m.blk p = some ⟨k, .i64s l⟩) {i : Nat} {v}
    (hi : l[i]? = some (some v)) (E : Env) :
    loadI (.blk p) i E m = .ok v m := by
  simp [loadI, run_derefI h, run_rd hi]

theorem set_fill {α} (f : Nat → α) (l : List α) (i : Nat) (h : i < l.length) :
    ((List.range i).map f ++ l.drop i).set i (f i) = (List.range (i + 1)).map f ++ l.drop (i + 1) := by
  rw [List.set_append_right _ _ (by simp)]
  simp only [List.length_map, List.length_range, Nat.sub_self]
  rw [List.drop_eq_getElem_cons h, List.range_succ, List.set_cons_zero]
  simp

theorem fillI_run {E : Env} {m : Mem} {p : Nat} {k} {l : Arr} (h : m.blk p = some ⟨k, .i64s l⟩)
    (g : Nat → Unit → M Unit) (f : Nat → Int)
    (hg : ∀ i m', i < l.length → g i () E m' = storeI (.blk p) i (f i) E m') (hk : k ≠ .const := by simp) :
    loopN g l.length 0 () E m =
      .ok () (m.set p (some ⟨k, .i64s ((List.range l.length).map fun i => some (f i))⟩)) := by
  have := loopN_fn (E := E) g (fun _ => ())
    (fun i => m.set p (some ⟨k, .i64s ((List.range i).map (fun i => some (f i)) ++ l.drop i)⟩))
    l.length (by
      intro i hi
      rw [hg i _ hi, run_storeI (Mem.set_blk_same _ _ _) (by simp; omega) (hk := hk)]
      simp only [Mem.set_set]
      rw [set_fill (fun i => some (f i)) l i hi])
  simp only [List.range_zero, List.map_nil, List.nil_append, List.drop_zero, List.drop_length,
    List.append_nil] at this
  rwa [Mem.set_self _ _ _ h] at this

theorem range_map_dims (ds : List Nat) :
    (List.range ds.length).map (fun i => some ((ds.getD i 0 : Nat) : Int)) = dimsCells ds := by
  apply List.ext_getElem
  · simp
  · intro i h1 h2
    simp at h2
    simp [dimsCells, h2]

/-! ### `aitisa_create_shape` -/

/-- Facts about the arrays made by `aitisa_create_shape`. -/
structure ShapeMade (m m' : Mem) (ds : List Nat) (d l : Option Nat) : Prop where
  ext : Ext m m' (d.toList ++ l.toList)
  dims : (ds = [] ∧ d = none) ∨
    ∃ k, ds ≠ [] ∧ d = some k ∧ m'.blk k = some ⟨.own, .i64s (dimsCells ds)⟩
  layout : (ds = [] ∧ l = none) ∨
    ∃ k, ds ≠ [] ∧ l = some k ∧ m'.blk k = some ⟨.own, .i64s (defaultMin2maj ds.length)⟩
  fresh : ∀ b ∈ d.toList ++ l.toList, m.next ≤ b
  nodup : (d.toList ++ l.toList).Nodup

theorem createShape_run {E : Env} {m : Mem} (wf : m.WF) {ds : List Nat}
    (hr : ds.length ≤ 2147483647) :
    (∃ d l m', createShape .dense (dimsCells ds) ds.length E m = .ok (.success, optPtr d, optPtr l) m' ∧
      ShapeMade m m' ds d l) ∨
    (∃ d l m' L, createShape .dense (dimsCells ds) ds.length E m = .ok (.allocFailed, d, l) m' ∧
      Ext m m' L ∧ ¬ E.NoFail) := by
  rcases Nat.eq_zero_or_pos ds.length with h0 | hpos
  · have : ds = [] := List.length_eq_zero_iff.mp h0
    subst this
    left
    refine ⟨none, none, m, ?_, ?_⟩
    · simp [createShape, createDefaultLayout, forI, optPtr]
    · exact ⟨Ext.refl wf, .inl ⟨rfl, rfl⟩, .inl ⟨rfl, rfl⟩, by simp, by simp⟩
  · have hne : ds ≠ [] := by rintro rfl; simp at hpos
    have hn0 : ¬ ((ds.length : Int) = 0) := by omega
    unfold createShape
    simp only [hn0, if_false, run_bind, run_rawAlloc]
    by_cases ha : E.allocOk m.tick (toSizeT (8 * (ds.length : Int))) = true
    · simp only [ha, if_true, andThen_ok]
      rw [newI64s_nat hr]
      have e1 : Ext m (m.push (.i64s (List.replicate ds.length none))) [m.next] :=
        (Ext.refl wf).push _
      have hf := fillI_run (E := E) (Mem.push_blk_same m (.i64s (List.replicate ds.length none)))
        (fun i _ => do
          let v ← (dimsCells ds).rd i
          storeI (.blk m.next) i v) (fun i => ((ds.getD i 0 : Nat) : Int)) (by
          intro i m' hi
          simp only [List.length_replicate] at hi
          simp only [run_bind, run_rd (dimsCells_get hi), andThen_ok]
          simp [hi])
      simp only [List.length_replicate] at hf
      simp only [forI, Int.toNat_natCast, createDefaultLayout, reduceCtorEq, and_false, if_false,
        ne_eq, hn0, run_bind, hf, andThen_ok, not_true_eq_false, run_rawAlloc, run_ite,
        not_false_eq_true, true_and]
      rw [range_map_dims]
      have e2 : Ext m ((m.push (.i64s (List.replicate ds.length none))).set m.next
          (some ⟨.own, .i64s (dimsCells ds)⟩)) [m.next] :=
        e1.set (Nat.le_refl _) (Mem.push_blk_same _ _) _
      generalize hm2 : (m.push (.i64s (List.replicate ds.length none))).set m.next
          (some ⟨.own, .i64s (dimsCells ds)⟩) = m2 at e2 ⊢
      have hm2n : m2.next = m.next + 1 := by rw [← hm2]; rfl
      have hm2d : m2.blk m.next = some ⟨.own, .i64s (dimsCells ds)⟩ := by rw [← hm2]; simp
      by_cases hb : E.allocOk m2.tick (toSizeT (8 * (ds.length : Int))) = true
      · left
        simp only [hb, if_true, andThen_ok, reduceCtorEq, if_false]
        rw [newI64s_nat hr]
        have hf2 := fillI_run (E := E) (Mem.push_blk_same m2 (.i64s (List.replicate ds.length none)))
          (fun i _ => storeI (.blk m2.next) i (ds.length - 1 - i))
          (fun i => (ds.length : Int) - 1 - i) (by intro i m' _; rfl)
        simp only [List.length_replicate] at hf2
        simp only [hf2, andThen_ok, run_pure, not_true_eq_false, if_false]
        refine ⟨some m.next, some m2.next, _, rfl, ?_⟩
        have e3 : Ext m2 (m2.push (.i64s (List.replicate ds.length none))) [m2.next] :=
          (Ext.refl e2.wf).push _
        have e4 := e3.set (Nat.le_refl _) (Mem.push_blk_same _ _)
          ⟨.own, .i64s ((List.range ds.length).map fun i : Nat => some ((ds.length : Int) - 1 - i))⟩
        refine ⟨?_, ?_, ?_, ?_, ?_⟩
        · exact e2.trans e4
        · right
          refine ⟨m.next, hne, rfl, ?_⟩
          rw [Mem.set_blk_ne _ _ (by omega), Mem.push_blk_ne _ _ (by omega)]
          exact hm2d
        · right
          refine ⟨m2.next, hne, rfl, ?_⟩
          simp [defaultMin2maj]
        · simp; omega
        · simp; omega
      · right
        simp only [hb]
        exact ⟨.blk m.next, .null, m2.miss, [m.next], by simp, e2.miss, fun hnf => hb (hnf _ _)⟩
    · right
      simp only [ha]
      exact ⟨.null, .indet, m.miss, [], by simp [hne], (Ext.refl wf).miss, fun hnf => ha (hnf _ _)⟩

/-! ### `aitisa_create_storage` -/

theorem toSizeT_nat {n : Nat} (h : n ≤ 9223372036854775807) : toSizeT (n : Int) = n := by
  unfold toSizeT; omega

theorem createStorage_run {E : Env} {m : Mem} (wf : m.WF) (dt : DType) (dev : Device) {n : Nat}
    (hn : n * dt.size ≤ 9223372036854775807) (old : Ptr) :
    (∃ s p m', createStorage dt dev n .null old E m = .ok (.success, .blk s) m' ∧
      Ext m m' [s, p] ∧ m'.blk s = some ⟨.own, .storage ⟨dt, dev, n, .blk p⟩⟩ ∧
      m'.blk p = some ⟨.own, .bytes (List.replicate (n * dt.size) none)⟩ ∧
      m.next ≤ s ∧ m.next ≤ p ∧ s ≠ p) ∨
    (∃ m' L, createStorage dt dev n .null old E m = .ok (.allocFailed, old) m' ∧ Ext m m' L ∧
      ¬ E.NoFail) := by
  unfold createStorage
  simp only [run_bind, run_rawAlloc]
  by_cases ha : E.allocOk m.tick 32 = true
  · simp only [ha, if_true, andThen_ok, reduceCtorEq, if_false, ne_eq, not_true_eq_false]
    have e1 := (Ext.refl wf).push (.storage ⟨dt, dev, n, .indet⟩)
    have hmul : ((dt.size : Int) * (n : Int)) = ((n * dt.size : Nat) : Int) := by
      rw [Int.natCast_mul, Int.mul_comm]
    simp only [run_bind, hmul, run_i64_nat hn, andThen_ok, run_rawAlloc, toSizeT_nat hn]
    generalize hm1 : m.push (.storage ⟨dt, dev, n, .indet⟩) = m1 at e1 ⊢
    have hn1 : m1.next = m.next + 1 := by rw [← hm1]; rfl
    have hb1 : m1.blk m.next = some ⟨.own, .storage ⟨dt, dev, n, .indet⟩⟩ := by rw [← hm1]; simp
    by_cases hb : E.allocOk m1.tick (n * dt.size) = true
    · left
      simp only [hb, if_true, andThen_ok]
      rw [run_putBody (k := ⟨.own, .storage ⟨dt, dev, n, .indet⟩⟩)
        (by rw [Mem.push_blk_ne _ _ (by omega)]; exact hb1)]
      simp only [andThen_ok, reduceCtorEq, if_false, run_pure]
      refine ⟨m.next, m1.next, _, rfl, ?_, ?_, ?_, by omega, by omega, by omega⟩
      · refine ((e1.push (.bytes (List.replicate (n * dt.size) none))).set (Nat.le_refl m.next)
          (k := ⟨.own, .storage ⟨dt, dev, n, .indet⟩⟩)
          (by rw [Mem.push_blk_ne _ _ (by omega)]; exact hb1) _).mono ?_
        intro x _ _ hx; simp at hx ⊢; omega
      · simp
      · rw [Mem.set_blk_ne _ _ (by omega)]; simp
    · right
      simp only [hb, Bool.false_eq_true, if_false, andThen_ok]
      rw [run_putBody (m := m1.miss) (k := ⟨.own, .storage ⟨dt, dev, n, .indet⟩⟩) hb1]
      refine ⟨_, [m.next], rfl, ?_, fun hnf => hb (hnf _ _)⟩
      exact e1.miss.set (Nat.le_refl m.next) (k := ⟨.own, .storage ⟨dt, dev, n, .indet⟩⟩) hb1 _
  · right
    simp only [ha, Bool.false_eq_true, if_false, andThen_ok, if_true]
    exact ⟨m.miss, [], rfl, (Ext.refl wf).miss, fun hnf => ha (hnf _ _)⟩

theorem createStorage_data_run {E : Env} {m : Mem} (wf : m.WF) (dt : DType) (dev : Device) (n : Nat)
    {data : Ptr} (hd : data ≠ .null) (old : Ptr) :
    (∃ s m', createStorage dt dev n data old E m = .ok (.success, .blk s) m' ∧
      Ext m m' [s] ∧ m'.blk s = some ⟨.own, .storage ⟨dt, dev, n, data⟩⟩ ∧ m.next ≤ s) ∨
    (∃ m' L, createStorage dt dev n data old E m = .ok (.allocFailed, old) m' ∧ Ext m m' L ∧
      ¬ E.NoFail) := by
  unfold createStorage
  simp only [run_bind, run_rawAlloc]
  by_cases ha : E.allocOk m.tick 32 = true
  · left
    simp only [ha, if_true, andThen_ok, reduceCtorEq, if_false, ne_eq, hd, not_false_eq_true, run_bind]
    rw [run_putBody (Mem.push_blk_same _ _)]
    refine ⟨m.next, _, rfl, ?_, by simp, Nat.le_refl _⟩
    exact ((Ext.refl wf).push _).set (Nat.le_refl _) (Mem.push_blk_same _ _) _
  · right
    simp only [ha, Bool.false_eq_true, if_false, andThen_ok, if_true]
    exact ⟨m.miss, [], rfl, (Ext.refl wf).miss, fun hnf => ha (hnf _ _)⟩

/-! ### `aitisa_create` -/

/-- Prefix products of a shape stay in range. -/
theorem ShapeOK.prefix {ds sz} (h : ShapeOK ds sz) (k : Nat) :
    prod (ds.take k) ≤ 9223372036854775807 :=
  Nat.le_trans (prod_take_le ds k) h.prodMax_le

theorem create_run {E : Env} {m : Mem} (wf : m.WF) (dt : DType) (dev : Device) {ds : List Nat}
    (hs : ShapeOK ds dt.size) (len : Nat) (out : Ptr) :
    Creates E (create dt dev (dimsCells ds) ds.length .null len out) m out
      ⟨dt, dev, ds, List.replicate (prod ds * dt.size) none⟩ := by
  unfold Creates create
  simp only [run_bind, run_rawAlloc]
  by_cases ha : E.allocOk m.tick 56 = true
  rotate_left
  · right
    simp only [ha, Bool.false_eq_true, if_false, andThen_ok, if_true]
    exact ⟨m.miss, rfl, (Ext.refl wf).miss.toFrame, wf, fun hnf => ha (hnf _ _)⟩
  simp only [ha, if_true, andThen_ok, reduceCtorEq, if_false, run_bind,
    sizeOfDims_run hs.rank (fun k _ => hs.prefix k), ne_eq, not_true_eq_false, run_pure]
  rw [run_putBody (Mem.push_blk_same _ _)]
  simp only [andThen_ok]
  have e1 := ((Ext.refl wf).push (.tensor ⟨0, 0, 0, .indet, .dense, .indet, .indet⟩)).set
    (Nat.le_refl _) (Mem.push_blk_same _ _)
    ⟨.own, .tensor ⟨prod ds, 0, 0, .indet, .dense, .indet, .indet⟩⟩
  generalize hm1 : (m.push (.tensor ⟨0, 0, 0, .indet, .dense, .indet, .indet⟩)).set m.next
    (some ⟨.own, .tensor ⟨prod ds, 0, 0, .indet, .dense, .indet, .indet⟩⟩) = m1 at e1 ⊢
  have hn1 : m1.next = m.next + 1 := by rw [← hm1]; rfl
  have hb1 : m1.blk m.next = some ⟨.own, .tensor ⟨prod ds, 0, 0, .indet, .dense, .indet, .indet⟩⟩ := by
    rw [← hm1]; simp
  rcases createShape_run (E := E) e1.wf hs.rank with ⟨d, l, m2, r2, s2⟩ | ⟨d, l, m2, L, r2, e2, hnf⟩
  rotate_left
  · right
    simp only [r2, andThen_ok, run_putBody (k := ⟨.own, _⟩) ((e2.same _ (by omega)).trans hb1)]
    have e3 := (e1.trans e2).set (Nat.le_refl m.next) ((e2.same _ (by omega)).trans hb1)
      ⟨.own, .tensor ⟨prod ds, 0, ds.length, d, .dense, l, .indet⟩⟩
    exact ⟨_, rfl, e3.toFrame, e3.wf, hnf⟩
  have hb2 := (s2.ext.same _ (by omega)).trans hb1
  simp only [r2, andThen_ok, run_putBody hb2, not_true_eq_false, if_false]
  have e3 := (e1.trans s2.ext).set (Nat.le_refl m.next) hb2
    ⟨.own, .tensor ⟨prod ds, 0, ds.length, optPtr d, .dense, optPtr l, .indet⟩⟩
  generalize hm3 : m2.set m.next (some ⟨.own, .tensor
    ⟨prod ds, 0, ds.length, optPtr d, .dense, optPtr l, .indet⟩⟩) = m3 at e3 ⊢
  have hn3 : m3.next = m2.next := by rw [← hm3]; rfl
  have hle2 := s2.ext.next
  have hb3 : m3.blk m.next = some ⟨.own, .tensor
      ⟨prod ds, 0, ds.length, optPtr d, .dense, optPtr l, .indet⟩⟩ := by rw [← hm3]; simp
  rcases createStorage_run (E := E) e3.wf dt dev hs.bytes_le .indet with
    ⟨s, p, m4, r4, e4, bs, bp, fs, fp, nsp⟩ | ⟨m4, L, r4, e4, hnf⟩
  rotate_left
  · right
    have e5 := e3.trans e4
    msimp [r4]
    exact ⟨_, rfl, e5.toFrame, e5.wf, hnf⟩
  left
  have hb4 := (e4.same _ (by omega)).trans hb3
  msimp [r4, run_putBody hb4]
  have e5 := (e3.trans e4).set (Nat.le_refl m.next) hb4
    ⟨.own, .tensor ⟨prod ds, 0, ds.length, optPtr d, .dense, optPtr l, .blk s⟩⟩
  have hfr : ∀ b ∈ d.toList ++ l.toList, m.next < b ∧ b < m2.next := by
    intro b hb
    have h1 := s2.fresh b hb
    refine ⟨by omega, ?_⟩
    rcases s2.dims with ⟨_, rfl⟩ | ⟨k, _, rfl, hk⟩ <;>
    rcases s2.layout with ⟨_, rfl⟩ | ⟨k', _, rfl, hk'⟩ <;> simp at hb
    · exact hb ▸ Frame.lt_next s2.ext.wf hk'
    · exact hb ▸ Frame.lt_next s2.ext.wf hk
    · rcases hb with hb | hb
      · exact hb ▸ Frame.lt_next s2.ext.wf hk
      · exact hb ▸ Frame.lt_next s2.ext.wf hk'
  have keep : ∀ b ∈ d.toList ++ l.toList, ∀ v, (m4.set m.next v).blk b = m2.blk b := by
    intro b hb v
    have := hfr b hb
    rw [Mem.set_blk_ne _ _ (by omega), e4.same _ (by omega), ← hm3, Mem.set_blk_ne _ _ (by omega)]
  refine ⟨⟨m.next, s, p, d, l⟩, _, rfl, ?_, ?_, ?_⟩
  · refine e5.mono ?_
    intro x _ _ hx
    simp only [Foot.list, List.mem_append, List.mem_cons, List.not_mem_nil, or_false] at hx ⊢
    rcases hx with (rfl | h | h) | rfl | rfl <;> simp [*]
  · refine ⟨by simp, ?_, ?_, ?_, ?_, ?_, by simp, hs⟩
    · rw [Mem.set_blk_ne _ _ (by simp; omega)]; exact bs
    · rw [Mem.set_blk_ne _ _ (by simp; omega)]; exact bp
    · rcases s2.dims with h | ⟨k, h1, rfl, h3⟩
      · exact .inl h
      · exact .inr ⟨k, h1, rfl, by rw [keep k (by simp)]; exact h3⟩
    · rcases s2.layout with h | ⟨k, h1, rfl, h3⟩
      · exact .inl h
      · exact .inr ⟨k, h1, rfl, by rw [keep k (by simp)]; exact h3⟩
    · have := s2.nodup
      simp only [Foot.list, List.nodup_cons, this, and_true, List.mem_cons, not_or]
      refine ⟨⟨by omega, by omega, ?_⟩, ⟨nsp, ?_⟩, ?_⟩ <;> intro hb <;> have := hfr _ hb <;> omega
  · intro b hb
    simp only [Foot.list, List.mem_cons] at hb
    rcases hb with rfl | rfl | rfl | hb
    · exact Nat.le_refl _
    · have := hfr; omega
    · omega
    · exact Nat.le_of_lt (hfr b hb).1

end Aitisa
