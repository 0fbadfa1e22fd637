import Verif.Model.Math
import Verif.Spec.Math
import Verif.Proof.SoftmaxTop

/-!
# Binary operators
-/

namespace Aitisa

variable {E : Env} {m m' : Mem} {R R1 R2 : Foot} {T T1 T2 : TV} {L : List Nat}

/-- The block a pointer points to, if any. -/
def ptrs : Ptr → List Nat
  | .blk n => [n]
  | _ => []

theorem cellAlloc_run (dt : DType) {m0 m : Mem} (H : Holds m0 m R T L) :
    ∃ p m', cellAlloc dt E m = .ok p m' ∧ Holds m0 m' R T (ptrs p ++ L) ∧ Frame m m' ∧
      ((p = .null ∧ ¬ E.MallocOK) ∨ (p = .blk m.next ∧ m' = m.pushC (.bytes (List.replicate dt.size none)))) := by
  unfold cellAlloc
  rw [run_cMalloc]
  by_cases h : E.mallocOk m.tick dt.size = true
  · rw [if_pos h]
    exact ⟨_, _, rfl, H.pushC _, Frame.pushC _ _, .inr ⟨rfl, rfl⟩⟩
  · rw [if_neg h]
    exact ⟨_, _, rfl, ⟨H.ext.miss, H.tensor.congr fun _ _ => rfl, H.fresh, H.temps⟩, Frame.miss _, .inl ⟨rfl, fun nf => h (nf _ _)⟩⟩

theorem free_ptr {p : Ptr} {K : List Nat} {b : Body} (h : p = .null ∨ ∃ n, p = .blk n ∧ m.blk n = some ⟨.malloc, b⟩ ∧ n ∉ K) :
    cFree p E (m.drop K) = .ok () (m.drop (ptrs p ++ K)) := by
  rcases h with rfl | ⟨n, rfl, h, hn⟩
  · rfl
  · exact cfree_drop h hn

/-- One element of storage, initialised or not. -/
def Cell (m : Mem) (c : Code) (a : Nat) : Prop := ∃ v, m.blk a = some ⟨.malloc, .bytes (encOpt c [v])⟩

theorem Cell.set_same (m : Mem) (c : Code) (a : Nat) (v) : Cell (m.set a (some ⟨.malloc, .bytes (encOpt c [v])⟩)) c a :=
  ⟨v, Mem.set_blk_same _ _ _⟩

theorem Cell.set_ne {c : Code} {a b : Nat} (h : Cell m c a) (hne : a ≠ b) (x) : Cell (m.set b x) c a := by
  obtain ⟨v, hv⟩ := h
  exact ⟨v, by rw [Mem.set_blk_ne _ _ hne]; exact hv⟩

theorem Holds.setTemp (h : Holds m m' R T L) {b : Nat} {k : Block} (hb : b ∈ L) (hk : m'.blk b = some k) (x : Block) :
    Holds m (m'.set b (some x)) R T L where
  ext := h.ext.set (h.temps b hb).1 hk x
  tensor := h.tensor.set_ne (h.temps b hb).2 _
  fresh := h.fresh
  temps := h.temps

theorem copy_run {c : Code} {p q : Nat} {i j : Nat} {v : Val} {os : List (Option Val)}
    (hl : loadElem c (.blk p) i E m = .ok v m) {k : Origin} (hq : m.blk q = some ⟨k, .bytes (encOpt c os)⟩) (hj : j < os.length) (hk : k ≠ .const := by simp) :
    copyElem c (.blk p) i (.blk q) j E m = .ok () (m.set q (some ⟨k, .bytes (encOpt c (os.set j (some v)))⟩)) := by
  unfold copyElem
  msimp [hl, run_storeElem hq hj (hk := hk)]

/-- One iteration. -/
theorem binStep_run {c : Code} {op : BinOp} {p1 p2 a b r q i : Nat} {x y z : Val} {os : List (Option Val)}
    (l1 : loadElem c (.blk p1) i E m = .ok x m)
    (l2 : ∀ x, loadElem c (.blk p2) i E (m.set a (some x)) = .ok y (m.set a (some x)))
    (ha : Cell m c a) (hb : Cell m c b) (hr : Cell m c r) (hq : m.blk q = some ⟨.own, .bytes (encOpt c os)⟩)
    (hab : b ≠ a) (har : r ≠ a) (hbr : r ≠ b) (haq : q ≠ a) (hbq : q ≠ b) (hrq : q ≠ r) (hi : i < os.length)
    (wx : x.WT c) (wy : y.WT c) (hz : cBin E.fp c op x y = .ok z) (wz : z.WT c) :
    binStep c op (.blk p1) (.blk p2) (.blk a) (.blk b) (.blk r) (.blk q) i E m =
      .ok () ((((m.set a (some ⟨.malloc, .bytes (encOpt c [some x])⟩)).set b (some ⟨.malloc, .bytes (encOpt c [some y])⟩)).set r
        (some ⟨.malloc, .bytes (encOpt c [some z])⟩)).set q (some ⟨.own, .bytes (encOpt c (os.set i (some z)))⟩)) := by
  obtain ⟨va, ha⟩ := ha
  obtain ⟨vb, hb⟩ := hb
  obtain ⟨vr, hr⟩ := hr
  have e1 := copy_run (j := 0) l1 ha (by simp)
  obtain ⟨m1, hm1⟩ : ∃ m1, m1 = m.set a (some ⟨.malloc, .bytes (encOpt c [some x])⟩) := ⟨_, rfl⟩
  have l2' := l2 ⟨.malloc, .bytes (encOpt c [some x])⟩
  simp only [List.set_cons_zero] at e1
  rw [← hm1] at e1 l2' ⊢
  have e2 := copy_run (j := 0) (os := [vb]) l2' (by rw [hm1, Mem.set_blk_ne _ _ hab]; exact hb) (by simp)
  obtain ⟨m2, hm2⟩ : ∃ m2, m2 = m1.set b (some ⟨.malloc, .bytes (encOpt c [some y])⟩) := ⟨_, rfl⟩
  simp only [List.set_cons_zero] at e2
  rw [← hm2] at e2 ⊢
  have e3 : loadElem c (.blk a) (0 : Nat) E m2 = .ok x m2 :=
    run_loadElem (os := [some x]) (k := .malloc) (by rw [hm2, Mem.set_blk_ne _ _ hab.symm, hm1, Mem.set_blk_same]) rfl wx
  have e4 : loadElem c (.blk b) (0 : Nat) E m2 = .ok y m2 :=
    run_loadElem (os := [some y]) (k := .malloc) (by rw [hm2, Mem.set_blk_same]) rfl wy
  have e5 := run_storeElem (E := E) (m := m2) (p := r) (k := .malloc) (c := c) (os := [vr])
    (by rw [hm2, Mem.set_blk_ne _ _ hbr, hm1, Mem.set_blk_ne _ _ har]; exact hr) (i := 0) (by simp) z
  obtain ⟨m3, hm3⟩ : ∃ m3, m3 = m2.set r (some ⟨.malloc, .bytes (encOpt c [some z])⟩) := ⟨_, rfl⟩
  simp only [List.set_cons_zero] at e5
  rw [← hm3] at e5 ⊢
  have l6 : loadElem c (.blk r) (0 : Nat) E m3 = .ok z m3 :=
    run_loadElem (os := [some z]) (k := .malloc) (by rw [hm3, Mem.set_blk_same]) rfl wz
  have e6 := copy_run (j := i) l6 (q := q) (os := os) (by
    rw [hm3, Mem.set_blk_ne _ _ hrq, hm2, Mem.set_blk_ne _ _ hbq, hm1, Mem.set_blk_ne _ _ haq]; exact hq) hi
  unfold binStep
  rw [show ((0 : Nat) : Int) = 0 from rfl] at e1 e2 e3 e4 e5 e6
  msimp [e1, e2, e3, e4, run_liftU hz, e5, e6]

/-- An iteration whose operation is undefined. -/
theorem binStep_ub {c : Code} {op : BinOp} {p1 p2 a b i : Nat} {r q : Ptr} {x y : Val} {u : UB}
    (l1 : loadElem c (.blk p1) i E m = .ok x m)
    (l2 : ∀ x, loadElem c (.blk p2) i E (m.set a (some x)) = .ok y (m.set a (some x)))
    (ha : Cell m c a) (hb : Cell m c b) (hab : b ≠ a)
    (wx : x.WT c) (wy : y.WT c) (hz : cBin E.fp c op x y = .error u) :
    binStep c op (.blk p1) (.blk p2) (.blk a) (.blk b) r q i E m = .ub u := by
  obtain ⟨va, ha⟩ := ha
  obtain ⟨vb, hb⟩ := hb
  have e1 := copy_run (j := 0) l1 ha (by simp)
  obtain ⟨m1, hm1⟩ : ∃ m1, m1 = m.set a (some ⟨.malloc, .bytes (encOpt c [some x])⟩) := ⟨_, rfl⟩
  have l2' := l2 ⟨.malloc, .bytes (encOpt c [some x])⟩
  simp only [List.set_cons_zero] at e1
  rw [← hm1] at e1 l2'
  have e2 := copy_run (j := 0) (os := [vb]) l2' (by rw [hm1, Mem.set_blk_ne _ _ hab]; exact hb) (by simp)
  obtain ⟨m2, hm2⟩ : ∃ m2, m2 = m1.set b (some ⟨.malloc, .bytes (encOpt c [some y])⟩) := ⟨_, rfl⟩
  simp only [List.set_cons_zero] at e2
  rw [← hm2] at e2
  have e3 : loadElem c (.blk a) (0 : Nat) E m2 = .ok x m2 :=
    run_loadElem (os := [some x]) (k := .malloc) (by rw [hm2, Mem.set_blk_ne _ _ hab.symm, hm1, Mem.set_blk_same]) rfl wx
  have e4 : loadElem c (.blk b) (0 : Nat) E m2 = .ok y m2 :=
    run_loadElem (os := [some y]) (k := .malloc) (by rw [hm2, Mem.set_blk_same]) rfl wy
  unfold binStep
  rw [show ((0 : Nat) : Int) = 0 from rfl] at e1 e2 e3 e4
  have e5 : liftU (cBin E.fp c op x y) E m2 = .ub u := by rw [hz]; rfl
  msimp [e1, e2, e3, e4, e5]

/-- The state of the element loop before iteration `i`, where the results are `z`. -/
def BinInv (m0 : Mem) (R : Foot) (L : List Nat) (c : Code) (dev : Device) (ds : List Nat) (a b r : Nat) (z : Nat → Val) (i : Nat) (m : Mem) :
    Prop :=
  Holds m0 m R ⟨c.dtype, dev, ds, encOpt c (tab (prod ds) fun k => if k < i then some (z k) else none)⟩ L ∧
    Cell m c a ∧ Cell m c b ∧ Cell m c r

/-- The data that stay fixed during the element loop. -/
structure BinCtx (m0 : Mem) (R1 R2 R : Foot) (T1 T2 : TV) (L : List Nat) (c : Code) (ds : List Nat) (xs ys : List Val)
    (a b r : Nat) : Prop where
  wf : m0.WF
  h1 : At m0 R1 T1
  he1 : Elems T1 c xs
  h2 : At m0 R2 T2
  he2 : Elems T2 c ys
  hl : ys.length = xs.length
  hN : prod ds = xs.length
  haL : a ∈ L
  hbL : b ∈ L
  hrL : r ∈ L
  hab : b ≠ a
  har : r ≠ a
  hbr : r ≠ b

variable {m0 : Mem} {c : Code} {ds : List Nat} {xs ys : List Val} {a b r : Nat} {op : BinOp} {z : Nat → Val} {dev : Device}

theorem BinCtx.temp_ne (X : BinCtx m0 R1 R2 R T1 T2 L c ds xs ys a b r) (H : Holds m0 m R T L) {R' : Foot} {T' : TV} {x : Nat}
    (h : At m0 R' T') (hx : x ∈ L) : x ∉ R'.list := fun hx' => by
  have := (H.temps _ hx).1
  have := h.lt X.wf hx'
  omega

theorem Holds.data_ne (H : Holds m0 m R T L) {x : Nat} (hx : x ∈ L) : R.p ≠ x := fun e =>
  (H.temps _ hx).2 (by rw [← e]; simp [mem_foot])

/-- One iteration. -/
theorem BinCtx.step (X : BinCtx m0 R1 R2 R T1 T2 L c ds xs ys a b r) {i : Nat} (hi : i < xs.length) (hiy : i < ys.length)
    (I : BinInv m0 R L c dev ds a b r z i m) (hz : cBin E.fp c op xs[i] ys[i] = .ok (z i)) (wz : (z i).WT c) :
    ∃ m', (do
      let c ← tableCode c.dtype
      binStep c op (.blk R1.p) (.blk R2.p) (.blk a) (.blk b) (.blk r) (.blk R.p) i : M Unit) E m = .ok () m' ∧
      BinInv m0 R L c dev ds a b r z (i + 1) m' := by
  have htab : tableCode c.dtype = pure c := by unfold tableCode; rw [find_dtype]
  obtain ⟨H, ha, hb, hr⟩ := I
  have g1 : At m R1 T1 := X.h1.frame X.wf H.ext.toFrame
  have g2 : At m R2 T2 := X.h2.frame X.wf H.ext.toFrame
  have hN := X.hN
  have hs := binStep_run (E := E) (op := op) (p1 := R1.p) (p2 := R2.p) (q := R.p) (g1.load (E := E) X.he1 (i := i) hi)
    (fun x => (g2.set_ne (X.temp_ne H X.h2 X.haL) (some x)).load (E := E) X.he2 (i := i) hiy) ha hb hr H.tensor.data X.hab X.har X.hbr
    (H.data_ne X.haL) (H.data_ne X.hbL) (H.data_ne X.hrL) (by rw [tab_length]; omega) (X.he1.wt _ (List.getElem_mem hi))
    (X.he2.wt _ (List.getElem_mem hiy)) hz wz
  have hset := tab_set (n := prod ds) (k := i) (G := fun k => if k < i then some (z k) else none)
    (H := fun k => if k < i + 1 then some (z k) else none) (v := some (z i)) (by
      intro k hk
      by_cases hki : k = i
      · subst hki; simp
      · rw [if_neg hki]; simp only [show (k < i + 1) ↔ k < i by omega])
  rw [hset] at hs
  have hstep : ∀ m', binStep c op (.blk R1.p) (.blk R2.p) (.blk a) (.blk b) (.blk r) (.blk R.p) i E m = .ok () m' → (do
      let c ← tableCode c.dtype
      binStep c op (.blk R1.p) (.blk R2.p) (.blk a) (.blk b) (.blk r) (.blk R.p) i : M Unit) E m = .ok () m' :=
    fun m' h => by msimp [htab, h]
  obtain ⟨va, hva⟩ := ha
  obtain ⟨vb, hvb⟩ := hb
  obtain ⟨vr, hvr⟩ := hr
  have k1 := H.setTemp X.haL hva ⟨.malloc, .bytes (encOpt c [some xs[i]])⟩
  have k2 := k1.setTemp X.hbL (by rw [Mem.set_blk_ne _ _ X.hab]; exact hvb) ⟨.malloc, .bytes (encOpt c [some ys[i]])⟩
  have k3 := k2.setTemp X.hrL (by rw [Mem.set_blk_ne _ _ X.hbr, Mem.set_blk_ne _ _ X.har]; exact hvr)
    ⟨.malloc, .bytes (encOpt c [some (z i)])⟩
  have k4 := k3.setData (bs := encOpt c (tab (prod ds) fun k => if k < i + 1 then some (z k) else none))
    (by simp [encOpt_length, tab_length])
  exact ⟨_, hstep _ hs, k4, (((Cell.set_same _ _ _ _).set_ne X.hab.symm _).set_ne X.har.symm _).set_ne (H.data_ne X.haL).symm _,
    ((Cell.set_same _ _ _ _).set_ne X.hbr.symm _).set_ne (H.data_ne X.hbL).symm _,
    (Cell.set_same _ _ _ _).set_ne (H.data_ne X.hrL).symm _⟩

theorem binInv_zero (H : Holds m0 m R ⟨c.dtype, dev, ds, List.replicate (prod ds * c.size) none⟩ L)
    (ha : Cell m c a) (hb : Cell m c b) (hr : Cell m c r) : BinInv m0 R L c dev ds a b r z 0 m := by
  refine ⟨?_, ha, hb, hr⟩
  simp only [Nat.not_lt_zero, if_false, tab_none, encOpt_replicate]
  exact H

/-- The element loop, all operations being defined. -/
theorem BinCtx.loop (X : BinCtx m0 R1 R2 R T1 T2 L c ds xs ys a b r) {zs : List Val}
    (I : BinInv m0 R L c dev ds a b r (fun i => zs.getD i (.int 0)) 0 m) (hi : xs.length ≤ 2147483647) (hzl : zs.length = xs.length)
    (hz : ∀ i (_ : i < xs.length) (_ : i < ys.length) (_ : i < zs.length), cBin E.fp c op xs[i] ys[i] = .ok zs[i])
    (wz : ∀ z ∈ zs, z.WT c) :
    ∃ m', binLoop c.dtype op (.blk R1.p) (.blk R2.p) (.blk a) (.blk b) (.blk r) (.blk R.p) xs.length E m = .ok () m' ∧
      Holds m0 m' R ⟨c.dtype, dev, ds, encAll c zs⟩ L ∧ Cell m' c a ∧ Cell m' c b ∧ Cell m' c r := by
  have hN := X.hN
  have hl := X.hl
  obtain ⟨_, m', e, H', hc⟩ := loopN_inv (E := E) (fun i (_ : Unit) => do
      let c ← tableCode c.dtype
      binStep c op (.blk R1.p) (.blk R2.p) (.blk a) (.blk b) (.blk r) (.blk R.p) i)
    (fun i _ m => BinInv m0 R L c dev ds a b r (fun i => zs.getD i (.int 0)) i m) xs.length (by
      rintro i - m hi I
      have hzi : i < zs.length := by omega
      have hg : zs.getD i (.int 0) = zs[i] := by simp [List.getD, hzi]
      obtain ⟨m', e, I'⟩ := X.step (E := E) (op := op) hi (by omega) I
        (by show _ = Except.ok (zs.getD i (.int 0)); rw [hg]; exact hz i hi (by omega) hzi)
        (by show (zs.getD i (.int 0)).WT c; rw [hg]; exact wz _ (List.getElem_mem hzi))
      exact ⟨(), m', e, I'⟩) (s := ()) I
  have hfull : tab (prod ds) (fun k => if k < xs.length then some (zs.getD k (.int 0)) else none) = zs.map some := by
    rw [← tab_getD (N := prod ds) (by omega) (.int 0)]
    exact tab_congr fun i hi => by rw [if_pos (by omega)]
  rw [hfull, ← encAll_eq] at H'
  refine ⟨m', ?_, H', hc⟩
  unfold binLoop forI32
  rw [if_pos (by unfold I32_MAX; omega), Int.toNat_natCast]
  exact e

/-- The element loop, the operation `j` being the first undefined one. -/
theorem BinCtx.loop_ub (X : BinCtx m0 R1 R2 R T1 T2 L c ds xs ys a b r) {j : Nat} {u : UB}
    (I : BinInv m0 R L c dev ds a b r z 0 m) (hi : xs.length ≤ 2147483647) (hj : j < xs.length) (hjy : j < ys.length)
    (hz : ∀ i (_ : i < xs.length) (_ : i < ys.length), i < j → cBin E.fp c op xs[i] ys[i] = .ok (z i) ∧ (z i).WT c)
    (hu : cBin E.fp c op xs[j] ys[j] = .error u) :
    binLoop c.dtype op (.blk R1.p) (.blk R2.p) (.blk a) (.blk b) (.blk r) (.blk R.p) xs.length E m = .ub u := by
  have htab : tableCode c.dtype = pure c := by unfold tableCode; rw [find_dtype]
  have hl := X.hl
  unfold binLoop forI32
  rw [if_pos (by unfold I32_MAX; omega), Int.toNat_natCast]
  refine loopN_ubInv (E := E) _ (fun i _ m => BinInv m0 R L c dev ds a b r z i m) xs.length j u hj ?_ ?_ I
  · rintro i - m hi I
    obtain ⟨h1, h2⟩ := hz i (by omega) (by omega) hi
    obtain ⟨m', e, I'⟩ := X.step (E := E) (op := op) (by omega) (by omega) I h1 h2
    exact ⟨(), m', e, I'⟩
  · rintro - m ⟨H, ha, hb, hr⟩
    have g1 : At m R1 T1 := X.h1.frame X.wf H.ext.toFrame
    have g2 : At m R2 T2 := X.h2.frame X.wf H.ext.toFrame
    have := binStep_ub (E := E) (op := op) (p1 := R1.p) (p2 := R2.p) (r := .blk r) (q := .blk R.p) (g1.load (E := E) X.he1 (i := j) hj)
      (fun x => (g2.set_ne (X.temp_ne H X.h2 X.haL) (some x)).load (E := E) X.he2 (i := j) hjy) ha hb X.hab
      (X.he1.wt _ (List.getElem_mem hj)) (X.he2.wt _ (List.getElem_mem hjy)) hu
    msimp [htab, this]

theorem loopN_first {σ : Type} {f : Nat → σ → M σ} {k : Nat} {s : σ} {u : UB} (hk : 0 < k) (h : f 0 s E m = .ub u) :
    loopN f k 0 s E m = .ub u := by
  cases k with
  | zero => omega
  | succ k => msimp [loopN, h]

/-- If one of the three cells is missing the first iteration dereferences null. -/
theorem binLoop_null (h1 : At m R1 T1) (he1 : Elems T1 c xs) (h2 : At m R2 T2) (he2 : Elems T2 c ys) {p1 p2 p3 q : Ptr}
    (hx : 0 < xs.length) (hy : 0 < ys.length) (hi : xs.length ≤ 2147483647)
    (hd : ∀ u, cBin E.fp c op xs[0] ys[0] ≠ .error u)
    (c1 : p1 = .null ∨ ∃ n, p1 = .blk n ∧ Cell m c n ∧ n ∉ R2.list)
    (c2 : p2 = .null ∨ ∃ n, p2 = .blk n ∧ Cell m c n ∧ p1 ≠ .blk n) (hn : p1 = .null ∨ p2 = .null ∨ p3 = .null) :
    binLoop c.dtype op (.blk R1.p) (.blk R2.p) p1 p2 p3 q xs.length E m = .ub .nullDeref := by
  have htab : tableCode c.dtype = pure c := by unfold tableCode; rw [find_dtype]
  have hnull : ∀ v (m : Mem), storeElem c .null 0 v E m = .ub .nullDeref := fun v m => rfl
  have l1 := h1.load (E := E) he1 (i := 0) hx
  unfold binLoop forI32
  rw [if_pos (by unfold I32_MAX; omega), Int.toNat_natCast]
  refine loopN_first hx ?_
  msimp [htab]
  unfold binStep
  rw [show ((0 : Nat) : Int) = 0 from rfl] at l1 ⊢
  rcases c1 with rfl | ⟨n1, rfl, ⟨va, ha⟩, hn1⟩
  · unfold copyElem
    msimp [l1, hnull]
  have e1 := copy_run (i := 0) (j := 0) l1 ha (by simp)
  simp only [List.set_cons_zero] at e1
  have g2 := h2.set_ne hn1 (some ⟨.malloc, .bytes (encOpt c [some xs[0]])⟩)
  obtain ⟨m1, hm1⟩ : ∃ m1, m1 = m.set n1 (some ⟨.malloc, .bytes (encOpt c [some xs[0]])⟩) := ⟨_, rfl⟩
  rw [← hm1] at e1 g2
  have l2 := g2.load (E := E) he2 (i := 0) hy
  rcases c2 with rfl | ⟨n2, rfl, ⟨vb, hb⟩, hn2⟩
  · rw [show ((0 : Nat) : Int) = 0 from rfl] at e1 l2
    msimp [e1]
    unfold copyElem
    msimp [l2, hnull]
  have hne : n2 ≠ n1 := fun e => hn2 (by rw [e])
  have e2 := copy_run (j := 0) (os := [vb]) l2 (q := n2) (by rw [hm1, Mem.set_blk_ne _ _ hne]; exact hb) (by simp)
  simp only [List.set_cons_zero] at e2
  obtain ⟨m2, hm2⟩ : ∃ m2, m2 = m1.set n2 (some ⟨.malloc, .bytes (encOpt c [some ys[0]])⟩) := ⟨_, rfl⟩
  rw [← hm2] at e2
  have e3 : loadElem c (.blk n1) (0 : Nat) E m2 = .ok xs[0] m2 :=
    run_loadElem (os := [some xs[0]]) (k := .malloc) (by rw [hm2, Mem.set_blk_ne _ _ hne.symm, hm1, Mem.set_blk_same]) rfl
      (he1.wt _ (List.getElem_mem hx))
  have e4 : loadElem c (.blk n2) (0 : Nat) E m2 = .ok ys[0] m2 :=
    run_loadElem (os := [some ys[0]]) (k := .malloc) (by rw [hm2, Mem.set_blk_same]) rfl (he2.wt _ (List.getElem_mem hy))
  obtain ⟨z, hz⟩ : ∃ z, cBin E.fp c op xs[0] ys[0] = .ok z := by
    cases h : cBin E.fp c op xs[0] ys[0] with
    | ok z => exact ⟨z, rfl⟩
    | error u => exact absurd h (hd u)
  have hn3 : p3 = .null := by simpa using hn
  subst hn3
  rw [show ((0 : Nat) : Int) = 0 from rfl] at e1 e2 e3 e4
  msimp [e1, e2, e3, e4, run_liftU hz, hnull]

theorem cBin_WT {fp : FloatOps} {x y z : Val} (wx : x.WT c) (wy : y.WT c) (h : cBin fp c op x y = .ok z) : z.WT c := by
  cases x <;> cases y <;> simp only [cBin] at h
  case int.int a b =>
    cases he : evalInt c.promote op a b with
    | error u => rw [he] at h; cases h
    | ok r =>
      rw [he] at h
      cases h
      have := wrap_in c r
      cases c <;> simp only [Val.WT] at wx ⊢ <;> exact this
  case f32.f32 => cases h; cases c <;> simp only [Val.WT] at wx ⊢
  case f64.f64 => cases h; cases c <;> simp only [Val.WT] at wx ⊢
  all_goals cases h

theorem cell_new {n : Nat} (h : m.blk n = some ⟨.malloc, .bytes (List.replicate c.size none)⟩) : Cell m c n :=
  ⟨none, by rw [h, show [(none : Option Val)] = List.replicate 1 none from rfl, encOpt_replicate, Nat.one_mul]⟩

/-- Outcomes of a call that should produce `T` but uses unchecked direct `malloc`. -/
def TriesMalloc (E : Env) (x : M (Status × Ptr)) (m : Mem) (out : Ptr) (T : TV) : Prop :=
  Creates E x m out T ∨ (¬ E.MallocOK ∧ x E m = .ub .nullDeref)

/-- Creation and filling of the output. -/
theorem binFill_run {zs : List Val} (wf : m.WF) (h1 : At m R1 T1) (he1 : Elems T1 c xs) (h2 : At m R2 T2) (he2 : Elems T2 c ys)
    (hd : T2.dims = T1.dims) (hi : prod T1.dims ≤ 2147483647)
    (hz : ∀ i (_ : i < xs.length) (_ : i < ys.length) (_ : i < zs.length), cBin E.fp c op xs[i] ys[i] = .ok zs[i])
    (hzl : zs.length = xs.length) (out : Ptr) :
    TriesMalloc E (binFill op R1.h R2.h (dimsCells T1.dims) T1.dims.length out) m out ⟨c.dtype, T1.device, T1.dims, encAll c zs⟩ := by
  have hN := he1.len
  have hN2 := he2.len
  rw [hd] at hN2
  unfold binFill TriesMalloc Creates
  rcases create_run (E := E) wf T1.dtype T1.device h1.shape 0 out with ⟨R', m1, e1, P⟩ | ⟨m1, e1, fr, wf1, nf⟩
  · have H := P.holds
    rw [he1.dtype] at H e1
    obtain ⟨pa, ma, ea, Ha, fa, ca⟩ := cellAlloc_run (E := E) c.dtype H
    obtain ⟨pb, mb, eb, Hb, fb, cb⟩ := cellAlloc_run (E := E) c.dtype Ha
    obtain ⟨pr, mr, er, Hr, fr, cr⟩ := cellAlloc_run (E := E) c.dtype Hb
    have g1 := h1.frame wf P.frame
    have g2 := h2.frame wf P.frame
    have ka : (pa = .null ∧ ¬ E.MallocOK) ∨ (pa = .blk m1.next ∧ m1.next < ma.next ∧
        mr.blk m1.next = some ⟨.malloc, .bytes (List.replicate c.size none)⟩) := by
      rcases ca with h | ⟨h, rfl⟩
      · exact .inl h
      · exact .inr ⟨h, by simp, (fb.trans fr).keptC⟩
    have kb : (pb = .null ∧ ¬ E.MallocOK) ∨ (pb = .blk ma.next ∧ ma.next < mb.next ∧
        mr.blk ma.next = some ⟨.malloc, .bytes (List.replicate c.size none)⟩) := by
      rcases cb with h | ⟨h, rfl⟩
      · exact .inl h
      · exact .inr ⟨h, by simp, fr.keptC⟩
    have kr : (pr = .null ∧ ¬ E.MallocOK) ∨ (pr = .blk mb.next ∧
        mr.blk mb.next = some ⟨.malloc, .bytes (List.replicate c.size none)⟩) := by
      rcases cr with h | ⟨h, rfl⟩
      · exact .inl h
      · exact .inr ⟨h, by simp; rfl⟩
    have nb := fb.next
    have g1r : At mr R1 T1 := h1.frame wf Hr.ext.toFrame
    have g2r : At mr R2 T2 := h2.frame wf Hr.ext.toFrame
    -- the end of the function, given the result of the loop
    have fin : ∀ m', binLoop c.dtype op (.blk R1.p) (.blk R2.p) pa pb pr (.blk R'.p) xs.length E mr = .ok () m' →
        Holds m m' R' ⟨c.dtype, T1.device, T1.dims, encAll c zs⟩ (ptrs pr ++ (ptrs pb ++ (ptrs pa ++ []))) →
        (∀ n, n ∈ ptrs pa ∨ n ∈ ptrs pb ∨ n ∈ ptrs pr → ∃ b, m'.blk n = some ⟨.malloc, b⟩) →
        ∃ R m', binFill op R1.h R2.h (dimsCells T1.dims) T1.dims.length out E m = .ok (.success, R.h) m' ∧
          Produces m m' R ⟨c.dtype, T1.device, T1.dims, encAll c zs⟩ := by
      intro m' el Hm hlive
      have f1 : cFree pa E m' = .ok () (m'.drop (ptrs pa)) := by
        rcases ka with ⟨rfl, _⟩ | ⟨rfl, _⟩
        · show Res.ok () m' = _
          congr 1
        · obtain ⟨b, hb⟩ := hlive m1.next (.inl (by simp [ptrs]))
          exact cfree_first hb
      have f2 : cFree pb E (m'.drop (ptrs pa)) = .ok () (m'.drop (ptrs pb ++ ptrs pa)) := by
        rcases kb with ⟨rfl, _⟩ | ⟨rfl, _, _⟩
        · rfl
        · obtain ⟨b, hb⟩ := hlive ma.next (.inr (.inl (by simp [ptrs])))
          refine cfree_drop hb ?_
          rcases ka with ⟨rfl, _⟩ | ⟨rfl, _, _⟩ <;> simp [ptrs]
          omega
      have f3 : cFree pr E (m'.drop (ptrs pb ++ ptrs pa)) = .ok () (m'.drop (ptrs pr ++ (ptrs pb ++ ptrs pa))) := by
        rcases kr with ⟨rfl, _⟩ | ⟨rfl, _⟩
        · rfl
        · obtain ⟨b, hb⟩ := hlive mb.next (.inr (.inr (by simp [ptrs])))
          refine cfree_drop hb ?_
          rcases ka with ⟨rfl, _⟩ | ⟨rfl, _, _⟩ <;> rcases kb with ⟨rfl, _⟩ | ⟨rfl, _, _⟩ <;> simp [ptrs] <;> omega
      refine ⟨R', _, ?_, Hm.done (K := ptrs pr ++ (ptrs pb ++ ptrs pa)) (by simp) (by simp)⟩
      unfold binFill
      rw [hN] at el
      msimp [h1.tDtype, h1.tDevice, e1, g1.tSize, g1.tData, g2.tData, P.tensor.tData, he1.dtype, ea, eb, er, el, f1, f2, f3]
    by_cases hpos : 0 < xs.length
    · by_cases hn : pa = .null ∨ pb = .null ∨ pr = .null
      · right
        have el := binLoop_null (E := E) (op := op) (p1 := pa) (p2 := pb) (p3 := pr) (q := .blk R'.p) g1r he1 g2r he2 hpos (by omega) (by omega)
          (fun u hu => by rw [hz 0 hpos (by omega) (by omega)] at hu; cases hu)
          (by
            rcases ka with h | ⟨h, _, hb⟩
            · exact .inl h.1
            · refine .inr ⟨_, h, cell_new hb, fun hm => ?_⟩
              have := g2.lt P.wf hm
              omega)
          (by
            rcases kb with h | ⟨h, _, hb⟩
            · exact .inl h.1
            · refine .inr ⟨_, h, cell_new hb, fun hm => ?_⟩
              rcases ka with ⟨rfl, _⟩ | ⟨rfl, _, _⟩
              · cases hm
              · injection hm; omega) hn
        refine ⟨?_, ?_⟩
        · rcases hn with h | h | h
          · rcases ka with ⟨_, h'⟩ | ⟨h', _⟩
            · exact h'
            · rw [h'] at h; cases h
          · rcases kb with ⟨_, h'⟩ | ⟨h', _⟩
            · exact h'
            · rw [h'] at h; cases h
          · rcases kr with ⟨_, h'⟩ | ⟨h', _⟩
            · exact h'
            · rw [h'] at h; cases h
        · rw [hN] at el
          msimp [h1.tDtype, h1.tDevice, e1, g1.tSize, g1.tData, g2.tData, P.tensor.tData, he1.dtype, ea, eb, er, el]
      · left; left
        simp only [not_or] at hn
        rcases ka with ⟨h, _⟩ | ⟨rfl, ha1, ha2⟩
        · exact absurd h hn.1
        rcases kb with ⟨h, _⟩ | ⟨rfl, hb1, hb2⟩
        · exact absurd h hn.2.1
        rcases kr with ⟨h, _⟩ | ⟨rfl, hr2⟩
        · exact absurd h hn.2.2
        have X : BinCtx m R1 R2 R' T1 T2 (ptrs (.blk mb.next) ++ (ptrs (.blk ma.next) ++ (ptrs (.blk m1.next) ++ []))) c T1.dims xs ys
            m1.next ma.next mb.next :=
          ⟨wf, h1, he1, h2, he2, by omega, hN.symm, by simp [ptrs], by simp [ptrs], by simp [ptrs], by omega, by omega, by omega⟩
        obtain ⟨m', el, Hm, c1, c2, c3⟩ := X.loop (E := E) (op := op) (zs := zs)
          (binInv_zero (by exact Hr) (cell_new ha2) (cell_new hb2) (cell_new hr2)) (by omega) hzl hz
          (by
            intro z hzm
            obtain ⟨i, hi, rfl⟩ := List.getElem_of_mem hzm
            have hix : i < xs.length := by omega
            have hiy : i < ys.length := by omega
            exact cBin_WT (he1.wt _ (List.getElem_mem hix)) (he2.wt _ (List.getElem_mem hiy)) (hz i hix hiy hi))
        refine fin m' el Hm ?_
        intro n hn
        simp only [ptrs, List.mem_singleton] at hn
        rcases hn with rfl | rfl | rfl
        · exact ⟨_, c1.choose_spec⟩
        · exact ⟨_, c2.choose_spec⟩
        · exact ⟨_, c3.choose_spec⟩
    · left; left
      have hx0 : xs.length = 0 := by omega
      have hzs : zs = [] := List.eq_nil_of_length_eq_zero (by omega)
      refine fin mr ?_ ?_ ?_
      · rw [hx0]; rfl
      · have : (List.replicate (prod T1.dims * c.size) none : List Byte) = encAll c zs := by
          rw [hzs, ← hN, hx0]; simp [encAll]
        rw [← this]
        exact Hr
      · intro n hn
        rcases hn with hn | hn | hn
        · rcases ka with ⟨rfl, _⟩ | ⟨rfl, _, h⟩
          · simp [ptrs] at hn
          · simp [ptrs] at hn; subst hn; exact ⟨_, h⟩
        · rcases kb with ⟨rfl, _⟩ | ⟨rfl, _, h⟩
          · simp [ptrs] at hn
          · simp [ptrs] at hn; subst hn; exact ⟨_, h⟩
        · rcases kr with ⟨rfl, _⟩ | ⟨rfl, h⟩
          · simp [ptrs] at hn
          · simp [ptrs] at hn; subst hn; exact ⟨_, h⟩
  · left; right
    refine ⟨m1, ?_, fr, wf1, nf⟩
    msimp [h1.tDtype, h1.tDevice, e1]

/-! ### The checks -/

theorem dimsDiffer_run {a b : List Nat} (hl : a.length = b.length) :
    dimsDiffer (dimsCells a) (dimsCells b) a.length E m = .ok (decide (a ≠ b)) m := by
  unfold dimsDiffer
  rw [Int.toNat_natCast]
  by_cases h : a = b
  · subst h
    obtain ⟨s, m', e, rfl⟩ := loopE_inv (E := E) (ρ := Unit) (fun i (_ : Unit) => do
        let x ← (dimsCells a).rd i
        let y ← (dimsCells a).rd i
        if x ≠ y then return .inr () else return .inl ()) (fun _ _ m' => m' = m) a.length (by
          rintro i s m' hi rfl
          refine ⟨(), m', ?_, rfl⟩
          msimp [rd_dims hi]) (s := ()) rfl
    msimp [e]
    simp
  · have hne : ∃ i, ∃ (h1 : i < a.length) (h2 : i < b.length), a[i] ≠ b[i] := by
      rcases Classical.em (∃ i, ∃ (h1 : i < a.length) (h2 : i < b.length), a[i] ≠ b[i]) with h' | h'
      · exact h'
      · exfalso
        apply h
        refine List.ext_getElem hl fun i h1 h2 => ?_
        rcases Classical.em (a[i] = b[i]) with h3 | h3
        · exact h3
        · exact absurd ⟨i, h1, h2, h3⟩ h'
    obtain ⟨j0, hj0⟩ := hne
    obtain ⟨j, _, ⟨hj1, hj2, hj3⟩, hmin⟩ := first_such (P := fun i => ∃ (h1 : i < a.length) (h2 : i < b.length), a[i] ≠ b[i]) hj0.choose hj0
    obtain ⟨r, m', e, rfl⟩ := loopE_ret (E := E) (ρ := Unit) (fun i (_ : Unit) => do
        let x ← (dimsCells a).rd i
        let y ← (dimsCells b).rd i
        if x ≠ y then return .inr () else return .inl ()) (fun _ _ m' => m' = m) a.length j (fun _ m' => m' = m) hj1 (by
          rintro i s m' hi rfl
          refine ⟨(), m', ?_, rfl⟩
          have h1 : i < a.length := by omega
          have h2 : i < b.length := by omega
          have : a[i] = b[i] := by
            rcases Classical.em (a[i] = b[i]) with h3 | h3
            · exact h3
            · exact absurd ⟨h1, h2, h3⟩ (hmin i hi)
          msimp [rd_dims h1, rd_dims h2, this]) (by
          rintro s m' rfl
          refine ⟨(), m', ?_, rfl⟩
          have : (a[j] : Int) ≠ b[j] := by omega
          msimp [rd_dims hj1, rd_dims hj2, this]) (s := ()) rfl
    msimp [e, h]
    simp

theorem binaryOp_device (h1 : At m R1 T1) (h2 : At m R2 T2) (hd : T1.device.type ≠ 0 ∨ T2.device.type ≠ 0) (out : Ptr) :
    binaryOp op R1.h R2.h out E m = .ok (.notSupported, out) m := by
  have hd : T1.device.type ≠ DEVICE_CPU ∨ T2.device.type ≠ DEVICE_CPU := hd
  unfold binaryOp
  msimp [h1.tDevice, h2.tDevice, hd]

theorem binaryOp_type (h1 : At m R1 T1) (h2 : At m R2 T2) (hd1 : T1.device.type = 0) (hd2 : T2.device.type = 0)
    (ht : T1.dtype.code ≠ T2.dtype.code) (out : Ptr) :
    binaryOp op R1.h R2.h out E m = .ok (.typeMismatch, out) m := by
  unfold binaryOp
  msimp [h1.tDevice, h2.tDevice, DEVICE_CPU, hd1, hd2, h1.tDtype, h2.tDtype, ht]

theorem binaryOp_dims (h1 : At m R1 T1) (h2 : At m R2 T2) (hd1 : T1.device.type = 0) (hd2 : T2.device.type = 0)
    (ht : T1.dtype.code = T2.dtype.code) (hd : T1.dims ≠ T2.dims) (out : Ptr) :
    binaryOp op R1.h R2.h out E m = .ok (.invalidArgument, out) m := by
  unfold binaryOp
  by_cases hl : T1.dims.length = T2.dims.length
  · have hl' : (T1.dims.length : Int) = T2.dims.length := by omega
    have := dimsDiffer_run (E := E) (m := m) hl
    rw [hl'] at this
    msimp [h1.tDevice, h2.tDevice, DEVICE_CPU, hd1, hd2, h1.tDtype, h2.tDtype, ht, h1.tNdim, h2.tNdim, hl', h1.tDimsArr, h2.tDimsArr,
      this, hd]
    simp
  · have hl' : ¬ (T1.dims.length : Int) = T2.dims.length := by omega
    msimp [h1.tDevice, h2.tDevice, DEVICE_CPU, hd1, hd2, h1.tDtype, h2.tDtype, ht, h1.tNdim, h2.tNdim, hl']

theorem binaryOp_pass (h1 : At m R1 T1) (h2 : At m R2 T2) (hd1 : T1.device.type = 0) (hd2 : T2.device.type = 0)
    (ht : T1.dtype.code = T2.dtype.code) (hd : T2.dims = T1.dims) (out : Ptr) :
    binaryOp op R1.h R2.h out E m = binFill op R1.h R2.h (dimsCells T1.dims) T1.dims.length out E m := by
  have := dimsDiffer_run (E := E) (m := m) (a := T1.dims) (b := T1.dims) rfl
  unfold binaryOp
  msimp [h1.tDevice, h2.tDevice, DEVICE_CPU, hd1, hd2, h1.tDtype, h2.tDtype, ht, h1.tNdim, h2.tNdim, hd, h1.tDimsArr, h2.tDimsArr, this]
  simp

/-- The whole operator on well-behaved arguments. -/
theorem binaryOp_run {zs : List Val} (wf : m.WF) (h1 : At m R1 T1) (he1 : Elems T1 c xs) (h2 : At m R2 T2) (he2 : Elems T2 c ys)
    (hd1 : T1.device.type = 0) (hd2 : T2.device.type = 0)
    (hd : T2.dims = T1.dims) (hi : prod T1.dims ≤ 2147483647)
    (hz : ∀ i (_ : i < xs.length) (_ : i < ys.length) (_ : i < zs.length), cBin E.fp c op xs[i] ys[i] = .ok zs[i])
    (hzl : zs.length = xs.length) (out : Ptr) :
    TriesMalloc E (binaryOp op R1.h R2.h out) m out ⟨c.dtype, T1.device, T1.dims, encAll c zs⟩ := by
  have := binFill_run wf h1 he1 h2 he2 hd hi hz hzl out
  unfold TriesMalloc Creates at *
  rw [binaryOp_pass h1 h2 hd1 hd2 (by rw [he1.dtype, he2.dtype]) hd out]
  exact this

/-- With memory available an undefined element operation makes the call undefined. -/
theorem binaryOp_ub {j : Nat} {u : UB} (nf : E.NoFail) (mf : E.MallocOK) (wf : m.WF) (h1 : At m R1 T1) (he1 : Elems T1 c xs)
    (h2 : At m R2 T2) (he2 : Elems T2 c ys) (hd1 : T1.device.type = 0) (hd2 : T2.device.type = 0)
    (hd : T2.dims = T1.dims) (hi : prod T1.dims ≤ 2147483647) (hj : j < xs.length) (hjy : j < ys.length)
    (hz : ∀ i (_ : i < xs.length) (_ : i < ys.length), i < j → cBin E.fp c op xs[i] ys[i] = .ok (z i))
    (hu : cBin E.fp c op xs[j] ys[j] = .error u) (out : Ptr) :
    binaryOp op R1.h R2.h out E m = .ub u := by
  have hN := he1.len
  have hN2 := he2.len
  rw [hd] at hN2
  rw [binaryOp_pass h1 h2 hd1 hd2 (by rw [he1.dtype, he2.dtype]) hd out]
  unfold binFill
  rcases create_run (E := E) wf T1.dtype T1.device h1.shape 0 out with ⟨R', m1, e1, P⟩ | ⟨_, _, _, _, nf'⟩
  · have H := P.holds
    rw [he1.dtype] at H e1
    obtain ⟨pa, ma, ea, Ha, fa, ⟨_, hx⟩ | ⟨rfl, hma⟩⟩ := cellAlloc_run (E := E) c.dtype H
    · exact absurd mf hx
    obtain ⟨pb, mb, eb, Hb, fb, ⟨_, hx⟩ | ⟨rfl, hmb⟩⟩ := cellAlloc_run (E := E) c.dtype Ha
    · exact absurd mf hx
    obtain ⟨pr, mr, er, Hr, fr, ⟨_, hx⟩ | ⟨rfl, hmr⟩⟩ := cellAlloc_run (E := E) c.dtype Hb
    · exact absurd mf hx
    have ha2 : m1.next < ma.next ∧ mr.blk m1.next = some ⟨.malloc, .bytes (List.replicate c.size none)⟩ := by
      subst hma; exact ⟨by simp, (fb.trans fr).keptC⟩
    have hb2 : ma.next < mb.next ∧ mr.blk ma.next = some ⟨.malloc, .bytes (List.replicate c.size none)⟩ := by
      subst hmb; exact ⟨by simp, fr.keptC⟩
    have hr2 : mr.blk mb.next = some ⟨.malloc, .bytes (List.replicate c.size none)⟩ := by
      subst hmr; simp; rfl
    have g1 := h1.frame wf P.frame
    have g2 := h2.frame wf P.frame
    have X : BinCtx m R1 R2 R' T1 T2 (ptrs (.blk mb.next) ++ (ptrs (.blk ma.next) ++ (ptrs (.blk m1.next) ++ []))) c T1.dims xs ys
        m1.next ma.next mb.next :=
      ⟨wf, h1, he1, h2, he2, by omega, hN.symm, by simp [ptrs], by simp [ptrs], by simp [ptrs], by omega, by omega, by omega⟩
    have el := X.loop_ub (E := E) (op := op) (z := z) (j := j) (u := u)
      (binInv_zero (by exact Hr) (cell_new ha2.2) (cell_new hb2.2) (cell_new hr2)) (by omega) hj hjy
      (fun i hx hy hi => ⟨hz i hx hy hi, cBin_WT (he1.wt _ (List.getElem_mem hx)) (he2.wt _ (List.getElem_mem hy)) (hz i hx hy hi)⟩) hu
    rw [hN] at el
    msimp [h1.tDtype, h1.tDevice, e1, g1.tSize, g1.tData, g2.tData, P.tensor.tData, he1.dtype, ea, eb, er, el]
  · exact absurd nf nf'

/-- More than `INT_MAX` elements. -/
theorem binaryOp_large (nf : E.NoFail) (mf : E.MallocOK) (wf : m.WF) (h1 : At m R1 T1)
    (h2 : At m R2 T2) (hd1 : T1.device.type = 0) (hd2 : T2.device.type = 0)
    (ht : T1.dtype.code = T2.dtype.code) (hd : T2.dims = T1.dims) (hi : 2147483647 < prod T1.dims) (out : Ptr) :
    binaryOp op R1.h R2.h out E m = .ub .overflow := by
  rw [binaryOp_pass h1 h2 hd1 hd2 ht hd out]
  unfold binFill
  rcases create_run (E := E) wf T1.dtype T1.device h1.shape 0 out with ⟨R', m1, e1, P⟩ | ⟨_, _, _, _, nf'⟩
  · have H := P.holds
    obtain ⟨pa, ma, ea, Ha, fa, ⟨_, hx⟩ | ⟨rfl, rfl⟩⟩ := cellAlloc_run (E := E) T1.dtype H
    · exact absurd mf hx
    obtain ⟨pb, mb, eb, Hb, fb, ⟨_, hx⟩ | ⟨rfl, rfl⟩⟩ := cellAlloc_run (E := E) T1.dtype Ha
    · exact absurd mf hx
    obtain ⟨pr, mr, er, Hr, fr, ⟨_, hx⟩ | ⟨rfl, hmr⟩⟩ := cellAlloc_run (E := E) T1.dtype Hb
    · exact absurd mf hx
    have g1 := h1.frame wf P.frame
    have g2 := h2.frame wf P.frame
    have hc : ¬ ((prod T1.dims : Int) ≤ I32_MAX) := by unfold I32_MAX; omega
    msimp [h1.tDtype, h1.tDevice, e1, g1.tSize, g1.tData, g2.tData, P.tensor.tData, ea, eb, er]
    unfold binLoop forI32
    msimp [hc]
  · exact absurd nf nf'

end Aitisa
