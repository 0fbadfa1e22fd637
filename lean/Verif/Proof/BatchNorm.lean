import Verif.Proof.Pool
import Verif.Proof.PoolingModes
import Verif.Proof.Binary
import Verif.Proof.Squeeze
import Verif.Proof.Duplicate
import Verif.Spec.BatchNorm

/-! # Batch normalisation: the computation of one channel -/

namespace Aitisa

variable {E : Env} {m m0 m1 : Mem} {R R' : Foot} {T T' : TV} {c : Code} {q : Nat} {xs ys zs : List Val} {L : List Item} {α : Type}
  {Q : α → Mem → Prop}

/-! ### The chain of operators -/

theorem Runs.op {op : BinOp} {a b : Ptr} {k : Ptr → M (α ⊕ Status)} (P : Pool m m1 (.tensor R T :: L)) (l : Lost m0 m q)
    (A : TriesMalloc E (binaryOp op a b .indet) m1 .indet T')
    (hk : ∀ (R' : Foot) m2, Pool m m2 (.tensor R' T' :: L) → Runs E m0 q (k R'.h E m2) Q) :
    Runs E m0 q (bnOp op a b R.h k E m1) Q := by
  unfold bnOp
  refine Runs.malloc A (l.frame P.ext.toFrame P.ext.wf) fun R' m2 P' => ?_
  have P2 := (P.produce P').perm (List.Perm.swap _ _ _)
  exact Runs.destroy P2 fun P3 => hk R' _ P3

/-- A tensor on the CPU with the given dims and elements. -/
structure Vec (m : Mem) (R : Foot) (c : Code) (D : List Nat) (xs : List Val) (T : TV) : Prop where
  ok : At m R T
  el : Elems T c xs
  dims : T.dims = D
  dev : T.device.type = 0

theorem Vec.mk' {dev : Device} {D : List Nat} (h : At m R ⟨c.dtype, dev, D, encAll c xs⟩) (hw : ∀ x ∈ xs, x.WT c) (hl : xs.length = prod D)
    (hd : dev.type = 0) : Vec m R c D xs ⟨c.dtype, dev, D, encAll c xs⟩ := ⟨h, ⟨rfl, rfl, hw, hl⟩, rfl, hd⟩

theorem Vec.old {D : List Nat} (h : Vec m R c D xs T) (wf : m.WF) (P : Pool m m1 L) : Vec m1 R c D xs T :=
  ⟨P.old wf h.ok, h.el, h.dims, h.dev⟩

theorem Vec.op {R1 R2 : Foot} {T1 T2 : TV} {D : List Nat} {op : BinOp} (h1 : Vec m R1 c D xs T1) (h2 : Vec m R2 c D ys T2) (wf : m.WF)
    (hi : prod D ≤ 2147483647) (hl : zs.length = prod D)
    (hz : ∀ j, j < prod D → cBin E.fp c op (xs.getD j (.int 0)) (ys.getD j (.int 0)) = .ok (zs.getD j (.int 0))) :
    TriesMalloc E (binaryOp op R1.h R2.h .indet) m .indet ⟨c.dtype, T1.device, D, encAll c zs⟩ := by
  have l1 := h1.el.len
  rw [h1.dims] at l1
  have := binaryOp_run (E := E) (op := op) (zs := zs) wf h1.ok h1.el h2.ok h2.el h1.dev h2.dev (by rw [h1.dims, h2.dims]) (by rw [h1.dims]; exact hi)
    (fun i a b d => by
      have := hz i (by omega)
      simpa [List.getD_eq_getElem?_getD, a, b, d] using this)
    (by omega) .indet
  rwa [h1.dims] at this

theorem wt_getD {N j : Nat} (hw : ∀ x ∈ xs, x.WT c) (hl : xs.length = N) (hj : j < N) : (xs.getD j (.int 0)).WT c := by
  have : j < xs.length := by omega
  simp [List.getD_eq_getElem?_getD, this]
  exact hw _ (List.getElem_mem this)

theorem wt_of_getD {N : Nat} (hl : xs.length = N) (h : ∀ j, j < N → (xs.getD j (.int 0)).WT c) : ∀ x ∈ xs, x.WT c := by
  intro x hx
  obtain ⟨j, hj, rfl⟩ := List.getElem_of_mem hx
  have := h j (by omega)
  simpa [List.getD_eq_getElem?_getD, hj] using this

/-- The steps from `x` to `scale * ((x - mean) / d) + bias`. -/
def StepTo (fp : FloatOps) (c : Code) (sc bi me d x r : Val) : Prop :=
  ∃ a b p, cBin fp c .sub x me = .ok a ∧ cBin fp c .div a d = .ok b ∧ cBin fp c .mul sc b = .ok p ∧ cBin fp c .add p bi = .ok r

theorem getD_range {N j : Nat} (f : Nat → Val) (hj : j < N) : ((List.range N).map f).getD j (.int 0) = f j := by
  simp [List.getD_eq_getElem?_getD, hj]

theorem bnChain_run {D : List Nat} {ax : List Axis} {sq : List Nat} {ss bs ms dn : List Val} {Rs Rb Rm Rd : Foot} {Ts Tb Tm Td : TV}
    (wf : m.WF) (l : Lost m0 m q) (h : At m R T) (he : Elems T c xs) (hdev : T.device.type = 0) (h0 : T.dims ≠ []) (hf : SliceFits T.dims ax)
    (ha : AxFit ax) (hp : ∀ d ∈ sliceDims ax, 0 < d) (hD : Without (fun i => i ∈ sq) 0 (sliceDims ax) D) (hsq : sq ≠ [])
    (hnd : NoRepeatedUnit (sliceDims ax) sq) (hr : ∀ a ∈ sq, a < (sliceDims ax).length) (hpd : prod (sliceDims ax) = prod D)
    (hi : prod D ≤ 2147483647)
    (vs : Vec m Rs c D ss Ts) (vb : Vec m Rb c D bs Tb) (vm : Vec m Rm c D ms Tm) (vd : Vec m Rd c D dn Td) (hl : zs.length = prod D)
    (hz : ∀ j, j < prod D → StepTo E.fp c (ss.getD j (.int 0)) (bs.getD j (.int 0)) (ms.getD j (.int 0)) (dn.getD j (.int 0))
      ((sliceElems T.dims ax xs).getD j (.int 0)) (zs.getD j (.int 0))) :
    Runs E m0 q (bnChain R.h (bgs ax) (szs ax) (sts ax) (dimsCells sq) sq.length Rs.h Rb.h Rm.h Rd.h E m) (fun t m' =>
      ∃ R0 T0 R1 dev, t = (R0.h, R1.h) ∧ dev.type = 0 ∧ Pool m m' [.tensor R1 ⟨c.dtype, dev, D, encAll c zs⟩, .tensor R0 T0]) := by
  obtain ⟨N, hN⟩ : ∃ N, N = prod D := ⟨_, rfl⟩
  rw [← hN] at hl hz hi
  -- the intermediate values
  have hz' : ∀ j, ∃ t : Val × Val × Val, j < N → cBin E.fp c .sub ((sliceElems T.dims ax xs).getD j (.int 0)) (ms.getD j (.int 0)) = .ok t.1 ∧
      cBin E.fp c .div t.1 (dn.getD j (.int 0)) = .ok t.2.1 ∧ cBin E.fp c .mul (ss.getD j (.int 0)) t.2.1 = .ok t.2.2 ∧
      cBin E.fp c .add t.2.2 (bs.getD j (.int 0)) = .ok (zs.getD j (.int 0)) := by
    intro j
    by_cases hj : j < N
    · obtain ⟨a, b, p, h1, h2, h3, h4⟩ := hz j hj
      exact ⟨(a, b, p), fun _ => ⟨h1, h2, h3, h4⟩⟩
    · exact ⟨(.int 0, .int 0, .int 0), fun h => absurd h hj⟩
  obtain ⟨f, hfz⟩ := Classical.axiomOfChoice hz'
  have lx : (sliceElems T.dims ax xs).length = N := by rw [sliceElems_length, hpd, hN]
  have wx : ∀ x ∈ sliceElems T.dims ax xs, x.WT c := fun x hx => he.wt x (sliceElems_mem hf he.len x hx)
  have ls := vs.el.len; rw [vs.dims, ← hN] at ls
  have lb := vb.el.len; rw [vb.dims, ← hN] at lb
  have lm := vm.el.len; rw [vm.dims, ← hN] at lm
  have ld := vd.el.len; rw [vd.dims, ← hN] at ld
  have w1 : ∀ j, j < N → (f j).1.WT c := fun j hj => cBin_WT (wt_getD wx lx hj) (wt_getD vm.el.wt lm hj) (hfz j hj).1
  have w2 : ∀ j, j < N → (f j).2.1.WT c := fun j hj => cBin_WT (w1 j hj) (wt_getD vd.el.wt ld hj) (hfz j hj).2.1
  have w3 : ∀ j, j < N → (f j).2.2.WT c := fun j hj => cBin_WT (wt_getD vs.el.wt ls hj) (w2 j hj) (hfz j hj).2.2.1
  have hlen : ∀ g : Nat → Val, ((List.range N).map g).length = prod D := fun g => by simp [hN]
  have hwt : ∀ g : Nat → Val, (∀ j, j < N → (g j).WT c) → ∀ x ∈ (List.range N).map g, x.WT c := fun g hg x hx => by
    obtain ⟨j, hj, rfl⟩ := List.mem_map.1 hx
    exact hg j (List.mem_range.1 hj)
  unfold bnChain
  refine Runs.attempt (slice_run wf h he h0 hf ha (by rw [hpd, ← hN]; exact hi) .indet) l fun R0 m1 P0 => ?_
  obtain ⟨ds', hw, C⟩ := squeeze_run (E := E) P0.ext.wf P0.tensor hp hnd hr .indet
  have hds : ds' = D := by
    refine Without.unique hw ?_
    have : (fun i => sq = [] ∨ i ∈ sq) = (fun i => i ∈ sq) := by funext i; simp [hsq]
    rw [this]; exact hD
  subst hds
  have P1 := (Pool.nil wf).produce P0
  refine Runs.create C (l.frame P1.ext.toFrame P1.ext.wf) fun R1 m2 Pq => ?_
  have P2 := (P1.produce Pq).perm (List.Perm.swap _ _ _)
  refine Runs.destroy P2 fun P3 => ?_
  have v1 := Vec.mk' (P3.at (R := R1) (List.mem_singleton.2 rfl)) wx (by rw [lx, hN]) hdev
  refine Runs.op P3 l (v1.op (vm.old wf P3) P3.ext.wf (by omega) (hlen fun j => (f j).1) fun j hj => by
    rw [getD_range _ (by omega)]; exact (hfz j (by omega)).1) fun R2 m3 P4 => ?_
  have v2 := Vec.mk' (P4.at (R := R2) (List.mem_singleton.2 rfl)) (hwt _ w1) (hlen _) hdev
  refine Runs.op P4 l (v2.op (vd.old wf P4) P4.ext.wf (by omega) (hlen fun j => (f j).2.1) fun j hj => by
    rw [getD_range _ (by omega), getD_range _ (by omega)]; exact (hfz j (by omega)).2.1) fun R3 m4 P5 => ?_
  have v3 := Vec.mk' (P5.at (R := R3) (List.mem_singleton.2 rfl)) (hwt _ w2) (hlen _) hdev
  refine Runs.op P5 l ((vs.old wf P5).op v3 P5.ext.wf (by omega) (hlen fun j => (f j).2.2) fun j hj => by
    rw [getD_range _ (by omega), getD_range _ (by omega)]; exact (hfz j (by omega)).2.2.1) fun R4 m5 P6 => ?_
  have v4 := Vec.mk' (P6.at (R := R4) (List.mem_singleton.2 rfl)) (hwt _ w3) (hlen _) vs.dev
  refine Runs.malloc (v4.op (vb.old wf P6) P6.ext.wf (by omega) (zs := zs) (by omega) fun j hj => by
    rw [getD_range _ (by omega)]; exact (hfz j (by omega)).2.2.2) (l.frame P6.ext.toFrame P6.ext.wf) fun R5 m6 P7 => ?_
  exact .inl ⟨_, _, rfl, R4, _, R5, _, rfl, vs.dev, P6.produce P7⟩

/-! ### Copies -/

theorem encAll_drop (i : Nat) : (encAll c xs).drop (i * c.size) = encAll c (xs.drop i) := by
  induction i generalizing xs with
  | zero => simp
  | succ i ih =>
    cases xs with
    | nil => simp
    | cons x xs =>
      rw [encAll_cons, List.drop_append, List.length_map, encVal_length]
      rw [List.drop_eq_nil_of_le (by rw [List.length_map, encVal_length, Nat.succ_mul]; omega)]
      rw [List.nil_append, show (i + 1) * c.size - c.size = i * c.size by rw [Nat.succ_mul]; omega, ih]
      rfl

theorem memcpyTo_run {p N i k : Nat} {G : Nat → Option Val} {w : Val} (hs : m.blk p = some ⟨.own, .bytes (encAll c xs)⟩)
    (hd : m.blk q = some ⟨.own, .bytes (encOpt c (tab N G))⟩) (hi : i < N) (hk : xs[k]? = some w) :
    memcpyTo (.blk q) ((i * c.size : Nat) : Int) (.blk p) ((k * c.size : Nat) : Int) c.size E m = .ok () (m.arr q c N (upd G i (some w))) := by
  obtain ⟨hk', e⟩ := List.getElem?_eq_some_iff.1 hk
  have hw := wrElem_cell (c := c) (os := tab N G) (i := i) (by rw [tab_length]; exact hi) w
  have hl1 : (encAll c xs).length = xs.length * c.size := encAll_length c xs
  have hl2 : (encOpt c (tab N G)).length = N * c.size := by rw [encOpt_length, tab_length]
  have hle : (i + 1) * c.size ≤ N * c.size := Nat.mul_le_mul_right _ hi
  have hle' : (k + 1) * c.size ≤ xs.length * c.size := Nat.mul_le_mul_right _ hk'
  rw [Nat.succ_mul] at hle hle'
  unfold wrElem at hw
  rw [if_pos ⟨by omega, by rw [hl2, Int.add_mul, Int.one_mul, ← Int.natCast_mul]; omega⟩] at hw
  unfold memcpyTo
  msimp [run_derefB hs, run_derefB hd]
  rw [if_pos ⟨by omega, by omega, by omega, by rw [hl2]; omega⟩, run_putBody hd]
  have htake : ((encAll c xs).drop (k * c.size)).take c.size = (encVal c w).map some := by
    rw [encAll_drop, List.drop_eq_getElem_cons hk', encAll_cons, e, List.take_append_of_le_length (by simp [encVal_length]),
      List.take_of_length_le (by simp [encVal_length])]
  rw [show (((k * c.size : Nat) : Int)).toNat = k * c.size by omega, htake, show (((i * c.size : Nat) : Int)).toNat = i * c.size by omega]
  rw [Int.toNat_natCast] at hw
  injection hw with hw
  rw [hw, tab_set (H := upd G i (some w)) (fun j _ => rfl)]
  rfl

open Classical in
/-- `G` after the entries `pos 0, ..., pos (n-1)` have been given their values. -/
noncomputable def writes (pos : Nat → Nat) (W : Nat → Val) (n : Nat) (G : Nat → Option Val) : Nat → Option Val := fun i =>
  if ∃ k, k < n ∧ pos k = i then some (W i) else G i

theorem writes_zero (pos : Nat → Nat) (W : Nat → Val) (G : Nat → Option Val) : writes pos W 0 G = G := by
  funext i; simp [writes]

theorem writes_succ (pos : Nat → Nat) (W : Nat → Val) (n : Nat) (G : Nat → Option Val) :
    upd (writes pos W n G) (pos n) (some (W (pos n))) = writes pos W (n + 1) G := by
  funext i
  unfold upd writes
  by_cases h : i = pos n
  · subst h
    rw [if_pos rfl, if_pos ⟨n, by omega, rfl⟩]
  · rw [if_neg h]
    congr 1
    apply propext
    constructor
    · rintro ⟨k, hk, e⟩; exact ⟨k, by omega, e⟩
    · rintro ⟨k, hk, e⟩
      by_cases hkn : k = n
      · subst hkn; exact absurd e.symm h
      · exact ⟨k, by omega, e⟩

theorem writes_at {pos : Nat → Nat} {W : Nat → Val} {n k : Nat} {G : Nat → Option Val} (h : k < n) : writes pos W n G (pos k) = some (W (pos k)) := by
  unfold writes; rw [if_pos ⟨k, h, rfl⟩]

theorem writes_keep {pos : Nat → Nat} {W : Nat → Val} {n i : Nat} {G : Nat → Option Val} (h : G i = some (W i)) : writes pos W n G i = some (W i) := by
  unfold writes; split
  · rfl
  · exact h

theorem bnCopy_run {t N s : Nat} {dev : Device} {G : Nat → Option Val} {W : Nat → Val} (h : At m R ⟨c.dtype, dev, [t], encAll c xs⟩) 
    (hq : q ∉ R.list) (hN : s * t + t ≤ N) (hb : N * c.size ≤ 9223372036854775807)
    (hW : ∀ k, k < t → xs[k]? = some (W (s * t + k))) :
    bnCopy (.blk q) s R.h c.size E (m.arr q c N G) = .ok () (m.arr q c N (writes (fun k => s * t + k) W t G)) := by
  have h' : ∀ G, At (m.arr q c N G) R ⟨c.dtype, dev, [t], encAll c xs⟩ := fun G => h.set_ne hq _
  unfold bnCopy forI
  msimp [(h' G).tSize, (h' G).tData]
  rw [show prod [t] = t by simp [prod], Int.toNat_natCast]
  have := loopN_fn (E := E) (fun i (_ : Unit) => (do
      let a ← i64 ((s : Int) * (t : Int))
      let a ← i64 (a * c.size)
      let b ← i64 ((i : Int) * c.size)
      let o ← i64 (a + b)
      memcpyTo (.blk q) o (.blk R.p) b c.size : M Unit)) (fun _ => ()) (fun i => m.arr q c N (writes (fun k => s * t + k) W i G)) t (by
    intro i hi
    have hs : (s * t + i + 1) * c.size ≤ N * c.size := Nat.mul_le_mul_right _ (by omega)
    have hs' := hs
    rw [Nat.succ_mul, Nat.add_mul] at hs
    have hst : s * t ≤ N * c.size := by
      have : 1 ≤ c.size := by cases c <;> decide
      have : N * 1 ≤ N * c.size := Nat.mul_le_mul_left _ this
      omega
    have e1 := run_i64_nat (n := s * t) (by omega) E (m.arr q c N (writes (fun k => s * t + k) W i G))
    have e2 := run_i64_nat (n := s * t * c.size) (by omega) E (m.arr q c N (writes (fun k => s * t + k) W i G))
    have e3 := run_i64_nat (n := i * c.size) (by omega) E (m.arr q c N (writes (fun k => s * t + k) W i G))
    have e4 := run_i64_nat (n := s * t * c.size + i * c.size) (by omega) E (m.arr q c N (writes (fun k => s * t + k) W i G))
    simp only [Int.natCast_mul, Int.natCast_add] at e1 e2 e3 e4
    have e5 := memcpyTo_run (E := E) (m := m.arr q c N (writes (fun k => s * t + k) W i G)) (q := q) (i := s * t + i) (k := i) (N := N) (G := writes (fun k => s * t + k) W i G) (h' _).data (by simp [Mem.arr]) (by omega) (hW i hi)
    rw [writes_succ (fun k => s * t + k) W i G, Mem.arr_arr] at e5
    simp only [Nat.add_mul, Int.natCast_mul, Int.natCast_add] at e5
    msimp [e1, e2, e3, e4, e5])
  rw [writes_zero] at this
  exact this

end Aitisa
