import Verif.Proof.BatchNorm3

/-! # Batch normalisation: rank 3 and more, one channel of one sample -/

namespace Aitisa

variable {E : Env} {m m0 m1 mi mB : Mem} {R R' : Foot} {T T' : TV} {c : Code} {q N : Nat} {xs ys zs : List Val} {L : List Item}
  {G : Nat → Option Val}

/-! ### The slice -/

/-- A whole axis. -/
def wholeAx (d : Nat) : Axis := ⟨0, d, 1⟩

/-- The slice that takes channel `ch` of sample `s`. -/
def cellAx (s ch : Nat) (pre post : List Nat) : List Axis := ⟨s, 1, 1⟩ :: (pre.map wholeAx ++ ⟨ch, 1, 1⟩ :: post.map wholeAx)

theorem sliceDims_append (a b : List Axis) : sliceDims (a ++ b) = sliceDims a ++ sliceDims b := by
  induction a with
  | nil => rfl
  | cons x a ih => simp only [List.cons_append, sliceDims, ih]; split <;> simp

theorem sliceDims_whole {l : List Nat} (h : ∀ d ∈ l, 0 < d) : sliceDims (l.map wholeAx) = l := by
  induction l with
  | nil => rfl
  | cons d l ih =>
    have hd := h d (by simp)
    have : ceilDiv d 1 = d := by simp [ceilDiv]
    simp only [List.map_cons, sliceDims, wholeAx]
    rw [if_neg (by omega), this]
    congr 1
    exact ih fun x hx => h x (by simp [hx])

theorem cellAx_dims {s ch : Nat} {pre post : List Nat} (h : ∀ d ∈ pre ++ post, 0 < d) :
    sliceDims (cellAx s ch pre post) = 1 :: (pre ++ 1 :: post) := by
  have h1 : ceilDiv 1 1 = 1 := by decide
  unfold cellAx
  simp only [sliceDims, Nat.one_ne_zero, if_false, h1, sliceDims_append]
  rw [sliceDims_whole (l := pre) fun d hd => h d (by simp [hd]), sliceDims_whole (l := post) fun d hd => h d (by simp [hd])]

theorem whole_fits {l : List Nat} (h : ∀ d ∈ l, 0 < d) {ds : List Nat} {ax : List Axis} (hf : SliceFits ds ax) :
    SliceFits (l ++ ds) (l.map wholeAx ++ ax) := by
  induction l with
  | nil => exact hf
  | cons d l ih => exact ⟨⟨h d (by simp), by simp [wholeAx], by simp [wholeAx]⟩, ih fun x hx => h x (by simp [hx])⟩

theorem cellAx_fits {d C s ch : Nat} {pre post : List Nat} (h : ∀ d ∈ pre ++ post, 0 < d) (hs : s < d) (hc : ch < C) :
    SliceFits (d :: (pre ++ C :: post)) (cellAx s ch pre post) := by
  refine ⟨⟨hs, by simp; omega, by simp⟩, whole_fits (fun d hd => h d (by simp [hd])) ⟨⟨hc, by simp; omega, by simp⟩, ?_⟩⟩
  have := whole_fits (l := post) (fun d hd => h d (by simp [hd])) (ds := []) (ax := []) trivial
  simpa using this

theorem source_whole {l : List Nat} (h : ∀ d ∈ l, 0 < d) {u v : List Nat} (hu : u.length = l.length) (ax : List Axis) :
    source (l.map wholeAx ++ ax) (u ++ v) = u ++ source ax v := by
  induction l generalizing u with
  | nil =>
    have : u = [] := List.length_eq_zero_iff.1 (by simpa using hu)
    subst this; rfl
  | cons d l ih =>
    cases u with
    | nil => simp at hu
    | cons x u =>
      have hd := h d (by simp)
      simp only [List.map_cons, List.cons_append, source, wholeAx, List.headD_cons, List.tail_cons, Nat.ne_of_gt hd, if_false, Nat.zero_add, Nat.one_mul]
      congr 1
      exact ih (fun x hx => h x (by simp [hx])) (by simpa using hu)

theorem cellAx_source {s ch : Nat} {pre post u : List Nat} (h : ∀ d ∈ pre ++ post, 0 < d) (hu : u.length = (pre ++ post).length) :
    source (cellAx s ch pre post) (cellIdx pre.length 0 0 u) = cellIdx pre.length s ch u := by
  simp only [List.length_append] at hu
  unfold cellAx cellIdx
  simp only [source, Nat.one_ne_zero, if_false, List.headD_cons, List.tail_cons, Nat.mul_zero, Nat.add_zero]
  congr 1
  rw [source_whole (fun d hd => h d (by simp [hd])) (by rw [List.length_take]; omega)]
  simp only [source, Nat.one_ne_zero, if_false, List.headD_cons, List.tail_cons, Nat.mul_zero, Nat.add_zero]
  congr 2
  have := source_whole (l := post) (fun d hd => h d (by simp [hd])) (u := u.drop pre.length) (v := []) (by simp; omega) []
  simpa [source] using this

theorem lin_app (a b u v : List Nat) (h : u.length = a.length) : lin (a ++ b) (u ++ v) = lin a u * prod b + lin b v := by
  induction a generalizing u with
  | nil =>
    have : u = [] := List.length_eq_zero_iff.1 (by simpa using h)
    subst this; simp [lin]
  | cons d a ih =>
    cases u with
    | nil => simp at h
    | cons x u =>
      simp only [List.cons_append, lin, ih u (by simpa using h), prod_append, Nat.add_mul, Nat.mul_assoc, Nat.add_assoc]

theorem cell_lin {pre post u : List Nat} (hu : u.length = (pre ++ post).length) :
    lin (1 :: (pre ++ 1 :: post)) (cellIdx pre.length 0 0 u) = lin (pre ++ post) u := by
  simp only [List.length_append] at hu
  unfold cellIdx
  have hl : (u.take pre.length).length = pre.length := by rw [List.length_take]; omega
  simp only [lin, Nat.zero_mul, Nat.zero_add]
  rw [lin_app _ _ _ _ hl]
  have := lin_app pre post (u.take pre.length) (u.drop pre.length) hl
  rw [List.take_append_drop] at this
  rw [this]
  simp [lin, prod]

theorem cell_inRange {pre post u : List Nat} (hu : InRange (pre ++ post) u) : InRange (1 :: (pre ++ 1 :: post)) (cellIdx pre.length 0 0 u) :=
  cellIdx_inRange (by omega) (by omega) hu

theorem cellAx_elem {d C s ch k : Nat} {pre post : List Nat} (h : ∀ d ∈ pre ++ post, 0 < d) (hs : s < d) (hc : ch < C) (hk : k < prod (pre ++ post))
    (hl : xs.length = prod (d :: (pre ++ C :: post))) :
    (sliceElems (d :: (pre ++ C :: post)) (cellAx s ch pre post) xs).getD k (.int 0) = xs.getD (cellPos d pre C post s ch k) (.int 0) := by
  have hr := unlin_inRange hk
  have hul := unlin_length (pre ++ post) k
  obtain ⟨v, e1, e2⟩ := sliceElems_get (cellAx_fits h hs hc) hl (oc := cellIdx pre.length 0 0 (unlin (pre ++ post) k))
    (by rw [cellAx_dims h]; exact cell_inRange hr)
  rw [cellAx_dims h, cell_lin hul, lin_unlin hk] at e1
  rw [cellAx_source h hul] at e2
  simp [List.getD_eq_getElem?_getD, e1, e2, cellPos]

theorem without_keep {A : Nat → Prop} {l ds ds' : List Nat} {k : Nat} (h : ∀ i, k ≤ i → i < k + l.length → ¬ A i) (hw : Without A (k + l.length) ds ds') :
    Without A k (l ++ ds) (l ++ ds') := by
  induction l generalizing k with
  | nil => exact hw
  | cons d l ih =>
    simp only [List.length_cons] at h hw
    refine .inr ⟨fun hh => h k (by omega) (by omega) hh.2, _, rfl, ih (fun i h1 h2 => h i (by omega) (by omega)) ?_⟩
    rwa [show k + 1 + l.length = k + (l.length + 1) by omega]

theorem cell_without (pre post : List Nat) :
    Without (fun i => i ∈ [0, 1 + pre.length]) 0 (1 :: (pre ++ 1 :: post)) (pre ++ post) := by
  refine .inl ⟨rfl, by simp, without_keep (fun i h1 h2 => by simp; omega) (.inl ⟨rfl, by simp, ?_⟩)⟩
  have := without_keep (A := fun i => i ∈ [0, 1 + pre.length]) (l := post) (ds := []) (ds' := []) (k := 0 + 1 + pre.length + 1)
    (fun i h1 h2 => by simp; omega) rfl
  simpa using this

attribute [local irreducible] toI32

theorem set_two (a b : List Int) (x y s t : Int) {n : Nat} (hn : n = 1 + a.length) :
    ((x :: (a ++ y :: b)).set 0 s).set n t = s :: (a ++ t :: b) := by
  subst hn
  rw [List.set_cons_zero, Nat.add_comm, List.set_cons_succ, List.set_append_right _ _ (Nat.le_refl _), Nat.sub_self]
  rfl

theorem of_map_ints (l : List Nat) (f : Int → Int) (g : Nat → Nat) (h : ∀ x ∈ l, f x = g x) : (ints l).map f = ints (l.map g) := by
  induction l with
  | nil => rfl
  | cons x l ih =>
    have := ih fun y hy => h y (by simp [hy])
    simp only [ints, List.map_cons] at this ⊢
    rw [this, h x (by simp)]

theorem arrOf_ints (l : List Nat) : Arr.of (ints l) = dimsCells l := by simp [Arr.of, ints, dimsCells]

/-- The arrays given to the slice. -/
theorem cellAx_bgs {d C s ch : Nat} (hs : s ≤ 2147483647) (hc : ch ≤ 2147483647) (pre post : List Nat) :
    Arr.of (((((ints (d :: (pre ++ C :: post))).map fun _ => (1 : Int)).map fun _ => (0 : Int)).set 0 (toI32 s)).set ((1 + pre.length : Nat) : Int).toNat (toI32 ch)) =
      bgs (cellAx s ch pre post) := by
  rw [toI32_nat hs, toI32_nat hc, Int.toNat_natCast, of_map_ints _ _ (fun _ => 1) (fun _ _ => rfl), of_map_ints _ _ (fun _ => 0) (fun _ _ => rfl)]
  have := set_two (ints (pre.map fun _ => 0)) (ints (post.map fun _ => 0)) 0 0 s ch (n := 1 + pre.length) (by simp [ints])
  simp only [ints, List.map_cons, List.map_append, List.map_map] at this ⊢
  refine (congrArg Arr.of this).trans ?_
  simp [bgs, cellAx, Arr.of, dimsCells, wholeAx, Function.comp_def]

theorem cellAx_sts {d C s ch : Nat} (pre post : List Nat) :
    Arr.of ((ints (d :: (pre ++ C :: post))).map fun _ => (1 : Int)) = sts (cellAx s ch pre post) := by
  rw [of_map_ints _ _ (fun _ => 1) (fun _ _ => rfl), arrOf_ints]
  simp [sts, cellAx, wholeAx, Function.comp_def]

theorem cellAx_szs {d C s ch : Nat} (pre post : List Nat) (hi : ∀ x ∈ pre ++ post, x ≤ 2147483647) :
    Arr.of ((((ints (d :: (pre ++ C :: post))).map toI32).set 0 1).set ((1 + pre.length : Nat) : Int).toNat 1) = szs (cellAx s ch pre post) := by
  have e1 := of_map_ints pre toI32 id fun x hx => toI32_nat (hi x (by simp [hx]))
  have e2 := of_map_ints post toI32 id fun x hx => toI32_nat (hi x (by simp [hx]))
  rw [Int.toNat_natCast, show (ints (d :: (pre ++ C :: post))).map toI32 = toI32 d :: ((ints pre).map toI32 ++ toI32 C :: (ints post).map toI32) by simp [ints],
    set_two _ _ _ _ _ _ (by simp [ints]), e1, e2]
  simp [szs, cellAx, wholeAx, Arr.of, dimsCells, ints, Function.comp_def]

theorem cellIdx_set_s {p s s' ch : Nat} {u : List Nat} : (ints (cellIdx p s ch u)).set 0 (s' : Int) = ints (cellIdx p s' ch u) := by
  simp [cellIdx, ints]

theorem cellIdx_set_ch {p s ch ch' : Nat} {u : List Nat} (hp : p ≤ u.length) :
    (ints (cellIdx p s ch u)).set ((1 + p : Nat) : Int).toNat (ch' : Int) = ints (cellIdx p s ch' u) := by
  have := set_two (ints (u.take p)) (ints (u.drop p)) s ch s ch' (n := 1 + p) (by simp [ints]; omega)
  rw [List.set_cons_zero] at this
  rw [Int.toNat_natCast]
  simp only [ints, cellIdx, List.map_cons, List.map_append] at this ⊢
  exact this

/-! ### The tensors of the channels -/

/-- Tensors with the parameters of a channel in every element. -/
def ChanOk (m : Mem) (q : Nat) (c : Code) (D : List Nat) (x : BnChan) (sc bi me dn : Val) : Prop :=
  ∃ Rs Ts Rb Tb Rm Tm Rd Td, x = ⟨Foot.h Rm, Foot.h Rs, Foot.h Rb, Foot.h Rd⟩ ∧
    Vec m Rs c D (List.replicate (prod D) sc) Ts ∧ Vec m Rb c D (List.replicate (prod D) bi) Tb ∧
    Vec m Rm c D (List.replicate (prod D) me) Tm ∧ Vec m Rd c D (List.replicate (prod D) dn) Td ∧
    q ∉ Foot.list Rs ∧ q ∉ Foot.list Rb ∧ q ∉ Foot.list Rm ∧ q ∉ Foot.list Rd

/-- A pointer array with `C` entries. -/
def PtrArr (m : Mem) (q : Nat) (C : Nat) (p : Ptr) : Prop := p ≠ .null ∧ ∃ K, q ∉ K ∧ Temp m p K (8 * C)

/-- The four arrays and the tensors they hold. -/
structure ArrsOk (m : Mem) (q : Nat) (c : Code) (D : List Nat) (A : BnArrs) (C : Nat) (ss bs ms dn : List Val) : Prop where
  pm : PtrArr m q C A.pm
  ps : PtrArr m q C A.ps
  pb : PtrArr m q C A.pb
  pd : PtrArr m q C A.pd
  ch : ∀ k, k < C → ∃ x, A.ch[k]? = some x ∧ ChanOk m q c D x (ss.getD k (.int 0)) (bs.getD k (.int 0)) (ms.getD k (.int 0)) (dn.getD k (.int 0))

theorem PtrArr.touch {C : Nat} {p : Ptr} (h : PtrArr mB q C p) (wf : mB.WF) (hq : q < mB.next) (P : Pool (mB.arr q c N G) mi L) {k : Nat} (hk : k < C) :
    touch p (8 * k) (8 * k + 8) E mi = .ok () mi := by
  obtain ⟨hn, K, hqK, t⟩ := h
  have t1 : Temp (mB.arr q c N G) p K (8 * C) := t.congr fun b hb => by
    unfold Mem.arr
    rw [Mem.set_blk_ne]
    rintro rfl
    exact hqK hb
  exact Temp.touch (P.oldTemp (Mem.WF.arr wf hq G) t1) hn (by omega) (by omega)

theorem ArrsOk.get {D : List Nat} {A : BnArrs} {C : Nat} {ss bs ms dn : List Val} (h : ArrsOk mB q c D A C ss bs ms dn) (wf : mB.WF) (hq : q < mB.next)
    (P : Pool (mB.arr q c N G) mi L) {k : Nat} (hk : k < C) :
    ∃ x, A.get k E mi = .ok x mi ∧ ChanOk mB q c D x (ss.getD k (.int 0)) (bs.getD k (.int 0)) (ms.getD k (.int 0)) (dn.getD k (.int 0)) := by
  obtain ⟨x, e, hx⟩ := h.ch k hk
  refine ⟨x, ?_, hx⟩
  unfold BnArrs.get
  msimp [h.pm.touch wf hq P hk, h.ps.touch wf hq P hk, h.pb.touch wf hq P hk, h.pd.touch wf hq P hk, e]

/-- Everything before channel `ch` of sample `s` has its value. -/
def Done (d : Nat) (pre : List Nat) (C : Nat) (post : List Nat) (W : Nat → Val) (G : Nat → Option Val) (s ch : Nat) : Prop :=
  ∀ s' ch' k, s' < d → ch' < C → k < prod (pre ++ post) → (s' < s ∨ s' = s ∧ ch' < ch) →
    G (cellPos d pre C post s' ch' k) = some (W (cellPos d pre C post s' ch' k))

theorem getD_replicate {n j : Nat} {v : Val} (h : j < n) : (List.replicate n v).getD j (.int 0) = v := by
  simp [List.getD_eq_getElem?_getD, h]

theorem bnCell_run {d C s ch : Nat} {pre post : List Nat} {ss bs ms dn : List Val} {A : BnArrs} {Ro : Foot} {To : TV} {W : Nat → Val}
    (wf : mB.WF) (hq : q < mB.next) (l : Lost m0 mB q) (h : At mB R T) (hR : q ∉ R.list) (he : Elems T c xs) (hdev : T.device.type = 0)
    (hds : T.dims = d :: (pre ++ C :: post)) (hpos : ∀ x ∈ pre ++ post, 0 < x) (hs : s < d) (hc : ch < C) (hd : d ≤ 2147483647) (hC : C ≤ 2147483647)
    (hi : prod (pre ++ post) ≤ 2147483647) (ha : ArrsOk mB q c (pre ++ post) A C ss bs ms dn)
    (ho : At mB Ro To) (hoq : Ro.p = q) (hods : To.dims = T.dims) (hodt : To.dtype = c.dtype) (hN : N = prod T.dims)
    (hz : ∀ s ch k, s < d → ch < C → k < prod (pre ++ post) → StepTo E.fp c (ss.getD ch (.int 0)) (bs.getD ch (.int 0)) (ms.getD ch (.int 0))
      (dn.getD ch (.int 0)) (xs.getD (cellPos d pre C post s ch k) (.int 0)) (W (cellPos d pre C post s ch k)))
    (P : Pool (mB.arr q c N G) mi []) (hG : Done d pre C post W G s ch) {c0 : Nat} :
    Runs E m0 q (bnCell R.h ((1 + pre.length : Nat) : Int) A Ro.h ((((ints T.dims).map toI32).set 0 1).set ((1 + pre.length : Nat) : Int).toNat 1)
        ((ints T.dims).map fun _ => 1) (ints (strides T.dims)) s ch (ints (cellIdx pre.length s c0 (unlin (pre ++ post) 0))) E mi) (fun idx m' =>
      idx = ints (cellIdx pre.length s ch (unlin (pre ++ post) 0)) ∧ ∃ G', Pool (mB.arr q c N G') m' [] ∧ Done d pre C post W G' s (ch + 1)) := by
  have hsl := cellAx_dims (s := s) (ch := ch) hpos
  have hlen := he.len
  rw [hds] at hlen
  have hxi : ∀ x ∈ pre ++ post, x ≤ 2147483647 := fun x hx => Nat.le_trans (le_prod hpos hx) hi
  obtain ⟨x, eg, Rs, Ts, Rb, Tb, Rm, Tm, Rd, Td, rfl, vs, vb, vm, vd, ns, nb, nm, nd⟩ := ha.get (E := E) wf hq P hc
  have lx := Lost.trans l P.lostSet
  have hpp : prod (1 :: (pre ++ 1 :: post)) = prod (pre ++ post) := by simp [prod, prod_append]
  have hch := bnChain_run (E := E) (m := mi) (m0 := m0) (q := q) (c := c) (xs := xs) (D := pre ++ post) (ax := cellAx s ch pre post) (sq := [0, 1 + pre.length])
    (zs := (List.range (prod (pre ++ post))).map fun k => W (cellPos d pre C post s ch k)) P.ext.wf lx (P.under wf hq h hR) he hdev (by simp [hds])
    (by rw [hds]; exact cellAx_fits hpos hs hc)
    (by
      intro a ha
      simp only [cellAx, List.mem_cons, List.mem_append, List.mem_map] at ha
      rcases ha with rfl | ⟨x, hx, rfl⟩ | rfl | ⟨x, hx, rfl⟩
      · simp; omega
      · have := hxi x (by simp [hx]); simp [wholeAx]; omega
      · simp; omega
      · have := hxi x (by simp [hx]); simp [wholeAx]; omega)
    (by
      rw [hsl]; intro x hx
      simp only [List.mem_cons, List.mem_append] at hx
      rcases hx with rfl | hx | rfl | hx
      · omega
      · exact hpos x (by simp [hx])
      · omega
      · exact hpos x (by simp [hx]))
    (by rw [hsl]; exact cell_without pre post)
    (by simp)
    (by
      intro j k a hjk h1 h2
      rw [List.getElem?_eq_some_iff] at h1 h2
      obtain ⟨h1, e1⟩ := h1
      obtain ⟨h2, e2⟩ := h2
      simp at h1 h2
      obtain ⟨rfl, rfl⟩ : j = 0 ∧ k = 1 := by omega
      simp at e1 e2
      omega)
    (by rw [hsl]; simp; omega) (by rw [hsl, hpp]) hi
    (vs.under P wf hq ns) (vb.under P wf hq nb) (vm.under P wf hq nm) (vd.under P wf hq nd) (by simp)
    (by
      intro k hk
      have := hz s ch k hs hc hk
      rwa [hds, cellAx_elem hpos hs hc hk hlen, getD_range _ hk, getD_replicate hk, getD_replicate hk, getD_replicate hk, getD_replicate hk])
  have ec : bnChain R.h (Arr.of (((((ints T.dims).map fun _ => (1 : Int)).map fun _ => (0 : Int)).set 0 (toI32 s)).set ((1 + pre.length : Nat) : Int).toNat (toI32 ch)))
        (Arr.of ((((ints T.dims).map toI32).set 0 1).set ((1 + pre.length : Nat) : Int).toNat 1)) (Arr.of ((ints T.dims).map fun _ => 1))
        (Arr.of [0, ((1 + pre.length : Nat) : Int)]) 2 Rs.h Rb.h Rm.h Rd.h E mi =
      bnChain R.h (bgs (cellAx s ch pre post)) (szs (cellAx s ch pre post)) (sts (cellAx s ch pre post)) (dimsCells [0, 1 + pre.length])
        (([0, 1 + pre.length] : List Nat).length : Int) Rs.h Rb.h Rm.h Rd.h E mi := by
    rw [hds, cellAx_bgs (by omega) (by omega), cellAx_szs pre post hxi, cellAx_sts (s := s) (ch := ch)]
    rfl
  rw [← ec] at hch
  have hset := cellIdx_set_ch (p := pre.length) (s := s) (ch := c0) (ch' := ch) (u := unlin (pre ++ post) 0) (by rw [unlin_length]; simp)
  unfold bnCell
  rcases hch with ⟨t, m', e, R0, T0, R1, dev, rfl, hdv, P1⟩ | ⟨nf, ⟨m', e, l'⟩ | e⟩
  · left
    have hqi : q < mi.next := by have := P.ext.next; have : (mB.arr q c N G).next = mB.next := rfl; omega
    have hqR1 : q ∉ R1.list := fun hh => by
      have := P1.fresh q (by simp [Item.blocks, hh])
      omega
    have hcell : m'.blk q = some ⟨.own, .bytes (encOpt c (tab N G))⟩ := by rw [P1.ext.same q hqi, P.cell hq]
    have tr := bnTransport_run (E := E) (m := m') (R := R1) (Ro := Ro) (q := q) (d := d) (C := C) (s := s) (ch := ch) (pre := pre) (post := post) (N := N) (G := G) (W := W)
      (dev := dev) (xs := (List.range (prod (pre ++ post))).map fun k => W (cellPos d pre C post s ch k)) (To := { To with bytes := encOpt c (tab N G) })
      (P1.at (R := R1) (by simp)) hqR1 (by
        have h1 := ho.setData (bs := encOpt c (tab N G)) (by rw [encOpt_length, tab_length, ho.len, hodt, hods, hN]; rfl)
        rw [hoq] at h1
        exact P1.old P.ext.wf (P.old (Mem.WF.arr wf hq G) h1)) hoq (by rw [← hds]; exact hods) hodt (by rw [hN]; show _ = prod To.dims; rw [hods]) hs hc
      (by intro k hk; simp [hk])
    rw [Mem.arr_self hcell] at tr
    simp only [hods] at tr
    have P2 := (P1.put (c := c) (N := N) hqi (writes (cellPos d pre C post s ch) W (prod (pre ++ post)) G)).perm (List.Perm.swap _ _ _)
    obtain ⟨d1, P3⟩ := P2.destroy (E := E)
    obtain ⟨d2, P4⟩ := P3.destroy (E := E)
    have P6 := P.write hq (writes (cellPos d pre C post s ch) W (prod (pre ++ post)) G)
    refine ⟨_, _, ?_, rfl, _, P6.clean' P4, ?_⟩
    · unfold bnRelease orRet
      msimp [eg, e, hset, tr, d1, d2]
    · intro s' ch' k hs' hc' hk hlt
      by_cases hb : s' < s ∨ s' = s ∧ ch' < ch
      · exact writes_keep (hG s' ch' k hs' hc' hk hb)
      · obtain ⟨rfl, rfl⟩ : s' = s ∧ ch' = ch := by omega
        exact writes_at hk
  · exact .inr ⟨nf, .inl ⟨m', by msimp [eg, e], l'⟩⟩
  · exact .inr ⟨nf, .inr (by msimp [eg, e])⟩

end Aitisa
