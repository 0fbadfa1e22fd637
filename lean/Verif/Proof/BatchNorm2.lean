import Verif.Proof.BatchNorm
import Verif.Proof.Unary

/-! # Batch normalisation: rank 2 -/

namespace Aitisa

variable {E : Env} {m m0 m1 mi mB : Mem} {R R' : Foot} {T T' : TV} {c : Code} {q N : Nat} {xs ys zs : List Val} {L : List Item} {α β : Type}
  {Q : α → Mem → Prop} {G : Nat → Option Val}

/-! ### Filling an array of the base memory -/

theorem Mem.arr_next (m : Mem) (q : Nat) (c : Code) (N : Nat) (G) : (m.arr q c N G).next = m.next := rfl

theorem Pool.write (P : Pool (mB.arr q c N G) mi L) (hq : q < mB.next) (G' : Nat → Option Val) :
    Pool (mB.arr q c N G') (mi.arr q c N G') L := by
  have := P.rebase (q := q) hq ⟨.own, .bytes (encOpt c (tab N G'))⟩
  unfold Mem.arr at this ⊢
  rwa [Mem.set_set] at this

theorem Pool.put (P : Pool m m1 L) (hq : q < m.next) (G : Nat → Option Val) : Pool (m.arr q c N G) (m1.arr q c N G) L := P.rebase hq _

theorem Pool.cell (P : Pool (mB.arr q c N G) mi L) (hq : q < mB.next) : mi.blk q = some ⟨.own, .bytes (encOpt c (tab N G))⟩ := by
  rw [P.ext.same q hq]; simp [Mem.arr]

theorem Mem.arr_self {m : Mem} (h : m.blk q = some ⟨.own, .bytes (encOpt c (tab N G))⟩) : m.arr q c N G = m := Mem.set_self _ _ _ h

theorem Pool.under (P : Pool (mB.arr q c N G) mi L) (wf : mB.WF) (hq : q < mB.next) (h : At mB R T) (hn : q ∉ R.list) : At mi R T := by
  refine P.old ?_ (h.set_ne hn _)
  intro b hb
  have hb' : mB.next ≤ b := hb
  unfold Mem.arr
  rw [Mem.set_blk_ne _ _ (by omega), wf b hb']

theorem Mem.WF.arr (wf : m.WF) (hq : q < m.next) (G) : (m.arr q c N G).WF := by
  intro b hb
  have hb' : m.next ≤ b := hb
  unfold Mem.arr
  rw [Mem.set_blk_ne _ _ (by omega), wf b hb']

theorem Pool.clean' (P : Pool m m1 []) (P' : Pool m1 mi L) : Pool m mi L := by simpa using P.append P'

theorem Vec.under {D : List Nat} (h : Vec mB R c D xs T) (P : Pool (mB.arr q c N G) mi L) (wf : mB.WF) (hq : q < mB.next) (hn : q ∉ R.list) :
    Vec mi R c D xs T := ⟨P.under wf hq h.ok hn, h.el, h.dims, h.dev⟩

theorem Runs.bind {x : M (α ⊕ Status)} {k : α → M (β ⊕ Status)} {y : M (β ⊕ Status)} {Q' : β → Mem → Prop} (h : Runs E m0 q (x E m) Q)
    (e1 : ∀ a m', x E m = .ok (.inl a) m' → y E m = k a E m') (e2 : ∀ st m', x E m = .ok (.inr st) m' → y E m = .ok (.inr st) m')
    (e3 : ∀ u, x E m = .ub u → y E m = .ub u) (hk : ∀ a m', Q a m' → Runs E m0 q (k a E m') Q') : Runs E m0 q (y E m) Q' := by
  rcases h with ⟨a, m', e, h⟩ | ⟨nf, ⟨m', e, l⟩ | e⟩
  · exact (hk a m' h).of_eq (e1 a m' e)
  · exact .inr ⟨nf, .inl ⟨m', e2 _ _ e, l⟩⟩
  · exact .inr ⟨nf, .inr (e3 _ e)⟩

/-! ### The rows -/

/-- Slice that takes row `s` of a matrix. -/
def rowAx (s C : Nat) : List Axis := [⟨s, 1, 1⟩, ⟨0, C, 1⟩]

theorem rowAx_dims {s C : Nat} (hC : 0 < C) : sliceDims (rowAx s C) = [1, C] := by
  have : ceilDiv C 1 = C := by simp [ceilDiv]
  simp [rowAx, sliceDims, Nat.ne_of_gt hC, this, ceilDiv]

theorem rowAx_elem {s d C j : Nat} (hs : s < d) (hj : j < C) (hl : xs.length = prod [d, C]) :
    (sliceElems [d, C] (rowAx s C) xs).getD j (.int 0) = xs.getD (s * C + j) (.int 0) := by
  have hC : 0 < C := by omega
  obtain ⟨v, e1, e2⟩ := sliceElems_get (ds := [d, C]) (ax := rowAx s C) (xs := xs) ⟨⟨hs, by simp; omega, by simp⟩, ⟨by simpa using hC, by simp, by simp⟩, trivial⟩ hl
    (oc := [0, j]) (by rw [rowAx_dims hC]; exact ⟨by omega, hj, trivial⟩)
  rw [rowAx_dims hC] at e1
  have l1 : lin [1, C] [0, j] = j := by simp [lin, prod]
  have l2 : lin [d, C] (source (rowAx s C) [0, j]) = s * C + j := by
    simp [rowAx, source, Nat.ne_of_gt hC, lin, prod]
  rw [l1] at e1
  rw [l2] at e2
  simp [List.getD_eq_getElem?_getD, e1, e2]

theorem bnRow_run {d C s : Nat} {ss bs ms dn : List Val} {Rs Rb Rm Rd : Foot} {Ts Tb Tm Td : TV} {W : Nat → Val}
    (wf : mB.WF) (hq : q < mB.next) (l : Lost m0 mB q) (h : At mB R T) (hR : q ∉ R.list) (he : Elems T c xs) (hdev : T.device.type = 0)
    (hds : T.dims = [d, C]) (hs : s < d) (hC : 0 < C) (hd : d ≤ 2147483647) (hi : C ≤ 2147483647) (hN : N = d * C)
    (vs : Vec mB Rs c [C] ss Ts) (vb : Vec mB Rb c [C] bs Tb) (vm : Vec mB Rm c [C] ms Tm) (vd : Vec mB Rd c [C] dn Td)
    (ns : q ∉ Rs.list) (nb : q ∉ Rb.list) (nm : q ∉ Rm.list) (nd : q ∉ Rd.list)
    (hz : ∀ s j, s < d → j < C → StepTo E.fp c (ss.getD j (.int 0)) (bs.getD j (.int 0)) (ms.getD j (.int 0)) (dn.getD j (.int 0))
      (xs.getD (s * C + j) (.int 0)) (W (s * C + j)))
    (P : Pool (mB.arr q c N G) mi []) (hG : ∀ i, i < s * C → G i = some (W i)) :
    Runs E m0 q (bnRow R.h Rs.h Rb.h Rm.h Rd.h (.blk q) c.size [1, toI32 C] s s E mi) (fun b m' =>
      b = ((s + 1 : Nat) : Int) ∧ ∃ G', Pool (mB.arr q c N G') m' [] ∧ ∀ i, i < (s + 1) * C → G' i = some (W i)) := by
  have hsl := rowAx_dims (s := s) hC
  have hlen := he.len
  rw [hds] at hlen
  have e1 : (sliceElems T.dims (rowAx s C) xs).length = C := by rw [sliceElems_length, hsl]; simp [prod]
  have lx := Lost.trans l P.lostSet
  have hch := bnChain_run (E := E) (m := mi) (m0 := m0) (q := q) (c := c) (xs := xs) (D := [C]) (ax := rowAx s C) (sq := [0])
    (zs := (List.range C).map fun j => W (s * C + j)) P.ext.wf lx (P.under wf hq h hR) he hdev (by simp [hds])
    (by rw [hds]; exact ⟨⟨hs, by show s + 1 ≤ d; omega, by simp⟩, ⟨by simpa using hC, by simp, by simp⟩, trivial⟩)
    (by intro a ha; simp [rowAx] at ha; rcases ha with rfl | rfl <;> simp <;> omega)
    (by rw [hsl]; intro x hx; simp at hx; omega)
    (by rw [hsl]; refine .inl ⟨rfl, by simp, .inr ⟨by simp, [], by simp, rfl⟩⟩)
    (by simp) (by intro j k a hjk h1 h2; rw [List.getElem?_eq_some_iff] at h1 h2; obtain ⟨h1, _⟩ := h1; obtain ⟨h2, _⟩ := h2; simp at h1 h2; omega)
    (by rw [hsl]; simp) (by rw [hsl]; simp [prod]) (by simpa [prod] using hi)
    (vs.under P wf hq ns) (vb.under P wf hq nb) (vm.under P wf hq nm) (vd.under P wf hq nd) (by simp [prod])
    (by
      intro j hj
      simp [prod] at hj
      have := hz s j hs hj
      rwa [hds, rowAx_elem hs hj hlen, getD_range _ hj])
  have ec : ∀ E : Env, bnChain R.h (Arr.of [(s : Int), 0]) (Arr.of [1, toI32 C]) (Arr.of [1, 1]) (Arr.of [0]) 1 Rs.h Rb.h Rm.h Rd.h E mi =
      bnChain R.h (bgs (rowAx s C)) (szs (rowAx s C)) (sts (rowAx s C)) (dimsCells [0]) ([0] : List Nat).length Rs.h Rb.h Rm.h Rd.h E mi := by
    intro E
    rw [toI32_nat hi]; rfl
  rw [← ec] at hch
  unfold bnRow
  rcases hch with ⟨t, m', e, R0, T0, R1, dev, rfl, hdv, P1⟩ | ⟨nf, ⟨m', e, l'⟩ | e⟩
  · left
    have P2 := P1.perm (List.Perm.swap _ _ _)
    obtain ⟨d1, P3⟩ := P2.destroy (E := E)
    obtain ⟨m3, hm3⟩ : ∃ m3, m3 = m'.drop R0.list := ⟨_, rfl⟩
    rw [← hm3] at d1 P3
    have hqR1 : q ∉ R1.list := fun hh => by
      have := P3.fresh q (by simpa [Item.blocks] using hh)
      have := P.ext.next
      have : (mB.arr q c N G).next = mB.next := rfl
      omega
    have hqi : q < mi.next := by have := P.ext.next; have : (mB.arr q c N G).next = mB.next := rfl; omega
    have hcell : m3.blk q = some ⟨.own, .bytes (encOpt c (tab N G))⟩ := by rw [P3.ext.same q hqi, P.cell hq]
    have hsC : s * C + C ≤ N := by
      rw [hN]
      have : (s + 1) * C ≤ d * C := Nat.mul_le_mul_right _ hs
      rwa [Nat.succ_mul] at this
    have cp := bnCopy_run (E := E) (m := m3) (R := R1) (q := q) (t := C) (N := N) (s := s) (G := G) (W := W) (dev := dev)
      (xs := (List.range C).map fun j => W (s * C + j))
      (P3.at (R := R1) (List.mem_singleton.2 rfl)) hqR1 hsC (by
        have := h.bytesLe he
        rw [hds] at this
        simpa [prod, hN] using this) (by intro k hk; simp [hk])
    rw [Mem.arr_self hcell] at cp
    have P4 := P3.put (c := c) (N := N) hqi (writes (fun k => s * C + k) W C G)
    obtain ⟨d2, P5⟩ := P4.destroy (E := E)
    have P6 := P.write hq (writes (fun k => s * C + k) W C G)
    refine ⟨_, _, ?_, rfl, writes (fun k => s * C + k) W C G, P6.clean' P5, ?_⟩
    · have hi32 : i32 ((s : Int) + 1) E ((m3.arr q c N (writes (fun k => s * C + k) W C G)).drop R1.list) = .ok ((s + 1 : Nat) : Int)
          ((m3.arr q c N (writes (fun k => s * C + k) W C G)).drop R1.list) := run_i32' (by omega) (by omega)
      unfold bnRelease orRet
      msimp [e, d1, cp, d2, hi32]
    · intro i hi'
      by_cases hlt : i < s * C
      · exact writes_keep (hG i hlt)
      · rw [Nat.succ_mul] at hi'
        have := writes_at (pos := fun k => s * C + k) (W := W) (G := G) (n := C) (k := i - s * C) (by omega)
        simpa [show s * C + (i - s * C) = i by omega] using this
  · exact .inr ⟨nf, .inl ⟨m', by msimp [e], l'⟩⟩
  · exact .inr ⟨nf, .inr (by msimp [e])⟩

/-! ### The whole matrix -/

theorem Runs.fail {st : M (α ⊕ Status)} (l : Lost m0 m1 q) (nf : ¬ E.NoFail) (e : st E m1 = .ok (.inr .allocFailed) m1) : Runs E m0 q (st E m1) Q :=
  .inr ⟨.inl nf, .inl ⟨m1, e, l⟩⟩

theorem bnPlain_run {d C : Nat} {ss bs ms dn : List Val} {Rs Rb Rm Rd Ro : Foot} {Ts Tb Tm Td To : TV} {W : Nat → Val}
    (wf : m1.WF) (hq : q < m1.next) (h : At m1 R T) (hR : q ∉ R.list) (he : Elems T c xs) (hdev : T.device.type = 0)
    (hds : T.dims = [d, C]) (hC : 0 < C) (hd : d ≤ 2147483647) (hi : C ≤ 2147483647) (hN : N = d * C)
    (vs : Vec m1 Rs c [C] ss Ts) (vb : Vec m1 Rb c [C] bs Tb) (vm : Vec m1 Rm c [C] ms Tm) (vd : Vec m1 Rd c [C] dn Td)
    (ns : q ∉ Rs.list) (nb : q ∉ Rb.list) (nm : q ∉ Rm.list) (nd : q ∉ Rd.list)
    (ho : At m1 Ro To) (hoq : Ro.p = q) (hob : m1.blk q = some ⟨.own, .bytes (encOpt c (tab N fun _ => none))⟩)
    (hz : ∀ s j, s < d → j < C → StepTo E.fp c (ss.getD j (.int 0)) (bs.getD j (.int 0)) (ms.getD j (.int 0)) (dn.getD j (.int 0))
      (xs.getD (s * C + j) (.int 0)) (W (s * C + j))) :
    Runs E m1 q (bnPlain R.h Rs.h Rb.h Rm.h Rd.h Ro.h E m1) (fun _ m' =>
      ∃ G, Pool (m1.arr q c N G) m' [] ∧ ∀ i, i < N → G i = some (W i)) := by
  obtain ⟨pb, Kb, m2, e2, P2, n2, _⟩ := (Pool.nil wf).scratch (E := E) 2 4
  obtain ⟨ps, Ks, m3, e3, P3, n3, _⟩ := P2.scratch (E := E) 2 4
  obtain ⟨pt, Kt, m4, e4, P4, n4, _⟩ := P3.scratch (E := E) 2 4
  obtain ⟨pa, Ka, m5, e5, P5, n5, _⟩ := P4.scratch (E := E) 1 8
  have hz8 : toSizeT ((4 : Nat) * (2 : Int)) = 8 := by decide
  have hz8' : toSizeT ((8 : Nat) * (1 : Int)) = 8 := by decide
  rw [hz8, hz8'] at P5
  rw [hz8] at P4
  have r0 := rd_dims (E := E) (m := m1) (ds := [d, C]) (i := 0) (by simp)
  have r1 := rd_dims (E := E) (m := m4) (ds := [d, C]) (i := 1) (by simp)
  simp only [List.getElem_cons_zero, List.getElem_cons_succ, Int.ofNat_zero, Int.ofNat_one] at r0 r1
  by_cases hnull : pb = .null ∨ ps = .null ∨ pt = .null
  · refine .inr ⟨.inl ?_, .inl ⟨m4, ?_, P4.lost q⟩⟩
    · rcases hnull with h | h | h
      · exact n2 h
      · exact n3 h
      · exact n4 h
    · unfold bnPlain
      msimp [h.tDimsArr, hds, r0, e2, e3, e4]
      rw [if_pos hnull]
  · by_cases hpa : pa = .null
    · refine .inr ⟨.inl (n5 hpa), .inl ⟨m5, ?_, P5.lost q⟩⟩
      simp only [not_or] at hnull
      have t1 := (P4.temp (p := pb) (K := Kb) (n := 8) (by simp)).touch (E := E) hnull.1 (lo := 0) (hi := 8) (by omega) (by omega)
      have t2 := (P4.temp (p := ps) (K := Ks) (n := 8) (by simp)).touch (E := E) hnull.2.1 (lo := 0) (hi := 8) (by omega) (by omega)
      have t3 := (P4.temp (p := pt) (K := Kt) (n := 8) (by simp)).touch (E := E) hnull.2.2 (lo := 0) (hi := 8) (by omega) (by omega)
      unfold bnPlain
      msimp [h.tDimsArr, hds, r0, e2, e3, e4, hnull.1, hnull.2.1, hnull.2.2, t1, t2, t3, r1, e5, hpa]
    · simp only [not_or] at hnull
      have t1 := (P4.temp (p := pb) (K := Kb) (n := 8) (by simp)).touch (E := E) hnull.1 (lo := 0) (hi := 8) (by omega) (by omega)
      have t2 := (P4.temp (p := ps) (K := Ks) (n := 8) (by simp)).touch (E := E) hnull.2.1 (lo := 0) (hi := 8) (by omega) (by omega)
      have t3 := (P4.temp (p := pt) (K := Kt) (n := 8) (by simp)).touch (E := E) hnull.2.2 (lo := 0) (hi := 8) (by omega) (by omega)
      have t4 := (P5.temp (p := pa) (K := Ka) (n := 8) (by simp)).touch (E := E) hpa (lo := 0) (hi := 8) (by omega) (by omega)
      have f5 := P5.ext.toFrame
      have a5 := h.frame wf f5
      have o5 := ho.frame wf f5
      have hq5 : q < m5.next := Nat.lt_of_lt_of_le hq f5.next
      have hblank : m5.arr q c N (fun _ => none) = m5 := Mem.arr_self (by rw [f5.same q hq, hob])
      have hrun := Runs.loop (E := E) (m0 := m1) (q := q) (bnRow R.h Rs.h Rb.h Rm.h Rd.h (.blk q) c.size [1, toI32 C])
        (fun s b mi => b = (s : Int) ∧ ∃ G, Pool (m5.arr q c N G) mi [] ∧ ∀ i, i < s * C → G i = some (W i)) d (by
          rintro s b mi hs ⟨rfl, G, P, hG⟩
          exact bnRow_run P5.ext.wf hq5 (P5.lost q) a5 hR he hdev hds hs hC hd hi hN (vs.old wf P5) (vb.old wf P5) (vm.old wf P5) (vd.old wf P5)
            ns nb nm nd hz P hG) (s := 0) (m := m5) ⟨rfl, fun _ => none, by rw [hblank]; exact Pool.nil P5.ext.wf, by simp⟩
      have ee : ∀ {r}, loopE (bnRow R.h Rs.h Rb.h Rm.h Rd.h (.blk q) c.size [1, toI32 C]) d 0 0 E m5 = r →
          bnPlain R.h Rs.h Rb.h Rm.h Rd.h Ro.h E m1 = (match r with
            | .ok (.inr st) m' => .ok (.inr st) m'
            | .ok (.inl _) m' => (do rawFree pb; rawFree ps; rawFree pt; rawFree pa; return .inl () : M (Unit ⊕ Status)) E m'
            | .ub u => .ub u
            | .abort => .abort
            | .fuel => .fuel) := by
        intro r hr
        unfold bnPlain
        msimp [h.tDimsArr, hds, r0, e2, e3, e4, hnull.1, hnull.2.1, hnull.2.2, t1, t2, t3, r1, e5, hpa, t4, a5.tDtype, he.dtype, o5.tData, hoq]
        rw [show c.dtype.size = c.size from rfl, Int.toNat_natCast, hr]
        rcases r with ⟨a | a, m'⟩ | _ | _ | _
        · msimp []
        · rfl
        · rfl
        · rfl
        · rfl
      rcases hrun with ⟨b, m', e, rfl, G, P, hG⟩ | ⟨nf, ⟨m', e, l'⟩ | e⟩
      · left
        have P6 := ((P5.put (c := c) (N := N) hq G).clean P).perm (List.reverse_perm _).symm
        simp only [List.reverse_cons, List.reverse_nil, List.nil_append, List.cons_append] at P6
        obtain ⟨x1, P7⟩ := P6.free (E := E)
        obtain ⟨x2, P8⟩ := P7.free (E := E)
        obtain ⟨x3, P9⟩ := P8.free (E := E)
        obtain ⟨x4, P10⟩ := P9.free (E := E)
        refine ⟨(), _, (ee e).trans ?_, G, P10, by rwa [hN]⟩
        msimp [x1, x2, x3, x4]
      · exact .inr ⟨nf, .inl ⟨m', ee e, l'⟩⟩
      · exact .inr ⟨nf, .inr (ee e)⟩

/-! ### The denominator -/

/-- `d = sqrt(v + e)`. -/
def DenStep (fp : FloatOps) (c : Code) (e v d : Val) : Prop :=
  ∃ t, cBin fp c .add v e = .ok t ∧ isNeg fp t = false ∧ sqrtF fp c t = .ok d

theorem exists_mid {N : Nat} {P : Nat → Val → Prop} (h : ∀ j, j < N → ∃ t, P j t) : ∃ ts : List Val, ts.length = N ∧ ∀ j, j < N → P j (ts.getD j (.int 0)) := by
  have : ∀ j, ∃ t, j < N → P j t := fun j => by
    by_cases hj : j < N
    · obtain ⟨t, ht⟩ := h j hj; exact ⟨t, fun _ => ht⟩
    · exact ⟨.int 0, fun h => absurd h hj⟩
  obtain ⟨f, hf⟩ := Classical.axiomOfChoice this
  exact ⟨(List.range N).map f, by simp, fun j hj => by rw [getD_range _ hj]; exact hf j hj⟩

theorem mapM_of_get {α β : Type} {f : α → Except UB β} {as : List α} {bs : List β} (hl : bs.length = as.length)
    (h : ∀ i (hi : i < as.length) (hj : i < bs.length), f as[i] = .ok bs[i]) : as.mapM f = .ok bs := by
  induction as generalizing bs with
  | nil =>
    have : bs = [] := List.length_eq_zero_iff.1 (by simpa using hl)
    subst this; rfl
  | cons a as ih =>
    cases bs with
    | nil => simp at hl
    | cons b bs =>
      have h0 := h 0 (by simp) (by simp)
      simp only [List.getElem_cons_zero] at h0
      have := ih (bs := bs) (by simpa using hl) fun i hi hj => by
        have := h (i + 1) (by simpa using hi) (by simpa using hj)
        simpa using this
      rw [List.mapM_cons, h0, this]; rfl

/-- Addition of `e` and square root. -/
theorem root_run {D : List Nat} {vs dn es : List Val} {Rv Re : Foot} {Tv Te : TV} {ev : Val} {k : Ptr → Ptr → M (α ⊕ Status)}
    (hv : Vec m1 Rv c D vs Tv) (hE : Vec m1 Re c D es Te) (hes : ∀ j, j < prod D → es.getD j (.int 0) = ev) (hi : prod D ≤ 2147483647)
    (P : Pool m m1 L) (l : Lost m0 m q) (hl : dn.length = prod D) (hd : ∀ j, j < prod D → DenStep E.fp c ev (vs.getD j (.int 0)) (dn.getD j (.int 0)))
    (g : Ptr → M (Unit ⊕ Status)) (hg : ∀ (R : Foot) (T : TV) m2, Pool m1 m2 [.tensor R T] → g R.h E m2 = .ok (.inl ()) m2 ∨ (g R.h E m2 = .ub .nullDeref ∧ ¬ E.NoFail))
    (hk : ∀ (Rt : Foot) (Tt : TV) (Rd : Foot) m2, Pool m m2 (.tensor Rd ⟨c.dtype, Tv.device, D, encAll c dn⟩ :: .tensor Rt Tt :: L) →
      Runs E m0 q (k Rt.h Rd.h E m2) Q) :
    Runs E m0 q (orRet (binaryOp .add Rv.h Re.h .indet) (fun t => do
      let _ ← g t
      orRet (sqrt t .indet) fun d => k t d) E m1) Q := by
  obtain ⟨ts, hlt, hts⟩ := exists_mid hd
  have lv := hv.el.len; rw [hv.dims] at lv
  have le := hE.el.len; rw [hE.dims] at le
  have wt : ∀ t ∈ ts, t.WT c := wt_of_getD hlt fun j hj => cBin_WT (wt_getD hv.el.wt lv hj) (by rw [← hes j hj]; exact wt_getD hE.el.wt le hj) (hts j hj).1
  refine Runs.malloc (hv.op hE P.ext.wf hi hlt fun j hj => by rw [hes j hj]; exact (hts j hj).1) (l.frame P.ext.toFrame P.ext.wf) fun Rt m2 Pt => ?_
  have P2 := P.produce Pt
  rcases hg Rt _ m2 Pt.pool with eg | ⟨eg, nf⟩
  rotate_left
  · exact .inr ⟨.inl nf, .inr (by msimp [eg])⟩
  have hsq := sqrt_run (E := E) (ys := dn) Pt.ext.wf Pt.tensor ⟨rfl, rfl, wt, hlt⟩ (fun x hx => by
    obtain ⟨j, hj, rfl⟩ := List.getElem_of_mem hx
    have := (hts j (by omega)).2.1
    simpa [List.getD_eq_getElem?_getD, hj] using this) (mapM_of_get (by omega) fun i h1 h2 => by
      have := (hts i (by omega)).2.2
      simpa [List.getD_eq_getElem?_getD, h1, h2] using this) .indet
  have := Runs.create (k := fun d => k Rt.h d) (Q := Q) hsq (l.frame P2.ext.toFrame P2.ext.wf) fun Rd m3 Pd => hk Rt _ Rd m3 (P2.produce Pd)
  refine this.of_eq ?_
  msimp [eg]

theorem bnDenom_run {C : Nat} {vs dn : List Val} {Rv : Foot} {Va : TV} {ev : Val} {eps : BitVec 64} (wf : m.WF) (l : Lost m0 m q) (h : At m R T)
    (hdt : T.dtype = c.dtype) (hdev : T.device.type = 0) (hv : Vec m Rv c [C] vs Va) (hi : C ≤ 2147483647) (hs : ShapeOK [C] c.size)
    (he : cCast E.fp c (.f64 eps) = .ok ev) (hl : dn.length = C) (hd : ∀ j, j < C → DenStep E.fp c ev (vs.getD j (.int 0)) (dn.getD j (.int 0))) :
    Runs E m0 q (bnDenom R.h Rv.h eps E m) (fun d m' => ∃ Rd, d = Rd.h ∧ Pool m m' [.tensor Rd ⟨c.dtype, Va.device, [C], encAll c dn⟩]) := by
  have hp : prod [C] = C := by simp [prod]
  have e : bnDenom R.h Rv.h eps E m = orRet (full c.dtype T.device (dimsCells [C]) ([C] : List Nat).length eps .indet) (fun e =>
      orRet (binaryOp .add Rv.h e .indet) fun t => do
        let _ ← (pure (.inl ()) : M (Unit ⊕ Status))
        orRet (sqrt t .indet) fun d => do
          let _ ← destroy e
          let _ ← destroy t
          return .inl d) E m := by
    unfold bnDenom
    msimp [h.tDtype, h.tDevice, hv.ok.tDimsArr, hv.ok.tNdim, hv.dims, hdt]
    rfl
  rw [e]
  refine Runs.create (full_run wf c T.device hs (by rw [hp]; exact hi) eps he .indet) l fun Re m1 Pe => ?_
  have P1 := (Pool.nil wf).produce Pe
  rw [hp] at P1
  have wE := Vec.mk' (P1.at (R := Re) (List.mem_singleton.2 rfl)) (fun x hx => by rw [List.eq_of_mem_replicate hx]; exact cCast_WT he) (by simp [hp]) hdev
  refine root_run (k := fun t d => do
          let _ ← destroy Re.h
          let _ ← destroy t
          return .inl d) (hv.old wf P1) wE (ev := ev) (fun j hj => ?_) (by rw [hp]; exact hi) P1 l (by rw [hp]; exact hl) (by rw [hp]; exact hd)
    (fun _ => pure (.inl ())) (fun _ _ _ _ => .inl rfl) fun Rt Tt Rd m2 P2 => ?_
  · rw [hp] at hj
    simp [List.getD_eq_getElem?_getD, hj]
  · have P3 := P2.perm (List.reverse_perm _).symm
    simp only [List.reverse_cons, List.reverse_nil, List.nil_append, List.cons_append] at P3
    obtain ⟨x1, P4⟩ := P3.destroy (E := E)
    obtain ⟨x2, P5⟩ := P4.destroy (E := E)
    exact .inl ⟨Rd.h, _, by msimp [x1, x2], Rd, rfl, P5⟩

end Aitisa
