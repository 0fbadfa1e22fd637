import Verif.Proof.BatchNorm4

/-! # Batch normalisation: rank 3 and more, all channels of all samples -/

namespace Aitisa

variable {E : Env} {m m0 m1 mi mB : Mem} {R R' : Foot} {T T' : TV} {c : Code} {q N : Nat} {xs ys zs : List Val} {L : List Item}
  {G : Nat → Option Val}

/-- Every position belongs to a channel of a sample. -/
theorem exists_cell {d C i : Nat} {pre post : List Nat} (hi : i < prod (d :: (pre ++ C :: post))) :
    ∃ s ch k, s < d ∧ ch < C ∧ k < prod (pre ++ post) ∧ cellPos d pre C post s ch k = i := by
  have hr := unlin_inRange hi
  have hl := lin_unlin hi
  generalize unlin (d :: (pre ++ C :: post)) i = cs at hr hl
  cases cs with
  | nil => exact hr.elim
  | cons s r =>
    obtain ⟨hs, hr⟩ := hr
    have h1 := hr.take pre.length
    have h2 := hr.drop pre.length
    rw [List.take_left'  rfl] at h1
    rw [List.drop_left' rfl] at h2
    obtain ⟨ch, v, hv⟩ : ∃ ch v, r.drop pre.length = ch :: v := by
      cases hc : r.drop pre.length with
      | nil => rw [hc] at h2; exact h2.elim
      | cons a b => exact ⟨a, b, rfl⟩
    rw [hv] at h2
    have hu : InRange (pre ++ post) (r.take pre.length ++ v) := inRange_append h1 h2.2
    have hlen := h1.length
    refine ⟨s, ch, lin (pre ++ post) (r.take pre.length ++ v), hs, h2.1, lin_lt hu, ?_⟩
    unfold cellPos
    rw [unlin_lin hu, ← hl]
    congr 1
    unfold cellIdx
    rw [List.take_left' hlen, List.drop_left' hlen, ← hv, List.take_append_drop]

theorem Done.all {d C : Nat} {pre post : List Nat} {W : Nat → Val} (h : Done d pre C post W G d 0) : ∀ i, i < prod (d :: (pre ++ C :: post)) → G i = some (W i) := by
  intro i hi
  obtain ⟨s, ch, k, hs, hc, hk, rfl⟩ := exists_cell hi
  exact h s ch k hs hc hk (.inl hs)

theorem bnLoops_run {d C : Nat} {pre post : List Nat} {ss bs ms dn : List Val} {A : BnArrs} {Ro : Foot} {To : TV} {W : Nat → Val}
    (wf : mB.WF) (hq : q < mB.next) (l : Lost m0 mB q) (h : At mB R T) (hR : q ∉ R.list) (he : Elems T c xs) (hdev : T.device.type = 0)
    (hds : T.dims = d :: (pre ++ C :: post)) (hpos : ∀ x ∈ pre ++ post, 0 < x) (hd : d ≤ 2147483647) (hC : C ≤ 2147483647)
    (hi : prod (pre ++ post) ≤ 2147483647) (ha : ArrsOk mB q c (pre ++ post) A C ss bs ms dn)
    (ho : At mB Ro To) (hoq : Ro.p = q) (hods : To.dims = T.dims) (hodt : To.dtype = c.dtype) (hN : N = prod T.dims)
    (hob : mB.blk q = some ⟨.own, .bytes (encOpt c (tab N fun _ => none))⟩)
    (hz : ∀ s ch k, s < d → ch < C → k < prod (pre ++ post) → StepTo E.fp c (ss.getD ch (.int 0)) (bs.getD ch (.int 0)) (ms.getD ch (.int 0))
      (dn.getD ch (.int 0)) (xs.getD (cellPos d pre C post s ch k) (.int 0)) (W (cellPos d pre C post s ch k))) :
    Runs E m0 q (bnLoops R.h ((1 + pre.length : Nat) : Int) A Ro.h d C (ints T.dims) E mB) (fun _ m' =>
      ∃ G, Pool (mB.arr q c N G) m' [] ∧ ∀ i, i < N → G i = some (W i)) := by
  have hoff := offsets_run (E := E) (m := mB) (ds := T.dims) (by simp [hds]) (Nat.le_trans (Nat.le_refl _) h.shape.prodMax_le)
  unfold bnLoops
  have hu : (unlin (pre ++ post) 0).length = (pre ++ post).length := unlin_length ..
  have hz0 : (ints T.dims).map (fun _ => (0 : Int)) = ints (cellIdx pre.length 0 0 (unlin (pre ++ post) 0)) := by
    rw [of_map_ints _ _ (fun _ => 0) (fun _ _ => rfl), hds, unlin_zero]
    congr 1
    simp [cellIdx, ← List.map_take, ← List.map_drop]
  have hblank : mB.arr q c N (fun _ => none) = mB := Mem.arr_self hob
  have := Runs.loop (E := E) (m0 := m0) (q := q)
    (bnSample R.h ((1 + pre.length : Nat) : Int) A Ro.h ((((ints T.dims).map toI32).set 0 1).set ((1 + pre.length : Nat) : Int).toNat 1)
      ((ints T.dims).map fun _ => 1) (ints (strides T.dims)) C)
    (fun s idx mi => (∃ s0 c0, idx = ints (cellIdx pre.length s0 c0 (unlin (pre ++ post) 0))) ∧ ∃ G, Pool (mB.arr q c N G) mi [] ∧ Done d pre C post W G s 0) d (by
      rintro s idx mi hs ⟨⟨s0, c0, rfl⟩, G, P, hG⟩
      unfold bnSample
      rw [cellIdx_set_s, Int.toNat_natCast]
      refine (Runs.loop (E := E) (m0 := m0) (q := q) _ (fun ch idx mi => (∃ c0, idx = ints (cellIdx pre.length s c0 (unlin (pre ++ post) 0))) ∧
        ∃ G, Pool (mB.arr q c N G) mi [] ∧ Done d pre C post W G s ch) C (by
          rintro ch idx mi hc ⟨⟨c0, rfl⟩, G, P, hG⟩
          refine (bnCell_run wf hq l h hR he hdev hds hpos hs hc hd hC hi ha ho hoq hods hodt hN hz P hG).mono ?_
          rintro a m' ⟨rfl, G', P', hG'⟩
          exact ⟨⟨ch, rfl⟩, G', P', hG'⟩) ⟨⟨c0, rfl⟩, G, P, hG⟩).mono ?_
      rintro a m' ⟨⟨c0, rfl⟩, G, P, hG⟩
      refine ⟨⟨s, c0, rfl⟩, G, P, fun s' ch' k hs' hc' hk hlt => hG s' ch' k hs' hc' hk (by omega)⟩) (s := (ints T.dims).map fun _ => (0 : Int)) (m := mB)
    ⟨⟨0, 0, hz0⟩, fun _ => none, by rw [hblank]; exact Pool.nil wf, fun s' ch' k hs' hc' hk hlt => by omega⟩
  refine (this.mono ?_).of_eq ?_
  · rintro a m' ⟨_, G, P, hG⟩
    exact ⟨G, P, by rw [hN, hds]; exact hG.all⟩
  · msimp [hoff]
    simp only [Int.toNat_natCast]

theorem ArrsOk.old {D : List Nat} {A : BnArrs} {C : Nat} {ss bs ms dn : List Val} (h : ArrsOk m q c D A C ss bs ms dn) (wf : m.WF) (P : Pool m m1 L) :
    ArrsOk m1 q c D A C ss bs ms dn where
  pm := ⟨h.pm.1, h.pm.2.imp fun _ hK => ⟨hK.1, P.oldTemp wf hK.2⟩⟩
  ps := ⟨h.ps.1, h.ps.2.imp fun _ hK => ⟨hK.1, P.oldTemp wf hK.2⟩⟩
  pb := ⟨h.pb.1, h.pb.2.imp fun _ hK => ⟨hK.1, P.oldTemp wf hK.2⟩⟩
  pd := ⟨h.pd.1, h.pd.2.imp fun _ hK => ⟨hK.1, P.oldTemp wf hK.2⟩⟩
  ch k hk := by
    obtain ⟨x, e, Rs, Ts, Rb, Tb, Rm, Tm, Rd, Td, ex, vs, vb, vm, vd, n⟩ := h.ch k hk
    exact ⟨x, e, Rs, Ts, Rb, Tb, Rm, Tm, Rd, Td, ex, vs.old wf P, vb.old wf P, vm.old wf P, vd.old wf P, n⟩

theorem bnChannels_run {d C : Nat} {pre post : List Nat} {ss bs ms dn : List Val} {A : BnArrs} {Ro : Foot} {To : TV} {W : Nat → Val}
    (wf : m1.WF) (hq : q < m1.next) (h : At m1 R T) (hR : q ∉ R.list) (he : Elems T c xs) (hdev : T.device.type = 0)
    (hds : T.dims = d :: (pre ++ C :: post)) (hax : pre = [] ∨ post = []) (hpos : ∀ x ∈ pre ++ post, 0 < x) (hd : d ≤ 2147483647) (hC : C ≤ 2147483647)
    (hi : prod (pre ++ post) ≤ 2147483647) (ha : ArrsOk m1 q c (pre ++ post) A C ss bs ms dn)
    (ho : At m1 Ro To) (hoq : Ro.p = q) (hods : To.dims = T.dims) (hodt : To.dtype = c.dtype) (hN : N = prod T.dims)
    (hob : m1.blk q = some ⟨.own, .bytes (encOpt c (tab N fun _ => none))⟩)
    (hz : ∀ s ch k, s < d → ch < C → k < prod (pre ++ post) → StepTo E.fp c (ss.getD ch (.int 0)) (bs.getD ch (.int 0)) (ms.getD ch (.int 0))
      (dn.getD ch (.int 0)) (xs.getD (cellPos d pre C post s ch k) (.int 0)) (W (cellPos d pre C post s ch k))) :
    Runs E m1 q (bnChannels R.h ((1 + pre.length : Nat) : Int) A Ro.h E m1) (fun _ m' =>
      ∃ G, Pool (m1.arr q c N G) m' [] ∧ ∀ i, i < N → G i = some (W i)) := by
  obtain ⟨n, hn⟩ : ∃ n, n = T.dims.length := ⟨_, rfl⟩
  have hnd : tNdim R.h E m1 = .ok (n : Int) m1 := by rw [h.tNdim, hn]
  have hnr : n ≤ 2147483647 := by rw [hn]; exact Nat.le_trans h.shape.rank (by decide)
  have hnl : n = 2 + pre.length + post.length := by rw [hn, hds]; simp; omega
  have hax' : ¬ (((1 + pre.length : Nat) : Int) ≠ 1 ∧ ((1 + pre.length : Nat) : Int) ≠ (n : Int) - 1) := by
    rcases hax with rfl | rfl
    · simp
    · simp at hnl; omega
  have r0 := rd_dims (E := E) (m := m1) (ds := T.dims) (i := 0) (by simp [hds])
  have r1 := rd_dims (E := E) (m := m1) (ds := T.dims) (i := 1 + pre.length) (by rw [← hn]; omega)
  have g0 : T.dims[0]'(by simp [hds]) = d := by simp [hds]
  have g1 : T.dims[1 + pre.length]'(by rw [← hn]; omega) = C := by
    have : T.dims[1 + pre.length]? = some C := by
      rw [hds, Nat.add_comm, List.getElem?_cons_succ, List.getElem?_append_right (Nat.le_refl _), Nat.sub_self]; rfl
    exact (List.getElem?_eq_some_iff.1 this).2
  rw [g0] at r0
  rw [g1] at r1
  obtain ⟨pb, Kb, m2, e2, P2, n2, _⟩ := (Pool.nil wf).scratch (E := E) n 4
  obtain ⟨ps, Ks, m3, e3, P3, n3, _⟩ := P2.scratch (E := E) n 4
  obtain ⟨pt, Kt, m4, e4, P4, n4, _⟩ := P3.scratch (E := E) n 4
  obtain ⟨pa, Ka, m5, e5, P5, n5, _⟩ := P4.scratch (E := E) 2 8
  obtain ⟨pi, Ki, m6, e6, P6, n6, _⟩ := P5.scratch (E := E) n 8
  obtain ⟨po, Ko, m7, e7, P7, n7, _⟩ := P6.scratch (E := E) n 8
  have hz4 : toSizeT ((4 : Nat) * (n : Int)) = 4 * n := by
    have := toSizeT_nat (n := 4 * n) (by omega); simpa using this
  have hz8 : toSizeT ((8 : Nat) * (n : Int)) = 8 * n := by
    have := toSizeT_nat (n := 8 * n) (by omega); simpa using this
  have hz2 : toSizeT ((8 : Nat) * (2 : Int)) = 16 := by decide
  rw [hz4, hz8, hz2] at P7
  rw [hz4, hz2] at P5
  rw [hz4] at P4
  by_cases hnull : pb = .null ∨ ps = .null ∨ pt = .null
  · refine .inr ⟨.inl ?_, .inl ⟨m4, ?_, P4.lost q⟩⟩
    · rcases hnull with h | h | h
      · exact n2 h
      · exact n3 h
      · exact n4 h
    · unfold bnChannels
      msimp [hnd, h.tDimsArr]
      rw [if_neg hax']
      simp only [Int.ofNat_zero] at r0
      msimp [r0, r1, e2, e3, e4]
      rw [if_pos hnull]
  · simp only [not_or] at hnull
    have t1 := (P4.temp (p := pb) (K := Kb) (n := 4 * n) (by simp)).touch (E := E) hnull.1 (lo := 0) (hi := 4 * n) (by omega) (by omega)
    have t2 := (P4.temp (p := ps) (K := Ks) (n := 4 * n) (by simp)).touch (E := E) hnull.2.1 (lo := 0) (hi := 4 * n) (by omega) (by omega)
    have t3 := (P4.temp (p := pt) (K := Kt) (n := 4 * n) (by simp)).touch (E := E) hnull.2.2 (lo := 0) (hi := 4 * n) (by omega) (by omega)
    simp only [Int.ofNat_zero] at r0
    by_cases hpa : pa = .null
    · refine .inr ⟨.inl (n5 hpa), .inr ?_⟩
      unfold bnChannels
      msimp [hnd, h.tDimsArr]
      rw [if_neg hax']
      msimp [r0, r1, e2, e3, e4, hnull.1, hnull.2.1, hnull.2.2, t1, t2, t3, e5, hpa, touch_null]
    have t4 := (P5.temp (p := pa) (K := Ka) (n := 16) (by simp)).touch (E := E) hpa (lo := 0) (hi := 16) (by omega) (by omega)
    by_cases hnull' : pi = .null ∨ po = .null
    · refine .inr ⟨.inl ?_, .inl ⟨m7, ?_, P7.lost q⟩⟩
      · rcases hnull' with h | h
        · exact n6 h
        · exact n7 h
      · unfold bnChannels
        msimp [hnd, h.tDimsArr]
        rw [if_neg hax']
        msimp [r0, r1, e2, e3, e4, hnull.1, hnull.2.1, hnull.2.2, t1, t2, t3, e5, t4, e6, e7]
        rw [if_pos hnull']
    simp only [not_or] at hnull'
    have t5 := (P7.temp (p := pi) (K := Ki) (n := 8 * n) (by simp)).touch (E := E) hnull'.1 (lo := 0) (hi := 8 * n) (by omega) (by omega)
    have t6 := (P7.temp (p := po) (K := Ko) (n := 8 * n) (by simp)).touch (E := E) hnull'.2 (lo := 0) (hi := 8 * n) (by omega) (by omega)
    have hrd : rdAll (dimsCells T.dims) n E m7 = .ok (ints T.dims) m7 := by rw [hn]; exact rdAll_dims _
    have f7 := P7.ext.toFrame
    have hq7 : q < m7.next := Nat.lt_of_lt_of_le hq f7.next
    have hrun := bnLoops_run (E := E) (m0 := m1) P7.ext.wf hq7 (P7.lost q) (h.frame wf f7) hR he hdev hds hpos hd hC hi (ha.old wf P7) (ho.frame wf f7) hoq hods hodt hN
      (by rw [f7.same q hq, hob]) hz
    have ee : ∀ {r}, bnLoops R.h ((1 + pre.length : Nat) : Int) A Ro.h d C (ints T.dims) E m7 = r →
        bnChannels R.h ((1 + pre.length : Nat) : Int) A Ro.h E m1 = (match r with
          | .ok (.inr st) m' => .ok (.inr st) m'
          | .ok (.inl _) m' => (do rawFree pb; rawFree ps; rawFree pt; rawFree pa; rawFree pi; rawFree po; return .inl () : M (Unit ⊕ Status)) E m'
          | .ub u => .ub u
          | .abort => .abort
          | .fuel => .fuel) := by
      intro r hr
      unfold bnChannels
      msimp [hnd, h.tDimsArr]
      rw [if_neg hax']
      msimp [r0, r1, e2, e3, e4, hnull.1, hnull.2.1, hnull.2.2, t1, t2, t3, e5, t4, e6, e7, hnull'.1, hnull'.2, t5, t6]
      rw [Int.toNat_natCast]
      msimp [hrd]
      rw [hr]
      rcases r with ⟨a | a, m'⟩ | _ | _ | _
      · msimp []
      · rfl
      · rfl
      · rfl
      · rfl
    rcases hrun with ⟨b, m', e, G, P, hG⟩ | ⟨nf, ⟨m', e, l'⟩ | e⟩
    · left
      have P8 := ((P7.put (c := c) (N := N) hq G).clean P).perm (List.reverse_perm _).symm
      simp only [List.reverse_cons, List.reverse_nil, List.nil_append, List.cons_append] at P8
      obtain ⟨x1, P9⟩ := P8.free (E := E)
      obtain ⟨x2, P10⟩ := P9.free (E := E)
      obtain ⟨x3, P11⟩ := P10.free (E := E)
      obtain ⟨x4, P12⟩ := P11.free (E := E)
      obtain ⟨x5, P13⟩ := P12.free (E := E)
      obtain ⟨x6, P14⟩ := P13.free (E := E)
      refine ⟨(), _, (ee e).trans ?_, G, P14, hG⟩
      msimp [x1, x2, x3, x4, x5, x6]
    · exact .inr ⟨nf, .inl ⟨m', ee e, l'⟩⟩
    · exact .inr ⟨nf, .inr (ee e)⟩

end Aitisa
