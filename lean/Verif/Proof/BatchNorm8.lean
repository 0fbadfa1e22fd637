import Verif.Proof.BatchNorm7

/-! # Batch normalisation: rank 3 and more, the releases and the whole -/

namespace Aitisa

variable {E : Env} {m m0 m1 m2 mi mB : Mem} {R R' : Foot} {T T' : TV} {c : Code} {q N : Nat} {xs ys zs : List Val} {L rest : List Item}
  {G : Nat → Option Val} {dev : Device} {D : List Nat}

/-- Of the items of `L`, all but those of `rest` have been released since `m`. -/
structure Part (m mi : Mem) (L rest : List Item) : Prop where
  ex : ∃ K, mi = m.drop K ∧ ∀ b, b ∈ blocksOf L ↔ b ∈ K ∨ b ∈ blocksOf rest
  ok : ∀ x ∈ rest, x.Ok mi
  nodup : (blocksOf rest).Nodup

theorem Part.remove {x : Item} (P : Part m mi L (x :: rest)) : Part m (mi.drop x.blocks) L rest where
  ex := by
    obtain ⟨K, rfl, h⟩ := P.ex
    refine ⟨x.blocks ++ K, ?_, fun b => ?_⟩
    · refine Mem.ext' rfl rfl rfl fun k => ?_
      simp only [Mem.drop_blk, List.mem_append]
      by_cases h1 : k ∈ x.blocks <;> simp [h1]
    · rw [h, blocksOf_cons]; simp only [List.mem_append]; rw [or_assoc, or_left_comm]
  ok y hy := (P.ok y (by simp [hy])).congr fun b hb => by
    rw [Mem.drop_blk, if_neg]
    intro hx
    have := P.nodup
    rw [blocksOf_cons, List.nodup_append] at this
    exact this.2.2 b hx b (List.mem_flatMap.2 ⟨y, hy, hb⟩) rfl
  nodup := by
    have := P.nodup
    rw [blocksOf_cons, List.nodup_append] at this
    exact this.2.1

theorem Part.destroy (P : Part m mi L (.tensor R T :: rest)) :
    destroy R.h E mi = .ok (.success, .null) (mi.drop R.list) ∧ Part m (mi.drop R.list) L rest :=
  ⟨destroy_run (P.ok (.tensor R T) (by simp)), P.remove⟩

theorem Part.free {p : Ptr} {K : List Nat} {n : Nat} (P : Part m mi L (.raw p K n :: rest)) :
    rawFree p E mi = .ok () (mi.drop K) ∧ Part m (mi.drop K) L rest := by
  have := Temp.free (E := E) (D := []) (P.ok (.raw p K n) (by simp)) (by simp)
  rw [show mi.drop [] = mi from by simp [Mem.drop], List.append_nil] at this
  exact ⟨this, P.remove⟩

theorem Part.temp (P : Part m mi L rest) {p : Ptr} {K : List Nat} {n : Nat} (h : .raw p K n ∈ rest) : Temp mi p K n := P.ok _ h

theorem Part.start (ok : ∀ x ∈ L, x.Ok m) (nd : (blocksOf L).Nodup) : Part m m L L :=
  ⟨⟨[], by simp [Mem.drop], by simp⟩, ok, nd⟩

/-- Everything has been released. -/
theorem Pool.empty (P : Pool m m1 L) (h : Part m1 m2 L []) : Pool m m2 [] := by
  obtain ⟨K, rfl, hK⟩ := h.ex
  simp only [blocksOf_nil, List.not_mem_nil, or_false] at hK
  refine ⟨(P.ext.drop (K := K) fun b hb => P.fresh b ((hK b).2 hb)).mono fun b _ hn hm => ?_, by simp, by simp, by simp⟩
  simp only [List.mem_filter, decide_not, Bool.not_eq_eq_eq_not, Bool.not_true, decide_eq_false_iff_not] at hm
  exact absurd ((hK b).1 hm.1) hm.2

theorem keeps_drop {v : Nat → Val × Val × Val × Val} {i : Nat} {rs : List ChRec} (hi : i < rs.length) :
    keeps c dev D v i (rs.drop i) = rs[i].keep c dev D (v i) ++ keeps c dev D v (i + 1) (rs.drop (i + 1)) := by
  rw [List.drop_eq_getElem_cons hi]; rfl

theorem bnEnd_run {v : Nat → Val × Val × Val × Val} {C : Nat} {rs : List ChRec} {A : BnArrs} {Ks Kb Km Kd : List Nat} {axis : Int}
    (hlen : rs.length = C) (hA : A.ch = rs.map ChRec.chan) (nm : A.pm ≠ .null) (ns : A.ps ≠ .null) (nb : A.pb ≠ .null) (nd : A.pd ≠ .null)
    (P : Part m m1 L (keeps c dev D v 0 rs ++ [.raw A.ps Ks (8 * C), .raw A.pb Kb (8 * C), .raw A.pm Km (8 * C), .raw A.pd Kd (8 * C)]))
    (hax : tDim R.h axis E m1 = .ok (C : Int) m1) : ∃ m2, bnEnd R.h axis A E m1 = .ok () m2 ∧ Part m m2 L [] := by
  obtain ⟨_, m2, e, P2⟩ := loopN_inv (E := E) (fun i (_ : Unit) => bnDrop A i) (fun i _ mi => Part m mi L (keeps c dev D v i (rs.drop i) ++
      [.raw A.ps Ks (8 * C), .raw A.pb Kb (8 * C), .raw A.pm Km (8 * C), .raw A.pd Kd (8 * C)])) C (by
    intro i s mi hi P
    have t1 := (P.temp (p := A.pm) (K := Km) (n := 8 * C) (by simp)).touch (E := E) nm (lo := 8 * i) (hi := 8 * i + 8) (by omega) (by omega)
    have t2 := (P.temp (p := A.ps) (K := Ks) (n := 8 * C) (by simp)).touch (E := E) ns (lo := 8 * i) (hi := 8 * i + 8) (by omega) (by omega)
    have t3 := (P.temp (p := A.pb) (K := Kb) (n := 8 * C) (by simp)).touch (E := E) nb (lo := 8 * i) (hi := 8 * i + 8) (by omega) (by omega)
    have t4 := (P.temp (p := A.pd) (K := Kd) (n := 8 * C) (by simp)).touch (E := E) nd (lo := 8 * i) (hi := 8 * i + 8) (by omega) (by omega)
    have hi' : i < rs.length := by omega
    have ex : A.ch[i]? = some rs[i].chan := by rw [hA]; simp [hi']
    have eg : A.get i E mi = .ok rs[i].chan mi := by
      unfold BnArrs.get
      msimp [t1, t2, t3, t4, ex]
    rw [keeps_drop hi', ChRec.keep] at P
    simp only [List.cons_append, List.nil_append] at P
    obtain ⟨x1, P1⟩ := P.destroy (E := E)
    obtain ⟨x2, P2⟩ := P1.destroy (E := E)
    obtain ⟨x3, P3⟩ := P2.destroy (E := E)
    obtain ⟨x4, P4⟩ := P3.destroy (E := E)
    refine ⟨(), _, ?_, P4⟩
    unfold bnDrop
    msimp [eg, ChRec.chan, x1, x2, x3, x4]) (s := ()) (m := m1) P
  rw [← hlen, List.drop_length] at P2
  simp only [keeps, List.nil_append] at P2
  obtain ⟨x1, P3⟩ := P2.free (E := E)
  obtain ⟨x2, P4⟩ := P3.free (E := E)
  obtain ⟨x3, P5⟩ := P4.free (E := E)
  obtain ⟨x4, P6⟩ := P5.free (E := E)
  refine ⟨_, ?_, P6⟩
  unfold bnEnd forI
  msimp [hax]
  rw [Int.toNat_natCast, e]
  msimp [x1, x2, x3, x4]

theorem arrsOk_of {ss bs ms dn : List Val} {C : Nat} {rs : List ChRec} {A : BnArrs} {Ks Kb Km Kd : List Nat}
    (hlen : rs.length = C) (hA : A.ch = rs.map ChRec.chan) (nm : A.pm ≠ .null) (ns : A.ps ≠ .null) (nb : A.pb ≠ .null) (nd : A.pd ≠ .null)
    (P : Pool m m1 (keeps c dev D (chVals ss bs ms dn) 0 rs ++ [.raw A.ps Ks (8 * C), .raw A.pb Kb (8 * C), .raw A.pm Km (8 * C), .raw A.pd Kd (8 * C)]))
    (hq : q < m.next) (hdev : dev.type = 0) (ws : ∀ k, k < C → (ss.getD k (.int 0)).WT c) (wb : ∀ k, k < C → (bs.getD k (.int 0)).WT c)
    (wm : ∀ k, k < C → (ms.getD k (.int 0)).WT c) (wd : ∀ k, k < C → (dn.getD k (.int 0)).WT c) :
    ArrsOk m1 q c D A C ss bs ms dn := by
  have hqn : ∀ {x : Item}, x ∈ keeps c dev D (chVals ss bs ms dn) 0 rs ++ [.raw A.ps Ks (8 * C), .raw A.pb Kb (8 * C), .raw A.pm Km (8 * C), .raw A.pd Kd (8 * C)] →
      q ∉ x.blocks := fun hx hb => by
    have := P.fresh q (List.mem_flatMap.2 ⟨_, hx, hb⟩); omega
  refine ⟨⟨nm, Km, hqn (x := .raw A.pm Km (8 * C)) (by simp), P.temp (by simp)⟩, ⟨ns, Ks, hqn (x := .raw A.ps Ks (8 * C)) (by simp), P.temp (by simp)⟩,
    ⟨nb, Kb, hqn (x := .raw A.pb Kb (8 * C)) (by simp), P.temp (by simp)⟩, ⟨nd, Kd, hqn (x := .raw A.pd Kd (8 * C)) (by simp), P.temp (by simp)⟩, fun k hk => ?_⟩
  have hk' : k < rs.length := by omega
  refine ⟨rs[k].chan, by rw [hA]; simp [hk'], rs[k].Rs, constTV c dev D (ss.getD k (.int 0)), rs[k].Rb, constTV c dev D (bs.getD k (.int 0)),
    rs[k].Rm, constTV c dev D (ms.getD k (.int 0)), rs[k].Rd, constTV c dev D (dn.getD k (.int 0)), rfl, ?_⟩
  have mk : ∀ {x : Item}, x ∈ rs[k].keep c dev D (chVals ss bs ms dn k) →
      x ∈ keeps c dev D (chVals ss bs ms dn) 0 rs ++ [.raw A.ps Ks (8 * C), .raw A.pb Kb (8 * C), .raw A.pm Km (8 * C), .raw A.pd Kd (8 * C)] := fun hx =>
    List.mem_append_left _ (keeps_mem hk' (by rwa [Nat.zero_add]))
  have m1' := mk (x := .tensor rs[k].Rs (constTV c dev D (ss.getD k (.int 0)))) (by simp [ChRec.keep, chVals])
  have m2' := mk (x := .tensor rs[k].Rb (constTV c dev D (bs.getD k (.int 0)))) (by simp [ChRec.keep, chVals])
  have m3' := mk (x := .tensor rs[k].Rm (constTV c dev D (ms.getD k (.int 0)))) (by simp [ChRec.keep, chVals])
  have m4' := mk (x := .tensor rs[k].Rd (constTV c dev D (dn.getD k (.int 0)))) (by simp [ChRec.keep, chVals])
  exact ⟨const_vec (P.at m1') (ws k hk) hdev, const_vec (P.at m2') (wb k hk) hdev, const_vec (P.at m3') (wm k hk) hdev, const_vec (P.at m4') (wd k hk) hdev,
    hqn m1', hqn m2', hqn m3', hqn m4'⟩

theorem bnMain3_run {d C : Nat} {pre post : List Nat} {ss bs ms vs dn : List Val} {Rs Rb Rm Rv Ro : Foot} {Ts Tb Tm Tv To : TV} {W : Nat → Val} {ev : Val}
    {eps : BitVec 64} (wf : m1.WF) (hq : q < m1.next) (h : At m1 R T) (hR : q ∉ R.list) (he : Elems T c xs) (hdev : T.device.type = 0)
    (hds : T.dims = d :: (pre ++ C :: post)) (hax : pre = [] ∨ post = []) (hr3 : 3 ≤ T.dims.length) (hr5 : T.dims.length ≤ 5)
    (hpos : ∀ x ∈ pre ++ post, 0 < x) (hd : d ≤ 2147483647) (hC : C ≤ 2147483647) (hi : prod (pre ++ post) ≤ 2147483647)
    (hb : prod (pre ++ post) * c.size ≤ 4294967296) (hbc : C * c.size ≤ 4294967296) (hN : N = prod T.dims)
    (vs' : Vec m1 Rs c [C] ss Ts) (vb : Vec m1 Rb c [C] bs Tb) (vm : Vec m1 Rm c [C] ms Tm) (vv : Vec m1 Rv c [C] vs Tv)
    (ho : At m1 Ro To) (hoq : Ro.p = q) (hods : To.dims = T.dims) (hodt : To.dtype = c.dtype)
    (hob : m1.blk q = some ⟨.own, .bytes (encOpt c (tab N fun _ => none))⟩)
    (hev : cCast E.fp c (.f64 eps) = .ok ev) (hw : ∀ k, k < C → (dn.getD k (.int 0)).WT c)
    (hdn : ∀ j, j < C → DenStep E.fp c ev (vs.getD j (.int 0)) (dn.getD j (.int 0)))
    (hz : ∀ s ch k, s < d → ch < C → k < prod (pre ++ post) → StepTo E.fp c (ss.getD ch (.int 0)) (bs.getD ch (.int 0)) (ms.getD ch (.int 0))
      (dn.getD ch (.int 0)) (xs.getD (cellPos d pre C post s ch k) (.int 0)) (W (cellPos d pre C post s ch k))) :
    Fills E m1 q c N W (bnMain R.h ((1 + pre.length : Nat) : Int) Rs.h Rb.h Rm.h Rv.h eps Ro.h E m1) := by
  have ls := vs'.el.len; rw [vs'.dims] at ls; simp only [prod, Nat.mul_one] at ls
  have lb := vb.el.len; rw [vb.dims] at lb; simp only [prod, Nat.mul_one] at lb
  have lm := vm.el.len; rw [vm.dims] at lm; simp only [prod, Nat.mul_one] at lm
  have hg : T.dims[1 + pre.length]? = some C := by
    rw [hds, Nat.add_comm, List.getElem?_cons_succ, List.getElem?_append_right (Nat.le_refl _), Nat.sub_self]; rfl
  have ee : ∀ {r}, bnParams R.h ((1 + pre.length : Nat) : Int) Rs.h Rb.h Rm.h Rv.h eps E m1 = r →
      bnMain R.h ((1 + pre.length : Nat) : Int) Rs.h Rb.h Rm.h Rv.h eps Ro.h E m1 = (match r with
      | .ok (.inr st) m' => .ok st m'
      | .ok (.inl A) m' => (bnChannels R.h ((1 + pre.length : Nat) : Int) A Ro.h >>= fun r => bnEnd R.h ((1 + pre.length : Nat) : Int) A >>= fun _ => pure (endStatus r)) E m'
      | .ub u => .ub u
      | .abort => .abort
      | .fuel => .fuel) := by
    intro r hr
    unfold bnMain
    msimp [h.tNdim]
    rw [if_neg (by omega), if_pos (by omega)]
    msimp [hr]
    rcases r with ⟨a | a, m'⟩ | _ | _ | _ <;> first | rfl | skip
  rcases bnParams_run (E := E) (q := q) (dn := dn) wf h he.dtype hdev hds hax vs' vb vm vv hev hi hC hb hbc hdn with
    ⟨A, m2, e, rs, Ks, Kb, Km, Kd, hlen, hA, nm, ns, nb, nd, P⟩ | ⟨nf, ⟨m', e, l'⟩ | e⟩
  · have ha := arrsOk_of hlen hA nm ns nb nd P hq hdev (fun k hk => wt_getD vs'.el.wt ls hk) (fun k hk => wt_getD vb.el.wt lb hk)
      (fun k hk => wt_getD vm.el.wt lm hk) hw
    have hq2 : q < m2.next := Nat.lt_of_lt_of_le hq P.ext.next
    rcases bnChannels_run (E := E) (W := W) P.ext.wf hq2 (h.frame wf P.ext.toFrame) hR he hdev hds hax hpos hd hC hi ha (ho.frame wf P.ext.toFrame) hoq hods hodt hN
      (by rw [P.ext.same q hq, hob]) hz with ⟨u, m3, e3, G, P3, hG⟩ | ⟨nf, ⟨m3, e3, l3⟩ | e3⟩
    · left
      have P4 := (P.put (c := c) (N := N) hq G).clean P3
      have a3 : At m3 R T := P4.under wf hq h hR
      obtain ⟨m4, x, P5⟩ := bnEnd_run (E := E) (R := R) (axis := ((1 + pre.length : Nat) : Int)) hlen hA nm ns nb nd (Part.start P4.ok P4.nodup) (a3.dimI rfl hg)
      refine ⟨m4, G, (ee e).trans ?_, P4.empty P5, hG⟩
      msimp [e3, x, endStatus]
    · right
      have a3 : At m3 R T := l3.at P.ext.wf (h.frame wf P.ext.toFrame) hR
      have ok3 : ∀ x ∈ keeps c T.device (pre ++ post) (chVals ss bs ms dn) 0 rs ++ [.raw A.ps Ks (8 * C), .raw A.pb Kb (8 * C), .raw A.pm Km (8 * C), .raw A.pd Kd (8 * C)],
          x.Ok m3 := fun x hx => (P.ok x hx).congr fun b hbx => by
        have hbl := List.mem_flatMap.2 ⟨x, hx, hbx⟩
        refine l3.same b (P.lt hbl) ?_
        rintro rfl
        have := P.fresh _ hbl
        omega
      obtain ⟨m4, x, P5⟩ := bnEnd_run (E := E) (R := R) (axis := ((1 + pre.length : Nat) : Int)) hlen hA nm ns nb nd (Part.start ok3 P.nodup) (a3.dimI rfl hg)
      refine ⟨nf, .inl ⟨m4, (ee e).trans ?_, ?_⟩⟩
      · msimp [e3, x, endStatus]
      · obtain ⟨K, rfl, hK⟩ := P5.ex
        refine ((P.lost q).trans l3).dropNew fun b hb => P.fresh b ((hK b).2 (.inl hb))
    · right
      refine ⟨nf, .inr ((ee e).trans ?_)⟩
      msimp [e3]
  · exact .inr ⟨nf, .inl ⟨m', ee e, l'⟩⟩
  · exact .inr ⟨nf, .inr (ee e)⟩

end Aitisa
