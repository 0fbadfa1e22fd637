import Verif.Props.Crash

/-!
# C48: batch normalisation of rank 3 to 5 if a request is refused
-/

namespace Aitisa

variable {E : Env} {m m1 : Mem} {R : Foot} {T : TV} {c : Code} {L : List Item} {D : List Nat} {dev : Device} {α : Type} {u : UB}

/-- If nothing fails, a creation is followed by the rest. -/
theorem create_then {x : M (Status × Ptr)} {k : Ptr → M (α ⊕ Status)} {out : Ptr} (nf : E.NoFail) (A : Creates E x m out T)
    (hk : ∀ (R : Foot) m1, Produces m m1 R T → k R.h E m1 = .ub u) : orRet x k E m = .ub u := by
  unfold orRet
  rcases A with ⟨R, m1, e, P⟩ | ⟨_, _, _, _, h⟩
  · msimp [e, hk R m1 P]
  · exact absurd nf h

theorem new_then {p : Ptr} {K : List Nat} {C ch : Nat} {k : Ptr → M (α ⊕ Status)} (nf : E.NoFail) (P : Pool m m1 L) (hs : ShapeOK D c.size)
    (hp : .raw p K (8 * C) ∈ L) (hn : p ≠ .null) (hc : ch < C)
    (hk : ∀ (R : Foot) m2, Pool m m2 (.tensor R (blankTV c dev D) :: L) → k R.h E m2 = .ub u) :
    bnNew c.dtype dev (dimsCells D) D.length p ch k E m1 = .ub u := by
  unfold bnNew
  refine create_then nf (create_run P.ext.wf c.dtype dev hs 0 .indet) fun R m2 P2 => ?_
  have P3 := P.produce P2
  have t := (P3.temp (p := p) (K := K) (n := 8 * C) (by simp [hp])).touch (E := E) hn (lo := 8 * ch) (hi := 8 * ch + 8) (by omega) (by omega)
  msimp [t]
  exact hk R m2 P3

theorem bnChan_crash {C ch : Nat} {ss bs ms vs : List Val} {Rs Rb Rm Rv Re : Foot} {Ts Tb Tm Tv : TV} {ev : Val} {pm ps pb pd pt pv : Ptr}
    {Km Ks Kb Kv : List Nat} {l : List (BnChan × Ptr)} (nf : E.NoFail) (hm : ∀ t s, E.mallocOk t s = false)
    (wf : m.WF) (P : Pool m m1 L) (hs : ShapeOK D c.size) (hdev : dev.type = 0)
    (vs' : Vec m Rs c [C] ss Ts) (vb : Vec m Rb c [C] bs Tb) (vm : Vec m Rm c [C] ms Tm) (vv : Vec m Rv c [C] vs Tv)
    (hE : .tensor Re (constTV c dev D ev) ∈ L) (hev : ev.WT c)
    (hpm : .raw pm Km (8 * C) ∈ L) (hps : .raw ps Ks (8 * C) ∈ L) (hpb : .raw pb Kb (8 * C) ∈ L) (hpv : .raw pv Kv (8 * C) ∈ L)
    (nm : pm ≠ .null) (ns : ps ≠ .null) (nb : pb ≠ .null) (nv : pv ≠ .null)
    (hc : ch < C) (hi : prod D ≤ 2147483647) (hpos : 0 < prod D) (hb : prod D * c.size ≤ 4294967296) (hbc : C * c.size ≤ 4294967296)
    (ht : ∃ t, OpResult E.fp c .add (vs.getD ch (.int 0)) ev t) :
    bnChan c.dtype dev (dimsCells D) D.length (prod D : Nat) Rs.h Rb.h Rm.h Rv.h Re.h ⟨pm, ps, pb, pd, pt, pv⟩ ch l E m1 = .ub .nullDeref := by
  unfold bnChan
  refine new_then nf P hs hpm nm hc fun R1 m2 P2 => ?_
  refine new_then nf P2 hs (List.mem_cons_of_mem _ hps) ns hc fun R2 m3 P3 => ?_
  refine new_then nf P3 hs (List.mem_cons_of_mem _ (List.mem_cons_of_mem _ hpb)) nb hc fun R3 m4 P4 => ?_
  refine new_then nf P4 hs (List.mem_cons_of_mem _ (List.mem_cons_of_mem _ (List.mem_cons_of_mem _ hpv))) nv hc fun R4 m5 P5 => ?_
  obtain ⟨m6, e6, P6⟩ := bnSpread_run (E := E) (A := [.tensor R4 (blankTV c dev D), .tensor R3 (blankTV c dev D), .tensor R2 (blankTV c dev D)]) P5 wf vm hc hi hb hbc
  obtain ⟨m7, e7, P7⟩ := bnSpread_run (E := E) (A := [.tensor R4 (blankTV c dev D), .tensor R3 (blankTV c dev D)]) P6 wf vs' hc hi hb hbc
  obtain ⟨m8, e8, P8⟩ := bnSpread_run (E := E) (A := [.tensor R4 (blankTV c dev D)]) P7 wf vb hc hi hb hbc
  obtain ⟨m9, e9, P9⟩ := bnSpread_run (E := E) (A := []) P8 wf vv hc hi hb hbc
  replace P9 : Pool m m9 (.tensor R4 (constTV c dev D (vs.getD ch (.int 0))) :: .tensor R3 (constTV c dev D (bs.getD ch (.int 0))) ::
    .tensor R2 (constTV c dev D (ss.getD ch (.int 0))) :: .tensor R1 (constTV c dev D (ms.getD ch (.int 0))) :: L) := P9
  have esp : bnSpreads Rm.h Rs.h Rb.h Rv.h R1.h R2.h R3.h R4.h ch (prod D : Nat) c.size E m5 = .ok (.inl ()) m9 := by
    unfold bnSpreads
    msimp [e6, e7, e8, e9]
  have lv := vv.el.len
  rw [vv.dims] at lv
  have wv : (vs.getD ch (.int 0)).WT c := wt_getD (N := C) vv.el.wt (by simpa [prod] using lv) hc
  have v4 : Vec m9 R4 c D (List.replicate (prod D) (vs.getD ch (.int 0))) _ := const_vec (P9.at (List.mem_cons_self)) wv hdev
  have ve : Vec m9 Re c D (List.replicate (prod D) ev) _ := const_vec (P9.at (mem_four hE)) hev hdev
  have e := C48_binary_crash (op := .add) nf hm P9.ext.wf v4.ok v4.el ve.ok ve.el hdev hdev rfl hi hpos
    (fun _ _ => by rw [List.getElem_replicate, List.getElem_replicate]; exact ht) .indet
  rw [show c.size = c.dtype.size by cases c <;> rfl] at esp
  unfold orRet
  msimp [esp, e]

theorem bnParams_crash {d C : Nat} {pre post : List Nat} {ss bs ms vs : List Val} {Rs Rb Rm Rv : Foot} {Ts Tb Tm Tv : TV} {ev : Val} {eps : BitVec 64}
    (nf : E.NoFail) (hm : ∀ t s, E.mallocOk t s = false) (wf : m.WF) (h : At m R T) (hdt : T.dtype = c.dtype) (hdev : T.device.type = 0)
    (hds : T.dims = d :: (pre ++ C :: post)) (hax : pre = [] ∨ post = [])
    (vs' : Vec m Rs c [C] ss Ts) (vb : Vec m Rb c [C] bs Tb) (vm : Vec m Rm c [C] ms Tm) (vv : Vec m Rv c [C] vs Tv)
    (hev : cCast E.fp c (.f64 eps) = .ok ev) (hi : prod (pre ++ post) ≤ 2147483647) (hpos : 0 < prod (pre ++ post)) (hC : C ≤ 2147483647) (hC0 : 0 < C)
    (hb : prod (pre ++ post) * c.size ≤ 4294967296) (hbc : C * c.size ≤ 4294967296) (ht : ∃ t, OpResult E.fp c .add (vs.getD 0 (.int 0)) ev t) :
    bnParams R.h ((1 + pre.length : Nat) : Int) Rs.h Rb.h Rm.h Rv.h eps E m = .ub .nullDeref := by
  obtain ⟨n, hn⟩ : ∃ n, n = T.dims.length := ⟨_, rfl⟩
  have hnl : n = 2 + pre.length + post.length := by rw [hn, hds]; simp; omega
  have hnr : n ≤ 2147483647 := by rw [hn]; exact h.shape.rank
  have hg : T.dims[1 + pre.length]? = some C := by
    rw [hds, Nat.add_comm, List.getElem?_cons_succ, List.getElem?_append_right (Nat.le_refl _), Nat.sub_self]; rfl
  have hD : tDim R.h ((1 + pre.length : Nat) : Int) E m = .ok (C : Int) m := h.dimI rfl hg
  obtain ⟨pp, Kp, m1, e1, P1, n1, _⟩ := (Pool.nil wf).scratch (E := E) ((n : Int) - 2) 8
  have hz : toSizeT ((8 : Nat) * ((n : Int) - 2)) = 8 * (n - 2) := by
    have := toSizeT_nat (n := 8 * (n - 2)) (by omega)
    rw [← this]; congr 1; omega
  rw [hz] at P1
  have hp : pp ≠ .null := fun h => n1 h nf
  have t := (P1.temp (p := pp) (K := Kp) (n := 8 * (n - 2)) (by simp)).touch (E := E) hp (lo := 0) (hi := 8 * ((n : Int) - 2)) (by omega) (by omega)
  have hrd : rdAll (dimsCells T.dims) n E m1 = .ok (ints T.dims) m1 := by rw [hn]; exact rdAll_dims _
  have hs := h.shape
  rw [hdt, hds] at hs
  have hs := hs.params
  unfold bnParams
  msimp [h.tNdim, h.tDtype, h.tDevice, h.tDimsArr, hD, ← hn, e1, hp, t]
  rw [Int.toNat_natCast]
  msimp [hrd]
  rw [hdt, hds, paramDims_eq hax]
  generalize pre ++ post = D at hi hpos hb hs
  unfold bnParamsMain
  have hln : (ints D).length = D.length := by simp [ints]
  rw [arrOf_ints, hln]
  refine create_then nf (full_run P1.ext.wf c T.device hs hi eps hev .indet) fun Re m2 Pe => ?_
  have P2 := P1.produce Pe
  have hsz := sizeOfDims_run (ds := D) hs.rank (fun k _ => hs.prefix k) E m2
  have z8 : toSizeT ((8 : Nat) * (C : Int)) = 8 * C := by
    have := toSizeT_nat (n := 8 * C) (by omega); simpa using this
  obtain ⟨pm, Km, m3, e3, P3, n3, _⟩ := P2.scratch (E := E) C 8
  obtain ⟨ps, Ks, m4, e4, P4, n4, _⟩ := P3.scratch (E := E) C 8
  obtain ⟨pb, Kb, m5, e5, P5, n5, _⟩ := P4.scratch (E := E) C 8
  obtain ⟨pd, Kd, m6, e6, P6, n6, _⟩ := P5.scratch (E := E) C 8
  obtain ⟨pt, Kt, m7, e7, P7, n7, _⟩ := P6.scratch (E := E) C 56
  obtain ⟨pv, Kv, m8, e8, P8, n8, _⟩ := P7.scratch (E := E) C 8
  rw [z8] at P8
  have h1 : pm ≠ .null := fun h => n3 h nf
  have h2 : ps ≠ .null := fun h => n4 h nf
  have h3 : pb ≠ .null := fun h => n5 h nf
  have h4 : pd ≠ .null := fun h => n6 h nf
  have h5 : pv ≠ .null := fun h => n8 h nf
  have hloop := bnChan_crash (E := E) (ev := ev) (Re := Re) (dev := T.device) (Km := Km) (Ks := Ks) (Kb := Kb) (Kv := Kv) (pd := pd) (pt := pt) (l := [])
    nf hm wf P8 hs hdev vs' vb vm vv (by simp [constTV]) (cCast_WT hev) (by simp) (by simp) (by simp) (by simp) h1 h2 h3 h5 hC0 hi hpos hb hbc ht
  obtain ⟨k, rfl⟩ : ∃ k, C = k + 1 := ⟨C - 1, by omega⟩
  msimp [hsz, e3, e4, e5, e6, e7, e8, h1, h2, h3, h4, h5]
  unfold forU32E
  rw [if_pos (by omega), Int.toNat_natCast]
  unfold loopE
  msimp [hloop]

/-- C48 is violated by `aitisa_batch_norm` likewise on all arguments it is meant for whose input has rank 3 to 5, unless a dim but the first is 0: if `malloc`
refuses, the call dereferences a null pointer. -/
theorem C48_batchNorm_channels_crash {Rs Rb Rm Rv : Foot} {Sc Bi Me Va : TV} {ss bs ms vs : List Val} {axis : Nat} {eps : BitVec 64} {e : Val} (nf : E.NoFail)
    (hm : ∀ t s, E.mallocOk t s = false) (wf : m.WF) (h : At m R T) (hs : At m Rs Sc) (hb : At m Rb Bi) (hme : At m Rm Me) (hv : At m Rv Va)
    (hx : T.dtype = c.dtype) (es : Elems Sc c ss) (eb : Elems Bi c bs) (em : Elems Me c ms) (ev : Elems Va c vs)
    (hdev : T.device.type = 0) (ds : Sc.device.type = 0) (db : Bi.device.type = 0) (dm : Me.device.type = 0) (dv : Va.device.type = 0)
    (hreq : ∀ p ∈ bnRequires E.fp T axis Sc Bi Me Va eps, p.1) (hr : 3 ≤ T.dims.length) (hpos : ∀ x ∈ T.dims.drop 1, 0 < x) (hsm : BnSmall T axis c)
    (he : Converts E.fp c (.f64 eps) e) (ht : ∃ t, OpResult E.fp c .add (vs.getD 0 (.int 0)) e t) (out : Ptr) :
    batchNorm R.h axis Rs.h Rb.h Rm.h Rv.h eps out E m = .ub .nullDeref := by
  obtain ⟨st, hck, hc⟩ := bnCheck_run (E := E) (axis := axis) (eps := eps) h hs hb hme hv
  rcases hc with hc | ⟨rfl, -⟩
  · exact absurd hreq hc.not_all
  simp only [bnRequires, List.forall_mem_cons] at hreq
  obtain ⟨⟨hr2, hr5⟩, hax, -, ⟨gs, gb⟩, -, ⟨gm, gv⟩, -⟩ := hreq
  simp only [Int.toNat_natCast] at gs gb gm gv
  obtain ⟨d, ds', e0⟩ : ∃ d ds', T.dims = d :: ds' := by
    cases hT : T.dims with
    | nil => rw [hT] at hr2; simp at hr2
    | cons d l => exact ⟨d, l, rfl⟩
  obtain ⟨pre, C, post, hds, hp, rfl⟩ : ∃ pre C post, T.dims = d :: (pre ++ C :: post) ∧ (pre = [] ∨ post = []) ∧ axis = 1 + pre.length := by
    rw [e0] at hr2 hax ⊢
    simp only [List.length_cons] at hr2 hax
    rcases hax with hax | hax
    · cases ds' with
      | nil => simp at hr2
      | cons C l => exact ⟨[], C, l, rfl, .inl rfl, by simp; omega⟩
    · have hne : ds' ≠ [] := by rintro rfl; simp at hr2
      refine ⟨ds'.dropLast, ds'.getLast hne, [], by rw [List.dropLast_concat_getLast hne], .inr rfl, ?_⟩
      rw [List.length_dropLast]; omega
  have hC : T.dims.getD (1 + pre.length) 0 = C := by
    rw [hds, Nat.add_comm]; simp [List.getD_eq_getElem?_getD]
  have her : (T.dims.eraseIdx (1 + pre.length)).drop 1 = pre ++ post := by
    rw [hds, Nat.add_comm, List.eraseIdx_cons_succ, List.eraseIdx_append_of_length_le (Nat.le_refl _)]
    simp
  rw [hC] at gs gb gm gv
  obtain ⟨k1, k2, k3, k4, k5⟩ := hsm
  rw [her] at k3 k5
  rw [hC] at k2 k4
  rw [hds] at hpos
  have hpp : 0 < prod (pre ++ post) := prod_pos fun x hx => hpos x (by
    simp only [List.drop_succ_cons, List.drop_zero, List.mem_append, List.mem_cons] at hx ⊢
    rcases hx with hx | hx
    · exact .inl hx
    · exact .inr (.inr hx))
  rcases create_run (E := E) wf T.dtype T.device h.shape 0 .indet with ⟨Ro, m1, e1, P⟩ | ⟨_, _, _, _, nf'⟩
  swap
  · exact absurd nf nf'
  have hcr : bnCreate R.h out E m = .ok (.success, Ro.h) m1 := by
    unfold bnCreate
    msimp [h.tDimsArr, h.tNdim, h.tDtype, h.tDevice, e1]
  have g := h.frame wf P.frame
  have e2 := bnParams_crash (E := E) nf hm P.wf g hx hdev hds hp ⟨hs.frame wf P.frame, es, gs, ds⟩ ⟨hb.frame wf P.frame, eb, gb, db⟩
    ⟨hme.frame wf P.frame, em, gm, dm⟩ ⟨hv.frame wf P.frame, ev, gv, dv⟩ (converts_iff.1 he) k3 hpp k2 (hpos C (by simp)) k5 k4 ht
  unfold batchNorm
  msimp [hck, hcr]
  suffices hm : bnMain R.h ((1 + pre.length : Nat) : Int) Rs.h Rb.h Rm.h Rv.h eps Ro.h E m1 = .ub .nullDeref by rw [hm]; rfl
  unfold bnMain
  msimp [g.tNdim]
  rw [if_neg (by omega), if_pos (by omega)]
  msimp [e2]

/-- One sample of two channels of three elements if `malloc` grants nothing. -/
example : batchNorm Mem.empty.footT.h 1 (Mem.empty.addT exNy).footT.h (Mem.empty.addT exNy).footT.h (Mem.empty.addT exNy).footT.h
    (Mem.empty.addT exNy).footT.h 1 .indet { okEnv with mallocOk := fun _ _ => false } ((Mem.empty.addT exNy).addT exNp) = .ub .nullDeref := by
  have ep : Elems exNp .f32 _ := tvOf_elems (by decide) rfl
  have hx : At ((Mem.empty.addT exNy).addT exNp) Mem.empty.footT exNy :=
    addT_old (Mem.addT_wf Mem.empty_wf _) (tvOf_at _ (by simp) rfl ⟨by decide, by decide⟩) _
  have hp : At ((Mem.empty.addT exNy).addT exNp) (Mem.empty.addT exNy).footT exNp := tvOf_at _ (by simp) rfl ⟨by decide, by decide⟩
  exact C48_batchNorm_channels_crash (E := { okEnv with mallocOk := fun _ _ => false }) (axis := 1) (eps := 1) (fun _ _ => rfl) (fun _ _ => rfl)
    (Mem.addT_wf (Mem.addT_wf Mem.empty_wf _) _) hx hp hp hp hp rfl ep ep ep ep rfl rfl rfl rfl rfl
    (by
      simp only [bnRequires, List.forall_mem_cons]
      exact ⟨by decide, by decide, by decide, by decide, by decide, by decide, by simp [Negative, okEnv, toyFp], by simp⟩)
    (by decide) (by decide) ⟨by decide, by decide, by decide, by decide, by decide⟩ (converts_iff.2 rfl)
    ⟨_, (opResult_iff (ep.wt _ (List.getElem_mem (by decide : 0 < _))) (cCast_WT (fp := okEnv.fp) (c := .f32) (v := .f64 1) rfl)).2 rfl⟩ _

end Aitisa
