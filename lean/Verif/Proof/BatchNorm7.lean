import Verif.Proof.BatchNorm6

/-! # Batch normalisation: rank 3 and more, all the tensors of the channels -/

namespace Aitisa

variable {E : Env} {m m0 m1 mi mB : Mem} {R R' : Foot} {T T' : TV} {c : Code} {q N : Nat} {xs ys zs : List Val} {L : List Item}
  {G : Nat → Option Val} {dev : Device} {D : List Nat}

/-- The tensors of the channels from number `i` on. -/
def keeps (c : Code) (dev : Device) (D : List Nat) (v : Nat → Val × Val × Val × Val) : Nat → List ChRec → List Item
  | _, [] => []
  | i, r :: rs => r.keep c dev D (v i) ++ keeps c dev D v (i + 1) rs

theorem keeps_snoc {v : Nat → Val × Val × Val × Val} {i : Nat} (rs : List ChRec) (r : ChRec) :
    keeps c dev D v i (rs ++ [r]) = keeps c dev D v i rs ++ r.keep c dev D (v (i + rs.length)) := by
  induction rs generalizing i with
  | nil => simp [keeps]
  | cons x rs ih =>
    simp only [List.cons_append, keeps, ih, List.append_assoc, List.length_cons]
    rw [show i + 1 + rs.length = i + (rs.length + 1) by omega]

theorem keeps_mem {v : Nat → Val × Val × Val × Val} {i k : Nat} {rs : List ChRec} (hk : k < rs.length) {x : Item}
    (hx : x ∈ rs[k].keep c dev D (v (i + k))) : x ∈ keeps c dev D v i rs := by
  induction rs generalizing i k with
  | nil => simp at hk
  | cons r rs ih =>
    simp only [keeps, List.mem_append]
    rcases k with _ | k
    · exact .inl hx
    · right
      refine ih (k := k) (by simpa using hk) ?_
      simp only [List.getElem_cons_succ] at hx
      rwa [show i + 1 + k = i + (k + 1) by omega]

open Classical in
theorem perm_of_count {L L' : List Item} (h : ∀ a, L.count a = L'.count a) : L.Perm L' := List.perm_iff_count.2 h

/-- Permutations of concatenations. -/
macro "perm_ac" : tactic => `(tactic| (
  refine perm_of_count fun a => ?_
  simp only [List.count_append, List.count_cons, List.count_nil, Nat.add_zero, Nat.zero_add]
  ac_rfl))

theorem bnChanLoop_run {C : Nat} {ss bs ms vs dn : List Val} {Rs Rb Rm Rv Re : Foot} {Ts Tb Tm Tv : TV} {ev : Val} {pm ps pb pd pt pv : Ptr}
    {Km Ks Kb Kd Kt Kv : List Nat}
    (wf : m.WF) (lo : Lost m0 m q) (P : Pool m m1 L) (hs : ShapeOK D c.size) (hdev : dev.type = 0)
    (vs' : Vec m Rs c [C] ss Ts) (vb : Vec m Rb c [C] bs Tb) (vm : Vec m Rm c [C] ms Tm) (vv : Vec m Rv c [C] vs Tv)
    (hE : .tensor Re (constTV c dev D ev) ∈ L) (hev : ev.WT c)
    (hpm : .raw pm Km (8 * C) ∈ L) (hps : .raw ps Ks (8 * C) ∈ L) (hpb : .raw pb Kb (8 * C) ∈ L) (hpd : .raw pd Kd (8 * C) ∈ L)
    (hpt : .raw pt Kt (56 * C) ∈ L) (hpv : .raw pv Kv (8 * C) ∈ L)
    (nm : pm ≠ .null) (ns : ps ≠ .null) (nb : pb ≠ .null) (nd : pd ≠ .null) (nt : pt = .null → ¬ E.NoFail) (nv : pv ≠ .null)
    (hi : prod D ≤ 2147483647) (hb : prod D * c.size ≤ 4294967296) (hbc : C * c.size ≤ 4294967296)
    (hdn : ∀ k, k < C → DenStep E.fp c ev (vs.getD k (.int 0)) (dn.getD k (.int 0))) :
    Runs E m0 q (loopE (bnChan c.dtype dev (dimsCells D) D.length (prod D : Nat) Rs.h Rb.h Rm.h Rv.h Re.h ⟨pm, ps, pb, pd, pt, pv⟩) C 0 [] E m1) (fun l' m' =>
      ∃ rs : List ChRec, rs.length = C ∧ l' = rs.map (fun r => (r.chan, r.Rt.h)) ∧
        Pool m m' (keeps c dev D (fun k => (ss.getD k (.int 0), bs.getD k (.int 0), ms.getD k (.int 0), dn.getD k (.int 0))) 0 rs ++
          (rs.map ChRec.temp ++ L))) := by
  refine Runs.loop _ (fun k l' m' => ∃ rs : List ChRec, rs.length = k ∧ l' = rs.map (fun r => (r.chan, r.Rt.h)) ∧
        Pool m m' (keeps c dev D (fun k => (ss.getD k (.int 0), bs.getD k (.int 0), ms.getD k (.int 0), dn.getD k (.int 0))) 0 rs ++
          (rs.map ChRec.temp ++ L))) C ?_ ⟨[], rfl, rfl, P⟩
  rintro k l mi hk ⟨rs, rfl, rfl, P⟩
  have mm : ∀ {x}, x ∈ L → x ∈ keeps c dev D (fun k => (ss.getD k (.int 0), bs.getD k (.int 0), ms.getD k (.int 0), dn.getD k (.int 0))) 0 rs ++
          (rs.map ChRec.temp ++ L) := fun h => List.mem_append_right _ (List.mem_append_right _ h)
  refine (bnChan_run (E := E) wf lo P hs hdev vs' vb vm vv (mm hE) hev (mm hpm) (mm hps) (mm hpb) (mm hpd) (mm hpt) (mm hpv) nm ns nb nd nt nv hk hi hb hbc
    (hdn _ hk)).mono ?_
  rintro l' m' ⟨r, rfl, P'⟩
  refine ⟨rs ++ [r], by simp, by simp, P'.perm ?_⟩
  rw [keeps_snoc, Nat.zero_add, List.map_append]
  generalize keeps c dev D _ 0 rs = K
  generalize r.keep c dev D _ = K'
  generalize rs.map ChRec.temp = K''
  simp only [List.map_cons, List.map_nil]
  perm_ac

/-! ### Releasing the temporaries -/

theorem bnTemps_run {rs : List ChRec} {B : List Item} (l : List (BnChan × Ptr)) (hl : l = rs.map (fun r => (r.chan, r.Rt.h)))
    (P : Pool m m1 (rs.map ChRec.temp ++ B)) :
    ∃ m2, loopN (fun i (_ : Unit) => bnDropTemp l i) rs.length 0 () E m1 = .ok () m2 ∧ Pool m m2 B := by
  obtain ⟨_, m2, e, h⟩ := loopN_inv (E := E) (fun i (_ : Unit) => bnDropTemp l i) (fun i _ mi => Pool m mi ((rs.drop i).map ChRec.temp ++ B)) rs.length (by
      intro i s mi hi P
      rw [List.drop_eq_getElem_cons hi] at P
      obtain ⟨x, P'⟩ := Pool.destroy (E := E) (R := rs[i].Rt) (T := rs[i].Tt) (L := (rs.drop (i + 1)).map ChRec.temp ++ B) P
      refine ⟨(), _, ?_, P'⟩
      have : l[i]? = some (rs[i].chan, rs[i].Rt.h) := by rw [hl]; simp [hi]
      unfold bnDropTemp
      msimp [this, x]) (s := ()) (m := m1) P
  refine ⟨m2, e, ?_⟩
  simpa using h

theorem perm_params {X Y : List Item} {pv pt pd pb ps pm e pp : Item} :
    (X ++ (Y ++ [pv, pt, pd, pb, ps, pm, e, pp])).Perm (e :: pv :: pp :: (Y ++ (pt :: (X ++ [ps, pb, pm, pd])))) := by
  perm_ac

/-- The values of the channels. -/
def chVals (ss bs ms dn : List Val) (k : Nat) : Val × Val × Val × Val := (ss.getD k (.int 0), bs.getD k (.int 0), ms.getD k (.int 0), dn.getD k (.int 0))

theorem bnParamsMain_run {C : Nat} {ss bs ms vs dn : List Val} {Rs Rb Rm Rv : Foot} {Ts Tb Tm Tv : TV} {ev : Val} {eps : BitVec 64} {pp : Ptr} {Kp : List Nat} {np : Nat}
    (wf : m.WF) (P : Pool m m1 [.raw pp Kp np]) (hs : ShapeOK D c.size) (hdev : dev.type = 0)
    (vs' : Vec m Rs c [C] ss Ts) (vb : Vec m Rb c [C] bs Tb) (vm : Vec m Rm c [C] ms Tm) (vv : Vec m Rv c [C] vs Tv)
    (hev : cCast E.fp c (.f64 eps) = .ok ev)
    (hi : prod D ≤ 2147483647) (hC : C ≤ 2147483647) (hb : prod D * c.size ≤ 4294967296) (hbc : C * c.size ≤ 4294967296)
    (hdn : ∀ k, k < C → DenStep E.fp c ev (vs.getD k (.int 0)) (dn.getD k (.int 0))) :
    Runs E m q (bnParamsMain c.dtype dev pp (ints D) C Rs.h Rb.h Rm.h Rv.h eps E m1) (fun A m' =>
      ∃ (rs : List ChRec) (Ks Kb Km Kd : List Nat), rs.length = C ∧ A.ch = rs.map ChRec.chan ∧ A.pm ≠ .null ∧ A.ps ≠ .null ∧ A.pb ≠ .null ∧ A.pd ≠ .null ∧
        Pool m m' (keeps c dev D (chVals ss bs ms dn) 0 rs ++ [.raw A.ps Ks (8 * C), .raw A.pb Kb (8 * C), .raw A.pm Km (8 * C), .raw A.pd Kd (8 * C)])) := by
  unfold bnParamsMain
  have hln : (ints D).length = D.length := by simp [ints]
  have hL : Lost m m q := ⟨Nat.le_refl _, fun _ _ _ => rfl, wf⟩
  rw [arrOf_ints, hln]
  refine Runs.create (full_run P.ext.wf c dev hs hi eps hev .indet) (P.lost q) fun Re m2 Pe => ?_
  have P2 := P.produce Pe
  have hsz := sizeOfDims_run (ds := D) hs.rank (fun k _ => hs.prefix k) E m2
  have z8 : toSizeT ((8 : Nat) * (C : Int)) = 8 * C := by
    have := toSizeT_nat (n := 8 * C) (by omega); simpa using this
  have z56 : toSizeT ((56 : Nat) * (C : Int)) = 56 * C := by
    have := toSizeT_nat (n := 56 * C) (by omega); simpa using this
  obtain ⟨pm, Km, m3, e3, P3, n3, _⟩ := P2.scratch (E := E) C 8
  obtain ⟨ps, Ks, m4, e4, P4, n4, _⟩ := P3.scratch (E := E) C 8
  obtain ⟨pb, Kb, m5, e5, P5, n5, _⟩ := P4.scratch (E := E) C 8
  obtain ⟨pd, Kd, m6, e6, P6, n6, _⟩ := P5.scratch (E := E) C 8
  obtain ⟨pt, Kt, m7, e7, P7, n7, _⟩ := P6.scratch (E := E) C 56
  obtain ⟨pv, Kv, m8, e8, P8, n8, _⟩ := P7.scratch (E := E) C 8
  rw [z8, z56] at P8
  by_cases hnull : pm = .null ∨ ps = .null ∨ pb = .null ∨ pd = .null ∨ pv = .null
  · refine .inr ⟨.inl ?_, .inl ⟨m8, ?_, P8.lost q⟩⟩
    · rcases hnull with h | h | h | h | h
      · exact n3 h
      · exact n4 h
      · exact n5 h
      · exact n6 h
      · exact n8 h
    · msimp [hsz, e3, e4, e5, e6, e7, e8]
      rw [if_pos hnull]
  simp only [not_or] at hnull
  obtain ⟨h1, h2, h3, h4, h5⟩ := hnull
  have hloop := bnChanLoop_run (E := E) (q := q) (dn := dn) (ev := ev) (Re := Re) (dev := dev) (Km := Km) (Ks := Ks) (Kb := Kb) (Kd := Kd) (Kt := Kt) (Kv := Kv)
    wf hL P8 hs hdev vs' vb vm vv (by simp [constTV]) (cCast_WT hev) (by simp) (by simp) (by simp) (by simp) (by simp) (by simp) h1 h2 h3 h4 n7 h5 hi hb hbc hdn
  have ee : ∀ {r}, loopE (bnChan c.dtype dev (dimsCells D) D.length (prod D : Nat) Rs.h Rb.h Rm.h Rv.h Re.h ⟨pm, ps, pb, pd, pt, pv⟩) C 0 [] E m8 = r →
      (do
        let size ← sizeOfDims (dimsCells D) D.length
        let pm ← scratch C 8
        let ps ← scratch C 8
        let pb ← scratch C 8
        let pd ← scratch C 8
        let pt ← scratch C 56
        let pv ← scratch C 8
        if pm = .null ∨ ps = .null ∨ pb = .null ∨ pd = .null ∨ pv = .null then return .inr .allocFailed
        let P : BnPtrs := ⟨pm, ps, pb, pd, pt, pv⟩
        match ← forU32E C [] (bnChan c.dtype dev (dimsCells D) D.length size Rs.h Rb.h Rm.h Rv.h Re.h P) with
        | .inr st => return .inr st
        | .inl l => bnParamsEnd Re.h P pp C l : M (BnArrs ⊕ Status)) E m2 = (match r with
          | .ok (.inr st) m' => .ok (.inr st) m'
          | .ok (.inl l) m' => bnParamsEnd Re.h ⟨pm, ps, pb, pd, pt, pv⟩ pp C l E m'
          | .ub u => .ub u
          | .abort => .abort
          | .fuel => .fuel) := by
    intro r hr
    msimp [hsz, e3, e4, e5, e6, e7, e8, h1, h2, h3, h4, h5]
    unfold forU32E
    rw [if_pos (by omega), Int.toNat_natCast, hr]
    rcases r with ⟨a | a, m'⟩ | _ | _ | _ <;> rfl
  rcases hloop with ⟨l, m9, e, rs, hlen, rfl, P9⟩ | ⟨nf, ⟨m', e, l'⟩ | e⟩
  · left
    have P10 := Pool.perm P9 perm_params
    obtain ⟨x1, P11⟩ := P10.destroy (E := E)
    obtain ⟨x2, P12⟩ := P11.free (E := E)
    obtain ⟨x3, P13⟩ := P12.free (E := E)
    obtain ⟨m14, x4, P14⟩ := bnTemps_run (E := E) (rs := rs) (rs.map fun r => (r.chan, r.Rt.h)) rfl P13
    obtain ⟨x5, P15⟩ := P14.free (E := E)
    refine ⟨⟨pm, ps, pb, pd, rs.map ChRec.chan⟩, _, (ee e).trans ?_, rs, Ks, Kb, Km, Kd, hlen, rfl, h1, h2, h3, h4, P15⟩
    unfold bnParamsEnd forI
    msimp [x1, x2, x3]
    rw [hlen] at x4
    rw [Int.toNat_natCast]
    msimp [x4, x5]
    rw [List.map_map]
    rfl
  · exact .inr ⟨nf, .inl ⟨m', ee e, l'⟩⟩
  · exact .inr ⟨nf, .inr (ee e)⟩

theorem paramDims_eq {d C : Nat} {pre post : List Nat} (hax : pre = [] ∨ post = []) :
    bnParamDims (ints (d :: (pre ++ C :: post))) ((1 + pre.length : Nat) : Int) = ints (pre ++ post) := by
  unfold bnParamDims
  rcases hax with rfl | rfl
  · simp [ints]
  · cases pre with
    | nil => simp [ints]
    | cons x pre =>
      rw [if_neg (by simp; omega)]
      simp only [ints, List.map_cons, List.map_append, List.map_nil, List.tail_cons, List.append_nil]
      exact List.dropLast_concat

theorem prodMax_app (a b : List Nat) : prodMax (a ++ b) = prodMax a * prodMax b := by
  induction a with
  | nil => simp [prodMax]
  | cons d a ih => simp only [List.cons_append, prodMax, ih, Nat.mul_assoc]

theorem prodMax_pos' (a : List Nat) : 1 ≤ prodMax a := by
  induction a with
  | nil => simp [prodMax]
  | cons d a ih => exact Nat.mul_le_mul (show 1 ≤ max d 1 by omega) ih

theorem ShapeOK.params {d C sz : Nat} {pre post : List Nat} (h : ShapeOK (d :: (pre ++ C :: post)) sz) : ShapeOK (pre ++ post) sz where
  fits := by
    refine Nat.le_trans (Nat.mul_le_mul_right _ ?_) h.fits
    simp only [prodMax, prodMax_app]
    have h1 : prodMax pre * prodMax post ≤ prodMax pre * (max C 1 * prodMax post) := Nat.mul_le_mul_left _ (Nat.le_mul_of_pos_left _ (by omega))
    exact Nat.le_trans h1 (Nat.le_mul_of_pos_left _ (by omega))
  rank := by have := h.rank; simp at this ⊢; omega

theorem bnParams_run {d C : Nat} {pre post : List Nat} {ss bs ms vs dn : List Val} {Rs Rb Rm Rv : Foot} {Ts Tb Tm Tv : TV} {ev : Val} {eps : BitVec 64}
    (wf : m.WF) (h : At m R T) (hdt : T.dtype = c.dtype) (hdev : T.device.type = 0) (hds : T.dims = d :: (pre ++ C :: post)) (hax : pre = [] ∨ post = [])
    (vs' : Vec m Rs c [C] ss Ts) (vb : Vec m Rb c [C] bs Tb) (vm : Vec m Rm c [C] ms Tm) (vv : Vec m Rv c [C] vs Tv)
    (hev : cCast E.fp c (.f64 eps) = .ok ev)
    (hi : prod (pre ++ post) ≤ 2147483647) (hC : C ≤ 2147483647) (hb : prod (pre ++ post) * c.size ≤ 4294967296) (hbc : C * c.size ≤ 4294967296)
    (hdn : ∀ k, k < C → DenStep E.fp c ev (vs.getD k (.int 0)) (dn.getD k (.int 0))) :
    Runs E m q (bnParams R.h ((1 + pre.length : Nat) : Int) Rs.h Rb.h Rm.h Rv.h eps E m) (fun A m' =>
      ∃ (rs : List ChRec) (Ks Kb Km Kd : List Nat), rs.length = C ∧ A.ch = rs.map ChRec.chan ∧ A.pm ≠ .null ∧ A.ps ≠ .null ∧ A.pb ≠ .null ∧ A.pd ≠ .null ∧
        Pool m m' (keeps c T.device (pre ++ post) (chVals ss bs ms dn) 0 rs ++
          [.raw A.ps Ks (8 * C), .raw A.pb Kb (8 * C), .raw A.pm Km (8 * C), .raw A.pd Kd (8 * C)])) := by
  obtain ⟨n, hn⟩ : ∃ n, n = T.dims.length := ⟨_, rfl⟩
  have hnl : n = 2 + pre.length + post.length := by rw [hn, hds]; simp; omega
  have hnr : n ≤ 2147483647 := by rw [hn]; exact h.shape.rank
  have hg : T.dims[1 + pre.length]? = some C := by
    rw [hds, Nat.add_comm, List.getElem?_cons_succ, List.getElem?_append_right (Nat.le_refl _), Nat.sub_self]; rfl
  have hD : tDim R.h ((1 + pre.length : Nat) : Int) E m = .ok (C : Int) m := h.dimI rfl hg
  obtain ⟨pp, Kp, m1, e1, P1, n1, _⟩ := (Pool.nil wf).scratch (E := E) ((n : Int) - 2) 8
  have hz : toSizeT ((8 : Nat) * ((n : Int) - 2)) = 8 * (n - 2) := by
    have := toSizeT_nat (n := 8 * (n - 2)) (by omega)
    rw [← this]; congr 1; omega
  rw [hz] at P1
  unfold bnParams
  by_cases hp : pp = .null
  · refine .inr ⟨.inl (n1 hp), .inl ⟨m1, ?_, P1.lost q⟩⟩
    msimp [h.tNdim, h.tDtype, h.tDevice, h.tDimsArr, hD, ← hn, e1, hp]
  · have t := (P1.temp (p := pp) (K := Kp) (n := 8 * (n - 2)) (by simp)).touch (E := E) hp (lo := 0) (hi := 8 * ((n : Int) - 2)) (by omega) (by omega)
    have hrd : rdAll (dimsCells T.dims) n E m1 = .ok (ints T.dims) m1 := by rw [hn]; exact rdAll_dims _
    have hs := h.shape
    rw [hdt, hds] at hs
    refine (bnParamsMain_run (E := E) (q := q) (dn := dn) wf P1 hs.params hdev vs' vb vm vv hev hi hC hb hbc hdn).of_eq ?_
    msimp [h.tNdim, h.tDtype, h.tDevice, h.tDimsArr, hD, ← hn, e1, hp, t]
    rw [Int.toNat_natCast]
    msimp [hrd]
    rw [hdt, hds, paramDims_eq hax]

end Aitisa
