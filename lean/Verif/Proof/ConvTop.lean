import Verif.Proof.ConvFill

/-! # Convolution: the whole operator -/

namespace Aitisa

variable {E : Env} {m m' mD : Mem} {R1 R2 R : Foot} {T1 T2 : TV} {xs ys : List Val} {ws : List Win} {B C O : Nat}
  {pc pi pf pt si sf so out : Ptr} {Ki Kf Ko : List Nat} {st : Status}

/-- The element at flat position `i` of the output. -/
def convAt (fp : FloatOps) (ds fs : List Nat) (xs ys : List Val) (ws : List Win) (C O i : Nat) : BitVec 32 :=
  let P := prod (ws.map Win.cOut)
  convVal fp ds fs xs ys ws C (i / P / O) (i / P % O) (unlin (ws.map Win.cOut) (i % P))

theorem convAt_eq (fp : FloatOps) (ds fs : List Nat) (xs ys : List Val) {b oc k : Nat} (hoc : oc < O) (hk : k < prod (ws.map Win.cOut)) :
    convAt fp ds fs xs ys ws C O ((b * O + oc) * prod (ws.map Win.cOut) + k) = convVal fp ds fs xs ys ws C b oc (unlin (ws.map Win.cOut) k) := by
  unfold convAt
  generalize hP : prod (ws.map Win.cOut) = P at *
  have e1 : ((b * O + oc) * P + k) / P = b * O + oc := by
    rw [Nat.mul_comm, Nat.mul_add_div (by omega), Nat.div_eq_of_lt hk, Nat.add_zero]
  have e2 : ((b * O + oc) * P + k) % P = k := by
    rw [Nat.mul_comm, Nat.mul_add_mod, Nat.mod_eq_of_lt hk]
  have e3 : (b * O + oc) / O = b := by
    rw [Nat.mul_comm, Nat.mul_add_div (by omega), Nat.div_eq_of_lt hoc, Nat.add_zero]
  have e4 : (b * O + oc) % O = oc := by
    rw [Nat.mul_comm, Nat.mul_add_mod, Nat.mod_eq_of_lt hoc]
  simp only [e1, e2, e3, e4]

/-- The contents of the output after `n` elements. -/
def convOf (fp : FloatOps) (ds fs : List Nat) (xs ys : List Val) (ws : List Win) (C O n : Nat) (i : Nat) : Option Val :=
  if i < n ∧ 0 < C then some (.f32 (convAt fp ds fs xs ys ws C O i)) else none

theorem convFill_run (X : ConvCtx E mD R1 R2 R T1 T2 xs ys ws B C O pc pi pf pt)
    (hb : mD.blk R.p = some ⟨.own, .bytes (List.replicate (prod (B :: O :: ws.map Win.cOut) * 4) none)⟩)
    (ti : Temp mD si Ki (8 * (ws.length + 2))) (tf : Temp mD sf Kf (8 * (ws.length + 2))) (to : Temp mD so Ko (8 * (ws.length + 2)))
    (ni : si = .null → ¬ E.NoFail) (nf : sf = .null → ¬ E.NoFail) (no : so = .null → ¬ E.NoFail) :
    Upto E (convFill R1.h R2.h R.h pi pf pc pt si sf so ((ws.length + 2 : Nat) : Int) (ws.map Win.ax) (dimsCells (B :: O :: ws.map Win.cOut)) E mD)
      (.ok () (mD.arr R.p .f32 (prod (B :: O :: ws.map Win.cOut))
        (convOf E.fp T1.dims T2.dims xs ys ws C O (prod (B :: O :: ws.map Win.cOut))))) := by
  have hblank : (mD.arr R.p .f32 (prod (B :: O :: ws.map Win.cOut)) fun _ => none) = mD := blank_arr hb
  have a1 := X.a1 fun _ => none
  have a2 := X.a2 fun _ => none
  obtain ⟨T, hsT, a3⟩ := X.a3 fun _ => none
  rw [hblank] at a1 a2 a3
  have hN : prod (B :: O :: ws.map Win.cOut) = B * O * prod (ws.map Win.cOut) := by simp [prod, Nat.mul_assoc]
  have hl1 : T1.dims.length = ws.length + 2 := by rw [X.s1]; simp
  have hl2 : T2.dims.length = ws.length + 2 := by rw [X.s2]; simp
  have hl3 : T.dims.length = ws.length + 2 := by rw [hsT]; simp
  have hr := a1.shape.rank
  have hc := cells_nat (show ws.length + 2 ≤ 2147483647 by omega)
  have s1 := getAllStrides_run (E := E) a1 (buf := List.replicate (ws.length + 2) none) (by rw [hl1]; simp)
  have s2 := getAllStrides_run (E := E) a2 (buf := List.replicate (ws.length + 2) none) (by rw [hl2]; simp)
  have s3 := getAllStrides_run (E := E) a3 (buf := List.replicate (ws.length + 2) none) (by rw [hl3]; simp)
  have z3 : sizeFrom2 (dimsCells (B :: O :: ws.map Win.cOut)) ((ws.length + 2 : Nat) : Int) E mD = .ok ((prod (ws.map Win.cOut) : Nat) : Int) mD := by
    have := sizeFrom2_run (E := E) (m := mD) (a := B) (b := O) (ds := ws.map Win.cOut) (by simp; omega) (by
      have := Nat.le_trans (prodMax_drop_le T.dims 2) a3.shape.prodMax_le
      rw [hsT] at this
      exact this)
    rwa [List.length_map] at this
  have z2 : sizeFrom2 (dimsCells T2.dims) ((ws.length + 2 : Nat) : Int) E mD = .ok ((prod (ws.map Win.k) : Nat) : Int) mD := by
    have := sizeFrom2_run (E := E) (m := mD) (a := O) (b := C) (ds := ws.map Win.k) (by simp; omega) (by
      have := Nat.le_trans (prodMax_drop_le T2.dims 2) a2.shape.prodMax_le
      rw [X.s2] at this
      exact this)
    rw [List.length_map] at this
    rw [X.s2]; exact this
  have d0 : tDim R1.h 0 E mD = .ok (B : Int) mD := by
    have := a1.tDim (E := E) (i := 0) (by omega)
    rw [show ((0 : Nat) : Int) = 0 from rfl] at this
    rw [this]; simp [X.s1]
  have d1 : tDim R1.h 1 E mD = .ok (C : Int) mD := by
    have := a1.tDim (E := E) (i := 1) (by omega)
    rw [show ((1 : Nat) : Int) = 1 from rfl] at this
    rw [this]; simp [X.s1]
  have d2 : tDim R.h 1 E mD = .ok (O : Int) mD := by
    have := a3.tDim (E := E) (i := 1) (by omega)
    rw [show ((1 : Nat) : Int) = 1 from rfl] at this
    rw [this]; simp [hsT]
  have hloop := loopN_upto (E := E) (σ := Unit) (fun b (_ : Unit) =>
      loopN (fun oc (_ : Unit) =>
        loopN (fun n (_ : Unit) => convElem R1.h R2.h R.h (.blk R1.p) (.blk R2.p) (.blk R.p) pc pi pf pt ((ws.length + 2 : Nat) : Int) (ws.map Win.ax)
          (prod (ws.map Win.k)) C (b : Nat) (oc : Nat) n) (prod (ws.map Win.cOut)) 0 ()) O 0 ()) (fun _ => ())
    (fun b => mD.arr R.p .f32 (prod (B :: O :: ws.map Win.cOut)) (convOf E.fp T1.dims T2.dims xs ys ws C O (b * O * prod (ws.map Win.cOut)))) B (by
      intro b hb
      have h2 := loopN_upto (E := E) (σ := Unit) (fun oc (_ : Unit) =>
          loopN (fun n (_ : Unit) => convElem R1.h R2.h R.h (.blk R1.p) (.blk R2.p) (.blk R.p) pc pi pf pt ((ws.length + 2 : Nat) : Int) (ws.map Win.ax)
            (prod (ws.map Win.k)) C (b : Nat) (oc : Nat) n) (prod (ws.map Win.cOut)) 0 ()) (fun _ => ())
        (fun oc => mD.arr R.p .f32 (prod (B :: O :: ws.map Win.cOut))
          (convOf E.fp T1.dims T2.dims xs ys ws C O ((b * O + oc) * prod (ws.map Win.cOut)))) O (by
          intro oc hoc
          have h3 := loopN_upto (E := E) (σ := Unit) (fun n (_ : Unit) =>
              convElem R1.h R2.h R.h (.blk R1.p) (.blk R2.p) (.blk R.p) pc pi pf pt ((ws.length + 2 : Nat) : Int) (ws.map Win.ax)
                (prod (ws.map Win.k)) C (b : Nat) (oc : Nat) n) (fun _ => ())
            (fun k => mD.arr R.p .f32 (prod (B :: O :: ws.map Win.cOut))
              (convOf E.fp T1.dims T2.dims xs ys ws C O ((b * O + oc) * prod (ws.map Win.cOut) + k))) (prod (ws.map Win.cOut)) (by
              intro k hk
              refine convElem_run X hb hoc hk rfl ?_ fun i hi => ?_
              · simp [convOf]
              · simp only [convOf]
                by_cases hC : 0 < C
                · rcases Nat.lt_trichotomy i ((b * O + oc) * prod (ws.map Win.cOut) + k) with h | h | h
                  · rw [if_pos ⟨by omega, hC⟩, if_neg (by omega), if_pos ⟨by omega, hC⟩]
                  · rw [if_pos ⟨by omega, hC⟩, if_pos ⟨h, hC⟩, h, convAt_eq _ _ _ _ _ hoc hk]
                  · rw [if_neg (by omega), if_neg (by omega), if_neg (by omega)]
                · rw [if_neg (by omega), if_neg (by omega), if_neg (by omega)])
          rw [Nat.add_zero, show (b * O + oc) * prod (ws.map Win.cOut) + prod (ws.map Win.cOut) = (b * O + (oc + 1)) * prod (ws.map Win.cOut) by
            rw [← Nat.add_assoc, Nat.succ_mul]] at h3
          exact h3)
      rw [Nat.add_zero, show b * O + O = (b + 1) * O by rw [Nat.succ_mul]] at h2
      exact h2)
  rw [show 0 * O * prod (ws.map Win.cOut) = 0 by simp, ← hN,
    show convOf E.fp T1.dims T2.dims xs ys ws C O 0 = fun _ => none from funext fun i => by simp [convOf], hblank] at hloop
  unfold convFill
  refine Upto.bind (ti.upto ni (by omega)) ?_
  refine Upto.bind (.inl (by rw [hc]; exact s1)) ?_
  refine Upto.bind (tf.upto nf (by omega)) ?_
  refine Upto.bind (.inl (by rw [hc]; exact s2)) ?_
  refine Upto.bind (to.upto no (by omega)) ?_
  refine Upto.bind (.inl (by rw [hc]; exact s3)) ?_
  refine Upto.bind (.inl a1.tData) (Upto.bind (.inl a2.tData) (Upto.bind (.inl a3.tData) (Upto.bind (.inl z3)
    (Upto.bind (.inl a2.tDimsArr) (Upto.bind (.inl z2) (Upto.bind (.inl d0) (Upto.bind (.inl d1) (Upto.bind (.inl d2) ?_))))))))
  simp only [Int.toNat_natCast]
  exact hloop

theorem dims_le {ds : List Nat} {sz d : Nat} (h : ShapeOK ds sz) (hd : d ∈ ds) : d ≤ 9223372036854775807 := by
  refine Nat.le_trans ?_ h.prodMax_le
  clear h
  induction ds with
  | nil => simp at hd
  | cons a ds ih =>
    unfold prodMax
    rcases List.mem_cons.1 hd with rfl | hd
    · exact Nat.le_trans (by omega) (Nat.le_mul_of_pos_right _ (prodMax_pos ds))
    · exact Nat.le_trans (ih hd) (Nat.le_mul_of_pos_left _ (by omega))

/-- What `aitisa_conv_float` does; `j` is what happens at its end. -/
theorem convFloat_run (j : Fall) (groups : Int) (wf : m.WF) (h1 : At m R1 T1) (h2 : At m R2 T2) (e1 : Elems T1 .f32 xs) (e2 : Elems T2 .f32 ys)
    (s1 : T1.dims = B :: C :: ws.map Win.x) (s2 : T2.dims = O :: C :: ws.map Win.k) (ok : ConvOK ws)
    (hso : ShapeOK (B :: O :: ws.map Win.cOut) 4) :
    (∃ R m', convFloat j R1.h R2.h (dimsCells (ws.map Win.s)) (dimsCells (ws.map Win.p)) (dimsCells (ws.map Win.d)) groups out E m =
        (do let st ← j.get
            return (st, R.h)) E m' ∧
      Produces m m' R ⟨Code.f32.dtype, T1.device, B :: O :: ws.map Win.cOut, encOpt .f32 (tab (prod (B :: O :: ws.map Win.cOut))
        (convOf E.fp T1.dims T2.dims xs ys ws C O (prod (B :: O :: ws.map Win.cOut))))⟩) ∨
    (¬ E.NoFail ∧ ((∃ m', convFloat j R1.h R2.h (dimsCells (ws.map Win.s)) (dimsCells (ws.map Win.p)) (dimsCells (ws.map Win.d)) groups out E m =
        .ok (.allocFailed, out) m' ∧ Frame m m' ∧ m'.WF) ∨
      convFloat j R1.h R2.h (dimsCells (ws.map Win.s)) (dimsCells (ws.map Win.p)) (dimsCells (ws.map Win.d)) groups out E m = .ub .nullDeref)) := by
  have hl1 : T1.dims.length = ws.length + 2 := by rw [s1]; simp
  have hl2 : T2.dims.length = ws.length + 2 := by rw [s2]; simp
  have hr := h1.shape.rank
  have hn : ws.length + 2 ≤ 2147483647 := by omega
  have hk : ∀ w ∈ ws, w.k ≤ 9223372036854775807 := by
    intro w hw
    have : w.k ∈ T2.dims := by rw [s2]; simp; exact .inr (.inr ⟨w, hw, rfl⟩)
    exact dims_le h2.shape this
  obtain ⟨po, Kpo, m1, x1, S⟩ := (Many.nil (E := E) (n := 8 * (ws.length + 2)) wf).scratch hn
  obtain ⟨pi, Kpi, m2, x2, S⟩ := S.scratch hn
  obtain ⟨pf, Kpf, m3, x3, S⟩ := S.scratch hn
  obtain ⟨pc, Kpc, m4, x4, S⟩ := S.scratch hn
  obtain ⟨pt, Kpt, m5, x5, S⟩ := S.scratch hn
  obtain ⟨si, Ksi, m6, x6, S⟩ := S.scratch hn
  obtain ⟨sf, Ksf, m7, x7, S⟩ := S.scratch hn
  obtain ⟨so, Kso, m8, x8, S⟩ := S.scratch hn
  have g1 := h1.frame wf S.ext.toFrame
  have g2 := h2.frame wf S.ext.toFrame
  obtain ⟨cm, hcm⟩ : ∃ x, x = convMain j R1.h R2.h (dimsCells (ws.map Win.s)) (dimsCells (ws.map Win.p)) (dimsCells (ws.map Win.d))
    (dimsCells T1.dims) (dimsCells T2.dims) ((ws.length + 2 : Nat) : Int) out po pi pf pc pt si sf so E m8 := ⟨_, rfl⟩
  have e0 : convFloat j R1.h R2.h (dimsCells (ws.map Win.s)) (dimsCells (ws.map Win.p)) (dimsCells (ws.map Win.d)) groups out E m = cm := by
    rw [hcm]
    unfold convFloat
    msimp [h1.tNdim, hl1, h1.tDimsArr, h2.tDimsArr, x1, x2, x3, x4, x5, x6, x7, x8]
  rw [e0]
  have n2 : (((ws.length + 2 : Nat) : Int) - 2).toNat = ws.length := by omega
  have hmax : max ((ws.length + 2 : Nat) : Int) 2 = ((ws.length + 2 : Nat) : Int) := by omega
  have q0 : (dimsCells T1.dims).rd 0 E m8 = .ok (B : Int) m8 := by
    have := rd_dims (E := E) (m := m8) (ds := T1.dims) (i := 0) (by omega)
    rw [show ((0 : Nat) : Int) = 0 from rfl] at this
    rw [this]; simp [s1]
  have q1 : (dimsCells T2.dims).rd 0 E m8 = .ok (O : Int) m8 := by
    have := rd_dims (E := E) (m := m8) (ds := T2.dims) (i := 0) (by omega)
    rw [show ((0 : Nat) : Int) = 0 from rfl] at this
    rw [this]; simp [s2]
  have rA : ∀ g : Win → Nat, rdAll (dimsCells (ws.map g)) ws.length E m8 = .ok (ints (ws.map g)) m8 := by
    intro g
    have := rdAll_dims (E := E) (m := m8) (ws.map g)
    rwa [List.length_map] at this
  have rX : rdAll (List.drop 2 (dimsCells T1.dims)) ws.length E m8 = .ok (ints (ws.map Win.x)) m8 := by
    rw [show List.drop 2 (dimsCells T1.dims) = dimsCells (ws.map Win.x) by rw [s1]; rfl]
    exact rA Win.x
  have rK : rdAll (List.drop 2 (dimsCells T2.dims)) ws.length E m8 = .ok (ints (ws.map Win.k)) m8 := by
    rw [show List.drop 2 (dimsCells T2.dims) = dimsCells (ws.map Win.k) by rw [s2]; rfl]
    exact rA Win.k
  have hdt : T1.dtype = Code.f32.dtype := e1.dtype
  have hos : Arr.of ((B : Int) :: (O : Int) :: ints (ws.map Win.cOut)) = dimsCells (B :: O :: ws.map Win.cOut) := by
    rw [show ((B : Int) :: (O : Int) :: ints (ws.map Win.cOut)) = ints (B :: O :: ws.map Win.cOut) from rfl, of_ints]
  have hlen : (((B :: O :: ws.map Win.cOut).length : Nat) : Int) = ((ws.length + 2 : Nat) : Int) := by simp; rfl
  by_cases no : po = .null
  · right
    refine ⟨S.null (po, Kpo) (by simp) no, .inr ?_⟩
    rw [hcm]
    unfold convMain
    msimp [q0, q1, no, touch_null]
  have tpo := (S.temp (po, Kpo) (by simp)).touch (E := E) no (lo := 0) (hi := 8 * ((ws.length + 2 : Nat) : Int)) (by omega) (by omega)
  have hcr := create_run (E := E) S.ext.wf Code.f32.dtype T1.device (ds := B :: O :: ws.map Win.cOut) hso 0 .indet
  rw [hlen] at hcr
  rcases hcr with ⟨R, m9, ec, P⟩ | ⟨m9, ec, f, wf9, nf⟩
  · have g3 := g1.frame S.ext.wf P.ext.toFrame
    have g4 := g2.frame S.ext.wf P.ext.toFrame
    have hfresh := P.fresh R.p (by simp [mem_foot])
    have hR1 : R.p ∉ R1.list := fun hm => by have := g1.lt S.ext.wf hm; omega
    have hR2 : R.p ∉ R2.list := fun hm => by have := g2.lt S.ext.wf hm; omega
    obtain ⟨LL, hLL⟩ : ∃ x, x = [(so, Kso), (sf, Ksf), (si, Ksi), (pt, Kpt), (pc, Kpc), (pf, Kpf), (pi, Kpi), (po, Kpo)] := ⟨_, rfl⟩
    rw [← hLL] at S
    have hKs : ∀ k ∈ LL.flatMap Prod.snd, k ≠ R.p ∧ m9.blk k = m8.blk k := by
      intro k hk
      have hb := S.bound k hk
      exact ⟨by omega, P.ext.same k hb.2⟩
    have hT : ∀ x ∈ LL, ∀ G, Temp (m9.arr R.p .f32 (prod (B :: O :: ws.map Win.cOut)) G) x.1 x.2 (8 * (ws.length + 2)) := by
      intro x hx G
      refine (S.temp x hx).congr fun k hk => ?_
      have := hKs k (List.mem_flatMap.2 ⟨x, hx, hk⟩)
      unfold Mem.arr
      rw [Mem.set_blk_ne _ _ this.1, this.2]
    have hT0 : ∀ x ∈ LL, Temp m9 x.1 x.2 (8 * (ws.length + 2)) := by
      intro x hx
      exact (S.temp x hx).congr fun k hk => (hKs k (List.mem_flatMap.2 ⟨x, hx, hk⟩)).2
    have hmem : (pi, Kpi) ∈ LL ∧ (pf, Kpf) ∈ LL ∧ (pc, Kpc) ∈ LL ∧ (pt, Kpt) ∈ LL ∧ (si, Ksi) ∈ LL ∧ (sf, Ksf) ∈ LL ∧ (so, Kso) ∈ LL := by
      rw [hLL]; simp
    obtain ⟨mi, mf, mc, mt, msi, msf, mso⟩ := hmem
    have X : ConvCtx E m9 R1 R2 R T1 T2 xs ys ws B C O pc pi pf pt :=
      { ok := ok, e1 := e1, e2 := e2, s1 := s1, s2 := s2
        a1 := fun G => g3.set_ne hR1 _
        a2 := fun G => g4.set_ne hR2 _
        a3 := fun G => ⟨_, rfl, P.tensor.setData (by simp [encOpt_length, tab_length, Code.dtype, Code.size])⟩
        tc := fun G => (hT _ mc G).upto (S.null _ mc) (by omega)
        ti := fun G => (hT _ mi G).upto (S.null _ mi) (by omega)
        tf := fun G => (hT _ mf G).upto (S.null _ mf) (by omega)
        tt := fun G => (hT _ mt G).upto (S.null _ mt) (by omega) }
    rcases convFill_run X P.tensor.data (hT0 _ msi) (hT0 _ msf) (hT0 _ mso) (S.null _ msi) (S.null _ msf) (S.null _ mso) with ef | ⟨nf, ef⟩
    · left
      have H := (P.after S.ext S.bound).setData (bs := encOpt .f32 (tab (prod (B :: O :: ws.map Win.cOut))
        (convOf E.fp T1.dims T2.dims xs ys ws C O (prod (B :: O :: ws.map Win.cOut))))) (by
        simp [encOpt_length, tab_length, Code.dtype, Code.size])
      obtain ⟨Z, ez, z1, z2⟩ := S.free (E := E) (mD := m9.arr R.p .f32 (prod (B :: O :: ws.map Win.cOut))
        (convOf E.fp T1.dims T2.dims xs ys ws C O (prod (B :: O :: ws.map Win.cOut)))) (by
        intro k hk
        unfold Mem.arr
        rw [Mem.set_blk_ne _ _ (hKs k hk).1, (hKs k hk).2])
        (l := [(po, Kpo), (pi, Kpi), (pf, Kpf), (pc, Kpc), (si, Ksi), (sf, Ksf), (so, Kso), (pt, Kpt)]) (by
          rw [hLL]
          exact (List.reverse_perm _).symm.trans
            (List.perm_middle (l₁ := [(so, Kso), (sf, Ksf), (si, Ksi)]) (l₂ := [(pc, Kpc), (pf, Kpf), (pi, Kpi), (po, Kpo)]) (a := (pt, Kpt))).symm)
      refine ⟨R, _, ?_, H.done z1 z2⟩
      rw [hcm]
      unfold convMain
      simp only [List.map_cons, List.map_nil] at ez
      msimp [n2, hmax, tpo, q0, q1, rX, rK, rA, poolAxes_eq, convOuts_run ok hk, g1.tDtype, g1.tDevice, hdt, hos, ec, ef, ez]
      rfl
    · right
      refine ⟨nf, .inr ?_⟩
      rw [hcm]
      unfold convMain
      msimp [n2, hmax, tpo, q0, q1, rX, rK, rA, poolAxes_eq, convOuts_run ok hk, g1.tDtype, g1.tDevice, hdt, hos, ec, ef]
  · right
    refine ⟨nf, .inl ⟨m9, ?_, S.ext.toFrame.trans f, wf9⟩⟩
    rw [hcm]
    unfold convMain
    msimp [n2, hmax, tpo, q0, q1, rX, rK, rA, poolAxes_eq, convOuts_run ok hk, g1.tDtype, g1.tDevice, hdt, hos, ec]

end Aitisa
