import Verif.Proof.PoolingTop

/-! # Pooling: average, maximum, and no mode -/

namespace Aitisa

/-- Values chosen position by position. -/
theorem exists_elems {ds : List Nat} {P : List Nat → Val → Prop} (h : ∀ cs, InRange ds cs → ∃ y, P cs y) :
    ∃ zs : List Val, zs.length = prod ds ∧ ∀ cs, InRange ds cs → P cs (elemAt ds zs cs) := by
  classical
  refine ⟨(List.range (prod ds)).map fun i => if hi : i < prod ds then (h (unlin ds i) (unlin_inRange hi)).choose else .int 0, by simp, ?_⟩
  intro cs hc
  have hlt := lin_lt hc
  have e : elemAt ds ((List.range (prod ds)).map fun i => if hi : i < prod ds then (h (unlin ds i) (unlin_inRange hi)).choose else .int 0) cs =
      (h (unlin ds (lin ds cs)) (unlin_inRange hlt)).choose := by
    simp [elemAt, hlt]
  have hs := (h (unlin ds (lin ds cs)) (unlin_inRange hlt)).choose_spec
  rw [← e] at hs
  rw [unlin_lin hc] at hs
  exact hs

theorem pool_coords {B C P n : Nat} (h : n < B * C * P) :
    n / P / C < B ∧ n / P % C < C ∧ n % P < P ∧ (n / P / C * C + n / P % C) * P + n % P = n := by
  have hP : 0 < P := by
    rcases Nat.eq_zero_or_pos P with h0 | h0
    · simp [h0] at h
    · exact h0
  have hC : 0 < C := by
    rcases Nat.eq_zero_or_pos C with h0 | h0
    · simp [h0] at h
    · exact h0
  refine ⟨?_, Nat.mod_lt _ hC, Nat.mod_lt _ hP, ?_⟩
  · rw [Nat.div_lt_iff_lt_mul hC, Nat.div_lt_iff_lt_mul hP]; exact h
  · rw [Nat.mul_comm _ C, Nat.div_add_mod, Nat.mul_comm _ P, Nat.div_add_mod]

section

variable {E : Env} {m : Mem} {R R1 : Foot} {T T1 : TV} {ws : List Win} {B C : Nat} {xs zs : List Val} {c : Code} {mode : String}
  {A : BitVec 64 → Val → BitVec 64} {fuel : Nat} {out : Ptr}

/-- The accumulated value of output element `n`. -/
def poolVal (fp : FloatOps) (A : BitVec 64 → Val → BitVec 64) (ds : List Nat) (xs : List Val) (ws : List Win) (C n : Nat) : BitVec 64 :=
  (winElems ds xs ws (n / prod (ws.map Win.out) / C) (n / prod (ws.map Win.out) % C)
    (unlin (ws.map Win.out) (n % prod (ws.map Win.out)))).foldl A (fp.ofInt64 0)

theorem poolVal_eq (fp : FloatOps) (ds : List Nat) (xs : List Val) {b ch w : Nat} (hc : ch < C) (hw : w < prod (ws.map Win.out)) :
    poolVal fp A ds xs ws C ((b * C + ch) * prod (ws.map Win.out) + w) =
      (winElems ds xs ws b ch (unlin (ws.map Win.out) w)).foldl A (fp.ofInt64 0) := by
  unfold poolVal
  have e1 : ((b * C + ch) * prod (ws.map Win.out) + w) / prod (ws.map Win.out) = b * C + ch := by
    rw [Nat.mul_comm, Nat.mul_add_div (by omega), Nat.div_eq_of_lt hw]; omega
  have e2 : ((b * C + ch) * prod (ws.map Win.out) + w) % prod (ws.map Win.out) = w := by
    rw [Nat.mul_comm, Nat.mul_add_mod]; exact Nat.mod_eq_of_lt hw
  have e3 : (b * C + ch) / C = b := by
    rw [Nat.mul_comm, Nat.mul_add_div (by omega), Nat.div_eq_of_lt hc]; omega
  have e4 : (b * C + ch) % C = ch := by
    rw [Nat.mul_comm, Nat.mul_add_mod]; exact Nat.mod_eq_of_lt hc
  rw [e1, e2, e3, e4]

/-- Average or maximum, given by the accumulation `A` and the final step `Q`. -/
theorem pooling_mode {Q : BitVec 64 → BitVec 64} (wf : m.WF) (h1 : At m R1 T1) (he : Elems T1 c xs) (hs : T1.dims = B :: C :: ws.map Win.x)
    (h : WinsOK ws) (hw : 1 ≤ ws.length) (hw' : ws.length ≤ 3) (hso : ShapeOK (B :: C :: ws.map Win.out) c.size)
    (hi : prod (ws.map Win.out) ≤ 2147483647) (hK : prod (ws.map Win.k) ≤ 9223372036854775807)
    (hf : prod (ws.map Win.k) ≤ fuel) (hf' : prod (ws.map Win.out) ≤ fuel) (hl : zs.length = prod (B :: C :: ws.map Win.out))
    (hz : ∀ b ch os, InRange (B :: C :: ws.map Win.out) (b :: ch :: os) →
      cCast E.fp c (.f64 (Q ((winElems T1.dims xs ws b ch os).foldl A (E.fp.ofInt64 0)))) =
        .ok (elemAt (B :: C :: ws.map Win.out) zs (b :: ch :: os)))
    (hacc : ∀ (p : Ptr) (i : Int) t m' v, loadElem c p i E m' = .ok v m' → poolAcc mode c p i t E m' = .ok (A t v) m')
    (hst : ∀ (p : Ptr) (i : Int) t m' m'' v, cCast E.fp c (.f64 (Q t)) = .ok v → storeElem c p i v E m' = .ok () m'' →
      poolStore mode c p i t ((prod (ws.map Win.k) : Nat) : Int) E m' = .ok () m'') :
    Attempts E (pooling fuel R1.h mode (dimsCells (ws.map Win.k)) (dimsCells (ws.map Win.s)) (dimsCells (ws.map Win.p))
      (dimsCells (ws.map Win.d)) out) m ⟨c.dtype, T1.device, B :: C :: ws.map Win.out, encAll c zs⟩ := by
  obtain ⟨W, hW⟩ : ∃ W : Nat → Val, W = fun i => zs.getD i (.int 0) := ⟨_, rfl⟩
  have := pooling_any (E := E) (mode := mode) (out := out) (fuel := fuel) (A := A) (V := poolVal E.fp A T1.dims xs ws C)
    (D := fun n => encOpt c (tab (prod (B :: C :: ws.map Win.out)) (upTo W n))) wf h1 he.dtype hs h hw hw' he.len hso hi hK hf hf'
    (fun b ch w hb hc hw => poolVal_eq E.fp T1.dims xs hc hw) (upTo_zero W _) (by rw [encOpt_length, tab_length]) (by
      intro R mD g1 hR
      refine ⟨fun n i t hn hi => ?_, fun n hn => ?_⟩
      · refine hacc _ _ _ _ _ ?_
        have := (g1.set_ne (n := R.p) hR (some ⟨.own, .bytes (encOpt c (tab (prod (B :: C :: ws.map Win.out)) (upTo W n)))⟩)).load (E := E) he hi
        rw [this]; simp [List.getD, hi]
      · have hn' : n < B * C * prod (ws.map Win.out) := by
          have : prod (B :: C :: ws.map Win.out) = B * C * prod (ws.map Win.out) := by simp [prod, Nat.mul_assoc]
          omega
        obtain ⟨c1, c2, c3, c4⟩ := pool_coords hn'
        have hzz := hz (n / prod (ws.map Win.out) / C) (n / prod (ws.map Win.out) % C) (unlin (ws.map Win.out) (n % prod (ws.map Win.out)))
          ⟨c1, c2, unlin_inRange c3⟩
        have hidx : elemAt (B :: C :: ws.map Win.out) zs (n / prod (ws.map Win.out) / C :: n / prod (ws.map Win.out) % C ::
            unlin (ws.map Win.out) (n % prod (ws.map Win.out))) = W n := by
          rw [elemAt, lin_input, lin_unlin c3, hW]
          simp only
          rw [← Nat.mul_assoc, ← Nat.add_mul, c4]
        rw [hidx] at hzz
        refine hst _ _ _ _ _ _ hzz ?_
        exact storeArr (q := R.p) (N := prod (B :: C :: ws.map Win.out)) hn (fun i _ => by
          have := congrFun (upTo_succ W n) i
          unfold upd at this
          rw [← this]))
  rw [hW, upTo_all hl] at this
  exact this

end

section

variable {E : Env} {m : Mem} {R : Foot} {T : TV} {ws : List Win} {B C : Nat} {xs zs : List Val} {c : Code} {fuel : Nat}

theorem avgOf_iff {fp : FloatOps} {n : Nat} {es : List Val} {y : Val} :
    AvgOf fp c n es y ↔ cCast fp c (.f64 (fp.div64 (es.foldl (fun t e => fp.add64 t (toDouble fp e)) (fp.ofInt64 0)) (fp.ofInt64 n))) = .ok y := by
  simp only [AvgOf, sumsTo_iff, exists_eq_left, converts_iff]

theorem scansTo_iff {fp : FloatOps} {es : List Val} {t r : BitVec 64} :
    ScansTo fp t es r ↔ r = es.foldl (fun t e => if fp.lt64 t (toDouble fp e) then toDouble fp e else t) t := by
  induction es generalizing t with
  | nil => rfl
  | cons e es ih => simp only [ScansTo, converts_f64, exists_eq_left, ih, List.foldl_cons]

theorem scanOf_iff {fp : FloatOps} {es : List Val} {y : Val} :
    ScanOf fp c es y ↔ cCast fp c (.f64 (es.foldl (fun t e => if fp.lt64 t (toDouble fp e) then toDouble fp e else t) (fp.ofInt64 0))) = .ok y := by
  simp only [ScanOf, scansTo_iff, exists_eq_left, converts_iff]

theorem pooling_avg (wf : m.WF) (h1 : At m R T) (he : Elems T c xs) (hs : T.dims = B :: C :: ws.map Win.x)
    (h : WinsOK ws) (hw : 1 ≤ ws.length) (hw' : ws.length ≤ 3) (hso : ShapeOK (B :: C :: ws.map Win.out) c.size)
    (hi : prod (ws.map Win.out) ≤ 2147483647) (hK : prod (ws.map Win.k) ≤ 9223372036854775807)
    (hf : prod (ws.map Win.k) ≤ fuel) (hf' : prod (ws.map Win.out) ≤ fuel) (hl : zs.length = prod (B :: C :: ws.map Win.out))
    (hz : ∀ b ch os, InRange (B :: C :: ws.map Win.out) (b :: ch :: os) →
      AvgOf E.fp c (prod (ws.map Win.k)) (winElems T.dims xs ws b ch os) (elemAt (B :: C :: ws.map Win.out) zs (b :: ch :: os))) (out : Ptr) :
    Attempts E (pooling fuel R.h "avg" (dimsCells (ws.map Win.k)) (dimsCells (ws.map Win.s)) (dimsCells (ws.map Win.p))
      (dimsCells (ws.map Win.d)) out) m ⟨c.dtype, T.device, B :: C :: ws.map Win.out, encAll c zs⟩ := by
  refine pooling_mode (A := fun t v => E.fp.add64 t (toDouble E.fp v)) (Q := fun t => E.fp.div64 t (E.fp.ofInt64 ((prod (ws.map Win.k) : Nat) : Int)))
    wf h1 he hs h hw hw' hso hi hK hf hf' hl (fun b ch os ho => avgOf_iff.1 (hz b ch os ho)) ?_ ?_
  · intro p i t m' v hv
    unfold poolAcc
    rw [if_pos (.inl rfl)]
    msimp [hv]
  · intro p i t m' m'' v hv hs
    unfold poolStore
    msimp [hv, hs]

theorem pooling_max (wf : m.WF) (h1 : At m R T) (he : Elems T c xs) (hs : T.dims = B :: C :: ws.map Win.x)
    (h : WinsOK ws) (hw : 1 ≤ ws.length) (hw' : ws.length ≤ 3) (hso : ShapeOK (B :: C :: ws.map Win.out) c.size)
    (hi : prod (ws.map Win.out) ≤ 2147483647) (hK : prod (ws.map Win.k) ≤ 9223372036854775807)
    (hf : prod (ws.map Win.k) ≤ fuel) (hf' : prod (ws.map Win.out) ≤ fuel) (hl : zs.length = prod (B :: C :: ws.map Win.out))
    (hz : ∀ b ch os, InRange (B :: C :: ws.map Win.out) (b :: ch :: os) →
      ScanOf E.fp c (winElems T.dims xs ws b ch os) (elemAt (B :: C :: ws.map Win.out) zs (b :: ch :: os))) (out : Ptr) :
    Attempts E (pooling fuel R.h "max" (dimsCells (ws.map Win.k)) (dimsCells (ws.map Win.s)) (dimsCells (ws.map Win.p))
      (dimsCells (ws.map Win.d)) out) m ⟨c.dtype, T.device, B :: C :: ws.map Win.out, encAll c zs⟩ := by
  refine pooling_mode (A := fun t v => if E.fp.lt64 t (toDouble E.fp v) then toDouble E.fp v else t) (Q := fun t => t)
    wf h1 he hs h hw hw' hso hi hK hf hf' hl (fun b ch os ho => scanOf_iff.1 (hz b ch os ho)) ?_ ?_
  · intro p i t m' v hv
    unfold poolAcc
    rw [if_pos (.inr rfl)]
    msimp [hv]
    rw [if_neg (by decide)]
    split <;> rfl
  · intro p i t m' m'' v hv hs
    unfold poolStore
    msimp [hv]
    rw [if_neg (by decide)]
    msimp [hs]

/-- Any other mode: the output is created and left uninitialised. -/
theorem pooling_other {mode : String} (ha : mode ≠ "avg") (hm : mode ≠ "max") (wf : m.WF) (h1 : At m R T) (hd : T.dtype = c.dtype)
    (hs : T.dims = B :: C :: ws.map Win.x)
    (h : WinsOK ws) (hw : 1 ≤ ws.length) (hw' : ws.length ≤ 3) (hso : ShapeOK (B :: C :: ws.map Win.out) c.size)
    (hi : prod (ws.map Win.out) ≤ 2147483647) (hK : prod (ws.map Win.k) ≤ 9223372036854775807)
    (hf : prod (ws.map Win.k) ≤ fuel) (hf' : prod (ws.map Win.out) ≤ fuel) (out : Ptr) :
    Attempts E (pooling fuel R.h mode (dimsCells (ws.map Win.k)) (dimsCells (ws.map Win.s)) (dimsCells (ws.map Win.p))
      (dimsCells (ws.map Win.d)) out) m
      ⟨c.dtype, T.device, B :: C :: ws.map Win.out, List.replicate (prod (B :: C :: ws.map Win.out) * c.size) none⟩ := by
  refine pooling_any (xs := List.replicate (prod T.dims) (.int 0)) (A := fun t _ => t)
    (V := fun _ => E.fp.ofInt64 0) (D := fun _ => List.replicate (prod (B :: C :: ws.map Win.out) * c.size) none)
    wf h1 hd hs h hw hw' (by simp) hso hi hK hf hf' ?_ rfl (by simp) ?_
  · intro b ch w _ _ _
    generalize winElems _ _ _ _ _ _ = l
    induction l with
    | nil => rfl
    | cons e l ih => exact ih
  · intro R' mD _ _
    refine ⟨fun n i t _ _ => ?_, fun n _ => ?_⟩
    · unfold poolAcc
      rw [if_neg (by simp [ha, hm])]
      rfl
    · unfold poolStore
      msimp []
      rw [if_neg ha, if_neg hm]

/-- A rank outside 3..5 is refused. -/
theorem pooling_rank (h1 : At m R T) (hr : T.dims.length < 3 ∨ 5 < T.dims.length) (mode : String) (k s p d : Arr) (out : Ptr) :
    pooling fuel R.h mode k s p d out E m = .ok (.dimensionsMismatch, out) m := by
  unfold pooling
  msimp [h1.tNdim]
  rw [if_neg (by omega)]

/-- A window that does not fit is refused, but the scratch arrays stay allocated. -/
theorem pooling_large (wf : m.WF) (h1 : At m R T) (hs : T.dims = B :: C :: ws.map Win.x) (hw : 1 ≤ ws.length) (hw' : ws.length ≤ 3)
    (hsm : ∀ w ∈ ws, 1 ≤ w.k ∧ w.x + 2 * w.p ≤ 2147483647 ∧ w.d * (w.k - 1) + 1 ≤ 2147483647 ∧ w.k ≤ 2147483647)
    (hbig : ∃ w ∈ ws, w.x + 2 * w.p < w.d * (w.k - 1) + 1) (mode : String) (s : Arr) (out : Ptr) :
    ∃ m', pooling fuel R.h mode (dimsCells (ws.map Win.k)) s (dimsCells (ws.map Win.p)) (dimsCells (ws.map Win.d)) out E m =
      .ok (.invalidArgument, out) m' ∧ Frame m m' ∧ m'.WF ∧ 
      (E.NoFail → ∃ L : List Nat, L.Nodup ∧ L.length = 6 ∧ ∀ b ∈ L, m.next ≤ b ∧ m'.blk b ≠ none) := by
  have hl1 : T.dims.length = ws.length + 2 := by rw [hs]; simp
  obtain ⟨po, pi, ps, pos, ph, pt, Kp, Ki, Ks, Ko, Kh, Kt, m6, e6, S6⟩ := six_run (E := E) (m := m) (n := ws.length + 2) (by omega) wf
  have hstep : ∀ i (hi : i < ws.length), ∀ m', (do
      let k ← (dimsCells (ws.map Win.k)).rd i
      let d ← (dimsCells (ws.map Win.d)).rd i
      let sp ← poolSpan k d
      let e ← i32 (sp + 1)
      let p ← (dimsCells (ws.map Win.p)).rd i
      let pp ← i32 (2 * p)
      let x ← (dimsCells T.dims).rd ((i : Int) + 2)
      let r ← i64 (pp + x)
      if e > r then return .inr () else return .inl () : M (Unit ⊕ Unit)) E m' =
        .ok (if ws[i].x + 2 * ws[i].p < ws[i].d * (ws[i].k - 1) + 1 then .inr () else .inl ()) m' := by
    intro i hi m'
    obtain ⟨a1, a2, a3, a4⟩ := hsm _ (List.getElem_mem hi)
    have r1 := rd_dims (E := E) (m := m') (ds := ws.map Win.k) (i := i) (by simpa using hi)
    have r2 := rd_dims (E := E) (m := m') (ds := ws.map Win.d) (i := i) (by simpa using hi)
    have r3 := rd_dims (E := E) (m := m') (ds := ws.map Win.p) (i := i) (by simpa using hi)
    have r4 := rd_dims (E := E) (m := m') (ds := B :: C :: ws.map Win.x) (i := i + 2) (by simpa using hi)
    simp only [List.getElem_map, List.getElem_cons_succ] at r1 r2 r3 r4
    rw [show ((i + 2 : Nat) : Int) = (i : Int) + 2 by omega] at r4
    have esp : ((ws[i].k : Int) - 1) * ws[i].d = ((ws[i].d * (ws[i].k - 1) : Nat) : Int) := by
      rw [Int.natCast_mul, Int.mul_comm, Int.ofNat_sub a1]; rfl
    have hsp : poolSpan (ws[i].k : Int) (ws[i].d : Int) E m' = .ok ((ws[i].d * (ws[i].k - 1) : Nat) : Int) m' := by
      unfold poolSpan
      msimp [run_i32' (E := E) (m := m') (n := (ws[i].k : Int) - 1) (by omega) (by omega), esp,
        run_i32' (E := E) (m := m') (n := ((ws[i].d * (ws[i].k - 1) : Nat) : Int)) (by omega) (by omega)]
    rw [hs]
    msimp [r1, r2, r3, r4, hsp,
      run_i32' (E := E) (m := m') (n := ((ws[i].d * (ws[i].k - 1) : Nat) : Int) + 1) (by omega) (by omega),
      run_i32' (E := E) (m := m') (n := 2 * (ws[i].p : Int)) (by omega) (by omega),
      run_i64' (E := E) (m := m') (n := 2 * (ws[i].p : Int) + (ws[i].x : Int)) (by omega) (by omega)]
    by_cases hb : ws[i].x + 2 * ws[i].p < ws[i].d * (ws[i].k - 1) + 1
    · rw [if_pos (by omega), if_pos hb]
    · rw [if_neg (by omega), if_neg hb]
  obtain ⟨w, hwm, hwb⟩ := hbig
  obtain ⟨i, hi, rfl⟩ := List.getElem_of_mem hwm
  obtain ⟨j, hj, ⟨hj', hjb⟩, hjm⟩ := first_such (P := fun j => ∃ h : j < ws.length, ws[j].x + 2 * ws[j].p < ws[j].d * (ws[j].k - 1) + 1) hi ⟨hi, hwb⟩
  have hch : poolCheck (dimsCells (ws.map Win.k)) (dimsCells (ws.map Win.p)) (dimsCells (ws.map Win.d)) (dimsCells T.dims) ws.length E m6 =
      .ok (.inr ()) m6 := by
    obtain ⟨r, m', e, hm⟩ := loopE_ret (ρ := Unit) (E := E) (fun (i : Nat) (_ : Unit) => (do
        let k ← (dimsCells (ws.map Win.k)).rd i
        let d ← (dimsCells (ws.map Win.d)).rd i
        let sp ← poolSpan k d
        let e ← i32 (sp + 1)
        let p ← (dimsCells (ws.map Win.p)).rd i
        let pp ← i32 (2 * p)
        let x ← (dimsCells T.dims).rd ((i : Int) + 2)
        let r ← i64 (pp + x)
        if e > r then return .inr () else return .inl () : M (Unit ⊕ Unit))) (fun _ _ m' => m' = m6) ws.length j (fun _ m' => m' = m6) hj
      (by
        rintro k ⟨⟩ m' hk rfl
        have hk' : k < ws.length := by omega
        have := hstep k hk' m'
        rw [if_neg (fun h => hjm k hk ⟨hk', h⟩)] at this
        exact ⟨(), m', this, rfl⟩)
      (by
        rintro ⟨⟩ m' rfl
        have := hstep j hj m'
        rw [if_pos hjb] at this
        exact ⟨(), m', this, rfl⟩) (s := ()) (m := m6) rfl
    rw [hm] at e
    exact e
  refine ⟨m6, ?_, S6.ext.toFrame, S6.ext.wf, ?_⟩
  · unfold pooling
    msimp [h1.tNdim, hl1]
    rw [if_pos (by omega)]
    unfold poolRun
    msimp [h1.tDimsArr]
    refine (e6 _).trans ?_
    unfold poolMain
    rw [show (((ws.length + 2 : Nat) : Int) - 2).toNat = ws.length by omega]
    msimp [hch]
  · intro nf
    have hT : ∀ {p : Ptr} {K : List Nat}, Temp m6 p K (8 * (ws.length + 2)) → (p = .null → ¬ E.NoFail) →
        K.length = 1 ∧ ∀ b ∈ K, m6.blk b ≠ none := by
      intro p K ht hn
      rcases ht with ⟨h0, _⟩ | ⟨k, _, rfl, hb⟩
      · exact absurd nf (hn h0)
      · refine ⟨rfl, fun b hb' => ?_⟩
        rw [List.mem_singleton.1 hb', hb]; simp
    obtain ⟨a1, a2⟩ := hT S6.ta S6.na
    obtain ⟨b1, b2⟩ := hT S6.tb S6.nb
    obtain ⟨c1, c2⟩ := hT S6.tc S6.nc
    obtain ⟨d1, d2⟩ := hT S6.td S6.nd
    obtain ⟨e1, e2⟩ := hT S6.te S6.ne
    obtain ⟨f1, f2⟩ := hT S6.tf S6.nf
    refine ⟨_, S6.nodup, by simp [a1, b1, c1, d1, e1, f1], fun b hb => ⟨(S6.bound b hb).1, ?_⟩⟩
    simp at hb
    rcases hb with h | h | h | h | h | h
    · exact f2 b h
    · exact e2 b h
    · exact d2 b h
    · exact c2 b h
    · exact b2 b h
    · exact a2 b h

end

end Aitisa
