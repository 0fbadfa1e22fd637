import Verif.Proof.PoolingTop
import Verif.Proof.Unknown

/-! # Pooling of a tensor whose dtype code is not one of the ten defined ones -/

namespace Aitisa

section
variable {E : Env} {m mD : Mem} {ws : List Win} {B C fuel : Nat} {ip op : Ptr} {mode : String} {size : Int} {os : List Nat}

/-- A loop that stays in the memory `m` ends there, by its end or by the early `return` of `r`. -/
theorem whileE_or {σ ρ : Type} {f : σ → M ((σ × Bool) ⊕ ρ)} {r : ρ} (S : Nat → σ) {N fuel : Nat} (hN : 0 < N)
    (hf : N ≤ fuel) (step : ∀ j, j < N → f (S j) E m = .ok (.inl (S (j + 1), decide (j + 1 < N))) m ∨ f (S j) E m = .ok (.inr r) m) :
    whileE f fuel (S 0) E m = .ok (.inl (S N)) m ∨ whileE f fuel (S 0) E m = .ok (.inr r) m := by
  suffices H : ∀ k j fuel, j + (k + 1) = N → k + 1 ≤ fuel →
      whileE f fuel (S j) E m = .ok (.inl (S N)) m ∨ whileE f fuel (S j) E m = .ok (.inr r) m by
    exact H (N - 1) 0 fuel (by omega) (by omega)
  intro k
  induction k with
  | zero =>
    intro j fuel hj hk
    obtain ⟨n, rfl⟩ : ∃ n, fuel = n + 1 := ⟨fuel - 1, by omega⟩
    obtain rfl : N = j + 1 := by omega
    simp only [whileE]
    rcases step j (by omega) with e | e
    · left; msimp [e]; simp
    · right; msimp [e]
  | succ k ih =>
    intro j fuel hj hk
    obtain ⟨n, rfl⟩ : ∃ n, fuel = n + 1 := ⟨fuel - 1, by omega⟩
    simp only [whileE]
    rcases step j (by omega) with e | e
    · have hl : j + 1 < N := by omega
      have := ih (j + 1) n (by omega) (by omega)
      msimp [e, hl]
      exact this
    · right; msimp [e]

/-- The elements of the first window: the padding is skipped, an element of the input is refused. -/
theorem poolElems_unknown (h : WinsOK ws) (ho : InRange (ws.map Win.out) os) (hX : prod (ws.map Win.x) ≤ 9223372036854775807)
    (hf : prod (ws.map Win.k) ≤ fuel) (t : BitVec 64) :
    ∃ r, (whileE (poolElem mode none ip (ws.map Win.ax) (ints (strides (ws.map Win.x))) 0 (winsAt ws os)) fuel
        ((winsAt ws os).map fun w => w.1, t) E m = .ok (.inl r) m) ∨
      whileE (poolElem mode none ip (ws.map Win.ax) (ints (strides (ws.map Win.x))) 0 (winsAt ws os)) fuel
        ((winsAt ws os).map fun w => w.1, t) E m = .ok (.inr .notSupported) m := by
  have hol : ws.length = os.length := by have := ho.length; simpa using this.symm
  have hK := ksPos h
  obtain ⟨K, hKe⟩ : ∃ K, K = prod (ws.map Win.k) := ⟨_, rfl⟩
  have hz : unlin (ws.map Win.k) 0 = (ws.map Win.k).map fun _ => 0 := unlin_zero _
  have he : (winsAt ws os).map (fun w => w.1) = idxAt ws os (unlin (ws.map Win.k) 0) := by rw [hz]; exact idxAt_head hol
  have := whileE_or (E := E) (m := m) (r := Status.notSupported) (f := poolElem mode none ip (ws.map Win.ax) (ints (strides (ws.map Win.x))) 0 (winsAt ws os))
    (fun j => (idxAt ws os (unlin (ws.map Win.k) (if j < K then j else 0)), t)) (N := K) (fuel := fuel) (by omega) (by omega) (by
      intro j hj
      rw [if_pos hj]
      have hql : ws.length = (unlin (ws.map Win.k) j).length := by rw [unlin_length]; simp
      have hoff := poolOffset_run (E := E) (m := m) (o := 0) hol hql (by omega)
      rw [show ((0 : Nat) : Int) = 0 from rfl] at hoff
      have hnext := poolNextElem_run (E := E) (m := m) h ho (j := j) (by omega)
      rw [← hKe] at hnext
      unfold poolElem
      cases hw : winAt ws os (unlin (ws.map Win.k) j) with
      | none =>
        left
        rw [hw] at hoff
        simp only [Option.map_none] at hoff
        msimp [hoff, poolVisit, hnext]
        by_cases hl : j + 1 < K
        · simp [hl]
        · simp [hl]
      | some cs =>
        right
        rw [hw] at hoff
        simp only [Option.map_some] at hoff
        msimp [hoff, poolVisit])
  rw [if_pos (by omega), ← he] at this
  exact ⟨_, this⟩

theorem poolChannel_unknown (h : WinsOK ws) (hws : ws ≠ []) (hX : prod (ws.map Win.x) ≤ 9223372036854775807)
    (hf : prod (ws.map Win.k) ≤ fuel) (sI : List Int) (sO : List Int) (hI : sI.drop 2 = ints (strides (ws.map Win.x))) :
    poolChannel fuel mode none ip op (ws.map Win.ax) sI sO size 0 0 E m = .ok (.inr .notSupported) m := by
  have hf0 : 1 ≤ fuel := Nat.le_trans (ksPos h) hf
  obtain ⟨n, rfl⟩ : ∃ n, fuel = n + 1 := ⟨fuel - 1, by omega⟩
  have p1 : ∀ x y, poolBase ((0 : Nat) : Int) ((0 : Nat) : Int) x y E m = .ok 0 m := by
    intro x y
    unfold poolBase
    rw [show ((0 : Nat) : Int) = 0 from rfl, Int.zero_mul, Int.zero_mul]
    msimp [run_i64' (E := E) (m := m) (n := 0) (by omega) (by omega), Int.add_zero]
  have e0 : i64 0 E m = .ok 0 m := run_i64' (by omega) (by omega)
  have hz : InRange (ws.map Win.out) (ws.map fun _ => 0) := by
    have := unlin_inRange (ds := ws.map Win.out) (i := 0) outsPos
    rwa [unlin_zero, List.map_map] at this
  obtain ⟨r, e | e⟩ := poolElems_unknown (E := E) (m := m) (ip := ip) (mode := mode) h hz hX hf (E.fp.ofInt64 0)
  · unfold poolChannel
    rw [hI]
    msimp [p1, poolHeads_run h]
    simp only [whileE]
    unfold poolWindow
    msimp [e, Int.zero_mul, Int.add_zero, e0]
  · unfold poolChannel
    rw [hI]
    msimp [p1, poolHeads_run h]
    simp only [whileE]
    unfold poolWindow
    msimp [e]

variable {R R1 : Foot} {T T1 : TV} {pi ps pos ph pt : Ptr} {Ki Ks Ko Kh Kt : List Nat}

theorem poolFill_unknown (nf : E.NoFail) (h : WinsOK ws) (hc : 10 ≤ T1.dtype.code)
    (hw : 1 ≤ ws.length) (hB : 0 < B) (hC : 0 < C) (hX : prod (ws.map Win.x) ≤ 9223372036854775807)
    (hK : prod (ws.map Win.k) ≤ 9223372036854775807)
    (hf : prod (ws.map Win.k) ≤ fuel) 
    (h1 : At mD R1 T1) (hs : T1.dims = B :: C :: ws.map Win.x)
    (ht : At mD R T) (hst : T.dims = B :: C :: ws.map Win.out)
    (hrank : ws.length ≤ 3)
    (ti : Temp mD pi Ki (8 * (ws.length + 2))) (ts : Temp mD ps Ks (8 * (ws.length + 2))) (to : Temp mD pos Ko (8 * (ws.length + 2)))
    (th : Temp mD ph Kh (8 * (ws.length + 2))) (tt : Temp mD pt Kt (8 * (ws.length + 2)))
    (ni : pi ≠ .null) (ns : ps ≠ .null) (no : pos ≠ .null) (nh : ph ≠ .null) (nt : pt ≠ .null) :
    poolFill fuel mode R1.h R.h ((ws.length + 2 : Nat) : Int) (dimsCells T1.dims) (ws.map Win.ax) pi ps pos ph pt E mD =
      .ok (.inr .notSupported) mD := by
  have hz : poolSize (ws.map Win.ax) 1 E mD = .ok ((prod (ws.map Win.k) : Nat) : Int) mD := by
    have := poolSize_run (E := E) (m := mD) h (n := 1) (by omega)
    rw [Nat.one_mul] at this
    exact this
  have hl1 : T1.dims.length = ws.length + 2 := by rw [hs]; simp
  have hl2 : T.dims.length = ws.length + 2 := by rw [hst]; simp
  have hcl := cells_nat (show ws.length + 2 ≤ 2147483647 by omega)
  have s1 := getAllStrides_run (E := E) h1 (buf := List.replicate (ws.length + 2) none) (by rw [hl1]; simp)
  have s2 := getAllStrides_run (E := E) ht (buf := List.replicate (ws.length + 2) none) (by rw [hl2]; simp)
  have v1 : Arr.vals (dimsCells (strides T1.dims)) = ints (strides (B :: C :: ws.map Win.x)) := by
    rw [hs]; simp [Arr.vals, dimsCells]
  have r0 : (dimsCells T1.dims).rd 0 E mD = .ok (B : Int) mD := by
    have := rd_dims (E := E) (m := mD) (ds := T1.dims) (i := 0) (by omega)
    rw [show ((0 : Nat) : Int) = 0 from rfl] at this
    rw [this]; simp [hs]
  have r1 : (dimsCells T1.dims).rd 1 E mD = .ok (C : Int) mD := by
    have := rd_dims (E := E) (m := mD) (ds := T1.dims) (i := 1) (by omega)
    rw [show ((1 : Nat) : Int) = 1 from rfl] at this
    rw [this]; simp [hs]
  have t1 := ti.touch (E := E) ni (lo := 0) (hi := 8) (by omega) (by omega)
  have t2 := tt.touch (E := E) nt (lo := 0) (hi := 8) (by omega) (by omega)
  have t3 := th.touch (E := E) nh (lo := 0) (hi := 8) (by omega) (by omega)
  obtain ⟨B', rfl⟩ : ∃ B', B = B' + 1 := ⟨B - 1, by omega⟩
  obtain ⟨C', rfl⟩ : ∃ C', C = C' + 1 := ⟨C - 1, by omega⟩
  have hchan := poolChannel_unknown (E := E) (m := mD) (ip := .blk R1.p) (op := .blk R.p) (mode := mode) (size := ((prod (ws.map Win.k) : Nat) : Int)) h
    (by rintro rfl; simp at hw) hX hf (ints (strides ((B' + 1) :: (C' + 1) :: ws.map Win.x))) (Arr.vals (dimsCells (strides T.dims))) (by simp [strides])
  unfold poolFill
  msimp [hz, ts.touch (E := E) ns (lo := 0) (hi := 8 * ((ws.length + 2 : Nat) : Int)) (by omega) (by omega), hcl, s1,
    to.touch (E := E) no (lo := 0) (hi := 8 * ((ws.length + 2 : Nat) : Int)) (by omega) (by omega), s2, h1.tData, ht.tData, h1.tDtype,
    find_unknown hc, r0, r1, v1, Int.toNat_natCast]
  rw [loopE_succ]
  unfold poolSample
  msimp [t1, t2, t3]
  rw [loopE_succ]
  msimp [hchan]

theorem pooling_unknown (nf : E.NoFail) (wf : m.WF) (h1 : At m R1 T1) (hc : 10 ≤ T1.dtype.code) (hs : T1.dims = B :: C :: ws.map Win.x)
    (h : WinsOK ws) (hw : 1 ≤ ws.length) (hw' : ws.length ≤ 3) (hB : 0 < B) (hC : 0 < C)
    (hso : ShapeOK (B :: C :: ws.map Win.out) T1.dtype.size)
    (hX : prod (ws.map Win.x) ≤ 9223372036854775807) (hK : prod (ws.map Win.k) ≤ 9223372036854775807)
    (hf : prod (ws.map Win.k) ≤ fuel) (mode : String) (out : Ptr) :
    ∃ m', pooling fuel R1.h mode (dimsCells (ws.map Win.k)) (dimsCells (ws.map Win.s)) (dimsCells (ws.map Win.p))
      (dimsCells (ws.map Win.d)) out E m = .ok (.notSupported, out) m' ∧ Frame m m' ∧ m'.WF := by
  have hl1 : T1.dims.length = ws.length + 2 := by rw [hs]; simp
  obtain ⟨po, pi, ps, pos, ph, pt, Kp, Ki, Ks, Ko, Kh, Kt, m6, e6, S6⟩ := six_run (E := E) (m := m) (n := ws.length + 2) (by omega) wf
  have g1 := h1.frame wf S6.ext.toFrame
  obtain ⟨pm, hpm⟩ : ∃ x, x = poolMain fuel R1.h mode (dimsCells (ws.map Win.k)) (dimsCells (ws.map Win.s)) (dimsCells (ws.map Win.p))
      (dimsCells (ws.map Win.d)) (dimsCells T1.dims) ((ws.length + 2 : Nat) : Int) out po pi ps pos ph pt E m6 := ⟨_, rfl⟩
  have e0 : pooling fuel R1.h mode (dimsCells (ws.map Win.k)) (dimsCells (ws.map Win.s)) (dimsCells (ws.map Win.p))
      (dimsCells (ws.map Win.d)) out E m = pm := by
    rw [hpm]
    unfold pooling
    msimp [h1.tNdim, hl1]
    rw [if_pos (by omega)]
    unfold poolRun
    msimp [h1.tDimsArr]
    exact e6 _
  have n2 : (((ws.length + 2 : Nat) : Int) - 2).toNat = ws.length := by omega
  have hch := poolCheck_run (E := E) (m := m6) h hs
  have q0 : (dimsCells T1.dims).rd 0 E m6 = .ok (B : Int) m6 := by
    have := rd_dims (E := E) (m := m6) (ds := T1.dims) (i := 0) (by omega)
    rw [show ((0 : Nat) : Int) = 0 from rfl] at this
    rw [this]; simp [hs]
  have q1 : (dimsCells T1.dims).rd 1 E m6 = .ok (C : Int) m6 := by
    have := rd_dims (E := E) (m := m6) (ds := T1.dims) (i := 1) (by omega)
    rw [show ((1 : Nat) : Int) = 1 from rfl] at this
    rw [this]; simp [hs]
  have rA : ∀ g : Win → Nat, rdAll (dimsCells (ws.map g)) ws.length E m6 = .ok (ints (ws.map g)) m6 := by
    intro g
    have := rdAll_dims (E := E) (m := m6) (ws.map g)
    rwa [List.length_map] at this
  have rX : rdAll (List.drop 2 (dimsCells T1.dims)) ws.length E m6 = .ok (ints (ws.map Win.x)) m6 := by
    rw [show List.drop 2 (dimsCells T1.dims) = dimsCells (ws.map Win.x) by rw [hs]; rfl]
    exact rA Win.x
  rw [e0]
  have no : po ≠ .null := fun e => S6.na e nf
  have ht := S6.ta.touch (E := E) no (lo := 0) (hi := 8 * ((ws.length + 2 : Nat) : Int)) (by omega) (by omega)
  rcases poolCreate_run (E := E) h S6.ext.wf g1 hso with ⟨R, m7, ec, P⟩ | ⟨m7, ec, f, wf7, nf'⟩
  · have g2 := g1.frame S6.ext.wf P.ext.toFrame
    have hKs : ∀ k ∈ Kt ++ (Kh ++ (Ko ++ (Ks ++ (Ki ++ (Kp ++ []))))), m7.blk k = m6.blk k :=
      fun k hk => P.ext.same k (S6.bound k hk).2
    have ef := poolFill_unknown (E := E) (fuel := fuel) (mode := mode) nf h hc hw hB hC hX hK hf g2 hs P.tensor rfl hw'
      (S6.tb.congr fun k hk => hKs k (by simp [hk])) (S6.tc.congr fun k hk => hKs k (by simp [hk]))
      (S6.td.congr fun k hk => hKs k (by simp [hk])) (S6.te.congr fun k hk => hKs k (by simp [hk]))
      (S6.tf.congr fun k hk => hKs k (by simp [hk])) (fun e => S6.nb e nf) (fun e => S6.nc e nf) (fun e => S6.nd e nf)
      (fun e => S6.ne e nf) (fun e => S6.nf e nf)
    refine ⟨m7, ?_, S6.ext.toFrame.trans P.frame, P.wf⟩
    rw [hpm]
    unfold poolMain
    msimp [n2, hch, ht, q0, q1, rX, rA, poolAxes_eq, ec, ef]
  · exact absurd nf nf'

end

end Aitisa
