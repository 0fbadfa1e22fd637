import Verif.Proof.PoolingFill

/-! # Pooling: the whole operator -/

namespace Aitisa

variable {E : Env} {m m' m1 mD : Mem} {L : List Nat}

/-- A scratch allocation. -/
theorem Ext.scratch (h : Ext m m' L) (n : Int) (k : Nat) : ∃ p m1 K, scratch n k E m' = .ok p m1 ∧ Ext m m1 (K ++ L) ∧
    Temp m1 p K (toSizeT (k * n)) ∧ (∀ j ∈ K, m'.next ≤ j ∧ j < m1.next) ∧ (p = .null → ¬ E.NoFail) ∧ Frame m' m1 := by
  unfold Aitisa.scratch
  rw [run_rawAlloc]
  by_cases ha : E.allocOk m'.tick (toSizeT (k * n)) = true
  · rw [if_pos ha]
    exact ⟨_, _, [m'.next], rfl, h.push _, .inr ⟨_, rfl, rfl, by simp⟩, by simp, by simp, Frame.push _ _⟩
  · rw [if_neg ha]
    exact ⟨_, _, [], rfl, h.miss, .inl ⟨rfl, rfl⟩, by simp, fun _ nf => ha (nf _ _), Frame.miss _⟩

/-- Six scratch arrays, some of which may be null. -/
structure Six (E : Env) (m m1 : Mem) (n : Nat) (a b c d e f : Ptr) (A B C D G F : List Nat) : Prop where
  ext : Ext m m1 (F ++ (G ++ (D ++ (C ++ (B ++ (A ++ []))))))
  bound : ∀ k ∈ F ++ (G ++ (D ++ (C ++ (B ++ (A ++ []))))), m.next ≤ k ∧ k < m1.next
  ta : Temp m1 a A n
  tb : Temp m1 b B n
  tc : Temp m1 c C n
  td : Temp m1 d D n
  te : Temp m1 e G n
  tf : Temp m1 f F n
  na : a = .null → ¬ E.NoFail
  nb : b = .null → ¬ E.NoFail
  nc : c = .null → ¬ E.NoFail
  nd : d = .null → ¬ E.NoFail
  ne : e = .null → ¬ E.NoFail
  nf : f = .null → ¬ E.NoFail
  nodup : (F ++ (G ++ (D ++ (C ++ (B ++ (A ++ [])))))).Nodup

theorem Temp.nodup {p : Ptr} {K : List Nat} {n : Nat} (h : Temp m p K n) : K.Nodup := by
  rcases h with ⟨_, rfl⟩ | ⟨k, _, rfl, _⟩ <;> simp

theorem six_run {n : Nat} (hn : n ≤ 2147483647) (wf : m.WF) : ∃ a b c d e f A B C D G F m1,
    (∀ {α : Type} (g : Ptr → Ptr → Ptr → Ptr → Ptr → Ptr → M α), (do
      let a ← scratch n 8
      let b ← scratch n 8
      let c ← scratch n 8
      let d ← scratch n 8
      let e ← scratch n 8
      let f ← scratch n 8
      g a b c d e f) E m = g a b c d e f E m1) ∧ Six E m m1 (8 * n) a b c d e f A B C D G F := by
  have hsz : toSizeT ((8 : Nat) * (n : Int)) = 8 * n := by unfold toSizeT; omega
  obtain ⟨a, mA, A, eA, xA, tA, kA, nA, fA⟩ := (Ext.refl wf).scratch (E := E) n 8
  obtain ⟨b, mB, B, eB, xB, tB, kB, nB, fB⟩ := xA.scratch (E := E) n 8
  obtain ⟨c, mC, C, eC, xC, tC, kC, nC, fC⟩ := xB.scratch (E := E) n 8
  obtain ⟨d, mD, D, eD, xD, tD, kD, nD, fD⟩ := xC.scratch (E := E) n 8
  obtain ⟨e, mG, G, eG, xG, tG, kG, nG, fG⟩ := xD.scratch (E := E) n 8
  obtain ⟨f, mF, F, eF, xF, tF, kF, nF, fF⟩ := xG.scratch (E := E) n 8
  rw [hsz] at tA tB tC tD tG tF
  have yA := fA.next
  have yB := fB.next
  have yC := fC.next
  have yD := fD.next
  have yG := fG.next
  have yF := fF.next
  refine ⟨a, b, c, d, e, f, A, B, C, D, G, F, mF, ?_, ⟨xF, ?_, ?_, ?_, ?_, ?_, ?_, tF, nA, nB, nC, nD, nG, nF, ?_⟩⟩
  · intro α g
    msimp [eA, eB, eC, eD, eG, eF]
  · intro k hk
    simp at hk
    rcases hk with h | h | h | h | h | h
    · have := kF k h; omega
    · have := kG k h; omega
    · have := kD k h; omega
    · have := kC k h; omega
    · have := kB k h; omega
    · have := kA k h; omega
  · exact tA.congr fun k hk => (fB.trans (fC.trans (fD.trans (fG.trans fF)))).same k (kA k hk).2
  · exact tB.congr fun k hk => (fC.trans (fD.trans (fG.trans fF))).same k (kB k hk).2
  · exact tC.congr fun k hk => (fD.trans (fG.trans fF)).same k (kC k hk).2
  · exact tD.congr fun k hk => (fG.trans fF).same k (kD k hk).2
  · exact tG.congr fun k hk => fF.same k (kG k hk).2
  · have hl : ∀ {K L : List Nat} {x : Nat}, K.Nodup → L.Nodup → (∀ j ∈ K, x ≤ j) → (∀ j ∈ L, j < x) → (K ++ L).Nodup := by
      intro K L x hK hL h1 h2
      rw [List.nodup_append]
      refine ⟨hK, hL, fun u hu v hv => ?_⟩
      have := h1 u hu
      have := h2 v hv
      omega
    refine hl (x := mG.next) tF.nodup (hl (x := mD.next) tG.nodup (hl (x := mC.next) tD.nodup (hl (x := mB.next) tC.nodup
      (hl (x := mA.next) tB.nodup (hl (x := m.next) tA.nodup (by simp) (fun j hj => (kA j hj).1) (by simp))
      (fun j hj => (kB j hj).1) ?_) (fun j hj => (kC j hj).1) ?_) (fun j hj => (kD j hj).1) ?_) (fun j hj => (kG j hj).1) ?_)
      (fun j hj => (kF j hj).1) ?_
    all_goals intro j hj; simp at hj
    · exact (kA j hj).2
    · rcases hj with h | h
      · have := kB j h; omega
      · have := kA j h; omega
    · rcases hj with h | h | h
      · have := kC j h; omega
      · have := kB j h; omega
      · have := kA j h; omega
    · rcases hj with h | h | h | h
      · have := kD j h; omega
      · have := kC j h; omega
      · have := kB j h; omega
      · have := kA j h; omega
    · rcases hj with h | h | h | h | h
      · have := kG j h; omega
      · have := kD j h; omega
      · have := kC j h; omega
      · have := kB j h; omega
      · have := kA j h; omega

/-- All six are released. -/
theorem Six.free {n : Nat} {a b c d e f : Ptr} {A B C D G F : List Nat} (S : Six E m m1 n a b c d e f A B C D G F)
    (hs : ∀ k ∈ F ++ (G ++ (D ++ (C ++ (B ++ (A ++ []))))), mD.blk k = m1.blk k) :
    ∃ Z, poolFree a b e f c d E mD = .ok () (mD.drop Z) ∧
      (∀ k ∈ F ++ (G ++ (D ++ (C ++ (B ++ (A ++ []))))), k ∈ Z) ∧ ∀ k ∈ Z, k ∈ F ++ (G ++ (D ++ (C ++ (B ++ (A ++ []))))) := by
  have hd := S.nodup
  simp only [List.nodup_append, List.append_nil] at hd
  obtain ⟨-, ⟨-, ⟨-, ⟨-, ⟨-, -, nBA⟩, nC⟩, nD⟩, nG⟩, nF⟩ := hd
  have uA := S.ta.congr (m' := mD) fun k hk => hs k (by simp [hk])
  have uB := S.tb.congr (m' := mD) fun k hk => hs k (by simp [hk])
  have uC := S.tc.congr (m' := mD) fun k hk => hs k (by simp [hk])
  have uD := S.td.congr (m' := mD) fun k hk => hs k (by simp [hk])
  have uG := S.te.congr (m' := mD) fun k hk => hs k (by simp [hk])
  have uF := S.tf.congr (m' := mD) fun k hk => hs k (by simp [hk])
  have rA := uA.free (E := E) (D := []) (by simp)
  rw [show mD.drop [] = mD from by simp [Mem.drop]] at rA
  have rB := uB.free (E := E) (D := A ++ []) (by
    intro k hk h; simp at h; exact nBA k hk k h rfl)
  have rG := uG.free (E := E) (D := B ++ (A ++ [])) (by
    intro k hk h; simp at h
    exact nG k hk k (by simp; rcases h with h | h <;> simp [h]) rfl)
  have rF := uF.free (E := E) (D := G ++ (B ++ (A ++ []))) (by
    intro k hk h; simp at h
    exact nF k hk k (by simp; rcases h with h | h | h <;> simp [h]) rfl)
  have rC := uC.free (E := E) (D := F ++ (G ++ (B ++ (A ++ [])))) (by
    intro k hk h; simp at h
    rcases h with h | h | h | h
    · exact nF k h k (by simp [hk]) rfl
    · exact nG k h k (by simp [hk]) rfl
    · exact nC k hk k (by simp [h]) rfl
    · exact nC k hk k (by simp [h]) rfl)
  have rD := uD.free (E := E) (D := C ++ (F ++ (G ++ (B ++ (A ++ []))))) (by
    intro k hk h; simp at h
    rcases h with h | h | h | h | h
    · exact nD k hk k (by simp [h]) rfl
    · exact nF k h k (by simp [hk]) rfl
    · exact nG k h k (by simp [hk]) rfl
    · exact nD k hk k (by simp [h]) rfl
    · exact nD k hk k (by simp [h]) rfl)
  refine ⟨D ++ (C ++ (F ++ (G ++ (B ++ (A ++ []))))), ?_, ?_, ?_⟩
  · unfold poolFree
    msimp [rA, rB, rG, rF, rC, rD]
  · intro k hk; simp at hk ⊢
    rcases hk with h | h | h | h | h | h <;> simp [h]
  · intro k hk; simp at hk ⊢
    rcases hk with h | h | h | h | h | h <;> simp [h]

section

variable {R R1 : Foot} {T T1 : TV} {ws : List Win} {B C : Nat} {xs : List Val} {c : Code} {mode : String}
  {A : BitVec 64 → Val → BitVec 64} {size : Int} {N fuel : Nat} {V : Nat → BitVec 64} {μ : Nat → Mem} {out : Ptr}

/-- The test of the window. -/
theorem poolCheck_run (h : WinsOK ws) (hs : T1.dims = B :: C :: ws.map Win.x) :
    poolCheck (dimsCells (ws.map Win.k)) (dimsCells (ws.map Win.p)) (dimsCells (ws.map Win.d)) (dimsCells T1.dims) ws.length E m =
      .ok (.inl ()) m := by
  unfold poolCheck
  refine loopE_fn (ρ := Unit) (E := E) _ (fun _ => m) ws.length fun i hi => ?_
  obtain ⟨f, b⟩ := h _ (List.getElem_mem hi)
  obtain ⟨g1, g2⟩ := Win.span f b
  have hf := f.fits
  have hx := b.x
  have r1 := rd_dims (E := E) (m := m) (ds := ws.map Win.k) (i := i) (by simpa using hi)
  have r2 := rd_dims (E := E) (m := m) (ds := ws.map Win.d) (i := i) (by simpa using hi)
  have r3 := rd_dims (E := E) (m := m) (ds := ws.map Win.p) (i := i) (by simpa using hi)
  have r4 := rd_dims (E := E) (m := m) (ds := B :: C :: ws.map Win.x) (i := i + 2) (by simpa using hi)
  simp only [List.getElem_map, List.getElem_cons_succ] at r1 r2 r3 r4
  rw [show ((i + 2 : Nat) : Int) = (i : Int) + 2 by omega] at r4
  rw [hs]
  msimp [r1, r2, r3, r4, poolSpan_run f b,
    run_i32' (E := E) (m := m) (n := ((ws[i].d * (ws[i].k - 1) : Nat) : Int) + 1) (by omega) (by omega),
    run_i32' (E := E) (m := m) (n := 2 * (ws[i].p : Int)) (by omega) (by omega),
    run_i64' (E := E) (m := m) (n := 2 * (ws[i].p : Int) + (ws[i].x : Int)) (by omega) (by omega)]
  rw [if_neg (by omega)]

theorem poolAxes_eq (ws : List Win) : poolAxes (ints (ws.map Win.x)) (ints (ws.map Win.k)) (ints (ws.map Win.s)) (ints (ws.map Win.p))
    (ints (ws.map Win.d)) = ws.map Win.ax := by
  refine List.ext_getElem (by simp [poolAxes]) fun i h1 h2 => ?_
  have hi : i < ws.length := by simpa using h2
  simp [poolAxes, Win.ax, hi, List.getD]

/-- The output is created. -/
theorem poolCreate_run (h : WinsOK ws) (wf : m.WF) (h1 : At m R1 T1) (hso : ShapeOK (B :: C :: ws.map Win.out) T1.dtype.size) :
    Creates E (poolCreate R1.h ((ws.length + 2 : Nat) : Int) (B : Int) (C : Int) (ws.map Win.ax)) m .indet
      ⟨T1.dtype, T1.device, B :: C :: ws.map Win.out, List.replicate (prod (B :: C :: ws.map Win.out) * T1.dtype.size) none⟩ := by
  have := create_run (E := E) wf T1.dtype T1.device hso 0 .indet
  have e : poolCreate R1.h ((ws.length + 2 : Nat) : Int) (B : Int) (C : Int) (ws.map Win.ax) E m =
      create T1.dtype T1.device (dimsCells (B :: C :: ws.map Win.out)) ((B :: C :: ws.map Win.out).length : Nat) .null (0 : Nat) .indet E m := by
    unfold poolCreate
    msimp [poolOuts_run h, h1.tDtype, h1.tDevice]
    rw [show ((B : Int) :: (C : Int) :: ints (ws.map Win.out)) = ints (B :: C :: ws.map Win.out) from rfl, of_ints]
    simp only [List.length_cons, List.length_map]
  unfold Creates at this ⊢
  rw [e]
  exact this

variable {pi ps pos ph pt : Ptr} {Ki Ks Ko Kh Kt : List Nat}

/-- All samples. -/
theorem poolFill_run (S : PoolSteps E mode c (.blk R1.p) (.blk R.p) xs A ((prod (ws.map Win.k) : Nat) : Int) N V μ) (h : WinsOK ws)
    (hw : 1 ≤ ws.length) (hlen : xs.length = prod (B :: C :: ws.map Win.x))
    (hI : xs.length ≤ 9223372036854775807) (hN : N = B * C * prod (ws.map Win.out)) (hN' : N ≤ 9223372036854775807)
    (hi : prod (ws.map Win.out) ≤ 2147483647) (hK : prod (ws.map Win.k) ≤ 9223372036854775807)
    (hf : prod (ws.map Win.k) ≤ fuel) (hf' : prod (ws.map Win.out) ≤ fuel)
    (hV : ∀ b ch w, b < B → ch < C → w < prod (ws.map Win.out) → V ((b * C + ch) * prod (ws.map Win.out) + w) =
      (winElems (B :: C :: ws.map Win.x) xs ws b ch (unlin (ws.map Win.out) w)).foldl A (E.fp.ofInt64 0))
    (h1 : At mD R1 T1) (hd : T1.dtype = c.dtype) (hs : T1.dims = B :: C :: ws.map Win.x)
    (ht : At mD R T) (hst : T.dims = B :: C :: ws.map Win.out) (h0 : μ 0 = mD) (hμ : ∀ n k, k ≠ R.p → (μ n).blk k = mD.blk k)
    (hrank : ws.length ≤ 3)
    (ti : Temp mD pi Ki (8 * (ws.length + 2))) (ts : Temp mD ps Ks (8 * (ws.length + 2))) (to : Temp mD pos Ko (8 * (ws.length + 2)))
    (th : Temp mD ph Kh (8 * (ws.length + 2))) (tt : Temp mD pt Kt (8 * (ws.length + 2)))
    (hq : ∀ k ∈ Ki ++ (Kh ++ Kt), k ≠ R.p) :
    ((pi = .null ∨ ps = .null ∨ pos = .null ∨ ph = .null ∨ pt = .null) ∧
      poolFill fuel mode R1.h R.h ((ws.length + 2 : Nat) : Int) (dimsCells T1.dims) (ws.map Win.ax) pi ps pos ph pt E mD = .ub .nullDeref) ∨
    poolFill fuel mode R1.h R.h ((ws.length + 2 : Nat) : Int) (dimsCells T1.dims) (ws.map Win.ax) pi ps pos ph pt E mD = .ok (.inl ()) (μ N) := by
  have hz : poolSize (ws.map Win.ax) 1 E mD = .ok ((prod (ws.map Win.k) : Nat) : Int) mD := by
    have := poolSize_run (E := E) (m := mD) h (n := 1) (by omega)
    rw [Nat.one_mul] at this
    exact this
  have hl1 : T1.dims.length = ws.length + 2 := by rw [hs]; simp
  have hl2 : T.dims.length = ws.length + 2 := by rw [hst]; simp
  have hc := cells_nat (show ws.length + 2 ≤ 2147483647 by omega)
  have s1 := getAllStrides_run (E := E) h1 (buf := List.replicate (ws.length + 2) none) (by rw [hl1]; simp)
  have s2 := getAllStrides_run (E := E) ht (buf := List.replicate (ws.length + 2) none) (by rw [hl2]; simp)
  have v1 : Arr.vals (dimsCells (strides T1.dims)) = ints (strides (B :: C :: ws.map Win.x)) := by
    rw [hs]; simp [Arr.vals, dimsCells]
  have v2 : Arr.vals (dimsCells (strides T.dims)) = ints (strides (B :: C :: ws.map Win.out)) := by
    rw [hst]; simp [Arr.vals, dimsCells]
  have r0 : (dimsCells T1.dims).rd 0 E mD = .ok (B : Int) mD := by
    have := rd_dims (E := E) (m := mD) (ds := T1.dims) (i := 0) (by omega)
    rw [show ((0 : Nat) : Int) = 0 from rfl] at this
    rw [this]; simp [hs]
  have r1 : (dimsCells T1.dims).rd 1 E mD = .ok (C : Int) mD := by
    have := rd_dims (E := E) (m := mD) (ds := T1.dims) (i := 1) (by omega)
    rw [show ((1 : Nat) : Int) = 1 from rfl] at this
    rw [this]; simp [hs]
  unfold poolFill
  by_cases ns : ps = .null
  · left
    refine ⟨.inr (.inl ns), ?_⟩
    msimp [hz, ns, touch_null]
  by_cases no : pos = .null
  · left
    refine ⟨.inr (.inr (.inl no)), ?_⟩
    msimp [hz, ts.touch (E := E) ns (lo := 0) (hi := 8 * ((ws.length + 2 : Nat) : Int)) (by omega) (by omega), hc, s1, no, touch_null]
  have pre : ∀ {r}, loopE (fun s (_ : Unit) => poolSample pi ph pt
      (fun ch => poolChannel fuel mode (some c) (.blk R1.p) (.blk R.p) (ws.map Win.ax) (ints (strides (B :: C :: ws.map Win.x)))
        (ints (strides (B :: C :: ws.map Win.out))) ((prod (ws.map Win.k) : Nat) : Int) s ch) C) B 0 () E mD = r →
      (do
        let size ← poolSize (ws.map Win.ax) 1
        touch ps 0 (8 * ((ws.length + 2 : Nat) : Int))
        let sI ← getAllStrides R1.h (cells ((ws.length + 2 : Nat) : Int) 8)
        touch pos 0 (8 * ((ws.length + 2 : Nat) : Int))
        let sO ← getAllStrides R.h (cells ((ws.length + 2 : Nat) : Int) 8)
        let ip ← tData R1.h
        let op ← tData R.h
        let dt ← tDtype R1.h
        let nb ← (dimsCells T1.dims).rd 0
        let nc ← (dimsCells T1.dims).rd 1
        loopE (fun s (_ : Unit) => poolSample pi ph pt
          (fun c => poolChannel fuel mode (Code.find dt.code) ip op (ws.map Win.ax) sI.vals sO.vals size s c) nc.toNat) nb.toNat 0 ()) E mD = r := by
    intro r hr
    msimp [hz, ts.touch (E := E) ns (lo := 0) (hi := 8 * ((ws.length + 2 : Nat) : Int)) (by omega) (by omega), hc, s1,
      to.touch (E := E) no (lo := 0) (hi := 8 * ((ws.length + 2 : Nat) : Int)) (by omega) (by omega), s2, h1.tData, ht.tData, h1.tDtype, hd,
      find_dtype, r0, r1, v1, v2, Int.toNat_natCast]
    exact hr
  rcases Nat.eq_zero_or_pos B with hB | hB
  · right
    refine pre ?_
    have hN0 : N = 0 := by rw [hN, hB]; simp
    rw [hB, hN0, h0]
    rfl
  by_cases ni : pi = .null
  · left
    refine ⟨.inl ni, pre ?_⟩
    obtain ⟨B', rfl⟩ : ∃ B', B = B' + 1 := ⟨B - 1, by omega⟩
    rw [loopE_succ]
    unfold poolSample
    msimp [ni, touch_null]
  have t1 := fun n => (ti.congr (m' := μ n) fun k hk => hμ n k (hq k (by simp [hk]))).touch (E := E) ni (lo := 0) (hi := 8) (by omega) (by omega)
  by_cases nt : pt = .null
  · left
    refine ⟨.inr (.inr (.inr (.inr nt))), pre ?_⟩
    obtain ⟨B', rfl⟩ : ∃ B', B = B' + 1 := ⟨B - 1, by omega⟩
    rw [loopE_succ, ← h0]
    unfold poolSample
    msimp [t1, nt, touch_null]
  have t2 := fun n => (tt.congr (m' := μ n) fun k hk => hμ n k (hq k (by simp [hk]))).touch (E := E) nt (lo := 0) (hi := 8) (by omega) (by omega)
  by_cases nh : ph = .null
  · left
    refine ⟨.inr (.inr (.inr (.inl nh))), pre ?_⟩
    obtain ⟨B', rfl⟩ : ∃ B', B = B' + 1 := ⟨B - 1, by omega⟩
    rw [loopE_succ, ← h0]
    unfold poolSample
    msimp [t1, t2, nh, touch_null]
  have t3 := fun n => (th.congr (m' := μ n) fun k hk => hμ n k (hq k (by simp [hk]))).touch (E := E) nh (lo := 0) (hi := 8) (by omega) (by omega)
  right
  refine pre ?_
  have hloop := loopE_fn (ρ := Status) (E := E) (fun s (_ : Unit) => poolSample pi ph pt
      (fun ch => poolChannel fuel mode (some c) (.blk R1.p) (.blk R.p) (ws.map Win.ax) (ints (strides (B :: C :: ws.map Win.x)))
        (ints (strides (B :: C :: ws.map Win.out))) ((prod (ws.map Win.k) : Nat) : Int) s ch) C)
    (fun b => μ (b * C * prod (ws.map Win.out))) B (by
      intro b hb
      have hch := loopE_fn (ρ := Status) (E := E) (fun ch (_ : Unit) => poolChannel fuel mode (some c) (.blk R1.p) (.blk R.p) (ws.map Win.ax)
          (ints (strides (B :: C :: ws.map Win.x))) (ints (strides (B :: C :: ws.map Win.out))) ((prod (ws.map Win.k) : Nat) : Int) b ch)
        (fun ch => μ ((b * C + ch) * prod (ws.map Win.out))) C (by
          intro ch hc
          exact poolChannel_run S h (by rintro rfl; simp at hw) hlen hb hc hI hN hN' hi hf hf' fun w hw => hV b ch w hb hc hw)
      unfold poolSample
      msimp [t1, t2, t3]
      rw [show b * C + 0 = b * C by omega, show b * C + C = (b + 1) * C by rw [Nat.succ_mul]] at hch
      exact hch)
  rw [show 0 * C * prod (ws.map Win.out) = 0 by simp, h0, ← hN] at hloop
  exact hloop

/-- The whole operator, for any way of accumulating and storing. -/
theorem pooling_any {D : Nat → List Byte} (wf : m.WF) (h1 : At m R1 T1) (hd : T1.dtype = c.dtype) (hs : T1.dims = B :: C :: ws.map Win.x)
    (h : WinsOK ws) (hw : 1 ≤ ws.length) (hw' : ws.length ≤ 3)
    (hlen : xs.length = prod T1.dims) (hso : ShapeOK (B :: C :: ws.map Win.out) c.size)
    (hi : prod (ws.map Win.out) ≤ 2147483647) (hK : prod (ws.map Win.k) ≤ 9223372036854775807)
    (hf : prod (ws.map Win.k) ≤ fuel) (hf' : prod (ws.map Win.out) ≤ fuel)
    (hV : ∀ b ch w, b < B → ch < C → w < prod (ws.map Win.out) → V ((b * C + ch) * prod (ws.map Win.out) + w) =
      (winElems T1.dims xs ws b ch (unlin (ws.map Win.out) w)).foldl A (E.fp.ofInt64 0))
    (hD : D 0 = List.replicate (prod (B :: C :: ws.map Win.out) * c.size) none)
    (hDl : (D (prod (B :: C :: ws.map Win.out))).length = prod (B :: C :: ws.map Win.out) * c.size)
    (S : ∀ (R : Foot) mD, At mD R1 T1 → R.p ∉ R1.list →
      PoolSteps E mode c (.blk R1.p) (.blk R.p) xs A ((prod (ws.map Win.k) : Nat) : Int) (prod (B :: C :: ws.map Win.out)) V
        (fun n => mD.set R.p (some ⟨.own, .bytes (D n)⟩))) :
    Attempts E (pooling fuel R1.h mode (dimsCells (ws.map Win.k)) (dimsCells (ws.map Win.s)) (dimsCells (ws.map Win.p))
      (dimsCells (ws.map Win.d)) out) m ⟨c.dtype, T1.device, B :: C :: ws.map Win.out, D (prod (B :: C :: ws.map Win.out))⟩ := by
  have hl1 : T1.dims.length = ws.length + 2 := by rw [hs]; simp
  have hprod : prod (B :: C :: ws.map Win.out) = B * C * prod (ws.map Win.out) := by simp [prod, Nat.mul_assoc]
  obtain ⟨po, pi, ps, pos, ph, pt, Kp, Ki, Ks, Ko, Kh, Kt, m6, e6, S6⟩ := six_run (E := E) (m := m) (n := ws.length + 2) (by omega) wf
  have g1 := h1.frame wf S6.ext.toFrame
  obtain ⟨pm, hpm⟩ : ∃ x, x = poolMain fuel R1.h mode (dimsCells (ws.map Win.k)) (dimsCells (ws.map Win.s)) (dimsCells (ws.map Win.p))
      (dimsCells (ws.map Win.d)) (dimsCells T1.dims) ((ws.length + 2 : Nat) : Int) out po pi ps pos ph pt E m6 := ⟨_, rfl⟩
  have e0 : pooling fuel R1.h mode (dimsCells (ws.map Win.k)) (dimsCells (ws.map Win.s)) (dimsCells (ws.map Win.p))
      (dimsCells (ws.map Win.d)) out E m = pm := by
    rw [hpm]
    unfold pooling
    msimp [h1.tNdim, hl1]
    rw [if_pos (by omega)]
    unfold poolRun
    msimp [h1.tDimsArr]
    exact e6 _
  have n2 : (((ws.length + 2 : Nat) : Int) - 2).toNat = ws.length := by omega
  have hch := poolCheck_run (E := E) (m := m6) h hs
  have q0 : (dimsCells T1.dims).rd 0 E m6 = .ok (B : Int) m6 := by
    have := rd_dims (E := E) (m := m6) (ds := T1.dims) (i := 0) (by omega)
    rw [show ((0 : Nat) : Int) = 0 from rfl] at this
    rw [this]; simp [hs]
  have q1 : (dimsCells T1.dims).rd 1 E m6 = .ok (C : Int) m6 := by
    have := rd_dims (E := E) (m := m6) (ds := T1.dims) (i := 1) (by omega)
    rw [show ((1 : Nat) : Int) = 1 from rfl] at this
    rw [this]; simp [hs]
  have rA : ∀ g : Win → Nat, rdAll (dimsCells (ws.map g)) ws.length E m6 = .ok (ints (ws.map g)) m6 := by
    intro g
    have := rdAll_dims (E := E) (m := m6) (ws.map g)
    rwa [List.length_map] at this
  have rX : rdAll (List.drop 2 (dimsCells T1.dims)) ws.length E m6 = .ok (ints (ws.map Win.x)) m6 := by
    rw [show List.drop 2 (dimsCells T1.dims) = dimsCells (ws.map Win.x) by rw [hs]; rfl]
    exact rA Win.x
  unfold Attempts
  rw [e0]
  by_cases no : po = .null
  · right
    refine ⟨S6.na no, .inr ?_⟩
    rw [hpm]
    unfold poolMain
    msimp [n2, hch, no, touch_null]
  have ht := S6.ta.touch (E := E) no (lo := 0) (hi := 8 * ((ws.length + 2 : Nat) : Int)) (by omega) (by omega)
  rcases poolCreate_run (E := E) h S6.ext.wf g1 (by rw [hd]; exact hso) with ⟨R, m7, ec, P⟩ | ⟨m7, ec, f, wf7, nf⟩
  · have g2 := g1.frame S6.ext.wf P.ext.toFrame
    have hRp : R.p ∉ R1.list := fun hm => by
      have := P.fresh R.p (by simp [mem_foot])
      have := g1.lt S6.ext.wf hm
      omega
    have hKs : ∀ k ∈ Kt ++ (Kh ++ (Ko ++ (Ks ++ (Ki ++ (Kp ++ []))))), k ≠ R.p ∧ m7.blk k = m6.blk k := by
      intro k hk
      have hb := S6.bound k hk
      have := P.fresh R.p (by simp [mem_foot])
      exact ⟨by omega, P.ext.same k hb.2⟩
    have hdata := P.tensor.data
    simp only [hd] at hdata
    rw [show c.dtype.size = c.size from rfl, ← hD] at hdata
    have hset : m7.set R.p (some ⟨.own, .bytes (D 0)⟩) = m7 := Mem.set_self _ _ _ hdata
    rcases poolFill_run (E := E) (fuel := fuel) (S R m7 g2 hRp) h hw (by rw [hlen, hs])
      (by rw [hlen]; exact h1.shape.prod_le) hprod hso.prod_le hi hK hf hf' (by rw [← hs]; exact hV)
      g2 hd hs P.tensor rfl hset (fun n k hk => Mem.set_blk_ne _ _ hk) hw'
      (S6.tb.congr fun k hk => (hKs k (by simp [hk])).2) (S6.tc.congr fun k hk => (hKs k (by simp [hk])).2)
      (S6.td.congr fun k hk => (hKs k (by simp [hk])).2) (S6.te.congr fun k hk => (hKs k (by simp [hk])).2)
      (S6.tf.congr fun k hk => (hKs k (by simp [hk])).2) (fun k hk => (hKs k (by
        simp at hk ⊢; rcases hk with h | h | h <;> simp [h])).1) with ⟨hn, ef⟩ | ef
    · right
      refine ⟨by rcases hn with h | h | h | h | h <;> [exact S6.nb h; exact S6.nc h; exact S6.nd h; exact S6.ne h; exact S6.nf h], .inr ?_⟩
      rw [hpm]
      unfold poolMain
      msimp [n2, hch, ht, q0, q1, rX, rA, poolAxes_eq, ec, ef]
    · left
      have H := (P.after S6.ext S6.bound).setData (bs := D (prod (B :: C :: ws.map Win.out))) (by
        simp only [List.length_replicate, hd]; exact hDl)
      obtain ⟨Z, ez, z1, z2⟩ := S6.free (E := E) (mD := m7.set R.p (some ⟨.own, .bytes (D (prod (B :: C :: ws.map Win.out)))⟩)) (by
        intro k hk
        rw [Mem.set_blk_ne _ _ (hKs k hk).1, (hKs k hk).2])
      refine ⟨R, _, ?_, by simpa [hd] using H.done z1 z2⟩
      rw [hpm]
      unfold poolMain
      msimp [n2, hch, ht, q0, q1, rX, rA, poolAxes_eq, ec, ef, ez]
  · right
    refine ⟨nf, .inl ⟨out, m7, ?_, S6.ext.toFrame.trans f, wf7⟩⟩
    rw [hpm]
    unfold poolMain
    msimp [n2, hch, ht, q0, q1, rX, rA, poolAxes_eq, ec]

end

end Aitisa
