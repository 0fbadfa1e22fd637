import Verif.Proof.MatmulTop
import Verif.Proof.BatchIndex

/-! # Matrix products with batches -/

namespace Aitisa

variable {E : Env} {m m' : Mem} {R R1 R2 : Foot} {T T1 T2 : TV} {L : List Nat} {c : Code} {xs ys zs : List Val} {q P : Nat}
  {out : Ptr} {ds bd : List Nat} {z : Val}

/-! ### Strides and offsets -/

theorem run_product (ds : List Nat) (n i : Nat) (hn : n = ds.length) (hi : i < n) :
    prod (ds.drop (n - (i + 1))) = ds.getD (n - 1 - i) 1 * prod (ds.drop (n - i)) := by
  have h : n - (i + 1) < ds.length := by omega
  rw [prod_drop_step _ _ h]
  have e : n - (i + 1) = n - 1 - i := by omega
  have e2 : n - (i + 1) + 1 = n - i := by omega
  rw [e2]
  congr 1
  simp only [List.getD, e]
  rw [List.getElem?_eq_getElem (by omega)]
  rfl

theorem batchDim_run {d : Arr} (h : ∀ {k : Nat} (hk : k < ds.length), d[k]? = some (some (ds[k] : Int))) (i : Nat) :
    batchDim d ds.length i E m = .ok ((if i < ds.length then ds.getD (ds.length - 1 - i) 1 else 1 : Nat) : Int) m := by
  unfold batchDim
  by_cases hi : i < ds.length
  · rw [if_pos (by omega), if_pos hi, show (ds.length : Int) - 1 - i = ((ds.length - 1 - i : Nat) : Int) by omega,
      run_rd (h (k := ds.length - 1 - i) (by omega))]
    congr 2
    simp only [List.getD]
    rw [List.getElem?_eq_getElem (by omega)]
    rfl
  · rw [if_neg (by omega), if_neg hi]; rfl

theorem batchStrides_run {d : Arr} (h : ∀ {k : Nat} (hk : k < ds.length), d[k]? = some (some (ds[k] : Int))) {nd : Nat}
    (hnd : nd ≤ 2147483647) (hp : prodMax ds ≤ 9223372036854775807) :
    batchStrides d ds.length nd E m = .ok (bcState (List.replicate nd none) (bst ds) nd) m := by
  unfold batchStrides forI
  rw [cells_nat hnd, Int.toNat_natCast]
  have hb : (List.replicate nd (none : Option Int)).length = nd := by simp
  have := loopN_fn (E := E) (bstrideStep d ds.length nd)
    (fun i => (bcState (List.replicate nd none) (bst ds) i, ((prod (ds.drop (ds.length - i)) : Nat) : Int))) (fun _ => m) nd (by
    intro i hi
    have hw := bcState_step (List.replicate nd none) (bst ds) (i := i) (by rw [hb]; exact hi) E m
    rw [hb, show (nd : Int) - i - 1 = nd - 1 - i by omega] at hw
    unfold bstrideStep
    msimp [batchDim_run (E := E) (m := m) h i]
    by_cases hl : i < ds.length
    · have hr := run_product ds ds.length i rfl hl
      have hle : prod (ds.drop (ds.length - (i + 1))) ≤ 9223372036854775807 :=
        Nat.le_trans (prod_drop_le _ _) hp
      simp only [if_pos hl]
      by_cases h1 : ds.getD (ds.length - 1 - i) 1 = 1
      · have hb0 : bst ds i = 0 := by unfold bst; rw [if_neg (fun h => h.2 h1)]
        rw [hb0] at hw
        rw [h1, Nat.one_mul] at hr
        rw [if_neg (by rw [h1]; simp)]
        rw [show ((0 : Nat) : Int) = 0 from rfl] at hw
        msimp [hw, hr]
      · have hb0 : bst ds i = prod (ds.drop (ds.length - i)) := by unfold bst; rw [if_pos ⟨hl, h1⟩]
        rw [hb0] at hw
        rw [if_pos (by omega)]
        rw [Nat.mul_comm] at hr
        msimp [hw, mul_i64 (a := prod (ds.drop (ds.length - i))) (b := ds.getD (ds.length - 1 - i) 1) (by omega), hr]
    · have hb0 : bst ds i = 0 := by unfold bst; rw [if_neg (fun h => hl h.1)]
      rw [hb0] at hw
      rw [show ((0 : Nat) : Int) = 0 from rfl] at hw
      simp only [if_neg hl]
      have e1 : ds.length - i = 0 := by omega
      have e2 : ds.length - (i + 1) = 0 := by omega
      rw [e1, e2]
      msimp [hw]
      simp)
  have e0 : (bcState (List.replicate nd none) (bst ds) 0, ((prod (ds.drop (ds.length - 0)) : Nat) : Int)) =
      (List.replicate nd none, 1) := by
    simp [bcState, prod]
  rw [e0] at this
  msimp [this]

theorem bcState_get (nd : Nat) (g : Nat → Nat) {t : Nat} (h : t < nd) :
    (bcState (List.replicate nd none) g nd)[nd - 1 - t]? = some (some ((g t : Nat) : Int)) := by
  unfold bcState
  simp only [List.length_replicate, Nat.sub_self, List.take_zero, List.nil_append]
  rw [List.getElem?_reverse (by simp; omega)]
  simp only [List.getElem?_map, List.length_map, List.length_range]
  rw [List.getElem?_range (by omega), show nd - 1 - (nd - 1 - t) = t by omega]; rfl

/-- The offsets of one batch. -/
theorem batchOffs_run {ds1 ds2 : List Nat} (hnd : bd.length ≤ 2147483647) (f1 : Near ds1 bd) (f2 : Near ds2 bd)
    (p0 : prod bd ≤ 9223372036854775807)
    (p1 : prodMax ds1 ≤ 9223372036854775807) (p2 : prodMax ds2 ≤ 9223372036854775807) {i : Nat} (hi : i < prod bd) :
    batchOffs (dimsCells bd) (bcState (List.replicate bd.length none) (bst ds1) bd.length)
      (bcState (List.replicate bd.length none) (bst ds2) bd.length) bd.length i E m =
      .ok (((lin ds1 (under ds1 (unlin bd i)) : Nat) : Int), ((lin ds2 (under ds2 (unlin bd i)) : Nat) : Int)) m := by
  have l1 := lin_under_lt f1 hi
  have l2 := lin_under_lt f2 hi
  have e1 := lin_under f1.1 hi
  have e2 := lin_under f2.1 hi
  have hpos := (unlin_inRange hi).pos
  unfold batchOffs
  rw [if_neg (by unfold I32_MAX; omega), Int.toNat_natCast]
  -- one iteration
  have hstep : ∀ j, j < bd.length →
      offsStep (dimsCells bd) (bcState (List.replicate bd.length none) (bst ds1) bd.length)
        (bcState (List.replicate bd.length none) (bst ds2) bd.length) bd.length j
        (((i / prod (bd.drop (bd.length - j)) : Nat) : Int), ((sumN (fun t => coordR bd i t * bst ds1 t) j : Nat) : Int),
          ((sumN (fun t => coordR bd i t * bst ds2 t) j : Nat) : Int)) E m =
      .ok (if i / prod (bd.drop (bd.length - (j + 1))) = 0 then
          .inr (((sumN (fun t => coordR bd i t * bst ds1 t) (j + 1) : Nat) : Int), ((sumN (fun t => coordR bd i t * bst ds2 t) (j + 1) : Nat) : Int))
        else .inl (((i / prod (bd.drop (bd.length - (j + 1))) : Nat) : Int), ((sumN (fun t => coordR bd i t * bst ds1 t) (j + 1) : Nat) : Int),
          ((sumN (fun t => coordR bd i t * bst ds2 t) (j + 1) : Nat) : Int))) m := by
    intro j hj
    have hk : bd.length - 1 - j < bd.length := by omega
    have hd : bd.getD (bd.length - 1 - j) 1 = bd[bd.length - 1 - j] := by simp [List.getD, hk]
    have hdp : 0 < bd[bd.length - 1 - j] := hpos _ (List.getElem_mem hk)
    have r0 := rd_rev (E := E) (m := m) (ds := bd) hj
    have r1 := run_rd (bcState_get bd.length (bst ds1) hj) E m
    have r2 := run_rd (bcState_get bd.length (bst ds2) hj) E m
    rw [show ((bd.length - 1 - j : Nat) : Int) = (bd.length : Int) - 1 - j by omega] at r1 r2
    have q1 : sumN (fun t => coordR bd i t * bst ds1 t) (j + 1) ≤ 9223372036854775807 :=
      Nat.le_trans (sumN_mono _ (show j + 1 ≤ bd.length by omega)) (by omega)
    have q2 : sumN (fun t => coordR bd i t * bst ds2 t) (j + 1) ≤ 9223372036854775807 :=
      Nat.le_trans (sumN_mono _ (show j + 1 ≤ bd.length by omega)) (by omega)
    have s1 : sumN (fun t => coordR bd i t * bst ds1 t) (j + 1) =
      sumN (fun t => coordR bd i t * bst ds1 t) j + coordR bd i j * bst ds1 j := rfl
    have s2 : sumN (fun t => coordR bd i t * bst ds2 t) (j + 1) =
      sumN (fun t => coordR bd i t * bst ds2 t) j + coordR bd i j * bst ds2 j := rfl
    have hmod : offsStep.cMod ((i / prod (bd.drop (bd.length - j)) : Nat) : Int) (bd[bd.length - 1 - j] : Nat) E m =
        .ok ((coordR bd i j : Nat) : Int) m := by
      unfold offsStep.cMod coordR
      rw [if_neg (by omega), Int.tmod_eq_emod_of_nonneg (Int.natCast_nonneg _), hd]
      rfl
    have hdiv : ((i / prod (bd.drop (bd.length - j)) : Nat) : Int).tdiv (bd[bd.length - 1 - j] : Nat) =
        ((i / prod (bd.drop (bd.length - (j + 1))) : Nat) : Int) := by
      rw [Int.tdiv_eq_ediv_of_nonneg (Int.natCast_nonneg _), run_product bd bd.length j rfl hj, hd, Nat.mul_comm, ← Nat.div_div_eq_div_mul]
      rfl
    unfold offsStep
    msimp [r0, hmod, r1, mul_i64 (a := coordR bd i j) (b := bst ds1 j) (by omega),
      add_i64 (a := sumN (fun t => coordR bd i t * bst ds1 t) j) (b := coordR bd i j * bst ds1 j) (by omega), r2,
      mul_i64 (a := coordR bd i j) (b := bst ds2 j) (by omega),
      add_i64 (a := sumN (fun t => coordR bd i t * bst ds2 t) j) (b := coordR bd i j * bst ds2 j) (by omega)]
    rw [hdiv, ← s1, ← s2]
    by_cases h0 : i / prod (bd.drop (bd.length - (j + 1))) = 0
    · rw [if_pos (by omega), if_pos h0]
    · rw [if_neg (by omega), if_neg h0]
  rcases Nat.eq_zero_or_pos bd.length with hz | hz
  · have hb : bd = [] := List.length_eq_zero_iff.1 hz
    subst hb
    have g1 : ds1 = [] := by have := f1.1; simpa using this
    have g2 : ds2 = [] := by have := f2.1; simpa using this
    subst g1 g2
    rfl
  · have hlast : i / prod (bd.drop (bd.length - (bd.length - 1 + 1))) = 0 := by
      rw [show bd.length - (bd.length - 1 + 1) = 0 by omega]; exact Nat.div_eq_of_lt hi
    obtain ⟨j, hj, hj0, hjm⟩ := first_such (P := fun j => i / prod (bd.drop (bd.length - (j + 1))) = 0)
      (show bd.length - 1 < bd.length by omega) hlast
    have full : ∀ ds : List Nat, sumN (fun t => coordR bd i t * bst ds t) (j + 1) = sumN (fun t => coordR bd i t * bst ds t) bd.length := by
      intro ds
      refine (sumN_tail (by omega) fun t h1 h2 => ?_).symm
      have : i / prod (bd.drop (bd.length - t)) = 0 := by
        have hle : prod (bd.drop (bd.length - (j + 1))) ≤ prod (bd.drop (bd.length - t)) := by
          have hsplit : bd.drop (bd.length - (j + 1)) = (bd.drop (bd.length - t)).drop (t - (j + 1)) := by
            rw [List.drop_drop]; congr 1; omega
          rw [hsplit]
          have hpp : ∀ d ∈ bd.drop (bd.length - t), 0 < d := fun d hd => hpos d (List.mem_of_mem_drop hd)
          have := prod_append ((bd.drop (bd.length - t)).take (t - (j + 1))) ((bd.drop (bd.length - t)).drop (t - (j + 1)))
          rw [List.take_append_drop] at this
          rw [this]
          exact Nat.le_mul_of_pos_left _ (prod_pos fun d hd => hpp d (List.mem_of_mem_take hd))
        have h3 : i < prod (bd.drop (bd.length - (j + 1))) := by
          rcases Nat.lt_or_ge i (prod (bd.drop (bd.length - (j + 1)))) with h | h
          · exact h
          · have := Nat.div_pos h (prod_pos fun d hd => hpos d (List.mem_of_mem_drop hd))
            omega
        exact Nat.div_eq_of_lt (by omega)
      unfold coordR
      rw [this]; simp
    obtain ⟨r, m1, e, hr, hm⟩ := loopE_ret (E := E) (offsStep (dimsCells bd) (bcState (List.replicate bd.length none) (bst ds1) bd.length)
        (bcState (List.replicate bd.length none) (bst ds2) bd.length) bd.length)
      (fun j s m' => s = (((i / prod (bd.drop (bd.length - j)) : Nat) : Int), ((sumN (fun t => coordR bd i t * bst ds1 t) j : Nat) : Int),
          ((sumN (fun t => coordR bd i t * bst ds2 t) j : Nat) : Int)) ∧ m' = m) bd.length j
      (fun r m' => r = (((sumN (fun t => coordR bd i t * bst ds1 t) (j + 1) : Nat) : Int), ((sumN (fun t => coordR bd i t * bst ds2 t) (j + 1) : Nat) : Int)) ∧ m' = m)
      hj (by
        rintro k s m' hk ⟨rfl, rfl⟩
        have := hstep k (by omega)
        rw [if_neg (hjm k hk)] at this
        exact ⟨_, _, this, rfl, rfl⟩) (by
        rintro s m' ⟨rfl, rfl⟩
        have := hstep j hj
        rw [if_pos hj0] at this
        exact ⟨_, _, this, rfl, rfl⟩) (s := ((i : Int), 0, 0)) (m := m) (by simp [prod, sumN])
    rw [hm, hr, full ds1, full ds2, ← e1, ← e2] at e
    msimp [e]

/-! ### Temporaries -/

/-- `p` is null, or a live scratch block of `n` bytes; `K` is the list of its block, if any. -/
def Temp (m : Mem) (p : Ptr) (K : List Nat) (n : Nat) : Prop :=
  (p = .null ∧ K = []) ∨ ∃ k, p = .blk k ∧ K = [k] ∧ m.blk k = some ⟨.own, .scratch n⟩

variable {p : Ptr} {K D : List Nat} {n : Nat}

theorem Temp.congr (h : Temp m p K n) (e : ∀ k ∈ K, m'.blk k = m.blk k) : Temp m' p K n := by
  rcases h with h | ⟨k, hp, hK, hb⟩
  · exact .inl h
  · exact .inr ⟨k, hp, hK, by rw [e k (by simp [hK]), hb]⟩

theorem Temp.free (h : Temp m p K n) (hd : ∀ k ∈ K, k ∉ D) : rawFree p E (m.drop D) = .ok () (m.drop (K ++ D)) := by
  rcases h with ⟨rfl, rfl⟩ | ⟨k, rfl, rfl, hb⟩
  · rfl
  · exact free_drop hb (hd k (by simp))

theorem Temp.touch (h : Temp m p K n) (hp : p ≠ .null) {lo hi : Int} (h0 : 0 ≤ lo) (hh : hi ≤ n) : touch p lo hi E m = .ok () m := by
  rcases h with ⟨h, _⟩ | ⟨k, rfl, rfl, hb⟩
  · exact absurd h hp
  · unfold Aitisa.touch
    msimp [run_derefBlk hb]
    rw [if_pos ⟨h0, hh⟩]

theorem touch_null (lo hi : Int) : touch .null lo hi E m = .ub .nullDeref := rfl

theorem Holds.miss (h : Holds m m' R T L) : Holds m m'.miss R T L :=
  ⟨h.ext.miss, h.tensor.frame h.ext.wf (Frame.miss _), h.fresh, h.temps⟩

/-- A scratch allocation while a tensor is being built. -/
theorem Holds.scratch (h : Holds m m' R T L) (n : Int) (k : Nat) : ∃ p m1 K, scratch n k E m' = .ok p m1 ∧ Holds m m1 R T (K ++ L) ∧
    Temp m1 p K (toSizeT (k * n)) ∧ (∀ j ∈ K, m'.next ≤ j ∧ j < m1.next) ∧ (p = .null → ¬ E.NoFail) ∧ Frame m' m1 := by
  unfold Aitisa.scratch
  rw [run_rawAlloc]
  by_cases ha : E.allocOk m'.tick (toSizeT (k * n)) = true
  · rw [if_pos ha]
    exact ⟨_, _, [m'.next], rfl, h.push _, .inr ⟨_, rfl, rfl, by simp⟩, by simp, by simp, Frame.push _ _⟩
  · rw [if_neg ha]
    exact ⟨_, _, [], rfl, h.miss, .inl ⟨rfl, rfl⟩, by simp, fun _ nf => ha (nf _ _), Frame.miss _⟩

theorem Holds.drop (h : Holds m m' R T (K ++ L)) (hD : ∀ b ∈ K, b ∈ D) (hD' : ∀ b ∈ D, b ∈ K) : Holds m (m'.drop D) R T L where
  ext := (h.ext.drop (K := D) fun b hb => (h.temps b (by simp [hD' b hb])).1).mono fun x hx hn hm => by
    have hk : x ∉ D := by
      intro hk
      rw [Mem.drop_blk, if_pos hk] at hn; exact hn rfl
    simp at hm
    rcases hm with h | h | h
    · simp [h.1]
    · exact absurd (hD x h.1) hk
    · simp [h.1]
  tensor := h.tensor.drop_ne fun b hb hk => (h.temps b (by simp [hD' b hk])).2 hb
  fresh := h.fresh
  temps b hb := h.temps b (by simp [hb])

/-- A tensor produced after temporaries were allocated. -/
theorem Produces.after {m1 : Mem} (P : Produces m1 m' R T) (x : Ext m m1 K) (hK : ∀ b ∈ K, m.next ≤ b ∧ b < m1.next) : Holds m m' R T K where
  ext := (x.trans P.ext).mono (by intro y _ _ h; simp at h ⊢; exact h.symm)
  tensor := P.tensor
  fresh b hb := Nat.le_trans x.next (P.fresh b hb)
  temps b hb := ⟨(hK b hb).1, fun h => by have := P.fresh b h; have := (hK b hb).2; omega⟩

/-! ### Batches -/

/-- The three element offsets of each batch. -/
def batchList (nb s1 s2 s3 : Nat) (aOf bOf : Nat → Nat) : List (Int × Int × Int) :=
  (List.range nb).map fun i => (((aOf i * s1 : Nat) : Int), ((bOf i * s2 : Nat) : Int), ((i * s3 : Nat) : Int))

theorem elemOff_run {x s sz : Nat} (h0 : 0 < sz) (h : x * s * sz ≤ 9223372036854775807) : elemOff x s sz E m = .ok ((x * s : Nat) : Int) m := by
  unfold elemOff
  have : x * s ≤ x * s * sz := Nat.le_mul_of_pos_right _ h0
  msimp [mul_i64 (a := x) (b := s) (by omega), mul_i64 (a := x * s) (b := sz) h]

theorem batchPtrs_run {pA pB pC : Ptr} {KA KB KC : List Nat} {s1 s2 s3 sz nb : Nat} {aOf bOf : Nat → Nat} {offs : Nat → M (Int × Int)}
    (tA : Temp m pA KA (8 * nb)) (tB : Temp m pB KB (8 * nb)) (tC : Temp m pC KC (8 * nb))
    (nn : 0 < nb → pA ≠ .null ∧ pB ≠ .null ∧ pC ≠ .null) (hsz : 0 < sz)
    (ho : ∀ i, i < nb → offs i E m = .ok ((aOf i : Int), (bOf i : Int)) m)
    (ha : ∀ i, i < nb → aOf i * s1 * sz ≤ 9223372036854775807) (hb : ∀ i, i < nb → bOf i * s2 * sz ≤ 9223372036854775807)
    (hc : ∀ i, i < nb → i * s3 * sz ≤ 9223372036854775807) :
    batchPtrs pA pB pC s1 s2 s3 sz nb offs E m = .ok (batchList nb s1 s2 s3 aOf bOf) m := by
  unfold batchPtrs forI
  rw [Int.toNat_natCast]
  refine loopN_fn (E := E) _ (fun i => batchList i s1 s2 s3 aOf bOf) (fun _ => m) nb fun i hi => ?_
  obtain ⟨n1, n2, n3⟩ := nn (by omega)
  have t3 : touch3 pA pB pC i E m = .ok () m := by
    unfold touch3
    msimp [tA.touch (E := E) n1 (lo := 8 * i) (hi := 8 * i + 8) (by omega) (by omega),
      tB.touch (E := E) n2 (lo := 8 * i) (hi := 8 * i + 8) (by omega) (by omega),
      tC.touch (E := E) n3 (lo := 8 * i) (hi := 8 * i + 8) (by omega) (by omega)]
  msimp [t3, ho i hi, elemOff_run (E := E) (m := m) hsz (ha i hi), elemOff_run (E := E) (m := m) hsz (hb i hi),
    elemOff_run (E := E) (m := m) hsz (hc i hi)]
  simp [batchList, List.range_succ]

theorem batchPtrs_null {pA pB pC : Ptr} {KA KB KC : List Nat} {nA nB nC : Nat} {s1 s2 s3 : Int} {sz nb : Nat} {offs : Nat → M (Int × Int)}
    (tA : Temp m pA KA nA) (tB : Temp m pB KB nB) (tC : Temp m pC KC nC) (gA : 8 ≤ nA) (gB : 8 ≤ nB)
    (nn : pA = .null ∨ pB = .null ∨ pC = .null) (hn : 0 < nb) :
    batchPtrs pA pB pC s1 s2 s3 sz nb offs E m = .ub .nullDeref := by
  unfold batchPtrs forI
  rw [Int.toNat_natCast]
  refine loopN_first hn ?_
  have t3 : touch3 pA pB pC (0 : Nat) E m = .ub .nullDeref := by
    unfold touch3
    by_cases n1 : pA = .null
    · rw [n1]; rfl
    · have e1 := tA.touch (E := E) n1 (lo := 8 * (0 : Nat)) (hi := 8 * (0 : Nat) + 8) (by omega) (by omega)
      by_cases n2 : pB = .null
      · msimp [e1, n2, touch_null]
      · have e2 := tB.touch (E := E) n2 (lo := 8 * (0 : Nat)) (hi := 8 * (0 : Nat) + 8) (by omega) (by omega)
        have n3 : pC = .null := by rcases nn with h | h | h <;> [exact absurd h n1; exact absurd h n2; exact h]
        msimp [e1, e2, n3, touch_null]
  msimp [t3]

theorem batchList_get {nb s1 s2 s3 : Nat} {aOf bOf : Nat → Nat} {i : Nat} (h : i < nb) :
    (batchList nb s1 s2 s3 aOf bOf)[i]? = some (((aOf i * s1 : Nat) : Int), ((bOf i * s2 : Nat) : Int), ((i * s3 : Nat) : Int)) := by
  simp [batchList, h]

/-- The batched kernel. -/
theorem KCtx.batch (X : KCtx m R1 R2 T1 T2 c xs ys q) {s1 s2 nb nM nK nN : Nat} {aOf bOf : Nat → Nat} {W : Nat → Val} (wz : z.WT c)
    (hM : nM ≤ 2147483647) (hK : nK ≤ 2147483647) (hN : nN ≤ 2147483647)
    (ha : ∀ b, b < nb → aOf b * s1 + nM * nK ≤ xs.length) (hb : ∀ b, b < nb → bOf b * s2 + nK * nN ≤ ys.length)
    (h1 : xs.length ≤ 9223372036854775807) (h2 : ys.length ≤ 9223372036854775807) (hP : nb * (nM * nN) ≤ 9223372036854775807)
    (hdot : ∀ b i j, b < nb → i < nM → j < nN → dotRun E.fp c z ((List.range nK).map fun k =>
      (xs.getD (aOf b * s1 + (i * nK + k)) (.int 0), ys.getD (bOf b * s2 + (k * nN + j)) (.int 0))) = .ok (W (b * (nM * nN) + (i * nN + j)))) :
    batchKernel c (.blk R1.p) (.blk R2.p) (.blk q) (batchList nb s1 s2 (nM * nN) aOf bOf) nM nK nN nb E
      (m.arr q c (nb * (nM * nN)) (done W z 0)) = .ok () (m.arr q c (nb * (nM * nN)) (done W z (nb * (nM * nN)))) := by
  unfold batchKernel forI
  rw [Int.toNat_natCast]
  have := loopN_fn (E := E) (fun b (_ : Unit) =>
    match (batchList nb s1 s2 (nM * nN) aOf bOf)[b]? with
    | some x => mmKernel c (.blk R1.p) (.blk R2.p) (.blk q) x.1 x.2.1 x.2.2 nM nK nN
    | none => ubM .outOfBounds) (fun _ => ())
    (fun b => m.arr q c (nb * (nM * nN)) (done W z (b * (nM * nN)))) nb (by
      intro b hb'
      simp only [batchList_get hb']
      have hle : b * (nM * nN) + nM * nN ≤ nb * (nM * nN) := by
        rw [← Nat.succ_mul]; exact Nat.mul_le_mul_right _ hb'
      have := X.mm (E := E) (P := nb * (nM * nN)) wz hM hK hN (ha b hb') (hb b hb') hle h1 h2 hP
        (fun i j hi hj => hdot b i j hb' hi hj)
      rw [this, ← Nat.succ_mul])
  rw [Nat.zero_mul] at this
  exact this

theorem KCtx.batch_safe (X : KCtx m R1 R2 T1 T2 c xs ys q) {s1 s2 nb nM nK nN : Nat} {aOf bOf : Nat → Nat}
    (ha : ∀ b, b < nb → aOf b * s1 + nM * nK ≤ xs.length) (hb : ∀ b, b < nb → bOf b * s2 + nK * nN ≤ ys.length)
    (h1 : xs.length ≤ 9223372036854775807) (h2 : ys.length ≤ 9223372036854775807) (hP : nb * (nM * nN) ≤ 9223372036854775807)
    {m' : Mem} (F : Full m q c (nb * (nM * nN)) m') :
    (∃ s m2, batchKernel c (.blk R1.p) (.blk R2.p) (.blk q) (batchList nb s1 s2 (nM * nN) aOf bOf) nM nK nN nb E m' = .ok s m2 ∧
      Full m q c (nb * (nM * nN)) m2) ∨
    ∃ u, batchKernel c (.blk R1.p) (.blk R2.p) (.blk q) (batchList nb s1 s2 (nM * nN) aOf bOf) nM nK nN nb E m' = .ub u ∧ u = .overflow := by
  unfold batchKernel forI
  rw [Int.toNat_natCast]
  refine loopN_safe (Inv := fun _ => Full m q c (nb * (nM * nN))) (fun b s m' hb' F => ?_) F
  simp only [batchList_get hb']
  have hle : b * (nM * nN) + nM * nN ≤ nb * (nM * nN) := by
    rw [← Nat.succ_mul]; exact Nat.mul_le_mul_right _ hb'
  exact X.mm_safe (E := E) (ha b hb') (hb b hb') hle h1 h2 hP F

/-- A product without rows, columns or terms accesses nothing. -/
theorem batch_idle {A B C : Ptr} {s1 s2 s3 nb nM nK nN P : Nat} {aOf bOf : Nat → Nat} (h : nM = 0 ∨ nN = 0 ∨ nK = 0)
    {m' : Mem} (F : Full m q c P m') :
    (∃ s m2, batchKernel c A B C (batchList nb s1 s2 s3 aOf bOf) nM nK nN nb E m' = .ok s m2 ∧ Full m q c P m2) ∨
    ∃ u, batchKernel c A B C (batchList nb s1 s2 s3 aOf bOf) nM nK nN nb E m' = .ub u ∧ u = .overflow := by
  unfold batchKernel forI
  rw [Int.toNat_natCast]
  refine loopN_safe (Inv := fun _ => Full m q c P) (fun b s m' hb' F => ?_) F
  simp only [batchList_get hb']
  unfold mmKernel
  by_cases hM : nM ≤ 2147483647
  case neg => exact .inr ⟨_, forI32_big hM _ _ _ _, rfl⟩
  rw [run_forI32 hM]
  refine loopN_safe (Inv := fun _ => Full m q c P) (fun i s m' hi F => ?_) F
  by_cases hN : nN ≤ 2147483647
  case neg => exact .inr ⟨_, forI32_big hN _ _ _ _, rfl⟩
  rw [run_forI32 hN]
  refine loopN_safe (Inv := fun _ => Full m q c P) (fun j s m' hj F => ?_) F
  have hK : nK = 0 := by omega
  subst hK
  rw [run_forI32 (by omega)]
  exact .inl ⟨(), m', rfl, F⟩

/-- An operand without elements is read outside its data by the first term. -/
theorem KCtx.batch_empty (X : KCtx m R1 R2 T1 T2 c xs ys q) {s1 s2 nb nM nK nN P : Nat} {aOf bOf : Nat → Nat} (hb : 0 < nb) (hM : 0 < nM)
    (hN : 0 < nN) (hK : 0 < nK) (hM' : nM ≤ 2147483647) (hN' : nN ≤ 2147483647) (hK' : nK ≤ 2147483647) (wz : z.WT c) (hP : 0 < P)
    (ha0 : aOf 0 = 0) (h0 : xs = [] ∨ T2.bytes = []) :
    batchKernel c (.blk R1.p) (.blk R2.p) (.blk q) (batchList nb s1 s2 (nM * nN) aOf bOf) nM nK nN nb E (m.arr q c P fun _ => some z) =
      .ub .outOfBounds := by
  have lz := loadArr (E := E) (m := m) (q := q) (G := fun _ => some z) (k := 0) hP rfl wz
  have oob : ∀ {R : Foot} {T : TV}, At m R T → q ∉ R.list → T.bytes = [] → ∀ i : Nat,
      loadElem c (.blk R.p) (i : Int) E (m.arr q c P fun _ => some z) = .ub .outOfBounds := by
    intro R T h hq h0 i
    have g := h.set_ne hq (some ⟨.own, .bytes (encOpt c (tab P fun _ => some z))⟩)
    unfold loadElem Mem.arr
    have : rdElem c T.bytes i = .error .outOfBounds := rdElem_oob (by
      rw [h0]; exact Nat.mul_pos (Nat.succ_pos _) c.size_pos)
    msimp [g.derefB, this]
  have step : macStep c (.blk R1.p) (.blk R2.p) (.blk q) ((0 : Nat) : Int) ((bOf 0 * s2 : Nat) : Int) ((0 : Nat) : Int) E
      (m.arr q c P fun _ => some z) = .ub .outOfBounds := by
    unfold macStep
    by_cases hx : xs = []
    · msimp [lz, oob X.h1 X.n1 (by rw [X.he1.bytes, hx]; rfl) 0]
    · have hx' : 0 < xs.length := List.length_pos_iff.2 hx
      have l2 := (X.h1.set_ne X.n1 (some ⟨.own, .bytes (encOpt c (tab P fun _ => some z))⟩)).load (E := E) X.he1 hx'
      have l3 := oob X.h2 X.n2 (h0.resolve_left hx) (bOf 0 * s2)
      unfold Mem.arr at lz l3 ⊢
      msimp [lz, l2, l3]
  have eN : ((nN : Nat) : Int) = (nN : Int) := rfl
  unfold batchKernel forI
  rw [Int.toNat_natCast]
  refine loopN_first hb ?_
  simp only [batchList_get hb]
  unfold mmKernel
  rw [run_forI32 hM']
  refine loopN_first hM ?_
  rw [run_forI32 hN']
  refine loopN_first hN ?_
  rw [run_forI32 hK']
  refine loopN_first hK ?_
  unfold mmBody
  have i1 : ∀ n m', idx2 ((0 : Nat) : Int) ((n : Nat) : Int) ((0 : Nat) : Int) E m' = .ok ((0 * n + 0 : Nat) : Int) m' := fun n m' => idx2_run (by simp)
  msimp [i1]
  rw [← Int.natCast_add, ← Int.natCast_add, ← Int.natCast_add, ha0]
  simpa using step

/-- Pointers of the batches, kernel and release: outcome by the kernel. -/
theorem batchRun_top (wf : m.WF) (h1 : At m R1 T1) (he1 : Elems T1 c xs) (h2 : At m R2 T2) (he2 : ReadsAs T2 c ys)
    (H : Holds m m' R T L) (hLt : ∀ b ∈ L, b < m'.next) {P : Nat} (hbytes : T.bytes = encAll c (List.replicate P z))
    {s1 s2 s3 nb nM nK nN : Nat} {aOf bOf : Nat → Nat} {offs : Nat → M (Int × Int)} (hnb : nb ≤ 2147483647)
    (ho : ∀ i m', i < nb → offs i E m' = .ok ((aOf i : Int), (bOf i : Int)) m')
    (ha : ∀ i, i < nb → aOf i * s1 * c.size ≤ 9223372036854775807) (hb : ∀ i, i < nb → bOf i * s2 * c.size ≤ 9223372036854775807)
    (hc : ∀ i, i < nb → i * s3 * c.size ≤ 9223372036854775807) :
    (batchRun R1.h R2.h R.h s1 s2 s3 nM nK nN nb offs E m' = .ub .nullDeref ∧ ¬ E.NoFail) ∨
    ∃ mk, KCtx mk R1 R2 T1 T2 c xs ys R.p ∧ (mk.arr R.p c P fun _ => some z) = mk ∧
      (∀ G : Nat → Val, batchKernel c (.blk R1.p) (.blk R2.p) (.blk R.p) (batchList nb s1 s2 s3 aOf bOf) nM nK nN nb E mk =
          .ok () (mk.arr R.p c P fun k => some (G k)) →
        ∃ m2, batchRun R1.h R2.h R.h s1 s2 s3 nM nK nN nb offs E m' = .ok .success m2 ∧
          Holds m m2 R { T with bytes := encAll c (tab P G) } L ∧ ∀ k ∈ L, m2.blk k = m'.blk k) ∧
      (∀ u, batchKernel c (.blk R1.p) (.blk R2.p) (.blk R.p) (batchList nb s1 s2 s3 aOf bOf) nM nK nN nb E mk = .ub u →
        batchRun R1.h R2.h R.h s1 s2 s3 nM nK nN nb offs E m' = .ub u) := by
  obtain ⟨pA, mA, KA, eA, HA, tA, kA, nA, fA⟩ := H.scratch (E := E) (nb : Int) 8
  obtain ⟨pB, mB, KB, eB, HB, tB, kB, nB, fB⟩ := HA.scratch (E := E) (nb : Int) 8
  obtain ⟨pC, mC, KC, eC, HC, tC, kC, nC, fC⟩ := HB.scratch (E := E) (nb : Int) 8
  have hsz : toSizeT ((8 : Nat) * (nb : Int)) = 8 * nb := by unfold toSizeT; omega
  rw [hsz] at tA tB tC
  replace tA := tA.congr (m' := mC) fun k hk => (fB.trans fC).same k (kA k hk).2
  replace tB := tB.congr (m' := mC) fun k hk => fC.same k (kB k hk).2
  have g1 := h1.frame wf HC.ext.toFrame
  have g2 := h2.frame wf HC.ext.toFrame
  have hcs := c.size_pos
  have hq1 : R.p ∉ R1.list := fun h => by
    have := h1.lt wf h; have := H.fresh R.p (by simp [mem_foot]); omega
  have hq2 : R.p ∉ R2.list := fun h => by
    have := h2.lt wf h; have := H.fresh R.p (by simp [mem_foot]); omega
  by_cases hnull : 0 < nb ∧ (pA = .null ∨ pB = .null ∨ pC = .null)
  · left
    have e := batchPtrs_null (E := E) (s1 := s1) (s2 := s2) (s3 := s3) (sz := c.size) (offs := offs) tA tB tC (by omega) (by omega) hnull.2 hnull.1
    refine ⟨?_, by rcases hnull.2 with h | h | h <;> [exact nA h; exact nB h; exact nC h]⟩
    unfold batchRun
    msimp [eA, eB, eC, g1.tDtype, g1.tData, g2.tData, HC.tensor.tData, he1.dtype, show c.dtype.size = c.size from rfl, e]
  · right
    have nn : 0 < nb → pA ≠ .null ∧ pB ≠ .null ∧ pC ≠ .null := fun h => by
      refine ⟨fun e => hnull ⟨h, by simp [e]⟩, fun e => hnull ⟨h, by simp [e]⟩, fun e => hnull ⟨h, by simp [e]⟩⟩
    have e := batchPtrs_run (E := E) tA tB tC nn hcs (fun i hi => ho i mC hi) ha hb hc
    refine ⟨mC, ⟨g1, he1, g2, he2, hq1, hq2⟩, const_arr (hbytes ▸ HC.tensor.data), ?_, ?_⟩
    · intro G hk
      have hbb : (encOpt c (tab P fun k => some (G k))) = encAll c (tab P G) := by rw [tab_some, ← encAll_eq]
      obtain ⟨mk, hmk⟩ : ∃ mk, mk = (mC.arr R.p c P fun k => some (G k)) := ⟨_, rfl⟩
      have HK : Holds m mk R { T with bytes := encAll c (tab P G) } (KC ++ (KB ++ (KA ++ L))) := by
        rw [hmk]; unfold Mem.arr; rw [hbb]
        exact HC.setData (by rw [hbytes]; simp [encAll_length, tab_length])
      have hne : ∀ k, k ∉ R.list → mk.blk k = mC.blk k := fun k hk => by
        rw [hmk]; unfold Mem.arr; exact Mem.set_blk_ne _ _ fun e => hk (by simp [mem_foot, e])
      have tm : ∀ k ∈ KC ++ (KB ++ (KA ++ L)), k ∉ R.list := fun k hk => (HC.temps k hk).2
      have uA := tA.congr (m' := mk) fun k hk => hne k (tm k (by simp [hk]))
      have uB := tB.congr (m' := mk) fun k hk => hne k (tm k (by simp [hk]))
      have uC := tC.congr (m' := mk) fun k hk => hne k (tm k (by simp [hk]))
      have rC := uC.free (E := E) (D := []) (by simp)
      rw [show mk.drop [] = mk from by simp [Mem.drop]] at rC
      have nxA := fA.next
      have nxB := fB.next
      have nxC := fC.next
      have rB := uB.free (E := E) (D := KC ++ []) (by
        intro k hk h; simp at h; have := kC k h; have := kB k hk; omega)
      have rA := uA.free (E := E) (D := KB ++ (KC ++ [])) (by
        intro k hk h; simp at h
        rcases h with h | h
        · have := kB k h; have := kA k hk; omega
        · have := kC k h; have := kA k hk; omega)
      have HL : Holds m (mk.drop (KA ++ (KB ++ (KC ++ [])))) R { T with bytes := encAll c (tab P G) } L := by
        have HK' : Holds m mk R { T with bytes := encAll c (tab P G) } ((KC ++ KB ++ KA) ++ L) := by simpa using HK
        refine HK'.drop ?_ ?_
        · intro b hb; simp at hb ⊢; rcases hb with h | h | h <;> simp [h]
        · intro b hb; simp at hb ⊢; rcases hb with h | h | h <;> simp [h]
      refine ⟨_, ?_, HL, ?_⟩
      · unfold batchRun withCode
        rw [← hmk] at hk
        msimp [eA, eB, eC, g1.tDtype, g1.tData, g2.tData, HC.tensor.tData, he1.dtype, show c.dtype.size = c.size from rfl, e, find_dtype, hk,
          rC, rB, rA]
      · intro k hk
        have hlt := hLt k hk
        rw [Mem.drop_blk, if_neg, hne k (tm k (by simp [hk])), (fA.trans (fB.trans fC)).same k hlt]
        intro h; simp at h
        rcases h with h | h | h
        · have := kA k h; omega
        · have := kB k h; omega
        · have := kC k h; omega
    · intro u hk
      unfold batchRun withCode
      msimp [eA, eB, eC, g1.tDtype, g1.tData, g2.tData, HC.tensor.tData, he1.dtype, show c.dtype.size = c.size from rfl, e, find_dtype, hk]

end Aitisa
