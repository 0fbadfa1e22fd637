import Verif.Proof.Pooling

/-! # Pooling: the loops -/

namespace Aitisa

theorem whileE_run {σ ρ : Type} {E : Env} {f : σ → M ((σ × Bool) ⊕ ρ)} (S : Nat → σ) (μ : Nat → Mem) {N fuel : Nat} (hN : 0 < N)
    (hf : N ≤ fuel) (step : ∀ j, j < N → f (S j) E (μ j) = .ok (.inl (S (j + 1), decide (j + 1 < N))) (μ (j + 1))) :
    whileE f fuel (S 0) E (μ 0) = .ok (.inl (S N)) (μ N) := by
  suffices H : ∀ k j fuel, j + (k + 1) = N → k + 1 ≤ fuel → whileE f fuel (S j) E (μ j) = .ok (.inl (S N)) (μ N) by
    exact H (N - 1) 0 fuel (by omega) (by omega)
  intro k
  induction k with
  | zero =>
    intro j fuel hj hk
    obtain ⟨n, rfl⟩ : ∃ n, fuel = n + 1 := ⟨fuel - 1, by omega⟩
    simp only [whileE]
    have h := step j (by omega)
    rw [decide_eq_false (by omega), show j + 1 = N by omega] at h
    msimp [h]
    try rfl
  | succ k ih =>
    intro j fuel hj hk
    obtain ⟨n, rfl⟩ : ∃ n, fuel = n + 1 := ⟨fuel - 1, by omega⟩
    simp only [whileE]
    have h := step j (by omega)
    rw [decide_eq_true (by omega)] at h
    msimp [h]
    exact ih (j + 1) n (by omega) (by omega)

theorem loopE_fn {ρ : Type} {E : Env} (f : Nat → Unit → M (Unit ⊕ ρ)) (μ : Nat → Mem) (n : Nat)
    (step : ∀ i, i < n → f i () E (μ i) = .ok (.inl ()) (μ (i + 1))) : loopE f n 0 () E (μ 0) = .ok (.inl ()) (μ n) := by
  obtain ⟨s, m', e, h⟩ := loopE_inv (E := E) f (fun i _ m => m = μ i) n (by
    rintro i ⟨⟩ m hi rfl
    exact ⟨(), _, step i hi, rfl⟩) (s := ()) (m := μ 0) rfl
  rw [e, h]

section

variable {E : Env} {m : Mem} {ws : List Win} {B C : Nat} {xs : List Val} {c : Code} {ip op : Ptr} {mode : String}
  {A : BitVec 64 → Val → BitVec 64}

/-- The elements of a window up to the given position. -/
def winUpTo (ds : List Nat) (xs : List Val) (ws : List Win) (b c : Nat) (os : List Nat) (n : Nat) : List Val :=
  (List.range n).filterMap fun j =>
    (winAt ws os (unlin (ws.map Win.k) j)).map fun cs => elemAt ds xs (b :: c :: cs)

theorem winUpTo_succ (ds : List Nat) (xs : List Val) (ws : List Win) (b c : Nat) (os : List Nat) (n : Nat) (t : BitVec 64) :
    (winUpTo ds xs ws b c os (n + 1)).foldl A t =
      ((winAt ws os (unlin (ws.map Win.k) n)).map fun cs => elemAt ds xs (b :: c :: cs)).elim ((winUpTo ds xs ws b c os n).foldl A t)
        (A ((winUpTo ds xs ws b c os n).foldl A t)) := by
  unfold winUpTo
  rw [List.range_succ, List.filterMap_append, List.foldl_append]
  cases h : winAt ws os (unlin (ws.map Win.k) n) <;> simp [h, List.filterMap_cons]

/-- What the accumulation and the store do, on the memories `μ`. -/
structure PoolSteps (E : Env) (mode : String) (c : Code) (ip op : Ptr) (xs : List Val) (A : BitVec 64 → Val → BitVec 64)
    (size : Int) (N : Nat) (V : Nat → BitVec 64) (μ : Nat → Mem) : Prop where
  acc : ∀ n i t, n < N → i < xs.length → poolAcc mode c ip (i : Int) t E (μ n) = .ok (A t (xs.getD i (.int 0))) (μ n)
  store : ∀ n, n < N → poolStore mode c op (n : Int) (V n) size E (μ n) = .ok () (μ (n + 1))

theorem winAt_inRange {os qs : List Nat} {cs : List Nat} (hl : ws.length = os.length) (hl' : ws.length = qs.length)
    (h : winAt ws os qs = some cs) : InRange (ws.map Win.x) cs := by
  induction ws generalizing os qs cs with
  | nil => simp [winAt] at h; subst h; trivial
  | cons w ws ih =>
    cases os with
    | nil => simp at hl
    | cons o os =>
      cases qs with
      | nil => simp at hl'
      | cons q qs =>
        simp only [winAt] at h
        split at h
        · rename_i hin
          simp only [Option.map_eq_some_iff] at h
          obtain ⟨cs', h', rfl⟩ := h
          exact ⟨by omega, ih (os := os) (qs := qs) (by simpa using hl) (by simpa using hl') h'⟩
        · simp at h

theorem winsAt_length (os : List Nat) (hl : ws.length = os.length) : (winsAt ws os).length = ws.length := by
  induction ws generalizing os with
  | nil => rfl
  | cons w ws ih =>
    cases os with
    | nil => simp at hl
    | cons o os => simp [winsAt, ih os (by simpa using hl)]

theorem ksPos (h : WinsOK ws) : 0 < prod (ws.map Win.k) := prod_pos fun d hd => by
  obtain ⟨v, hv, rfl⟩ := List.mem_map.1 hd
  exact (h v hv).1.k

theorem outsPos : 0 < prod (ws.map Win.out) := prod_pos fun d hd => by
  obtain ⟨v, hv, rfl⟩ := List.mem_map.1 hd
  exact Nat.succ_pos _

variable {size : Int} {N fuel : Nat} {V : Nat → BitVec 64} {μ : Nat → Mem} {b ch n : Nat} {os : List Nat}

theorem lin_input (X : List Nat) (b ch : Nat) (cs : List Nat) :
    lin (B :: C :: X) (b :: ch :: cs) = b * (C * prod X) + ch * prod X + lin X cs := by
  simp [lin, prod, Nat.add_assoc]

/-- The elements of one window are accumulated. -/
theorem poolElems_run (S : PoolSteps E mode c ip op xs A size N V μ) (h : WinsOK ws) (ho : InRange (ws.map Win.out) os) (hn : n < N)
    (hlen : xs.length = prod (B :: C :: ws.map Win.x)) (hb : b < B) (hc : ch < C)
    (hI : xs.length ≤ 9223372036854775807) (hf : prod (ws.map Win.k) ≤ fuel) (t : BitVec 64) :
    whileE (poolElem mode (some c) ip (ws.map Win.ax) (ints (strides (ws.map Win.x)))
        ((b * (C * prod (ws.map Win.x)) + ch * prod (ws.map Win.x) : Nat) : Int) (winsAt ws os)) fuel
        ((winsAt ws os).map fun w => w.1, t) E (μ n) =
      .ok (.inl ((winsAt ws os).map fun w => w.1, (winElems (B :: C :: ws.map Win.x) xs ws b ch os).foldl A t)) (μ n) := by
  have hol : ws.length = os.length := by have := ho.length; simpa using this.symm
  have hK := ksPos h
  obtain ⟨K, hKe⟩ : ∃ K, K = prod (ws.map Win.k) := ⟨_, rfl⟩
  have hz : unlin (ws.map Win.k) 0 = (ws.map Win.k).map fun _ => 0 := unlin_zero _
  have he : (winsAt ws os).map (fun w => w.1) = idxAt ws os (unlin (ws.map Win.k) 0) := by rw [hz]; exact idxAt_head hol
  have hbase : b * (C * prod (ws.map Win.x)) + ch * prod (ws.map Win.x) + prod (ws.map Win.x) ≤ xs.length := by
    rw [hlen]
    simp only [prod]
    have h1 : (b + 1) * (C * prod (ws.map Win.x)) ≤ B * (C * prod (ws.map Win.x)) := Nat.mul_le_mul_right _ hb
    have h2 : (ch + 1) * prod (ws.map Win.x) ≤ C * prod (ws.map Win.x) := Nat.mul_le_mul_right _ hc
    rw [Nat.succ_mul] at h1 h2
    omega
  have := whileE_run (E := E) (f := poolElem mode (some c) ip (ws.map Win.ax) (ints (strides (ws.map Win.x)))
        ((b * (C * prod (ws.map Win.x)) + ch * prod (ws.map Win.x) : Nat) : Int) (winsAt ws os))
    (fun j => (idxAt ws os (unlin (ws.map Win.k) (if j < K then j else 0)), (winUpTo (B :: C :: ws.map Win.x) xs ws b ch os j).foldl A t))
    (fun _ => μ n) (N := K) (fuel := fuel) (by omega) (by omega) (by
      intro j hj
      rw [if_pos hj]
      have hql : ws.length = (unlin (ws.map Win.k) j).length := by rw [unlin_length]; simp
      have hoff := poolOffset_run (E := E) (m := μ n) (o := b * (C * prod (ws.map Win.x)) + ch * prod (ws.map Win.x)) hol hql (by omega)
      have hnext := poolNextElem_run (E := E) (m := μ n) h ho (j := j) (by omega)
      rw [← hKe] at hnext
      have hvis : poolVisit mode (some c) ip ((winUpTo (B :: C :: ws.map Win.x) xs ws b ch os j).foldl A t)
          ((winAt ws os (unlin (ws.map Win.k) j)).map fun cs =>
            ((b * (C * prod (ws.map Win.x)) + ch * prod (ws.map Win.x) + lin (ws.map Win.x) cs : Nat) : Int)) E (μ n) =
          .ok (.inl ((winUpTo (B :: C :: ws.map Win.x) xs ws b ch os (j + 1)).foldl A t)) (μ n) := by
        rw [winUpTo_succ]
        cases hw : winAt ws os (unlin (ws.map Win.k) j) with
        | none => rfl
        | some cs =>
          have hlt := lin_lt (winAt_inRange hol hql hw)
          have := S.acc n (b * (C * prod (ws.map Win.x)) + ch * prod (ws.map Win.x) + lin (ws.map Win.x) cs)
            ((winUpTo (B :: C :: ws.map Win.x) xs ws b ch os j).foldl A t) hn (by omega)
          simp only [Option.map_some, poolVisit, Option.elim]
          msimp [this]
          rw [elemAt, lin_input]
      unfold poolElem
      msimp [hoff, hvis, hnext]
      by_cases hl : j + 1 < K
      · simp [hl]
      · simp [hl])
  rw [if_pos (by omega), if_neg (by omega), ← he] at this
  have hT : winUpTo (B :: C :: ws.map Win.x) xs ws b ch os K = winElems (B :: C :: ws.map Win.x) xs ws b ch os := by
    rw [hKe]; rfl
  rw [hT] at this
  exact this

/-- One channel of one sample. -/
theorem poolChannel_run (S : PoolSteps E mode c ip op xs A size N V μ) (h : WinsOK ws) (hws : ws ≠ [])
    (hlen : xs.length = prod (B :: C :: ws.map Win.x)) (hb : b < B) (hc : ch < C)
    (hI : xs.length ≤ 9223372036854775807) (hN : N = B * C * prod (ws.map Win.out)) (hN' : N ≤ 9223372036854775807)
    (hi : prod (ws.map Win.out) ≤ 2147483647)
    (hf : prod (ws.map Win.k) ≤ fuel) (hf' : prod (ws.map Win.out) ≤ fuel)
    (hV : ∀ w, w < prod (ws.map Win.out) → V ((b * C + ch) * prod (ws.map Win.out) + w) =
      (winElems (B :: C :: ws.map Win.x) xs ws b ch (unlin (ws.map Win.out) w)).foldl A (E.fp.ofInt64 0)) :
    poolChannel fuel mode (some c) ip op (ws.map Win.ax) (ints (strides (B :: C :: ws.map Win.x)))
      (ints (strides (B :: C :: ws.map Win.out))) size b ch E (μ ((b * C + ch) * prod (ws.map Win.out))) =
      .ok (.inl ()) (μ ((b * C + ch + 1) * prod (ws.map Win.out))) := by
  obtain ⟨P, hP⟩ : ∃ P, P = prod (ws.map Win.out) := ⟨_, rfl⟩
  obtain ⟨X, hX⟩ : ∃ X, X = prod (ws.map Win.x) := ⟨_, rfl⟩
  have hPp : 0 < P := hP ▸ outsPos
  rw [← hP] at hN hi hf' hV ⊢
  have hcell : b * C + ch + 1 ≤ B * C := by
    have h1 : (b + 1) * C ≤ B * C := Nat.mul_le_mul_right _ hb
    rw [Nat.succ_mul] at h1
    omega
  have hcP : (b * C + ch + 1) * P ≤ N := by rw [hN]; exact Nat.mul_le_mul_right _ hcell
  have hcP' := hcP
  rw [Nat.succ_mul, Nat.add_mul] at hcP'
  have hbase : b * (C * X) + ch * X + X ≤ xs.length := by
    rw [hlen]
    simp only [prod, ← hX]
    have h1 : (b + 1) * (C * X) ≤ B * (C * X) := Nat.mul_le_mul_right _ hb
    have h2 : (ch + 1) * X ≤ C * X := Nat.mul_le_mul_right _ hc
    rw [Nat.succ_mul] at h1 h2
    omega
  have hob : b * (C * P) + ch * P = (b * C + ch) * P := by rw [Nat.add_mul, Nat.mul_assoc]
  have hlast : (ints (strides (B :: C :: ws.map Win.out))).getD ((ws.map Win.ax).length + 1) 0 = 1 := by
    have : ∀ (l : List Nat), l ≠ [] → (strides l).getD (l.length - 1) 0 = 1 := by
      intro l
      induction l with
      | nil => intro h; exact absurd rfl h
      | cons a l ih =>
        intro _
        cases l with
        | nil => rfl
        | cons a' l =>
          have := ih (by simp)
          simpa [strides] using this
    have h1 := this (B :: C :: ws.map Win.out) (by simp)
    have h2 : (ints (strides (B :: C :: ws.map Win.out))).getD ((ws.map Win.ax).length + 1) 0 =
        (((strides (B :: C :: ws.map Win.out)).getD ((B :: C :: ws.map Win.out).length - 1) 0 : Nat) : Int) := by
      simp [List.getD]
      cases (strides (B :: C :: ws.map Win.out))[ws.length + 1]? <;> rfl
    rw [h2, h1]; rfl
  unfold poolChannel
  rw [hlast]
  have g0 : (ints (strides (B :: C :: ws.map Win.x))).getD 0 0 = ((C * X : Nat) : Int) := by simp [strides, prod, hX]
  have g1 : (ints (strides (B :: C :: ws.map Win.x))).getD 1 0 = ((X : Nat) : Int) := by simp [strides, hX]
  have g2 : (ints (strides (B :: C :: ws.map Win.out))).getD 0 0 = ((C * P : Nat) : Int) := by simp [strides, prod, hP]
  have g3 : (ints (strides (B :: C :: ws.map Win.out))).getD 1 0 = ((P : Nat) : Int) := by simp [strides, hP]
  have g4 : (ints (strides (B :: C :: ws.map Win.x))).drop 2 = ints (strides (ws.map Win.x)) := by simp [strides]
  rw [g0, g1, g2, g3, g4]
  have p1 : ∀ m', poolBase (b : Int) (ch : Int) ((C * X : Nat) : Int) ((X : Nat) : Int) E m' = .ok ((b * (C * X) + ch * X : Nat) : Int) m' := by
    intro m'
    unfold poolBase
    msimp [mul_i64 (E := E) (m := m') (a := b) (b := C * X) (by omega), mul_i64 (E := E) (m := m') (a := ch) (b := X) (by omega),
      add_i64 (E := E) (m := m') (a := b * (C * X)) (b := ch * X) (by omega)]
  have p2 : ∀ m', poolBase (b : Int) (ch : Int) ((C * P : Nat) : Int) ((P : Nat) : Int) E m' = .ok (((b * C + ch) * P : Nat) : Int) m' := by
    intro m'
    have e1 : b * (C * P) = b * C * P := (Nat.mul_assoc ..).symm
    have e2 := Nat.add_mul (b * C) ch P
    unfold poolBase
    msimp [mul_i64 (E := E) (m := m') (a := b) (b := C * P) (by omega), mul_i64 (E := E) (m := m') (a := ch) (b := P) (by omega),
      add_i64 (E := E) (m := m') (a := b * (C * P)) (b := ch * P) (by omega), hob]
  have hwin := whileE_run (E := E)
    (f := poolWindow fuel mode (some c) ip op (ws.map Win.ax) (ints (strides (ws.map Win.x))) 1
      ((b * (C * X) + ch * X : Nat) : Int) (((b * C + ch) * P : Nat) : Int) size)
    (fun w => (winsAt ws (unlin (ws.map Win.out) (if w < P then w else 0)), ((w : Nat) : Int)))
    (fun w => μ ((b * C + ch) * P + w)) (N := P) (fuel := fuel) hPp hf' (by
      intro w hw
      rw [if_pos hw]
      have hn : (b * C + ch) * P + w < N := by
        rw [Nat.succ_mul] at hcP; omega
      have ho : InRange (ws.map Win.out) (unlin (ws.map Win.out) w) := unlin_inRange (by omega)
      have hel := poolElems_run (E := E) (fuel := fuel) S h ho hn hlen hb hc hI hf (E.fp.ofInt64 0)
      rw [← hX, ← hV w hw] at hel
      have hst := S.store _ hn
      have hnext := poolNextWin_run (E := E) (m := μ ((b * C + ch) * P + w + 1)) h (j := w) (by omega)
      rw [← hP] at hnext
      have e1 : i64 ((w : Int) * 1) E (μ ((b * C + ch) * P + w)) = .ok (w : Int) (μ ((b * C + ch) * P + w)) := by
        rw [Int.mul_one]; exact run_i64' (by omega) (by omega)
      have e2 : i64 ((w : Int) + (((b * C + ch) * P : Nat) : Int)) E (μ ((b * C + ch) * P + w)) =
          .ok (((b * C + ch) * P + w : Nat) : Int) (μ ((b * C + ch) * P + w)) := by
        have := run_i64' (E := E) (m := μ ((b * C + ch) * P + w)) (n := (((b * C + ch) * P + w : Nat) : Int)) (by omega) (by omega)
        rw [← this]; congr 1; omega
      have e3 : i32 ((w : Int) + 1) E (μ ((b * C + ch) * P + w + 1)) = .ok ((w + 1 : Nat) : Int) (μ ((b * C + ch) * P + w + 1)) :=
        run_i32' (by omega) (by omega)
      unfold poolWindow
      msimp [hel, e1, e2, hst, hnext, e3]
      rw [Nat.add_assoc]
      by_cases hl : w + 1 < P
      · simp [hl]
      · simp [hl])
  rw [if_pos hPp, Nat.add_zero, unlin_zero] at hwin
  have hz : (ws.map Win.out).map (fun _ => 0) = ws.map fun _ => 0 := by simp
  rw [hz] at hwin
  rw [show ((0 : Nat) : Int) = 0 from rfl] at hwin
  rw [Nat.succ_mul]
  msimp [p1, p2, poolHeads_run h, hwin]

end

end Aitisa
