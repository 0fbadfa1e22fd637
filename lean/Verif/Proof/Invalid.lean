import Verif.Proof.Index
import Verif.Proof.Pooling
import Verif.Spec.Invalid

/-!
# Index functions with arguments out of range
-/

namespace Aitisa

variable {E : Env} {m : Mem} {R : Foot} {T : TV}

theorem abort_andThen {α β : Type} (f : α → Mem → Res β) : Res.andThen (.abort : Res α) f = .abort := rfl

theorem of_get {cs : List Int} {i : Nat} (h : i < cs.length) : (Arr.of cs)[i]? = some (some cs[i]) := by
  simp [Arr.of, h]

theorem rd_of {cs : List Int} {i : Nat} (h : i < cs.length) : (Arr.of cs).rd i E m = .ok cs[i] m :=
  run_rd (of_get h) E m

theorem cAssert_fails {b : Bool} (ha : E.asserts = true) (h : b = false) : cAssert b E m = .abort := by
  subst h; simp [cAssert, ha]

theorem cAssert_off {b : Bool} (ha : E.asserts = false) : cAssert b E m = .ok () m := by
  simp [cAssert, ha]

/-- A loop that carries nothing and aborts in one of its iterations, if all iterations before go through or
abort themselves. -/
theorem loopN_aborts {f : Nat → Unit → M Unit} {n j : Nat} (hj : j < n)
    (step : ∀ i, i < n → f i () E m = .ok () m ∨ f i () E m = .abort) (bad : f j () E m = .abort) :
    loopN f n 0 () E m = .abort := by
  suffices H : ∀ k i, i + k = n → i ≤ j → loopN f k i () E m = .abort from H n 0 (by omega) (by omega)
  intro k
  induction k with
  | zero => intro i h1 h2; omega
  | succ k ih =>
    intro i h1 h2
    rw [loopN_succ, run_bind]
    rcases step i (by omega) with h | h
    · rw [h]
      have hne : i ≠ j := by rintro rfl; rw [bad] at h; cases h
      exact ih (i + 1) (by omega) (by omega)
    · rw [h]; rfl

theorem assertCoords_fails {ds : List Nat} {cs : List Int} {len : Int} (ha : E.asserts = true)
    (hl : ds.length ≤ cs.length)
    (h : len ≠ ds.length ∨ ∃ k, ∃ (h : k < cs.length) (h' : k < ds.length), cs[k] < 0 ∨ (ds[k] : Int) ≤ cs[k]) :
    assertCoords (dimsCells ds) (Arr.of cs) ds.length len E m = .abort := by
  unfold assertCoords
  by_cases hlen : len = ds.length
  · rw [run_bind, run_cAssert (by simp [hlen]), andThen_ok]
    unfold forI
    rw [Int.toNat_natCast]
    rcases h with h | ⟨k, hk, hk', hbad⟩
    · exact absurd hlen h
    · have step : ∀ i, (hi : i < ds.length) → (hi' : i < cs.length) →
          ((do
            let c ← (Arr.of cs).rd i
            cAssert (c ≥ 0)
            let d ← (dimsCells ds).rd i
            cAssert (c < d) : M Unit) E m) = if 0 ≤ cs[i] ∧ cs[i] < (ds[i] : Int) then .ok () m else .abort := by
        intro i hi hi'
        by_cases h0 : 0 ≤ cs[i]
        · by_cases h1 : cs[i] < (ds[i] : Int)
          · msimp [rd_of hi', rd_dims hi, run_cAssert (decide_eq_true (show cs[i] ≥ 0 from h0)),
              run_cAssert (decide_eq_true h1)]
            rw [if_pos ⟨h0, h1⟩]
          · msimp [rd_of hi', rd_dims hi, run_cAssert (decide_eq_true (show cs[i] ≥ 0 from h0)),
              cAssert_fails ha (decide_eq_false h1)]
            rw [if_neg (fun h => h1 h.2)]
        · msimp [rd_of hi', cAssert_fails ha (decide_eq_false (show ¬ cs[i] ≥ 0 from h0)), abort_andThen]
          rw [if_neg (fun h => h0 h.1)]
      refine loopN_aborts hk' (fun i hi => ?_) ?_
      · simp only [ha, if_true]
        rw [step i hi (by omega)]
        by_cases hc : 0 ≤ cs[i] ∧ cs[i] < (ds[i] : Int)
        · exact Or.inl (if_pos hc)
        · exact Or.inr (if_neg hc)
      · simp only [ha, if_true]
        rw [step k hk' hk, if_neg (by omega)]
  · rw [run_bind, cAssert_fails ha (by simp [hlen])]; rfl

theorem assertCoords_off {ds : List Nat} {cs : Arr} {len : Int} (ha : E.asserts = false) :
    assertCoords (dimsCells ds) cs ds.length len E m = .ok () m := by
  unfold assertCoords
  rw [run_bind, cAssert_off ha, andThen_ok]
  unfold forI
  rw [Int.toNat_natCast]
  refine loopN_fn (E := E) _ (fun _ => ()) (fun _ => m) ds.length (fun i hi => ?_)
  simp only [ha, Bool.false_eq_true, if_false]

theorem not_names {ds : List Nat} {cs : List Int} (hl : cs.length = ds.length) (h : ¬ Names ds cs) :
    ∃ k, ∃ (h : k < cs.length) (h' : k < ds.length), cs[k] < 0 ∨ (ds[k] : Int) ≤ cs[k] := by
  refine Classical.byContradiction fun hc => h ⟨hl, fun k h1 h2 => ?_⟩
  refine Classical.byContradiction fun hk => hc ⟨k, h1, h2, ?_⟩
  omega

theorem coordsToLinidx_fails (h : At m R T) {cs : List Int} {len : Int} (ha : E.asserts = true)
    (hl : cs.length = T.dims.length) (hb : len ≠ T.dims.length ∨ ¬ Names T.dims cs) :
    coordsToLinidx R.h (Arr.of cs) len E m = .abort := by
  unfold coordsToLinidx
  msimp [h.tNdim, h.tDimsArr, assertCoords_fails ha (Nat.le_of_eq hl.symm) (hb.imp id (not_names hl)), abort_andThen]

theorem coordsToOffset_fails (h : At m R T) {cs : List Int} {len : Int} (ha : E.asserts = true)
    (hl : cs.length = T.dims.length) (hb : len ≠ T.dims.length ∨ ¬ Names T.dims cs) :
    coordsToOffset R.h (Arr.of cs) len E m = .abort := by
  unfold coordsToOffset
  msimp [h.tNdim, h.tDimsArr, tMin2maj_run h,
    assertCoords_fails ha (Nat.le_of_eq hl.symm) (hb.imp id (not_names hl)), abort_andThen]

theorem linidxToCoords_fails (h : At m R T) {i : Int} {buf : Arr} (ha : E.asserts = true)
    (hb : i < 0 ∨ (prod T.dims : Int) ≤ i) : linidxToCoords R.h i buf E m = .abort := by
  unfold linidxToCoords
  by_cases h0 : i ≥ 0
  · msimp [h.tSize, h.tNdim, h.tDimsArr, run_cAssert (decide_eq_true h0),
      cAssert_fails ha (decide_eq_false (show ¬ i < (prod T.dims : Int) by omega)), abort_andThen]
  · msimp [h.tSize, h.tNdim, h.tDimsArr, cAssert_fails ha (decide_eq_false h0), abort_andThen]

theorem offsetToCoords_fails (h : At m R T) {i : Int} {buf : Arr} (ha : E.asserts = true)
    (hb : i < 0 ∨ (prod T.dims : Int) ≤ i) : offsetToCoords R.h i buf E m = .abort := by
  unfold offsetToCoords
  by_cases h0 : i ≥ 0
  · msimp [h.tSize, h.tNdim, h.tDimsArr, tMin2maj_run h, run_cAssert (decide_eq_true h0),
      cAssert_fails ha (decide_eq_false (show ¬ i < (prod T.dims : Int) by omega)), abort_andThen]
  · msimp [h.tSize, h.tNdim, h.tDimsArr, tMin2maj_run h, cAssert_fails ha (decide_eq_false h0), abort_andThen]

/-! ### Without assertions -/

theorem reach_drop (ds : List Nat) (cs : List Int) (k : Nat) (h : k < ds.length) (h' : k < cs.length) :
    reach (ds.drop k) (cs.drop k) =
      cs[k] * (prod (ds.drop (k + 1)) : Int) + reach (ds.drop (k + 1)) (cs.drop (k + 1)) := by
  rw [drop_split ds k h, drop_split cs k h']; rfl

theorem reachAbs_drop (ds : List Nat) (cs : List Int) (k : Nat) (h : k < ds.length) (h' : k < cs.length) :
    reachAbs (ds.drop k) (cs.drop k) =
      cs[k].natAbs * prod (ds.drop (k + 1)) + reachAbs (ds.drop (k + 1)) (cs.drop (k + 1)) := by
  rw [drop_split ds k h, drop_split cs k h']; rfl

theorem reachAbs_le (ds : List Nat) (cs : List Int) (k : Nat) :
    reachAbs (ds.drop k) (cs.drop k) ≤ reachAbs ds cs := by
  induction k generalizing ds cs with
  | zero => exact Nat.le_refl _
  | succ k ih =>
    cases ds with
    | nil => simp [reachAbs]
    | cons d ds =>
      cases cs with
      | nil => cases (ds.drop k) <;> simp [reachAbs]
      | cons c cs =>
        simp only [List.drop_succ_cons, reachAbs]
        exact Nat.le_trans (ih ds cs) (Nat.le_add_left _ _)

theorem reach_abs (ds : List Nat) (cs : List Int) : (reach ds cs).natAbs ≤ reachAbs ds cs := by
  induction ds generalizing cs with
  | nil => simp [reach]
  | cons d ds ih =>
    cases cs with
    | nil => simp [reach]
    | cons c cs =>
      simp only [reach, reachAbs]
      refine Nat.le_trans (Int.natAbs_add_le _ _) (Nat.add_le_add ?_ (ih cs))
      rw [Int.natAbs_mul, Int.natAbs_natCast]

theorem i64_abs {n : Int} (h : n.natAbs ≤ 9223372036854775807) : i64 n E m = .ok n m :=
  run_i64' (by omega) (by omega)

theorem coordsToLinidx_off (h : At m R T) {cs : List Int} {len : Int} (ha : E.asserts = false)
    (hl : cs.length = T.dims.length) (hb : reachAbs T.dims cs ≤ 9223372036854775807) :
    coordsToLinidx R.h (Arr.of cs) len E m = .ok (reach T.dims cs) m := by
  unfold coordsToLinidx
  msimp [h.tNdim, h.tDimsArr, assertCoords_off ha]
  have hloop := loopN_fn (E := E) (fun i (s : Int × Int) => (do
      let c ← (Arr.of cs).rd ((T.dims.length : Int) - 1 - i)
      let x ← i64 (s.1 * c)
      let l ← i64 (s.2 + x)
      let d ← (dimsCells T.dims).rd ((T.dims.length : Int) - 1 - i)
      return (← i64 (s.1 * d), l) : M (Int × Int)))
    (fun i => ((prod (T.dims.drop (T.dims.length - i)) : Int),
      reach (T.dims.drop (T.dims.length - i)) (cs.drop (T.dims.length - i)))) (fun _ => m) T.dims.length (by
      intro i hi
      have hk : T.dims.length - 1 - i < T.dims.length := by omega
      have hk' : T.dims.length - 1 - i < cs.length := by omega
      have hk1 : T.dims.length - 1 - i + 1 = T.dims.length - i := by omega
      have hk2 : T.dims.length - (i + 1) = T.dims.length - 1 - i := by omega
      have e1 := reach_drop T.dims cs _ hk hk'
      have e3 := reachAbs_drop T.dims cs _ hk hk'
      have e2 := prod_drop_step T.dims _ hk
      rw [hk1] at e1 e2 e3
      have hle := reachAbs_le T.dims cs (T.dims.length - 1 - i)
      have hab := reach_abs (T.dims.drop (T.dims.length - 1 - i)) (cs.drop (T.dims.length - 1 - i))
      have hsuf := h.shape.suffix (T.dims.length - 1 - i)
      have hrc : (Arr.of cs).rd ((T.dims.length : Int) - 1 - i) E m = .ok cs[T.dims.length - 1 - i] m := by
        rw [show ((T.dims.length : Int) - 1 - i) = ((T.dims.length - 1 - i : Nat) : Int) by omega]
        exact rd_of hk'
      have hx : i64 ((prod (T.dims.drop (T.dims.length - i)) : Int) * cs[T.dims.length - 1 - i]) E m = .ok _ m :=
        i64_abs (by rw [Int.natAbs_mul, Int.natAbs_natCast, Nat.mul_comm]; omega)
      have hs : reach (T.dims.drop (T.dims.length - i)) (cs.drop (T.dims.length - i)) +
          (prod (T.dims.drop (T.dims.length - i)) : Int) * cs[T.dims.length - 1 - i] =
          reach (T.dims.drop (T.dims.length - 1 - i)) (cs.drop (T.dims.length - 1 - i)) := by
        rw [e1, Int.mul_comm, Int.add_comm]
      have hl' : i64 (reach (T.dims.drop (T.dims.length - 1 - i)) (cs.drop (T.dims.length - 1 - i))) E m = .ok _ m :=
        i64_abs (by omega)
      have hmul : prod (T.dims.drop (T.dims.length - i)) * T.dims[T.dims.length - 1 - i] ≤ 9223372036854775807 := by
        rw [Nat.mul_comm]; omega
      msimp [hrc, rd_rev hi, hx, hs, hl', mul_i64 hmul, hk2]
      rw [e2, Nat.mul_comm])
  simp only [Nat.sub_zero, Nat.sub_self, List.drop_zero, List.drop_length] at hloop
  unfold forI
  rw [Int.toNat_natCast]
  exact congrArg (fun r => Res.andThen r _) hloop

theorem coordsToOffset_off (h : At m R T) {cs : List Int} {len : Int} (ha : E.asserts = false)
    (hl : cs.length = T.dims.length) (hb : reachAbs T.dims cs ≤ 9223372036854775807) :
    coordsToOffset R.h (Arr.of cs) len E m = .ok (reach T.dims cs) m := by
  unfold coordsToOffset
  msimp [h.tNdim, h.tDimsArr, tMin2maj_run h, assertCoords_off ha]
  have hloop := loopN_fn (E := E) (fun i (s : Int × Int × Bool) => (do
      let dim ← (defaultMin2maj T.dims.length).rd i
      let c ← (Arr.of cs).rd dim
      let d ← (dimsCells T.dims).rd dim
      if s.2.2 then return (d, c, false)
      else
        let x ← i64 (s.1 * c)
        let o ← i64 (s.2.1 + x)
        return (← i64 (s.1 * d), o, false) : M (Int × Int × Bool)))
    (fun i => ((prod (T.dims.drop (T.dims.length - i)) : Int),
      reach (T.dims.drop (T.dims.length - i)) (cs.drop (T.dims.length - i)), decide (i = 0)))
    (fun _ => m) T.dims.length (by
      intro i hi
      have hk : T.dims.length - 1 - i < T.dims.length := by omega
      have hk' : T.dims.length - 1 - i < cs.length := by omega
      have hk1 : T.dims.length - 1 - i + 1 = T.dims.length - i := by omega
      have hk2 : T.dims.length - (i + 1) = T.dims.length - 1 - i := by omega
      have e1 := reach_drop T.dims cs _ hk hk'
      have e3 := reachAbs_drop T.dims cs _ hk hk'
      have e2 := prod_drop_step T.dims _ hk
      rw [hk1] at e1 e2 e3
      have hle := reachAbs_le T.dims cs (T.dims.length - 1 - i)
      have hab := reach_abs (T.dims.drop (T.dims.length - 1 - i)) (cs.drop (T.dims.length - 1 - i))
      have hsuf := h.shape.suffix (T.dims.length - 1 - i)
      have hs0 : decide (i + 1 = 0) = false := by simp
      msimp [rd_m2m hi, rd_dims hk, rd_of hk', hk2, hs0]
      by_cases hi0 : i = 0
      · subst hi0
        simp only [Nat.sub_zero, List.drop_length, decide_true, if_true] at e1 e2 ⊢
        have h0 : cs.drop T.dims.length = [] := by rw [← hl]; simp
        rw [e1, e2]
        simp [h0, reach, prod]
      · have hd0 : decide (i = 0) = false := by simp [hi0]
        have hx : i64 ((prod (T.dims.drop (T.dims.length - i)) : Int) * cs[T.dims.length - 1 - i]) E m = .ok _ m :=
          i64_abs (by rw [Int.natAbs_mul, Int.natAbs_natCast, Nat.mul_comm]; omega)
        have hs : reach (T.dims.drop (T.dims.length - i)) (cs.drop (T.dims.length - i)) +
            (prod (T.dims.drop (T.dims.length - i)) : Int) * cs[T.dims.length - 1 - i] =
            reach (T.dims.drop (T.dims.length - 1 - i)) (cs.drop (T.dims.length - 1 - i)) := by
          rw [e1, Int.mul_comm, Int.add_comm]
        have hl' : i64 (reach (T.dims.drop (T.dims.length - 1 - i)) (cs.drop (T.dims.length - 1 - i))) E m = .ok _ m :=
          i64_abs (by omega)
        have hmul : prod (T.dims.drop (T.dims.length - i)) * T.dims[T.dims.length - 1 - i] ≤ 9223372036854775807 := by
          rw [Nat.mul_comm]; omega
        msimp [hd0, hx, hs, hl', mul_i64 hmul]
        rw [e2, Nat.mul_comm]
        rfl)
  simp only [Nat.sub_zero, Nat.sub_self, List.drop_zero, List.drop_length] at hloop
  unfold forI
  rw [Int.toNat_natCast]
  exact congrArg (fun r => Res.andThen r _) hloop

/-! ### Coordinates of an index that does not exist -/

theorem mod_div_mod {i p d P : Nat} (h : p * d ∣ P) : i % P / p % d = i / p % d := by
  rw [← Nat.mod_mul_right_div_self, Nat.mod_mod_of_dvd _ h, Nat.mod_mul_right_div_self]

theorem prod_drop_dvd (ds : List Nat) (k : Nat) : prod (ds.drop k) ∣ prod ds := by
  induction k generalizing ds with
  | zero => exact Nat.dvd_refl _
  | succ k ih =>
    cases ds with
    | nil => exact Nat.dvd_refl _
    | cons d ds => exact Nat.dvd_trans (ih ds) (Nat.dvd_mul_left _ _)

theorem unlin_mod_get (ds : List Nat) (i k : Nat) (hk : k < ds.length) (hp : 0 < prod ds) :
    (unlin ds (i % prod ds))[k]'(by rw [unlin_length]; exact hk) = i / prod (ds.drop (k + 1)) % ds[k] := by
  rw [unlin_get ds _ k _ (Nat.mod_lt _ hp)]
  refine mod_div_mod ?_
  rw [Nat.mul_comm, ← prod_drop_step ds k hk]
  exact prod_drop_dvd ds k

theorem sign_i64 {x n : Nat} {σ : Int} (hσ : σ = 1 ∨ σ = -1)
    (hn : -9223372036854775808 ≤ σ * n ∧ σ * n ≤ 9223372036854775807) (h : x ≤ n) :
    i64 (σ * (x : Int)) E m = .ok (σ * (x : Int)) m := by
  rcases hσ with rfl | rfl <;> exact run_i64' (by omega) (by omega)

/-- C division keeps the sign. -/
theorem cDivMod_sign {n b d : Nat} {σ : Int} (hσ : σ = 1 ∨ σ = -1)
    (hn : -9223372036854775808 ≤ σ * n ∧ σ * n ≤ 9223372036854775807) (hb : 0 < b) (hd : 0 < d) :
    cDivMod (σ * n) b d E m = .ok (σ * ((n / b % d : Nat) : Int)) m := by
  have e0 : (n : Int).tdiv b = ((n / b : Nat) : Int) := by
    rw [Int.tdiv_eq_ediv_of_nonneg (by omega)]; simp
  have e0' : ((n / b : Nat) : Int).tdiv d = ((n / b / d : Nat) : Int) := by
    rw [Int.tdiv_eq_ediv_of_nonneg (Int.natCast_nonneg _)]; simp
  have e0'' : ((n / b : Nat) : Int).tmod d = ((n / b % d : Nat) : Int) := by
    rw [Int.tmod_eq_emod_of_nonneg (Int.natCast_nonneg _)]; simp
  have e1 : (σ * n).tdiv b = σ * ((n / b : Nat) : Int) := by
    rcases hσ with rfl | rfl
    · rw [Int.one_mul, Int.one_mul]; exact e0
    · rw [Int.neg_one_mul, Int.neg_one_mul, Int.neg_tdiv, e0]
  have e2 : (σ * ((n / b : Nat) : Int)).tdiv d = σ * ((n / b / d : Nat) : Int) := by
    rcases hσ with rfl | rfl
    · rw [Int.one_mul, Int.one_mul]; exact e0'
    · rw [Int.neg_one_mul, Int.neg_one_mul, Int.neg_tdiv, e0']
  have e3 : (σ * ((n / b : Nat) : Int)).tmod d = σ * ((n / b % d : Nat) : Int) := by
    rcases hσ with rfl | rfl
    · rw [Int.one_mul, Int.one_mul]; exact e0''
    · rw [Int.neg_one_mul, Int.neg_one_mul, Int.neg_tmod, e0'']
  have l1 : n / b ≤ n := Nat.div_le_self _ _
  have l2 : n / b / d ≤ n / b := Nat.div_le_self _ _
  have q1 : i64 (σ * ((n / b : Nat) : Int)) E m = .ok (σ * ((n / b : Nat) : Int)) m :=
    sign_i64 hσ hn l1
  have q2 : i64 (σ * ((n / b / d : Nat) : Int)) E m = .ok (σ * ((n / b / d : Nat) : Int)) m :=
    sign_i64 hσ hn (Nat.le_trans l2 l1)
  have h1 : ¬ (b : Int) = 0 := by omega
  have h2 : ¬ (d : Int) = 0 := by omega
  unfold cDivMod
  msimp [h1, h2, e1, e2, e3, q1, q2]

/-- What the two functions leave in the caller's array. -/
def wrapped (ds : List Nat) (σ : Int) (n : Nat) : List Int :=
  (unlin ds (n % prod ds)).map fun c : Nat => σ * (c : Int)

theorem wrapped_length (ds : List Nat) (σ : Int) (n : Nat) : (Arr.of (wrapped ds σ n)).length = ds.length := by
  simp [Arr.of, wrapped, unlin_length]

theorem wrapped_get (ds : List Nat) (σ : Int) (n k : Nat) (hk : k < ds.length) (hp : 0 < prod ds) :
    (Arr.of (wrapped ds σ n))[k]'(by rw [wrapped_length]; exact hk) =
      some (σ * ((n / prod (ds.drop (k + 1)) % ds[k] : Nat) : Int)) := by
  simp only [Arr.of, wrapped, List.getElem_map, unlin_mod_get ds n k hk hp]

theorem linidxToCoords_off (h : At m R T) (ha : E.asserts = false) (hp : ∀ d ∈ T.dims, 0 < d) {n : Nat} {σ : Int}
    (hσ : σ = 1 ∨ σ = -1) (hn : -9223372036854775808 ≤ σ * n ∧ σ * n ≤ 9223372036854775807) {buf : Arr}
    (hb : buf.length = T.dims.length) :
    linidxToCoords R.h (σ * n) buf E m = .ok (Arr.of (wrapped T.dims σ n)) m := by
  unfold linidxToCoords
  msimp [h.tSize, h.tNdim, h.tDimsArr, cAssert_off ha]
  have hlu := wrapped_length T.dims σ n
  have hloop := loopN_fn (E := E) (fun j (s : Int × Arr) => (do
      let d ← (dimsCells T.dims).rd ((T.dims.length : Int) - 1 - j)
      let c ← cDivMod (σ * n) s.1 d
      let a ← s.2.wr ((T.dims.length : Int) - 1 - j) c
      return (← i64 (s.1 * d), a) : M (Int × Arr)))
    (fun j => ((prod (T.dims.drop (T.dims.length - j)) : Int),
      buf.take (T.dims.length - j) ++ (Arr.of (wrapped T.dims σ n)).drop (T.dims.length - j)))
    (fun _ => m) T.dims.length (by
      intro j hj
      have hk : T.dims.length - 1 - j < T.dims.length := by omega
      have hk1 : T.dims.length - 1 - j + 1 = T.dims.length - j := by omega
      have hk2 : T.dims.length - (j + 1) = T.dims.length - 1 - j := by omega
      have e2 := prod_drop_step T.dims _ hk
      rw [hk1] at e2
      have hsuf := h.shape.suffix (T.dims.length - 1 - j)
      have hpos : 0 < prod (T.dims.drop (T.dims.length - j)) :=
        prod_pos fun d hd => hp d (List.mem_of_mem_drop hd)
      have hdp : 0 < T.dims[T.dims.length - 1 - j] := hp _ (List.getElem_mem hk)
      have hmul : prod (T.dims.drop (T.dims.length - j)) * T.dims[T.dims.length - 1 - j] ≤ 9223372036854775807 := by
        rw [Nat.mul_comm]; omega
      have hcast : ((T.dims.length : Int) - 1 - j) = ((T.dims.length - 1 - j : Nat) : Int) := by omega
      have hwr : ∀ v, Arr.wr (buf.take (T.dims.length - j) ++ (Arr.of (wrapped T.dims σ n)).drop (T.dims.length - j))
          ((T.dims.length - 1 - j : Nat) : Int) v E m = _ := fun v => run_wr (by
            simp only [List.length_append, List.length_take, List.length_drop, hb, hlu]; omega) v E m
      msimp [rd_dims hk, cDivMod_sign hσ hn hpos hdp, mul_i64 hmul, hk2, e2, hcast, hwr]
      have hset := set_suffix (Arr.of (wrapped T.dims σ n)) buf (T.dims.length - 1 - j) (by omega) (by omega)
      have hval := wrapped_get T.dims σ n _ hk (prod_pos hp)
      rw [hk1] at hset hval
      rw [hval] at hset
      rw [hset, Nat.mul_comm T.dims[_]])
  simp only [Nat.sub_zero, Nat.sub_self, List.drop_zero, List.drop_length, List.take_zero, List.nil_append] at hloop
  have h0 : (Arr.of (wrapped T.dims σ n)).drop T.dims.length = [] := by rw [← hlu]; simp
  have h1 : buf.take T.dims.length = buf := by rw [← hb]; simp
  rw [h0, h1, List.append_nil] at hloop
  unfold forI
  rw [Int.toNat_natCast]
  exact congrArg (fun r => Res.andThen r _) hloop

theorem offsetToCoords_off (h : At m R T) (ha : E.asserts = false) (hp : ∀ d ∈ T.dims, 0 < d) {n : Nat} {σ : Int}
    (hσ : σ = 1 ∨ σ = -1) (hn : -9223372036854775808 ≤ σ * n ∧ σ * n ≤ 9223372036854775807) {buf : Arr}
    (hb : buf.length = T.dims.length) :
    offsetToCoords R.h (σ * n) buf E m = .ok (Arr.of (wrapped T.dims σ n)) m := by
  unfold offsetToCoords
  msimp [h.tSize, h.tNdim, h.tDimsArr, tMin2maj_run h, cAssert_off ha]
  have hlu := wrapped_length T.dims σ n
  have hloop := loopN_fn (E := E) (fun j (s : Int × Arr) => (do
      let dim ← (defaultMin2maj T.dims.length).rd j
      let d ← (dimsCells T.dims).rd dim
      let c ← cDivMod (σ * n) s.1 d
      let a ← s.2.wr dim c
      return (← i64 (s.1 * d), a) : M (Int × Arr)))
    (fun j => ((prod (T.dims.drop (T.dims.length - j)) : Int),
      buf.take (T.dims.length - j) ++ (Arr.of (wrapped T.dims σ n)).drop (T.dims.length - j)))
    (fun _ => m) T.dims.length (by
      intro j hj
      have hk : T.dims.length - 1 - j < T.dims.length := by omega
      have hk1 : T.dims.length - 1 - j + 1 = T.dims.length - j := by omega
      have hk2 : T.dims.length - (j + 1) = T.dims.length - 1 - j := by omega
      have e2 := prod_drop_step T.dims _ hk
      rw [hk1] at e2
      have hsuf := h.shape.suffix (T.dims.length - 1 - j)
      have hpos : 0 < prod (T.dims.drop (T.dims.length - j)) :=
        prod_pos fun d hd => hp d (List.mem_of_mem_drop hd)
      have hdp : 0 < T.dims[T.dims.length - 1 - j] := hp _ (List.getElem_mem hk)
      have hmul : prod (T.dims.drop (T.dims.length - j)) * T.dims[T.dims.length - 1 - j] ≤ 9223372036854775807 := by
        rw [Nat.mul_comm]; omega
      have hwr : ∀ v, Arr.wr (buf.take (T.dims.length - j) ++ (Arr.of (wrapped T.dims σ n)).drop (T.dims.length - j))
          ((T.dims.length - 1 - j : Nat) : Int) v E m = _ := fun v => run_wr (by
            simp only [List.length_append, List.length_take, List.length_drop, hb, hlu]; omega) v E m
      msimp [rd_m2m hj, rd_dims hk, cDivMod_sign hσ hn hpos hdp, mul_i64 hmul, hk2, e2, hwr]
      have hset := set_suffix (Arr.of (wrapped T.dims σ n)) buf (T.dims.length - 1 - j) (by omega) (by omega)
      have hval := wrapped_get T.dims σ n _ hk (prod_pos hp)
      rw [hk1] at hset hval
      rw [hval] at hset
      rw [hset, Nat.mul_comm T.dims[_]])
  simp only [Nat.sub_zero, Nat.sub_self, List.drop_zero, List.drop_length, List.take_zero, List.nil_append] at hloop
  have h0 : (Arr.of (wrapped T.dims σ n)).drop T.dims.length = [] := by rw [← hlu]; simp
  have h1 : buf.take T.dims.length = buf := by rw [← hb]; simp
  rw [h0, h1, List.append_nil] at hloop
  unfold forI
  rw [Int.toNat_natCast]
  exact congrArg (fun r => Res.andThen r _) hloop

/-! ### The stride of an axis that does not exist -/

theorem getStride_missing (h : At m R T) {d : Int} (hd : d < 0 ∨ (T.dims.length : Int) ≤ d) :
    getStride R.h d E m = .ok (prod T.dims : Int) m := by
  unfold getStride
  msimp [h.tNdim, h.tDimsArr, tMin2maj_run h]
  rw [Int.toNat_natCast]
  have key : ∀ k i, i + k = T.dims.length → loopE (fun i (stride : Int) => (do
      let dim ← (defaultMin2maj T.dims.length).rd i
      if dim = d then return .inr stride
      let d ← (dimsCells T.dims).rd dim
      return .inl (← i64 (stride * d)) : M (Int ⊕ Int))) k i
      (prod (T.dims.drop (T.dims.length - i)) : Int) E m = .ok (.inl (prod T.dims : Int)) m := by
    intro k
    induction k with
    | zero =>
      intro i hi
      have : T.dims.length - i = 0 := by omega
      rw [this, List.drop_zero]
      rfl
    | succ k ih =>
      intro i hi
      have hk : T.dims.length - 1 - i < T.dims.length := by omega
      have hk1 : T.dims.length - 1 - i + 1 = T.dims.length - i := by omega
      have hk2 : T.dims.length - (i + 1) = T.dims.length - 1 - i := by omega
      have e2 := prod_drop_step T.dims _ hk
      rw [hk1] at e2
      have hsuf := h.shape.suffix (T.dims.length - 1 - i)
      have hmul : prod (T.dims.drop (T.dims.length - i)) * T.dims[T.dims.length - 1 - i] ≤ 9223372036854775807 := by
        rw [Nat.mul_comm]; omega
      have hne : ¬ (((T.dims.length - 1 - i : Nat) : Int) = d) := by omega
      have := ih (i + 1) (by omega)
      rw [hk2, e2, Nat.mul_comm] at this
      unfold loopE
      msimp [rd_m2m (show i < T.dims.length by omega), hne, rd_dims hk, mul_i64 hmul]
      exact this
  have := key T.dims.length 0 (by omega)
  rw [Nat.sub_zero, List.drop_length] at this
  msimp [show ((prod [] : Nat) : Int) = 1 from rfl] at this
  msimp [this]

/-! ### Dims of length zero -/

/-- The last axis of length zero. -/
theorem last_zero (ds : List Nat) (h : 0 ∈ ds) :
    ∃ k, ∃ (hk : k < ds.length), ds[k] = 0 ∧ ∀ d ∈ ds.drop (k + 1), 0 < d := by
  induction ds with
  | nil => cases h
  | cons d ds ih =>
    by_cases h' : 0 ∈ ds
    · obtain ⟨k, hk, h1, h2⟩ := ih h'
      exact ⟨k + 1, by simpa using hk, by simpa using h1, by simpa using h2⟩
    · have : d = 0 := by rcases List.mem_cons.1 h with h | h
                         · exact h.symm
                         · exact absurd h h'
      exact ⟨0, by simp, by simpa using this, fun x hx => Nat.pos_of_ne_zero fun h0 => h' (by simpa [h0] using hx)⟩

theorem cDivMod_zero {n b : Nat} {σ : Int} (hσ : σ = 1 ∨ σ = -1)
    (hn : -9223372036854775808 ≤ σ * n ∧ σ * n ≤ 9223372036854775807) (hb : 0 < b) :
    cDivMod (σ * n) b (0 : Nat) E m = .ub .divZero := by
  have e0 : (n : Int).tdiv b = ((n / b : Nat) : Int) := by
    rw [Int.tdiv_eq_ediv_of_nonneg (by omega)]; simp
  have e1 : (σ * n).tdiv b = σ * ((n / b : Nat) : Int) := by
    rcases hσ with rfl | rfl
    · rw [Int.one_mul, Int.one_mul]; exact e0
    · rw [Int.neg_one_mul, Int.neg_one_mul, Int.neg_tdiv, e0]
  have l1 : n / b ≤ n := Nat.div_le_self _ _
  have q1 : i64 (σ * ((n / b : Nat) : Int)) E m = .ok (σ * ((n / b : Nat) : Int)) m :=
    sign_i64 hσ hn l1
  have h1 : ¬ (b : Int) = 0 := by omega
  unfold cDivMod
  msimp [h1, e1, q1, Int.natCast_zero]

theorem linidxToCoords_zero (h : At m R T) (ha : E.asserts = false) (hz : 0 ∈ T.dims) {n : Nat} {σ : Int}
    (hσ : σ = 1 ∨ σ = -1) (hn : -9223372036854775808 ≤ σ * n ∧ σ * n ≤ 9223372036854775807) {buf : Arr}
    (hb : buf.length = T.dims.length) :
    linidxToCoords R.h (σ * n) buf E m = .ub .divZero := by
  obtain ⟨k, hk, hk0, hpos'⟩ := last_zero T.dims hz
  unfold linidxToCoords
  msimp [h.tSize, h.tNdim, h.tDimsArr, cAssert_off ha]
  have hloop := loopN_ubInv (E := E) (fun j (s : Int × Arr) => (do
      let d ← (dimsCells T.dims).rd ((T.dims.length : Int) - 1 - j)
      let c ← cDivMod (σ * n) s.1 d
      let a ← s.2.wr ((T.dims.length : Int) - 1 - j) c
      return (← i64 (s.1 * d), a) : M (Int × Arr)))
    (fun j s m' => s.1 = (prod (T.dims.drop (T.dims.length - j)) : Int) ∧ s.2.length = T.dims.length ∧ m' = m)
    T.dims.length (T.dims.length - 1 - k) .divZero (by omega) (by
      rintro j ⟨s1, s2⟩ m' hj ⟨rfl, hs, rfl⟩
      have hs : s2.length = T.dims.length := hs
      have hk : T.dims.length - 1 - j < T.dims.length := by omega
      have hk1 : T.dims.length - 1 - j + 1 = T.dims.length - j := by omega
      have hk2 : T.dims.length - (j + 1) = T.dims.length - 1 - j := by omega
      have e2 := prod_drop_step T.dims _ hk
      rw [hk1] at e2
      have hsuf := h.shape.suffix (T.dims.length - 1 - j)
      have hpd : ∀ d ∈ T.dims.drop (T.dims.length - 1 - j), 0 < d := by
        intro d hd
        refine hpos' d ?_
        rw [show T.dims.length - 1 - j = (k + 1) + (T.dims.length - 1 - j - (k + 1)) by omega, ← List.drop_drop] at hd
        exact List.mem_of_mem_drop hd
      have hpos : 0 < prod (T.dims.drop (T.dims.length - j)) := by
        refine prod_pos fun d hd => hpd d ?_
        rw [drop_split T.dims _ hk, hk1]; exact List.mem_cons_of_mem _ hd
      have hdp : 0 < T.dims[T.dims.length - 1 - j] :=
        hpd _ (by rw [drop_split T.dims _ hk]; exact List.mem_cons_self)
      have hmul : prod (T.dims.drop (T.dims.length - j)) * T.dims[T.dims.length - 1 - j] ≤ 9223372036854775807 := by
        rw [Nat.mul_comm]; omega
      have hcast : ((T.dims.length : Int) - 1 - j) = ((T.dims.length - 1 - j : Nat) : Int) := by omega
      have hwr : ∀ v, Arr.wr s2 ((T.dims.length - 1 - j : Nat) : Int) v E m' = _ :=
        fun v => run_wr (by omega) v E m'
      refine ⟨(((prod (T.dims.drop (T.dims.length - j)) * T.dims[T.dims.length - 1 - j] : Nat) : Int),
        s2.set (T.dims.length - 1 - j) (some (σ *
          ((n / prod (T.dims.drop (T.dims.length - j)) % T.dims[T.dims.length - 1 - j] : Nat) : Int)))), m', ?_, ?_, ?_, rfl⟩
      · msimp [rd_dims hk, cDivMod_sign hσ hn hpos hdp, mul_i64 hmul, hcast, hwr]
      · rw [hk2, e2, Nat.mul_comm]
      · simpa using hs) (by
      rintro ⟨s1, s2⟩ m' ⟨rfl, hs, rfl⟩
      have hk1 : T.dims.length - (T.dims.length - 1 - k) = k + 1 := by omega
      have hpos : 0 < prod (T.dims.drop (k + 1)) := prod_pos hpos'
      have hcast : ((T.dims.length : Int) - 1 - ((T.dims.length - 1 - k : Nat) : Int)) = (k : Int) := by omega
      rw [hk1]
      have hc := cDivMod_zero (E := E) (m := m') hσ hn hpos
      msimp [hcast, rd_dims hk, hk0, hc])
    (s := (1, buf)) (m := m) ⟨by simp [prod], hb, rfl⟩
  unfold forI
  rw [Int.toNat_natCast]
  exact congrArg (fun r => Res.andThen r _) hloop

theorem offsetToCoords_zero (h : At m R T) (ha : E.asserts = false) (hz : 0 ∈ T.dims) {n : Nat} {σ : Int}
    (hσ : σ = 1 ∨ σ = -1) (hn : -9223372036854775808 ≤ σ * n ∧ σ * n ≤ 9223372036854775807) {buf : Arr}
    (hb : buf.length = T.dims.length) :
    offsetToCoords R.h (σ * n) buf E m = .ub .divZero := by
  obtain ⟨k, hk, hk0, hpos'⟩ := last_zero T.dims hz
  unfold offsetToCoords
  msimp [h.tSize, h.tNdim, h.tDimsArr, tMin2maj_run h, cAssert_off ha]
  have hloop := loopN_ubInv (E := E) (fun j (s : Int × Arr) => (do
      let dim ← (defaultMin2maj T.dims.length).rd j
      let d ← (dimsCells T.dims).rd dim
      let c ← cDivMod (σ * n) s.1 d
      let a ← s.2.wr dim c
      return (← i64 (s.1 * d), a) : M (Int × Arr)))
    (fun j s m' => s.1 = (prod (T.dims.drop (T.dims.length - j)) : Int) ∧ s.2.length = T.dims.length ∧ m' = m)
    T.dims.length (T.dims.length - 1 - k) .divZero (by omega) (by
      rintro j ⟨s1, s2⟩ m' hj ⟨rfl, hs, rfl⟩
      have hs : s2.length = T.dims.length := hs
      have hj' : j < T.dims.length := by omega
      have hk : T.dims.length - 1 - j < T.dims.length := by omega
      have hk1 : T.dims.length - 1 - j + 1 = T.dims.length - j := by omega
      have hk2 : T.dims.length - (j + 1) = T.dims.length - 1 - j := by omega
      have e2 := prod_drop_step T.dims _ hk
      rw [hk1] at e2
      have hsuf := h.shape.suffix (T.dims.length - 1 - j)
      have hpd : ∀ d ∈ T.dims.drop (T.dims.length - 1 - j), 0 < d := by
        intro d hd
        refine hpos' d ?_
        rw [show T.dims.length - 1 - j = (k + 1) + (T.dims.length - 1 - j - (k + 1)) by omega, ← List.drop_drop] at hd
        exact List.mem_of_mem_drop hd
      have hpos : 0 < prod (T.dims.drop (T.dims.length - j)) := by
        refine prod_pos fun d hd => hpd d ?_
        rw [drop_split T.dims _ hk, hk1]; exact List.mem_cons_of_mem _ hd
      have hdp : 0 < T.dims[T.dims.length - 1 - j] :=
        hpd _ (by rw [drop_split T.dims _ hk]; exact List.mem_cons_self)
      have hmul : prod (T.dims.drop (T.dims.length - j)) * T.dims[T.dims.length - 1 - j] ≤ 9223372036854775807 := by
        rw [Nat.mul_comm]; omega
      have hwr : ∀ v, Arr.wr s2 ((T.dims.length - 1 - j : Nat) : Int) v E m' = _ :=
        fun v => run_wr (by omega) v E m'
      refine ⟨(((prod (T.dims.drop (T.dims.length - j)) * T.dims[T.dims.length - 1 - j] : Nat) : Int),
        s2.set (T.dims.length - 1 - j) (some (σ *
          ((n / prod (T.dims.drop (T.dims.length - j)) % T.dims[T.dims.length - 1 - j] : Nat) : Int)))), m', ?_, ?_, ?_, rfl⟩
      · msimp [rd_m2m hj', rd_dims hk, cDivMod_sign hσ hn hpos hdp, mul_i64 hmul, hwr]
      · rw [hk2, e2, Nat.mul_comm]
      · simpa using hs) (by
      rintro ⟨s1, s2⟩ m' ⟨rfl, hs, rfl⟩
      have hk1 : T.dims.length - (T.dims.length - 1 - k) = k + 1 := by omega
      have hk2 : T.dims.length - 1 - (T.dims.length - 1 - k) = k := by omega
      have hpos : 0 < prod (T.dims.drop (k + 1)) := prod_pos hpos'
      rw [hk1]
      have hc := cDivMod_zero (E := E) (m := m') hσ hn hpos
      have hr := rd_m2m (E := E) (m := m') (show T.dims.length - 1 - k < T.dims.length by omega)
      rw [hk2] at hr
      msimp [hr, rd_dims hk, hk0, hc])
    (s := (1, buf)) (m := m) ⟨by simp [prod], hb, rfl⟩
  unfold forI
  rw [Int.toNat_natCast]
  exact congrArg (fun r => Res.andThen r _) hloop

end Aitisa
