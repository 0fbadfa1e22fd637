import Verif.Spec.Index
import Verif.Proof.Unary

/-! # Row-major coordinates and the functions of `index_utils.c` -/

namespace Aitisa

/-! ### Coordinates -/

theorem prod_pos {ds : List Nat} (h : ∀ d ∈ ds, 0 < d) : 0 < prod ds := by
  induction ds with
  | nil => simp [prod]
  | cons d ds ih =>
    simp only [prod]
    exact Nat.mul_pos (h d (by simp)) (ih fun x hx => h x (by simp [hx]))

theorem InRange.length {ds cs : List Nat} (h : InRange ds cs) : cs.length = ds.length := by
  induction ds generalizing cs with
  | nil => cases cs <;> simp [InRange] at h ⊢
  | cons d ds ih =>
    cases cs with
    | nil => simp [InRange] at h
    | cons c cs => simp [ih h.2]

theorem inRange_iff {ds cs : List Nat} : InRange ds cs ↔ cs.length = ds.length ∧
    ∀ i (h : i < cs.length) (h' : i < ds.length), cs[i] < ds[i] := by
  induction ds generalizing cs with
  | nil => cases cs <;> simp [InRange]
  | cons d ds ih =>
    cases cs with
    | nil => simp [InRange]
    | cons c cs =>
      simp only [InRange, ih, List.length_cons, Nat.add_right_cancel_iff]
      constructor
      · rintro ⟨h0, hl, h⟩
        refine ⟨hl, fun i h1 h2 => ?_⟩
        cases i with
        | zero => exact h0
        | succ i => exact h i (by simpa using h1) (by simpa using h2)
      · rintro ⟨hl, h⟩
        exact ⟨h 0 (by simp) (by simp), hl, fun i h1 h2 => h (i + 1) (by simpa using h1) (by simpa using h2)⟩

theorem InRange.pos {ds cs : List Nat} (h : InRange ds cs) : ∀ d ∈ ds, 0 < d := by
  induction ds generalizing cs with
  | nil => simp
  | cons d ds ih =>
    cases cs with
    | nil => simp [InRange] at h
    | cons c cs =>
      intro x hx
      rcases List.mem_cons.1 hx with rfl | hx
      · have := h.1; omega
      · exact ih h.2 x hx

theorem lin_lt {ds cs : List Nat} (h : InRange ds cs) : lin ds cs < prod ds := by
  induction ds generalizing cs with
  | nil => cases cs <;> simp [lin, prod, InRange] at h ⊢
  | cons d ds ih =>
    cases cs with
    | nil => simp [InRange] at h
    | cons c cs =>
      have h1 := ih h.2
      have h2 : (c + 1) * prod ds ≤ d * prod ds := Nat.mul_le_mul_right _ h.1
      simp only [lin, prod]
      rw [Nat.add_mul] at h2; omega

theorem unlin_length (ds : List Nat) (i : Nat) : (unlin ds i).length = ds.length := by
  induction ds generalizing i with
  | nil => rfl
  | cons d ds ih => simp [unlin, ih]

theorem unlin_inRange {ds : List Nat} {i : Nat} (h : i < prod ds) : InRange ds (unlin ds i) := by
  induction ds generalizing i with
  | nil => simp [unlin, InRange]
  | cons d ds ih =>
    simp only [prod] at h
    have hp : 0 < prod ds := by
      rcases Nat.eq_zero_or_pos (prod ds) with h0 | h0
      · rw [h0] at h; simp at h
      · exact h0
    exact ⟨(Nat.div_lt_iff_lt_mul hp).2 h, ih (Nat.mod_lt _ hp)⟩

theorem lin_unlin {ds : List Nat} {i : Nat} (h : i < prod ds) : lin ds (unlin ds i) = i := by
  induction ds generalizing i with
  | nil => simp [prod] at h; simp [lin, h]
  | cons d ds ih =>
    simp only [prod] at h
    have hp : 0 < prod ds := by
      rcases Nat.eq_zero_or_pos (prod ds) with h0 | h0
      · rw [h0] at h; simp at h
      · exact h0
    simp only [unlin, lin]
    rw [ih (Nat.mod_lt _ hp)]
    exact Nat.div_add_mod' i (prod ds)

theorem unlin_lin {ds cs : List Nat} (h : InRange ds cs) : unlin ds (lin ds cs) = cs := by
  induction ds generalizing cs with
  | nil => cases cs <;> simp [InRange] at h; rfl
  | cons d ds ih =>
    cases cs with
    | nil => simp [InRange] at h
    | cons c cs =>
      have h1 := lin_lt h.2
      simp only [lin, unlin]
      have hp : 0 < prod ds := by omega
      rw [Nat.mul_comm c, Nat.mul_add_div hp, Nat.div_eq_of_lt h1, Nat.mul_add_mod, Nat.mod_eq_of_lt h1, ih h.2]
      simp

theorem lin_eq_dot (ds cs : List Nat) (h : cs.length = ds.length) : lin ds cs = dotNat cs (strides ds) := by
  induction ds generalizing cs with
  | nil => cases cs <;> simp [lin, strides, dotNat]
  | cons d ds ih =>
    cases cs with
    | nil => simp at h
    | cons c cs => simp only [lin, strides, dotNat, ih cs (by simpa using h)]

theorem strides_length (ds : List Nat) : (strides ds).length = ds.length := by
  induction ds with
  | nil => rfl
  | cons d ds ih => simp [strides, ih]

theorem strides_get (ds : List Nat) (k : Nat) (h : k < (strides ds).length) :
    (strides ds)[k] = prod (ds.drop (k + 1)) := by
  induction ds generalizing k with
  | nil => simp [strides] at h
  | cons d ds ih =>
    cases k with
    | zero => simp [strides]
    | succ k => simp only [strides, List.getElem_cons_succ, List.drop_succ_cons]; exact ih k _

/-! ### Suffixes -/

theorem drop_split {α} (l : List α) (k : Nat) (h : k < l.length) : l.drop k = l[k] :: l.drop (k + 1) :=
  List.drop_eq_getElem_cons h

theorem prod_drop_step (ds : List Nat) (k : Nat) (h : k < ds.length) :
    prod (ds.drop k) = ds[k] * prod (ds.drop (k + 1)) := by rw [drop_split ds k h]; rfl

theorem lin_drop_step (ds cs : List Nat) (k : Nat) (h : k < ds.length) (h' : k < cs.length) :
    lin (ds.drop k) (cs.drop k) = cs[k] * prod (ds.drop (k + 1)) + lin (ds.drop (k + 1)) (cs.drop (k + 1)) := by
  rw [drop_split ds k h, drop_split cs k h']; rfl

theorem InRange.drop {ds cs : List Nat} (h : InRange ds cs) (k : Nat) : InRange (ds.drop k) (cs.drop k) := by
  induction k generalizing ds cs with
  | zero => simpa using h
  | succ k ih =>
    cases ds <;> cases cs <;> simp_all [InRange]

theorem ShapeOK.suffix {ds : List Nat} {sz : Nat} (h : ShapeOK ds sz) (k : Nat) :
    prod (ds.drop k) ≤ 9223372036854775807 :=
  Nat.le_trans (prod_drop_le ds k) h.prodMax_le

theorem unlin_get (ds : List Nat) (i k : Nat) (hk : k < (unlin ds i).length) (hi : i < prod ds) :
    (unlin ds i)[k] = i / prod (ds.drop (k + 1)) % ds[k]'(by simpa [unlin_length] using hk) := by
  induction ds generalizing i k with
  | nil => simp [unlin] at hk
  | cons d ds ih =>
    simp only [prod] at hi
    have hp : 0 < prod ds := by
      rcases Nat.eq_zero_or_pos (prod ds) with h0 | h0
      · rw [h0] at hi; simp at hi
      · exact h0
    cases k with
    | zero =>
      simp only [unlin, List.getElem_cons_zero, List.drop_succ_cons, List.drop_zero]
      rw [Nat.mod_eq_of_lt]
      exact (Nat.div_lt_iff_lt_mul hp).2 hi
    | succ k =>
      simp only [unlin, List.getElem_cons_succ, List.drop_succ_cons]
      rw [ih (i % prod ds) k _ (Nat.mod_lt _ hp)]
      -- prod ds = a * (d_k * b)
      have hk' : k < ds.length := by simpa [unlin, unlin_length] using hk
      have hsplit : prod ds = prod (ds.take k) * (ds[k] * prod (ds.drop (k + 1))) := by
        conv => lhs; rw [← List.take_append_drop k ds, prod_append, drop_split ds k hk']
        rfl
      have key : ∀ A B D : Nat, i % (A * (D * B)) / B % D = i / B % D := by
        intro A B D
        rw [show A * (D * B) = B * (D * A) by
          rw [Nat.mul_comm D B, Nat.mul_left_comm, Nat.mul_comm A D],
          Nat.mod_mul_right_div_self, Nat.mod_mul_right_mod]
      have := key (prod (ds.take k)) (prod (ds.drop (k + 1))) ds[k]
      rw [← hsplit] at this
      exact this

/-! ### Running the functions -/

variable {E : Env} {m : Mem} {R : Foot} {T : TV}

theorem rd_dims {ds : List Nat} {i : Nat} (h : i < ds.length) : (dimsCells ds).rd i E m = .ok (ds[i] : Int) m :=
  run_rd (dimsCells_get h) E m

/-- Read at the mirrored index. -/
theorem rd_rev {ds : List Nat} {i : Nat} (h : i < ds.length) :
    (dimsCells ds).rd ((ds.length : Int) - 1 - i) E m = .ok (ds[ds.length - 1 - i] : Int) m := by
  rw [show ((ds.length : Int) - 1 - i) = ((ds.length - 1 - i : Nat) : Int) by omega]
  exact rd_dims (by omega)

theorem tMin2maj_run (h : At m R T) : tMin2maj R.h E m = .ok (defaultMin2maj T.dims.length) m := by
  unfold tMin2maj
  rcases h.layout with ⟨h0, hl⟩ | ⟨l, h0, hl, hb⟩
  · msimp [h.derefT, hl, optPtr, if_true]
    rw [h0]; rfl
  · msimp [h.derefT, hl, optPtr, run_derefI hb]

theorem rd_m2m {n i : Nat} (h : i < n) : (defaultMin2maj n).rd i E m = .ok (((n - 1 - i : Nat) : Int)) m := by
  refine run_rd ?_ E m
  simp only [defaultMin2maj, List.getElem?_map, List.getElem?_range h, Option.map_some]
  congr 2; omega

theorem run_cAssert {b : Bool} (h : b = true) : cAssert b E m = .ok () m := by
  subst h; simp [cAssert]

theorem assertCoords_run {ds cs : List Nat} (h : InRange ds cs) :
    assertCoords (dimsCells ds) (dimsCells cs) ds.length ds.length E m = .ok () m := by
  unfold assertCoords
  have hlen := h.length
  have hcs := (inRange_iff.1 h).2
  rw [run_bind, run_cAssert (by simp), andThen_ok]
  unfold forI
  rw [Int.toNat_natCast]
  refine loopN_fn (E := E) _ (fun _ => ()) (fun _ => m) ds.length (fun i hi => ?_)
  by_cases ha : E.asserts = true
  · simp only [ha, if_true]
    have hi' : i < cs.length := by omega
    msimp [rd_dims hi', rd_dims hi, run_cAssert (decide_eq_true (show ((cs[i] : Nat) : Int) ≥ 0 by omega)),
      run_cAssert (decide_eq_true (show ((cs[i] : Nat) : Int) < ds[i] by have := hcs i hi' hi; omega))]
  · simp only [ha, if_false, Bool.false_eq_true]

theorem mul_i64 {a b : Nat} (h : a * b ≤ 9223372036854775807) (E : Env) (m : Mem) :
    i64 ((a : Int) * (b : Int)) E m = .ok (((a * b : Nat) : Int)) m := by
  rw [show ((a : Int) * (b : Int)) = ((a * b : Nat) : Int) by simp]; exact run_i64_nat h E m

theorem add_i64 {a b : Nat} (h : a + b ≤ 9223372036854775807) (E : Env) (m : Mem) :
    i64 ((a : Int) + (b : Int)) E m = .ok (((a + b : Nat) : Int)) m := by
  rw [show ((a : Int) + (b : Int)) = ((a + b : Nat) : Int) by simp]; exact run_i64_nat h E m

theorem coordsToLinidx_run (h : At m R T) {cs : List Nat} (hc : InRange T.dims cs) :
    coordsToLinidx R.h (dimsCells cs) T.dims.length E m = .ok (lin T.dims cs : Int) m := by
  unfold coordsToLinidx
  have hlen := hc.length
  msimp [h.tNdim, h.tDimsArr, assertCoords_run hc]
  have hloop := loopN_fn (E := E) (fun i (s : Int × Int) => (do
      let c ← (dimsCells cs).rd ((T.dims.length : Int) - 1 - i)
      let x ← i64 (s.1 * c)
      let l ← i64 (s.2 + x)
      let d ← (dimsCells T.dims).rd ((T.dims.length : Int) - 1 - i)
      return (← i64 (s.1 * d), l) : M (Int × Int)))
    (fun i => ((prod (T.dims.drop (T.dims.length - i)) : Int),
      (lin (T.dims.drop (T.dims.length - i)) (cs.drop (T.dims.length - i)) : Int))) (fun _ => m) T.dims.length (by
      intro i hi
      have hk : T.dims.length - 1 - i < T.dims.length := by omega
      have hk1 : T.dims.length - 1 - i + 1 = T.dims.length - i := by omega
      have hk2 : T.dims.length - (i + 1) = T.dims.length - 1 - i := by omega
      have e1 := lin_drop_step T.dims cs _ hk (by omega)
      have e2 := prod_drop_step T.dims _ hk
      rw [hk1] at e1 e2
      have hlt := lin_lt (hc.drop (T.dims.length - 1 - i))
      have hsuf := h.shape.suffix (T.dims.length - 1 - i)
      have hrc : (dimsCells cs).rd ((T.dims.length : Int) - 1 - i) E m =
          .ok (cs[T.dims.length - 1 - i] : Int) m := by
        rw [show ((T.dims.length : Int) - 1 - i) = ((T.dims.length - 1 - i : Nat) : Int) by omega]
        exact rd_dims (by omega)
      have hcm : cs[T.dims.length - 1 - i] * prod (T.dims.drop (T.dims.length - i)) ≤ 9223372036854775807 := by omega
      rw [Nat.mul_comm] at hcm
      msimp [hrc, rd_rev hi, mul_i64 hcm]
      have hadd : lin (T.dims.drop (T.dims.length - i)) (cs.drop (T.dims.length - i)) +
          prod (T.dims.drop (T.dims.length - i)) * cs[T.dims.length - 1 - i] ≤ 9223372036854775807 := by
        rw [Nat.mul_comm]; omega
      have hmul : prod (T.dims.drop (T.dims.length - i)) * T.dims[T.dims.length - 1 - i] ≤ 9223372036854775807 := by
        rw [Nat.mul_comm]; omega
      msimp [add_i64 hadd, mul_i64 hmul, hk2, e1, e2]
      rw [Nat.mul_comm T.dims[_], Nat.mul_comm cs[_], Nat.add_comm (lin _ _)])
  simp only [Nat.sub_zero, Nat.sub_self, List.drop_zero, List.drop_length] at hloop
  have h0 : cs.drop T.dims.length = [] := by rw [← hlen]; simp
  rw [h0] at hloop
  unfold forI
  rw [Int.toNat_natCast]
  exact congrArg (fun r => Res.andThen r _) hloop

theorem coordsToOffset_run (h : At m R T) {cs : List Nat} (hc : InRange T.dims cs) :
    coordsToOffset R.h (dimsCells cs) T.dims.length E m = .ok (lin T.dims cs : Int) m := by
  unfold coordsToOffset
  have hlen := hc.length
  msimp [h.tNdim, h.tDimsArr, tMin2maj_run h, assertCoords_run hc]
  have hloop := loopN_fn (E := E) (fun i (s : Int × Int × Bool) => (do
      let dim ← (defaultMin2maj T.dims.length).rd i
      let c ← (dimsCells cs).rd dim
      let d ← (dimsCells T.dims).rd dim
      if s.2.2 then return (d, c, false)
      else
        let x ← i64 (s.1 * c)
        let o ← i64 (s.2.1 + x)
        return (← i64 (s.1 * d), o, false) : M (Int × Int × Bool)))
    (fun i => ((prod (T.dims.drop (T.dims.length - i)) : Int),
      (lin (T.dims.drop (T.dims.length - i)) (cs.drop (T.dims.length - i)) : Int), decide (i = 0)))
    (fun _ => m) T.dims.length (by
      intro i hi
      have hk : T.dims.length - 1 - i < T.dims.length := by omega
      have hk' : T.dims.length - 1 - i < cs.length := by omega
      have hk1 : T.dims.length - 1 - i + 1 = T.dims.length - i := by omega
      have hk2 : T.dims.length - (i + 1) = T.dims.length - 1 - i := by omega
      have e1 := lin_drop_step T.dims cs _ hk (by omega)
      have e2 := prod_drop_step T.dims _ hk
      rw [hk1] at e1 e2
      have hlt := lin_lt (hc.drop (T.dims.length - 1 - i))
      have hsuf := h.shape.suffix (T.dims.length - 1 - i)
      have hs : decide (i + 1 = 0) = false := by simp
      msimp [rd_m2m hi, rd_dims hk, rd_dims hk', hk2, hs, e1, e2]
      by_cases hi0 : i = 0
      · subst hi0
        simp only [Nat.sub_zero, List.drop_length, decide_true, if_true]
        have h0 : cs.drop T.dims.length = [] := by rw [← hlen]; simp
        simp [h0, lin, prod]
      · have hd0 : decide (i = 0) = false := by simp [hi0]
        have hcm : prod (T.dims.drop (T.dims.length - i)) * cs[T.dims.length - 1 - i] ≤ 9223372036854775807 := by
          rw [Nat.mul_comm]; omega
        have hadd : lin (T.dims.drop (T.dims.length - i)) (cs.drop (T.dims.length - i)) +
            prod (T.dims.drop (T.dims.length - i)) * cs[T.dims.length - 1 - i] ≤ 9223372036854775807 := by
          rw [Nat.mul_comm]; omega
        have hmul : prod (T.dims.drop (T.dims.length - i)) * T.dims[T.dims.length - 1 - i] ≤ 9223372036854775807 := by
          rw [Nat.mul_comm]; omega
        msimp [hd0, mul_i64 hcm, add_i64 hadd, mul_i64 hmul]
        rw [Nat.mul_comm T.dims[_], Nat.mul_comm cs[_], Nat.add_comm (lin _ _)]
        rfl)
  simp only [Nat.sub_zero, Nat.sub_self, List.drop_zero, List.drop_length] at hloop
  have h0 : cs.drop T.dims.length = [] := by rw [← hlen]; simp
  rw [h0] at hloop
  unfold forI
  rw [Int.toNat_natCast]
  exact congrArg (fun r => Res.andThen r _) hloop

theorem cDivMod_run {a b d : Nat} (ha : a ≤ 9223372036854775807) (hb : 0 < b) (hd : 0 < d) :
    cDivMod a b d E m = .ok ((a / b % d : Nat) : Int) m := by
  unfold cDivMod
  have h1 : ¬ (b : Int) = 0 := by omega
  have h2 : ¬ (d : Int) = 0 := by omega
  have e1 : (a : Int).tdiv b = ((a / b : Nat) : Int) := by
    rw [Int.tdiv_eq_ediv_of_nonneg (by omega)]; simp
  have e2 : ((a / b : Nat) : Int).tdiv d = ((a / b / d : Nat) : Int) := by
    rw [Int.tdiv_eq_ediv_of_nonneg (Int.natCast_nonneg _)]; simp
  have e3 : ((a / b : Nat) : Int).tmod d = ((a / b % d : Nat) : Int) := by
    rw [Int.tmod_eq_emod_of_nonneg (Int.natCast_nonneg _)]; simp
  have hq : a / b ≤ 9223372036854775807 := Nat.le_trans (Nat.div_le_self _ _) ha
  have hq2 : a / b / d ≤ 9223372036854775807 := Nat.le_trans (Nat.div_le_self _ _) hq
  msimp [h1, h2, e1, e2, e3, run_i64_nat hq, run_i64_nat hq2]

/-- Filling an array from the end. -/
theorem set_suffix {α} (l : List α) (buf : List α) (k : Nat) (h : k < l.length) (hb : buf.length = l.length) :
    (buf.take (k + 1) ++ l.drop (k + 1)).set k l[k] = buf.take k ++ l.drop k := by
  rw [drop_split l k h]
  apply List.ext_getElem
  · simp; omega
  · intro i h1 h2
    simp only [List.getElem_set, List.getElem_append, List.length_take, List.getElem_take, List.getElem_drop,
      List.getElem_cons]
    by_cases hik : k = i
    · subst hik
      rw [if_pos rfl, dif_neg (by omega), dif_pos (by omega)]
    · rw [if_neg hik]
      split
      · split
        · rfl
        · omega
      · split
        · omega
        · split
          · omega
          · congr 1; omega

theorem linidxToCoords_run (h : At m R T) (hp : ∀ d ∈ T.dims, 0 < d) {i : Nat} (hi : i < prod T.dims)
    {buf : Arr} (hb : buf.length = T.dims.length) :
    linidxToCoords R.h i buf E m = .ok (dimsCells (unlin T.dims i)) m := by
  unfold linidxToCoords
  msimp [h.tSize, h.tNdim, h.tDimsArr, run_cAssert (decide_eq_true (show (i : Int) ≥ 0 by omega)),
    run_cAssert (decide_eq_true (show (i : Int) < (prod T.dims : Int) by omega))]
  have hlu : (dimsCells (unlin T.dims i)).length = T.dims.length := by simp [dimsCells, unlin_length]
  have hloop := loopN_fn (E := E) (fun j (s : Int × Arr) => (do
      let d ← (dimsCells T.dims).rd ((T.dims.length : Int) - 1 - j)
      let c ← cDivMod i s.1 d
      let a ← s.2.wr ((T.dims.length : Int) - 1 - j) c
      return (← i64 (s.1 * d), a) : M (Int × Arr)))
    (fun j => ((prod (T.dims.drop (T.dims.length - j)) : Int),
      buf.take (T.dims.length - j) ++ (dimsCells (unlin T.dims i)).drop (T.dims.length - j)))
    (fun _ => m) T.dims.length (by
      intro j hj
      have hk : T.dims.length - 1 - j < T.dims.length := by omega
      have hk1 : T.dims.length - 1 - j + 1 = T.dims.length - j := by omega
      have hk2 : T.dims.length - (j + 1) = T.dims.length - 1 - j := by omega
      have e2 := prod_drop_step T.dims _ hk
      rw [hk1] at e2
      have hsuf := h.shape.suffix (T.dims.length - 1 - j)
      have hpos : 0 < prod (T.dims.drop (T.dims.length - j)) :=
        prod_pos fun d hd => hp d (List.mem_of_mem_drop hd)
      have hdp : 0 < T.dims[T.dims.length - 1 - j] := hp _ (List.getElem_mem hk)
      have hil : i ≤ 9223372036854775807 := by have := h.shape.prod_le; omega
      have hmul : prod (T.dims.drop (T.dims.length - j)) * T.dims[T.dims.length - 1 - j] ≤ 9223372036854775807 := by
        rw [Nat.mul_comm]; omega
      have hcast : ((T.dims.length : Int) - 1 - j) = ((T.dims.length - 1 - j : Nat) : Int) := by omega
      have hwr : ∀ v, Arr.wr (buf.take (T.dims.length - j) ++ (dimsCells (unlin T.dims i)).drop (T.dims.length - j))
          ((T.dims.length - 1 - j : Nat) : Int) v E m = _ := fun v => run_wr (by
            simp only [List.length_append, List.length_take, List.length_drop, hb, hlu]; omega) v E m
      msimp [rd_dims hk, cDivMod_run hil hpos hdp, mul_i64 hmul, hk2, e2, hcast, hwr]
      have hset := set_suffix (dimsCells (unlin T.dims i)) buf (T.dims.length - 1 - j) (by omega) (by omega)
      rw [hk1] at hset
      have hval : (dimsCells (unlin T.dims i))[T.dims.length - 1 - j]'(by omega) =
          some (((i / prod (T.dims.drop (T.dims.length - j)) % T.dims[T.dims.length - 1 - j] : Nat)) : Int) := by
        simp only [dimsCells, List.getElem_map]
        rw [unlin_get _ _ _ _ hi]
        simp only [hk1]
      rw [hval] at hset
      rw [hset, Nat.mul_comm T.dims[_]])
  simp only [Nat.sub_zero, Nat.sub_self, List.drop_zero, List.drop_length, List.take_zero, List.nil_append] at hloop
  have h0 : (dimsCells (unlin T.dims i)).drop T.dims.length = [] := by rw [← hlu]; simp
  have h1 : buf.take T.dims.length = buf := by rw [← hb]; simp
  rw [h0, h1, List.append_nil] at hloop
  unfold forI
  rw [Int.toNat_natCast]
  exact congrArg (fun r => Res.andThen r _) hloop

theorem offsetToCoords_run (h : At m R T) (hp : ∀ d ∈ T.dims, 0 < d) {i : Nat} (hi : i < prod T.dims)
    {buf : Arr} (hb : buf.length = T.dims.length) :
    offsetToCoords R.h i buf E m = .ok (dimsCells (unlin T.dims i)) m := by
  unfold offsetToCoords
  msimp [h.tSize, h.tNdim, h.tDimsArr, tMin2maj_run h,
    run_cAssert (decide_eq_true (show (i : Int) ≥ 0 by omega)),
    run_cAssert (decide_eq_true (show (i : Int) < (prod T.dims : Int) by omega))]
  have hlu : (dimsCells (unlin T.dims i)).length = T.dims.length := by simp [dimsCells, unlin_length]
  have hloop := loopN_fn (E := E) (fun j (s : Int × Arr) => (do
      let dim ← (defaultMin2maj T.dims.length).rd j
      let d ← (dimsCells T.dims).rd dim
      let c ← cDivMod i s.1 d
      let a ← s.2.wr dim c
      return (← i64 (s.1 * d), a) : M (Int × Arr)))
    (fun j => ((prod (T.dims.drop (T.dims.length - j)) : Int),
      buf.take (T.dims.length - j) ++ (dimsCells (unlin T.dims i)).drop (T.dims.length - j)))
    (fun _ => m) T.dims.length (by
      intro j hj
      have hk : T.dims.length - 1 - j < T.dims.length := by omega
      have hk1 : T.dims.length - 1 - j + 1 = T.dims.length - j := by omega
      have hk2 : T.dims.length - (j + 1) = T.dims.length - 1 - j := by omega
      have e2 := prod_drop_step T.dims _ hk
      rw [hk1] at e2
      have hsuf := h.shape.suffix (T.dims.length - 1 - j)
      have hpos : 0 < prod (T.dims.drop (T.dims.length - j)) :=
        prod_pos fun d hd => hp d (List.mem_of_mem_drop hd)
      have hdp : 0 < T.dims[T.dims.length - 1 - j] := hp _ (List.getElem_mem hk)
      have hil : i ≤ 9223372036854775807 := by have := h.shape.prod_le; omega
      have hmul : prod (T.dims.drop (T.dims.length - j)) * T.dims[T.dims.length - 1 - j] ≤ 9223372036854775807 := by
        rw [Nat.mul_comm]; omega
      have hwr : ∀ v, Arr.wr (buf.take (T.dims.length - j) ++ (dimsCells (unlin T.dims i)).drop (T.dims.length - j))
          ((T.dims.length - 1 - j : Nat) : Int) v E m = _ := fun v => run_wr (by
            simp only [List.length_append, List.length_take, List.length_drop, hb, hlu]; omega) v E m
      msimp [rd_m2m hj, rd_dims hk, cDivMod_run hil hpos hdp, mul_i64 hmul, hk2, e2, hwr]
      have hset := set_suffix (dimsCells (unlin T.dims i)) buf (T.dims.length - 1 - j) (by omega) (by omega)
      rw [hk1] at hset
      have hval : (dimsCells (unlin T.dims i))[T.dims.length - 1 - j]'(by omega) =
          some (((i / prod (T.dims.drop (T.dims.length - j)) % T.dims[T.dims.length - 1 - j] : Nat)) : Int) := by
        simp only [dimsCells, List.getElem_map]
        rw [unlin_get _ _ _ _ hi]
        simp only [hk1]
      rw [hval] at hset
      rw [hset, Nat.mul_comm T.dims[_]])
  simp only [Nat.sub_zero, Nat.sub_self, List.drop_zero, List.drop_length, List.take_zero, List.nil_append] at hloop
  have h0 : (dimsCells (unlin T.dims i)).drop T.dims.length = [] := by rw [← hlu]; simp
  have h1 : buf.take T.dims.length = buf := by rw [← hb]; simp
  rw [h0, h1, List.append_nil] at hloop
  unfold forI
  rw [Int.toNat_natCast]
  exact congrArg (fun r => Res.andThen r _) hloop

theorem getAllStrides_run (h : At m R T) {buf : Arr} (hb : buf.length = T.dims.length) :
    getAllStrides R.h buf E m = .ok (dimsCells (strides T.dims)) m := by
  unfold getAllStrides
  msimp [h.tNdim, h.tDimsArr, tMin2maj_run h]
  have hlu : (dimsCells (strides T.dims)).length = T.dims.length := by simp [dimsCells, strides_length]
  have hloop := loopN_fn (E := E) (fun j (s : Arr × Int) => (do
      let dim ← (defaultMin2maj T.dims.length).rd j
      let a ← s.1.wr dim s.2
      let d ← (dimsCells T.dims).rd dim
      return (a, ← i64 (s.2 * d)) : M (Arr × Int)))
    (fun j => (buf.take (T.dims.length - j) ++ (dimsCells (strides T.dims)).drop (T.dims.length - j),
      (prod (T.dims.drop (T.dims.length - j)) : Int)))
    (fun _ => m) T.dims.length (by
      intro j hj
      have hk : T.dims.length - 1 - j < T.dims.length := by omega
      have hk1 : T.dims.length - 1 - j + 1 = T.dims.length - j := by omega
      have hk2 : T.dims.length - (j + 1) = T.dims.length - 1 - j := by omega
      have e2 := prod_drop_step T.dims _ hk
      rw [hk1] at e2
      have hsuf := h.shape.suffix (T.dims.length - 1 - j)
      have hmul : prod (T.dims.drop (T.dims.length - j)) * T.dims[T.dims.length - 1 - j] ≤ 9223372036854775807 := by
        rw [Nat.mul_comm]; omega
      have hwr : ∀ v, Arr.wr (buf.take (T.dims.length - j) ++ (dimsCells (strides T.dims)).drop (T.dims.length - j))
          ((T.dims.length - 1 - j : Nat) : Int) v E m = _ := fun v => run_wr (by
            simp only [List.length_append, List.length_take, List.length_drop, hb, hlu]; omega) v E m
      msimp [rd_m2m hj, rd_dims hk, mul_i64 hmul, hk2, e2, hwr]
      have hset := set_suffix (dimsCells (strides T.dims)) buf (T.dims.length - 1 - j) (by omega) (by omega)
      rw [hk1] at hset
      have hval : (dimsCells (strides T.dims))[T.dims.length - 1 - j]'(by omega) =
          some ((prod (T.dims.drop (T.dims.length - j)) : Nat) : Int) := by
        simp only [dimsCells, List.getElem_map]
        rw [strides_get]
        simp only [hk1]
      rw [hval] at hset
      rw [hset, Nat.mul_comm T.dims[_]])
  simp only [Nat.sub_zero, Nat.sub_self, List.drop_zero, List.drop_length, List.take_zero, List.nil_append] at hloop
  have h0 : (dimsCells (strides T.dims)).drop T.dims.length = [] := by rw [← hlu]; simp
  have h1 : buf.take T.dims.length = buf := by rw [← hb]; simp
  rw [h0, h1, List.append_nil] at hloop
  have h32 : ((T.dims.length : Int) ≤ I32_MAX) := by have := h.shape.rank; unfold I32_MAX; omega
  unfold forI32
  rw [if_pos h32, Int.toNat_natCast]
  exact congrArg (fun r => Res.andThen r _) hloop

theorem getStride_run (h : At m R T) {d : Nat} (hd : d < T.dims.length) :
    getStride R.h d E m = .ok (prod (T.dims.drop (d + 1)) : Int) m := by
  unfold getStride
  msimp [h.tNdim, h.tDimsArr, tMin2maj_run h]
  obtain ⟨r, m', e, hr, hm⟩ := loopE_ret (E := E) (ρ := Int) (fun i (stride : Int) => (do
      let dim ← (defaultMin2maj T.dims.length).rd i
      if dim = (d : Int) then return .inr stride
      let d ← (dimsCells T.dims).rd dim
      return .inl (← i64 (stride * d)) : M (Int ⊕ Int)))
    (fun i s m' => s = (prod (T.dims.drop (T.dims.length - i)) : Int) ∧ m' = m)
    T.dims.length (T.dims.length - 1 - d)
    (fun r m' => r = (prod (T.dims.drop (d + 1)) : Int) ∧ m' = m) (by omega) (by
      rintro i s m' hi ⟨rfl, rfl⟩
      have hk : T.dims.length - 1 - i < T.dims.length := by omega
      have hk1 : T.dims.length - 1 - i + 1 = T.dims.length - i := by omega
      have hk2 : T.dims.length - (i + 1) = T.dims.length - 1 - i := by omega
      have e2 := prod_drop_step T.dims _ hk
      rw [hk1] at e2
      have hsuf := h.shape.suffix (T.dims.length - 1 - i)
      have hmul : prod (T.dims.drop (T.dims.length - i)) * T.dims[T.dims.length - 1 - i] ≤ 9223372036854775807 := by
        rw [Nat.mul_comm]; omega
      have hne : ¬ (((T.dims.length - 1 - i : Nat) : Int) = (d : Int)) := by omega
      refine ⟨((prod (T.dims.drop (T.dims.length - i)) * T.dims[T.dims.length - 1 - i] : Nat) : Int), m', ?_, ?_, rfl⟩
      · msimp [rd_m2m (show i < T.dims.length by omega), hne, rd_dims hk, mul_i64 hmul]
      · rw [hk2, e2, Nat.mul_comm]) (by
      rintro s m' ⟨rfl, rfl⟩
      refine ⟨(prod (T.dims.drop (T.dims.length - (T.dims.length - 1 - d))) : Int), m', ?_, ?_, rfl⟩
      · have heq : (((T.dims.length - 1 - (T.dims.length - 1 - d) : Nat) : Int) = (d : Int)) := by omega
        msimp [rd_m2m (show T.dims.length - 1 - d < T.dims.length by omega), heq]
      · congr 3; omega)
    (s := 1) (m := m) ⟨by simp [prod], rfl⟩
  subst hm hr
  rw [Int.toNat_natCast]
  msimp [e]

end Aitisa
