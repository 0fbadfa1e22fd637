import Verif.Spec.Arith
import Verif.Proof.Unary

set_option linter.unusedSimpArgs false

/-! # The arithmetic of the model meets the relational specification -/

namespace Aitisa

theorem intRange_eq (c : Code) (h : c.isInt = true) : intRange c = some (c.lo, c.hi) := by
  cases c <;> first | rfl | (simp [Code.isInt] at h)

theorem pow_size (c : Code) (h : c.isInt = true) : (2 : Int) ^ (8 * c.size) = c.hi - c.lo + 1 := by
  cases c <;> first | rfl | (simp [Code.isInt] at h)

theorem WT_range {c : Code} {n : Int} : (Val.int n).WT c ↔
    ∃ lo hi, intRange c = some (lo, hi) ∧ lo ≤ n ∧ n ≤ hi := by
  cases c
  case f32 => simp [Val.WT, intRange]
  case f64 => simp [Val.WT, intRange]
  all_goals
    rw [intRange_eq _ rfl]
    constructor
    · intro h; exact ⟨_, _, rfl, h.1, h.2⟩
    · rintro ⟨lo, hi, h, h1, h2⟩
      simp only [Option.some.injEq, Prod.mk.injEq] at h
      obtain ⟨rfl, rfl⟩ := h
      exact ⟨h1, h2⟩

theorem reduces_iff {c : Code} (h : c.isInt = true) {n r : Int} : ReducesTo c n r ↔ c.wrap n = r := by
  constructor
  · rintro ⟨lo, hi, hr, h1, h2, k, rfl⟩
    rw [intRange_eq c h] at hr
    simp only [Option.some.injEq, Prod.mk.injEq] at hr
    obtain ⟨rfl, rfl⟩ := hr
    rw [← wrap_id (c := c) (n := r) ⟨h1, h2⟩]
    conv => rhs; rw [wrap_id ⟨h1, h2⟩]
    rw [← pow_size c h]
    conv => rhs; rw [← wrap_id (c := c) (n := r) ⟨h1, h2⟩]
    apply wrap_congr
    rw [wrap_id ⟨h1, h2⟩, Int.mul_comm, Int.add_mul_emod_self_left]
  · rintro rfl
    refine ⟨c.lo, c.hi, intRange_eq c h, (wrap_in c n).1, (wrap_in c n).2, ?_⟩
    refine ⟨(n - c.lo) / 2 ^ (8 * c.size), ?_⟩
    rw [← pow_size c h]
    unfold Code.wrap
    have := Int.emod_add_mul_ediv (n - c.lo) (2 ^ (8 * c.size))
    rw [Int.mul_comm ((n - c.lo) / 2 ^ (8 * c.size))]
    omega

theorem converts_iff {fp : FloatOps} {c : Code} {v w : Val} : Converts fp c v w ↔ cCast fp c v = .ok w := by
  cases c
  case f32 => simp only [Converts, cCast, Except.ok.injEq]; exact eq_comm
  case f64 => simp only [Converts, cCast, Except.ok.injEq]; exact eq_comm
  all_goals
    simp only [Converts, cCast]
    rw [intRange_eq _ rfl]
    cases v with
    | int n =>
      simp only [reduces_iff (c := .i8) rfl, reduces_iff (c := .u8) rfl, reduces_iff (c := .i16) rfl, reduces_iff (c := .u16) rfl, reduces_iff (c := .i32) rfl, reduces_iff (c := .u32) rfl, reduces_iff (c := .i64) rfl, reduces_iff (c := .u64) rfl, Except.ok.injEq]
      constructor
      · rintro ⟨r, rfl, rfl⟩; rfl
      · rintro rfl; exact ⟨_, rfl, rfl⟩
    | f32 b =>
      simp only [Option.some.injEq, Prod.mk.injEq]
      constructor
      · rintro ⟨r, rfl, hr, lo, hi, ⟨rfl, rfl⟩, h1, h2⟩
        rw [hr]
        simp only
        rw [if_pos ⟨h1, h2⟩]
      · intro h
        split at h
        · split at h
          · cases h; rename_i hr hb; exact ⟨_, rfl, hr, _, _, ⟨rfl, rfl⟩, hb.1, hb.2⟩
          · cases h
        · cases h
    | f64 b =>
      simp only [Option.some.injEq, Prod.mk.injEq]
      constructor
      · rintro ⟨r, rfl, hr, lo, hi, ⟨rfl, rfl⟩, h1, h2⟩
        rw [hr]
        simp only
        rw [if_pos ⟨h1, h2⟩]
      · intro h
        split at h
        · split at h
          · cases h; rename_i hr hb; exact ⟨_, rfl, hr, _, _, ⟨rfl, rfl⟩, hb.1, hb.2⟩
          · cases h
        · cases h

/-! ### Lists -/

theorem mapM_of_pointwise {α β : Type} {f : α → Except UB β} {xs : List α} {ys : List β}
    (h : Pointwise (fun x y => f x = .ok y) xs ys) : xs.mapM f = .ok ys := by
  obtain ⟨hl, h⟩ := h
  induction xs generalizing ys with
  | nil => cases ys with
    | nil => rfl
    | cons => simp at hl
  | cons x xs ih => cases ys with
    | nil => simp at hl
    | cons y ys =>
      rw [List.mapM_cons, show f x = .ok y from h 0 (by simp) (by simp),
        ih (ys := ys) (by simpa using hl) (fun i h1 h2 => h (i + 1) (by simpa using h1) (by simpa using h2))]
      rfl

theorem pointwise_of_mapM {α β : Type} {f : α → Except UB β} {xs : List α} {ys : List β}
    (h : xs.mapM f = .ok ys) : Pointwise (fun x y => f x = .ok y) xs ys :=
  ⟨(mapM_ok h).1.symm, (mapM_ok h).2⟩

theorem exists_mapM {α β : Type} {f : α → Except UB β} {xs : List α} (h : ∀ x ∈ xs, ∃ y, f x = .ok y) :
    ∃ ys, xs.mapM f = .ok ys := by
  induction xs with
  | nil => exact ⟨[], rfl⟩
  | cons x xs ih =>
    obtain ⟨y, hy⟩ := h x (by simp)
    obtain ⟨ys, hys⟩ := ih (fun z hz => h z (by simp [hz]))
    exact ⟨y :: ys, by rw [List.mapM_cons, hy, hys]; rfl⟩

theorem Pointwise.imp {α β : Type} {r s : α → β → Prop} {xs : List α} {ys : List β}
    (h : Pointwise r xs ys) (hi : ∀ x ∈ xs, ∀ y, r x y → s x y) : Pointwise s xs ys :=
  ⟨h.1, fun i h1 h2 => hi _ (List.getElem_mem h1) _ (h.2 i h1 h2)⟩

theorem Pointwise.mem {α β : Type} {r : α → β → Prop} {xs : List α} {ys : List β}
    (h : Pointwise r xs ys) {y : β} (hy : y ∈ ys) : ∃ x ∈ xs, r x y := by
  obtain ⟨i, hi, rfl⟩ := List.mem_iff_getElem.mp hy
  exact ⟨_, List.getElem_mem (by rw [h.1]; exact hi), h.2 i (by rw [h.1]; exact hi) hi⟩

/-! ### Binary operators -/

theorem cquot_iff {a b q : Int} : CQuot a b q ↔ b ≠ 0 ∧ a.tdiv b = q := by
  constructor
  · rintro ⟨hb, r, h, hr, h1, h2⟩
    refine ⟨hb, ?_⟩
    have e := Int.mul_tdiv_add_tmod a b
    have hmlt : (a.tmod b).natAbs < b.natAbs := by
      rw [Int.natAbs_tmod]; exact Nat.mod_lt _ (by omega)
    -- both remainders have the sign of `a`
    have hdiff : b * (a.tdiv b - q) = r - a.tmod b := by rw [Int.mul_sub]; omega
    have hs : (r - a.tmod b).natAbs < b.natAbs := by
      rcases Int.le_total 0 a with ha | ha
      · have := Int.tmod_nonneg b ha
        have := h1 ha
        omega
      · have hneg : a.tmod b ≤ 0 := by
          have := Int.tmod_nonneg b (a := -a) (by omega)
          rw [Int.neg_tmod] at this; omega
        have := h2 ha
        omega
    have : a.tdiv b - q = 0 := by
      apply Classical.byContradiction
      intro hn
      have hge : b.natAbs ≤ (b * (a.tdiv b - q)).natAbs := by
        rw [Int.natAbs_mul]
        exact Nat.le_mul_of_pos_right _ (by omega)
      rw [hdiff] at hge; omega
    omega
  · rintro ⟨hb, rfl⟩
    refine ⟨hb, a.tmod b, (Int.mul_tdiv_add_tmod a b).symm, ?_, fun ha => Int.tmod_nonneg b ha, ?_⟩
    · rw [Int.natAbs_tmod]; exact Nat.mod_lt _ (by omega)
    · intro ha
      have := Int.tmod_nonneg b (a := -a) (by omega)
      rw [Int.neg_tmod] at this; omega

theorem exact_iff {op : BinOp} {a b e : Int} : ExactOp op a b e ↔ op.exact a b = some e := by
  cases op <;> simp only [ExactOp, BinOp.exact, Option.some.injEq]
  case div =>
    rw [cquot_iff]
    by_cases hb : b = 0
    · simp [hb]
    · simp [hb]
  all_goals exact eq_comm

theorem tdiv_bound (a b : Int) : (a.tdiv b).natAbs ≤ a.natAbs := by
  rw [Int.natAbs_tdiv]; exact Nat.div_le_self _ _

/-- Small types never overflow `int`, except products of `uint16_t`. -/
theorem exact_small {c : Code} (hc : c = .i8 ∨ c = .u8 ∨ c = .i16 ∨ c = .u16) {op : BinOp} {a b e : Int}
    (ha : (Val.int a).WT c) (hb : (Val.int b).WT c) (h : op.exact a b = some e) :
    -2147483648 ≤ e ∧ ((c = .u16 → e ≤ 2147483647) → e ≤ 2147483647) := by
  have hmul : ∀ B : Nat, a.natAbs ≤ B → b.natAbs ≤ B → (a * b).natAbs ≤ B * B := by
    intro B h1 h2; rw [Int.natAbs_mul]; exact Nat.mul_le_mul h1 h2
  have hdiv := tdiv_bound a b
  rcases hc with rfl | rfl | rfl | rfl <;>
    simp only [Val.WT, Code.lo, Code.hi, Code.signed, Code.size, reduceIte, Bool.false_eq_true] at ha hb <;>
    cases op <;> simp only [BinOp.exact, Option.some.injEq] at h
  all_goals try (subst h; have := hmul 256 (by omega) (by omega); exact ⟨by omega, fun _ => by omega⟩)
  all_goals try (subst h; have := hmul 32768 (by omega) (by omega); exact ⟨by omega, fun _ => by omega⟩)
  all_goals try (subst h; have := Int.mul_nonneg (a := a) (b := b) (by omega) (by omega); exact ⟨by omega, fun h => h rfl⟩)
  all_goals try (subst h; exact ⟨by omega, fun _ => by omega⟩)
  all_goals (split at h <;> simp only [Option.some.injEq, reduceCtorEq] at h; subst h; exact ⟨by omega, fun _ => by omega⟩)

theorem opResult_iff {fp : FloatOps} {c : Code} {op : BinOp} {x y z : Val} (hx : x.WT c) (hy : y.WT c) :
    OpResult fp c op x y z ↔ cBin fp c op x y = .ok z := by
  cases x with
  | f32 a => cases y with
    | f32 b => simp only [OpResult, cBin, Except.ok.injEq]; exact eq_comm
    | f64 b => cases c <;> simp [Val.WT] at hx hy
    | int b => cases c <;> simp [Val.WT] at hx hy
  | f64 a => cases y with
    | f64 b => simp only [OpResult, cBin, Except.ok.injEq]; exact eq_comm
    | f32 b => cases c <;> simp [Val.WT] at hx hy
    | int b => cases c <;> simp [Val.WT] at hx hy
  | int a => cases y with
    | f32 b => cases c <;> simp [Val.WT] at hx hy
    | f64 b => cases c <;> simp [Val.WT] at hx hy
    | int b =>
      simp only [OpResult, cBin, evalInt]
      cases hex : op.exact a b with
      | none =>
        simp only [Except.map]
        constructor
        · rintro ⟨e, r, _, he, _⟩; rw [exact_iff, hex] at he; cases he
        · intro h; cases h
      | some e =>
        have hone : ∀ P : Int → Prop, (∃ e', ExactOp op a b e' ∧ P e') ↔ P e := by
          intro P
          constructor
          · rintro ⟨e', he, hp⟩
            rw [exact_iff, hex] at he
            cases he; exact hp
          · intro hp; exact ⟨e, exact_iff.2 hex, hp⟩
        have hsm := fun hc => exact_small (c := c) hc hx hy hex
        cases c
        case f32 => simp [Val.WT] at hx
        case f64 => simp [Val.WT] at hx
        all_goals
          constructor
          · rintro ⟨e', r, rfl, he, hr⟩
            rw [exact_iff, hex] at he
            cases he
            simp only [reduces_iff (c := .i8) rfl, reduces_iff (c := .u8) rfl, reduces_iff (c := .i16) rfl, reduces_iff (c := .u16) rfl, reduces_iff (c := .i32) rfl, reduces_iff (c := .u32) rfl, reduces_iff (c := .i64) rfl, reduces_iff (c := .u64) rfl, intRange, Option.some.injEq, Prod.mk.injEq] at hr
            simp only [Code.promote, Code.size, Code.signed, Code.lo, Code.hi, reduceIte,
              Nat.lt_irrefl, show ((1:Nat) < 4) = True by simp, show ((2:Nat) < 4) = True by simp,
              show ((8:Nat) < 4) = False by simp, Bool.false_eq_true]
            first
            | (obtain ⟨rfl, lo, hi, ⟨rfl, rfl⟩, h1, h2⟩ := hr
               rw [if_pos (by constructor <;> omega)]
               simp only [Except.map]; rw [wrap_id]; simp only [Code.lo, Code.hi, Code.signed, Code.size, reduceIte]; omega)
            | (have hlt : e ≤ 2147483647 := hr.1
               have hr2 := hr.2
               subst hr2
               have := hsm (by simp)
               rw [if_pos (by constructor <;> omega)]; rfl)
            | (subst hr
               have := (hsm (by simp)).1
               have := (hsm (by simp)).2 (by simp)
               rw [if_pos (by constructor <;> omega)]; rfl)
            | (subst hr
               simp only [Except.map]
               congr 2
               exact wrap_id (wrap_in _ _))
          · intro h
            simp only [Code.promote, Code.size, Code.signed, Code.lo, Code.hi, reduceIte,
              Nat.lt_irrefl, show ((1:Nat) < 4) = True by simp, show ((2:Nat) < 4) = True by simp,
              show ((8:Nat) < 4) = False by simp, Bool.false_eq_true] at h
            refine ⟨e, ?_⟩
            simp only [reduces_iff (c := .i8) rfl, reduces_iff (c := .u8) rfl, reduces_iff (c := .i16) rfl, reduces_iff (c := .u16) rfl, reduces_iff (c := .i32) rfl, reduces_iff (c := .u32) rfl, reduces_iff (c := .i64) rfl, reduces_iff (c := .u64) rfl, intRange, Option.some.injEq, Prod.mk.injEq]
            first
            | (split at h
               · rename_i hb
                 simp only [Except.map, Except.ok.injEq] at h
                 subst h
                 first
                 | exact ⟨_, rfl, exact_iff.2 hex, by rw [wrap_id]; simp only [Code.lo, Code.hi, Code.signed, Code.size, reduceIte]; omega,
                    _, _, ⟨rfl, rfl⟩, (wrap_in _ _).1, (wrap_in _ _).2⟩
                 | exact ⟨_, rfl, exact_iff.2 hex, by omega, rfl⟩
                 | exact ⟨_, rfl, exact_iff.2 hex, rfl⟩
               · cases h)
            | (simp only [Except.map, Except.ok.injEq] at h
               subst h
               exact ⟨_, rfl, exact_iff.2 hex, (wrap_id (wrap_in _ _)).symm⟩)

end Aitisa
