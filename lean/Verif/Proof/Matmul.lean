import Verif.Model.Matmul
import Verif.Spec.Matmul
import Verif.Proof.SoftmaxTop
import Verif.Proof.Binary

/-! # Matrix products: element steps and kernels -/

namespace Aitisa

variable {E : Env} {m : Mem} {R1 R2 : Foot} {T1 T2 : TV} {c : Code} {xs ys : List Val} {q P : Nat}

/-! ### The element step -/

theorem wrap_wrap_add {c : Code} (h : c.lo = 0) (a b : Int) : c.wrap (c.wrap (a + c.wrap b)) = c.wrap (a + b) := by
  unfold Code.wrap
  simp only [h, Int.sub_zero, Int.add_zero, Int.emod_emod_of_dvd _ (Int.dvd_refl _), Int.add_emod_emod]

theorem evalInt_signed {p : Code} (hp : p.signed = true) {op : BinOp} {a b e : Int} (h : op.exact a b = some e) :
    evalInt p op a b = if p.lo ≤ e ∧ e ≤ p.hi then .ok e else .error .overflow := by
  unfold evalInt; rw [h]; simp only [hp, if_true]

theorem evalInt_unsigned {p : Code} (hp : p.signed = false) {op : BinOp} {a b e : Int} (h : op.exact a b = some e) :
    evalInt p op a b = .ok (p.wrap e) := by
  unfold evalInt; rw [h]; simp only [hp, Bool.false_eq_true, if_false]

/-- The element step on integers. -/
theorem cMac_int (fp : FloatOps) (c : Code) (a b d : Int) : cMac fp c (.int a) (.int b) (.int d) =
    if c.promote.signed then
      (if c.promote.lo ≤ b * d ∧ b * d ≤ c.promote.hi then
        (if c.promote.lo ≤ a + b * d ∧ a + b * d ≤ c.promote.hi then .ok (.int (c.wrap (a + b * d))) else .error .overflow)
      else .error .overflow)
    else .ok (.int (c.wrap (c.promote.wrap (a + c.promote.wrap (b * d))))) := by
  simp only [cMac]
  cases hp : c.promote.signed
  · rw [evalInt_unsigned hp (rfl : BinOp.mul.exact b d = _)]
    simp only [evalInt_unsigned hp (rfl : BinOp.add.exact a _ = _), Except.map, Bool.false_eq_true, if_false]
  · rw [evalInt_signed hp (rfl : BinOp.mul.exact b d = _), if_pos rfl]
    by_cases h1 : c.promote.lo ≤ b * d ∧ b * d ≤ c.promote.hi
    · simp only [if_pos h1]
      rw [evalInt_signed hp (rfl : BinOp.add.exact a _ = _)]
      by_cases h2 : c.promote.lo ≤ a + b * d ∧ a + b * d ≤ c.promote.hi
      · simp only [if_pos h2, Except.map]
      · simp only [if_neg h2, Except.map]
    · simp only [if_neg h1]

theorem macResult_iff {fp : FloatOps} {z x y w : Val} (hz : z.WT c) (hx : x.WT c) (hy : y.WT c) :
    MacResult fp c z x y w ↔ cMac fp c z x y = .ok w := by
  cases z with
  | f32 a =>
    cases x <;> cases y <;> first
      | (simp only [MacResult, cMac, Except.ok.injEq]; exact eq_comm)
      | (cases c <;> simp [Val.WT] at hz hx hy)
  | f64 a =>
    cases x <;> cases y <;> first
      | (simp only [MacResult, cMac, Except.ok.injEq]; exact eq_comm)
      | (cases c <;> simp [Val.WT] at hz hx hy)
  | int a =>
    cases x with
    | f32 b => cases c <;> simp [Val.WT] at hz hx
    | f64 b => cases c <;> simp [Val.WT] at hz hx
    | int b =>
    cases y with
    | f32 d => cases c <;> simp [Val.WT] at hz hy
    | f64 d => cases c <;> simp [Val.WT] at hz hy
    | int d =>
    rw [cMac_int]
    have hsm := fun hc => exact_small (c := c) (op := .mul) hc hx hy rfl
    simp only [MacResult]
    cases c
    case f32 => simp [Val.WT] at hz
    case f64 => simp [Val.WT] at hz
    case u32 =>
      simp only [reduces_iff (c := .u32) rfl, show Code.promote .u32 = .u32 from rfl, show Code.signed .u32 = false from rfl,
        Bool.false_eq_true, if_false, Except.ok.injEq, wrap_wrap_add (c := .u32) rfl]
      exact ⟨fun ⟨r, e, h⟩ => by rw [e, h], fun h => ⟨_, h.symm, rfl⟩⟩
    case u64 =>
      simp only [reduces_iff (c := .u64) rfl, show Code.promote .u64 = .u64 from rfl, show Code.signed .u64 = false from rfl,
        Bool.false_eq_true, if_false, Except.ok.injEq, wrap_wrap_add (c := .u64) rfl]
      exact ⟨fun ⟨r, e, h⟩ => by rw [e, h], fun h => ⟨_, h.symm, rfl⟩⟩
    case i32 =>
      simp only [show Code.promote .i32 = .i32 from rfl, show Code.signed .i32 = true from rfl, if_true, intRange,
        show Code.lo .i32 = -2147483648 from rfl, show Code.hi .i32 = 2147483647 from rfl, Option.some.injEq, Prod.mk.injEq]
      constructor
      · rintro ⟨r, rfl, rfl, lo, hi, ⟨rfl, rfl⟩, h1, h2, h3, h4⟩
        rw [if_pos ⟨h1, h2⟩, if_pos ⟨h3, h4⟩, wrap_id (c := .i32) ⟨h3, h4⟩]
      · intro h
        split at h
        · rename_i h1
          split at h
          · rename_i h2
            rw [wrap_id (c := .i32) h2] at h
            cases h
            exact ⟨_, rfl, rfl, _, _, ⟨rfl, rfl⟩, h1.1, h1.2, h2.1, h2.2⟩
          · cases h
        · cases h
    case i64 =>
      simp only [show Code.promote .i64 = .i64 from rfl, show Code.signed .i64 = true from rfl, if_true, intRange,
        show Code.lo .i64 = -9223372036854775808 from rfl, show Code.hi .i64 = 9223372036854775807 from rfl, Option.some.injEq,
        Prod.mk.injEq]
      constructor
      · rintro ⟨r, rfl, rfl, lo, hi, ⟨rfl, rfl⟩, h1, h2, h3, h4⟩
        rw [if_pos ⟨h1, h2⟩, if_pos ⟨h3, h4⟩, wrap_id (c := .i64) ⟨h3, h4⟩]
      · intro h
        split at h
        · rename_i h1
          split at h
          · rename_i h2
            rw [wrap_id (c := .i64) h2] at h
            cases h
            exact ⟨_, rfl, rfl, _, _, ⟨rfl, rfl⟩, h1.1, h1.2, h2.1, h2.2⟩
          · cases h
        · cases h
    case u16 =>
      have h0 := (hsm (by simp)).1
      have hb : 0 ≤ b * d := Int.mul_nonneg hx.1 hy.1
      have ha : 0 ≤ a := hz.1
      simp only [reduces_iff (c := .u16) rfl, show Code.promote .u16 = .i32 from rfl, show Code.signed .i32 = true from rfl, if_true,
        show Code.lo .i32 = -2147483648 from rfl, show Code.hi .i32 = 2147483647 from rfl]
      constructor
      · rintro ⟨r, rfl, h1, h2, rfl⟩
        rw [if_pos ⟨by omega, h1⟩, if_pos ⟨by omega, h2⟩]
      · intro h
        split at h
        · rename_i h1
          split at h
          · rename_i h2
            cases h
            exact ⟨_, rfl, h1.2, h2.2, rfl⟩
          · cases h
        · cases h
    all_goals
      have hb : (b * d).natAbs ≤ 32768 * 32768 := by
        rw [Int.natAbs_mul]
        simp only [Val.WT, Code.lo, Code.hi, Code.signed, Code.size, reduceIte, Bool.false_eq_true] at hx hy
        exact Nat.mul_le_mul (by omega) (by omega)
      have ha : a.natAbs ≤ 32768 := by
        simp only [Val.WT, Code.lo, Code.hi, Code.signed, Code.size, reduceIte, Bool.false_eq_true] at hz
        omega
      simp only [reduces_iff (c := .i8) rfl, reduces_iff (c := .u8) rfl, reduces_iff (c := .i16) rfl,
        show Code.promote .i8 = .i32 from rfl, show Code.promote .u8 = .i32 from rfl, show Code.promote .i16 = .i32 from rfl,
        show Code.signed .i32 = true from rfl, if_true,
        show Code.lo .i32 = -2147483648 from rfl, show Code.hi .i32 = 2147483647 from rfl]
      rw [if_pos ⟨by omega, by omega⟩, if_pos ⟨by omega, by omega⟩]
      exact ⟨fun ⟨r, e, h⟩ => by rw [e, h], fun h => by cases h; exact ⟨_, rfl, rfl⟩⟩

theorem cMac_WT {fp : FloatOps} {z x y w : Val} (wz : z.WT c) (h : cMac fp c z x y = .ok w) : w.WT c := by
  cases z <;> cases x <;> cases y <;> first
    | (simp only [cMac] at h; cases h; done)
    | skip
  case int.int.int a b d =>
    rw [cMac_int] at h
    have hw : ∀ n, c.lo ≤ c.wrap n ∧ c.wrap n ≤ c.hi := wrap_in c
    have : ∀ n, (Val.int (c.wrap n)).WT c := by
      intro n; have := hw n; cases c <;> simp only [Val.WT] at wz ⊢ <;> exact this
    split at h
    · split at h
      · split at h
        · cases h; exact this _
        · cases h
      · cases h
    · cases h; exact this _
  case f32.f32.f32 => cases h; cases c <;> simp only [Val.WT] at wz ⊢
  case f64.f64.f64 => cases h; cases c <;> simp only [Val.WT] at wz ⊢

/-- The only possible error of an element step is an overflow. -/
theorem cMac_error {fp : FloatOps} {z x y : Val} {u : UB} (wz : z.WT c) (wx : x.WT c) (wy : y.WT c) (h : cMac fp c z x y = .error u) :
    u = .overflow := by
  cases z <;> cases x <;> cases y <;> first
    | (simp only [cMac] at h; cases h; done)
    | skip
  case int.int.int a b d =>
    rw [cMac_int] at h
    split at h
    · split at h
      · split at h <;> cases h; rfl
      · cases h; rfl
    · cases h
  all_goals cases c <;> simp [Val.WT] at wz wx wy

/-! ### Sums of products -/

/-- Left-to-right accumulation as a function. -/
def dotRun (fp : FloatOps) (c : Code) : Val → List (Val × Val) → Except UB Val
  | z, [] => .ok z
  | z, p :: l =>
    match cMac fp c z p.1 p.2 with
    | .ok v => dotRun fp c v l
    | .error u => .error u

theorem dotRun_WT {fp : FloatOps} {l : List (Val × Val)} {z w : Val} (wz : z.WT c) (h : dotRun fp c z l = .ok w) : w.WT c := by
  induction l generalizing z with
  | nil => cases h; exact wz
  | cons p l ih =>
    simp only [dotRun] at h
    cases hv : cMac fp c z p.1 p.2 with
    | error u => rw [hv] at h; cases h
    | ok v => rw [hv] at h; exact ih (cMac_WT wz hv) h

theorem dotTo_iff {fp : FloatOps} {l : List (Val × Val)} {z w : Val} (wz : z.WT c) (wl : ∀ p ∈ l, p.1.WT c ∧ p.2.WT c) :
    DotTo fp c z l w ↔ dotRun fp c z l = .ok w := by
  induction l generalizing z with
  | nil => simp only [DotTo, dotRun, Except.ok.injEq]; exact eq_comm
  | cons p l ih =>
    obtain ⟨x, y⟩ := p
    have hp := wl (x, y) (by simp)
    simp only [DotTo, dotRun]
    cases hv : cMac fp c z x y with
    | error u =>
      simp only [reduceCtorEq, iff_false, not_exists, not_and]
      intro v h1
      rw [macResult_iff wz hp.1 hp.2, hv] at h1
      cases h1
    | ok v =>
      simp only
      rw [← ih (cMac_WT wz hv) fun p h => wl p (by simp [h])]
      constructor
      · rintro ⟨v', h1, h2⟩
        rw [macResult_iff wz hp.1 hp.2, hv] at h1
        cases h1; exact h2
      · intro h; exact ⟨v, (macResult_iff wz hp.1 hp.2).2 hv, h⟩

/-- The only possible error of a sum is an overflow. -/
theorem dotRun_error {fp : FloatOps} {l : List (Val × Val)} {z : Val} {u : UB} (wz : z.WT c) (wl : ∀ p ∈ l, p.1.WT c ∧ p.2.WT c)
    (h : dotRun fp c z l = .error u) : u = .overflow := by
  induction l generalizing z with
  | nil => cases h
  | cons p l ih =>
    simp only [dotRun] at h
    cases hv : cMac fp c z p.1 p.2 with
    | error u' =>
      rw [hv] at h; cases h
      exact cMac_error wz (wl p (by simp)).1 (wl p (by simp)).2 hv
    | ok v => rw [hv] at h; exact ih (cMac_WT wz hv) (fun p h => wl p (by simp [h])) h

/-! ### The loops -/

/-- The data of a tensor read as elements of type `c`: `ys` are the elements found from the start.  The dtype of the tensor
itself does not matter, since the kernels use that of the first operand. -/
structure ReadsAs (T : TV) (c : Code) (ys : List Val) : Prop where
  rd : ∀ i (h : i < ys.length), rdElem c T.bytes i = .ok ys[i]
  wt : ∀ y ∈ ys, y.WT c
  shape : ShapeOK T.dims c.size

theorem Elems.reads (he : Elems T c ys) (h : At m R T) : ReadsAs T c ys :=
  ⟨fun i hi => by
      rw [he.bytes, encAll_eq]; exact rdElem_some (by simp [hi]) (he.wt _ (List.getElem_mem hi)),
    he.wt, by have := h.shape; rwa [he.dtype] at this⟩

theorem ReadsAs.load (r : ReadsAs T c ys) (h : At m R T) {i : Nat} (hi : i < ys.length) : loadElem c (.blk R.p) i E m = .ok ys[i] m := by
  unfold loadElem
  msimp [h.derefB, r.rd i hi]

/-- What stays fixed while a kernel runs: the operands, away from the output block `q`. -/
structure KCtx (m : Mem) (R1 R2 : Foot) (T1 T2 : TV) (c : Code) (xs ys : List Val) (q : Nat) : Prop where
  h1 : At m R1 T1
  he1 : Elems T1 c xs
  h2 : At m R2 T2
  he2 : ReadsAs T2 c ys
  n1 : q ∉ R1.list
  n2 : q ∉ R2.list

theorem KCtx.x1 (X : KCtx m R1 R2 T1 T2 c xs ys q) {i : Nat} (hi : i < xs.length) : (xs.getD i (.int 0)).WT c := by
  simp only [List.getD, List.getElem?_eq_getElem hi, Option.getD_some]; exact X.he1.wt _ (List.getElem_mem hi)

theorem KCtx.x2 (X : KCtx m R1 R2 T1 T2 c xs ys q) {i : Nat} (hi : i < ys.length) : (ys.getD i (.int 0)).WT c := by
  simp only [List.getD, List.getElem?_eq_getElem hi, Option.getD_some]; exact X.he2.wt _ (List.getElem_mem hi)

theorem KCtx.step (X : KCtx m R1 R2 T1 T2 c xs ys q) {ia ib ic : Nat} {G : Nat → Option Val} {z : Val} (ha : ia < xs.length)
    (hb : ib < ys.length) (hc : ic < P) (hG : G ic = some z) (wz : z.WT c) :
    macStep c (.blk R1.p) (.blk R2.p) (.blk q) ia ib ic E (m.arr q c P G) =
      match cMac E.fp c z (xs.getD ia (.int 0)) (ys.getD ib (.int 0)) with
      | .ok w => .ok () (m.arr q c P (upd G ic (some w)))
      | .error u => .ub u := by
  have l1 := loadArr (E := E) (m := m) (q := q) hc hG wz
  have l2 := (X.h1.set_ne X.n1 (some ⟨.own, .bytes (encOpt c (tab P G))⟩)).load (E := E) X.he1 ha
  have l3 := X.he2.load (E := E) (X.h2.set_ne X.n2 (some ⟨.own, .bytes (encOpt c (tab P G))⟩)) hb
  have e1 : xs[ia] = xs.getD ia (.int 0) := by simp [List.getD, ha]
  have e2 : ys[ib] = ys.getD ib (.int 0) := by simp [List.getD, hb]
  rw [e1] at l2
  rw [e2] at l3
  unfold macStep
  unfold Mem.arr at l1 ⊢
  cases hm : cMac E.fp c z (xs.getD ia (.int 0)) (ys.getD ib (.int 0)) with
  | error u =>
    have hu : ∀ m, liftU (cMac E.fp c z (xs.getD ia (.int 0)) (ys.getD ib (.int 0))) E m = .ub u := fun m => by rw [hm]; rfl
    msimp [l1, l2, l3, hu]
  | ok w =>
    have hs := storeArr (E := E) (m := m) (q := q) (c := c) (G := G) (H := upd G ic (some w)) (v := w) hc (by intro i hi; rfl)
    unfold Mem.arr at hs
    msimp [l1, l2, l3, run_liftU hm, hs]

/-- A loop of element steps that accumulate into one cell. -/
theorem KCtx.loop (X : KCtx m R1 R2 T1 T2 c xs ys q) {f : Nat → Unit → M Unit} {ia ib : Nat → Nat} {ic K : Nat}
    (hf : ∀ i m', i < K → f i () E m' = macStep c (.blk R1.p) (.blk R2.p) (.blk q) (ia i) (ib i) ic E m')
    (ha : ∀ i, i < K → ia i < xs.length) (hb : ∀ i, i < K → ib i < ys.length) (hc : ic < P) {G : Nat → Option Val} {z : Val}
    (hG : G ic = some z) (wz : z.WT c) :
    loopN f K 0 () E (m.arr q c P G) =
      match dotRun E.fp c z ((List.range K).map fun i => (xs.getD (ia i) (.int 0), ys.getD (ib i) (.int 0))) with
      | .ok w => .ok () (m.arr q c P (upd G ic (some w)))
      | .error u => .ub u := by
  suffices H : ∀ k i (G : Nat → Option Val) z, i + k = K → G ic = some z → z.WT c →
      loopN f k i () E (m.arr q c P G) =
      match dotRun E.fp c z ((List.range' i k).map fun i => (xs.getD (ia i) (.int 0), ys.getD (ib i) (.int 0))) with
      | .ok w => .ok () (m.arr q c P (upd G ic (some w)))
      | .error u => .ub u by
    rw [List.range_eq_range']
    exact H K 0 G z (by omega) hG wz
  intro k
  induction k with
  | zero =>
    intro i G z _ hG _
    simp only [List.range'_zero, List.map_nil, dotRun, loopN_zero]
    show Res.ok () _ = _
    congr 1
    refine Mem.arr_congr _ _ _ fun j _ => ?_
    by_cases hj : j = ic
    · rw [hj, hG]; simp
    · rw [upd_ne _ _ hj]
  | succ k ih =>
    intro i G z hi hG wz
    have hs := X.step (E := E) (P := P) (ha i (by omega)) (hb i (by omega)) hc hG wz
    rw [← hf i _ (by omega)] at hs
    rw [List.range'_succ, List.map_cons]
    simp only [dotRun]
    cases hm : cMac E.fp c z (xs.getD (ia i) (.int 0)) (ys.getD (ib i) (.int 0)) with
    | error u =>
      rw [hm] at hs
      msimp [loopN_succ, hs]
    | ok w =>
      rw [hm] at hs
      msimp [loopN_succ, hs]
      rw [ih (i + 1) (upd G ic (some w)) w (by omega) (by simp) (cMac_WT wz hm)]
      cases dotRun E.fp c w ((List.range' (i + 1) k).map fun i => (xs.getD (ia i) (.int 0), ys.getD (ib i) (.int 0))) with
      | error u => rfl
      | ok v =>
        simp only
        congr 1
        refine Mem.arr_congr _ _ _ fun j _ => ?_
        by_cases hj : j = ic
        · rw [hj]; simp
        · rw [upd_ne _ _ hj, upd_ne _ _ hj, upd_ne _ _ hj]

/-- The first `n` cells are finished, the others still hold the start value. -/
def done (W : Nat → Val) (z : Val) (n : Nat) : Nat → Option Val := fun k => some (if k < n then W k else z)

theorem arr_done_succ (W : Nat → Val) (z : Val) (n : Nat) :
    m.arr q c P (upd (done W z n) n (some (W n))) = m.arr q c P (done W z (n + 1)) := by
  refine Mem.arr_congr _ _ _ fun j _ => ?_
  by_cases hj : j = n
  · rw [hj]; simp [done]
  · rw [upd_ne _ _ hj]; simp only [done, show (j < n + 1) ↔ j < n by omega]

theorem run_forI32 {σ : Type} {n : Nat} (h : n ≤ 2147483647) (s : σ) (f : Nat → σ → M σ) (E : Env) (m : Mem) :
    forI32 (n : Int) s f E m = loopN f n 0 s E m := by
  unfold forI32
  rw [if_pos (by unfold I32_MAX; omega), Int.toNat_natCast]

theorem idx2_run {i n j : Nat} (h : i * n + j ≤ 9223372036854775807) : idx2 i n j E m = .ok ((i * n + j : Nat) : Int) m := by
  unfold idx2
  msimp [mul_i64 (a := i) (b := n) (by omega), add_i64 (a := i * n) (b := j) h]

theorem cell_lt {i M N j : Nat} (hi : i < M) (hj : j < N) : i * N + j < M * N := by
  have : (i + 1) * N ≤ M * N := Nat.mul_le_mul_right _ hi
  rw [Nat.succ_mul] at this
  omega

/-- The matrix-matrix kernel. -/
theorem KCtx.mm (X : KCtx m R1 R2 T1 T2 c xs ys q) {oa ob oc M K N : Nat} {W : Nat → Val} {z : Val} (wz : z.WT c)
    (hM : M ≤ 2147483647) (hK : K ≤ 2147483647) (hN : N ≤ 2147483647)
    (ha : oa + M * K ≤ xs.length) (hb : ob + K * N ≤ ys.length) (hc : oc + M * N ≤ P)
    (h1 : xs.length ≤ 9223372036854775807) (h2 : ys.length ≤ 9223372036854775807) (hP : P ≤ 9223372036854775807)
    (hdot : ∀ i j, i < M → j < N → dotRun E.fp c z ((List.range K).map fun k =>
      (xs.getD (oa + (i * K + k)) (.int 0), ys.getD (ob + (k * N + j)) (.int 0))) = .ok (W (oc + (i * N + j)))) :
    mmKernel c (.blk R1.p) (.blk R2.p) (.blk q) oa ob oc M K N E (m.arr q c P (done W z oc)) =
      .ok () (m.arr q c P (done W z (oc + M * N))) := by
  unfold mmKernel
  rw [run_forI32 hM]
  have := loopN_fn (E := E) (fun i (_ : Unit) => forI32 (N : Int) () fun j _ => forI32 (K : Int) () fun k _ =>
      mmBody c (.blk R1.p) (.blk R2.p) (.blk q) oa ob oc K N i j k) (fun _ => ())
    (fun i => m.arr q c P (done W z (oc + i * N))) M (by
    intro i hi
    rw [run_forI32 hN]
    have := loopN_fn (E := E) (fun j (_ : Unit) => forI32 (K : Int) () fun k _ =>
      mmBody c (.blk R1.p) (.blk R2.p) (.blk q) oa ob oc K N i j k) (fun _ => ())
      (fun j => m.arr q c P (done W z (oc + (i * N + j)))) N (by
      intro j hj
      have hij := cell_lt hi hj
      rw [run_forI32 hK]
      have := X.loop (E := E) (P := P) (K := K) (ia := fun k => oa + (i * K + k)) (ib := fun k => ob + (k * N + j)) (ic := oc + (i * N + j))
        (f := fun k _ => mmBody c (.blk R1.p) (.blk R2.p) (.blk q) oa ob oc K N i j k)
        (G := done W z (oc + (i * N + j))) (z := z) (by
          intro k m' hk
          have hik := cell_lt hi hk
          have hkj := cell_lt hk hj
          unfold mmBody
          msimp [idx2_run (E := E) (m := m') (i := i) (n := N) (j := j) (by omega), idx2_run (E := E) (m := m') (i := i) (n := K) (j := k) (by omega),
            idx2_run (E := E) (m := m') (i := k) (n := N) (j := j) (by omega)]
          rw [← Int.natCast_add, ← Int.natCast_add, ← Int.natCast_add])
        (fun k hk => by have := cell_lt hi hk; omega) (fun k hk => by have := cell_lt hk hj; omega) (by omega)
        (by simp [done]) wz
      rw [this, hdot i j hi hj]
      simp only
      rw [arr_done_succ]; rfl)
    rw [Nat.add_zero] at this
    rw [this, Nat.succ_mul])
  rw [Nat.zero_mul, Nat.add_zero] at this
  exact this

/-- The matrix-vector kernel. -/
theorem KCtx.mv (X : KCtx m R1 R2 T1 T2 c xs ys q) {M N : Nat} {W : Nat → Val} {z : Val} (wz : z.WT c)
    (hM : M ≤ 2147483647) (hN : N ≤ 2147483647)
    (ha : M * N ≤ xs.length) (hb : N ≤ ys.length) (hc : M ≤ P) (h1 : xs.length ≤ 9223372036854775807)
    (hdot : ∀ i, i < M → dotRun E.fp c z ((List.range N).map fun k =>
      (xs.getD (i * N + k) (.int 0), ys.getD k (.int 0))) = .ok (W i)) :
    mvKernel c (.blk R1.p) (.blk R2.p) (.blk q) M N E (m.arr q c P (done W z 0)) = .ok () (m.arr q c P (done W z M)) := by
  unfold mvKernel
  rw [run_forI32 hM]
  refine loopN_fn (E := E) _ (fun _ => ()) (fun i => m.arr q c P (done W z i)) M fun i hi => ?_
  rw [run_forI32 hN]
  have := X.loop (E := E) (P := P) (K := N) (ia := fun k => i * N + k) (ib := fun k => k) (ic := i)
    (f := fun k _ => (do let ia ← idx2 i N k; macStep c (.blk R1.p) (.blk R2.p) (.blk q) ia k i))
    (G := done W z i) (z := z) (by
      intro k m' hk
      have hik := cell_lt hi hk
      msimp [idx2_run (E := E) (m := m') (i := i) (n := N) (j := k) (by omega)])
    (fun k hk => by have := cell_lt hi hk; omega) (fun k hk => by omega) (by omega) (by simp [done]) wz
  rw [this, hdot i hi]
  simp only
  rw [arr_done_succ]

/-- The vector-vector kernel. -/
theorem KCtx.vv (X : KCtx m R1 R2 T1 T2 c xs ys q) {L : Nat} {W : Nat → Val} {z : Val} (wz : z.WT c) (hL : L ≤ 2147483647)
    (ha : L ≤ xs.length) (hb : L ≤ ys.length) (hP : 0 < P)
    (hdot : dotRun E.fp c z ((List.range L).map fun k => (xs.getD k (.int 0), ys.getD k (.int 0))) = .ok (W 0)) :
    vvKernel c (.blk R1.p) (.blk R2.p) (.blk q) L E (m.arr q c P (done W z 0)) = .ok () (m.arr q c P (done W z 1)) := by
  unfold vvKernel
  rw [run_forI32 hL]
  have := X.loop (E := E) (P := P) (K := L) (ia := fun k => k) (ib := fun k => k) (ic := 0)
    (f := fun k _ => macStep c (.blk R1.p) (.blk R2.p) (.blk q) k k 0)
    (G := done W z 0) (z := z) (fun k m' hk => rfl) (fun k hk => by omega) (fun k hk => by omega) hP (by simp [done]) wz
  rw [this, hdot]
  simp only
  rw [arr_done_succ]

/-! ### Safety of the kernels, whatever the values -/

theorem loopN_safe {σ : Type} {f : Nat → σ → M σ} {Inv : σ → Mem → Prop} {Bad : UB → Prop} {n : Nat}
    (step : ∀ i s m, i < n → Inv s m → (∃ s' m', f i s E m = .ok s' m' ∧ Inv s' m') ∨ ∃ u, f i s E m = .ub u ∧ Bad u)
    {s : σ} {m : Mem} (h : Inv s m) :
    (∃ s' m', loopN f n 0 s E m = .ok s' m' ∧ Inv s' m') ∨ ∃ u, loopN f n 0 s E m = .ub u ∧ Bad u := by
  suffices H : ∀ k i s m, i + k = n → Inv s m →
      (∃ s' m', loopN f k i s E m = .ok s' m' ∧ Inv s' m') ∨ ∃ u, loopN f k i s E m = .ub u ∧ Bad u from H n 0 s m (by omega) h
  intro k
  induction k with
  | zero => intro i s m _ h; exact .inl ⟨s, m, rfl, h⟩
  | succ k ih =>
    intro i s m hi h
    rcases step i s m (by omega) h with ⟨s', m', e, h'⟩ | ⟨u, e, hu⟩
    · rcases ih (i + 1) s' m' (by omega) h' with ⟨s2, m2, e2, h2⟩ | ⟨u, e2, hu⟩
      · exact .inl ⟨s2, m2, by msimp [loopN_succ, e, e2], h2⟩
      · exact .inr ⟨u, by msimp [loopN_succ, e, e2], hu⟩
    · exact .inr ⟨u, by msimp [loopN_succ, e], hu⟩

/-- The output array holds values of the element type. -/
def Full (m : Mem) (q : Nat) (c : Code) (P : Nat) (m' : Mem) : Prop :=
  ∃ G : Nat → Val, (∀ k, (G k).WT c) ∧ m' = m.arr q c P fun k => some (G k)

theorem KCtx.loop_safe (X : KCtx m R1 R2 T1 T2 c xs ys q) {f : Nat → Unit → M Unit} {ia ib : Nat → Nat} {ic K : Nat}
    (hf : ∀ i m', i < K → f i () E m' = macStep c (.blk R1.p) (.blk R2.p) (.blk q) (ia i) (ib i) ic E m')
    (ha : ∀ i, i < K → ia i < xs.length) (hb : ∀ i, i < K → ib i < ys.length) (hc : ic < P) {m' : Mem} (F : Full m q c P m') :
    (∃ s m2, loopN f K 0 () E m' = .ok s m2 ∧ Full m q c P m2) ∨ ∃ u, loopN f K 0 () E m' = .ub u ∧ u = .overflow := by
  obtain ⟨G, hG, rfl⟩ := F
  have := X.loop (E := E) hf ha hb hc (G := fun k => some (G k)) rfl (hG ic)
  rw [this]
  cases hd : dotRun E.fp c (G ic) ((List.range K).map fun i => (xs.getD (ia i) (.int 0), ys.getD (ib i) (.int 0))) with
  | error u =>
    refine .inr ⟨u, rfl, dotRun_error (hG ic) ?_ hd⟩
    intro p hp
    simp only [List.mem_map, List.mem_range] at hp
    obtain ⟨k, hk, rfl⟩ := hp
    exact ⟨X.x1 (ha k hk), X.x2 (hb k hk)⟩
  | ok w =>
    refine .inl ⟨(), _, rfl, upd G ic w, ?_, ?_⟩
    · intro k
      by_cases hk : k = ic
      · rw [hk]; simp only [upd_same]; exact dotRun_WT (hG ic) hd
      · rw [upd_ne _ _ hk]; exact hG k
    · refine Mem.arr_congr _ _ _ fun j _ => ?_
      by_cases hj : j = ic
      · rw [hj]; simp
      · rw [upd_ne _ _ hj, upd_ne _ _ hj]

/-- Above `INT_MAX` iterations the `int` counter overflows. -/
theorem forI32_big {σ : Type} {n : Nat} (h : ¬ n ≤ 2147483647) (s : σ) (f : Nat → σ → M σ) (E : Env) (m : Mem) :
    forI32 (n : Int) s f E m = .ub .overflow := by
  unfold forI32
  rw [if_neg (by unfold I32_MAX; omega)]; rfl

theorem KCtx.mm_safe (X : KCtx m R1 R2 T1 T2 c xs ys q) {oa ob oc M K N : Nat}
    (ha : oa + M * K ≤ xs.length) (hb : ob + K * N ≤ ys.length) (hc : oc + M * N ≤ P)
    (h1 : xs.length ≤ 9223372036854775807) (h2 : ys.length ≤ 9223372036854775807) (hP : P ≤ 9223372036854775807) {m' : Mem}
    (F : Full m q c P m') :
    (∃ s m2, mmKernel c (.blk R1.p) (.blk R2.p) (.blk q) oa ob oc M K N E m' = .ok s m2 ∧ Full m q c P m2) ∨
      ∃ u, mmKernel c (.blk R1.p) (.blk R2.p) (.blk q) oa ob oc M K N E m' = .ub u ∧ u = .overflow := by
  unfold mmKernel
  by_cases hM : M ≤ 2147483647
  case neg => exact .inr ⟨_, forI32_big hM _ _ _ _, rfl⟩
  rw [run_forI32 hM]
  refine loopN_safe (Inv := fun _ => Full m q c P) (fun i s m' hi F => ?_) F
  by_cases hN : N ≤ 2147483647
  case neg => exact .inr ⟨_, forI32_big hN _ _ _ _, rfl⟩
  rw [run_forI32 hN]
  refine loopN_safe (Inv := fun _ => Full m q c P) (fun j s m' hj F => ?_) F
  by_cases hK : K ≤ 2147483647
  case neg => exact .inr ⟨_, forI32_big hK _ _ _ _, rfl⟩
  rw [run_forI32 hK]
  have hij := cell_lt hi hj
  refine X.loop_safe (E := E) (ia := fun k => oa + (i * K + k)) (ib := fun k => ob + (k * N + j)) (ic := oc + (i * N + j)) ?_
    (fun k hk => by have := cell_lt hi hk; omega) (fun k hk => by have := cell_lt hk hj; omega) (by omega) F
  intro k m' hk
  have hik := cell_lt hi hk
  have hkj := cell_lt hk hj
  unfold mmBody
  msimp [idx2_run (E := E) (m := m') (i := i) (n := N) (j := j) (by omega), idx2_run (E := E) (m := m') (i := i) (n := K) (j := k) (by omega),
    idx2_run (E := E) (m := m') (i := k) (n := N) (j := j) (by omega)]
  rw [← Int.natCast_add, ← Int.natCast_add, ← Int.natCast_add]

theorem KCtx.mv_safe (X : KCtx m R1 R2 T1 T2 c xs ys q) {M N : Nat}
    (ha : M * N ≤ xs.length) (hb : N ≤ ys.length) (hc : M ≤ P) (h1 : xs.length ≤ 9223372036854775807) {m' : Mem}
    (F : Full m q c P m') :
    (∃ s m2, mvKernel c (.blk R1.p) (.blk R2.p) (.blk q) M N E m' = .ok s m2 ∧ Full m q c P m2) ∨
      ∃ u, mvKernel c (.blk R1.p) (.blk R2.p) (.blk q) M N E m' = .ub u ∧ u = .overflow := by
  unfold mvKernel
  by_cases hM : M ≤ 2147483647
  case neg => exact .inr ⟨_, forI32_big hM _ _ _ _, rfl⟩
  rw [run_forI32 hM]
  refine loopN_safe (Inv := fun _ => Full m q c P) (fun i s m' hi F => ?_) F
  by_cases hN : N ≤ 2147483647
  case neg => exact .inr ⟨_, forI32_big hN _ _ _ _, rfl⟩
  rw [run_forI32 hN]
  refine X.loop_safe (E := E) (ia := fun k => i * N + k) (ib := fun k => k) (ic := i) ?_
    (fun k hk => by have := cell_lt hi hk; omega) (fun k hk => by omega) (by omega) F
  intro k m' hk
  have hik := cell_lt hi hk
  msimp [idx2_run (E := E) (m := m') (i := i) (n := N) (j := k) (by omega)]

theorem KCtx.vv_safe (X : KCtx m R1 R2 T1 T2 c xs ys q) {L : Nat}
    (ha : L ≤ xs.length) (hb : L ≤ ys.length) (hP : 0 < P) {m' : Mem} (F : Full m q c P m') :
    (∃ s m2, vvKernel c (.blk R1.p) (.blk R2.p) (.blk q) L E m' = .ok s m2 ∧ Full m q c P m2) ∨
      ∃ u, vvKernel c (.blk R1.p) (.blk R2.p) (.blk q) L E m' = .ub u ∧ u = .overflow := by
  unfold vvKernel
  by_cases hL : L ≤ 2147483647
  case neg => exact .inr ⟨_, forI32_big hL _ _ _ _, rfl⟩
  rw [run_forI32 hL]
  exact X.loop_safe (E := E) (ia := fun k => k) (ib := fun k => k) (ic := 0) (fun k m' hk => rfl)
    (fun k hk => by omega) (fun k hk => by omega) hP F

end Aitisa
