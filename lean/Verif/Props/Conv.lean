import Verif.Proof.ConvTop
import Verif.Props.Dot

/-!
# Properties C40 - C42: convolution

`aitisa_conv_float` and `aitisa_conv` end without a `return` statement.  Under the C standard a caller that uses the status has
undefined behaviour (C41).  To say what the code computes nevertheless, C40 is stated for every value that may be left in the
register where the status is expected: `st` at the end of `aitisa_conv_float`, `st'` at the end of `aitisa_conv`.
-/

namespace Aitisa

variable {E : Env} {m : Mem} {R1 R2 : Foot} {T1 T2 : TV} {xs ys : List Val} {ws : List Win} {B C O : Nat}

theorem foldl_terms (fp : FloatOps) {ds fs : List Nat} {b oc : Nat} {os : List Nat} :
    convVal fp ds fs xs ys ws C b oc os =
      (convTerms ds fs xs ys ws C b oc os).foldl (fun t p => convMac fp t p.1 p.2) (fp.narrow (fp.ofInt64 0)) := by
  unfold convVal convTerms chanVal
  rw [List.foldl_flatMap]
  congr 1
  funext t ic
  rw [List.foldl_filterMap]
  congr 1
  funext t j
  unfold tapVal
  cases winAt ws os (unlin (ws.map Win.k) j) <;> rfl

theorem dotTo_f32 {fp : FloatOps} {l : List (Val × Val)} {t : BitVec 32} (h : ∀ p ∈ l, p.1.WT .f32 ∧ p.2.WT .f32) :
    DotTo fp .f32 (.f32 t) l (.f32 (l.foldl (fun t p => convMac fp t p.1 p.2) t)) := by
  induction l generalizing t with
  | nil => rfl
  | cons p l ih =>
    obtain ⟨h1, h2⟩ := h p (by simp)
    match p, h1, h2 with
    | (.f32 a, .f32 b), _, _ => exact ⟨.f32 (fp.mac32 t a b), rfl, ih fun q hq => h q (by simp [hq])⟩

theorem convTerms_WT (e1 : Elems T1 .f32 xs) (e2 : Elems T2 .f32 ys) (s1 : T1.dims = B :: C :: ws.map Win.x) (s2 : T2.dims = O :: C :: ws.map Win.k)
    {b oc : Nat} {os : List Nat} (hb : b < B) (ho : oc < O) (hl : ws.length = os.length) :
    ∀ p ∈ convTerms T1.dims T2.dims xs ys ws C b oc os, p.1.WT .f32 ∧ p.2.WT .f32 := by
  intro p hp
  simp only [convTerms, List.mem_flatMap, List.mem_range, List.mem_filterMap, Option.map_eq_some_iff] at hp
  obtain ⟨ic, hic, j, hj, cs, hw, rfl⟩ := hp
  have hq := unlin_inRange hj
  refine ⟨elemAt_WT e1 rfl ?_, elemAt_WT e2 rfl ?_⟩
  · rw [s1]; exact ⟨hb, hic, winAt_inRange hl (by rw [unlin_length]; simp) hw⟩
  · rw [s2]; exact ⟨ho, hic, hq⟩

theorem convAt_coords {fp : FloatOps} {ds fs : List Nat} {b oc : Nat} {os : List Nat} (h : InRange (B :: O :: ws.map Win.cOut) (b :: oc :: os)) :
    convAt fp ds fs xs ys ws C O (lin (B :: O :: ws.map Win.cOut) (b :: oc :: os)) = convVal fp ds fs xs ys ws C b oc os := by
  obtain ⟨hb, ho, hos⟩ := h
  rw [lin_input, ← Nat.mul_assoc, ← Nat.add_mul, convAt_eq _ _ _ _ _ ho (lin_lt hos), unlin_lin hos]

/-- The operator for all axes the code accepts. -/
theorem conv_any (st st' : Status) (groups : Int) (out : Ptr) (wf : m.WF) (h1 : At m R1 T1) (h2 : At m R2 T2) (e1 : Elems T1 .f32 xs) (e2 : Elems T2 .f32 ys)
    (s1 : T1.dims = B :: C :: ws.map Win.x) (s2 : T2.dims = O :: C :: ws.map Win.k) (ok : ConvOK ws)
    (hso : ShapeOK (B :: O :: ws.map Win.cOut) 4) (hC : 0 < C) :
    ∃ zs : List Val, zs.length = prod (B :: O :: ws.map Win.cOut) ∧
      (∀ b oc os, InRange (B :: O :: ws.map Win.cOut) (b :: oc :: os) →
        ConvOf E.fp (convTerms T1.dims T2.dims xs ys ws C b oc os) (elemAt (B :: O :: ws.map Win.cOut) zs (b :: oc :: os))) ∧
      Leaves E (conv (some st) (some st') R1.h R2.h (dimsCells (ws.map Win.s)) (dimsCells (ws.map Win.p)) (dimsCells (ws.map Win.d)) groups out) m out
        (if st = .success then st' else st) ⟨Code.f32.dtype, T1.device, B :: O :: ws.map Win.cOut, encAll .f32 zs⟩ := by
  obtain ⟨N, hN⟩ : ∃ N, N = prod (B :: O :: ws.map Win.cOut) := ⟨_, rfl⟩
  refine ⟨(List.range N).map fun i => .f32 (convAt E.fp T1.dims T2.dims xs ys ws C O i), by simp [hN], ?_, ?_⟩
  · intro b oc os ho
    have hlt := lin_lt ho
    have e : elemAt (B :: O :: ws.map Win.cOut) ((List.range N).map fun i => .f32 (convAt E.fp T1.dims T2.dims xs ys ws C O i)) (b :: oc :: os) =
        .f32 (convVal E.fp T1.dims T2.dims xs ys ws C b oc os) := by
      rw [elemAt_get (by simpa [hN] using hlt)]
      simp [convAt_coords ho]
    rw [e, foldl_terms]
    obtain ⟨hb, hoc, hos⟩ := ho
    exact ⟨_, by simp [ZeroOf, Converts], dotTo_f32 (convTerms_WT e1 e2 s1 s2 hb hoc (by have := hos.length; simpa using this.symm))⟩
  · have e : encOpt .f32 (tab N (convOf E.fp T1.dims T2.dims xs ys ws C O N)) =
        encAll .f32 ((List.range N).map fun i => .f32 (convAt E.fp T1.dims T2.dims xs ys ws C O i)) := by
      rw [encAll_eq]
      congr 1
      refine List.ext_getElem? fun i => ?_
      by_cases hi : i < N
      · rw [tab_get _ hi]
        simp [convOf, hi, hC]
      · rw [List.getElem?_eq_none (by rw [tab_length]; omega), List.getElem?_eq_none (by simp; omega)]
    have hrun := convFloat_run (E := E) (out := out) (some st) groups wf h1 h2 e1 e2 s1 s2 ok hso
    rw [← hN, e] at hrun
    have hcode : T1.dtype.code = Code.f32.toNat := by rw [e1.dtype]; rfl
    unfold Leaves
    rcases hrun with ⟨R, m', er, P⟩ | ⟨nf, ⟨m', er, f, w⟩ | er⟩
    · left
      refine ⟨R, m', ?_, P⟩
      unfold conv
      msimp [h1.tDtype]
      rw [if_pos hcode]
      replace er := er.trans (show _ = Res.ok (st, R.h) m' from rfl)
      by_cases hst : st = .success
      · subst hst
        msimp [er, Fall.get]
      · msimp [er, hst]
    · right
      refine ⟨nf, .inl ⟨m', ?_, f, w⟩⟩
      unfold conv
      msimp [h1.tDtype]
      rw [if_pos hcode]
      msimp [er]
    · right
      refine ⟨nf, .inr ?_⟩
      unfold conv
      msimp [h1.tDtype]
      rw [if_pos hcode]
      msimp [er]

theorem convOK_of_fits (h : ∀ w ∈ ws, w.Fits ∧ w.Wide) : ConvOK ws ∧ ws.map Win.cOut = ws.map Win.out :=
  ⟨fun w hw => ⟨(h w hw).2, (Win.cOut_fits (h w hw).1).2⟩, List.map_congr_left fun w hw => (Win.cOut_fits (h w hw).1).1⟩

/-! ## C40 -/

/-- C40. Convolution of `float` tensors of any rank from 2 with at least one channel: the output has the documented dims, and each element is the
sum, accumulated in `float` from 0, of the products input * filter over channels and then filter positions, positions in the
padding left out.  The `groups` argument makes no difference. -/
theorem C40_conv (wf : m.WF) (h1 : At m R1 T1) (h2 : At m R2 T2) (e1 : Elems T1 .f32 xs) (e2 : Elems T2 .f32 ys)
    (s1 : T1.dims = B :: C :: ws.map Win.x) (s2 : T2.dims = O :: C :: ws.map Win.k) (h : ∀ w ∈ ws, w.Fits ∧ w.Wide)
    (hso : ShapeOK (B :: O :: ws.map Win.out) 4) (hC : 0 < C) (st st' : Status) (groups : Int) (out : Ptr) :
    ∃ zs : List Val, zs.length = prod (B :: O :: ws.map Win.out) ∧
      (∀ b oc os, InRange (B :: O :: ws.map Win.out) (b :: oc :: os) →
        ConvOf E.fp (convTerms T1.dims T2.dims xs ys ws C b oc os) (elemAt (B :: O :: ws.map Win.out) zs (b :: oc :: os))) ∧
      Leaves E (conv (some st) (some st') R1.h R2.h (dimsCells (ws.map Win.s)) (dimsCells (ws.map Win.p)) (dimsCells (ws.map Win.d)) groups out) m out
        (if st = .success then st' else st) ⟨Code.f32.dtype, T1.device, B :: O :: ws.map Win.out, encAll .f32 zs⟩ := by
  obtain ⟨ok, e⟩ := convOK_of_fits h
  have := conv_any (E := E) st st' groups out wf h1 h2 e1 e2 s1 s2 ok (by rw [e]; exact hso) hC
  rwa [e] at this

/-- C40. The element is determined: no two values satisfy the description. -/
theorem C40_unique {fp : FloatOps} {l : List (Val × Val)} {y y' : Val} (h : ConvOf fp l y) (h' : ConvOf fp l y') : y = y' := by
  obtain ⟨z, hz, hd⟩ := h
  obtain ⟨z', hz', hd'⟩ := h'
  have : z = z' := by
    rw [ZeroOf, converts_iff] at hz hz'
    rw [hz] at hz'
    cases hz'; rfl
  subst this
  clear hz hz'
  induction l generalizing z with
  | nil => exact hd.trans hd'.symm
  | cons p l ih =>
    obtain ⟨v, hv, hd⟩ := hd
    obtain ⟨v', hv', hd'⟩ := hd'
    have : v = v' := by
      match z, p, hv, hv' with
      | .int _, (.int _, .int _), hv, hv' =>
        obtain ⟨r, rfl, hr⟩ := hv
        obtain ⟨r', rfl, hr'⟩ := hv'
        simp [ReducesTo, intRange] at hr
      | .f32 _, (.f32 _, .f32 _), hv, hv' => exact hv.trans hv'.symm
      | .f64 _, (.f64 _, .f64 _), hv, hv' => exact hv.trans hv'.symm
    subst this
    exact ih v hd hd'

/-- C40, limit: a window that exceeds the padded axis by less than the stride is not refused.  The output gets length 1 along
that axis (the quotient is rounded to zero), computed from the part of the window that lies inside. -/
theorem C40_overlarge (wf : m.WF) (h1 : At m R1 T1) (h2 : At m R2 T2) (e1 : Elems T1 .f32 xs) (e2 : Elems T2 .f32 ys)
    (s1 : T1.dims = B :: C :: ws.map Win.x) (s2 : T2.dims = O :: C :: ws.map Win.k)
    (h : ∀ w ∈ ws, w.Wide ∧ w.x + 2 * w.p < w.d * (w.k - 1) + 1 ∧ w.d * (w.k - 1) + 1 < w.x + 2 * w.p + w.s)
    (hso : ShapeOK (B :: O :: ws.map fun _ => 1) 4) (hC : 0 < C) (st st' : Status) (groups : Int) (out : Ptr) :
    ∃ zs : List Val, zs.length = prod (B :: O :: ws.map fun _ => 1) ∧
      (∀ b oc os, InRange (B :: O :: ws.map fun _ => 1) (b :: oc :: os) →
        ConvOf E.fp (convTerms T1.dims T2.dims xs ys ws C b oc os) (elemAt (B :: O :: ws.map fun _ => 1) zs (b :: oc :: os))) ∧
      Leaves E (conv (some st) (some st') R1.h R2.h (dimsCells (ws.map Win.s)) (dimsCells (ws.map Win.p)) (dimsCells (ws.map Win.d)) groups out) m out
        (if st = .success then st' else st) ⟨Code.f32.dtype, T1.device, B :: O :: ws.map fun _ => 1, encAll .f32 zs⟩ := by
  have hq : ∀ w ∈ ws, Int.tdiv ((w.x + 2 * w.p : Nat) - (w.d * (w.k - 1) + 1 : Nat)) w.s = 0 := by
    intro w hw
    obtain ⟨-, g1, g2⟩ := h w hw
    have e : ((w.x + 2 * w.p : Nat) : Int) - (w.d * (w.k - 1) + 1 : Nat) = -((w.d * (w.k - 1) + 1 - (w.x + 2 * w.p) : Nat) : Int) := by omega
    rw [e, Int.neg_tdiv, ← Int.ofNat_tdiv, Nat.div_eq_of_lt (by omega)]
    rfl
  have e : ws.map Win.cOut = ws.map fun _ => 1 := List.map_congr_left fun w hw => by unfold Win.cOut; rw [hq w hw]; rfl
  have := conv_any (E := E) st st' groups out wf h1 h2 e1 e2 s1 s2 (fun w hw => ⟨(h w hw).1, by rw [hq w hw]; decide⟩) (by rw [e]; exact hso) hC
  rwa [e] at this

/-- C40, limit: without channels the documented sum is 0, but nothing is stored: the elements are left uninitialised. -/
theorem C40_no_channels (wf : m.WF) (h1 : At m R1 T1) (h2 : At m R2 T2) (e1 : Elems T1 .f32 xs) (e2 : Elems T2 .f32 ys)
    (s1 : T1.dims = B :: 0 :: ws.map Win.x) (s2 : T2.dims = O :: 0 :: ws.map Win.k) (h : ∀ w ∈ ws, w.Fits ∧ w.Wide)
    (hso : ShapeOK (B :: O :: ws.map Win.out) 4) (st' : Status) (groups : Int) (out : Ptr) :
    Leaves E (conv (some .success) (some st') R1.h R2.h (dimsCells (ws.map Win.s)) (dimsCells (ws.map Win.p)) (dimsCells (ws.map Win.d)) groups out) m out
      st' ⟨Code.f32.dtype, T1.device, B :: O :: ws.map Win.out, List.replicate (prod (B :: O :: ws.map Win.out) * 4) none⟩ := by
  obtain ⟨ok, e⟩ := convOK_of_fits h
  have hcode : T1.dtype.code = Code.f32.toNat := by rw [e1.dtype]; rfl
  have hrun := convFloat_run (E := E) (out := out) (some .success) groups wf h1 h2 e1 e2 s1 s2 ok (by rw [e]; exact hso)
  rw [e] at hrun
  have ez : encOpt .f32 (tab (prod (B :: O :: ws.map Win.out)) (convOf E.fp T1.dims T2.dims xs ys ws 0 O (prod (B :: O :: ws.map Win.out)))) =
      List.replicate (prod (B :: O :: ws.map Win.out) * 4) none := by
    rw [show convOf E.fp T1.dims T2.dims xs ys ws 0 O (prod (B :: O :: ws.map Win.out)) = fun _ => none from funext fun i => by simp [convOf],
      tab_none, encOpt_replicate]
    rfl
  rw [ez] at hrun
  unfold Leaves
  rcases hrun with ⟨R, m', er, P⟩ | ⟨nf, ⟨m', er, f, w⟩ | er⟩
  · left
    refine ⟨R, m', ?_, P⟩
    unfold conv
    msimp [h1.tDtype]
    rw [if_pos hcode]
    replace er := er.trans (show _ = Res.ok (Status.success, R.h) m' from rfl)
    msimp [er, Fall.get]
  · right
    refine ⟨nf, .inl ⟨m', ?_, f, w⟩⟩
    unfold conv
    msimp [h1.tDtype]
    rw [if_pos hcode]
    msimp [er]
  · right
    refine ⟨nf, .inr ?_⟩
    unfold conv
    msimp [h1.tDtype]
    rw [if_pos hcode]
    msimp [er]

/-- C40, limit: a tensor of rank 1 is not refused; the code writes the second output dim outside the array it allocated. -/
theorem C40_rank1_unchecked (nf : E.NoFail) (wf : m.WF) (h1 : At m R1 T1) (h2 : At m R2 T2) (hd : T1.dtype.code = Code.f32.toNat)
    (s1 : T1.dims.length = 1) (s2 : T2.dims ≠ []) (j j' : Fall) (s p d : Arr) (groups : Int) (out : Ptr) :
    conv j j' R1.h R2.h s p d groups out E m = .ub .outOfBounds := by
  obtain ⟨po, Kpo, m1, x1, S⟩ := (Many.nil (E := E) (n := 8 * 1) wf).scratch (n := 1) (by omega)
  obtain ⟨pi, Kpi, m2, x2, S⟩ := S.scratch (by omega)
  obtain ⟨pf, Kpf, m3, x3, S⟩ := S.scratch (by omega)
  obtain ⟨pc, Kpc, m4, x4, S⟩ := S.scratch (by omega)
  obtain ⟨pt, Kpt, m5, x5, S⟩ := S.scratch (by omega)
  obtain ⟨si, Ksi, m6, x6, S⟩ := S.scratch (by omega)
  obtain ⟨sf, Ksf, m7, x7, S⟩ := S.scratch (by omega)
  obtain ⟨so, Kso, m8, x8, S⟩ := S.scratch (by omega)
  have q0 := rd_dims (E := E) (m := m8) (ds := T1.dims) (i := 0) (by omega)
  have q1 := rd_dims (E := E) (m := m8) (ds := T2.dims) (i := 0) (by cases h : T2.dims <;> simp_all)
  rw [show ((0 : Nat) : Int) = 0 from rfl] at q0 q1
  have ht : touch po 0 (8 * max ((1 : Nat) : Int) 2) E m8 = .ub .outOfBounds := by
    rcases S.temp (po, Kpo) (by simp) with ⟨hn, -⟩ | ⟨k, hk, -, hb⟩
    · exact absurd nf (S.null (po, Kpo) (by simp) hn)
    · simp only at hk
      subst hk
      unfold touch
      msimp [run_derefBlk hb]
      rfl
  unfold conv
  msimp [h1.tDtype]
  rw [if_pos hd]
  unfold convFloat
  msimp [h1.tNdim, s1, h1.tDimsArr, h2.tDimsArr, x1, x2, x3, x4, x5, x6, x7, x8]
  unfold convMain
  msimp [q0, q1, ht]

/-- An input with two channels and a filter for two groups of one channel each. -/
def exGr : Mem := (Mem.empty.addT (tvOf .f32 [1, 2, 1] [.f32 1, .f32 2])).addT (tvOf .f32 [2, 1, 1] [.f32 3, .f32 4])

def Res.aborts {α} : Res α → Bool
  | .abort => true
  | _ => false

theorem Res.aborts_iff {α} {r : Res α} : r.aborts = true ↔ r = .abort := by
  cases r <;> simp [Res.aborts]

/-- C40, limit: `groups` is ignored.  With a filter shaped for two groups, as documented, the call is stopped by an assertion; in
a build without assertions the filter is read outside its bounds. -/
theorem C40_groups_violated : ∃ (m : Mem) (R1 R2 : Foot) (T1 T2 : TV), m.WF ∧ At m R1 T1 ∧ At m R2 T2 ∧
    T1.dtype = Code.f32.dtype ∧ T2.dtype = Code.f32.dtype ∧ T1.dims = [1, 2, 1] ∧ T2.dims = [2, 1, 1] ∧ okEnv.NoFail ∧
    conv none none R1.h R2.h (dimsCells [1]) (dimsCells [0]) (dimsCells [1]) 2 .indet okEnv m = .abort ∧
    conv none none R1.h R2.h (dimsCells [1]) (dimsCells [0]) (dimsCells [1]) 2 .indet { okEnv with asserts := false } m = .ub .outOfBounds :=
  ⟨exGr, Mem.empty.footT, (Mem.empty.addT (tvOf .f32 [1, 2, 1] [.f32 1, .f32 2])).footT, tvOf .f32 [1, 2, 1] [.f32 1, .f32 2],
    tvOf .f32 [2, 1, 1] [.f32 3, .f32 4], Mem.addT_wf (Mem.addT_wf Mem.empty_wf _) _,
    addT_old (Mem.addT_wf Mem.empty_wf _) (tvOf_at _ (by simp) rfl ⟨by decide, by decide⟩) _, tvOf_at _ (by simp) rfl ⟨by decide, by decide⟩,
    rfl, rfl, rfl, rfl, okEnv_noFail, Res.aborts_iff.1 (by decide +kernel), Res.ubIs_iff.1 (by decide +kernel)⟩

/-! ### Examples -/

/-- One sample with one channel of three numbers. -/
def exCi : TV := tvOf .f32 [1, 1, 3] [.f32 1, .f32 2, .f32 3]

/-- One filter of two numbers. -/
def exCf : TV := tvOf .f32 [1, 1, 2] [.f32 10, .f32 20]

def exCv : Mem := (Mem.empty.addT exCi).addT exCf

theorem exCv_wf : exCv.WF := Mem.addT_wf (Mem.addT_wf Mem.empty_wf _) _

theorem exCi_at : At exCv Mem.empty.footT exCi :=
  addT_old (Mem.addT_wf Mem.empty_wf _) (tvOf_at _ (by simp) rfl ⟨by decide, by decide⟩) _

theorem exCf_at : At exCv (Mem.empty.addT exCi).footT exCf := tvOf_at _ (by simp) rfl ⟨by decide, by decide⟩

/-- Stride 2, padding 1, dilation 1. -/
def exCw : Win := ⟨3, 2, 2, 1, 1⟩

theorem exCw_ok : ∀ w ∈ [exCw], w.Fits ∧ w.Wide := by
  intro w hw
  rw [List.mem_singleton.1 hw]
  exact ⟨⟨by decide, by decide, by decide, by decide⟩, ⟨by decide, by decide, by decide, by decide, by decide⟩⟩

/-- The first window is (padding, 1), the second (2, 3). -/
example : convTerms [1, 1, 3] [1, 1, 2] [.f32 1, .f32 2, .f32 3] [.f32 10, .f32 20] [exCw] 1 0 0 [0] = [(.f32 1, .f32 20)] ∧
    convTerms [1, 1, 3] [1, 1, 2] [.f32 1, .f32 2, .f32 3] [.f32 10, .f32 20] [exCw] 1 0 0 [1] = [(.f32 2, .f32 10), (.f32 3, .f32 20)] := by
  decide

/-- In the toy arithmetic the output is 20, 80. -/
example : ∃ R m', conv (some .success) (some .success) Mem.empty.footT.h (Mem.empty.addT exCi).footT.h (dimsCells [2]) (dimsCells [1]) (dimsCells [1])
      1 .indet okEnv exCv = .ok (.success, R.h) m' ∧ Produces exCv m' R (tvOf .f32 [1, 1, 2] [.f32 20, .f32 80]) := by
  obtain ⟨zs, hl, hz, h⟩ := C40_conv (E := okEnv) (ws := [exCw]) (B := 1) (C := 1) (O := 1) exCv_wf exCi_at exCf_at (tvOf_elems (by decide) rfl)
    (tvOf_elems (by decide) rfl) rfl rfl exCw_ok ⟨by decide, by decide⟩ (by decide) .success .success 1 .indet
  match zs, hl with
  | [a, b], _ =>
    have ha := hz 0 0 [0] ⟨by decide, by decide, by decide, trivial⟩
    have hb := hz 0 0 [1] ⟨by decide, by decide, by decide, trivial⟩
    have ea : a = .f32 20 := C40_unique ha ⟨.f32 0, rfl, .f32 20, rfl, rfl⟩
    have eb : b = .f32 80 := C40_unique hb ⟨.f32 0, rfl, .f32 20, rfl, .f32 80, rfl, rfl⟩
    subst ea eb
    rcases h with h | ⟨nf, -⟩
    · exact h
    · exact absurd okEnv_noFail nf

/-- A window of 4 on an axis of 3 with stride 2: the output has one element. -/
example : ∃ zs : List Val, zs.length = 1 ∧ Leaves okEnv (conv (some .success) (some .success) Mem.empty.footT.h
    (Mem.empty.addT exCi).footT.h (dimsCells [2]) (dimsCells [0]) (dimsCells [3]) 1 .indet) exCv .indet .success (tvOf .f32 [1, 1, 1] zs) := by
  obtain ⟨zs, hl, -, h⟩ := C40_overlarge (E := okEnv) (ws := [⟨3, 2, 2, 0, 3⟩]) (B := 1) (C := 1) (O := 1) exCv_wf exCi_at exCf_at
    (tvOf_elems (by decide) rfl) (tvOf_elems (by decide) rfl) rfl rfl
    (by intro w hw; rw [List.mem_singleton.1 hw]; exact ⟨⟨by decide, by decide, by decide, by decide, by decide⟩, by decide, by decide⟩)
    ⟨by decide, by decide⟩ (by decide) .success .success 1 .indet
  exact ⟨zs, hl, h⟩

/-- Two filters of three numbers over an input without channels: six uninitialised elements. -/
example : Leaves okEnv (conv (some .success) (some .success) Mem.empty.footT.h (Mem.empty.addT (tvOf .f32 [1, 0, 4] [])).footT.h (dimsCells [1])
    (dimsCells [0]) (dimsCells [1]) 1 .indet) ((Mem.empty.addT (tvOf .f32 [1, 0, 4] [])).addT (tvOf .f32 [2, 0, 2] [])) .indet .success
    ⟨Code.f32.dtype, ⟨DEVICE_CPU, 0⟩, [1, 2, 3], List.replicate 24 none⟩ :=
  C40_no_channels (E := okEnv) (T1 := tvOf .f32 [1, 0, 4] []) (T2 := tvOf .f32 [2, 0, 2] []) (ws := [⟨4, 2, 1, 0, 1⟩]) (B := 1) (O := 2)
    (Mem.addT_wf (Mem.addT_wf Mem.empty_wf _) _)
    (addT_old (Mem.addT_wf Mem.empty_wf _) (tvOf_at _ (by simp) rfl ⟨by decide, by decide⟩) _) (tvOf_at _ (by simp) rfl ⟨by decide, by decide⟩)
    (tvOf_elems (by decide) rfl) (tvOf_elems (by decide) rfl) rfl rfl
    (by intro w hw; rw [List.mem_singleton.1 hw]; exact ⟨⟨by decide, by decide, by decide, by decide⟩, ⟨by decide, by decide, by decide, by decide, by decide⟩⟩)
    ⟨by decide, by decide⟩ .success 1 .indet

example : conv none none Mem.empty.footT.h (Mem.empty.addT (tvOf .f32 [2] [.f32 1, .f32 2])).footT.h [] [] [] 1 .indet okEnv
    ((Mem.empty.addT (tvOf .f32 [2] [.f32 1, .f32 2])).addT (tvOf .f32 [1] [.f32 1])) = .ub .outOfBounds :=
  C40_rank1_unchecked (E := okEnv) (T1 := tvOf .f32 [2] [.f32 1, .f32 2]) (T2 := tvOf .f32 [1] [.f32 1]) okEnv_noFail
    (Mem.addT_wf (Mem.addT_wf Mem.empty_wf _) _)
    (addT_old (Mem.addT_wf Mem.empty_wf _) (tvOf_at _ (by simp) rfl ⟨by decide, by decide⟩) _) (tvOf_at _ (by simp) rfl ⟨by decide, by decide⟩)
    rfl rfl (by simp [tvOf]) none none [] [] [] 1 .indet

/-! ## C41 -/

/-- C41 is violated: whenever the allocator does not fail, every convolution that runs to its end uses the value of a function
that ended without `return`, which is undefined.  This is so for every shape; here at the end of `aitisa_conv_float`. -/
theorem C41_violated (nf : E.NoFail) (wf : m.WF) (h1 : At m R1 T1) (h2 : At m R2 T2) (e1 : Elems T1 .f32 xs) (e2 : Elems T2 .f32 ys)
    (s1 : T1.dims = B :: C :: ws.map Win.x) (s2 : T2.dims = O :: C :: ws.map Win.k) (h : ∀ w ∈ ws, w.Fits ∧ w.Wide)
    (hso : ShapeOK (B :: O :: ws.map Win.out) 4) (j' : Fall) (groups : Int) (out : Ptr) :
    conv none j' R1.h R2.h (dimsCells (ws.map Win.s)) (dimsCells (ws.map Win.p)) (dimsCells (ws.map Win.d)) groups out E m = .ub .missingReturn := by
  obtain ⟨ok, e⟩ := convOK_of_fits h
  have hcode : T1.dtype.code = Code.f32.toNat := by rw [e1.dtype]; rfl
  rcases convFloat_run (E := E) (out := out) none groups wf h1 h2 e1 e2 s1 s2 ok (by rw [e]; exact hso) with ⟨R, m', er, -⟩ | ⟨nf', -⟩
  · unfold conv
    msimp [h1.tDtype]
    rw [if_pos hcode]
    replace er := er.trans (show _ = Res.ub .missingReturn from rfl)
    msimp [er]
  · exact absurd nf nf'

/-- C41 is violated also in `aitisa_conv`: if the status of `aitisa_conv_float` happens to read as `STATUS_SUCCESS`, `aitisa_conv`
itself ends without `return`. -/
theorem C41_conv_violated (nf : E.NoFail) (wf : m.WF) (h1 : At m R1 T1) (h2 : At m R2 T2) (e1 : Elems T1 .f32 xs) (e2 : Elems T2 .f32 ys)
    (s1 : T1.dims = B :: C :: ws.map Win.x) (s2 : T2.dims = O :: C :: ws.map Win.k) (h : ∀ w ∈ ws, w.Fits ∧ w.Wide)
    (hso : ShapeOK (B :: O :: ws.map Win.out) 4) (groups : Int) (out : Ptr) :
    conv (some .success) none R1.h R2.h (dimsCells (ws.map Win.s)) (dimsCells (ws.map Win.p)) (dimsCells (ws.map Win.d)) groups out E m =
      .ub .missingReturn := by
  obtain ⟨ok, e⟩ := convOK_of_fits h
  have hcode : T1.dtype.code = Code.f32.toNat := by rw [e1.dtype]; rfl
  rcases convFloat_run (E := E) (out := out) (some .success) groups wf h1 h2 e1 e2 s1 s2 ok (by rw [e]; exact hso) with ⟨R, m', er, -⟩ | ⟨nf', -⟩
  · unfold conv
    msimp [h1.tDtype]
    rw [if_pos hcode]
    replace er := er.trans (show _ = Res.ok (Status.success, R.h) m' from rfl)
    msimp [er, Fall.get]
  · exact absurd nf nf'

example : conv none none Mem.empty.footT.h (Mem.empty.addT exCi).footT.h (dimsCells [2]) (dimsCells [1]) (dimsCells [1]) 1 .indet okEnv exCv =
    .ub .missingReturn :=
  C41_violated (E := okEnv) (ws := [exCw]) (B := 1) (C := 1) (O := 1) okEnv_noFail exCv_wf exCi_at exCf_at (tvOf_elems (by decide) rfl)
    (tvOf_elems (by decide) rfl) rfl rfl exCw_ok ⟨by decide, by decide⟩ none 1 .indet

example : conv (some .success) none Mem.empty.footT.h (Mem.empty.addT exCi).footT.h (dimsCells [2]) (dimsCells [1]) (dimsCells [1]) 1 .indet okEnv exCv =
    .ub .missingReturn :=
  C41_conv_violated (E := okEnv) (ws := [exCw]) (B := 1) (C := 1) (O := 1) okEnv_noFail exCv_wf exCi_at exCf_at (tvOf_elems (by decide) rfl)
    (tvOf_elems (by decide) rfl) rfl rfl exCw_ok ⟨by decide, by decide⟩ 1 .indet

/-! ## C42 -/

/-- C42. `aitisa_conv2d` refuses every tensor that is not of rank 4, without effect. -/
theorem C42_conv2d (h1 : At m R1 T1) (hr : T1.dims.length ≠ 4) (j j' : Fall) (f : Ptr) (s p d : Arr) (groups : Int) (out : Ptr) :
    conv2d j j' R1.h f s p d groups out E m = .ok (.dimensionsMismatch, out) m := by
  unfold conv2d
  msimp [h1.tNdim]
  rw [if_pos (by omega)]

/-- C42. `aitisa_conv3d` refuses every tensor that is not of rank 5, without effect. -/
theorem C42_conv3d (h1 : At m R1 T1) (hr : T1.dims.length ≠ 5) (j j' : Fall) (f : Ptr) (s p d : Arr) (groups : Int) (out : Ptr) :
    conv3d j j' R1.h f s p d groups out E m = .ok (.dimensionsMismatch, out) m := by
  unfold conv3d
  msimp [h1.tNdim]
  rw [if_pos (by omega)]

/-- C42. For a tensor of rank 4 `aitisa_conv2d`, of rank 5 `aitisa_conv3d`, is the general convolution. -/
theorem C42_same (h1 : At m R1 T1) (j j' : Fall) (f : Ptr) (s p d : Arr) (groups : Int) (out : Ptr) :
    (T1.dims.length = 4 → conv2d j j' R1.h f s p d groups out E m = conv j j' R1.h f s p d groups out E m) ∧
    (T1.dims.length = 5 → conv3d j j' R1.h f s p d groups out E m = conv j j' R1.h f s p d groups out E m) := by
  constructor
  · intro hr
    unfold conv2d
    msimp [h1.tNdim, hr]
    rfl
  · intro hr
    unfold conv3d
    msimp [h1.tNdim, hr]
    rfl

/-- C42. A tensor whose dtype is not `float` is refused by all three functions, without effect, where its rank is admitted. -/
theorem C42_dtype (h1 : At m R1 T1) (hd : T1.dtype.code ≠ Code.f32.toNat) (j j' : Fall) (f : Ptr) (s p d : Arr) (groups : Int) (out : Ptr) :
    conv j j' R1.h f s p d groups out E m = .ok (.notSupported, out) m ∧
    (T1.dims.length = 4 → conv2d j j' R1.h f s p d groups out E m = .ok (.notSupported, out) m) ∧
    (T1.dims.length = 5 → conv3d j j' R1.h f s p d groups out E m = .ok (.notSupported, out) m) := by
  have e : conv j j' R1.h f s p d groups out E m = .ok (.notSupported, out) m := by
    unfold conv
    msimp [h1.tDtype]
    rw [if_neg hd]
  obtain ⟨a, b⟩ := C42_same (E := E) h1 j j' f s p d groups out
  exact ⟨e, fun h => (a h).trans e, fun h => (b h).trans e⟩

example : conv2d none none Mem.empty.footT.h .null [] [] [] 1 .indet okEnv exCv = .ok (.dimensionsMismatch, .indet) exCv :=
  C42_conv2d exCi_at (by decide) _ _ _ _ _ _ _ _

example : conv3d none none Mem.empty.footT.h .null [] [] [] 1 .indet okEnv exCv = .ok (.dimensionsMismatch, .indet) exCv :=
  C42_conv3d exCi_at (by decide) _ _ _ _ _ _ _ _

/-- An integer tensor of rank 4. -/
example : conv2d none none Mem.empty.footT.h .null [] [] [] 1 .indet okEnv (Mem.empty.addT (tvOf .i32 [1, 1, 1, 2] [.int 5, .int 6])) =
    .ok (.notSupported, .indet) (Mem.empty.addT (tvOf .i32 [1, 1, 1, 2] [.int 5, .int 6])) :=
  (C42_dtype (tvOf_at _ (by simp) rfl ⟨by decide, by decide⟩) (by decide) none none .null [] [] [] 1 .indet).2.1 rfl

end Aitisa
