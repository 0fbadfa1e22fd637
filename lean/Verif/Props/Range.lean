import Verif.Proof.IeeeAct
import Verif.Proof.IeeeMac
import Verif.Props.Ieee
import Verif.Props.NN

/-!
# Properties C59, C60: ranges and order of the results of sigmoid, tanh and softmax

The machine has IEEE arithmetic (`Machine`, `Spec/Ieee.lean`), its exponential function is any function for which `ExpOK` holds; `C59_exp` shows that the one
of `ieee` is one.
-/

namespace Aitisa

variable {E : Env} {m m1 m2 : Mem} {R : Foot} {T : TV} {c : Code} {xs : List Val} {ex : BitVec 64 → BitVec 64}

/-- The assumptions hold for the exponential function of `ieee`. -/
theorem C59_exp : ExpOK ieee.exp64 ∧ ExpMono ieee.exp64 ∧ Machine ieee := ⟨ieee_expOK, ieee_expMono, ieee_machine⟩

/-- C59, sigmoid on `float` and `double` tensors: a number or infinity gives a number from 0 to 1, a NaN gives a NaN. -/
theorem C59_range (hE : Machine E.fp) (ho : ExpOK E.fp.exp64) (wf : m.WF) (hc : c = .f32 ∨ c = .f64) (h : At m R T) (he : Elems T c xs) (out : Ptr) :
    ∃ ys, Delivers E (sigmoid R.h out) m out c T.device T.dims ys ∧
      Pointwise (fun x y => (NotNaN x → InUnit y) ∧ (¬ NotNaN x → ¬ NotNaN y)) xs ys := by
  obtain ⟨ys, hd, hl, hp⟩ := C36_sigmoid (E := E) wf hc h he out
  refine ⟨ys, hd, hl, fun i h1 h2 => ?_⟩
  have hi := hp i h1 h2
  simp only [hE.sigmoid, hE.tanh, hE.expOf, hE.share] at hi
  have hx := he.wt xs[i] (List.getElem_mem _)
  have ht := sigmoid_through hx hc hi
  exact ⟨fun hn => out_unit hc (sg_unit (ho.plus _ (double_not_nan hx hc hn).2)) ht,
    fun hn => out_nan hc (sg_nan (ho.nan _ (double_nan hn).2)) ht⟩

/-- C59, sigmoid keeps the order of the elements if `exp` does. -/
theorem C59_order (hE : Machine E.fp) (ho : ExpOK E.fp.exp64) (hm : ExpMono E.fp.exp64) (wf : m.WF) (hc : c = .f32 ∨ c = .f64) (h : At m R T) (he : Elems T c xs)
    (out : Ptr) :
    ∃ ys, Delivers E (sigmoid R.h out) m out c T.device T.dims ys ∧ ys.length = xs.length ∧
      ∀ i j (_ : i < xs.length) (_ : j < xs.length) (_ : i < ys.length) (_ : j < ys.length), AtMost xs[i] xs[j] → AtMost ys[i] ys[j] := by
  obtain ⟨ys, hd, hl, hp⟩ := C36_sigmoid (E := E) wf hc h he out
  refine ⟨ys, hd, hl.symm, fun i j h1 h2 h3 h4 hij => ?_⟩
  have hi := hp i h1 h3
  have hj := hp j h2 h4
  simp only [hE.sigmoid, hE.tanh, hE.expOf, hE.share] at hi hj
  have hx := he.wt xs[i] (List.getElem_mem _)
  have hx' := he.wt xs[j] (List.getElem_mem _)
  have ht := sigmoid_through hx hc hi
  have ht' := sigmoid_through hx' hc hj
  obtain ⟨n1, n2, -, ho2⟩ := double_order hx hx' hc hij
  have k1 := (double_not_nan hx hc n1).2
  have k2 := (double_not_nan hx' hc n2).2
  have hle := expMono_bits hm ho k2 k1 ho2
  have hone := (one_mag b64_ok).1
  refine out_order hc (sg_anti (ho.plus _ k1) hle) ?_ ht ht'
  have := sg_unit (ho.plus _ k2)
  omega

/-- -infinity, -1, 0, 1000 and a NaN. -/
example : ∃ ys, Delivers ieeeEnv (sigmoid exH1.h .indet) (Mem.empty.addT (tvOf .f32 [5] [.f32 0xFF800000, .f32 0xBF800000, .f32 0, .f32 0x447A0000, .f32 0x7FC00000]))
      .indet .f32 ⟨DEVICE_CPU, 0⟩ [5] ys ∧
      Pointwise (fun x y => (NotNaN x → InUnit y) ∧ (¬ NotNaN x → ¬ NotNaN y)) [.f32 0xFF800000, .f32 0xBF800000, .f32 0, .f32 0x447A0000, .f32 0x7FC00000] ys :=
  C59_range (T := tvOf .f32 [5] [.f32 0xFF800000, .f32 0xBF800000, .f32 0, .f32 0x447A0000, .f32 0x7FC00000]) C59_exp.2.2 C59_exp.1
    (Mem.addT_wf Mem.empty_wf _) (.inl rfl) (tvOf_at _ (by simp) rfl ⟨by decide, by decide⟩) (tvOf_elems (by decide) rfl) _

/-- -1 <= 0. -/
example : ∃ ys, Delivers ieeeEnv (sigmoid exH1.h .indet) (Mem.empty.addT (tvOf .f32 [2] [.f32 0xBF800000, .f32 0])) .indet .f32 ⟨DEVICE_CPU, 0⟩ [2] ys ∧
      ∃ h0 h1, AtMost (ys[0]'h0) (ys[1]'h1) := by
  obtain ⟨ys, h1, h2, h3⟩ := C59_order (T := tvOf .f32 [2] [.f32 0xBF800000, .f32 0]) (E := ieeeEnv) C59_exp.2.2 C59_exp.1 C59_exp.2.1
    (Mem.addT_wf Mem.empty_wf _) (.inl rfl) (tvOf_at _ (by simp) rfl ⟨by decide, by decide⟩) (tvOf_elems (by decide) rfl) .indet
  have h2' : ys.length = 2 := h2
  exact ⟨ys, h1, by omega, by omega, h3 0 1 (by decide) (by decide) (by omega) (by omega) ⟨by decide, by decide, by decide +kernel⟩⟩

/-! ## C60 -/

/-- C60, tanh. The full claim is that every number or infinity gives a number from -1 to 1. Missing: elements for which `exp(x)` or `exp(-x)` is
infinite (or both are 0); they give a NaN. -/
theorem C60_tanh_partial (hE : Machine E.fp) (ho : ExpOK E.fp.exp64) (wf : m.WF) (hc : c = .f32 ∨ c = .f64) (h : At m R T) (he : Elems T c xs) (out : Ptr) :
    ∃ ys, Delivers E (tanh R.h out) m out c T.device T.dims ys ∧
      Pointwise (fun x y => NotNaN x →
        (NotNaN y ↔ ¬ IsInf (.f64 (E.fp.exp64 (asDouble x))) ∧ ¬ IsInf (.f64 (E.fp.exp64 (negDouble x))) ∧ ¬ (E.fp.exp64 (asDouble x) = 0 ∧ E.fp.exp64 (negDouble x) = 0)) ∧
        (NotNaN y → WithinOne y)) xs ys := by
  obtain ⟨ys, hd, hl, hp⟩ := C36_tanh (E := E) wf hc h he out
  refine ⟨ys, hd, hl, fun i h1 h2 hn => ?_⟩
  have hi := hp i h1 h2
  simp only [hE.sigmoid, hE.tanh, hE.expOf, hE.share] at hi
  exact tanh_exact ho (he.wt xs[i] (List.getElem_mem _)) hc hn hi

/-- C60, tanh of `-x` is `-tanh(x)`, bit by bit, unless it is a NaN or `exp(x)` and `exp(-x)` are equal (then both are +0). -/
theorem C60_tanh_odd (hE : Machine E.fp) (ho : ExpOK E.fp.exp64) (wf : m.WF) (hc : c = .f32 ∨ c = .f64) (h : At m R T) (he : Elems T c xs) (out : Ptr) :
    ∃ ys, Delivers E (tanh R.h out) m out c T.device T.dims ys ∧ ys.length = xs.length ∧
      ∀ i j (_ : i < xs.length) (_ : j < xs.length) (_ : i < ys.length) (_ : j < ys.length), xs[j] = negVal xs[i] → NotNaN xs[i] → NotNaN ys[i] →
        E.fp.exp64 (asDouble xs[i]) ≠ E.fp.exp64 (negDouble xs[i]) → ys[j] = negVal ys[i] := by
  obtain ⟨ys, hd, hl, hp⟩ := C36_tanh (E := E) wf hc h he out
  refine ⟨ys, hd, hl.symm, fun i j h1 h2 h3 h4 hij hn hny hne => ?_⟩
  have hi := hp i h1 h3
  have hj := hp j h2 h4
  simp only [hE.sigmoid, hE.tanh, hE.expOf, hE.share] at hi hj
  rw [hij] at hj
  exact tanh_odd ho (he.wt xs[i] (List.getElem_mem _)) hc hn hi hj hny hne

/-- 1000 as `float`. -/
def exBig : TV := tvOf .f32 [1] [.f32 0x447A0000]

theorem exBig_at : At (Mem.empty.addT exBig) Mem.empty.footT exBig := tvOf_at _ (by simp) rfl ⟨by decide, by decide⟩

theorem exBig_double : asDouble (.f32 0x447A0000) = 0x408F400000000000 := by decide +kernel

/-- C60, violated: tanh of 1000 is a NaN, whenever `exp(1000)` overflows to infinity. -/
theorem C60_tanh_violated (hE : Machine E.fp) (ho : ExpOK E.fp.exp64) (hi : E.fp.exp64 0x408F400000000000 = 0x7FF0000000000000) (out : Ptr) :
    ∃ y, Delivers E (tanh Mem.empty.footT.h out) (Mem.empty.addT exBig) out .f32 ⟨DEVICE_CPU, 0⟩ [1] [y] ∧ ¬ NotNaN y := by
  obtain ⟨ys, hd, hl, hp⟩ := C60_tanh_partial (E := E) (T := exBig) (xs := [.f32 0x447A0000]) hE ho (Mem.addT_wf Mem.empty_wf _) (.inl rfl)
    exBig_at (tvOf_elems (by decide) rfl) out
  match ys, hl with
  | [y], _ =>
    refine ⟨y, hd, fun hn => ?_⟩
    have := ((hp 0 (by decide) (by simp) (by decide)).1.1 hn).1
    refine this ?_
    show E.fp.exp64 (asDouble (.f32 0x447A0000)) = _
    rw [exBig_double]; exact hi

/-- Exponentials for a line without NaN. -/
theorem exps_plus (ho : ExpOK ex) (hc : c = .f32 ∨ c = .f64) {es : List Val} (hw : ∀ x ∈ xs, x.WT c) (hn : ∀ x ∈ xs, NotNaN x)
    (hes : Pointwise (ExpOf (withExp ex) c) xs es) : ∀ e ∈ es, PlusVal e := by
  intro e hm
  obtain ⟨i, hi, rfl⟩ := List.getElem_of_mem hm
  have h1 : i < xs.length := by rw [hes.1]; exact hi
  exact (exp_plus ho (hw _ (List.getElem_mem h1)) hc (hn _ (List.getElem_mem h1)) (hes.2 i h1 hi)).2

theorem float_converts (fp : FloatOps) (hc : c = .f32 ∨ c = .f64) (v : Val) : ∃ w, Converts fp c v w := by
  rcases hc with rfl | rfl <;> exact ⟨_, rfl⟩

theorem sums_total (fp : FloatOps) : ∀ (es : List Val) (t : BitVec 64), ∃ r, SumsTo fp t es r
  | [], t => ⟨t, rfl⟩
  | e :: es, t => by
    obtain ⟨d, hd⟩ : ∃ d, Converts fp .f64 e (.f64 d) := ⟨_, rfl⟩
    obtain ⟨r, hr⟩ := sums_total fp es (fp.add64 t d)
    exact ⟨r, d, hd, hr⟩

theorem share_total (fp : FloatOps) (hc : c = .f32 ∨ c = .f64) (line : List Val) (e : Val) : ∃ y, ShareOf fp c line e y := by
  obtain ⟨t, ht⟩ := sums_total fp line (fp.ofInt64 0)
  obtain ⟨d, hd⟩ : ∃ d, Converts fp .f64 e (.f64 d) := ⟨_, rfl⟩
  obtain ⟨y, hy⟩ := float_converts fp hc (.f64 (fp.div64 d t))
  exact ⟨y, t, d, ht, hd, hy⟩

theorem exps_total (fp : FloatOps) (hc : c = .f32 ∨ c = .f64) : ∀ xs : List Val, ∃ es, Pointwise (ExpOf fp c) xs es
  | [] => ⟨[], rfl, fun _ h => absurd h (by simp)⟩
  | x :: xs => by
    obtain ⟨es, hl, hes⟩ := exps_total fp hc xs
    obtain ⟨d, hd⟩ : ∃ d, Converts fp .f64 x (.f64 d) := ⟨_, rfl⟩
    obtain ⟨e, he⟩ := float_converts fp hc (.f64 (fp.exp64 d))
    refine ⟨e :: es, by simp [hl], fun i h1 h2 => ?_⟩
    match i with
    | 0 => exact ⟨d, hd, he⟩
    | i + 1 => exact hes i (by simpa using h1) (by simpa using h2)

/-- The elements of a line belong to the tensor. -/
theorem line_mem {ds : List Nat} {a : Nat} {es : List Val} {cs : List Nat} (hl : es.length = prod ds) (ha : a < ds.length) (hc : InRange ds cs) :
    (∀ e ∈ lineAt ds a es cs, e ∈ es) ∧ elemAt ds es cs ∈ lineAt ds a es cs ∧
    ∀ j, j < ds[a] → InRange ds (cs.set a j) ∧ elemAt ds es (cs.set a j) ∈ lineAt ds a es cs ∧ lineAt ds a es (cs.set a j) = lineAt ds a es cs := by
  have hci := inRange_iff.1 hc
  have hset : ∀ j, j < ds[a] → InRange ds (cs.set a j) := fun j hj => by
    refine inRange_iff.2 ⟨by simp [hci.1], fun i h1 h2 => ?_⟩
    rw [List.getElem_set]
    split
    · next e => subst e; exact hj
    · exact hci.2 i _ h2
  have hgetD : ds.getD a 0 = ds[a] := by simp [List.getD, ha]
  refine ⟨fun e he => ?_, ?_, fun j hj => ⟨hset j hj, ?_, ?_⟩⟩
  · unfold lineAt at he
    obtain ⟨j, hj, rfl⟩ := List.mem_map.1 he
    rw [List.mem_range, hgetD] at hj
    have := lin_lt (hset j hj)
    rw [elemAt_get (by omega)]
    exact List.getElem_mem _
  · exact List.mem_of_getElem? (C37_line ha hc).2
  · unfold lineAt
    exact List.mem_map.2 ⟨j, by rw [List.mem_range, hgetD]; exact hj, rfl⟩
  · unfold lineAt
    simp

/-- C60, softmax along an axis of a tensor without NaN. The full claim is that every result is a number from 0 to 1. Missing: elements whose
exponential (converted to the element type) is infinite, and lines in which all of them are 0; they give a NaN. -/
theorem C60_softmax_partial {a : Nat} (hE : Machine E.fp) (ho : ExpOK E.fp.exp64) (wf : m.WF) (hc : c = .f32 ∨ c = .f64) (h : At m R T) (he : Elems T c xs)
    (hn : ∀ x ∈ xs, NotNaN x) (ha : a < T.dims.length) (hsz : prod T.dims < 4611686018427387904) (out : Ptr) :
    ∃ es ys, Pointwise (ExpOf E.fp c) xs es ∧ Tries E (softmax R.h a out) m ⟨T.dtype, T.device, T.dims, encAll c ys⟩ ∧ ys.length = xs.length ∧
      ∀ cs, InRange T.dims cs →
        ((NotNaN (elemAt T.dims ys cs) ↔ ¬ IsInf (elemAt T.dims es cs) ∧ ∃ e ∈ lineAt T.dims a es cs, Positive e) ∧
        (NotNaN (elemAt T.dims ys cs) → InUnit (elemAt T.dims ys cs))) ∧
        (ExpMono E.fp.exp64 → ∀ j, j < T.dims[a] → AtMost (elemAt T.dims xs cs) (elemAt T.dims xs (cs.set a j)) → NotNaN (elemAt T.dims ys (cs.set a j)) →
          AtMost (elemAt T.dims ys cs) (elemAt T.dims ys (cs.set a j))) := by
  obtain ⟨es, hes⟩ := exps_total E.fp hc xs
  have hel : es.length = prod T.dims := by rw [← hes.1, he.len]
  obtain ⟨ys, hl, hys⟩ := exists_elems (ds := T.dims) (P := fun cs y => ShareOf E.fp c (lineAt T.dims a es cs) (elemAt T.dims es cs) y)
    (fun cs _ => share_total E.fp hc _ _)
  refine ⟨es, ys, hes, C37_axis wf h he ha hsz hes (by rw [hl, he.len]) hys out, by rw [hl, he.len], fun cs hcs => ?_⟩
  simp only [hE.sigmoid, hE.tanh, hE.expOf, hE.share] at hes hys
  have hp := exps_plus ho hc he.wt hn hes
  obtain ⟨l1, l2, l3⟩ := line_mem (a := a) hel ha hcs
  have hpl := fun e he => hp e (l1 e he)
  refine ⟨share_exact hc hpl l2 (hys cs hcs), fun hm j hj hle hnn => ?_⟩
  obtain ⟨k1, k2, k3⟩ := l3 j hj
  have hs2 := hys _ k1
  rw [k3] at hs2
  have x1 := lin_lt hcs
  have x2 := lin_lt k1
  have hxl := he.len
  rw [elemAt_get (zs := xs) (by omega), elemAt_get (zs := xs) (by omega)] at hle
  refine share_order hc hpl l2 k2 ?_ (hys cs hcs) hs2 hnn
  rw [elemAt_get (zs := es) (by omega), elemAt_get (zs := es) (by omega)]
  exact exp_order ho hm (he.wt _ (List.getElem_mem _)) (he.wt _ (List.getElem_mem _)) hc hle (hes.2 _ (by omega) (by omega)) (hes.2 _ (by omega) (by omega))

/-- C60, softmax over all elements (axis -1). -/
theorem C60_softmax_all_partial (hE : Machine E.fp) (ho : ExpOK E.fp.exp64) (wf : m.WF) (hc : c = .f32 ∨ c = .f64) (h : At m R T) (he : Elems T c xs)
    (hn : ∀ x ∈ xs, NotNaN x) (out : Ptr) :
    ∃ es ys, Pointwise (ExpOf E.fp c) xs es ∧ Tries E (softmax R.h (-1) out) m ⟨T.dtype, T.device, T.dims, encAll c ys⟩ ∧ ys.length = xs.length ∧
      ∀ i (_ : i < es.length) (_ : i < ys.length),
        ((NotNaN ys[i] ↔ ¬ IsInf es[i] ∧ ∃ e ∈ es, Positive e) ∧ (NotNaN ys[i] → InUnit ys[i])) ∧
        (ExpMono E.fp.exp64 → ∀ j (_ : i < xs.length) (_ : j < xs.length) (_ : j < ys.length), AtMost xs[i] xs[j] → NotNaN ys[j] → AtMost ys[i] ys[j]) := by
  obtain ⟨es, hes⟩ := exps_total E.fp hc xs
  have hel : es.length = prod T.dims := by rw [← hes.1, he.len]
  have hys : ∃ ys, Pointwise (ShareOf E.fp c es) es ys := by
    have : ∀ l : List Val, ∃ ys, Pointwise (ShareOf E.fp c es) l ys := by
      intro l
      induction l with
      | nil => exact ⟨[], rfl, fun _ h => absurd h (by simp)⟩
      | cons e l ih =>
        obtain ⟨ys, h1, h2⟩ := ih
        obtain ⟨y, hy⟩ := share_total E.fp hc es e
        refine ⟨y :: ys, by simp [h1], fun i h3 h4 => ?_⟩
        match i with
        | 0 => exact hy
        | i + 1 => exact h2 i (by simpa using h3) (by simpa using h4)
    exact this es
  obtain ⟨ys, hys⟩ := hys
  refine ⟨es, ys, hes, C37_all wf h he hes hys out, by rw [← hys.1, ← hes.1], fun i h1 h2 => ?_⟩
  have hil := hes.1
  have hyl := hys.1
  simp only [hE.sigmoid, hE.tanh, hE.expOf, hE.share] at hes hys
  have hp := exps_plus ho hc he.wt hn hes
  refine ⟨share_exact hc hp (List.getElem_mem h1) (hys.2 i h1 h2), fun hm j h3 h4 h5 hle hnn => ?_⟩
  exact share_order hc hp (List.getElem_mem h1) (List.getElem_mem (by omega))
    (exp_order ho hm (he.wt _ (List.getElem_mem _)) (he.wt _ (List.getElem_mem _)) hc hle (hes.2 i h3 h1) (hes.2 j h4 (by omega)))
    (hys.2 i h1 h2) (hys.2 j (by omega) h5) hnn

/-- C60, violated: softmax of 1000 (a tensor of one element, so the result should be 1) is a NaN. -/
theorem C60_softmax_violated (hE : Machine E.fp) (ho : ExpOK E.fp.exp64) (hi : E.fp.exp64 0x408F400000000000 = 0x7FF0000000000000) (out : Ptr) :
    ∃ y, Tries E (softmax Mem.empty.footT.h 0 out) (Mem.empty.addT exBig) ⟨Code.f32.dtype, ⟨DEVICE_CPU, 0⟩, [1], encAll .f32 [y]⟩ ∧ ¬ NotNaN y := by
  have hexp : ∀ e, ExpOf (withExp E.fp.exp64) .f32 (.f32 0x447A0000) e → IsInf e := by
    rintro e ⟨d, hd, he⟩
    have h1 : d = asDouble (.f32 0x447A0000) := by have : Val.f64 d = .f64 _ := hd; injection this
    subst h1
    have h2 : e = .f32 (ieee.narrow (E.fp.exp64 (asDouble (.f32 0x447A0000)))) := he
    rw [exBig_double, hi] at h2
    subst h2
    decide +kernel
  obtain ⟨es, ys, hes, ht, hl, hp⟩ := C60_softmax_partial (E := E) (T := exBig) (xs := [.f32 0x447A0000]) (a := 0) hE ho
    (Mem.addT_wf Mem.empty_wf _) (.inl rfl) exBig_at (tvOf_elems (by decide) rfl) (by decide) (by decide) (by decide) out
  match es, ys, hes, hl with
  | [e], [y], hes, _ =>
    refine ⟨y, ht, fun hn => ?_⟩
    have h1 := hes.2 0 (by simp) (by simp)
    simp only [hE.sigmoid, hE.tanh, hE.expOf, hE.share] at h1
    exact ((hp [0] ⟨by decide, trivial⟩).1.1.1 hn).1 (hexp e h1)

/-- The exponential function of `ieee` overflows there. -/
example : ieee.exp64 0x408F400000000000 = 0x7FF0000000000000 := by decide +kernel

/-- Softmax of 1 and 2. -/
example : ∃ y0 y1, Tries ieeeEnv (softmax Mem.empty.footT.h 0 .indet) (Mem.empty.addT (tvOf .f32 [2] [.f32 0x3F800000, .f32 0x40000000]))
      ⟨Code.f32.dtype, ⟨DEVICE_CPU, 0⟩, [2], encAll .f32 [y0, y1]⟩ ∧ InUnit y0 ∧ InUnit y1 ∧ AtMost y0 y1 := by
  obtain ⟨es, ys, hes, ht, hl, hp⟩ := C60_softmax_partial (E := ieeeEnv) (T := tvOf .f32 [2] [.f32 0x3F800000, .f32 0x40000000])
    (xs := [.f32 0x3F800000, .f32 0x40000000]) (c := .f32) (a := 0) C59_exp.2.2 C59_exp.1 (Mem.addT_wf Mem.empty_wf _) (.inl rfl)
    (tvOf_at _ (by simp) rfl ⟨by decide, by decide⟩) (tvOf_elems (by decide) rfl) (by decide) (by decide) (by decide) .indet
  match es, ys, hes, hl with
  | [e0, e1], [y0, y1], hes, _ =>
    have h0 : ∀ x e, ExpOf ieee .f32 (.f32 x) e → e = .f32 (ieee.narrow (ieee.exp64 (ieee.widen x))) := by
      rintro x e ⟨d, hd, he⟩
      have h1 : d = ieee.widen x := by have : Val.f64 d = .f64 _ := hd; injection this
      subst h1
      exact he
    have e0' := h0 _ _ (hes.2 0 (by simp) (by simp))
    have e1' := h0 _ _ (hes.2 1 (by simp) (by simp))
    simp only [List.getElem_cons_zero, List.getElem_cons_succ] at e0' e1'
    have hc0 : InRange [2] [0] := ⟨by decide, trivial⟩
    have hc1 : InRange [2] [1] := ⟨by decide, trivial⟩
    have p0 := hp [0] hc0
    have p1 := hp [1] hc1
    have f0 : ¬ IsInf e0 ∧ Positive e0 := by rw [e0']; decide +kernel
    have f1 : ¬ IsInf e1 ∧ Positive e1 := by rw [e1']; decide +kernel
    have n0 := p0.1.1.2 ⟨f0.1, e0, by simp [lineAt, elemAt, tvOf, lin, List.range_succ], f0.2⟩
    have n1 := p1.1.1.2 ⟨f1.1, e0, by simp [lineAt, elemAt, tvOf, lin, List.range_succ], f0.2⟩
    exact ⟨y0, y1, ht, p0.1.2 n0, p1.1.2 n1, p0.2 C59_exp.2.1 1 (by decide) ⟨by decide, by decide, by decide +kernel⟩ n1⟩

/-- Tanh of 1 and -1. -/
example : ∃ y0 y1, Delivers ieeeEnv (tanh Mem.empty.footT.h .indet) (Mem.empty.addT (tvOf .f32 [2] [.f32 0x3F800000, .f32 0xBF800000]))
      .indet .f32 ⟨DEVICE_CPU, 0⟩ [2] [y0, y1] ∧ (NotNaN y0 → y1 = negVal y0) := by
  obtain ⟨ys, hd, hl, hp⟩ := C60_tanh_odd (E := ieeeEnv) (T := tvOf .f32 [2] [.f32 0x3F800000, .f32 0xBF800000])
    (xs := [.f32 0x3F800000, .f32 0xBF800000]) (c := .f32) C59_exp.2.2 C59_exp.1 (Mem.addT_wf Mem.empty_wf _) (.inl rfl)
    (tvOf_at _ (by simp) rfl ⟨by decide, by decide⟩) (tvOf_elems (by decide) rfl) .indet
  match ys, hl with
  | [y0, y1], _ =>
    have hne : ieee.exp64 (asDouble (.f32 0x3F800000)) ≠ ieee.exp64 (negDouble (.f32 0x3F800000)) := by decide +kernel
    exact ⟨y0, y1, hd, fun hn => hp 0 1 (by simp) (by simp) (by simp) (by simp) (by decide +kernel) (by decide) hn hne⟩

end Aitisa
