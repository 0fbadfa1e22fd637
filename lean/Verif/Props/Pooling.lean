import Verif.Proof.PoolingModes
import Verif.Spec.Example
import Verif.Spec.Matmul

/-!
# Properties C38, C39: pooling

`fuel` is the number of iterations the model grants to each `while` loop; the theorems hold for every sufficient number, so
the loops terminate.
-/

namespace Aitisa

variable {E : Env} {m : Mem} {R : Foot} {T : TV} {ws : List Win} {B C : Nat} {xs zs : List Val} {c : Code} {fuel : Nat}

/-! ## C38 -/

/-- C38. Average pooling of a tensor of rank 3 to 5: output dims by the documented formula, and each element is the sum of the
elements of its window that are not padding, divided by the window size, converted to the element type.  The number of windows
of a channel must fit in `int` (the code counts them in one) and the window size in `int64_t`. -/
theorem C38_avg (wf : m.WF) (h1 : At m R T) (he : Elems T c xs) (hs : T.dims = B :: C :: ws.map Win.x) (hw : 1 ≤ ws.length)
    (hw' : ws.length ≤ 3) (h : ∀ w ∈ ws, w.Fits ∧ w.Small) (hso : ShapeOK (B :: C :: ws.map Win.out) c.size)
    (hi : prod (ws.map Win.out) ≤ 2147483647) (hK : prod (ws.map Win.k) ≤ 9223372036854775807)
    (hf : prod (ws.map Win.k) ≤ fuel) (hf' : prod (ws.map Win.out) ≤ fuel) (hl : zs.length = prod (B :: C :: ws.map Win.out))
    (hz : ∀ b ch os, InRange (B :: C :: ws.map Win.out) (b :: ch :: os) →
      AvgOf E.fp c (prod (ws.map Win.k)) (winElems T.dims xs ws b ch os) (elemAt (B :: C :: ws.map Win.out) zs (b :: ch :: os)))
    (out : Ptr) :
    Attempts E (pooling fuel R.h "avg" (dimsCells (ws.map Win.k)) (dimsCells (ws.map Win.s)) (dimsCells (ws.map Win.p))
      (dimsCells (ws.map Win.d)) out) m ⟨c.dtype, T.device, B :: C :: ws.map Win.out, encAll c zs⟩ :=
  pooling_avg wf h1 he hs h hw hw' hso hi hK hf hf' hl hz out

/-- C38. Max pooling: each element is the outcome of scanning its window from 0.0, converted to the element type (for how this
relates to the maximum see C39). -/
theorem C38_max (wf : m.WF) (h1 : At m R T) (he : Elems T c xs) (hs : T.dims = B :: C :: ws.map Win.x) (hw : 1 ≤ ws.length)
    (hw' : ws.length ≤ 3) (h : ∀ w ∈ ws, w.Fits ∧ w.Small) (hso : ShapeOK (B :: C :: ws.map Win.out) c.size)
    (hi : prod (ws.map Win.out) ≤ 2147483647) (hK : prod (ws.map Win.k) ≤ 9223372036854775807)
    (hf : prod (ws.map Win.k) ≤ fuel) (hf' : prod (ws.map Win.out) ≤ fuel) (hl : zs.length = prod (B :: C :: ws.map Win.out))
    (hz : ∀ b ch os, InRange (B :: C :: ws.map Win.out) (b :: ch :: os) →
      ScanOf E.fp c (winElems T.dims xs ws b ch os) (elemAt (B :: C :: ws.map Win.out) zs (b :: ch :: os)))
    (out : Ptr) :
    Attempts E (pooling fuel R.h "max" (dimsCells (ws.map Win.k)) (dimsCells (ws.map Win.s)) (dimsCells (ws.map Win.p))
      (dimsCells (ws.map Win.d)) out) m ⟨c.dtype, T.device, B :: C :: ws.map Win.out, encAll c zs⟩ :=
  pooling_max wf h1 he hs h hw hw' hso hi hK hf hf' hl hz out

theorem float_cast (fp : FloatOps) (hc : c = .f32 ∨ c = .f64) (d : BitVec 64) : ∃ y, Converts fp c (.f64 d) y := by
  rcases hc with rfl | rfl
  · exact ⟨.f32 (fp.narrow d), by simp [Converts]⟩
  · exact ⟨.f64 d, by simp [Converts]⟩

/-- C38. For the float types the elements always exist: both modes produce a tensor for all data. -/
theorem C38_float (hc : c = .f32 ∨ c = .f64) (wf : m.WF) (h1 : At m R T) (he : Elems T c xs) (hs : T.dims = B :: C :: ws.map Win.x)
    (hw : 1 ≤ ws.length) (hw' : ws.length ≤ 3) (h : ∀ w ∈ ws, w.Fits ∧ w.Small) (hso : ShapeOK (B :: C :: ws.map Win.out) c.size)
    (hi : prod (ws.map Win.out) ≤ 2147483647) (hK : prod (ws.map Win.k) ≤ 9223372036854775807)
    (hf : prod (ws.map Win.k) ≤ fuel) (hf' : prod (ws.map Win.out) ≤ fuel) (mode : String) (hm : mode = "avg" ∨ mode = "max") (out : Ptr) :
    ∃ zs : List Val, zs.length = prod (B :: C :: ws.map Win.out) ∧
    Attempts E (pooling fuel R.h mode (dimsCells (ws.map Win.k)) (dimsCells (ws.map Win.s)) (dimsCells (ws.map Win.p))
      (dimsCells (ws.map Win.d)) out) m ⟨c.dtype, T.device, B :: C :: ws.map Win.out, encAll c zs⟩ := by
  rcases hm with rfl | rfl
  · obtain ⟨zs, hl, hz⟩ := exists_elems (ds := B :: C :: ws.map Win.out)
      (P := fun cs y => ∀ b ch os, cs = b :: ch :: os → AvgOf E.fp c (prod (ws.map Win.k)) (winElems T.dims xs ws b ch os) y) (by
        intro cs hcs
        match cs, hcs with
        | b :: ch :: os, _ =>
          obtain ⟨y, hy⟩ := float_cast E.fp hc (E.fp.div64 ((winElems T.dims xs ws b ch os).foldl
            (fun t e => E.fp.add64 t (toDouble E.fp e)) (E.fp.ofInt64 0)) (E.fp.ofInt64 (prod (ws.map Win.k) : Nat)))
          exact ⟨y, fun _ _ _ e => by injection e with e1 e; injection e with e2 e; subst e1 e2 e; exact avgOf_iff.2 (converts_iff.1 hy)⟩)
    exact ⟨zs, hl, C38_avg wf h1 he hs hw hw' h hso hi hK hf hf' hl (fun b ch os ho => hz _ ho b ch os rfl) out⟩
  · obtain ⟨zs, hl, hz⟩ := exists_elems (ds := B :: C :: ws.map Win.out)
      (P := fun cs y => ∀ b ch os, cs = b :: ch :: os → ScanOf E.fp c (winElems T.dims xs ws b ch os) y) (by
        intro cs hcs
        match cs, hcs with
        | b :: ch :: os, _ =>
          obtain ⟨y, hy⟩ := float_cast E.fp hc ((winElems T.dims xs ws b ch os).foldl
            (fun t e => if E.fp.lt64 t (toDouble E.fp e) then toDouble E.fp e else t) (E.fp.ofInt64 0))
          exact ⟨y, fun _ _ _ e => by injection e with e1 e; injection e with e2 e; subst e1 e2 e; exact scanOf_iff.2 (converts_iff.1 hy)⟩)
    exact ⟨zs, hl, C38_max wf h1 he hs hw hw' h hso hi hK hf hf' hl (fun b ch os ho => hz _ ho b ch os rfl) out⟩

/-- C38. The window in the specification is the documented one: position `q` of window `o` is `o * stride + q * dilation -
padding`, provided this is a position of the axis, for every axis. -/
theorem C38_window {os qs cs : List Nat} (ho : os.length = ws.length) (hq : qs.length = ws.length) :
    winAt ws os qs = some cs ↔ cs.length = ws.length ∧ ∀ i (h1 : i < ws.length) (h2 : i < os.length) (h3 : i < qs.length) (h4 : i < cs.length),
      (cs[i] : Int) = os[i] * ws[i].s + qs[i] * ws[i].d - ws[i].p ∧ cs[i] < ws[i].x := by
  induction ws generalizing os qs cs with
  | nil => cases cs <;> simp [winAt]
  | cons w ws ih =>
    match os, qs, ho, hq with
    | o :: os, q :: qs, ho, hq =>
      have ho' : os.length = ws.length := by simpa using ho
      have hq' : qs.length = ws.length := by simpa using hq
      simp only [winAt]
      constructor
      · intro h
        split at h
        · rename_i hin
          simp only [Option.map_eq_some_iff] at h
          obtain ⟨cs', h', rfl⟩ := h
          obtain ⟨l, g⟩ := (ih ho' hq').1 h'
          refine ⟨by simpa using l, fun i h1 h2 h3 h4 => ?_⟩
          cases i with
          | zero => simp only [List.getElem_cons_zero]; rw [← Int.natCast_mul, ← Int.natCast_mul]; omega
          | succ i => exact g i (by simpa using h1) (by simpa using h2) (by simpa using h3) (by simpa using h4)
        · simp at h
      · rintro ⟨l, g⟩
        match cs, l with
        | a :: cs, l =>
          have g0 := g 0 (by simp) (by simp) (by simp) (by simp)
          simp only [List.getElem_cons_zero] at g0
          rw [← Int.natCast_mul, ← Int.natCast_mul] at g0
          rw [if_pos (by omega)]
          have := (ih ho' hq' (cs := cs)).2 ⟨by simpa using l, fun i h1 h2 h3 h4 => by
            exact g (i + 1) (by simpa using h1) (by simpa using h2) (by simpa using h3) (by simpa using h4)⟩
          rw [this]
          simp only [Option.map_some, Option.some.injEq, List.cons.injEq, and_true]
          omega

/-- C38. The number of windows along an axis is the number of positions where the window fits in the padded axis. -/
theorem C38_count {w : Win} (h : w.Fits) (o : Nat) : o < w.out ↔ o * w.s + w.d * (w.k - 1) + 1 ≤ w.x + 2 * w.p :=
  ⟨Win.start_le h, Win.out_le h⟩

/-- C38. A tensor of another rank is refused without effect. -/
theorem C38_rank (h1 : At m R T) (hr : T.dims.length < 3 ∨ 5 < T.dims.length) (mode : String) (k s p d : Arr) (out : Ptr) :
    pooling fuel R.h mode k s p d out E m = .ok (.dimensionsMismatch, out) m :=
  pooling_rank h1 hr mode k s p d out

/-- C38. A window larger than the padded axis is refused: `STATUS_INVALID_ARGUMENT`, `*output` and existing memory unchanged.
The six scratch arrays are leaked. -/
theorem C38_too_large (wf : m.WF) (h1 : At m R T) (hs : T.dims = B :: C :: ws.map Win.x) (hw : 1 ≤ ws.length) (hw' : ws.length ≤ 3)
    (hsm : ∀ w ∈ ws, 1 ≤ w.k ∧ w.x + 2 * w.p ≤ 2147483647 ∧ w.d * (w.k - 1) + 1 ≤ 2147483647 ∧ w.k ≤ 2147483647)
    (hbig : ∃ w ∈ ws, w.x + 2 * w.p < w.d * (w.k - 1) + 1) (mode : String) (s : Arr) (out : Ptr) :
    ∃ m', pooling fuel R.h mode (dimsCells (ws.map Win.k)) s (dimsCells (ws.map Win.p)) (dimsCells (ws.map Win.d)) out E m =
      .ok (.invalidArgument, out) m' ∧ Frame m m' ∧ m'.WF ∧
      (E.NoFail → ∃ L : List Nat, L.Nodup ∧ L.length = 6 ∧ ∀ b ∈ L, m.next ≤ b ∧ m'.blk b ≠ none) :=
  pooling_large wf h1 hs hw hw' hsm hbig mode s out

/-- C38, limit: with any mode other than "avg" and "max" the call is not refused; the elements are left uninitialised. -/
theorem C38_other_mode {mode : String} (ha : mode ≠ "avg") (hm : mode ≠ "max") (wf : m.WF) (h1 : At m R T) (hd : T.dtype = c.dtype)
    (hs : T.dims = B :: C :: ws.map Win.x) (hw : 1 ≤ ws.length) (hw' : ws.length ≤ 3) (h : ∀ w ∈ ws, w.Fits ∧ w.Small)
    (hso : ShapeOK (B :: C :: ws.map Win.out) c.size)
    (hi : prod (ws.map Win.out) ≤ 2147483647) (hK : prod (ws.map Win.k) ≤ 9223372036854775807)
    (hf : prod (ws.map Win.k) ≤ fuel) (hf' : prod (ws.map Win.out) ≤ fuel) (out : Ptr) :
    Attempts E (pooling fuel R.h mode (dimsCells (ws.map Win.k)) (dimsCells (ws.map Win.s)) (dimsCells (ws.map Win.p))
      (dimsCells (ws.map Win.d)) out) m
      ⟨c.dtype, T.device, B :: C :: ws.map Win.out, List.replicate (prod (B :: C :: ws.map Win.out) * c.size) none⟩ :=
  pooling_other ha hm wf h1 hd hs h hw hw' hso hi hK hf hf' out

/-! ### Examples -/

/-- One sample, one channel, four numbers. -/
def exPo : TV := tvOf .i32 [1, 1, 4] ([6, 2, 9, 5].map .int)

theorem exPo_at : At (Mem.empty.addT exPo) Mem.empty.footT exPo :=
  tvOf_at _ (by simp) rfl ⟨by decide, by decide⟩

theorem exPo_elems : Elems exPo .i32 ([6, 2, 9, 5].map .int) := tvOf_elems (by decide) rfl

/-- Window of two elements at distance 2, stride 2, padding 1: the windows are (padding, 2) and (2, 5). -/
def exWin : Win := ⟨4, 2, 2, 1, 2⟩

example : winElems [1, 1, 4] ([6, 2, 9, 5].map .int) [exWin] 0 0 [0] = [.int 2] ∧
    winElems [1, 1, 4] ([6, 2, 9, 5].map .int) [exWin] 0 0 [1] = [.int 2, .int 5] := by decide

theorem exWin_ok : ∀ w ∈ [exWin], w.Fits ∧ w.Small := by
  intro w hw
  rw [List.mem_singleton.1 hw]
  exact ⟨⟨by decide, by decide, by decide, by decide⟩, ⟨by decide, by decide, by decide⟩⟩

/-- Their averages (truncated) are 1 and 3. -/
example : Attempts okEnv (pooling 10 Mem.empty.footT.h "avg" (dimsCells [2]) (dimsCells [2]) (dimsCells [1]) (dimsCells [2]) .indet)
    (Mem.empty.addT exPo) (tvOf .i32 [1, 1, 2] ([1, 3].map .int)) :=
  C38_avg (E := okEnv) (ws := [exWin]) (B := 1) (C := 1) (zs := [1, 3].map .int) (Mem.addT_wf Mem.empty_wf _) exPo_at exPo_elems rfl (by decide)
    (by decide) exWin_ok ⟨by decide, by decide⟩ (by decide) (by decide) (by decide) (by decide) (by decide) (by
      intro b ch os ho
      match os, ho with
      | [o], ⟨h1, h2, h3, _⟩ =>
        have h3 : o < 2 := h3
        obtain rfl : b = 0 := by omega
        obtain rfl : ch = 0 := by omega
        rw [avgOf_iff]
        match o, h3 with
        | 0, _ => decide
        | 1, _ => decide) .indet

example : pooling 10 Mem.empty.footT.h "avg" (dimsCells [2]) (dimsCells [2]) (dimsCells [1]) (dimsCells [2]) .indet okEnv
    exMem = .ok (.dimensionsMismatch, .indet) exMem :=
  C38_rank exA_at (by decide) _ _ _ _ _ _

/-- A window of 7 elements on an axis of 4 with padding 1. -/
example : ∃ m', pooling 10 Mem.empty.footT.h "avg" (dimsCells [7]) (dimsCells [1]) (dimsCells [1]) (dimsCells [1]) .indet okEnv
    (Mem.empty.addT exPo) = .ok (.invalidArgument, .indet) m' :=
  (C38_too_large (E := okEnv) (B := 1) (C := 1) (ws := [⟨4, 7, 1, 1, 1⟩]) (Mem.addT_wf Mem.empty_wf _) exPo_at rfl (by decide) (by decide)
    (by simp) (by simp) "avg" (dimsCells [1]) .indet).imp fun _ h => h.1

example : Attempts okEnv (pooling 10 Mem.empty.footT.h "sum" (dimsCells [2]) (dimsCells [2]) (dimsCells [1]) (dimsCells [2]) .indet)
    (Mem.empty.addT exPo) ⟨Code.i32.dtype, exPo.device, [1, 1, 2], List.replicate 8 none⟩ :=
  C38_other_mode (E := okEnv) (ws := [exWin]) (B := 1) (C := 1) (c := .i32) (by decide) (by decide) (Mem.addT_wf Mem.empty_wf _) exPo_at rfl rfl
    (by decide) (by decide) exWin_ok ⟨by decide, by decide⟩ (by decide) (by decide) (by decide) (by decide) .indet

/-! ## C39 -/

theorem scan_low {fp : FloatOps} {es : List Val} {t : BitVec 64} (h : ∀ e ∈ es, fp.lt64 t (toDouble fp e) = false) :
    es.foldl (fun t e => if fp.lt64 t (toDouble fp e) then toDouble fp e else t) t = t := by
  induction es with
  | nil => rfl
  | cons e es ih =>
    rw [List.foldl_cons, h e (by simp)]
    exact ih fun e' he => h e' (by simp [he])

/-- C39 is violated: for every window none of whose elements is above 0.0, the output of the scan is 0.0, whatever the
elements are. -/
theorem C39_nonpositive_violated {fp : FloatOps} {es : List Val} {y : Val}
    (h : ∀ e ∈ es, ∀ d, Converts fp .f64 e (.f64 d) → fp.lt64 (fp.ofInt64 0) d = false) (hy : ScanOf fp c es y) :
    Converts fp c (.f64 (fp.ofInt64 0)) y := by
  rw [scanOf_iff, scan_low fun e he => h e he _ (converts_f64.2 rfl)] at hy
  exact converts_iff.2 hy

/-- Two negative numbers. -/
def exNeg : TV := tvOf .i32 [1, 1, 2] ([-5, -3].map .int)

theorem exNeg_at : At (Mem.empty.addT exNeg) Mem.empty.footT exNeg :=
  tvOf_at _ (by simp) rfl ⟨by decide, by decide⟩

theorem exNeg_elems : Elems exNeg .i32 ([-5, -3].map .int) := tvOf_elems (by decide) rfl

/-- C39 is violated: in every environment whose arithmetic knows that `-5.0` and `-3.0` are not above `0.0` and truncates `0.0` to
0, max pooling of `-5, -3` gives 0. -/
theorem C39_violated {E : Env} (h5 : E.fp.lt64 (E.fp.ofInt64 0) (E.fp.ofInt64 (-5)) = false)
    (h3 : E.fp.lt64 (E.fp.ofInt64 0) (E.fp.ofInt64 (-3)) = false) (h0 : E.fp.trunc64 (E.fp.ofInt64 0) = some 0) :
    Attempts E (pooling 10 Mem.empty.footT.h "max" (dimsCells [2]) (dimsCells [1]) (dimsCells [0]) (dimsCells [1]) .indet)
      (Mem.empty.addT exNeg) (tvOf .i32 [1, 1, 1] [.int 0]) :=
  C38_max (E := E) (ws := [⟨2, 2, 1, 0, 1⟩]) (B := 1) (C := 1) (zs := [.int 0]) (Mem.addT_wf Mem.empty_wf _) exNeg_at exNeg_elems rfl (by decide)
    (by decide) (by simp; exact ⟨⟨by decide, by decide, by decide, by decide⟩, ⟨by decide, by decide, by decide⟩⟩)
    ⟨by decide, by decide⟩ (by decide) (by decide) (by decide) (by decide) (by decide) (by
      intro b ch os ho
      match os, ho with
      | [o], ⟨h1, h2, h3', _⟩ =>
        have h3' : o < 1 := h3'
        obtain rfl : b = 0 := by omega
        obtain rfl : ch = 0 := by omega
        obtain rfl : o = 0 := by omega
        have hw : winElems exNeg.dims ([-5, -3].map .int) [⟨2, 2, 1, 0, 1⟩] 0 0 [0] = [.int (-5), .int (-3)] := by decide
        rw [scanOf_iff, hw, scan_low (by simp [toDouble, h5, h3])]
        simp [cCast, h0, elemAt, Code.wrap]
        decide) .indet

example : Attempts okEnv (pooling 10 Mem.empty.footT.h "max" (dimsCells [2]) (dimsCells [1]) (dimsCells [0]) (dimsCells [1]) .indet)
    (Mem.empty.addT exNeg) (tvOf .i32 [1, 1, 1] [.int 0]) :=
  C39_violated (by decide) (by decide) (by decide)

theorem scan_max {fp : FloatOps} {D : List (BitVec 64)} (ho : Ordered fp D) {es : List Val} (he : ∀ e ∈ es, toDouble fp e ∈ D)
    {t r : BitVec 64} (ht : t ∈ D)
    (hr : es.foldl (fun t e => if fp.lt64 t (toDouble fp e) then toDouble fp e else t) t = r) :
    (r = t ∨ ∃ e ∈ es, r = toDouble fp e) ∧ fp.lt64 r t = false ∧ ∀ e ∈ es, fp.lt64 r (toDouble fp e) = false := by
  have irr : ∀ a ∈ D, fp.lt64 a a = false := fun a ha => by
    cases hc : fp.lt64 a a with
    | false => rfl
    | true => exact absurd (ho.asymm a ha a ha hc) (by simp [hc])
  induction es generalizing t with
  | nil => exact ⟨.inl hr.symm, by rw [← hr]; exact irr t ht, by simp⟩
  | cons e es ih =>
    have hD := he e (by simp)
    rw [List.foldl_cons] at hr
    by_cases hlt : fp.lt64 t (toDouble fp e) = true
    · rw [if_pos hlt] at hr
      obtain ⟨h1, h2, h3⟩ := ih (fun e' h => he e' (by simp [h])) hD hr
      have hrD : r ∈ D := by
        rcases h1 with h | ⟨e', h, h'⟩
        · rw [h]; exact hD
        · rw [h']; exact he e' (by simp [h])
      refine ⟨.inr ?_, ho.trans _ hrD _ hD _ ht h2 (ho.asymm _ ht _ hD hlt), fun e' h => ?_⟩
      · rcases h1 with h | ⟨e', h, h'⟩
        · exact ⟨e, by simp, h⟩
        · exact ⟨e', by simp [h], h'⟩
      · rcases List.mem_cons.1 h with rfl | h
        · exact h2
        · exact h3 e' h
    · rw [if_neg hlt] at hr
      obtain ⟨h1, h2, h3⟩ := ih (fun e' h => he e' (by simp [h])) ht hr
      have hrD : r ∈ D := by
        rcases h1 with h | ⟨e', h, h'⟩
        · rw [h]; exact ht
        · rw [h']; exact he e' (by simp [h])
      refine ⟨?_, h2, fun e' h => ?_⟩
      · rcases h1 with h | ⟨e', h, h'⟩
        · exact .inl h
        · exact .inr ⟨e', by simp [h], h'⟩
      · rcases List.mem_cons.1 h with rfl | h
        · exact ho.trans _ hrD _ ht _ hD h2 (by simpa using hlt)
        · exact h3 e' h

/-- C39 for windows with an element above 0.0: the output is a maximum of the window, after conversion to `double` and back. -/
theorem C39_window_partial {fp : FloatOps} {D : List (BitVec 64)} {es : List Val} {y : Val} (ho : Ordered fp (fp.ofInt64 0 :: D))
    (hD : ∀ e ∈ es, ∃ d ∈ D, Converts fp .f64 e (.f64 d))
    (hp : ∃ e ∈ es, ∃ d, Converts fp .f64 e (.f64 d) ∧ fp.lt64 (fp.ofInt64 0) d = true) (hy : ScanOf fp c es y) :
    ∃ e, MaxOf fp es e ∧ ThroughDouble fp c e y := by
  obtain ⟨e0, he0, d0, hd0, hpos⟩ := hp
  rw [converts_f64] at hd0
  subst hd0
  obtain ⟨r, hr⟩ : ∃ r, es.foldl (fun t e => if fp.lt64 t (toDouble fp e) then toDouble fp e else t) (fp.ofInt64 0) = r := ⟨_, rfl⟩
  obtain ⟨h1, -, h2⟩ := scan_max ho (fun e he => by
    obtain ⟨d, hd, hc⟩ := hD e he
    rw [converts_f64] at hc
    rw [← hc]; exact List.mem_cons_of_mem _ hd) (by simp) hr
  rw [scanOf_iff, hr] at hy
  rcases h1 with h1 | ⟨e, he, h1⟩
  · have := h2 e0 he0
    rw [h1, hpos] at this
    exact absurd this (by simp)
  · refine ⟨e, ⟨he, fun e' he' d d' hd hd' => ?_⟩, toDouble fp e, converts_f64.2 rfl, ?_⟩
    · rw [converts_f64] at hd hd'
      rw [hd, hd', ← h1]; exact h2 e' he'
    · rw [converts_iff, ← h1]; exact hy

/-- C39 for the whole call: where every window has an element above 0.0, every output element is a maximum of its window.  What is
missing is the windows without such an element, where the claim is false. -/
theorem C39_positive_partial {D : List (BitVec 64)} (wf : m.WF) (h1 : At m R T) (he : Elems T c xs) (hs : T.dims = B :: C :: ws.map Win.x) (hw : 1 ≤ ws.length)
    (hw' : ws.length ≤ 3) (h : ∀ w ∈ ws, w.Fits ∧ w.Small) (hso : ShapeOK (B :: C :: ws.map Win.out) c.size)
    (hi : prod (ws.map Win.out) ≤ 2147483647) (hK : prod (ws.map Win.k) ≤ 9223372036854775807)
    (hf : prod (ws.map Win.k) ≤ fuel) (hf' : prod (ws.map Win.out) ≤ fuel) (hl : zs.length = prod (B :: C :: ws.map Win.out))
    (hz : ∀ b ch os, InRange (B :: C :: ws.map Win.out) (b :: ch :: os) →
      ScanOf E.fp c (winElems T.dims xs ws b ch os) (elemAt (B :: C :: ws.map Win.out) zs (b :: ch :: os)))
    (ho : Ordered E.fp (E.fp.ofInt64 0 :: D))
    (hD : ∀ b ch os, InRange (B :: C :: ws.map Win.out) (b :: ch :: os) → ∀ e ∈ winElems T.dims xs ws b ch os, ∃ d ∈ D, Converts E.fp .f64 e (.f64 d))
    (hp : ∀ b ch os, InRange (B :: C :: ws.map Win.out) (b :: ch :: os) →
      ∃ e ∈ winElems T.dims xs ws b ch os, ∃ d, Converts E.fp .f64 e (.f64 d) ∧ E.fp.lt64 (E.fp.ofInt64 0) d = true) (out : Ptr) :
    Attempts E (pooling fuel R.h "max" (dimsCells (ws.map Win.k)) (dimsCells (ws.map Win.s)) (dimsCells (ws.map Win.p))
      (dimsCells (ws.map Win.d)) out) m ⟨c.dtype, T.device, B :: C :: ws.map Win.out, encAll c zs⟩ ∧
    ∀ b ch os, InRange (B :: C :: ws.map Win.out) (b :: ch :: os) →
      ∃ e, MaxOf E.fp (winElems T.dims xs ws b ch os) e ∧ ThroughDouble E.fp c e (elemAt (B :: C :: ws.map Win.out) zs (b :: ch :: os)) :=
  ⟨C38_max wf h1 he hs hw hw' h hso hi hK hf hf' hl hz out,
    fun b ch os hio => C39_window_partial ho (hD b ch os hio) (hp b ch os hio) (hz b ch os hio)⟩

theorem toyOrdered (D : List (BitVec 64)) : Ordered toyFp D :=
  ⟨fun a _ b _ h => by simp only [toyFp, BitVec.slt, decide_eq_true_eq, decide_eq_false_iff_not] at *; omega,
   fun a _ b _ c _ h h' => by simp only [toyFp, BitVec.slt, decide_eq_false_iff_not] at *; omega⟩

/-- The windows (padding, 2) and (2, 5) have maxima 2 and 5. -/
example : Attempts okEnv (pooling 10 Mem.empty.footT.h "max" (dimsCells [2]) (dimsCells [2]) (dimsCells [1]) (dimsCells [2]) .indet)
    (Mem.empty.addT exPo) (tvOf .i32 [1, 1, 2] ([2, 5].map .int)) :=
  (C39_positive_partial (E := okEnv) (D := [2, 5].map (BitVec.ofInt 64)) (ws := [exWin]) (B := 1) (C := 1) (zs := [2, 5].map .int)
    (Mem.addT_wf Mem.empty_wf _) exPo_at exPo_elems rfl (by decide)
    (by decide) exWin_ok ⟨by decide, by decide⟩ (by decide) (by decide) (by decide) (by decide) (by decide) (by
      intro b ch os ho
      match os, ho with
      | [o], ⟨h1, h2, h3, _⟩ =>
        have h3 : o < 2 := h3
        obtain rfl : b = 0 := by omega
        obtain rfl : ch = 0 := by omega
        rw [scanOf_iff]
        match o, h3 with
        | 0, _ => decide
        | 1, _ => decide) (toyOrdered _) (by
      intro b ch os ho
      match os, ho with
      | [o], ⟨h1, h2, h3, _⟩ =>
        have h3 : o < 2 := h3
        obtain rfl : b = 0 := by omega
        obtain rfl : ch = 0 := by omega
        match o, h3 with
        | 0, _ =>
          intro e he
          have hw : winElems exPo.dims ([6, 2, 9, 5].map .int) [exWin] 0 0 [0] = [.int 2] := by decide
          rw [hw] at he
          rw [List.mem_singleton.1 he]
          exact ⟨BitVec.ofInt 64 2, by simp, converts_f64.2 (by decide)⟩
        | 1, _ =>
          intro e he
          have hw : winElems exPo.dims ([6, 2, 9, 5].map .int) [exWin] 0 0 [1] = [.int 2, .int 5] := by decide
          rw [hw] at he
          rcases List.mem_cons.1 he with rfl | he
          · exact ⟨BitVec.ofInt 64 2, by simp, converts_f64.2 (by decide)⟩
          · rw [List.mem_singleton.1 he]
            exact ⟨BitVec.ofInt 64 5, by simp, converts_f64.2 (by decide)⟩) (by
      intro b ch os ho
      match os, ho with
      | [o], ⟨h1, h2, h3, _⟩ =>
        have h3 : o < 2 := h3
        obtain rfl : b = 0 := by omega
        obtain rfl : ch = 0 := by omega
        match o, h3 with
        | 0, _ => exact ⟨.int 2, by decide, _, converts_f64.2 rfl, by decide⟩
        | 1, _ => exact ⟨.int 2, by decide, _, converts_f64.2 rfl, by decide⟩) .indet).1

end Aitisa
