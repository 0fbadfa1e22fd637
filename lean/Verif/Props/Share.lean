import Verif.Proof.ShareVal

/-!
# Property C80: accuracy of softmax, sigmoid and tanh

The machine has IEEE arithmetic (`Machine`, `Spec/Ieee.lean`). Nothing is assumed about its exponential function: the results are compared with the exact
ratios of the numbers that it returns.
-/

namespace Aitisa

variable {E : Env} {m m1 m2 : Mem} {R : Foot} {T : TV} {c : Code} {xs : List Val}

theorem exps_wt {fp : FloatOps} {es : List Val} (hes : Pointwise (ExpOf fp c) xs es) : ∀ e ∈ es, e.WT c := by
  intro e hm
  obtain ⟨i, hi, rfl⟩ := List.getElem_of_mem hm
  obtain ⟨d, -, h2⟩ := hes.2 i (by rw [hes.1]; exact hi) hi
  exact cCast_WT (converts_iff.1 h2)

theorem rats_mem {line : List Val} {ws : List Rat} (h : RatsOf line ws) {e : Val} {q : Rat} (he : e ∈ line) (hq : e.rat = some q) : q ∈ ws := by
  have : some q ∈ line.map Val.rat := List.mem_map.2 ⟨e, he, hq⟩
  rw [h] at this
  obtain ⟨q', h1, h2⟩ := List.mem_map.1 this
  cases h2
  exact h1

theorem rats_get {line : List Val} {ws : List Rat} (h : RatsOf line ws) : line.length = ws.length ∧
    ∀ i (h1 : i < line.length) (h2 : i < ws.length), line[i].rat = some ws[i] := by
  have hl : line.length = ws.length := by simpa using congrArg List.length h
  refine ⟨hl, fun i h1 h2 => ?_⟩
  have := congrArg (·[i]?) h
  simpa [h1, h2] using this

theorem sum_share {ws : List Rat} (hS : 0 < ws.sum) : ws.sum / ws.sum = 1 := by rw [Rat.div_def]; exact Rat.mul_inv_cancel _ (by grind)

/-- C80, softmax along an axis. Where the exponentials of a line are numbers that have shares, each element of the result is near its share, and the
elements of the line add up to 1, up to rounding. -/
theorem C80_softmax {a : Nat} (hE : Machine E.fp) (wf : m.WF) (hc : c = .f32 ∨ c = .f64) (h : At m R T) (he : Elems T c xs)
    (ha : a < T.dims.length) (hsz : prod T.dims < 4611686018427387904) (out : Ptr) :
    ∃ es ys, Pointwise (ExpOf E.fp c) xs es ∧ Tries E (softmax R.h a out) m ⟨T.dtype, T.device, T.dims, encAll c ys⟩ ∧ ys.length = xs.length ∧
      ∀ cs, InRange T.dims cs → ∀ ws, RatsOf (lineAt T.dims a es cs) ws → Sharable ws →
        (∀ q, (elemAt T.dims es cs).rat = some q → NearRatio c (3 * ws.length + 2) (elemAt T.dims ys cs) (q / ws.sum)) ∧
        ∃ qs, RatsOf (lineAt T.dims a ys cs) qs ∧ (qs.sum - 1).abs ≤ c.off (3 * ws.length + 2) 1 + ws.length * c.off (3 * ws.length + 2) 0 := by
  obtain ⟨es, hes⟩ := exps_total E.fp hc xs
  have hel : es.length = prod T.dims := by rw [← hes.1, he.len]
  obtain ⟨ys, hl, hys⟩ := exists_elems (ds := T.dims) (P := fun cs y => ShareOf E.fp c (lineAt T.dims a es cs) (elemAt T.dims es cs) y)
    (fun cs _ => share_total E.fp hc _ _)
  refine ⟨es, ys, hes, C37_axis wf h he ha hsz hes (by rw [hl, he.len]) hys out, by rw [hl, he.len], fun cs hcs ws hr hs => ?_⟩
  have hwt := exps_wt hes
  simp only [machine_share hE] at hys
  obtain ⟨l1, l2, l3⟩ := line_mem (a := a) hel ha hcs
  have hlw := fun e he => hwt e (l1 e he)
  refine ⟨fun q hq => share_near hc hlw hr hs (hlw _ l2) hq (rats_mem hr l2 hq) (hys cs hcs), ?_⟩
  obtain ⟨g1, g2⟩ := rats_get hr
  have hd := (C37_line (es := es) ha hcs).1
  have hd' := (C37_line (es := ys) ha hcs).1
  have hd2 : T.dims.getD a 0 = T.dims[a] := by simp [List.getD, ha]
  have := shares_sum (c := c) (k := 3 * ws.length + 2) hs.2.1 (ys := lineAt T.dims a ys cs) (ws := ws) (by rw [hd', ← g1, hd]) hs.1 (fun i h1 h2 => by
    have hi : i < T.dims[a] := by rw [hd'] at h1; exact h1
    obtain ⟨k1, k2, k3⟩ := l3 i hi
    have hy := hys _ k1
    rw [k3] at hy
    have e1 : (lineAt T.dims a ys cs)[i] = elemAt T.dims ys (cs.set a i) := by simp [lineAt]
    have e2 : (lineAt T.dims a es cs)[i]'(by rw [hd]; exact hi) = elemAt T.dims es (cs.set a i) := by simp [lineAt]
    have hq := g2 i (by rw [hd]; exact hi) h2
    rw [e2] at hq
    rw [e1]
    exact share_near hc hlw hr hs (hlw _ k2) hq (List.getElem_mem _) hy)
  rwa [sum_share hs.2.1] at this

/-- C80, softmax over all elements (axis -1). -/
theorem C80_softmax_all (hE : Machine E.fp) (wf : m.WF) (hc : c = .f32 ∨ c = .f64) (h : At m R T) (he : Elems T c xs) (out : Ptr) :
    ∃ es ys, Pointwise (ExpOf E.fp c) xs es ∧ Tries E (softmax R.h (-1) out) m ⟨T.dtype, T.device, T.dims, encAll c ys⟩ ∧ ys.length = xs.length ∧
      ∀ ws, RatsOf es ws → Sharable ws →
        (∀ i (_ : i < ys.length) (_ : i < ws.length), NearRatio c (3 * ws.length + 2) ys[i] (ws[i] / ws.sum)) ∧
        ∃ qs, RatsOf ys qs ∧ (qs.sum - 1).abs ≤ c.off (3 * ws.length + 2) 1 + ws.length * c.off (3 * ws.length + 2) 0 := by
  obtain ⟨es, hes⟩ := exps_total E.fp hc xs
  have hys : ∃ ys, Pointwise (ShareOf E.fp c es) es ys := by
    have : ∀ l : List Val, ∃ ys, Pointwise (ShareOf E.fp c es) l ys := by
      intro l
      induction l with
      | nil => exact ⟨[], rfl, fun _ h => absurd h (by simp)⟩
      | cons e l ih =>
        obtain ⟨ys, h1, h2⟩ := ih
        obtain ⟨y, hy⟩ := share_total E.fp hc es e
        refine ⟨y :: ys, by simp [h1], fun i h3 h4 => ?_⟩
        match i with
        | 0 => exact hy
        | i + 1 => exact h2 i (by simpa using h3) (by simpa using h4)
    exact this es
  obtain ⟨ys, hys⟩ := hys
  refine ⟨es, ys, hes, C37_all wf h he hes hys out, by rw [← hys.1, ← hes.1], fun ws hr hs => ?_⟩
  have hwt := exps_wt hes
  rw [machine_share hE] at hys
  obtain ⟨g1, g2⟩ := rats_get hr
  have hn : ∀ i (_ : i < ys.length) (_ : i < ws.length), NearRatio c (3 * ws.length + 2) ys[i] (ws[i] / ws.sum) := fun i h1 h2 =>
    share_near hc hwt hr hs (hwt _ (List.getElem_mem (by omega))) (g2 i (by omega) h2) (List.getElem_mem _) (hys.2 i (by omega) h1)
  refine ⟨hn, ?_⟩
  have := shares_sum (c := c) (k := 3 * ws.length + 2) hs.2.1 (by rw [← hys.1, g1]) hs.1 hn
  rwa [sum_share hs.2.1] at this

/-- C80, sigmoid: near `1 / (1 + e)` where `e` is the number that `exp(-x)` returned. -/
theorem C80_sigmoid (hE : Machine E.fp) (wf : m.WF) (hc : c = .f32 ∨ c = .f64) (h : At m R T) (he : Elems T c xs) (out : Ptr) :
    ∃ ys, Delivers E (sigmoid R.h out) m out c T.device T.dims ys ∧
      Pointwise (fun x y => ∀ e, (Val.f64 (E.fp.exp64 (negDouble x))).rat = some e → 0 ≤ e → e < 2 ^ 1023 → NearRatio c 4 y (1 / (1 + e))) xs ys := by
  obtain ⟨ys, hd, hl, hp⟩ := C36_sigmoid (E := E) wf hc h he out
  refine ⟨ys, hd, hl, fun i h1 h2 e h3 h4 h5 => ?_⟩
  have hi := hp i h1 h2
  rw [hE.sigmoid] at hi
  exact sigmoid_near hc (he.wt xs[i] (List.getElem_mem _)) hi h3 h4 h5

/-- C80, tanh: near `(a - b) / (a + b)` where `a` and `b` are the numbers that `exp(x)` and `exp(-x)` returned. -/
theorem C80_tanh (hE : Machine E.fp) (wf : m.WF) (hc : c = .f32 ∨ c = .f64) (h : At m R T) (he : Elems T c xs) (out : Ptr) :
    ∃ ys, Delivers E (tanh R.h out) m out c T.device T.dims ys ∧
      Pointwise (fun x y => ∀ a b, (Val.f64 (E.fp.exp64 (asDouble x))).rat = some a → (Val.f64 (E.fp.exp64 (negDouble x))).rat = some b →
        0 ≤ a → 0 ≤ b → 0 < a + b → a + b < 2 ^ 1023 → NearRatio c 5 y ((a - b) / (a + b))) xs ys := by
  obtain ⟨ys, hd, hl, hp⟩ := C36_tanh (E := E) wf hc h he out
  refine ⟨ys, hd, hl, fun i h1 h2 a b ha hb a0 b0 hs hl => ?_⟩
  have hi := hp i h1 h2
  rw [hE.tanh] at hi
  exact tanh_near hc (he.wt xs[i] (List.getElem_mem _)) hi ha hb a0 b0 hs hl

/-- C80, the bounds in simpler terms. A `float` result is off by at most two parts in `2^24` of the ratio and the smallest number, if the lines have
up to `2^24` elements, and a line adds up to 1 with an error of at most `3 / 2^24`; a line of `n` `double`s with an error of at most `3 (n + 1) / 2^53`. -/
theorem C80_simple {k s : Rat} {n : Nat} (hs : 0 ≤ s) : (k ≤ 134217728 → Code.f32.off k s ≤ 2 / 2 ^ 24 * s + 2 ^ (-149 : Int)) ∧
    (n ≤ 16777216 → Code.f32.off (3 * n + 2) 1 + n * Code.f32.off (3 * n + 2) 0 ≤ 3 / 2 ^ 24) ∧
    (n ≤ 2 ^ 50 → Code.f64.off (3 * n + 2) 1 + n * Code.f64.off (3 * n + 2) 0 ≤ 3 * (n + 1) / 2 ^ 53) :=
  ⟨fun h => off_float h hs, total_float, total_double⟩

/-! ## Examples -/

/-- 0 and 1 as `float`s. -/
def exZeroOne : TV := tvOf .f32 [2] [.f32 0, .f32 0x3F800000]

theorem exZeroOne_at : At (Mem.empty.addT exZeroOne) Mem.empty.footT exZeroOne := tvOf_at _ (by simp) rfl ⟨by decide, by decide⟩

theorem exZeroOne_exps {es : List Val} (h : Pointwise (ExpOf ieee .f32) [.f32 0, .f32 0x3F800000] es) : es = [.f32 0x3F800000, .f32 0x402DF854] := by
  have h0 : ∀ x e, ExpOf ieee .f32 (.f32 x) e → e = .f32 (ieee.narrow (ieee.exp64 (ieee.widen x))) := by
    rintro x e ⟨d, hd, he⟩
    have h1 : d = ieee.widen x := by have : Val.f64 d = .f64 _ := hd; injection this
    subst h1
    exact he
  match es, h with
  | [e0, e1], h =>
    have k0 : e0 = _ := h0 _ _ (h.2 0 (by simp) (by simp))
    have k1 : e1 = _ := h0 _ _ (h.2 1 (by simp) (by simp))
    rw [k0, k1]
    decide +kernel

theorem exZeroOne_rats : RatsOf [.f32 0x3F800000, .f32 0x402DF854] [1, 2850325 / 1048576] := by
  show [_, _] = [_, _]
  have e1 : (Val.f32 0x3F800000).rat = some 1 := by decide +kernel
  have e2 : (Val.f32 0x402DF854).rat = some (2850325 / 1048576) := by decide +kernel
  rw [e1, e2]

theorem exZeroOne_sharable : Sharable [1, 2850325 / 1048576] := by
  refine ⟨?_, by decide +kernel, by decide +kernel, by decide⟩
  decide +kernel

/-- Softmax of 0 and 1: the exponentials are 1 and 2850325 / 2^20, and the results add up to 1 with an error of at most `3 / 2^24`. -/
example : ∃ y0 y1, Tries ieeeEnv (softmax Mem.empty.footT.h 0 .indet) (Mem.empty.addT exZeroOne) ⟨Code.f32.dtype, ⟨DEVICE_CPU, 0⟩, [2], encAll .f32 [y0, y1]⟩ ∧
    ∃ q0 q1, y0.rat = some q0 ∧ y1.rat = some q1 ∧ (q0 + q1 - 1).abs ≤ 3 / 2 ^ 24 := by
  obtain ⟨es, ys, hes, ht, hl, hp⟩ := C80_softmax (E := ieeeEnv) (T := exZeroOne) (xs := [.f32 0, .f32 0x3F800000]) (c := .f32) (a := 0) ieee_machine
    (Mem.addT_wf Mem.empty_wf _) (.inl rfl) exZeroOne_at (tvOf_elems (by decide) rfl) (by decide) (by decide) .indet
  match ys, hl with
  | [y0, y1], _ =>
    have he := exZeroOne_exps hes
    subst he
    obtain ⟨-, qs, hq, hb⟩ := hp [0] ⟨by decide, trivial⟩ _ exZeroOne_rats exZeroOne_sharable
    have hql : 2 = qs.length := (rats_get hq).1
    match qs, hq, hql with
    | [q0, q1], hq, _ =>
      have hq' : [y0.rat, y1.rat] = [some q0, some q1] := hq
      simp only [List.cons.injEq, and_true] at hq'
      refine ⟨y0, y1, ht, q0, q1, hq'.1, hq'.2, ?_⟩
      have := Rat.le_trans hb ((C80_simple (k := 0) (s := 0) (n := 2) (by decide)).2.1 (by decide))
      rw [List.sum_cons, List.sum_cons, List.sum_nil, Rat.add_zero] at this
      exact this

/-- The same over all elements. -/
example : ∃ ys, Tries ieeeEnv (softmax Mem.empty.footT.h (-1) .indet) (Mem.empty.addT exZeroOne) ⟨Code.f32.dtype, ⟨DEVICE_CPU, 0⟩, [2], encAll .f32 ys⟩ ∧
    ∃ h, NearRatio .f32 (3 * (2 : Nat) + 2) (ys[0]'h) (1 / (1 + (2850325 / 1048576 + 0))) := by
  obtain ⟨es, ys, hes, ht, hl, hp⟩ := C80_softmax_all (E := ieeeEnv) (T := exZeroOne) (xs := [.f32 0, .f32 0x3F800000]) (c := .f32) ieee_machine
    (Mem.addT_wf Mem.empty_wf _) (.inl rfl) exZeroOne_at (tvOf_elems (by decide) rfl) .indet
  have he := exZeroOne_exps hes
  subst he
  have hl' : ys.length = 2 := hl
  have := (hp _ exZeroOne_rats exZeroOne_sharable).1 0 (by omega) (by decide)
  exact ⟨ys, ht, by omega, this⟩

/-- Sigmoid and tanh of 1: `exp(-1)` and `exp(1)` of `ieee` are 828390857088487 / 2^51 and 6121026514868073 / 2^51. -/
example : ∃ ys, Delivers ieeeEnv (sigmoid Mem.empty.footT.h .indet) (Mem.empty.addT exZeroOne) .indet .f32 ⟨DEVICE_CPU, 0⟩ [2] ys ∧
    ∃ h, NearRatio .f32 4 (ys[1]'h) (1 / (1 + 828390857088487 / 2251799813685248)) := by
  obtain ⟨ys, hd, hl, hp⟩ := C80_sigmoid (E := ieeeEnv) (T := exZeroOne) (xs := [.f32 0, .f32 0x3F800000]) (c := .f32) ieee_machine
    (Mem.addT_wf Mem.empty_wf _) (.inl rfl) exZeroOne_at (tvOf_elems (by decide) rfl) .indet
  have hl' : 2 = ys.length := hl
  refine ⟨ys, hd, by omega, hp 1 (by decide) (by omega) _ ?_ (by decide +kernel) (by decide +kernel)⟩
  show (Val.f64 (ieee.exp64 (negDouble (.f32 0x3F800000)))).rat = _
  decide +kernel

example : ∃ ys, Delivers ieeeEnv (tanh Mem.empty.footT.h .indet) (Mem.empty.addT exZeroOne) .indet .f32 ⟨DEVICE_CPU, 0⟩ [2] ys ∧
    ∃ h, NearRatio .f32 5 (ys[1]'h) ((6121026514868073 / 2251799813685248 - 828390857088487 / 2251799813685248) /
      (6121026514868073 / 2251799813685248 + 828390857088487 / 2251799813685248)) := by
  obtain ⟨ys, hd, hl, hp⟩ := C80_tanh (E := ieeeEnv) (T := exZeroOne) (xs := [.f32 0, .f32 0x3F800000]) (c := .f32) ieee_machine
    (Mem.addT_wf Mem.empty_wf _) (.inl rfl) exZeroOne_at (tvOf_elems (by decide) rfl) .indet
  have hl' : 2 = ys.length := hl
  refine ⟨ys, hd, by omega, hp 1 (by decide) (by omega) _ _ ?_ ?_ (by decide +kernel) (by decide +kernel) (by decide +kernel) (by decide +kernel)⟩
  · show (Val.f64 (ieee.exp64 (asDouble (.f32 0x3F800000)))).rat = _
    decide +kernel
  · show (Val.f64 (ieee.exp64 (negDouble (.f32 0x3F800000)))).rat = _
    decide +kernel

end Aitisa
