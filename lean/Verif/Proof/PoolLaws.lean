import Verif.Spec.PoolLaws
import Verif.Proof.Commute
import Verif.Proof.PoolVal
import Verif.Proof.PoolingFill
import Verif.Proof.Batch
import Verif.Proof.ConvFill

/-! # Chains of calls, and windows of windows -/

namespace Aitisa

variable {E : Env} {m : Mem} {R : Foot} {T T' : TV} {c : Code}

/-! ### Chains -/

/-- On a tensor `T` the call gives `T'`, whenever it is made. -/
def GivesAlways (E : Env) (x : Ptr → M (Status × Ptr)) (T T' : TV) : Prop :=
  ∀ m R, m.WF → At m R T → MakesIf E (x R.h) m T'

/-- The calls take `T` to `T'`. -/
def Path (E : Env) : List (Ptr → M (Status × Ptr)) → TV → TV → Prop
  | [], T, T' => T' = T
  | x :: l, T, T' => ∃ T1, GivesAlways E x T T1 ∧ Path E l T1 T'

theorem Path.only : ∀ {l : List (Ptr → M (Status × Ptr))} {T T' : TV} {m m' : Mem} {R : Foot} {h' : Ptr}, Path E l T T' → m.WF → At m R T →
    Chain E l R.h m h' m' → Frame m m' ∧ m'.WF ∧ ∃ R', h' = R'.h ∧ At m' R' T' ∧ (l = [] ∧ R' = R ∨ ∀ b ∈ R'.list, m.next ≤ b)
  | [], T, T', m, m', R, h', p, wf, h, ⟨e, e'⟩ => by
    cases p; cases e'
    exact ⟨.refl _, wf, R, e, h, .inl ⟨rfl, rfl⟩⟩
  | x :: l, T, T', m, m', R, h', ⟨T1, g, p⟩, wf, h, ⟨h1, m1, e, ch⟩ => by
    obtain ⟨R1, rfl, P⟩ := (g m R wf h).only e
    obtain ⟨f, w, R', e', a, fr⟩ := p.only P.wf P.tensor ch
    refine ⟨P.frame.trans f, w, R', e', a, .inr fun b hb => ?_⟩
    rcases fr with ⟨-, rfl⟩ | fr
    · exact P.fresh b hb
    · have := P.frame.next
      have := fr b hb
      omega

theorem Path.runs : ∀ {l : List (Ptr → M (Status × Ptr))} {T T' : TV} {m : Mem} {R : Foot}, Path E l T T' → m.WF → At m R T →
    E.NoFail → E.MallocOK → ∃ h' m', Chain E l R.h m h' m'
  | [], T, T', m, R, _, _, _, _, _ => ⟨_, _, rfl, rfl⟩
  | x :: l, T, T', m, R, ⟨T1, g, p⟩, wf, h, nf, mf => by
    obtain ⟨R1, m1, e, P⟩ := (g m R wf h).runs nf mf
    obtain ⟨h', m', ch⟩ := p.runs P.wf P.tensor nf mf
    exact ⟨h', m', _, _, e, ch⟩

/-- Chains of calls that take `T` to the same tensor have the same result. -/
theorem sameResult {l l' : List (Ptr → M (Status × Ptr))} (hl : l' ≠ []) (wf : m.WF) (h : At m R T) (p : Path E l T T') (p' : Path E l' T T') :
    SameResult E m l l' R.h := by
  have key : ∀ h1 m1 h2 m2, Chain E l R.h m h1 m1 → Chain E l' R.h m1 h2 m2 → SameTensor m2 h1 h2 := by
    intro h1 m1 h2 m2 c1 c2
    obtain ⟨f, w, R1, rfl, a, -⟩ := p.only wf h c1
    obtain ⟨f2, w2, R2, rfl, a2, fr⟩ := p'.only w (h.frame wf f) c2
    refine ⟨R1, R2, T', rfl, rfl, a.frame w f2, a2, fun b hb hb' => ?_⟩
    rcases fr with ⟨e, -⟩ | fr
    · exact hl e
    · have := fr b hb'
      have := a.lt w hb
      omega
  refine ⟨key, fun nf mf => ?_⟩
  obtain ⟨h1, m1, c1⟩ := p.runs wf h nf mf
  obtain ⟨f, w, -⟩ := p.only wf h c1
  obtain ⟨h2, m2, c2⟩ := p'.runs w (h.frame wf f) nf mf
  exact ⟨h1, m1, h2, m2, c1, c2, key _ _ _ _ c1 c2⟩

/-! ### Windows -/

variable {ds : List Nat} {xs : List Val} {ws : List Win} {B C b ch : Nat} {os : List Nat}

theorem mem_winElems {e : Val} : e ∈ winElems ds xs ws b ch os ↔
    ∃ qs cs, InRange (ws.map Win.k) qs ∧ winAt ws os qs = some cs ∧ e = elemAt ds xs (b :: ch :: cs) := by
  simp only [winElems, List.mem_filterMap, List.mem_range, Option.map_eq_some_iff]
  constructor
  · rintro ⟨j, hj, cs, hc, rfl⟩
    exact ⟨_, cs, unlin_inRange hj, hc, rfl⟩
  · rintro ⟨qs, cs, hq, hc, rfl⟩
    exact ⟨lin _ qs, lin_lt hq, cs, by rw [unlin_lin hq]; exact hc, rfl⟩

theorem winAt_cons {w : Win} {o q : Nat} {qs cs : List Nat} : winAt (w :: ws) (o :: os) (q :: qs) = some cs ↔
    (w.p ≤ o * w.s + q * w.d ∧ o * w.s + q * w.d < w.p + w.x) ∧ ∃ cs', winAt ws os qs = some cs' ∧ cs = (o * w.s + q * w.d - w.p) :: cs' := by
  simp only [winAt]
  split
  · next h => simp [h, Option.map_eq_some_iff, eq_comm]
  · next h => simp [h]

theorem once_out {t : Twice} (hf : t.first.Fits) (hd : t.first.d = 1) (h2 : t.second.Fits) : t.once.out = t.second.out := by
  obtain ⟨⟨x, k1, s1, p, d⟩, k2, s2⟩ := t
  obtain ⟨f1, f2, f3, f4⟩ := hf
  obtain ⟨g1, g2, g3, g4⟩ := h2
  simp only [Twice.once, Twice.second, Win.out] at *
  subst hd
  simp only [Nat.one_mul, Nat.add_zero, Nat.mul_zero] at *
  congr 1
  have e1 : x + 2 * p - (k1 - 1) - 1 = x + 2 * p - k1 := by omega
  rw [e1] at *
  have e2 : x + 2 * p - ((k2 - 1) * s1 + k1 - 1) - 1 = x + 2 * p - k1 - s1 * (k2 - 1) := by
    rw [Nat.mul_comm s1]; omega
  rw [e2, ← Nat.div_div_eq_div_mul, Nat.sub_mul_div]
  congr 1
  omega

/-- An element of a window of windows is an element of the large window. -/
theorem into_once : ∀ {l : List Twice} {os qs2 o1s qs1 cs : List Nat}, (∀ t ∈ l, t.first.d = 1) →
    InRange ((l.map Twice.second).map Win.k) qs2 → winAt (l.map Twice.second) os qs2 = some o1s →
    InRange ((l.map Twice.first).map Win.k) qs1 → winAt (l.map Twice.first) o1s qs1 = some cs → os.length = l.length →
    ∃ qs, InRange ((l.map Twice.once).map Win.k) qs ∧ winAt (l.map Twice.once) os qs = some cs
  | [], os, qs2, o1s, qs1, cs, _, h2, e2, h1, e1, _ => by
    refine ⟨[], trivial, ?_⟩
    cases os <;> simpa [winAt] using e1
  | t :: l, [], _, _, _, _, _, _, _, _, _, hl => by simp at hl
  | t :: l, o :: os, [], _, _, _, _, h2, _, _, _, _ => h2.elim
  | t :: l, o :: os, q2 :: qs2, o1s, [], cs, _, _, _, h1, _, _ => h1.elim
  | t :: l, o :: os, q2 :: qs2, o1s, q1 :: qs1, cs, hd, ⟨hq2, h2⟩, e2, ⟨hq1, h1⟩, e1, hl => by
    simp only [List.map_cons] at e2 e1
    rw [winAt_cons] at e2
    obtain ⟨⟨-, hx⟩, o1s', e2, rfl⟩ := e2
    rw [winAt_cons] at e1
    obtain ⟨hx1, cs', e1, rfl⟩ := e1
    obtain ⟨qs, hq, e⟩ := into_once (fun t ht => hd t (List.mem_cons_of_mem _ ht)) h2 e2 h1 e1 (by simpa using hl)
    have d1 := hd t (List.mem_cons_self ..)
    have hK : q2 * t.first.s + q1 < t.once.k := by
      show _ < (t.k - 1) * t.first.s + t.first.k
      have hq2 : q2 < t.k := hq2
      have hq1 : q1 < t.first.k := hq1
      have := Nat.mul_le_mul_right t.first.s (show q2 ≤ t.k - 1 by omega)
      omega
    have eq : (o * t.second.s + q2 * t.second.d - t.second.p) * t.first.s + q1 * t.first.d =
        o * t.once.s + (q2 * t.first.s + q1) * t.once.d := by
      show (o * t.s + q2 * 1 - 0) * t.first.s + q1 * t.first.d = o * (t.first.s * t.s) + (q2 * t.first.s + q1) * 1
      rw [d1, Nat.sub_zero, Nat.mul_one, Nat.mul_one, Nat.mul_one, Nat.add_mul, Nat.mul_assoc, Nat.mul_comm t.s, Nat.add_assoc]
    refine ⟨(q2 * t.first.s + q1) :: qs, ⟨hK, hq⟩, ?_⟩
    simp only [List.map_cons]
    rw [eq] at hx1 ⊢
    exact winAt_cons.2 ⟨hx1, cs', e, rfl⟩

/-- An element of the large window is an element of a window of windows. -/
theorem from_once : ∀ {l : List Twice} {os qs cs : List Nat}, (∀ t ∈ l, t.Dense ∧ t.first.Fits ∧ t.second.Fits) →
    InRange ((l.map Twice.once).map Win.k) qs → winAt (l.map Twice.once) os qs = some cs → InRange ((l.map Twice.second).map Win.out) os →
    ∃ qs2 o1s qs1, InRange ((l.map Twice.second).map Win.k) qs2 ∧ winAt (l.map Twice.second) os qs2 = some o1s ∧
      InRange ((l.map Twice.first).map Win.k) qs1 ∧ winAt (l.map Twice.first) o1s qs1 = some cs
  | [], os, qs, cs, _, hq, e, _ => ⟨[], [], [], trivial, by cases os <;> simp [winAt], trivial, by simpa [winAt] using e⟩
  | t :: l, [], _, _, _, _, _, ho => ho.elim
  | t :: l, o :: os, [], _, _, hq, _, _ => hq.elim
  | t :: l, o :: os, q :: qs, cs, hd, ⟨hq, hqs⟩, e, ⟨ho, hos⟩ => by
    simp only [List.map_cons] at e
    rw [winAt_cons] at e
    obtain ⟨hx, cs', e, rfl⟩ := e
    obtain ⟨qs2, o1s, qs1, h2, e2, h1, e1⟩ := from_once (fun t ht => hd t (List.mem_cons_of_mem _ ht)) hqs e hos
    obtain ⟨⟨d1, dense⟩, f1, f2⟩ := hd t (List.mem_cons_self ..)
    have hq : q < (t.k - 1) * t.first.s + t.first.k := hq
    have k2 : 1 ≤ t.k := f2.k
    have s1 : 1 ≤ t.first.s := f1.s
    obtain ⟨q2, q1, hq2, hq1, rfl⟩ : ∃ q2 q1, q2 < t.k ∧ q1 < t.first.k ∧ q2 * t.first.s + q1 = q := by
      by_cases h : q / t.first.s ≤ t.k - 1
      · refine ⟨q / t.first.s, q % t.first.s, by omega, ?_, ?_⟩
        · have := Nat.mod_lt q s1; omega
        · rw [Nat.mul_comm]; exact Nat.div_add_mod ..
      · have := Nat.mul_le_mul_right t.first.s (show t.k - 1 ≤ q / t.first.s by omega)
        have := Nat.div_mul_le_self q t.first.s
        exact ⟨t.k - 1, q - (t.k - 1) * t.first.s, by omega, by omega, by omega⟩
    have eq : (o * t.second.s + q2 * t.second.d - t.second.p) * t.first.s + q1 * t.first.d =
        o * t.once.s + (q2 * t.first.s + q1) * t.once.d := by
      show (o * t.s + q2 * 1 - 0) * t.first.s + q1 * t.first.d = o * (t.first.s * t.s) + (q2 * t.first.s + q1) * 1
      rw [d1, Nat.sub_zero, Nat.mul_one, Nat.mul_one, Nat.mul_one, Nat.add_mul, Nat.mul_assoc, Nat.mul_comm t.s, Nat.add_assoc]
    have ho : o < t.second.out := ho
    have hin : o * t.s + q2 < t.first.out := by
      have fits := f2.fits
      simp only [Twice.second, Win.out, Nat.one_mul, Nat.mul_zero, Nat.add_zero] at ho fits ⊢
      generalize (t.first.x + 2 * t.first.p - t.first.d * (t.first.k - 1) - 1) / t.first.s + 1 = n at *
      have s2 : 1 ≤ t.s := f2.s
      have := Nat.mul_le_mul_right t.s (show o ≤ (n - (t.k - 1) - 1) / t.s by omega)
      have := Nat.div_mul_le_self (n - (t.k - 1) - 1) t.s
      omega
    refine ⟨q2 :: qs2, (o * t.second.s + q2 * t.second.d - t.second.p) :: o1s, q1 :: qs1, ⟨hq2, h2⟩, ?_, ⟨hq1, h1⟩, ?_⟩
    · refine winAt_cons.2 ⟨⟨Nat.zero_le _, ?_⟩, o1s, e2, rfl⟩
      show o * t.s + q2 * 1 < 0 + t.first.out
      omega
    · simp only [List.map_cons]
      refine winAt_cons.2 ?_
      rw [eq]
      exact ⟨hx, cs', e1, rfl⟩

/-! ### Values -/

theorem win_rel {ys : List Val} {r : Val → Val → Prop} (pw : Pointwise r xs ys) (hl : xs.length = prod (B :: C :: ws.map Win.x)) (hb : b < B) (hc : ch < C)
    (hos : os.length = ws.length) {qs cs : List Nat} (hq : InRange (ws.map Win.k) qs) (hw : winAt ws os qs = some cs) :
    r (elemAt (B :: C :: ws.map Win.x) xs (b :: ch :: cs)) (elemAt (B :: C :: ws.map Win.x) ys (b :: ch :: cs)) := by
  have hi : InRange (B :: C :: ws.map Win.x) (b :: ch :: cs) :=
    ⟨hb, hc, winAt_inRange hos.symm (by have := hq.length.symm; simpa using this) hw⟩
  have h1 := lin_lt hi
  have hp := pw.1
  rw [elemAt_get (by omega), elemAt_get (by omega)]
  exact pw.2 _ _ _

theorem grid_all {ds : List Nat} {zs : List Val} {P : Val → Prop} (hl : zs.length = prod (B :: C :: ds))
    (h : ∀ b ch os, InRange (B :: C :: ds) (b :: ch :: os) → P (elemAt (B :: C :: ds) zs (b :: ch :: os))) : ∀ z ∈ zs, P z := by
  intro z hz
  obtain ⟨i, hi, rfl⟩ := List.mem_iff_getElem.1 hz
  have hr := unlin_inRange (ds := B :: C :: ds) (by omega : i < _)
  have hi' := lin_unlin (ds := B :: C :: ds) (by omega : i < _)
  match hcs : unlin (B :: C :: ds) i, hr with
  | b :: ch :: os, hr =>
    rw [hcs] at hi'
    have := h b ch os hr
    rw [elemAt_get (by omega)] at this
    simpa only [hi'] using this

theorem grid_mem {ds : List Nat} (hl : xs.length = prod ds) {cs : List Nat} (h : InRange ds cs) : elemAt ds xs cs ∈ xs := by
  rw [elemAt_get (by rw [hl]; exact lin_lt h)]
  exact List.getElem_mem _

theorem win_mem (hl : xs.length = prod (B :: C :: ws.map Win.x)) (hb : b < B) (hc : ch < C) (hos : os.length = ws.length) :
    ∀ e ∈ winElems (B :: C :: ws.map Win.x) xs ws b ch os, e ∈ xs := by
  intro e he
  obtain ⟨qs, cs, hq, hw, rfl⟩ := mem_winElems.1 he
  exact grid_mem hl ⟨hb, hc, winAt_inRange hos.symm (by have := hq.length.symm; simpa using this) hw⟩

/-- Changing the elements without changing ranks does not change maxima. -/
theorem scan_rel {ys : List Val} {c' : Code} {r : BitVec 64} {z : Val} (pw : Pointwise (fun x y => rank y = rank x) xs ys)
    (hl : xs.length = prod (B :: C :: ws.map Win.x)) (hb : b < B) (hc : ch < C) (hos : os.length = ws.length)
    (h : ScansTo ieee (ieee.ofInt64 0) (winElems (B :: C :: ws.map Win.x) xs ws b ch os) r) (hz : Converts ieee c' (.f64 r) z) :
    ScanOf ieee c' (winElems (B :: C :: ws.map Win.x) ys ws b ch os) z := by
  obtain ⟨r', h'⟩ := scan_exists ieee (ieee.ofInt64 0) (winElems (B :: C :: ws.map Win.x) ys ws b ch os)
  have : r' = r := by
    refine scan_same h' h fun N => ⟨fun hN e he => ?_, fun hN e he => ?_⟩
    · obtain ⟨qs, cs, hq, hw, rfl⟩ := mem_winElems.1 he
      rw [← win_rel pw hl hb hc hos hq hw]
      exact hN _ (mem_winElems.2 ⟨qs, cs, hq, hw, rfl⟩)
    · obtain ⟨qs, cs, hq, hw, rfl⟩ := mem_winElems.1 he
      rw [win_rel pw hl hb hc hos hq hw]
      exact hN _ (mem_winElems.2 ⟨qs, cs, hq, hw, rfl⟩)
  subst this
  exact ⟨_, h', hz⟩

/-- The maximum of maxima is the maximum. -/
theorem scan_twice {l : List Twice} {ys : List Val} {z : Val} (hd : ∀ t ∈ l, t.Dense ∧ t.first.Fits ∧ t.second.Fits)
    (hl : xs.length = prod (B :: C :: (l.map Twice.first).map Win.x)) (wt : ∀ x ∈ xs, x.WT c) (hx : ∀ n, .int n ∈ xs → Within .f64 n)
    (hb : b < B) (hc : ch < C) (ho : InRange ((l.map Twice.second).map Win.out) os)
    (h1 : ∀ o1s, InRange ((l.map Twice.first).map Win.out) o1s → ScanOf ieee c (winElems (B :: C :: (l.map Twice.first).map Win.x) xs (l.map Twice.first) b ch o1s)
      (elemAt (B :: C :: (l.map Twice.first).map Win.out) ys (b :: ch :: o1s)))
    (h2 : ScanOf ieee c (winElems (B :: C :: (l.map Twice.first).map Win.out) ys (l.map Twice.second) b ch os) z) :
    ScanOf ieee c (winElems (B :: C :: (l.map Twice.first).map Win.x) xs (l.map Twice.once) b ch os) z := by
  obtain ⟨r, hr, hz⟩ := h2
  obtain ⟨r', hr'⟩ := scan_exists ieee (ieee.ofInt64 0) (winElems (B :: C :: (l.map Twice.first).map Win.x) xs (l.map Twice.once) b ch os)
  have hlen : os.length = l.length := by have := ho.length; simpa using this
  have inner : ∀ o1s, InRange ((l.map Twice.first).map Win.out) o1s → ∀ N, rank (elemAt (B :: C :: (l.map Twice.first).map Win.out) ys (b :: ch :: o1s)) ≤ N ↔
      ∀ e ∈ winElems (B :: C :: (l.map Twice.first).map Win.x) xs (l.map Twice.first) b ch o1s, rank e ≤ N := by
    intro o1s ho1 N
    obtain ⟨r1, hr1, hy⟩ := h1 o1s ho1
    have hm := win_mem (ws := l.map Twice.first) hl hb hc (by have := ho1.length; simpa using this) (os := o1s)
    obtain ⟨y, hy', hd, -⟩ := scan_back (c := c) (fun e he => wt e (hm e he)) (fun n hn => hx n (hm _ hn)) hr1
    rw [converts_det hy hy', rank_back hr1 hd]
    exact (scan_zero hr1).2 N
  have same : r' = r := by
    refine scan_same hr' hr fun N => ⟨fun hN e he => ?_, fun hN e he => ?_⟩
    · obtain ⟨qs2, o1s, hq2, hw2, rfl⟩ := mem_winElems.1 he
      have ho1 : InRange ((l.map Twice.first).map Win.out) o1s := by
        have := winAt_inRange (ws := l.map Twice.second) (by simpa using hlen.symm) (by have := hq2.length.symm; simpa using this) hw2
        simpa [Function.comp_def, Twice.second] using this
      rw [inner o1s ho1]
      intro e he
      obtain ⟨qs1, cs, hq1, hw1, rfl⟩ := mem_winElems.1 he
      obtain ⟨qs, hq, hw⟩ := into_once (fun t ht => (hd t ht).1.1) hq2 hw2 hq1 hw1 hlen
      exact hN _ (mem_winElems.2 ⟨qs, cs, hq, hw, rfl⟩)
    · obtain ⟨qs, cs, hq, hw, rfl⟩ := mem_winElems.1 he
      obtain ⟨qs2, o1s, qs1, hq2, hw2, hq1, hw1⟩ := from_once hd hq hw ho
      have ho1 : InRange ((l.map Twice.first).map Win.out) o1s := by
        have := winAt_inRange (ws := l.map Twice.second) (by simpa using hlen.symm) (by have := hq2.length.symm; simpa using this) hw2
        simpa [Function.comp_def, Twice.second] using this
      exact (inner o1s ho1 N).1 (hN _ (mem_winElems.2 ⟨qs2, o1s, hq2, hw2, rfl⟩)) _ (mem_winElems.2 ⟨qs1, cs, hq1, hw1, rfl⟩)
  subst same
  exact ⟨_, hr', hz⟩

end Aitisa
