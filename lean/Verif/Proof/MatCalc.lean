import Verif.Spec.MatCalc
import Verif.Proof.Calc
import Verif.Proof.Batch
import Verif.Props.Matmul
import Verif.Props.Dot

/-!
# Calculations with matrices
-/

namespace Aitisa

variable {E : Env} {m : Mem} {c : Code} {dev : Device} {d : Nat → Nat × Nat} {R : Nat → Foot} {xs : Nat → List Val} {r n : Nat}

theorem GivenMats.frame {m' : Mem} (g : GivenMats m c dev d R xs) (wf : m.WF) (f : Frame m m') : GivenMats m' c dev d R xs :=
  ⟨fun i => (g.tensor i).frame wf f, g.wt, g.len, g.cpu⟩

theorem MatCalc.Fits.ok {sz : Nat} {a : MatCalc} : ∀ {r n}, a.Fits d sz r n → MatOK sz r n := by
  induction a with
  | arg i => intro r n h; exact h.2
  | bin op a b iha ihb => intro r n h; exact iha h.1
  | prod f k a b iha ihb => intro r n h; exact h.2.2

theorem pair_inRange {p q : Nat} (hp : p < r) (hq : q < n) : InRange [r, n] [p, q] := ⟨hp, hq, trivial⟩

theorem GivenMats.cell_WT (g : GivenMats m c dev d R xs) {i p q : Nat} (h : d i = (r, n)) (hp : p < r) (hq : q < n) :
    (cells2 d xs i p q).WT c := by
  have he : Elems ⟨c.dtype, dev, [(d i).1, (d i).2], encAll c (xs i)⟩ c (xs i) := ⟨rfl, rfl, g.wt i, by simpa [Aitisa.prod] using g.len i⟩
  refine elemAt_WT he rfl (pair_inRange ?_ ?_) <;> rw [h] <;> assumption

theorem dot_WT {fp : FloatOps} {l : List (Val × Val)} {z w : Val} (wz : z.WT c) (wl : ∀ p ∈ l, p.1.WT c ∧ p.2.WT c) (h : DotTo fp c z l w) :
    w.WT c := dotRun_WT wz ((dotTo_iff wz wl).1 h)

theorem MatCalc.value_WT {fp : FloatOps} (g : GivenMats m c dev d R xs) {a : MatCalc} : ∀ {r n p q z}, a.Fits d c.size r n → p < r → q < n →
    a.Value fp c (cells2 d xs) p q z → z.WT c := by
  induction a with
  | arg i => intro r n p q z hf hp hq h; cases h; exact g.cell_WT hf.1 hp hq
  | bin op a b iha ihb =>
    rintro r n p q z hf hp hq ⟨u, v, hu, hv, h⟩
    have wu := iha hf.1 hp hq hu
    have wv := ihb hf.2 hp hq hv
    exact cBin_WT wu wv ((opResult_iff wu wv).1 h)
  | prod f k a b iha ihb =>
    rintro r n p q z hf hp hq ⟨l, hl, hv, z0, hz0, h⟩
    refine dot_WT (cCast_WT (converts_iff.1 hz0)) (fun x hx => ?_) h
    obtain ⟨j, hj, rfl⟩ := List.getElem_of_mem hx
    exact ⟨iha hf.1 hp (by omega) (hv j hj).1, ihb hf.2.1 (by omega) hq (hv j hj).2⟩

theorem MatCalc.value_unique {fp : FloatOps} (g : GivenMats m c dev d R xs) {a : MatCalc} : ∀ {r n p q z z'}, a.Fits d c.size r n → p < r → q < n →
    a.Value fp c (cells2 d xs) p q z → a.Value fp c (cells2 d xs) p q z' → z = z' := by
  induction a with
  | arg i => intro r n p q z z' hf hp hq h h'; cases h; cases h'; rfl
  | bin op a b iha ihb =>
    rintro r n p q z z' hf hp hq ⟨u, v, hu, hv, h⟩ ⟨u', v', hu', hv', h'⟩
    cases iha hf.1 hp hq hu hu'
    cases ihb hf.2 hp hq hv hv'
    have wu := MatCalc.value_WT g hf.1 hp hq hu
    have wv := MatCalc.value_WT g hf.2 hp hq hv
    rw [opResult_iff wu wv] at h h'
    rw [h] at h'
    cases h'; rfl
  | prod f k a b iha ihb =>
    rintro r n p q z z' hf hp hq ⟨l, hl, hv, z0, hz0, h⟩ ⟨l', hl', hv', z0', hz0', h'⟩
    have : l = l' := List.ext_getElem (by omega) fun j h1 h2 =>
      Prod.ext (iha hf.1 hp (by omega) (hv j h1).1 (hv' j h2).1) (ihb hf.2.1 (by omega) hq (hv j h1).2 (hv' j h2).2)
    subst this
    have w0 := cCast_WT (converts_iff.1 hz0)
    have hz : z0 = z0' := by
      have h1 := converts_iff.1 hz0
      rw [converts_iff.1 hz0'] at h1
      cases h1; rfl
    subst hz
    have wl : ∀ p ∈ l, p.1.WT c ∧ p.2.WT c := fun x hx => by
      obtain ⟨j, hj, rfl⟩ := List.getElem_of_mem hx
      exact ⟨MatCalc.value_WT g hf.1 hp (by omega) (hv j hj).1, MatCalc.value_WT g hf.2.1 (by omega) hq (hv j hj).2⟩
    rw [dotTo_iff w0 wl] at h h'
    rw [h] at h'
    cases h'; rfl

theorem choose_mat {P : Nat → Nat → Val → Prop} (h : ∀ p q, p < r → q < n → ∃ v, P p q v) :
    ∃ l : List Val, l.length = r * n ∧ ∀ p q, p < r → q < n → P p q (elemAt [r, n] l [p, q]) := by
  obtain ⟨zs, hl, hz⟩ := exists_elems (ds := [r, n]) (P := fun cs v => ∀ p q, cs = [p, q] → P p q v) (fun cs hc => by
    match cs, hc with
    | [p, q], hc =>
      obtain ⟨v, hv⟩ := h p q hc.1 hc.2.1
      exact ⟨v, fun p' q' e => by cases e; exact hv⟩)
  exact ⟨zs, by simpa [Aitisa.prod] using hl, fun p q hp hq => hz [p, q] (pair_inRange hp hq) p q rfl⟩

theorem mat_all {P : Val → Prop} {l : List Val} (hl : l.length = r * n) (h : ∀ p q, p < r → q < n → P (elemAt [r, n] l [p, q])) :
    ∀ x ∈ l, P x := elems_all (ds := [r, n]) (by simpa [Aitisa.prod] using hl) fun cs hc => by
  match cs, hc with
  | [p, q], hc => exact h p q hc.1 hc.2.1

theorem mat_get {l : List Val} (hl : l.length = r * n) {i : Nat} (hi : i < l.length) :
    i / n < r ∧ i % n < n ∧ elemAt [r, n] l [i / n, i % n] = l[i] := by
  have hn : 0 < n := Nat.pos_of_ne_zero fun h => by subst h; omega
  refine ⟨Nat.div_lt_of_lt_mul (by rw [Nat.mul_comm]; omega), Nat.mod_lt _ hn, ?_⟩
  have e : lin [r, n] [i / n, i % n] = i := by rw [lin_pair, Nat.mul_comm]; exact Nat.div_add_mod i n
  rw [elemAt_get (by rw [e]; exact hi)]
  simp only [e]

theorem MatCalc.computes (a : MatCalc) : ∀ {m : Mem} {r n : Nat}, m.WF → GivenMats m c dev d R xs → a.Fits d c.size r n → ∀ {zs : List Val},
    zs.length = r * n → (∀ p q, p < r → q < n → a.Value E.fp c (cells2 d xs) p q (elemAt [r, n] zs [p, q])) →
    Computes E (a.run fun i => (R i).h) m ⟨c.dtype, dev, [r, n], encAll c zs⟩ := by
  induction a with
  | arg i =>
    intro m r n wf g hf zs hl hz
    have hd := hf.1
    have hl' := g.len i
    have ht := g.tensor i
    have : zs = xs i := by
      refine elems_ext (ds := [r, n]) (by simpa [Aitisa.prod] using hl) (by rw [hd] at hl'; simpa [Aitisa.prod] using hl') fun cs hc => ?_
      match cs, hc with
      | [p, q], hc =>
        have := hz p q hc.1 hc.2.1
        simp only [MatCalc.Value, cells2, hd] at this
        exact this
    subst this
    rw [hd] at ht
    refine ⟨fun {h m'} e => ?_, fun _ _ => ⟨R i, m, rfl, wf, Frame.refl m, ht⟩⟩
    simp only [MatCalc.run, Res.ok.injEq, Prod.mk.injEq] at e
    obtain ⟨⟨-, rfl⟩, rfl⟩ := e
    exact ⟨R i, rfl, wf, Frame.refl m, ht⟩
  | bin op a b iha ihb =>
    intro m r n wf g hf zs hl hz
    obtain ⟨ps, hpl, hp⟩ := choose_mat (r := r) (n := n) (P := fun p q v => a.Value E.fp c (cells2 d xs) p q v) fun p q h1 h2 => by
      obtain ⟨u, v, h, -⟩ := hz p q h1 h2; exact ⟨u, h⟩
    obtain ⟨qs, hql, hq⟩ := choose_mat (r := r) (n := n) (P := fun p q v => b.Value E.fp c (cells2 d xs) p q v) fun p q h1 h2 => by
      obtain ⟨u, v, -, h, -⟩ := hz p q h1 h2; exact ⟨v, h⟩
    have wtp := mat_all (P := fun v => v.WT c) hpl fun p q h1 h2 => MatCalc.value_WT g hf.1 h1 h2 (hp p q h1 h2)
    have wtq := mat_all (P := fun v => v.WT c) hql fun p q h1 h2 => MatCalc.value_WT g hf.2 h1 h2 (hq p q h1 h2)
    have hop : ∀ i (_ : i < ps.length) (_ : i < qs.length) (_ : i < zs.length), OpResult E.fp c op ps[i] qs[i] zs[i] := by
      intro k h1 h2 h3
      obtain ⟨a1, a2, e1⟩ := mat_get hpl h1
      obtain ⟨-, -, e2⟩ := mat_get hql h2
      obtain ⟨-, -, e3⟩ := mat_get hl h3
      obtain ⟨u, v, hu, hv, h⟩ := hz _ _ a1 a2
      rw [← e1, ← e2, ← e3, MatCalc.value_unique g hf.1 a1 a2 (hp _ _ a1 a2) hu, MatCalc.value_unique g hf.2 a1 a2 (hq _ _ a1 a2) hv]
      exact h
    have hpr : ∀ {l : List Val}, l.length = r * n → l.length = Aitisa.prod [r, n] := fun h => by simpa [Aitisa.prod] using h
    have fin : ∀ {m' : Mem} {R1 R2 : Foot}, m'.WF → At m' R1 ⟨c.dtype, dev, [r, n], encAll c ps⟩ → At m' R2 ⟨c.dtype, dev, [r, n], encAll c qs⟩ →
        Computes E (binaryOp op R1.h R2.h .null) m' ⟨c.dtype, dev, [r, n], encAll c zs⟩ := fun wf' h1 h2 =>
      (C26_binary wf' h1 ⟨rfl, rfl, wtp, hpr hpl⟩ h2 ⟨rfl, rfl, wtq, hpr hql⟩ g.cpu g.cpu rfl (by simpa [Aitisa.prod] using hf.1.ok.2.2.1)
        (by omega) hop .null).yields.computes
    constructor
    · intro h m' e
      simp only [MatCalc.run] at e
      split at e
      · next h1 m1 e1 =>
        obtain ⟨R1, rfl, wf1, f1, a1⟩ := (iha wf g hf.1 hpl hp).only e1
        split at e
        · next h2 m2 e2 =>
          obtain ⟨R2, rfl, wf2, f2, a2⟩ := (ihb wf1 (g.frame wf f1) hf.2 hql hq).only e2
          obtain ⟨R3, rfl, wf3, f3, a3⟩ := (fin wf2 (a1.frame wf1 f2) a2).only e
          exact ⟨R3, rfl, wf3, (f1.trans f2).trans f3, a3⟩
        · next hne => exact absurd e (hne _ _)
      · next hne => exact absurd e (hne _ _)
    · intro nf mf
      obtain ⟨R1, m1, e1, wf1, f1, a1⟩ := (iha wf g hf.1 hpl hp).runs nf mf
      obtain ⟨R2, m2, e2, wf2, f2, a2⟩ := (ihb wf1 (g.frame wf f1) hf.2 hql hq).runs nf mf
      obtain ⟨R3, m3, e3, wf3, f3, a3⟩ := (fin wf2 (a1.frame wf1 f2) a2).runs nf mf
      refine ⟨R3, m3, ?_, wf3, (f1.trans f2).trans f3, a3⟩
      simp only [MatCalc.run, e1, e2, e3]
  | prod f k a b iha ihb =>
    intro m r n wf g hf zs hl hz
    obtain ⟨hr0, hn0, hrn, hs⟩ := hf.2.2
    obtain ⟨-, hk0, hrk, -⟩ := hf.1.ok
    have hle : r ≤ 2147483647 ∧ n ≤ 2147483647 ∧ k ≤ 2147483647 :=
      ⟨Nat.le_trans (Nat.le_mul_of_pos_right r hn0) hrn, Nat.le_trans (Nat.le_mul_of_pos_left n hr0) hrn,
        Nat.le_trans (Nat.le_mul_of_pos_left k hr0) hrk⟩
    obtain ⟨ps, hpl, hp⟩ := choose_mat (r := r) (n := k) (P := fun p q v => a.Value E.fp c (cells2 d xs) p q v) fun p q h1 h2 => by
      obtain ⟨l, hll, hv, -⟩ := hz p 0 h1 hn0; exact ⟨_, (hv q (by omega)).1⟩
    obtain ⟨qs, hql, hq⟩ := choose_mat (r := k) (n := n) (P := fun p q v => b.Value E.fp c (cells2 d xs) p q v) fun p q h1 h2 => by
      obtain ⟨l, hll, hv, -⟩ := hz 0 q hr0 h2; exact ⟨_, (hv p (by omega)).2⟩
    have wtp := mat_all (P := fun v => v.WT c) hpl fun p q h1 h2 => MatCalc.value_WT g hf.1 h1 h2 (hp p q h1 h2)
    have wtq := mat_all (P := fun v => v.WT c) hql fun p q h1 h2 => MatCalc.value_WT g hf.2.1 h1 h2 (hq p q h1 h2)
    obtain ⟨-, -, -, z0, hz0, -⟩ := hz 0 0 hr0 hn0
    have hdot : ∀ i j, i < r → j < n → DotTo E.fp c z0 ((List.range k).map fun q =>
        (elemAt [r, k] ps [i, q], elemAt [k, n] qs [q, j])) (elemAt [r, n] zs [i, j]) := by
      intro i j h1 h2
      obtain ⟨l, hll, hv, z0', hz0', h⟩ := hz i j h1 h2
      have hz' : z0 = z0' := by
        have h1 := converts_iff.1 hz0
        rw [converts_iff.1 hz0'] at h1
        cases h1; rfl
      subst hz'
      have : l = (List.range k).map fun q => (elemAt [r, k] ps [i, q], elemAt [k, n] qs [q, j]) := by
        refine List.ext_getElem (by simp [hll]) fun q g1 g2 => ?_
        simp only [List.getElem_map, List.getElem_range]
        exact Prod.ext (MatCalc.value_unique g hf.1 h1 (by omega) (hv q g1).1 (hp i q h1 (by omega)))
          (MatCalc.value_unique g hf.2.1 (by omega) h2 (hv q g1).2 (hq q j (by omega) h2))
      rwa [this] at h
    have hpr : ∀ {r n : Nat} {l : List Val}, l.length = r * n → l.length = Aitisa.prod [r, n] := fun h => by simpa [Aitisa.prod] using h
    have fin : ∀ {m' : Mem} {R1 R2 : Foot}, m'.WF → At m' R1 ⟨c.dtype, dev, [r, k], encAll c ps⟩ → At m' R2 ⟨c.dtype, dev, [k, n], encAll c qs⟩ →
        Computes E (f.run R1.h R2.h .null) m' ⟨c.dtype, dev, [r, n], encAll c zs⟩ := fun {m'} {R1} {R2} wf' h1 h2 => by
      have D := C31_matrix_matrix (E := E) (T1 := ⟨c.dtype, dev, [r, k], encAll c ps⟩) (T2 := ⟨c.dtype, dev, [k, n], encAll c qs⟩) wf' h1
        ⟨rfl, rfl, wtp, hpr hpl⟩ h2 ⟨rfl, rfl, wtq, hpr hql⟩ g.cpu g.cpu hz0 rfl rfl hs hle.1 hle.2.2 hle.2.1 hrn hl hdot .null
      have C := D.creates.yields.computes
      cases f with
      | matmul => exact C
      | dot =>
        have e := C34_matrix_matrix (E := E) wf' h1 (⟨rfl, rfl, wtp, hpr hpl⟩ : Elems _ c ps) h2 (⟨rfl, rfl, wtq, hpr hql⟩ : Elems _ c qs) g.cpu g.cpu rfl rfl .null
        exact ⟨fun h => C.only (by rw [← e]; exact h), fun nf mf => by obtain ⟨R3, m3, h, t⟩ := C.runs nf mf; exact ⟨R3, m3, by rw [← h]; exact e, t⟩⟩
    constructor
    · intro h m' e
      simp only [MatCalc.run] at e
      split at e
      · next h1 m1 e1 =>
        obtain ⟨R1, rfl, wf1, f1, a1⟩ := (iha wf g hf.1 hpl hp).only e1
        split at e
        · next h2 m2 e2 =>
          obtain ⟨R2, rfl, wf2, f2, a2⟩ := (ihb wf1 (g.frame wf f1) hf.2.1 hql hq).only e2
          obtain ⟨R3, rfl, wf3, f3, a3⟩ := (fin wf2 (a1.frame wf1 f2) a2).only e
          exact ⟨R3, rfl, wf3, (f1.trans f2).trans f3, a3⟩
        · next hne => exact absurd e (hne _ _)
      · next hne => exact absurd e (hne _ _)
    · intro nf mf
      obtain ⟨R1, m1, e1, wf1, f1, a1⟩ := (iha wf g hf.1 hpl hp).runs nf mf
      obtain ⟨R2, m2, e2, wf2, f2, a2⟩ := (ihb wf1 (g.frame wf f1) hf.2.1 hql hq).runs nf mf
      obtain ⟨R3, m3, e3, wf3, f3, a3⟩ := (fin wf2 (a1.frame wf1 f2) a2).runs nf mf
      refine ⟨R3, m3, ?_, wf3, (f1.trans f2).trans f3, a3⟩
      simp only [MatCalc.run, e1, e2, e3]

theorem MatCalc.agree {a b : MatCalc} (wf : m.WF) (g : GivenMats m c dev d R xs) (fa : a.Fits d c.size r n) (fb : b.Fits d c.size r n)
    (h : ∀ p q, p < r → q < n → ∃ z, a.Value E.fp c (cells2 d xs) p q z ∧ b.Value E.fp c (cells2 d xs) p q z) :
    GiveSame E m (a.run fun i => (R i).h) (b.run fun i => (R i).h) := by
  obtain ⟨zs, hl, hz⟩ := choose_mat h
  have ha := a.computes (E := E) wf g fa hl fun p q h1 h2 => (hz p q h1 h2).1
  have hb := fun {m' : Mem} (wf' : m'.WF) (g' : GivenMats m' c dev d R xs) => b.computes (E := E) wf' g' fb hl fun p q h1 h2 => (hz p q h1 h2).2
  constructor
  · intro h1 h2 m1 m2 e1 e2
    obtain ⟨R1, rfl, wf1, f1, a1⟩ := ha.only e1
    obtain ⟨R2, rfl, wf2, f2, a2⟩ := (hb wf1 (g.frame wf f1)).only e2
    exact ⟨R1, R2, _, rfl, rfl, a1.frame wf1 f2, a2⟩
  · intro nf mf
    obtain ⟨R1, m1, e1, wf1, f1, a1⟩ := ha.runs nf mf
    obtain ⟨R2, m2, e2, wf2, f2, a2⟩ := (hb wf1 (g.frame wf f1)).runs nf mf
    exact ⟨_, _, _, _, e1, e2, R1, R2, _, rfl, rfl, a1.frame wf1 f2, a2⟩

/-! ## Whole numbers -/

theorem congr_refl {r : Int} (hc : c.isInt = true) (h : (Val.int r).WT c) : Congr c r r := by
  cases c <;> first | exact absurd hc (by decide) | exact ⟨_, _, rfl, h.1, h.2, rfl⟩

theorem congr_op {fp : FloatOps} {op : BinOp} {x y p q : Int} {z : Val} (hc : c.isInt = true) (hp : Congr c x p) (hq : Congr c y q) (hd : op ≠ .div)
    (h : OpResult fp c op (.int p) (.int q) z) : ∃ t, z = .int t ∧ ∀ {e}, ExactOp op x y e → Congr c e t := by
  obtain ⟨lo, hi, h1, h2, h3, h4⟩ := hp
  obtain ⟨lo', hi', h1', h2', h3', h4'⟩ := hq
  rw [h1] at h1'
  cases h1'
  obtain ⟨e', t, rfl, hx, ht⟩ := h
  have hct : Congr c e' t := by
    have hre : ∀ {c : Code}, (t = e' ∧ ∃ lo hi, intRange c = some (lo, hi) ∧ lo ≤ t ∧ t ≤ hi) → Congr c e' t := by
      rintro c ⟨rfl, lo, hi, a, b, d⟩
      exact ⟨lo, hi, a, b, d, rfl⟩
    cases c <;> first | exact absurd hc (by decide) | exact congr_of ht | exact hre ht | exact congr_of ht.2
  refine ⟨t, rfl, fun {e} he => ?_⟩
  obtain ⟨lo', hi', h5, h6, h7, h8⟩ := hct
  rw [h1] at h5
  cases h5
  refine ⟨lo, hi, h1, h6, h7, ?_⟩
  rw [← h8]
  cases op with
  | add => cases he; cases hx; rw [Int.add_emod, h4, h4', ← Int.add_emod]
  | sub => cases he; cases hx; rw [Int.sub_emod, h4, h4', ← Int.sub_emod]
  | mul => cases he; cases hx; rw [Int.mul_emod, h4, h4', ← Int.mul_emod]
  | div => exact absurd rfl hd

theorem congr_mac {fp : FloatOps} {s x y a p q : Int} {z : Val} (hc : c.isInt = true) (hs : Congr c s a) (hp : Congr c x p) (hq : Congr c y q)
    (h : MacResult fp c (.int a) (.int p) (.int q) z) : ∃ t, z = .int t ∧ Congr c (s + x * y) t := by
  obtain ⟨lo, hi, h1, h2, h3, h4⟩ := hp
  obtain ⟨lo', hi', h1', h2', h3', h4'⟩ := hq
  rw [h1] at h1'
  cases h1'
  obtain ⟨lo', hi', h1', g2, g3, g4⟩ := hs
  rw [h1] at h1'
  cases h1'
  obtain ⟨t, rfl, ht⟩ := h
  have hct : Congr c (a + p * q) t := by
    have hre : ∀ {c : Code}, (t = a + p * q ∧ ∃ lo hi, intRange c = some (lo, hi) ∧ lo ≤ p * q ∧ p * q ≤ hi ∧ lo ≤ t ∧ t ≤ hi) → Congr c (a + p * q) t := by
      rintro c ⟨rfl, lo, hi, a, -, -, b, d⟩
      exact ⟨lo, hi, a, b, d, rfl⟩
    cases c <;> first | exact absurd hc (by decide) | exact congr_of ht | exact hre ht | exact congr_of ht.2.2
  refine ⟨t, rfl, ?_⟩
  obtain ⟨lo', hi', h5, h6, h7, h8⟩ := hct
  rw [h1] at h5
  cases h5
  refine ⟨lo, hi, h1, h6, h7, ?_⟩
  rw [← h8, Int.add_emod, g4, Int.mul_emod, h4, h4', ← Int.mul_emod, ← Int.add_emod]

theorem congr_dot {fp : FloatOps} (hc : c.isInt = true) : ∀ {l : List (Val × Val)} {L : List (Int × Int)} {s a : Int} {z : Val}, Congr c s a →
    l.length = L.length → (∀ j (h : j < l.length) (h' : j < L.length), ∃ p q, l[j] = (.int p, .int q) ∧ Congr c L[j].1 p ∧ Congr c L[j].2 q) →
    DotTo fp c (.int a) l z → ∃ t, z = .int t ∧ Congr c (s + total L) t
  | [], [], s, a, z, hs, _, _, h => by cases h; exact ⟨a, rfl, by simpa [total] using hs⟩
  | (u, v) :: l, (x, y) :: L, s, a, z, hs, hl, hv, h => by
    obtain ⟨w, hw, h⟩ := h
    obtain ⟨p, q, e, hp, hq⟩ := hv 0 (by simp) (by simp)
    cases e
    obtain ⟨t, rfl, ht⟩ := congr_mac hc hs hp hq hw
    obtain ⟨t', rfl, ht'⟩ := congr_dot hc ht (by simpa using hl) (fun j h1 h2 => hv (j + 1) (by simpa using h1) (by simpa using h2)) h
    refine ⟨t', rfl, ?_⟩
    rw [total, ← Int.add_assoc]
    exact ht'

theorem MatCalc.value_num {fp : FloatOps} {X : Nat → Nat → Nat → Int} (hc : c.isInt = true) (hz : ZeroOf fp c (.int 0))
    (hX : ∀ i p q, p < (d i).1 → q < (d i).2 → (Val.int (X i p q)).WT c ∧ cells2 d xs i p q = .int (X i p q)) {a : MatCalc} :
    ∀ {r n p q z}, a.Fits d c.size r n → a.NoDiv → p < r → q < n → a.Value fp c (cells2 d xs) p q z → ∃ t, z = .int t ∧ Congr c (a.num X p q) t := by
  induction a with
  | arg i =>
    intro r n p q z hf _ hp hq h
    cases h
    obtain ⟨w, e⟩ := hX i p q (by rw [hf.1]; exact hp) (by rw [hf.1]; exact hq)
    exact ⟨_, e, congr_refl hc w⟩
  | bin op a b iha ihb =>
    rintro r n p q z hf hd hp hq ⟨u, v, hu, hv, h⟩
    obtain ⟨x, rfl, hx⟩ := iha hf.1 hd.2.1 hp hq hu
    obtain ⟨y, rfl, hy⟩ := ihb hf.2 hd.2.2 hp hq hv
    obtain ⟨t, rfl, ht⟩ := congr_op hc hx hy hd.1 h
    refine ⟨t, rfl, ?_⟩
    cases op with
    | div => exact absurd rfl hd.1
    | _ => exact ht rfl
  | prod f k a b iha ihb =>
    rintro r n p q z hf hd hp hq ⟨l, hl, hv, z0, hz0, h⟩
    have e : z0 = .int 0 := by
      have h1 := converts_iff.1 hz0
      rw [converts_iff.1 hz] at h1
      cases h1; rfl
    subst e
    have h0 : Congr c 0 0 := congr_refl hc (cCast_WT (converts_iff.1 hz))
    obtain ⟨t, rfl, ht⟩ := congr_dot hc (L := (List.range k).map fun j => (a.num X p j, b.num X j q)) h0 (by simp [hl]) (fun j h1 h2 => by
      have hj : j < k := by omega
      obtain ⟨x, hx, hx'⟩ := iha hf.1 hd.1 hp hj (hv j h1).1
      obtain ⟨y, hy, hy'⟩ := ihb hf.2.1 hd.2 hj hq (hv j h1).2
      exact ⟨x, y, Prod.ext hx hy, by simpa using hx', by simpa using hy'⟩) h
    exact ⟨t, rfl, by simpa [MatCalc.num] using ht⟩

/-! ## Sums -/

/-- The sum of `f 0`, ..., `f (k-1)`. -/
def sumTo (f : Nat → Int) : Nat → Int
  | 0 => 0
  | k + 1 => sumTo f k + f k

theorem total_append : ∀ l l', total (l ++ l') = total l + total l'
  | [], l' => by simp [total]
  | (a, b) :: l, l' => by simp only [List.cons_append, total, total_append l l', Int.add_assoc]

theorem total_range (f g : Nat → Int) : ∀ k, total ((List.range k).map fun j => (f j, g j)) = sumTo (fun j => f j * g j) k
  | 0 => rfl
  | k + 1 => by rw [List.range_succ, List.map_append, total_append, total_range f g k]; simp [total, sumTo]

theorem sumTo_add (f g : Nat → Int) : ∀ k, sumTo (fun j => f j + g j) k = sumTo f k + sumTo g k
  | 0 => rfl
  | k + 1 => by simp only [sumTo, sumTo_add f g k]; omega

theorem sumTo_sub (f g : Nat → Int) : ∀ k, sumTo (fun j => f j - g j) k = sumTo f k - sumTo g k
  | 0 => rfl
  | k + 1 => by simp only [sumTo, sumTo_sub f g k]; omega

theorem mul_sumTo (x : Int) (f : Nat → Int) : ∀ k, x * sumTo f k = sumTo (fun j => x * f j) k
  | 0 => Int.mul_zero x
  | k + 1 => by simp only [sumTo, Int.mul_add, mul_sumTo x f k]

theorem sumTo_zero : ∀ k, sumTo (fun _ => 0) k = 0
  | 0 => rfl
  | k + 1 => by simp [sumTo, sumTo_zero k]

theorem sumTo_comm (f : Nat → Nat → Int) (l : Nat) : ∀ k, sumTo (fun i => sumTo (f i) l) k = sumTo (fun j => sumTo (fun i => f i j) k) l
  | 0 => (sumTo_zero l).symm
  | k + 1 => by
    rw [sumTo, sumTo_comm f l k, ← sumTo_add]
    rfl

theorem assoc_num (f : Nat → Int) (g : Nat → Nat → Int) (h : Nat → Int) (k l : Nat) :
    sumTo (fun j => sumTo (fun i => f i * g i j) k * h j) l = sumTo (fun i => f i * sumTo (fun j => g i j * h j) l) k := by
  have e : (fun j => sumTo (fun i => f i * g i j) k * h j) = fun j => sumTo (fun i => f i * (g i j * h j)) k := by
    funext j
    rw [Int.mul_comm, mul_sumTo]
    congr 1
    funext i
    rw [Int.mul_comm (h j), Int.mul_assoc]
  have e' : (fun i => f i * sumTo (fun j => g i j * h j) l) = fun i => sumTo (fun j => f i * (g i j * h j)) l := by
    funext i; rw [mul_sumTo]
  rw [e, e', sumTo_comm]

end Aitisa
