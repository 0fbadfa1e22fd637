import Verif.Spec.Calc
import Verif.Proof.Commute
import Verif.Props.Math
import Verif.Props.Elementwise

/-!
# Calculations with several calls
-/

namespace Aitisa

variable {E : Env} {m : Mem} {c : Code} {dev : Device} {ds : List Nat} {R : Nat → Foot} {xs : Nat → List Val}

theorem Given.frame {m' : Mem} (g : Given m c dev ds R xs) (wf : m.WF) (f : Frame m m') : Given m' c dev ds R xs :=
  ⟨fun i => (g.tensor i).frame wf f, g.wt, g.len, g.cpu, g.shape, g.some, g.few⟩

theorem Given.at_WT (g : Given m c dev ds R xs) {k : Nat} (hk : k < prod ds) (i : Nat) : (atPos xs k i).WT c := by
  have h : k < (xs i).length := by rw [g.len]; exact hk
  simp only [atPos, List.getD, List.getElem?_eq_getElem h, Option.getD_some]
  exact g.wt i _ (List.getElem_mem h)

theorem Calc.value_WT {fp : FloatOps} {x : Nat → Val} (hx : ∀ i, (x i).WT c) {a : Calc} : ∀ {z}, a.Value fp c x z → z.WT c := by
  induction a with
  | arg i => intro z h; cases h; exact hx i
  | lit v => intro z h; exact cCast_WT (converts_iff.1 h)
  | bin op a b iha ihb =>
    rintro z ⟨p, q, hp, hq, h⟩
    exact cBin_WT (iha hp) (ihb hq) ((opResult_iff (iha hp) (ihb hq)).1 h)

theorem Calc.value_unique {fp : FloatOps} {x : Nat → Val} (hx : ∀ i, (x i).WT c) {a : Calc} :
    ∀ {z z'}, a.Value fp c x z → a.Value fp c x z' → z = z' := by
  induction a with
  | arg i => intro z z' h h'; cases h; cases h'; rfl
  | lit v =>
    intro z z' h h'
    have h1 := converts_iff.1 h
    rw [converts_iff.1 h'] at h1
    cases h1; rfl
  | bin op a b iha ihb =>
    rintro z z' ⟨p, q, hp, hq, h⟩ ⟨p', q', hp', hq', h'⟩
    cases iha hp hp'
    cases ihb hq hq'
    have wp := Calc.value_WT hx hp
    have wq := Calc.value_WT hx hq
    rw [opResult_iff wp wq] at h h'
    rw [h] at h'
    cases h'; rfl

theorem choose_list {n : Nat} {P : Nat → Val → Prop} (h : ∀ k, k < n → ∃ v, P k v) :
    ∃ l : List Val, l.length = n ∧ ∀ k (hk : k < l.length), P k l[k] := by
  classical
  refine ⟨(List.range n).map fun k => if hk : k < n then (h k hk).choose else .int 0, by simp, ?_⟩
  intro k hk
  have hk' : k < n := by simpa using hk
  simp only [List.getElem_map, List.getElem_range, dif_pos hk']
  exact (h k hk').choose_spec

/-- What a calculation does: like `MakesIf`, for several calls. -/
structure Computes (E : Env) (x : M (Status × Ptr)) (m : Mem) (T : TV) : Prop where
  only : ∀ {h m'}, x E m = .ok (.success, h) m' → ∃ R, h = R.h ∧ m'.WF ∧ Frame m m' ∧ At m' R T
  runs : E.NoFail → E.MallocOK → ∃ R m', x E m = .ok (.success, R.h) m' ∧ m'.WF ∧ Frame m m' ∧ At m' R T

theorem MakesIf.computes {x : M (Status × Ptr)} {T : TV} (h : MakesIf E x m T) : Computes E x m T where
  only e := by obtain ⟨R, e', P⟩ := h.only e; exact ⟨R, e', P.ext.wf, P.ext.toFrame, P.tensor⟩
  runs nf mf := by obtain ⟨R, m', e, P⟩ := h.runs nf mf; exact ⟨R, m', e, P.ext.wf, P.ext.toFrame, P.tensor⟩

theorem Calc.computes (a : Calc) : ∀ {m : Mem}, m.WF → Given m c dev ds R xs → ∀ {zs : List Val}, zs.length = prod ds →
    (∀ k (hk : k < zs.length), a.Value E.fp c (atPos xs k) zs[k]) →
    Computes E (a.run c dev ds fun i => (R i).h) m ⟨c.dtype, dev, ds, encAll c zs⟩ := by
  induction a with
  | arg i =>
    intro m wf g zs hl hz
    have : zs = xs i := List.ext_getElem (by rw [hl, g.len]) fun k h1 h2 => by
      have := hz k h1
      simp only [Calc.Value, atPos, List.getD, List.getElem?_eq_getElem h2, Option.getD_some] at this
      exact this
    subst this
    refine ⟨fun {h m'} e => ?_, fun _ _ => ⟨R i, m, rfl, wf, Frame.refl m, g.tensor i⟩⟩
    simp only [Calc.run, Res.ok.injEq, Prod.mk.injEq] at e
    obtain ⟨⟨-, rfl⟩, rfl⟩ := e
    exact ⟨R i, rfl, wf, Frame.refl m, g.tensor i⟩
  | lit v =>
    intro m wf g zs hl hz
    have hn := g.some
    have h0 : 0 < zs.length := by omega
    have hc := hz 0 h0
    have : zs = List.replicate (prod ds) zs[0] := List.ext_getElem (by simp [hl]) fun k h1 h2 => by
      rw [List.getElem_replicate]
      exact Calc.value_unique (a := .lit v) (g.at_WT (by omega)) (hz k h1) hc
    rw [this]
    exact (C10_full wf c dev ds g.shape g.few v _ hc .null).creates.yields.computes
  | bin op a b iha ihb =>
    intro m wf g zs hl hz
    obtain ⟨ps, hpl, hp⟩ := choose_list (n := prod ds) (P := fun k p => a.Value E.fp c (atPos xs k) p) fun k hk => by
      obtain ⟨p, q, h, -⟩ := hz k (by omega); exact ⟨p, h⟩
    obtain ⟨qs, hql, hq⟩ := choose_list (n := prod ds) (P := fun k p => b.Value E.fp c (atPos xs k) p) fun k hk => by
      obtain ⟨p, q, -, h, -⟩ := hz k (by omega); exact ⟨q, h⟩
    have wtp : ∀ p ∈ ps, p.WT c := fun p h => by
      obtain ⟨k, hk, rfl⟩ := List.getElem_of_mem h
      exact Calc.value_WT (g.at_WT (by omega)) (hp k hk)
    have wtq : ∀ p ∈ qs, p.WT c := fun p h => by
      obtain ⟨k, hk, rfl⟩ := List.getElem_of_mem h
      exact Calc.value_WT (g.at_WT (by omega)) (hq k hk)
    have hop : ∀ i (_ : i < ps.length) (_ : i < qs.length) (_ : i < zs.length), OpResult E.fp c op ps[i] qs[i] zs[i] := by
      intro k h1 h2 h3
      obtain ⟨p, q, hp', hq', h⟩ := hz k h3
      have hw := g.at_WT (by omega : k < prod ds)
      rwa [Calc.value_unique hw (hp k h1) hp', Calc.value_unique hw (hq k h2) hq']
    have fin : ∀ {m' : Mem} {R1 R2 : Foot}, m'.WF → At m' R1 ⟨c.dtype, dev, ds, encAll c ps⟩ → At m' R2 ⟨c.dtype, dev, ds, encAll c qs⟩ →
        Computes E (binaryOp op R1.h R2.h .null) m' ⟨c.dtype, dev, ds, encAll c zs⟩ := fun wf' h1 h2 =>
      (C26_binary wf' h1 ⟨rfl, rfl, wtp, hpl⟩ h2 ⟨rfl, rfl, wtq, hql⟩ g.cpu g.cpu rfl g.few (by omega) hop .null).yields.computes
    constructor
    · intro h m' e
      simp only [Calc.run] at e
      split at e
      · next h1 m1 e1 =>
        obtain ⟨R1, rfl, wf1, f1, a1⟩ := (iha wf g hpl hp).only e1
        split at e
        · next h2 m2 e2 =>
          obtain ⟨R2, rfl, wf2, f2, a2⟩ := (ihb wf1 (g.frame wf f1) hql hq).only e2
          obtain ⟨R3, rfl, wf3, f3, a3⟩ := (fin wf2 (a1.frame wf1 f2) a2).only e
          exact ⟨R3, rfl, wf3, (f1.trans f2).trans f3, a3⟩
        · next hne => exact absurd e (hne _ _)
      · next hne => exact absurd e (hne _ _)
    · intro nf mf
      obtain ⟨R1, m1, e1, wf1, f1, a1⟩ := (iha wf g hpl hp).runs nf mf
      obtain ⟨R2, m2, e2, wf2, f2, a2⟩ := (ihb wf1 (g.frame wf f1) hql hq).runs nf mf
      obtain ⟨R3, m3, e3, wf3, f3, a3⟩ := (fin wf2 (a1.frame wf1 f2) a2).runs nf mf
      refine ⟨R3, m3, ?_, wf3, (f1.trans f2).trans f3, a3⟩
      simp only [Calc.run, e1, e2, e3]

theorem Calc.agree {a b : Calc} (wf : m.WF) (g : Given m c dev ds R xs)
    (h : ∀ k, k < prod ds → ∃ z, a.Value E.fp c (atPos xs k) z ∧ b.Value E.fp c (atPos xs k) z) :
    GiveSame E m (a.run c dev ds fun i => (R i).h) (b.run c dev ds fun i => (R i).h) := by
  obtain ⟨zs, hl, hz⟩ := choose_list h
  have ha := a.computes (E := E) wf g hl fun k hk => (hz k hk).1
  have hb := fun {m' : Mem} (wf' : m'.WF) (g' : Given m' c dev ds R xs) => b.computes (E := E) wf' g' hl fun k hk => (hz k hk).2
  constructor
  · intro h1 h2 m1 m2 e1 e2
    obtain ⟨R1, rfl, wf1, f1, a1⟩ := ha.only e1
    obtain ⟨R2, rfl, wf2, f2, a2⟩ := (hb wf1 (g.frame wf f1)).only e2
    exact ⟨R1, R2, _, rfl, rfl, a1.frame wf1 f2, a2⟩
  · intro nf mf
    obtain ⟨R1, m1, e1, wf1, f1, a1⟩ := ha.runs nf mf
    obtain ⟨R2, m2, e2, wf2, f2, a2⟩ := (hb wf1 (g.frame wf f1)).runs nf mf
    exact ⟨_, _, _, _, e1, e2, R1, R2, _, rfl, rfl, a1.frame wf1 f2, a2⟩

/-! ### Whole numbers -/

/-- The number is in the range of the integer type `c` and congruent to `e`. -/
def Congr (c : Code) (e r : Int) : Prop :=
  ∃ lo hi, intRange c = some (lo, hi) ∧ lo ≤ r ∧ r ≤ hi ∧ e % (hi - lo + 1) = r % (hi - lo + 1)

theorem congr_of {e r : Int} (h : ReducesTo c e r) : Congr c e r := by
  obtain ⟨lo, hi, h1, h2, h3, k, rfl⟩ := h
  exact ⟨lo, hi, h1, h2, h3, Int.add_mul_emod_self_right ..⟩

theorem congr_unique {e r r' : Int} (h : Congr c e r) (h' : Congr c e r') : r = r' := by
  obtain ⟨lo, hi, h1, h2, h3, h4⟩ := h
  obtain ⟨lo', hi', h1', h2', h3', h4'⟩ := h'
  rw [h1] at h1'
  cases h1'
  cases c <;> simp only [intRange, Option.some.injEq, Prod.mk.injEq, reduceCtorEq] at h1 <;>
    (obtain ⟨rfl, rfl⟩ := h1; simp only [Int.reduceSub, Int.reduceNeg, Int.reduceAdd] at h4 h4'; omega)

theorem Calc.value_poly {fp : FloatOps} {x : Nat → Val} {n : Nat → Int} (hc : c.isInt = true) (hx : ∀ i, (x i).WT c)
    (hn : ∀ i, x i = .int (n i)) {a : Calc} : ∀ {z e}, a.Value fp c x z → a.Poly fp n e → ∃ r, z = .int r ∧ Congr c e r := by
  induction a with
  | arg i =>
    intro z e h h'
    cases h; cases h'
    refine ⟨n i, hn i, ?_⟩
    have := hx i
    rw [hn i] at this
    cases c <;> first | exact absurd hc (by decide) | exact ⟨_, _, rfl, this.1, this.2, rfl⟩
  | lit v =>
    intro z e h h'
    simp only [Calc.Poly] at h'
    cases c <;> first | exact absurd hc (by decide) | skip
    all_goals
      obtain ⟨r, rfl, hr, lo, hi, h1, h2, h3⟩ := h
      rw [h'] at hr
      cases hr
      exact ⟨_, rfl, lo, hi, h1, h2, h3, rfl⟩
  | bin op a b iha ihb =>
    rintro z e ⟨p, q, hp, hq, h⟩ ⟨hd, p', q', hp', hq', he⟩
    obtain ⟨r, rfl, lo, hi, h1, h2, h3, h4⟩ := iha hp hp'
    obtain ⟨s, rfl, lo', hi', h1', h2', h3', h4'⟩ := ihb hq hq'
    rw [h1] at h1'
    cases h1'
    obtain ⟨e', t, rfl, hx, ht⟩ := h
    have hct : Congr c e' t := by
      have hre : ∀ {c : Code}, (t = e' ∧ ∃ lo hi, intRange c = some (lo, hi) ∧ lo ≤ t ∧ t ≤ hi) → Congr c e' t := by
        rintro c ⟨rfl, lo, hi, a, b, d⟩
        exact ⟨lo, hi, a, b, d, rfl⟩
      cases c <;> first | exact absurd hc (by decide) | exact congr_of ht | exact hre ht | exact congr_of ht.2
    refine ⟨t, rfl, ?_⟩
    obtain ⟨lo', hi', h5, h6, h7, h8⟩ := hct
    rw [h1] at h5
    cases h5
    refine ⟨lo, hi, h1, h6, h7, ?_⟩
    rw [← h8]
    cases op with
    | add => cases he; cases hx; rw [Int.add_emod, h4, h4', ← Int.add_emod]
    | sub => cases he; cases hx; rw [Int.sub_emod, h4, h4', ← Int.sub_emod]
    | mul => cases he; cases hx; rw [Int.mul_emod, h4, h4', ← Int.mul_emod]
    | div => exact absurd rfl hd

end Aitisa
