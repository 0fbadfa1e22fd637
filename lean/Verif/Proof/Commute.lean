import Verif.Spec.Commute
import Verif.Props.Elementwise
import Verif.Props.Squeeze
import Verif.Props.Slice
import Verif.Props.Math

/-! # Calls made in a different order -/

namespace Aitisa

variable {E : Env} {m : Mem} {R : Foot} {T : TV} {c : Code} {xs : List Val}

/-- If the call succeeds it has produced `T`; it does if no allocation fails. -/
structure MakesIf (E : Env) (x : M (Status × Ptr)) (m : Mem) (T : TV) : Prop where
  only : ∀ {h m'}, x E m = .ok (.success, h) m' → ∃ R, h = R.h ∧ Produces m m' R T
  runs : E.NoFail → E.MallocOK → ∃ R m', x E m = .ok (.success, R.h) m' ∧ Produces m m' R T

theorem Creates.yields {x : M (Status × Ptr)} {out : Ptr} (h : Creates E x m out T) : MakesIf E x m T := by
  rcases h with ⟨R, m', e, P⟩ | ⟨m', e, -, -, nf⟩
  · refine ⟨fun e' => ?_, fun _ _ => ⟨R, m', e, P⟩⟩
    rw [e] at e'; cases e'; exact ⟨R, rfl, P⟩
  · refine ⟨fun e' => ?_, fun nf' => absurd nf' nf⟩
    rw [e] at e'; cases e'

theorem Attempts.yields {x : M (Status × Ptr)} (h : Attempts E x m T) : MakesIf E x m T := by
  rcases h with ⟨R, m', e, P⟩ | ⟨nf, ⟨_, _, e, -⟩ | e⟩
  · refine ⟨fun e' => ?_, fun _ _ => ⟨R, m', e, P⟩⟩
    rw [e] at e'; cases e'; exact ⟨R, rfl, P⟩
  all_goals
    refine ⟨fun e' => ?_, fun nf' => absurd nf' nf⟩
    rw [e] at e'; cases e'

theorem makesIf_or {x : M (Status × Ptr)} {P : Prop} (h : MakesIf E x m T ∨ (P ∧ x E m = .ub .nullDeref))
    (hp : P → E.NoFail → E.MallocOK → False) : MakesIf E x m T := by
  rcases h with h | ⟨p, e⟩
  · exact h
  · refine ⟨fun e' => ?_, fun a b => (hp p a b).elim⟩
    rw [e] at e'; cases e'

theorem DeliversMalloc.yields {x : M (Status × Ptr)} {out : Ptr} {dev : Device} {ds : List Nat} {zs : List Val}
    (h : DeliversMalloc E x m out c dev ds zs) : MakesIf E x m ⟨c.dtype, dev, ds, encAll c zs⟩ :=
  makesIf_or (h.imp (fun d => d.creates.yields) id) fun p _ q => p q

/-- The elements at the given positions. -/
def pick (idx : List Nat) (xs : List Val) : List Val := idx.map fun i => xs.getD i default

theorem pick_range (xs : List Val) : pick (List.range xs.length) xs = xs := by
  refine List.ext_getElem (by simp [pick]) fun i h1 h2 => ?_
  simp [pick, List.getD, h2]

theorem pick_get {idx : List Nat} {xs : List Val} (h : ∀ i ∈ idx, i < xs.length) {k : Nat} (hk : k < idx.length) :
    (pick idx xs)[k]'(by simpa [pick] using hk) = xs[idx[k]]'(h _ (List.getElem_mem hk)) := by
  have := h _ (List.getElem_mem hk)
  simp [pick, List.getD, this]

theorem pick_mem {idx : List Nat} {xs : List Val} (h : ∀ i ∈ idx, i < xs.length) : ∀ y ∈ pick idx xs, y ∈ xs := by
  intro y hy
  obtain ⟨k, hk, rfl⟩ := List.mem_iff_getElem.1 hy
  have hk' : k < idx.length := by simpa [pick] using hk
  rw [pick_get h hk']
  exact List.getElem_mem _

theorem pick_mapM {f : Val → Except UB Val} {idx : List Nat} {xs ys : List Val} (h : ∀ i ∈ idx, i < xs.length)
    (hf : xs.mapM f = .ok ys) : (pick idx xs).mapM f = .ok (pick idx ys) := by
  obtain ⟨hl, hf⟩ := mapM_ok hf
  refine mapM_of_pointwise ⟨by simp [pick], fun k h1 h2 => ?_⟩
  have hk : k < idx.length := by simpa [pick] using h1
  rw [pick_get h hk, pick_get (fun i hi => by rw [hl]; exact h i hi) hk]
  exact hf _ _ _

/-- What a move does depends only on the dims: it picks elements by position. -/
theorem Move.yields (v : Move) (ds : List Nat) : ∃ (ds' idx : List Nat), (∀ i ∈ idx, i < prod ds) ∧ idx.length = prod ds' ∧
    (∀ sz, v.Fits ds sz → prod ds ≤ 2147483647 → prod ds' ≤ 2147483647) ∧
    ∀ {E : Env} {m : Mem} {R : Foot} {T : TV} {c : Code} {xs : List Val} (out : Ptr), m.WF → At m R T → Elems T c xs → T.dims = ds →
      v.Fits ds c.size → MakesIf E (v.run R.h out) m ⟨T.dtype, T.device, ds', encAll c (pick idx xs)⟩ := by
  have same : ∀ {T : TV} {c : Code} {xs : List Val}, Elems T c xs → T.dims = ds → T.bytes = encAll c (pick (List.range (prod ds)) xs) := by
    intro T c xs he hd
    rw [← hd, ← he.len, pick_range]; exact he.bytes
  match v with
  | .reshape ds' =>
    by_cases hp : prod ds' = prod ds
    · refine ⟨ds', List.range (prod ds), by simp, by simp [hp], fun _ _ h => hp ▸ h, fun {E} _ _ _ _ _ out wf h he hd hf => ?_⟩
      have := (reshape_run (E := E) wf h (by rw [he.dtype]; exact hf.1) (by rw [hd]; exact hf.2) out).yields
      rw [same he hd] at this
      exact this
    · exact ⟨[0], [], by simp, by simp [prod], fun _ _ _ => by simp [prod], fun _ _ _ _ _ hf => absurd hf.2 hp⟩
  | .squeeze ax =>
    by_cases hw : ∃ ds', Without (fun i => ax = [] ∨ i ∈ ax) 0 ds ds'
    · obtain ⟨ds', hw⟩ := hw
      refine ⟨ds', List.range (prod ds), by simp, by simp [C19_same_size hw], fun _ _ h => C19_same_size hw ▸ h, fun {E} _ _ _ _ _ out wf h he hd hf => ?_⟩
      obtain ⟨hp, hn, hr⟩ := hf
      obtain ⟨ds2, hw2, hc⟩ := C19_squeeze (E := E) wf h (by rw [hd]; exact hp) hn (by rw [hd]; exact hr) out
      rw [hd] at hw2
      rw [C19_deterministic hw2 hw] at hc
      rw [← same he hd]
      exact hc.yields
    · refine ⟨[0], [], by simp, by simp [prod], fun _ _ _ => by simp [prod], fun {E} _ _ _ _ _ out wf h he hd hf => ?_⟩
      obtain ⟨hp, hn, hr⟩ := hf
      obtain ⟨ds2, hw2, -⟩ := C19_squeeze (E := E) wf h (by rw [hd]; exact hp) hn (by rw [hd]; exact hr) out
      rw [hd] at hw2
      exact absurd ⟨_, hw2⟩ hw
  | .slice ax =>
    by_cases hf : (Move.slice ax).Fits ds 0
    · refine ⟨sliceDims ax, (List.range (prod (sliceDims ax))).map fun i => lin ds (srcAt ax i), ?_, by simp, fun _ hf _ => hf.2.2.2,
        fun {E} _ _ _ _ _ out wf h he hd hf => ?_⟩
      · intro i hi
        obtain ⟨k, hk, rfl⟩ := List.mem_map.1 hi
        exact lin_lt (srcAt_inRange hf.2.1 (List.mem_range.1 hk))
      · have := (slice_run (E := E) wf h he (by rw [hd]; exact hf.1) (by rw [hd]; exact hf.2.1) hf.2.2.1 hf.2.2.2 out).yields
        have e : pick ((List.range (prod (sliceDims ax))).map fun i => lin ds (srcAt ax i)) = sliceElems ds ax := by
          funext xs; simp [pick, sliceElems]
        rw [e, he.dtype, ← hd]
        exact this
    · exact ⟨[0], [], by simp, by simp [prod], fun _ _ _ => by simp [prod], fun _ _ _ _ _ hf' => absurd hf' hf⟩
  | .duplicate =>
    refine ⟨ds, List.range (prod ds), by simp, by simp, fun _ _ h => h, fun {E} _ _ _ _ _ out wf h he hd hf => ?_⟩
    have := makesIf_or ((duplicate_run (E := E) wf h he (by rw [hd]; exact hf.1) (by rw [hd]; exact hf.2.1)
      (by rw [hd]; exact hf.2.2) out).imp Creates.yields id) fun p q _ => p q
    rw [← same he hd, ← hd]
    exact this

/-! ### A slice of a slice -/

theorem ceilDiv_lt {n sz st : Nat} (hs : 1 ≤ st) : n < ceilDiv sz st ↔ st * n < sz := by
  unfold ceilDiv
  rw [Nat.lt_iff_add_one_le, Nat.le_div_iff_mul_le (by omega)]
  have : (n + 1) * st = st * n + st := by rw [Nat.add_mul, Nat.mul_comm n]; omega
  omega

theorem ceilDiv_after {k s : Nat} (hs : 1 ≤ s) (hk : 1 ≤ k) : ceilDiv ((k - 1) * s + 1) s = k := by
  have h1 : ∀ n, n < ceilDiv ((k - 1) * s + 1) s ↔ n < k := by
    intro n
    rw [ceilDiv_lt hs, Nat.mul_comm]
    constructor
    · intro h
      have : n * s ≤ (k - 1) * s := by omega
      have := Nat.le_of_mul_le_mul_right this (by omega)
      omega
    · intro h
      have := Nat.mul_le_mul_right s (show n ≤ k - 1 by omega)
      omega
  have a := h1 k
  have b := h1 (k - 1)
  omega

theorem ceil_one {sz st : Nat} (hs : 1 ≤ st) (hz : sz ≠ 0) : 1 ≤ ceilDiv sz st := (ceilDiv_lt hs).2 (by omega)

theorem slice_after {as : List Axis} : ∀ {ds : List Nat} {bs : List Axis}, SliceFits ds as → SliceFits (sliceDims as) bs →
    SliceFits ds (sliceAfter as bs) ∧ sliceDims (sliceAfter as bs) = sliceDims bs ∧
      ∀ cs, source (sliceAfter as bs) cs = source as (source bs cs) := by
  induction as with
  | nil =>
    intro ds bs h1 h2
    match ds, bs, h1, h2 with
    | [], [], _, _ => exact ⟨trivial, rfl, fun _ => rfl⟩
  | cons a as ih =>
    intro ds bs h1 h2
    match ds, h1 with
    | d :: ds, ⟨⟨f1, f2, f3⟩, h1⟩ =>
      by_cases hz : a.sz = 0
      · simp only [sliceDims, hz, if_true] at h2
        obtain ⟨g1, g2, g3⟩ := ih h1 h2
        refine ⟨?_, ?_, fun cs => ?_⟩
        · simp only [sliceAfter, hz, if_true]; exact ⟨⟨f1, f2, f3⟩, g1⟩
        · simp only [sliceAfter, hz, if_true, sliceDims]; exact g2
        · simp only [sliceAfter, hz, if_true, source]; rw [g3]
      · simp only [sliceDims, hz, if_false] at h2
        match bs, h2 with
        | b :: bs, ⟨⟨k1, k2, k3⟩, h2⟩ =>
          obtain ⟨g1, g2, g3⟩ := ih h1 h2
          have hb := (ceilDiv_lt f3).1 k1
          have hst : 1 ≤ a.st * b.st := Nat.mul_pos f3 k3
          have hn := fun h => ceil_one (sz := b.sz) k3 h
          refine ⟨?_, ?_, fun cs => ?_⟩
          · simp only [sliceAfter, hz, if_false]
            refine ⟨?_, g1⟩
            unfold Axis.after Axis.Fits
            split
            · exact ⟨by simp only; omega, by simp only; omega, by simp⟩
            · rename_i hbz
              have hlast : b.bg + b.st * (ceilDiv b.sz b.st - 1) < ceilDiv a.sz a.st := by
                have := (ceilDiv_lt (n := ceilDiv b.sz b.st - 1) (sz := b.sz) k3).1 (by have := hn hbz; omega)
                omega
              have := (ceilDiv_lt f3).1 hlast
              rw [Nat.mul_add, ← Nat.mul_assoc, Nat.mul_comm (a.st * b.st)] at this
              exact ⟨by simp only; omega, by simp only; omega, hst⟩
          · simp only [sliceAfter, hz, if_false, sliceDims, Axis.after]
            by_cases hbz : b.sz = 0
            · simp only [hbz, if_true]; exact g2
            · simp only [hbz, if_false]
              rw [if_neg (by omega), ceilDiv_after hst (hn hbz), g2]
          · simp only [sliceAfter, hz, if_false, source, Axis.after]
            by_cases hbz : b.sz = 0
            · simp only [hbz, if_true, source, List.headD_cons, List.tail_cons]; rw [g3]
            · simp only [hbz, if_false, List.headD_cons, List.tail_cons]
              rw [if_neg (by omega), g3, Nat.mul_add, Nat.mul_assoc, Nat.add_assoc]

theorem sliceElems_after {ds : List Nat} {as bs : List Axis} {xs : List Val} (h1 : SliceFits ds as)
    (h2 : SliceFits (sliceDims as) bs) :
    sliceElems (sliceDims as) bs (sliceElems ds as xs) = sliceElems ds (sliceAfter as bs) xs := by
  obtain ⟨-, g2, g3⟩ := slice_after h1 h2
  conv => lhs; unfold sliceElems
  conv => rhs; unfold sliceElems
  rw [g2]
  refine List.map_congr_left fun i hi => ?_
  have hi := srcAt_inRange h2 (List.mem_range.1 hi)
  have hlt := lin_lt hi
  rw [List.getD_eq_getElem?_getD, List.getElem?_map, List.getElem?_range hlt, Option.map_some, Option.getD_some]
  congr 2
  unfold srcAt
  rw [g2, g3, unlin_lin]
  exact hi

/-- The elementwise operators as functions of the element. -/
def Each.f (fp : FloatOps) (c : Code) : Each → Val → Except UB Val
  | .relu => reluF fp c
  | .sigmoid => sigmoidF fp c
  | .tanh => tanhF fp c
  | .sqrt => sqrtF fp c
  | .cast c' => cCast fp c'

theorem Each.f_WT {fp : FloatOps} {o : Each} {x y : Val} (wt : x.WT c) (ha : o.Accepts c) (h : o.f fp c x = .ok y) : y.WT (o.code c) := by
  match o with
  | .relu =>
    obtain ⟨ys, hys, wt', -⟩ := relu_elems (fp := fp) (c := c) (xs := [x]) (by simpa using wt)
    have hy : [x].mapM (reluF fp c) = .ok [y] := mapM_of_pointwise ⟨rfl, fun i h1 h2 => by
      have : i = 0 := by simpa using h1
      subst this; exact h⟩
    rw [hy] at hys
    cases hys
    exact wt' y (by simp)
  | .sigmoid =>
    change sigmoidF fp c x = .ok y at h
    exact (cCast_WT h :)
  | .tanh =>
    change tanhF fp c x = .ok y at h
    exact (cCast_WT h :)
  | .sqrt =>
    change sqrtF fp c x = .ok y at h
    exact (cCast_WT h :)
  | .cast c' => exact cCast_WT h

theorem Each.defined {fp : FloatOps} {o : Each} (ha : o.Accepts c) (ht : ∀ x ∈ xs, o.Takes fp c x) : ∃ ys, xs.mapM (o.f fp c) = .ok ys := by
  refine exists_mapM fun x hx => ?_
  have := ht x hx
  match o with
  | .relu => exact ⟨_, rfl⟩
  | .sigmoid => rcases ha with rfl | rfl <;> exact ⟨_, rfl⟩
  | .tanh => rcases ha with rfl | rfl <;> exact ⟨_, rfl⟩
  | .sqrt => exact this.2.imp fun y hy => rootOf_iff.1 hy
  | .cast c' => exact this.imp fun y hy => converts_iff.1 hy

theorem Each.yields {o : Each} {ys : List Val} (wf : m.WF) (h : At m R T) (he : Elems T c xs) (ha : o.Accepts c)
    (ht : ∀ x ∈ xs, o.Takes E.fp c x) (hs : ShapeOK T.dims (o.code c).size) (hy : xs.mapM (o.f E.fp c) = .ok ys) (out : Ptr) :
    MakesIf E (o.run R.h out) m ⟨(o.code c).dtype, T.device, T.dims, encAll (o.code c) ys⟩ := by
  match o with
  | .relu => have := (relu_run wf h he hy out).yields; rw [he.dtype] at this; exact this
  | .sigmoid => have := (sigmoid_run wf ha h he hy out).yields; rw [he.dtype] at this; exact this
  | .tanh => have := (tanh_run wf ha h he hy out).yields; rw [he.dtype] at this; exact this
  | .sqrt =>
    have := (sqrt_run wf h he (fun x hx => by
      have := (ht x hx).1; rw [← isNeg_iff] at this; simpa using this) hy out).yields
    rw [he.dtype] at this; exact this
  | .cast c' => exact (cast_run wf h he ha hs hy out).yields

theorem sameTensor_of {ma mb : Mem} {Ra Rb : Foot} {T : TV} (wf : ma.WF) (ha : At ma Ra T) (P : Produces ma mb Rb T) :
    SameTensor mb Ra.h Rb.h :=
  ⟨Ra, Rb, T, rfl, rfl, ha.frame wf P.ext.toFrame, P.tensor, fun b hb hb' => by
    have := P.fresh b hb'
    have := ha.lt wf hb
    omega⟩

end Aitisa
