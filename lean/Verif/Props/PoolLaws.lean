import Verif.Proof.PoolLaws
import Verif.Props.Pooling
import Verif.Props.Elementwise
import Verif.Props.Ieee

/-!
# C81: max pooling, relu and conversions to `double` may be exchanged, and max poolings merged
-/

namespace Aitisa

variable {E : Env} {m : Mem} {R : Foot} {T : TV} {c : Code} {xs ys zs : List Val} {B C fuel : Nat} {ws : List Win}

theorem pool_gives (he : Elems T c xs) (hs : T.dims = B :: C :: ws.map Win.x) (hp : Pools fuel B C c ws)
    (hl : zs.length = prod (B :: C :: ws.map Win.out))
    (hz : ∀ b ch os, InRange (B :: C :: ws.map Win.out) (b :: ch :: os) →
      ScanOf E.fp c (winElems T.dims xs ws b ch os) (elemAt (B :: C :: ws.map Win.out) zs (b :: ch :: os))) (out : Ptr) :
    GivesAlways E (maxPool fuel ws out) T ⟨c.dtype, T.device, B :: C :: ws.map Win.out, encAll c zs⟩ := fun _ _ wf h =>
  (C38_max wf h he hs hp.some hp.three hp.fits hp.shape hp.outs hp.size hp.enough hp.enough' hl hz out).yields

theorem pool_wt {ds : List Nat} (hl : zs.length = prod (B :: C :: ws.map Win.out))
    (hz : ∀ b ch os, InRange (B :: C :: ws.map Win.out) (b :: ch :: os) →
      ScanOf E.fp c (winElems ds xs ws b ch os) (elemAt (B :: C :: ws.map Win.out) zs (b :: ch :: os))) : ∀ z ∈ zs, z.WT c :=
  grid_all hl fun b ch os ho => by
    obtain ⟨r, -, hr⟩ := hz b ch os ho
    exact cCast_WT (converts_iff.1 hr)

theorem pointwise_det {r : Val → Val → Prop} (hr : ∀ x ∈ xs, ∀ y y', r x y → r x y' → y = y') (h : Pointwise r xs ys) (h' : Pointwise r xs zs) : ys = zs := by
  have h1 := h.1
  have h2 := h'.1
  refine List.ext_getElem (by omega) fun i hi hi' => ?_
  exact hr _ (List.getElem_mem (by omega)) _ _ (h.2 i (by omega) hi) (h'.2 i (by omega) hi')

theorem relu_gives (he : Elems T c xs) (pw : Pointwise (ClampedAtZero E.fp) xs ys) (out : Ptr) :
    GivesAlways E (fun h => relu h out) T ⟨c.dtype, T.device, T.dims, encAll c ys⟩ := fun _ _ wf h => by
  obtain ⟨ys', hys, wt, pw', _⟩ := relu_elems (fp := E.fp) he.wt
  have : ys' = ys := pointwise_det (fun x hx y y' h h' => by
    rw [clamped_iff (he.wt x hx)] at h h'
    rw [h] at h'; injection h') pw' pw
  subst this
  have := (relu_run wf h he hys out).yields
  rw [he.dtype] at this; exact this

theorem cast_gives {c' : Code} (he : Elems T c xs) (hne : c ≠ c') (hs : ShapeOK T.dims c'.size) (pw : Pointwise (Converts E.fp c') xs ys) (out : Ptr) :
    GivesAlways E (fun h => cast h c'.dtype out) T ⟨c'.dtype, T.device, T.dims, encAll c' ys⟩ := fun _ _ wf h => by
  obtain ⟨ys', D, pw'⟩ := C11_cast (E := E) wf h he hne hs (fun x hx => by
    obtain ⟨i, hi, rfl⟩ := List.mem_iff_getElem.1 hx
    exact ⟨_, pw.2 i hi (by have := pw.1; omega)⟩) out
  have : ys' = ys := pointwise_det (r := Converts E.fp c') (fun x _ y y' h h' => converts_det h h') pw' pw
  subst this
  exact D.creates.yields

/-! ### relu -/

/-- C81. relu before max pooling makes no difference, to the last bit and also where there are NaN: max pooling never gives anything
below 0. Any element type; the maxima must be representable (which they always are unless the type is a 64-bit integer type). -/
theorem C81_relu_before (hE : Machine E.fp) (wf : m.WF) (h : At m R T) (he : Elems T c xs) (hs : T.dims = B :: C :: ws.map Win.x)
    (hp : Pools fuel B C c ws)
    (hz : ∀ b ch os, InRange (B :: C :: ws.map Win.out) (b :: ch :: os) → ∃ z, ScanOf E.fp c (winElems T.dims xs ws b ch os) z)
    (out1 out2 out3 : Ptr) :
    SameResult E m [fun h => relu h out1, maxPool fuel ws out2] [maxPool fuel ws out3] R.h := by
  obtain ⟨zs, hl, hz⟩ := exists_grid hz
  obtain ⟨ys, -, wt, pw, -⟩ := relu_elems (fp := E.fp) he.wt
  have hlen : xs.length = prod (B :: C :: ws.map Win.x) := by rw [he.len, hs]
  refine sameResult (by simp) wf h ⟨_, relu_gives he pw out1, _, pool_gives (T := ⟨c.dtype, T.device, T.dims, encAll c ys⟩) (c := c) (xs := ys) ⟨rfl, rfl, wt, ?_⟩ hs hp hl ?_ out2, rfl⟩
    ⟨_, pool_gives he hs hp hl hz out3, rfl⟩
  · rw [← pw.1, he.len]
  · intro b ch os ho
    obtain ⟨r, hr, hc⟩ := hz b ch os ho
    rw [hE.scans, hE.ofInt64] at hr
    rw [hE.converts] at hc
    rw [hE.clamped] at pw
    rw [hE.scan]
    simp only [hs] at hr ⊢
    exact scan_rel (pw.imp fun x _ y hy => rank_clamp hy) hlen ho.1 ho.2.1 (by have := ho.2.2.length; simpa using this) hr hc

/-- C81. relu after max pooling makes no difference either. -/
theorem C81_relu_after (hE : Machine E.fp) (wf : m.WF) (h : At m R T) (he : Elems T c xs) (hs : T.dims = B :: C :: ws.map Win.x)
    (hp : Pools fuel B C c ws)
    (hz : ∀ b ch os, InRange (B :: C :: ws.map Win.out) (b :: ch :: os) → ∃ z, ScanOf E.fp c (winElems T.dims xs ws b ch os) z)
    (out1 out2 out3 : Ptr) :
    SameResult E m [maxPool fuel ws out1, fun h => relu h out2] [maxPool fuel ws out3] R.h := by
  obtain ⟨zs, hl, hz⟩ := exists_grid hz
  refine sameResult (by simp) wf h ⟨_, pool_gives he hs hp hl hz out1, _, relu_gives (c := c) (xs := zs) (ys := zs) ⟨rfl, rfl, pool_wt hl hz, hl⟩
    ⟨rfl, fun i hi _ => ?_⟩ out2, rfl⟩ ⟨_, pool_gives he hs hp hl hz out3, rfl⟩
  refine grid_all (P := fun z => ClampedAtZero E.fp z z) hl (fun b ch os ho => ?_) _ (List.getElem_mem hi)
  obtain ⟨r, hr, hc⟩ := hz b ch os ho
  rw [hE.scans, hE.ofInt64] at hr
  rw [hE.converts] at hc
  rw [hE.clamped]
  exact clamp_plus (scan_zero hr).1 hc

/-! ### Conversion to `double` -/

theorem grid_back (hE : Machine E.fp) (he : Elems T c xs) (hs : T.dims = B :: C :: ws.map Win.x) (hx : ∀ n, .int n ∈ xs → Within .f64 n) :
    ∀ b ch os, InRange (B :: C :: ws.map Win.out) (b :: ch :: os) → ∃ z, ScanOf E.fp c (winElems T.dims xs ws b ch os) z := by
  intro b ch os ho
  have hlen : xs.length = prod (B :: C :: ws.map Win.x) := by rw [he.len, hs]
  rw [hE.scan, hs]
  obtain ⟨r, hr⟩ := scan_exists ieee (ieee.ofInt64 0) (winElems (B :: C :: ws.map Win.x) xs ws b ch os)
  have hm := win_mem (ws := ws) hlen ho.1 ho.2.1 (os := os) (by have := ho.2.2.length; simpa using this)
  obtain ⟨z, hz, -⟩ := scan_back (c := c) (fun e h => he.wt e (hm e h)) (fun n h => hx n (hm _ h)) hr
  exact ⟨z, r, hr, hz⟩

/-- C81. Converting to `double` and max pooling may be exchanged (64-bit integers: of absolute value below 2^53). -/
theorem C81_cast (hE : Machine E.fp) (wf : m.WF) (h : At m R T) (he : Elems T c xs) (hc : c ≠ .f64) (hs : T.dims = B :: C :: ws.map Win.x)
    (hp : Pools fuel B C c ws) (hS : ShapeOK T.dims 8) (hp' : Pools fuel B C .f64 ws) (hx : ∀ n, .int n ∈ xs → Within .f64 n)
    (out1 out2 out3 out4 : Ptr) :
    SameResult E m [fun h => cast h Code.f64.dtype out1, maxPool fuel ws out2] [maxPool fuel ws out3, fun h => cast h Code.f64.dtype out4] R.h := by
  obtain ⟨zs, hl, hz⟩ := exists_grid (grid_back hE he hs hx)
  have hlen : xs.length = prod (B :: C :: ws.map Win.x) := by rw [he.len, hs]
  have conv : ∀ l : List Val, Pointwise (Converts E.fp .f64) l (l.map fun x => .f64 (toDouble ieee x)) := fun l =>
    ⟨by simp, fun i hi hi' => by rw [hE.converts, List.getElem_map, converts_f64]⟩
  have wt64 : ∀ l : List Val, ∀ y ∈ l.map fun x => Val.f64 (toDouble ieee x), y.WT .f64 := fun l y hy => by
    obtain ⟨x, -, rfl⟩ := List.mem_map.1 hy
    trivial
  refine sameResult (by simp) wf h
    ⟨_, cast_gives he hc hS (conv xs) out1, _, pool_gives (T := ⟨Code.f64.dtype, T.device, T.dims, encAll .f64 (xs.map fun x => .f64 (toDouble ieee x))⟩) (c := .f64) (zs := zs.map fun x => .f64 (toDouble ieee x)) ⟨rfl, rfl, wt64 xs, by simp [he.len]⟩ hs hp'
      (by simpa using hl) ?_ out2, rfl⟩
    ⟨_, pool_gives he hs hp hl hz out3, _, cast_gives (c := c) (xs := zs) ⟨rfl, rfl, pool_wt hl hz, hl⟩ hc hp'.shape (conv zs) out4, rfl⟩
  intro b ch os ho
  obtain ⟨r, hr, hcv⟩ := hz b ch os ho
  rw [hE.scans, hE.ofInt64] at hr
  rw [hE.converts] at hcv
  rw [hE.scan]
  simp only [hs] at hr ⊢
  have hos : os.length = ws.length := by have := ho.2.2.length; simpa using this
  have hm := win_mem (ws := ws) hlen ho.1 ho.2.1 (os := os) hos
  obtain ⟨z, hz, hd, -⟩ := scan_back (c := c) (fun e h => he.wt e (hm e h)) (fun n h => hx n (hm _ h)) hr
  have e : elemAt (B :: C :: ws.map Win.out) (zs.map fun x => .f64 (toDouble ieee x)) (b :: ch :: os) = .f64 r := by
    have := lin_lt ho
    rw [elemAt_get (by rw [hl]; exact this)] at hcv
    rw [elemAt_get (by simpa [hl] using this), List.getElem_map, converts_det hcv hz, hd]
  rw [e]
  refine scan_rel (c' := .f64) (xs := xs) ⟨by simp, fun i hi hi' => ?_⟩ hlen ho.1 ho.2.1 hos hr rfl
  simp only [List.getElem_map]
  rfl

/-! ### Merging -/

/-- C81. Two max poolings, the second without padding or dilation, are one: with windows of length `(k' - 1) * s + k` and stride
`s * s'`, if the first is not dilated and its windows leave no gaps (64-bit integers: of absolute value below 2^53). -/
theorem C81_merge {l : List Twice} (hE : Machine E.fp) (wf : m.WF) (h : At m R T) (he : Elems T c xs) (hs : T.dims = B :: C :: (l.map Twice.first).map Win.x)
    (hd : ∀ t ∈ l, t.Dense) (h1 : Pools fuel B C c (l.map Twice.first)) (h2 : Pools fuel B C c (l.map Twice.second))
    (h3 : Pools fuel B C c (l.map Twice.once)) (hx : ∀ n, .int n ∈ xs → Within .f64 n) (out1 out2 out3 : Ptr) :
    SameResult E m [maxPool fuel (l.map Twice.first) out1, maxPool fuel (l.map Twice.second) out2] [maxPool fuel (l.map Twice.once) out3] R.h := by
  obtain ⟨ys, hyl, hy⟩ := exists_grid (grid_back hE he hs hx)
  have hlen : xs.length = prod (B :: C :: (l.map Twice.first).map Win.x) := by rw [he.len, hs]
  have wty := pool_wt hyl hy
  have hs2 : (B :: C :: (l.map Twice.first).map Win.out) = B :: C :: (l.map Twice.second).map Win.x := by
    simp [Function.comp_def, Twice.second]
  have hes : Elems ⟨c.dtype, T.device, B :: C :: (l.map Twice.first).map Win.out, encAll c ys⟩ c ys := ⟨rfl, rfl, wty, hyl⟩
  have hfit : ∀ t ∈ l, t.Dense ∧ t.first.Fits ∧ t.second.Fits := fun t ht =>
    ⟨hd t ht, (h1.fits _ (List.mem_map_of_mem ht)).1, (h2.fits _ (List.mem_map_of_mem ht)).1⟩
  have hout : (l.map Twice.once).map Win.out = (l.map Twice.second).map Win.out := by
    simp only [List.map_map]
    exact List.map_congr_left fun t ht => once_out (hfit t ht).2.1 (hd t ht).1 (hfit t ht).2.2
  have hyx : ∀ n, .int n ∈ ys → Within .f64 n := by
    intro n hn
    have := grid_all (P := fun z => ∀ n, z = .int n → Within .f64 n) hyl (fun b ch os ho n hn => ?_) _ hn n rfl
    · exact this
    obtain ⟨r, hr, hc⟩ := hy b ch os ho
    rw [hE.scans, hE.ofInt64] at hr
    rw [hE.converts] at hc
    simp only [hs] at hr
    have hm := win_mem (ws := l.map Twice.first) hlen ho.1 ho.2.1 (os := os) (by have := ho.2.2.length; simpa using this)
    obtain ⟨y, hy', -, hk⟩ := scan_back (c := c) (fun e h => he.wt e (hm e h)) (fun n h => hx n (hm _ h)) hr
    exact hk n ((converts_det hy' hc).trans hn)
  obtain ⟨zs, hzl, hz⟩ := exists_grid (grid_back (ws := l.map Twice.second) hE hes hs2 hyx)
  refine sameResult (by simp) wf h ⟨_, pool_gives he hs h1 hyl hy out1, _, pool_gives hes hs2 h2 hzl hz out2, rfl⟩ ⟨_, ?_, rfl⟩
  have hs3 : T.dims = B :: C :: (l.map Twice.once).map Win.x := by rw [hs]; simp [Function.comp_def, Twice.once]
  rw [← hout] at hzl hz ⊢
  refine pool_gives he hs3 h3 hzl (fun b ch os ho => ?_) out3
  rw [hout] at ho
  rw [hs, hE.scan]
  have hz' := hz b ch os (by rw [hout]; exact ho)
  rw [hE.scan] at hz'
  refine scan_twice hfit hlen he.wt hx ho.1 ho.2.1 ho.2.2 (fun o1s ho1 => ?_) hz'
  have := hy b ch o1s ⟨ho.1, ho.2.1, ho1⟩
  rw [hE.scan, hs] at this
  exact this

/-! ### Examples -/

/-- -1, 2, NaN, 0.5, 3. -/
def exPl : List Val := [.f32 0xBF800000#32, .f32 0x40000000#32, .f32 0x7FC00000#32, .f32 0x3F000000#32, .f32 0x40400000#32]

/-- -1, 2, 7, -5, 3. -/
def exPi : List Val := [.int (-1), .int 2, .int 7, .int (-5), .int 3]

/-- Windows of two with padding 1, then windows of two. -/
def exTwice : Twice := ⟨⟨5, 2, 1, 1, 1⟩, 2, 1⟩

theorem exPools {c : Code} {w : Win} (hc : ShapeOK [1, 1, w.out] c.size) (h : w.Fits ∧ w.Small) (ho : w.out ≤ 6) (hk : w.k ≤ 6) : Pools 10 1 1 c [w] where
  some := by simp
  three := by simp
  fits w' hw := by simp only [List.mem_singleton] at hw; subst hw; exact h
  shape := hc
  outs := by simp only [List.map_cons, List.map_nil, prod]; omega
  size := by simp only [List.map_cons, List.map_nil, prod]; omega
  enough := by simp only [List.map_cons, List.map_nil, prod]; omega
  enough' := by simp only [List.map_cons, List.map_nil, prod]; omega

theorem exFirst {c : Code} (hc : ShapeOK [1, 1, exTwice.first.out] c.size) : Pools 10 1 1 c [exTwice.first] :=
  exPools hc ⟨⟨by decide, by decide, by decide, by decide⟩, ⟨by decide, by decide, by decide⟩⟩ (by decide) (by decide)

theorem exSecond {c : Code} (hc : ShapeOK [1, 1, exTwice.second.out] c.size) : Pools 10 1 1 c [exTwice.second] :=
  exPools hc ⟨⟨by decide, by decide, by decide, by decide⟩, ⟨by decide, by decide, by decide⟩⟩ (by decide) (by decide)

theorem exOnce {c : Code} (hc : ShapeOK [1, 1, exTwice.once.out] c.size) : Pools 10 1 1 c [exTwice.once] :=
  exPools hc ⟨⟨by decide, by decide, by decide, by decide⟩, ⟨by decide, by decide, by decide⟩⟩ (by decide) (by decide)

example : SameResult ieeeEnv (Mem.empty.addT (tvOf .f32 [1, 1, 5] exPl)) [fun h => relu h .indet, maxPool 10 [exTwice.first] .indet]
    [maxPool 10 [exTwice.first] .indet] Mem.empty.footT.h :=
  C81_relu_before (B := 1) (C := 1) (T := tvOf .f32 [1, 1, 5] exPl) (c := .f32) ieee_machine (Mem.addT_wf Mem.empty_wf _)
    (tvOf_at _ (by simp) rfl ⟨by decide, by decide⟩) (tvOf_elems (by decide) rfl) rfl (exFirst ⟨by decide, by decide⟩)
    (fun _ _ _ _ => ⟨_, _, scansTo_iff.2 rfl, rfl⟩) _ _ _

example : SameResult fusedEnv (Mem.empty.addT (tvOf .f32 [1, 1, 5] exPl)) [maxPool 10 [exTwice.first] .indet, fun h => relu h .indet]
    [maxPool 10 [exTwice.first] .indet] Mem.empty.footT.h :=
  C81_relu_after (B := 1) (C := 1) (T := tvOf .f32 [1, 1, 5] exPl) (c := .f32) fused_machine (Mem.addT_wf Mem.empty_wf _)
    (tvOf_at _ (by simp) rfl ⟨by decide, by decide⟩) (tvOf_elems (by decide) rfl) rfl (exFirst ⟨by decide, by decide⟩)
    (fun _ _ _ _ => ⟨_, _, scansTo_iff.2 rfl, rfl⟩) _ _ _

example : SameResult ieeeEnv (Mem.empty.addT (tvOf .i32 [1, 1, 5] exPi)) [fun h => cast h Code.f64.dtype .indet, maxPool 10 [exTwice.first] .indet]
    [maxPool 10 [exTwice.first] .indet, fun h => cast h Code.f64.dtype .indet] Mem.empty.footT.h :=
  C81_cast (B := 1) (C := 1) (T := tvOf .i32 [1, 1, 5] exPi) (c := .i32) ieee_machine (Mem.addT_wf Mem.empty_wf _)
    (tvOf_at _ (by simp) rfl ⟨by decide, by decide⟩) (tvOf_elems (by decide) rfl) (by decide) rfl (exFirst ⟨by decide, by decide⟩) ⟨by decide, by decide⟩
    (exFirst ⟨by decide, by decide⟩) (by
      intro n hn
      simp only [exPi, List.mem_cons, Val.int.injEq, List.not_mem_nil, or_false] at hn
      exact ⟨by omega, by omega⟩) _ _ _ _

example : SameResult ieeeEnv (Mem.empty.addT (tvOf .f32 [1, 1, 5] exPl)) [maxPool 10 [exTwice.first] .indet, maxPool 10 [exTwice.second] .indet]
    [maxPool 10 [exTwice.once] .indet] Mem.empty.footT.h :=
  C81_merge (l := [exTwice]) (B := 1) (C := 1) (T := tvOf .f32 [1, 1, 5] exPl) (c := .f32) ieee_machine (Mem.addT_wf Mem.empty_wf _)
    (tvOf_at _ (by simp) rfl ⟨by decide, by decide⟩) (tvOf_elems (by decide) rfl) rfl (by
      intro t ht
      simp only [List.mem_singleton] at ht
      subst ht
      exact ⟨rfl, by decide⟩) (exFirst ⟨by decide, by decide⟩) (exSecond ⟨by decide, by decide⟩) (exOnce ⟨by decide, by decide⟩) (by
      intro n hn
      simp [exPl] at hn) _ _ _

end Aitisa
