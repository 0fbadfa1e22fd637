import Verif.Proof.Tiles
import Verif.Props.PoolLaws
import Verif.Props.Border
import Verif.Props.Conv
import Verif.Props.Matmul

/-!
# C84: a tile of the result is the result of a tile
-/

namespace Aitisa

variable {E : Env} {m m' : Mem} {R R1 R1' R2 R2' : Foot} {T T1 T1' T2 T2' : TV} {c : Code} {xs xs' ys ys' zs : List Val} {ts : List Tile} {B C O fuel : Nat}
  {pb pc po : Pick}

theorem slice_gives {ax : List Axis} (he : Elems T c xs) (h0 : T.dims ≠ []) (hf : SliceFits T.dims ax) (ha : AxFit ax)
    (hi : prod (sliceDims ax) ≤ 2147483647) (out : Ptr) :
    GivesAlways E (fun h => slice h (bgs ax) (szs ax) (sts ax) out) T ⟨c.dtype, T.device, sliceDims ax, encAll c (sliceElems T.dims ax xs)⟩ :=
  fun _ _ wf h => (slice_run wf h he h0 hf ha hi out).yields

theorem avg_gives (he : Elems T c xs) {ws : List Win} (hs : T.dims = B :: C :: ws.map Win.x) (hp : Pools fuel B C c ws)
    (hl : zs.length = prod (B :: C :: ws.map Win.out))
    (hz : ∀ b ch os, InRange (B :: C :: ws.map Win.out) (b :: ch :: os) →
      AvgOf E.fp c (prod (ws.map Win.k)) (winElems T.dims xs ws b ch os) (elemAt (B :: C :: ws.map Win.out) zs (b :: ch :: os))) (out : Ptr) :
    GivesAlways E (avgPool fuel ws out) T ⟨c.dtype, T.device, B :: C :: ws.map Win.out, encAll c zs⟩ := fun _ _ wf h =>
  (C38_avg wf h he hs hp.some hp.three hp.fits hp.shape hp.outs hp.size hp.enough hp.enough' hl hz out).yields

/-- The parts of the input and of the output, as requests to `slice`. -/
abbrev tileIn (pb pc : Pick) (ts : List Tile) : List Axis := pb.axis :: pc.axis :: ts.map Tile.axis
abbrev tileOut (pb pc : Pick) (ts : List Tile) : List Axis := pb.axis :: pc.axis :: ts.map (Pick.axis ∘ Tile.p)

section
variable (ht : ∀ t ∈ ts, t.Fits) (hb : pb.Of B) (hc : pc.Of C)
include ht hb hc

theorem tileIn_fits : SliceFits (B :: C :: (ts.map Tile.w).map Win.x) (tileIn pb pc ts) := ⟨Pick.axis_fits hb, Pick.axis_fits hc, tiles_fit ht⟩
theorem tileOut_fits : SliceFits (B :: C :: (ts.map Tile.w).map Win.out) (tileOut pb pc ts) := ⟨Pick.axis_fits hb, Pick.axis_fits hc, picks_fit ht⟩
omit ht in
theorem tileIn_dims : sliceDims (tileIn pb pc ts) = pb.n :: pc.n :: (ts.map Tile.win).map Win.x := by
  rw [Pick.axis_dims hb, Pick.axis_dims hc, tiles_dims]
theorem tileOut_dims : sliceDims (tileOut pb pc ts) = pb.n :: pc.n :: (ts.map Tile.win).map Win.out := by
  rw [Pick.axis_dims hb, Pick.axis_dims hc, picks_dims ht]

/-- What pooling a tile gives, if pooling the whole gives `zs`. -/
theorem tile_grid {P : List Val → Val → Prop} (hl : xs.length = prod (B :: C :: (ts.map Tile.w).map Win.x))
    (hlz : zs.length = prod (B :: C :: (ts.map Tile.w).map Win.out))
    (hz : ∀ b ch os, InRange (B :: C :: (ts.map Tile.w).map Win.out) (b :: ch :: os) →
      P (winElems (B :: C :: (ts.map Tile.w).map Win.x) xs (ts.map Tile.w) b ch os) (elemAt (B :: C :: (ts.map Tile.w).map Win.out) zs (b :: ch :: os))) :
    ∀ b ch os, InRange (pb.n :: pc.n :: (ts.map Tile.win).map Win.out) (b :: ch :: os) →
      P (winElems (pb.n :: pc.n :: (ts.map Tile.win).map Win.x) (sliceElems (B :: C :: (ts.map Tile.w).map Win.x) (tileIn pb pc ts) xs) (ts.map Tile.win) b ch os)
        (elemAt (pb.n :: pc.n :: (ts.map Tile.win).map Win.out) (sliceElems (B :: C :: (ts.map Tile.w).map Win.out) (tileOut pb pc ts) zs) (b :: ch :: os)) := by
  intro b ch os ho
  rw [tile_elems ht hb hc (sliced_elems (tileIn_fits ht hb hc) hl) ho]
  have ho' := ho
  rw [← tileOut_dims ht hb hc] at ho' ⊢
  rw [(sliced_elems (tileOut_fits ht hb hc) hlz).2 _ ho']
  have := source_inRange (tileOut_fits ht hb hc) ho'
  rw [pick_source, pick_source] at this ⊢
  exact hz _ _ _ this

end

section
variable (wf : m.WF) (h : At m R T) (he : Elems T c xs) (hs : T.dims = B :: C :: (ts.map Tile.w).map Win.x) (ht : ∀ t ∈ ts, t.Fits) (hb : pb.Of B)
  (hc : pc.Of C) (hp : Pools fuel B C c (ts.map Tile.w)) (hp' : Pools fuel pb.n pc.n c (ts.map Tile.win)) (a1 : AxFit (tileIn pb pc ts))
  (a2 : AxFit (tileOut pb pc ts)) (i1 : prod (pb.n :: pc.n :: (ts.map Tile.win).map Win.x) ≤ 2147483647)
  (i2 : prod (pb.n :: pc.n :: (ts.map Tile.win).map Win.out) ≤ 2147483647)
include wf h he hs ht hb hc hp hp' a1 a2 i1 i2

/-- C84, max pooling without padding: taking samples, channels and windows of the result, also with steps, gives what pooling the
part of the input under those windows gives, with the strides multiplied by the steps. -/
theorem C84_max_pooling
    (hz : ∀ b ch os, InRange (B :: C :: (ts.map Tile.w).map Win.out) (b :: ch :: os) → ∃ z, ScanOf E.fp c (winElems T.dims xs (ts.map Tile.w) b ch os) z)
    (out1 out2 out3 out4 : Ptr) :
    SameResult E m [maxPool fuel (ts.map Tile.w) out1, fun h => slice h (bgs (tileOut pb pc ts)) (szs (tileOut pb pc ts)) (sts (tileOut pb pc ts)) out2]
      [fun h => slice h (bgs (tileIn pb pc ts)) (szs (tileIn pb pc ts)) (sts (tileIn pb pc ts)) out3, maxPool fuel (ts.map Tile.win) out4] R.h := by
  obtain ⟨zs, hl, hz⟩ := exists_grid hz
  have hlx : xs.length = prod (B :: C :: (ts.map Tile.w).map Win.x) := by rw [he.len, hs]
  have f1 := tileIn_fits ht hb hc
  have f2 := tileOut_fits ht hb hc
  refine sameResult (by simp) wf h
    ⟨_, pool_gives he hs hp hl hz out1, _, slice_gives (c := c) (xs := zs) ⟨rfl, rfl, pool_wt hl hz, hl⟩ (by simp) f2 a2
      (by rw [tileOut_dims ht hb hc]; exact i2) out2, rfl⟩
    ⟨_, slice_gives he (by simp [hs]) (by rw [hs]; exact f1) a1 (by rw [tileIn_dims hb hc]; exact i1) out3, _,
      pool_gives (c := c) (xs := sliceElems T.dims (tileIn pb pc ts) xs) ⟨rfl, rfl, ?_, sliceElems_length ..⟩ (tileIn_dims hb hc) hp'
        (zs := sliceElems (B :: C :: (ts.map Tile.w).map Win.out) (tileOut pb pc ts) zs) ?_ ?_ out4, ?_⟩
  · rw [hs]
    exact fun y hy => he.wt y (sliceElems_mem f1 hlx y hy)
  · rw [sliceElems_length, tileOut_dims ht hb hc]
  · simp only [tileIn_dims hb hc, hs] at hz ⊢
    exact tile_grid ht hb hc (P := ScanOf E.fp c) hlx hl hz
  · simp only [tileOut_dims ht hb hc]
    rfl

/-- C84, average pooling. -/
theorem C84_avg_pooling
    (hz : ∀ b ch os, InRange (B :: C :: (ts.map Tile.w).map Win.out) (b :: ch :: os) →
      ∃ z, AvgOf E.fp c (prod ((ts.map Tile.w).map Win.k)) (winElems T.dims xs (ts.map Tile.w) b ch os) z)
    (out1 out2 out3 out4 : Ptr) :
    SameResult E m [avgPool fuel (ts.map Tile.w) out1, fun h => slice h (bgs (tileOut pb pc ts)) (szs (tileOut pb pc ts)) (sts (tileOut pb pc ts)) out2]
      [fun h => slice h (bgs (tileIn pb pc ts)) (szs (tileIn pb pc ts)) (sts (tileIn pb pc ts)) out3, avgPool fuel (ts.map Tile.win) out4] R.h := by
  obtain ⟨zs, hl, hz⟩ := exists_grid hz
  have hlx : xs.length = prod (B :: C :: (ts.map Tile.w).map Win.x) := by rw [he.len, hs]
  have f1 := tileIn_fits ht hb hc
  have f2 := tileOut_fits ht hb hc
  have wt : ∀ z ∈ zs, z.WT c := grid_all hl fun b ch os ho => by
    obtain ⟨r, -, hr⟩ := hz b ch os ho
    exact cCast_WT (converts_iff.1 hr)
  refine sameResult (by simp) wf h
    ⟨_, avg_gives he hs hp hl hz out1, _, slice_gives (c := c) (xs := zs) ⟨rfl, rfl, wt, hl⟩ (by simp) f2 a2
      (by rw [tileOut_dims ht hb hc]; exact i2) out2, rfl⟩
    ⟨_, slice_gives he (by simp [hs]) (by rw [hs]; exact f1) a1 (by rw [tileIn_dims hb hc]; exact i1) out3, _,
      avg_gives (c := c) (xs := sliceElems T.dims (tileIn pb pc ts) xs) ⟨rfl, rfl, ?_, sliceElems_length ..⟩ (tileIn_dims hb hc) hp'
        (zs := sliceElems (B :: C :: (ts.map Tile.w).map Win.out) (tileOut pb pc ts) zs) ?_ ?_ out4, ?_⟩
  · rw [hs]
    exact fun y hy => he.wt y (sliceElems_mem f1 hlx y hy)
  · rw [sliceElems_length, tileOut_dims ht hb hc]
  · simp only [tileIn_dims hb hc, hs, tiles_k] at hz ⊢
    exact tile_grid ht hb hc (P := AvgOf E.fp c (prod ((ts.map Tile.w).map Win.k))) hlx hl hz
  · simp only [tileOut_dims ht hb hc]
    rfl

end

/-- C84, convolution without padding: samples, filters and positions of the result are what the convolution of the part of the input
under those positions with those filters gives, with the strides multiplied by the steps. -/
theorem C84_conv (wf : m.WF) (wf' : m'.WF) (h1 : At m R1 T1) (h2 : At m R2 T2) (e1 : Elems T1 .f32 xs) (e2 : Elems T2 .f32 ys)
    (h1' : At m' R1' T1') (h2' : At m' R2' T2') (e1' : Elems T1' .f32 xs') (e2' : Elems T2' .f32 ys')
    (s1 : T1.dims = B :: C :: (ts.map Tile.w).map Win.x) (s2 : T2.dims = O :: C :: (ts.map Tile.w).map Win.k)
    (s1' : T1'.dims = sliceDims (pb.axis :: .whole C :: ts.map Tile.axis))
    (s2' : T2'.dims = sliceDims (po.axis :: .whole C :: ((ts.map Tile.w).map Win.k).map .whole))
    (hx : Sliced T1.dims (pb.axis :: .whole C :: ts.map Tile.axis) xs xs')
    (hy : Sliced T2.dims (po.axis :: .whole C :: ((ts.map Tile.w).map Win.k).map .whole) ys ys')
    (ht : ∀ t ∈ ts, t.Fits) (hb : pb.Of B) (hpo : po.Of O) (hC : 0 < C) (hw : ∀ t ∈ ts, t.w.Wide ∧ t.win.Wide)
    (hso : ShapeOK (B :: O :: (ts.map Tile.w).map Win.out) 4) (hso' : ShapeOK (pb.n :: po.n :: (ts.map Tile.win).map Win.out) 4)
    (st st' : Status) (groups : Int) (out out' : Ptr) :
    ∃ zs zs' : List Val, zs.length = prod (B :: O :: (ts.map Tile.w).map Win.out) ∧
      Leaves E (conv (some st) (some st') R1.h R2.h (dimsCells ((ts.map Tile.w).map Win.s)) (dimsCells ((ts.map Tile.w).map Win.p))
        (dimsCells ((ts.map Tile.w).map Win.d)) groups out) m out (if st = .success then st' else st)
        ⟨Code.f32.dtype, T1.device, B :: O :: (ts.map Tile.w).map Win.out, encAll .f32 zs⟩ ∧
      Leaves E (conv (some st) (some st') R1'.h R2'.h (dimsCells ((ts.map Tile.win).map Win.s)) (dimsCells ((ts.map Tile.win).map Win.p))
        (dimsCells ((ts.map Tile.win).map Win.d)) groups out') m' out' (if st = .success then st' else st)
        ⟨Code.f32.dtype, T1'.device, sliceDims (tileOut pb po ts), encAll .f32 zs'⟩ ∧
      Sliced (B :: O :: (ts.map Tile.w).map Win.out) (tileOut pb po ts) zs zs' := by
  have hk : ∀ k ∈ (ts.map Tile.w).map Win.k, 0 < k := fun k hk => by
    simp only [List.mem_map] at hk
    obtain ⟨w, ⟨t, ht', rfl⟩, rfl⟩ := hk
    exact (ht t ht').1.k
  rw [Pick.axis_dims hb, all_dims hC, tiles_dims] at s1'
  rw [Pick.axis_dims hpo, all_dims hC, alls_dims hk] at s2'
  rw [s1] at hx
  rw [s2] at hy
  obtain ⟨zs, hl, hz, hv⟩ := C40_conv (E := E) (ws := ts.map Tile.w) wf h1 h2 e1 e2 s1 s2 (fun w hw' => by
    obtain ⟨t, ht', rfl⟩ := List.mem_map.1 hw'
    exact ⟨(ht t ht').1, (hw t ht').1⟩) hso hC st st' groups out
  obtain ⟨zs', hl', hz', hv'⟩ := C40_conv (E := E) (ws := ts.map Tile.win) wf' h1' h2' e1' e2' s1' (by rw [tiles_k]; exact s2') (fun w hw' => by
    obtain ⟨t, ht', rfl⟩ := List.mem_map.1 hw'
    exact ⟨Tile.win_fits (ht t ht'), (hw t ht').2⟩) hso' hC st st' groups out'
  have hd := tileOut_dims ht hb hpo
  refine ⟨zs, zs', hl, hv, by rw [hd]; exact hv', by rw [hd]; exact hl', fun cs hc => ?_⟩
  have hsrc := source_inRange (tileOut_fits ht hb hpo) hc
  rw [hd] at hc ⊢
  match cs, hc with
  | b :: oc :: os, hc =>
    rw [pick_source, pick_source] at hsrc ⊢
    have a := hz _ _ _ hsrc
    have a' := hz' b oc os hc
    rw [s1', s2', ← tiles_k, tile_terms ht hb hC hpo hx hy hc] at a'
    rw [s1, s2] at a
    exact C40_unique a' a

/-- C84, matrix product: rows and columns of the product are the product of those rows with those columns. -/
theorem C84_matmul {nM nK nN : Nat} {pm pn : Pick} {z : Val} (wf : m.WF) (wf' : m'.WF) (h1 : At m R1 T1) (h2 : At m R2 T2) (e1 : Elems T1 c xs) (e2 : Elems T2 c ys)
    (h1' : At m' R1' T1') (h2' : At m' R2' T2') (e1' : Elems T1' c xs') (e2' : Elems T2' c ys')
    (c1 : T1.device.type = DEVICE_CPU) (c2 : T2.device.type = DEVICE_CPU) (c1' : T1'.device.type = DEVICE_CPU) (c2' : T2'.device.type = DEVICE_CPU)
    (s1 : T1.dims = [nM, nK]) (s2 : T2.dims = [nK, nN]) (s1' : T1'.dims = sliceDims [pm.axis, .whole nK]) (s2' : T2'.dims = sliceDims [.whole nK, pn.axis])
    (hx : Sliced T1.dims [pm.axis, .whole nK] xs xs') (hy : Sliced T2.dims [.whole nK, pn.axis] ys ys')
    (hm : pm.Of nM) (hn : pn.Of nN) (hK0 : 0 < nK) (hs : ShapeOK [nM, nN] c.size)
    (hM : nM ≤ 2147483647) (hK : nK ≤ 2147483647) (hN : nN ≤ 2147483647) (hi : nM * nN ≤ 2147483647) (hz : ZeroOf E.fp c z)
    (hdot : ∀ i j, i < nM → j < nN → ∃ w, DotTo E.fp c z ((List.range nK).map fun q => (elemAt T1.dims xs [i, q], elemAt T2.dims ys [q, j])) w)
    (out out' : Ptr) :
    ∃ zs zs' : List Val, Delivers E (matmul R1.h R2.h out) m out c T1.device [nM, nN] zs ∧
      Delivers E (matmul R1'.h R2'.h out') m' out' c T1'.device (sliceDims [pm.axis, pn.axis]) zs' ∧ Sliced [nM, nN] [pm.axis, pn.axis] zs zs' := by
  rw [Pick.axis_dims hm, all_dims hK0] at s1'
  rw [all_dims hK0, Pick.axis_dims hn] at s2'
  obtain ⟨hx1, hx⟩ := hx
  obtain ⟨hy1, hy⟩ := hy
  rw [Pick.axis_dims hm, all_dims hK0, s1] at hx
  rw [all_dims hK0, Pick.axis_dims hn, s2] at hy
  rw [s1, s2] at hdot
  obtain ⟨zs, hl, hd⟩ := exists_elems (ds := [nM, nN])
    (P := fun cs w => ∀ i j, cs = [i, j] → DotTo E.fp c z ((List.range nK).map fun q => (elemAt [nM, nK] xs [i, q], elemAt [nK, nN] ys [q, j])) w) (by
    intro cs hc
    match cs, hc with
    | [i, j], ⟨hi, hj, _⟩ =>
      obtain ⟨w, hw⟩ := hdot i j hi hj
      exact ⟨w, fun i' j' e => by simp only [List.cons.injEq, and_true] at e; obtain ⟨rfl, rfl⟩ := e; exact hw⟩)
  have hf : SliceFits [nM, nN] [pm.axis, pn.axis] := ⟨Pick.axis_fits hm, Pick.axis_fits hn, trivial⟩
  have hS := sliced_elems hf hl
  have hdm : sliceDims [pm.axis, pn.axis] = [pm.n, pn.n] := by rw [Pick.axis_dims hm, Pick.axis_dims hn]; rfl
  have bM : pm.n ≤ nM := Nat.le_trans (by have := Nat.mul_le_mul_left (pm.n - 1) hm.2.1; have := hm.1; omega) hm.2.2
  have bN : pn.n ≤ nN := Nat.le_trans (by have := Nat.mul_le_mul_left (pn.n - 1) hn.2.1; have := hn.1; omega) hn.2.2
  refine ⟨zs, _, C31_matrix_matrix wf h1 e1 h2 e2 c1 c2 hz s1 s2 hs hM hK hN hi (by simpa [prod] using hl) (fun i j hi hj => ?_) out, ?_, hS⟩
  · rw [s1, s2]
    exact hd [i, j] ⟨hi, hj, trivial⟩ i j rfl
  · rw [hdm]
    refine C31_matrix_matrix wf' h1' e1' h2' e2' c1' c2' hz s1' s2' ⟨?_, by simp⟩ (by omega) hK (by omega)
      (Nat.le_trans (Nat.mul_le_mul bM bN) hi) (by rw [sliceElems_length, hdm]; simp [prod]) (fun i j hi hj => ?_) out'
    · refine Nat.le_trans (Nat.mul_le_mul_right _ ?_) hs.fits
      simp only [prodMax]
      exact Nat.mul_le_mul (by omega) (Nat.mul_le_mul (by omega) (Nat.le_refl _))
    · rw [s1', s2']
      have hij : InRange [pm.n, pn.n] [i, j] := ⟨hi, hj, trivial⟩
      have hS2 := hS.2
      rw [hdm] at hS2
      rw [hS2 _ hij, pick_source, pick_source]
      rw [← hdm] at hij
      have hr := source_inRange hf hij
      rw [pick_source, pick_source] at hr
      have := hd _ hr _ _ rfl
      rw [List.map_congr_left fun q hq => ?_]
      · exact this
      · have hq := List.mem_range.1 hq
        rw [hx [i, q] ⟨hi, hq, trivial⟩, hy [q, j] ⟨hq, hj, trivial⟩, pick_source, all_source hK0, all_source hK0, pick_source]
        rfl

/-! ### Examples -/

/-- Windows of length 2 along 5 elements, of which the second and the fourth are wanted. -/
def exTile : Tile := ⟨⟨5, 2, 1, 0, 1⟩, ⟨1, 2, 2⟩⟩

theorem exTile_fits : ∀ t ∈ [exTile], t.Fits := by
  intro t ht
  simp only [List.mem_singleton] at ht
  subst ht
  exact ⟨⟨by decide, by decide, by decide, by decide⟩, rfl, by decide, by decide, by decide⟩

/-- The part of the input from position 1 on, with stride 2. -/
example : exTile.axis = ⟨1, 4, 1⟩ ∧ exTile.win = ⟨4, 2, 2, 0, 1⟩ ∧ exTile.p.axis = ⟨1, 3, 2⟩ := ⟨rfl, rfl, rfl⟩

/-- Channel 1 of a sample of two. -/
example : SameResult ieeeEnv ((Mem.empty.addT (tvOf .i16 [1, 2, 5] ([1, 2, 3, 4, 5, 3, 1, 4, 1, 5].map .int))))
    [maxPool 10 [⟨5, 2, 1, 0, 1⟩] .indet, fun h => slice h (Arr.of [0, 1, 1]) (Arr.of [1, 1, 3]) (Arr.of [1, 1, 2]) .indet]
    [fun h => slice h (Arr.of [0, 1, 1]) (Arr.of [1, 1, 4]) (Arr.of [1, 1, 1]) .indet, maxPool 10 [⟨4, 2, 2, 0, 1⟩] .indet] Mem.empty.footT.h :=
  C84_max_pooling (T := tvOf .i16 [1, 2, 5] ([1, 2, 3, 4, 5, 3, 1, 4, 1, 5].map .int)) (ts := [exTile]) (B := 1) (C := 2) (pb := ⟨0, 1, 1⟩) (pc := ⟨1, 1, 1⟩)
    (Mem.addT_wf Mem.empty_wf _) (tvOf_at _ (by simp) rfl ⟨by decide, by decide⟩) (tvOf_elems (by decide) rfl) rfl exTile_fits
    ⟨by decide, by decide, by decide⟩ ⟨by decide, by decide, by decide⟩
    ⟨by decide, by decide, by
      intro w hw
      simp only [List.map_cons, List.map_nil, List.mem_singleton] at hw
      subst hw
      exact ⟨⟨by decide, by decide, by decide, by decide⟩, ⟨by decide, by decide, by decide⟩⟩, ⟨by decide, by decide⟩, by decide, by decide, by decide, by decide⟩
    ⟨by decide, by decide, by
      intro w hw
      simp only [List.map_cons, List.map_nil, List.mem_singleton] at hw
      subst hw
      exact ⟨⟨by decide, by decide, by decide, by decide⟩, ⟨by decide, by decide, by decide⟩⟩, ⟨by decide, by decide⟩, by decide, by decide, by decide, by decide⟩
    (by simp [AxFit, Pick.axis, Tile.axis, exTile]) (by simp [AxFit, Pick.axis, Tile.axis, exTile]) (by decide) (by decide)
    (by
      refine grid_back (c := .i16) ieee_machine (tvOf_elems (by decide) rfl) rfl ?_
      intro n hn
      simp only [List.mem_map, Val.int.injEq, exists_eq_right] at hn
      revert n
      decide) .indet .indet .indet .indet

/-- The floats 1, -1, 2.5, 0.5, -3 and a part of them. -/
def exTx : List Val := [.f32 0x3F800000, .f32 0xBF800000, .f32 0x40200000, .f32 0x3F000000, .f32 0xC0400000]
def exTx' : List Val := [.f32 0xBF800000, .f32 0x40200000, .f32 0x3F000000, .f32 0xC0400000]

example : SameResult ieeeEnv ((Mem.empty.addT (tvOf .f32 [1, 1, 5] exTx)))
    [avgPool 10 [⟨5, 2, 1, 0, 1⟩] .indet, fun h => slice h (Arr.of [0, 0, 1]) (Arr.of [1, 1, 3]) (Arr.of [1, 1, 2]) .indet]
    [fun h => slice h (Arr.of [0, 0, 1]) (Arr.of [1, 1, 4]) (Arr.of [1, 1, 1]) .indet, avgPool 10 [⟨4, 2, 2, 0, 1⟩] .indet] Mem.empty.footT.h :=
  C84_avg_pooling (T := tvOf .f32 [1, 1, 5] exTx) (ts := [exTile]) (B := 1) (C := 1) (pb := ⟨0, 1, 1⟩) (pc := ⟨0, 1, 1⟩)
    (Mem.addT_wf Mem.empty_wf _) (tvOf_at _ (by simp) rfl ⟨by decide, by decide⟩) (tvOf_elems (by decide) rfl) rfl exTile_fits
    ⟨by decide, by decide, by decide⟩ ⟨by decide, by decide, by decide⟩
    ⟨by decide, by decide, by
      intro w hw
      simp only [List.map_cons, List.map_nil, List.mem_singleton] at hw
      subst hw
      exact ⟨⟨by decide, by decide, by decide, by decide⟩, ⟨by decide, by decide, by decide⟩⟩, ⟨by decide, by decide⟩, by decide, by decide, by decide, by decide⟩
    ⟨by decide, by decide, by
      intro w hw
      simp only [List.map_cons, List.map_nil, List.mem_singleton] at hw
      subst hw
      exact ⟨⟨by decide, by decide, by decide, by decide⟩, ⟨by decide, by decide, by decide⟩⟩, ⟨by decide, by decide⟩, by decide, by decide, by decide, by decide⟩
    (by simp [AxFit, Pick.axis, Tile.axis, exTile]) (by simp [AxFit, Pick.axis, Tile.axis, exTile]) (by decide) (by decide)
    (fun _ _ _ _ => ⟨_, avgOf_iff.2 (converts_iff.1 rfl)⟩) .indet .indet .indet .indet

/-- Two filters 0.5, -3 and 2.5, 1, of which the second is wanted. -/
def exTy : List Val := [.f32 0x3F000000, .f32 0xC0400000, .f32 0x40200000, .f32 0x3F800000]
def exTy' : List Val := [.f32 0x40200000, .f32 0x3F800000]

example : ∃ zs zs' : List Val, zs.length = 8 ∧
    Leaves fusedEnv (conv (some .success) (some .success) Mem.empty.footT.h (Mem.empty.addT (tvOf .f32 [1, 1, 5] exTx)).footT.h (dimsCells [1]) (dimsCells [0])
      (dimsCells [1]) 1 .indet) ((Mem.empty.addT (tvOf .f32 [1, 1, 5] exTx)).addT (tvOf .f32 [2, 1, 2] exTy)) .indet .success
      ⟨Code.f32.dtype, ⟨DEVICE_CPU, 0⟩, [1, 2, 4], encAll .f32 zs⟩ ∧
    Leaves fusedEnv (conv (some .success) (some .success) Mem.empty.footT.h (Mem.empty.addT (tvOf .f32 [1, 1, 4] exTx')).footT.h (dimsCells [2]) (dimsCells [0])
      (dimsCells [1]) 1 .indet) ((Mem.empty.addT (tvOf .f32 [1, 1, 4] exTx')).addT (tvOf .f32 [1, 1, 2] exTy')) .indet .success
      ⟨Code.f32.dtype, ⟨DEVICE_CPU, 0⟩, [1, 1, 2], encAll .f32 zs'⟩ ∧ Sliced [1, 2, 4] [⟨0, 1, 1⟩, ⟨1, 1, 1⟩, ⟨1, 3, 2⟩] zs zs' :=
  C84_conv (T1 := tvOf .f32 [1, 1, 5] exTx) (T1' := tvOf .f32 [1, 1, 4] exTx') (T2 := tvOf .f32 [2, 1, 2] exTy) (T2' := tvOf .f32 [1, 1, 2] exTy')
    (ts := [exTile]) (B := 1) (O := 2) (C := 1) (pb := ⟨0, 1, 1⟩) (po := ⟨1, 1, 1⟩)
    (Mem.addT_wf (Mem.addT_wf Mem.empty_wf _) _) (Mem.addT_wf (Mem.addT_wf Mem.empty_wf _) _)
    (addT_old (Mem.addT_wf Mem.empty_wf _) (tvOf_at _ (by simp) rfl ⟨by decide, by decide⟩) _) (tvOf_at _ (by simp) rfl ⟨by decide, by decide⟩)
    (tvOf_elems (by decide) rfl) (tvOf_elems (by decide) rfl)
    (addT_old (Mem.addT_wf Mem.empty_wf _) (tvOf_at _ (by simp) rfl ⟨by decide, by decide⟩) _) (tvOf_at _ (by simp) rfl ⟨by decide, by decide⟩)
    (tvOf_elems (by decide) rfl) (tvOf_elems (by decide) rfl) rfl rfl rfl rfl
    ⟨rfl, all_coords (by decide)⟩ ⟨rfl, all_coords (by decide)⟩ exTile_fits ⟨by decide, by decide, by decide⟩ ⟨by decide, by decide, by decide⟩ (by omega) (by
      intro t ht
      simp only [List.mem_singleton] at ht
      subst ht
      exact ⟨⟨by decide, by decide, by decide, by decide, by decide⟩, ⟨by decide, by decide, by decide, by decide, by decide⟩⟩)
    ⟨by decide, by decide⟩ ⟨by decide, by decide⟩ .success .success 1 .indet .indet

/-- Row 1 of the product of `[[1, 2], [3, 4]]` and `[[5, 6], [7, 8]]`. -/
example : ∃ zs zs' : List Val,
    Delivers okEnv (matmul exH1.h (exH2 .i32 [2, 2] [1, 2, 3, 4]).h .indet) (exM .i32 [2, 2] [1, 2, 3, 4] [2, 2] [5, 6, 7, 8]) .indet .i32 ⟨DEVICE_CPU, 0⟩ [2, 2] zs ∧
    Delivers okEnv (matmul exH1.h (exH2 .i32 [1, 2] [3, 4]).h .indet) (exM .i32 [1, 2] [3, 4] [2, 2] [5, 6, 7, 8]) .indet .i32 ⟨DEVICE_CPU, 0⟩ [1, 2] zs' ∧
    Sliced [2, 2] [⟨1, 1, 1⟩, ⟨0, 2, 1⟩] zs zs' :=
  C84_matmul (E := okEnv) (c := .i32) (T1 := tvOf .i32 [2, 2] ([1, 2, 3, 4].map .int)) (T2 := tvOf .i32 [2, 2] ([5, 6, 7, 8].map .int))
    (T1' := tvOf .i32 [1, 2] ([3, 4].map .int)) (T2' := tvOf .i32 [2, 2] ([5, 6, 7, 8].map .int)) (nM := 2) (nK := 2) (nN := 2) (pm := ⟨1, 1, 1⟩) (pn := ⟨0, 2, 1⟩)
    (Mem.addT_wf (Mem.addT_wf Mem.empty_wf _) _) (Mem.addT_wf (Mem.addT_wf Mem.empty_wf _) _)
    (addT_old (Mem.addT_wf Mem.empty_wf _) (tvOf_at _ (by simp) rfl ⟨by decide, by decide⟩) _) (tvOf_at _ (by simp) rfl ⟨by decide, by decide⟩)
    (tvOf_elems (by decide) rfl) (tvOf_elems (by decide) rfl)
    (addT_old (Mem.addT_wf Mem.empty_wf _) (tvOf_at _ (by simp) rfl ⟨by decide, by decide⟩) _) (tvOf_at _ (by simp) rfl ⟨by decide, by decide⟩)
    (tvOf_elems (by decide) rfl) (tvOf_elems (by decide) rfl) rfl rfl rfl rfl rfl rfl rfl rfl ⟨rfl, all_coords (by decide)⟩ ⟨rfl, all_coords (by decide)⟩
    ⟨by decide, by decide, by decide⟩ ⟨by decide, by decide, by decide⟩ (by omega) ⟨by decide, by decide⟩ (by omega) (by omega) (by omega) (by omega) exZero
    (by
      intro i j hi hj
      refine ⟨([[19, 22], [43, 50]].getD i []).getD j 0 |> .int, exDot ?_⟩
      match i, j, hi, hj with
      | 0, 0, _, _ => decide
      | 0, 1, _, _ => decide
      | 1, 0, _, _ => decide
      | 1, 1, _, _ => decide) .indet .indet

end Aitisa
