import Verif.Proof.PoolRoot
import Verif.Props.PoolLaws

/-!
# C81: square roots and max pooling
-/

namespace Aitisa

variable {E : Env} {m : Mem} {R : Foot} {T : TV} {c : Code} {xs ys : List Val} {ws : List Win} {B C fuel : Nat}

theorem sqrt_gives (hE : Machine E.fp) (he : Elems T c xs) (hpos : ∀ x ∈ xs, ¬ Negative E.fp x) (pw : Pointwise (RootOf E.fp c) xs ys) (out : Ptr) :
    GivesAlways E (fun h => sqrt h out) T ⟨c.dtype, T.device, T.dims, encAll c ys⟩ := fun _ _ wf h => by
  obtain ⟨ys', D, pw'⟩ := C30_sqrt (E := E) wf h he hpos (fun x hx => by
    obtain ⟨i, hi, rfl⟩ := List.mem_iff_getElem.1 hx
    exact ⟨_, pw.2 i hi (by have := pw.1; omega)⟩) out
  have : ys' = ys := pointwise_det (r := RootOf E.fp c) (fun x _ y y' h h' => by
    rw [hE.root] at h h'; exact rootOf_det h h') pw' pw
  subst this
  exact D.creates.yields

/-- Roots of a list of elements. -/
theorem roots_exist : ∀ {xs : List Val}, (∀ x ∈ xs, x.WT c) → (∀ x ∈ xs, ¬ Negative ieee x) → (∀ n, .int n ∈ xs → n < 4503599627370496) →
    ∃ ys : List Val, Pointwise (RootOf ieee c) xs ys ∧ ∀ y ∈ ys, y.WT c := by
  intro xs wt h0 hb
  have ex : ∀ i, ∃ y, ∀ hi : i < xs.length, RootOf ieee c xs[i] y ∧ y.WT c := fun i => by
    by_cases hi : i < xs.length
    · obtain ⟨y, h1, h2, -⟩ := root_exists (wt _ (List.getElem_mem hi)) (h0 _ (List.getElem_mem hi)) (fun n e => hb n (e ▸ List.getElem_mem hi))
      exact ⟨y, fun _ => ⟨h1, h2⟩⟩
    · exact ⟨.int 0, fun h => absurd h hi⟩
  obtain ⟨f, hf⟩ := Classical.axiomOfChoice ex
  refine ⟨(List.range xs.length).map f, ⟨by simp, fun i h1 h2 => ?_⟩, fun y hy => ?_⟩
  · rw [List.getElem_map, List.getElem_range]; exact (hf i h1).1
  · obtain ⟨i, hi, rfl⟩ := List.mem_map.1 hy
    exact (hf i (by simpa using hi)).2

/-- C81. The square root and max pooling may be exchanged, to the last bit: the root of the maximum is the maximum of the roots. Any element type, NaN
included; no element may be negative (the root of a tensor with negative elements is refused) and integers must be below 2^52. -/
theorem C81_sqrt (hE : Machine E.fp) (wf : m.WF) (h : At m R T) (he : Elems T c xs) (hs : T.dims = B :: C :: ws.map Win.x)
    (hp : Pools fuel B C c ws) (hpos : ∀ x ∈ xs, ¬ Negative E.fp x) (hb : ∀ n, .int n ∈ xs → n < 4503599627370496) (out1 out2 out3 out4 : Ptr) :
    SameResult E m [fun h => sqrt h out1, maxPool fuel ws out2] [maxPool fuel ws out3, fun h => sqrt h out4] R.h := by
  have hpos' : ∀ x ∈ xs, ¬ Negative ieee x := fun x hx => by have := hpos x hx; rwa [hE.negative] at this
  have hx : ∀ n, .int n ∈ xs → Within .f64 n := fun n hn => by
    have h1 := hb n hn
    have h2 : 0 ≤ n := by simpa [Negative] using hpos' _ hn
    exact ⟨by omega, by omega⟩
  obtain ⟨zs, hl, hz⟩ := exists_grid (grid_back hE he hs hx)
  have hlen : xs.length = prod (B :: C :: ws.map Win.x) := by rw [he.len, hs]
  -- the maxima are not negative and below 2^52
  have small : ∀ z ∈ zs, ¬ Negative ieee z ∧ ∀ n, z = .int n → n < 4503599627370496 := grid_all hl fun b ch os ho => by
    have hsc := hz b ch os ho
    rw [hE.scan, hs] at hsc
    have hm := win_mem (ws := ws) hlen ho.1 ho.2.1 (os := os) (by have := ho.2.2.length; simpa using this)
    rcases (scan_greatest (fun e h => he.wt e (hm e h)) (fun n h => hx n (hm _ h)) hsc).1 with h | h
    · rw [h]
      refine ⟨zero_not_negative c, fun n e => ?_⟩
      have : n = 0 := by cases c <;> simp_all [zeroVal]
      omega
    · exact ⟨hpos' _ (hm _ h), fun n e => hb n (e ▸ hm _ h)⟩
  obtain ⟨ys, py, wy⟩ := roots_exist he.wt hpos' hb
  obtain ⟨vs, pv, wv⟩ := roots_exist (c := c) (pool_wt hl hz) (fun z h => (small z h).1) (fun n h => (small _ h).2 n rfl)
  have lv : vs.length = prod (B :: C :: ws.map Win.out) := by rw [← pv.1, hl]
  have neg : ∀ z ∈ zs, ¬ Negative E.fp z := fun z h => by rw [hE.negative]; exact (small z h).1
  refine sameResult (by simp) wf h
    ⟨_, sqrt_gives hE he hpos (by rw [hE.root]; exact py) out1, _, pool_gives (T := ⟨c.dtype, T.device, T.dims, encAll c ys⟩) (c := c) (xs := ys) (zs := vs)
      ⟨rfl, rfl, wy, by rw [← py.1, he.len]⟩ hs hp lv ?_ out2, rfl⟩
    ⟨_, pool_gives he hs hp hl hz out3, _, sqrt_gives (c := c) (xs := zs) hE ⟨rfl, rfl, pool_wt hl hz, hl⟩ neg (by rw [hE.root]; exact pv) out4, rfl⟩
  intro b ch os ho
  have hsc := hz b ch os ho
  rw [hE.scan, hs] at hsc
  rw [hE.scan]
  simp only [hs]
  have hos : os.length = ws.length := by have := ho.2.2.length; simpa using this
  have hm := win_mem (ws := ws) hlen ho.1 ho.2.1 (os := os) hos
  refine scan_root (fun e h => he.wt e (hm e h)) (fun e h => hpos' e (hm e h)) (fun n h => hb n (hm _ h)) (fun e' he' => ?_) (fun e he => ?_) hsc ?_
  · obtain ⟨qs, cs, hq, hw, rfl⟩ := mem_winElems.1 he'
    exact ⟨_, mem_winElems.2 ⟨qs, cs, hq, hw, rfl⟩, win_rel py hlen ho.1 ho.2.1 hos hq hw⟩
  · obtain ⟨qs, cs, hq, hw, rfl⟩ := mem_winElems.1 he
    exact ⟨_, mem_winElems.2 ⟨qs, cs, hq, hw, rfl⟩, win_rel py hlen ho.1 ho.2.1 hos hq hw⟩
  · have := lin_lt ho
    rw [elemAt_get (by rw [hl]; exact this), elemAt_get (by rw [lv]; exact this)]
    exact pv.2 _ _ _

/-- 0.1, 2, NaN, minus zero, 3. -/
def exRoots : List Val := [.f32 0x3DCCCCCD#32, .f32 0x40000000#32, .f32 0x7FC00000#32, .f32 0x80000000#32, .f32 0x40400000#32]

theorem exRoots_pos : ∀ x ∈ exRoots, ¬ Negative ieee x := by
  intro x hx
  simp only [exRoots, List.mem_cons, List.not_mem_nil, or_false] at hx
  rcases hx with rfl | rfl | rfl | rfl | rfl <;> exact fun h => absurd (show ieee.lt32 _ _ = true from h) (by decide +kernel)

example : SameResult ieeeEnv (Mem.empty.addT (tvOf .f32 [1, 1, 5] exRoots)) [fun h => sqrt h .indet, maxPool 10 [exTwice.first] .indet]
    [maxPool 10 [exTwice.first] .indet, fun h => sqrt h .indet] Mem.empty.footT.h :=
  C81_sqrt (B := 1) (C := 1) (T := tvOf .f32 [1, 1, 5] exRoots) (c := .f32) ieee_machine (Mem.addT_wf Mem.empty_wf _)
    (tvOf_at _ (by simp) rfl ⟨by decide, by decide⟩) (tvOf_elems (by decide) rfl) rfl (exFirst ⟨by decide, by decide⟩) exRoots_pos
    (by intro n hn; simp [exRoots] at hn) _ _ _ _

end Aitisa
