import Verif.Proof.Maxima
import Verif.Props.PoolLaws

/-!
# C39: what max pooling computes, and exactly when it is the maximum
-/

namespace Aitisa

variable {E : Env} {m : Mem} {R : Foot} {T : TV} {c : Code} {xs : List Val} {B C fuel : Nat} {ws : List Win}

/-- C39, exactly, on machines with IEEE arithmetic, for all element types and data (64-bit integers: of absolute value below 2^53): every output element is 0
or an element of its window, no number of the window exceeds it (NaNs are skipped), nor does 0; and it is a maximum of the window if and only if no element of the
window is a NaN and one is not negative. What is missing for the full claim are the other windows, for which it is false, and larger integers. -/
theorem C39_exact_partial (hE : Machine E.fp) (wf : m.WF) (h : At m R T) (he : Elems T c xs) (hs : T.dims = B :: C :: ws.map Win.x)
    (hp : Pools fuel B C c ws) (hx : ∀ n, .int n ∈ xs → Within .f64 n) (out : Ptr) :
    ∃ zs : List Val,
      Attempts E (pooling fuel R.h "max" (dimsCells (ws.map Win.k)) (dimsCells (ws.map Win.s)) (dimsCells (ws.map Win.p))
        (dimsCells (ws.map Win.d)) out) m ⟨c.dtype, T.device, B :: C :: ws.map Win.out, encAll c zs⟩ ∧
      ∀ b ch os, InRange (B :: C :: ws.map Win.out) (b :: ch :: os) →
        ((elemAt (B :: C :: ws.map Win.out) zs (b :: ch :: os) = zeroVal c ∨
            elemAt (B :: C :: ws.map Win.out) zs (b :: ch :: os) ∈ winElems T.dims xs ws b ch os) ∧
          AtMost (zeroVal c) (elemAt (B :: C :: ws.map Win.out) zs (b :: ch :: os)) ∧
          ∀ e ∈ winElems T.dims xs ws b ch os, NotNaN e → AtMost e (elemAt (B :: C :: ws.map Win.out) zs (b :: ch :: os))) ∧
        (Maximum (winElems T.dims xs ws b ch os) (elemAt (B :: C :: ws.map Win.out) zs (b :: ch :: os)) ↔
          (∀ e ∈ winElems T.dims xs ws b ch os, NotNaN e) ∧ ∃ e ∈ winElems T.dims xs ws b ch os, AtMost (zeroVal c) e) := by
  obtain ⟨zs, hl, hz⟩ := exists_grid (grid_back hE he hs hx)
  refine ⟨zs, C38_max wf h he hs hp.some hp.three hp.fits hp.shape hp.outs hp.size hp.enough hp.enough' hl hz out, fun b ch os ho => ?_⟩
  have hlen : xs.length = prod (B :: C :: ws.map Win.x) := by rw [he.len, hs]
  have hm := win_mem (ws := ws) hlen ho.1 ho.2.1 (os := os) (by have := ho.2.2.length; simpa using this)
  have hy := hz b ch os ho
  rw [hE.scan] at hy
  rw [← hs] at hm
  exact ⟨scan_greatest (fun e h => he.wt e (hm e h)) (fun n h => hx n (hm _ h)) hy, scan_maximum (fun e h => he.wt e (hm e h)) (fun n h => hx n (hm _ h)) hy⟩

/-- -1, NaN, 2, -3 and minus zero. -/
def exMx : List Val := [.f32 0xBF800000, .f32 0x7FC00000, .f32 0x40000000, .f32 0xC0400000, .f32 0x80000000]

example : ∃ zs : List Val,
    Attempts ieeeEnv (pooling 10 Mem.empty.footT.h "max" (dimsCells [exTwice.first.k]) (dimsCells [exTwice.first.s]) (dimsCells [exTwice.first.p])
      (dimsCells [exTwice.first.d]) .indet) (Mem.empty.addT (tvOf .f32 [1, 1, 5] exMx))
      ⟨Code.f32.dtype, ⟨DEVICE_CPU, 0⟩, [1, 1, exTwice.first.out], encAll .f32 zs⟩ ∧
    ∀ b ch os, InRange [1, 1, exTwice.first.out] (b :: ch :: os) →
      (Maximum (winElems [1, 1, 5] exMx [exTwice.first] b ch os) (elemAt [1, 1, exTwice.first.out] zs (b :: ch :: os)) ↔
        (∀ e ∈ winElems [1, 1, 5] exMx [exTwice.first] b ch os, NotNaN e) ∧ ∃ e ∈ winElems [1, 1, 5] exMx [exTwice.first] b ch os, AtMost (.f32 0) e) := by
  obtain ⟨zs, h1, h2⟩ := C39_exact_partial (E := ieeeEnv) (fuel := 10) (B := 1) (C := 1) (ws := [exTwice.first]) (T := tvOf .f32 [1, 1, 5] exMx) (c := .f32) ieee_machine (Mem.addT_wf Mem.empty_wf _)
    (tvOf_at _ (by simp) rfl ⟨by decide, by decide⟩) (tvOf_elems (by decide) rfl) rfl (exFirst ⟨by decide, by decide⟩)
    (by
      intro n hn
      simp only [exMx, List.mem_cons, reduceCtorEq, List.not_mem_nil, or_false] at hn) .indet
  exact ⟨zs, h1, fun b ch os ho => (h2 b ch os ho).2⟩

/-- In the windows of -1, -3 and of -1, NaN, 2 the outcome is no maximum; in that of 2, minus zero it is. -/
example : ScanOf ieee .f32 [.f32 0xBF800000, .f32 0xC0400000] (.f32 0) ∧ ¬ Maximum [.f32 0xBF800000, .f32 0xC0400000] (.f32 0) ∧
    ScanOf ieee .f32 [.f32 0xBF800000, .f32 0x7FC00000, .f32 0x40000000] (.f32 0x40000000) ∧
    ¬ Maximum [.f32 0xBF800000, .f32 0x7FC00000, .f32 0x40000000] (.f32 0x40000000) ∧
    Maximum [.f32 0x40000000, .f32 0x80000000] (.f32 0x40000000) := by
  refine ⟨⟨_, scansTo_iff.2 rfl, congrArg Val.f32 (by decide +kernel)⟩, ?_, ⟨_, scansTo_iff.2 rfl, congrArg Val.f32 (by decide +kernel)⟩, ?_, ?_⟩
  · rintro ⟨⟨e, he, -, h⟩, -⟩
    simp only [List.mem_cons, List.not_mem_nil, or_false] at he
    rcases he with rfl | rfl
    · exact absurd h.2.2 (by decide +kernel)
    · exact absurd h.2.2 (by decide +kernel)
  · rintro ⟨-, h⟩
    have := (h (.f32 0x7FC00000) (by simp)).1
    exact absurd (show b32.isNaN (0x7FC00000 : BitVec 32).toNat = false from this) (by decide +kernel)
  · have n2 : NotNaN (.f32 0x40000000) := show b32.isNaN (0x40000000 : BitVec 32).toNat = false by decide +kernel
    have n0 : NotNaN (.f32 0x80000000) := show b32.isNaN (0x80000000 : BitVec 32).toNat = false by decide +kernel
    refine ⟨⟨_, List.mem_cons_self .., AtMost.refl n2, AtMost.refl n2⟩, fun e he => ?_⟩
    simp only [List.mem_cons, List.not_mem_nil, or_false] at he
    rcases he with rfl | rfl
    · exact AtMost.refl n2
    · exact ⟨n0, n2, by decide +kernel⟩

/-- C39 is violated also for large integers: the window of `2^53 + 1` gives `2^53`. -/
theorem C39_large_violated : ScanOf ieee .i64 [.int (2 ^ 53 + 1)] (.int (2 ^ 53)) ∧ ¬ Maximum [.int (2 ^ 53 + 1)] (.int (2 ^ 53)) := by
  refine ⟨⟨_, scansTo_iff.2 rfl, 2 ^ 53, rfl, by decide +kernel, _, _, rfl, by decide, by decide⟩, ?_⟩
  rintro ⟨-, h⟩
  exact absurd (show (2 ^ 53 + 1 : Int) ≤ 2 ^ 53 from h _ (List.mem_cons_self ..)) (by decide)

end Aitisa
