import Verif.Proof.ErrorAvg
import Verif.Props.Exact

/-!
# C77: averages are near the exact ones

On the usual machine (binary32 and binary64).
-/

namespace Aitisa

variable {E : Env} {m : Mem} {R : Foot} {T : TV} {c : Code} {xs : List Val} {A : List Nat → Rat} {ws : List Win} {fuel : Nat}

/-- C77. Average pooling of a `float` or `double` tensor whose elements are numbers (no infinity or NaN): each element of
the result is near the exact average of its window, padding counted. -/
theorem C77_avg_pooling {B' C : Nat} (hE : Machine E.fp) (hc : c = .f32 ∨ c = .f64) (wf : m.WF) (h1 : At m R T) (he : Elems T c xs)
    (hs : T.dims = B' :: C :: ws.map Win.x) (hw : 1 ≤ ws.length)
    (hw' : ws.length ≤ 3) (h : ∀ w ∈ ws, w.Fits ∧ w.Small) (hso : ShapeOK (B' :: C :: ws.map Win.out) c.size)
    (hi : prod (ws.map Win.out) ≤ 2147483647) (hK : prod (ws.map Win.k) < 9007199254740992)
    (hf : prod (ws.map Win.k) ≤ fuel) (hf' : prod (ws.map Win.out) ≤ fuel) (n1 : Rationals T.dims xs A) (out : Ptr) :
    ∃ zs : List Val, Attempts E (pooling fuel R.h "avg" (dimsCells (ws.map Win.k)) (dimsCells (ws.map Win.s)) (dimsCells (ws.map Win.p))
      (dimsCells (ws.map Win.d)) out) m ⟨c.dtype, T.device, B' :: C :: ws.map Win.out, encAll c zs⟩ ∧
      ∀ b ch os, InRange (B' :: C :: ws.map Win.out) (b :: ch :: os) →
        NearAvg c (prod (ws.map Win.k)) (elemAt (B' :: C :: ws.map Win.out) zs (b :: ch :: os)) (winRats A ws b ch os) := by
  have hk0 : 0 < prod (ws.map Win.k) := prod_pos (by
    intro d hd
    obtain ⟨w, hw, rfl⟩ := List.mem_map.1 hd
    have := (h w hw).1.k
    omega)
  have key : ∀ x, InRange (B' :: C :: ws.map Win.out) x → ∃ w, ∀ b ch os, x = b :: ch :: os →
      AvgOf E.fp c (prod (ws.map Win.k)) (winElems T.dims xs ws b ch os) w ∧ NearAvg c (prod (ws.map Win.k)) w (winRats A ws b ch os) := by
    intro x hx
    match x, hx with
    | b :: ch :: os, hio =>
      have hlen : ws.length = os.length := by have := hio.2.2.length; simpa using this.symm
      have ha : ∃ w, AvgOf ieee c (prod (ws.map Win.k)) (winElems T.dims xs ws b ch os) w := by
        rcases hc with rfl | rfl
        · exact ⟨_, _, sumsTo_iff.2 rfl, rfl⟩
        · exact ⟨_, _, sumsTo_iff.2 rfl, rfl⟩
      obtain ⟨w, hw1⟩ := ha
      refine ⟨w, ?_⟩
      rintro _ _ _ ⟨⟩
      on_machine hE
      refine ⟨hw1, ?_⟩
      have := avgOf_near hc hk0 (K := prod (ws.map Win.k)) hK (l := (List.range (prod (ws.map Win.k))).filterMap fun j =>
        (winAt ws os (unlin (ws.map Win.k) j)).map fun cs => (elemAt T.dims xs (b :: ch :: cs), A (b :: ch :: cs))) (by
        intro p hp
        simp only [List.mem_range, List.mem_filterMap, Option.map_eq_some_iff] at hp
        obtain ⟨j, hj, cs, hcs, rfl⟩ := hp
        have : InRange T.dims (b :: ch :: cs) := by
          rw [hs]; exact ⟨hio.1, hio.2.1, winAt_inRange hlen (by rw [unlin_length]; simp) hcs⟩
        exact ⟨elemAt_WT he rfl this, n1 _ this⟩) (w := w) (by
        simpa only [winElems, List.map_filterMap, Option.map_map, Function.comp_def] using hw1)
      simpa only [winRats, List.map_filterMap, Option.map_map, Function.comp_def] using this
  obtain ⟨zs, hl, hz⟩ := exists_elems key
  exact ⟨zs, C38_avg wf h1 he hs hw hw' h hso hi (by omega) hf hf' hl (fun b ch os hio => (hz _ hio b ch os rfl).1) out,
    fun b ch os hio => (hz _ hio b ch os rfl).2⟩

/-- C77, what this is worth for windows of moderate size: with `n` elements in a window of `K` places and `t` the sum of their absolute values, a `float`
is within two parts in `2^24` of `t / K`, plus the smallest number of the type, whatever `n`; a `double` within `2 * (n + 2)` parts in `2^53`, plus
`2 * n + 3` times the smallest number. -/
theorem C77_simple {K : Nat} {w : Val} {l : List Rat} {q : Rat} (hK : 0 < K) (h : NearAvg c K w l) (hq : w.rat = some q) :
    (c = .f32 → l.length ≤ 67108864 → (q - l.sum / K).abs ≤ 2 / 2 ^ 24 * (absSum l / K) + 2 ^ (-149 : Int)) ∧
    (c = .f64 → l.length < 4503599627370495 →
      (q - l.sum / K).abs ≤ 2 * (l.length + 2) / 2 ^ 53 * (absSum l / K) + (2 * l.length + 3) * 2 ^ (-1074 : Int)) := by
  refine ⟨fun e hl => ?_, fun e hl => ?_⟩ <;> subst e
  · exact Rat.le_trans (h.1 q hq) (avgSlack_float hK (absSum_nonneg l) hl)
  · have := h.1 q hq
    rw [Code.avgSlack] at this
    exact Rat.le_trans this (avgSlack_simple hK (absSum_nonneg l) hl)

/-! ## Examples -/

/-- 1, 1, 2 as `float`. -/
def exAvg : TV := tvOf .f32 [1, 1, 3] [.f32 0x3F800000, .f32 0x3F800000, .f32 0x40000000]

def exAvgA : List Nat → Rat
  | [_, _, 2] => 2
  | _ => 1

theorem exAvg_rat : Rationals [1, 1, 3] [.f32 0x3F800000, .f32 0x3F800000, .f32 0x40000000] exAvgA := by
  intro cs hc
  match cs, hc with
  | [0, 0, 0], _ => decide +kernel
  | [0, 0, 1], _ => decide +kernel
  | [0, 0, 2], _ => decide +kernel
  | [n + 1, _, _], hc => exact absurd hc.1 (by omega)
  | [_, n + 1, _], hc => exact absurd hc.2.1 (by omega)
  | [_, _, n + 3], hc => exact absurd hc.2.2.1 (by omega)

/-- The average of the three numbers is within one part in ten million of 4/3. -/
example : ∃ zs : List Val, ∃ q, Attempts ieeeEnv (pooling 10 Mem.empty.footT.h "avg" (dimsCells [3]) (dimsCells [1]) (dimsCells [0]) (dimsCells [1]) .indet)
      (Mem.empty.addT exAvg) ⟨Code.f32.dtype, ⟨DEVICE_CPU, 0⟩, [1, 1, 1], encAll .f32 zs⟩ ∧
      (elemAt [1, 1, 1] zs [0, 0, 0]).rat = some q ∧ (q - 4 / 3).abs ≤ 2 / 10000000 := by
  obtain ⟨zs, h, hz⟩ := C77_avg_pooling (E := ieeeEnv) (T := exAvg) (c := .f32) (ws := [⟨3, 3, 1, 0, 1⟩]) (B' := 1) (C := 1) (fuel := 10) ieee_machine (.inl rfl)
    (Mem.addT_wf Mem.empty_wf _) (tvOf_at _ (by simp) rfl ⟨by decide, by decide⟩) (tvOf_elems (by decide) rfl) rfl (by simp) (by simp) (by
      intro w hw
      simp only [List.mem_singleton] at hw
      subst hw
      exact ⟨⟨by decide, by decide, by decide, by decide⟩, ⟨by decide, by decide, by decide⟩⟩)
    ⟨by decide, by decide⟩ (by decide) (by decide) (by decide) (by decide) exAvg_rat .indet
  have hn : NearAvg .f32 3 (elemAt [1, 1, 1] zs [0, 0, 0]) [1, 1, 2] := hz 0 0 [0] ⟨by decide, by decide, by decide, trivial⟩
  obtain ⟨q, hq⟩ := hn.2 (by decide +kernel) (by decide +kernel)
  have hb := (C77_simple (by decide) hn hq).1 rfl (by decide)
  have e1 : ([1, 1, 2] : List Rat).sum / ((3 : Nat) : Rat) = 4 / 3 := by decide +kernel
  have e2 : 2 / 2 ^ 24 * (absSum [1, 1, 2] / ((3 : Nat) : Rat)) + 2 ^ (-149 : Int) ≤ 2 / 10000000 := by decide +kernel
  rw [e1] at hb
  exact ⟨zs, q, h, hq, Rat.le_trans hb e2⟩

/-- No `float` is 4/3: the machine gives 11184811 / 8388608, and an error must be allowed for. -/
example : AvgOf ieee .f32 3 [.f32 0x3F800000, .f32 0x3F800000, .f32 0x40000000] (.f32 0x3FAAAAAB) ∧ (Val.f32 0x3FAAAAAB).rat = some (11184811 / 8388608) := by
  refine ⟨⟨0x4010000000000000, ⟨_, rfl, _, rfl, _, rfl, by unfold SumsTo; decide +kernel⟩, congrArg Val.f32 (by decide +kernel)⟩, by decide +kernel⟩

/-- The number three places above that is not near. -/
example : ¬ NearAvg .f32 3 (.f32 0x3FAAAAAE) [1, 1, 2] := by
  intro h
  have hq : (Val.f32 0x3FAAAAAE).rat = some (11184814 / 8388608) := by decide +kernel
  have := (C77_simple (by decide) h hq).1 rfl (by decide)
  exact absurd this (by decide +kernel)

end Aitisa
