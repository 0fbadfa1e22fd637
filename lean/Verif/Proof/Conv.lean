import Verif.Proof.Scratch
import Verif.Spec.Conv

/-! # Convolution: axes and one filter position -/

namespace Aitisa

variable {E : Env} {m : Mem} {w : Win} {ws : List Win} {os qs : List Nat}

/-- The output dim the code computes. -/
def Win.cOut (w : Win) : Nat := (Int.tdiv ((w.x + 2 * w.p : Nat) - (w.d * (w.k - 1) + 1 : Nat)) w.s + 1).toNat

/-- All axes are as required. -/
def ConvOK (ws : List Win) : Prop := ∀ w ∈ ws, w.Wide ∧ 0 ≤ Int.tdiv ((w.x + 2 * w.p : Nat) - (w.d * (w.k - 1) + 1 : Nat)) w.s + 1

theorem Win.cOut_fits (f : w.Fits) : w.cOut = w.out ∧ 0 ≤ Int.tdiv ((w.x + 2 * w.p : Nat) - (w.d * (w.k - 1) + 1 : Nat)) w.s + 1 := by
  have hf := f.fits
  have e : ((w.x + 2 * w.p : Nat) : Int) - (w.d * (w.k - 1) + 1 : Nat) = ((w.x + 2 * w.p - w.d * (w.k - 1) - 1 : Nat) : Int) := by omega
  unfold Win.cOut Win.out
  rw [e, ← Int.ofNat_tdiv]
  generalize (w.x + 2 * w.p - w.d * (w.k - 1) - 1) / w.s = q
  omega

theorem Win.kInt (h : 1 ≤ w.k) : (w.d : Int) * ((w.k : Int) - 1) = ((w.d * (w.k - 1) : Nat) : Int) := by
  rw [Int.natCast_mul, Int.ofNat_sub h]; rfl

theorem Win.k_le (h : w.Wide) (hd : 1 ≤ w.d) : w.k ≤ 9223372036854775807 := by
  have := h.span
  have h3 : w.k - 1 ≤ w.d * (w.k - 1) := Nat.le_mul_of_pos_left _ hd
  omega

/-- Windows end within `int64_t`. -/
theorem Win.cOut_le (f : w.Wide) {o : Nat} (ho : o < w.cOut) : o * w.s + (w.d * (w.k - 1) + 1) ≤ 9223372036854775807 := by
  have hx := f.x
  have hk := f.span
  have hs := f.s
  unfold Win.cOut at ho
  rcases Nat.eq_zero_or_pos o with h | h
  · subst h; omega
  · by_cases hf : w.d * (w.k - 1) + 1 ≤ w.x + 2 * w.p
    · have e : ((w.x + 2 * w.p : Nat) : Int) - (w.d * (w.k - 1) + 1 : Nat) = ((w.x + 2 * w.p - (w.d * (w.k - 1) + 1) : Nat) : Int) := by omega
      rw [e, ← Int.ofNat_tdiv] at ho
      have h1 : o ≤ (w.x + 2 * w.p - (w.d * (w.k - 1) + 1)) / w.s := by omega
      have h2 := Nat.mul_le_of_le_div _ _ _ h1
      omega
    · have : Int.tdiv ((w.x + 2 * w.p : Nat) - (w.d * (w.k - 1) + 1 : Nat)) w.s ≤ 0 := by
        have e : ((w.x + 2 * w.p : Nat) : Int) - (w.d * (w.k - 1) + 1 : Nat) = -((w.d * (w.k - 1) + 1 - (w.x + 2 * w.p) : Nat) : Int) := by omega
        rw [e, Int.neg_tdiv, ← Int.ofNat_tdiv]
        generalize (w.d * (w.k - 1) + 1 - (w.x + 2 * w.p)) / w.s = q
        omega
      omega

theorem convOut_run (f : w.Wide) (hk : w.k ≤ 9223372036854775807)
    (h : 0 ≤ Int.tdiv ((w.x + 2 * w.p : Nat) - (w.d * (w.k - 1) + 1 : Nat)) w.s + 1) : convOut w.ax E m = .ok (w.cOut : Int) m := by
  have h1 := f.p
  have h2 := f.x
  have h3 := f.span
  have h4 := f.k
  have h5 := f.s
  have e : (w.x : Int) + 2 * w.p - (((w.d * (w.k - 1) : Nat) : Int) + 1) = ((w.x + 2 * w.p : Nat) - (w.d * (w.k - 1) + 1 : Nat) : Int) := by omega
  have hq : Int.tdiv ((w.x + 2 * w.p : Nat) - (w.d * (w.k - 1) + 1 : Nat)) w.s ≤ (w.x + 2 * w.p : Nat) - 1 ∨
      Int.tdiv ((w.x + 2 * w.p : Nat) - (w.d * (w.k - 1) + 1 : Nat)) w.s ≤ 0 := by
    by_cases hf : w.d * (w.k - 1) + 1 ≤ w.x + 2 * w.p
    · left
      have e : ((w.x + 2 * w.p : Nat) : Int) - (w.d * (w.k - 1) + 1 : Nat) = ((w.x + 2 * w.p - (w.d * (w.k - 1) + 1) : Nat) : Int) := by omega
      rw [e, ← Int.ofNat_tdiv]
      have := Nat.div_le_self (w.x + 2 * w.p - (w.d * (w.k - 1) + 1)) w.s
      omega
    · right
      have e : ((w.x + 2 * w.p : Nat) : Int) - (w.d * (w.k - 1) + 1 : Nat) = -((w.d * (w.k - 1) + 1 - (w.x + 2 * w.p) : Nat) : Int) := by omega
      rw [e, Int.neg_tdiv, ← Int.ofNat_tdiv]
      generalize (w.d * (w.k - 1) + 1 - (w.x + 2 * w.p)) / w.s = q
      omega
  unfold convOut Win.ax
  msimp [run_i64' (E := E) (m := m) (n := (w.k : Int) - 1) (by omega) (by omega), Win.kInt h4,
    run_i64' (E := E) (m := m) (n := ((w.d * (w.k - 1) : Nat) : Int)) (by omega) (by omega),
    run_i64' (E := E) (m := m) (n := ((w.d * (w.k - 1) : Nat) : Int) + 1) (by omega) (by omega),
    run_i32' (E := E) (m := m) (n := 2 * (w.p : Int)) (by omega) (by omega),
    run_i64' (E := E) (m := m) (n := (w.x : Int) + 2 * w.p) (by omega) (by omega), e,
    run_i64' (E := E) (m := m) (n := ((w.x + 2 * w.p : Nat) - (w.d * (w.k - 1) + 1 : Nat) : Int)) (by omega) (by omega)]
  rw [if_neg (by omega)]
  unfold Win.cOut
  generalize Int.tdiv ((w.x + 2 * w.p : Nat) - (w.d * (w.k - 1) + 1 : Nat)) w.s = q at *
  msimp [run_i64' (E := E) (m := m) (n := q) (by omega) (by omega), run_i64' (E := E) (m := m) (n := q + 1) (by omega) (by omega)]
  congr 1
  omega

theorem convOuts_run (h : ConvOK ws) (hk : ∀ w ∈ ws, w.k ≤ 9223372036854775807) :
    convOuts (ws.map Win.ax) E m = .ok (ints (ws.map Win.cOut)) m := by
  induction ws with
  | nil => rfl
  | cons w ws ih =>
    obtain ⟨f, b⟩ := h w (by simp)
    simp only [List.map_cons, convOuts]
    msimp [convOut_run (E := E) (m := m) f (hk w (by simp)) b, ih (fun v hv => h v (by simp [hv])) (fun v hv => hk v (by simp [hv]))]

/-- `in_coords` of the window at `os`. -/
def startsAt : List Win → List Nat → List Int
  | w :: ws, o :: os => ((o * w.s : Nat) - (w.p : Int)) :: startsAt ws os
  | _, _ => []

theorem convStart_run (h : ConvOK ws) (ho : InRange (ws.map Win.cOut) os) : convStart (ws.map Win.ax) (ints os) E m = .ok (startsAt ws os) m := by
  induction ws generalizing os with
  | nil => cases os <;> rfl
  | cons w ws ih =>
    match os, ho with
    | o :: os, ho =>
      obtain ⟨ho, ho'⟩ := ho
      obtain ⟨f, -⟩ := h w (by simp)
      have := Win.cOut_le f ho
      have hp := f.p
      simp only [List.map_cons, convStart, startsAt]
      msimp [show w.ax.s = (w.s : Int) from rfl, show w.ax.p = (w.p : Int) from rfl, mul_i64 (E := E) (m := m) (a := o) (b := w.s) (by omega),
        run_i64' (E := E) (m := m) (n := ((o * w.s : Nat) : Int) - w.p) (by omega) (by omega), ih (fun v hv => h v (by simp [hv])) ho']

theorem convProbe_run (h : ConvOK ws) (ho : InRange (ws.map Win.cOut) os) (hq : InRange (ws.map Win.k) qs) :
    convProbe (ws.map Win.ax) (startsAt ws os) (ints qs) E m = .ok ((winAt ws os qs).map ints) m := by
  induction ws generalizing os qs with
  | nil =>
    match os, qs, ho, hq with
    | [], [], _, _ => rfl
  | cons w ws ih =>
    match os, qs, ho, hq with
    | o :: os, q :: qs, ho, hq =>
      obtain ⟨ho, ho'⟩ := ho
      obtain ⟨hq, hq'⟩ := hq
      obtain ⟨f, -⟩ := h w (by simp)
      have h1 := Win.cOut_le f ho
      have h2 : q * w.d ≤ w.d * (w.k - 1) := Win.mul_le hq
      have hp := f.p
      have hx := f.x
      have e : (w.d : Int) * (q : Int) = ((q * w.d : Nat) : Int) := by rw [Int.natCast_mul, Int.mul_comm]
      simp only [List.map_cons, convProbe, startsAt, winAt]
      msimp [show w.ax.d = (w.d : Int) from rfl, show w.ax.x = (w.x : Int) from rfl, e,
        run_i64' (E := E) (m := m) (n := ((q * w.d : Nat) : Int)) (by omega) (by omega),
        run_i64' (E := E) (m := m) (n := ((o * w.s : Nat) : Int) - w.p + ((q * w.d : Nat) : Int)) (by omega) (by omega)]
      by_cases hin : w.p ≤ o * w.s + q * w.d ∧ o * w.s + q * w.d < w.p + w.x
      · rw [if_neg (by omega), if_pos hin]
        msimp [ih (fun v hv => h v (by simp [hv])) ho' hq']
        rw [show ((o * w.s : Nat) : Int) - w.p + ((q * w.d : Nat) : Int) = ((o * w.s + q * w.d - w.p : Nat) : Int) by omega]
        cases winAt ws os qs <;> rfl
      · rw [if_pos (by omega), if_neg hin]
        rfl

theorem sizeFrom2_run {a b : Nat} {ds : List Nat} (hr : ds.length + 2 ≤ 2147483647) (hp : prodMax ds ≤ 9223372036854775807) :
    sizeFrom2 (dimsCells (a :: b :: ds)) ((ds.length + 2 : Nat) : Int) E m = .ok ((prod ds : Nat) : Int) m := by
  unfold sizeFrom2
  rw [show (toI32 ((ds.length + 2 : Nat) : Int) - 2).toNat = ds.length by rw [toI32_nat hr]; omega]
  have := loopN_fn (E := E) (fun i r => do
    let d ← Arr.rd (dimsCells (a :: b :: ds)) ((i : Int) + 2)
    i64 (r * d)) (fun i => ((prod (ds.take i) : Nat) : Int)) (fun _ => m) ds.length (by
      intro i hi
      have r := rd_dims (E := E) (m := m) (ds := a :: b :: ds) (i := i + 2) (by simpa using hi)
      simp only [List.getElem_cons_succ] at r
      rw [show ((i + 2 : Nat) : Int) = (i : Int) + 2 by omega] at r
      have e : prod (ds.take (i + 1)) = prod (ds.take i) * ds[i] := by
        rw [List.take_succ, prod_append]
        simp [hi, prod]
      have hle : prod (ds.take (i + 1)) ≤ 9223372036854775807 := Nat.le_trans (prod_take_le _ _) hp
      rw [e] at hle
      msimp [r, mul_i64 (E := E) (m := m) (a := prod (ds.take i)) (b := ds[i]) hle, e])
  simpa [prod] using this

end Aitisa
