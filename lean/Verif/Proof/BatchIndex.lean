import Verif.Proof.Broadcast
import Verif.Spec.Matmul

/-! # Offsets of broadcast batches -/

namespace Aitisa

/-- `f 0 + … + f (n-1)`. -/
def sumN (f : Nat → Nat) : Nat → Nat
  | 0 => 0
  | n + 1 => sumN f n + f n

theorem sumN_congr {f g : Nat → Nat} {n : Nat} (h : ∀ t, t < n → f t = g t) : sumN f n = sumN g n := by
  induction n with
  | zero => rfl
  | succ n ih => simp only [sumN]; rw [ih fun t ht => h t (by omega), h n (by omega)]

theorem sumN_front (f : Nat → Nat) (n : Nat) : sumN f (n + 1) = f 0 + sumN (fun t => f (t + 1)) n := by
  induction n with
  | zero => simp [sumN]
  | succ n ih => rw [sumN, ih]; simp only [sumN]; omega

theorem sumN_rev (f : Nat → Nat) (n : Nat) : sumN (fun t => f (n - 1 - t)) n = sumN f n := by
  induction n with
  | zero => rfl
  | succ n ih =>
    rw [sumN_front, sumN, ← ih]
    rw [sumN_congr (f := fun t => f (n + 1 - 1 - (t + 1))) (g := fun t => f (n - 1 - t)) (fun t _ => by congr 1; omega)]
    simp only [Nat.add_sub_cancel, Nat.sub_zero]; omega

theorem sumN_mono (f : Nat → Nat) {a b : Nat} (h : a ≤ b) : sumN f a ≤ sumN f b := by
  induction b with
  | zero => rw [show a = 0 by omega]; exact Nat.le_refl _
  | succ b ih =>
    rcases Nat.lt_or_ge a (b + 1) with hlt | hge
    · exact Nat.le_trans (ih (by omega)) (by simp [sumN])
    · rw [show a = b + 1 by omega]; exact Nat.le_refl _

theorem sumN_tail {f : Nat → Nat} {k n : Nat} (hk : k ≤ n) (h : ∀ t, k ≤ t → t < n → f t = 0) : sumN f n = sumN f k := by
  induction n with
  | zero => rw [show k = 0 by omega]
  | succ n ih =>
    rcases Nat.lt_or_ge k (n + 1) with hlt | hge
    · rw [sumN, h n (by omega) (by omega), ih (by omega) fun t h1 h2 => h t h1 (by omega)]; rfl
    · rw [show k = n + 1 by omega]

theorem dotNat_sum (a b : List Nat) (h : a.length = b.length) : dotNat a b = sumN (fun k => a.getD k 0 * b.getD k 0) a.length := by
  induction a generalizing b with
  | nil => simp [dotNat, sumN]
  | cons x a ih =>
    cases b with
    | nil => simp at h
    | cons y b =>
      rw [dotNat, ih b (by simpa using h), List.length_cons, sumN_front]
      simp

/-- The stride that `batch_strides` computes for the dim at distance `t` from the right. -/
def bst (ds : List Nat) (t : Nat) : Nat :=
  if t < ds.length ∧ ds.getD (ds.length - 1 - t) 1 ≠ 1 then prod (ds.drop (ds.length - t)) else 0

/-- The coordinate at distance `t` from the right of linear index `i`. -/
def coordR (bd : List Nat) (i t : Nat) : Nat := i / prod (bd.drop (bd.length - t)) % bd.getD (bd.length - 1 - t) 1

theorem under_length {ds cs : List Nat} (h : ds.length ≤ cs.length) : (under ds cs).length = ds.length := by
  simp [under]; omega

theorem under_get {ds cs : List Nat} (h : ds.length ≤ cs.length) {k : Nat} (hk : k < ds.length) :
    (under ds cs).getD k 0 = if ds.getD k 1 = 1 then 0 else cs.getD (cs.length - ds.length + k) 0 := by
  unfold under
  have h2 : cs.length - ds.length + k < cs.length := by omega
  simp [List.getD, List.getElem?_zipWith, List.getElem?_eq_getElem hk, List.getElem?_drop, List.getElem?_eq_getElem h2]

theorem unlin_getD (bd : List Nat) {i k : Nat} (hk : k < bd.length) (hi : i < prod bd) :
    (unlin bd i).getD k 0 = i / prod (bd.drop (k + 1)) % bd.getD k 1 := by
  have hk' : k < (unlin bd i).length := by rw [unlin_length]; exact hk
  simp only [List.getD, List.getElem?_eq_getElem hk', List.getElem?_eq_getElem hk, Option.getD_some]
  exact unlin_get bd i k hk' hi

/-- The batch number that broadcasting reads is the dot product of coordinates and batch strides. -/
theorem lin_under {ds bd : List Nat} {i : Nat} (h : ds.length ≤ bd.length) (hi : i < prod bd) :
    lin ds (under ds (unlin bd i)) = sumN (fun t => coordR bd i t * bst ds t) bd.length := by
  have hu : (unlin bd i).length = bd.length := unlin_length ..
  have hlen : (under ds (unlin bd i)).length = ds.length := under_length (by omega)
  rw [lin_eq_dot _ _ hlen, dotNat_sum _ _ (by rw [strides_length, hlen]), hlen, ← sumN_rev]
  rw [sumN_tail (k := ds.length) (n := bd.length) h (by
    intro t h1 h2; unfold bst; rw [if_neg (fun h => by omega)]; rfl)]
  refine sumN_congr fun t ht => ?_
  have hk : ds.length - 1 - t < ds.length := by omega
  rw [under_get (by omega) hk, hu, unlin_getD bd (by omega) hi]
  have hs : ds.length - 1 - t < (strides ds).length := by rw [strides_length]; exact hk
  have e1 : (strides ds).getD (ds.length - 1 - t) 0 = prod (ds.drop (ds.length - t)) := by
    simp only [List.getD, List.getElem?_eq_getElem hs, Option.getD_some]
    rw [strides_get]; congr 2; omega
  rw [e1]
  unfold bst coordR
  have e2 : bd.length - ds.length + (ds.length - 1 - t) = bd.length - 1 - t := by omega
  have e3 : bd.length - 1 - t + 1 = bd.length - t := by omega
  rw [e2, e3]
  by_cases hd : ds.getD (ds.length - 1 - t) 1 = 1
  · rw [if_pos hd, if_neg (fun h => h.2 hd)]; simp
  · rw [if_neg hd, if_pos ⟨ht, hd⟩]

/-- Dims of the operand that are not 1 agree with the broadcast dims. -/
def Fits (ds bd : List Nat) : Prop :=
  ds.length ≤ bd.length ∧ ∀ k, k < ds.length → ds.getD k 1 = 1 ∨ ds.getD k 1 = bd.getD (bd.length - ds.length + k) 1

theorem inRange_of_get {ds cs : List Nat} (hl : cs.length = ds.length) (h : ∀ k, k < ds.length → cs.getD k 0 < ds.getD k 1) : InRange ds cs := by
  induction ds generalizing cs with
  | nil => cases cs with
    | nil => trivial
    | cons => simp at hl
  | cons d ds ih => cases cs with
    | nil => simp at hl
    | cons a cs =>
      refine ⟨by simpa using h 0 (by simp), ih (by simpa using hl) fun k hk => ?_⟩
      simpa using h (k + 1) (by simpa using hk)

theorem inRange_get {ds cs : List Nat} (h : InRange ds cs) {k : Nat} (hk : k < ds.length) : cs.getD k 0 < ds.getD k 1 := by
  induction ds generalizing cs k with
  | nil => simp at hk
  | cons d ds ih => cases cs with
    | nil => exact h.elim
    | cons a cs =>
      cases k with
      | zero => simpa using h.1
      | succ k => simpa using ih h.2 (by simpa using hk)

theorem under_inRange {ds bd cs : List Nat} (h : Fits ds bd) (hc : InRange bd cs) : InRange ds (under ds cs) := by
  have hl : cs.length = bd.length := hc.length
  have h0 := h.1
  refine inRange_of_get (under_length (by omega)) fun k hk => ?_
  rw [under_get (by omega) hk]
  by_cases hd : ds.getD k 1 = 1
  · rw [if_pos hd, hd]; exact Nat.one_pos
  · rw [if_neg hd, hl]
    rcases h.2 k hk with h1 | h1
    · exact absurd h1 hd
    · rw [h1]; exact inRange_get hc (by omega)

theorem fromRight_getD {ds : List Nat} {t : Nat} (h : t < ds.length) : fromRight ds t = some (ds.getD (ds.length - 1 - t) 1) := by
  unfold fromRight
  have : ds.length - 1 - t < ds.length := by omega
  rw [List.getElem?_reverse h]; simp [List.getD, this]

theorem Broadcasts.length {a b c : List Nat} (h : Broadcasts a b c) : c.length = max a.length b.length := by
  have key : ∀ t, t < c.length ↔ (t < a.length ∨ t < b.length) := by
    intro t
    have h2 := h.2 t
    constructor
    · intro hc
      rcases Nat.lt_or_ge t a.length with h' | h'
      · exact .inl h'
      rcases Nat.lt_or_ge t b.length with h'' | h''
      · exact .inr h''
      rw [fromRight_getD hc, fromRight_none h', fromRight_none h''] at h2
      cases h2
    · intro hab
      rcases Nat.lt_or_ge t c.length with h' | h'
      · exact h'
      rw [fromRight_none h'] at h2
      rcases Nat.lt_or_ge t a.length with ha | ha
      · rw [fromRight_getD ha] at h2
        cases hb : fromRight b t <;> rw [hb] at h2 <;> cases h2
      · rw [fromRight_none ha, fromRight_getD (by omega)] at h2
        cases h2
  have k1 := key c.length
  have k2 := key (c.length - 1)
  have k3 := key (a.length - 1)
  have k4 := key (b.length - 1)
  omega

/-- Positive dims fit what they broadcast to. -/
theorem Broadcasts.fits {a b c : List Nat} (h : Broadcasts a b c) (hp : ∀ d ∈ a, 0 < d) : Fits a c := by
  have hl := h.length
  refine ⟨by omega, fun k hk => ?_⟩
  have ht : a.length - 1 - k < a.length := by omega
  have h1 := h.1 (a.length - 1 - k)
  have h2 := h.2 (a.length - 1 - k)
  rw [fromRight_getD ht, show a.length - 1 - (a.length - 1 - k) = k by omega] at h1 h2
  rw [fromRight_getD (by omega), show c.length - 1 - (a.length - 1 - k) = c.length - a.length + k by omega] at h2
  have hpos : 0 < a.getD k 1 := by
    simp only [List.getD, List.getElem?_eq_getElem hk, Option.getD_some]
    exact hp _ (List.getElem_mem hk)
  rcases Nat.lt_or_ge (a.length - 1 - k) b.length with hb | hb
  · rw [fromRight_getD hb] at h1 h2
    simp only [Compatible, larger, Option.some.injEq] at h1 h2
    omega
  · rw [fromRight_none hb] at h2
    simp only [larger, Option.some.injEq] at h2
    exact .inr h2.symm

/-! ### Operands without elements -/

/-- What any operand fulfils that broadcasts to `bd`: a dim 0 can meet a broadcast dim 1. -/
def Near (ds bd : List Nat) : Prop :=
  ds.length ≤ bd.length ∧ ∀ k, k < ds.length → ds.getD k 1 = 1 ∨ ds.getD k 1 = bd.getD (bd.length - ds.length + k) 1 ∨
    (ds.getD k 1 = 0 ∧ bd.getD (bd.length - ds.length + k) 1 = 1)

theorem Fits.near {ds bd : List Nat} (h : Fits ds bd) : Near ds bd := ⟨h.1, fun k hk => (h.2 k hk).imp_right .inl⟩

theorem Broadcasts.near {a b c : List Nat} (h : Broadcasts a b c) : Near a c := by
  have hl := h.length
  refine ⟨by omega, fun k hk => ?_⟩
  have ht : a.length - 1 - k < a.length := by omega
  have h1 := h.1 (a.length - 1 - k)
  have h2 := h.2 (a.length - 1 - k)
  rw [fromRight_getD ht, show a.length - 1 - (a.length - 1 - k) = k by omega] at h1 h2
  rw [fromRight_getD (by omega), show c.length - 1 - (a.length - 1 - k) = c.length - a.length + k by omega] at h2
  rcases Nat.lt_or_ge (a.length - 1 - k) b.length with hb | hb
  · rw [fromRight_getD hb] at h1 h2
    simp only [Compatible, larger, Option.some.injEq] at h1 h2
    omega
  · rw [fromRight_none hb] at h2
    simp only [larger, Option.some.injEq] at h2
    exact .inr (.inl h2.symm)

/-- The operand dims with 1 wherever the broadcast dim is 1. -/
def raised (ds bd : List Nat) : List Nat :=
  List.zipWith (fun d b => if b = 1 then 1 else d) ds (bd.drop (bd.length - ds.length))

theorem raised_length {ds bd : List Nat} (h : ds.length ≤ bd.length) : (raised ds bd).length = ds.length := by
  simp [raised]; omega

theorem raised_get {ds bd : List Nat} (h : ds.length ≤ bd.length) {k : Nat} (hk : k < ds.length) :
    (raised ds bd).getD k 1 = if bd.getD (bd.length - ds.length + k) 1 = 1 then 1 else ds.getD k 1 := by
  unfold raised
  have h2 : bd.length - ds.length + k < bd.length := by omega
  simp [List.getD, List.getElem?_zipWith, List.getElem?_eq_getElem hk, List.getElem?_drop, List.getElem?_eq_getElem h2]

theorem prod_mono {a b : List Nat} (hl : a.length = b.length) (h : ∀ k, k < a.length → a.getD k 1 ≤ b.getD k 1) : prod a ≤ prod b := by
  induction a generalizing b with
  | nil => cases b with
    | nil => exact Nat.le_refl _
    | cons => simp at hl
  | cons x a ih => cases b with
    | nil => simp at hl
    | cons y b =>
      simp only [prod]
      refine Nat.mul_le_mul (by simpa using h 0 (by simp)) (ih (by simpa using hl) fun k hk => ?_)
      simpa using h (k + 1) (by simpa using hk)

theorem prodMax_map (ds : List Nat) : prodMax ds = prod (ds.map (max · 1)) := by
  induction ds with
  | nil => rfl
  | cons d ds ih => simp [prodMax, prod, ih]

/-- The batch number of an operand, also of one without elements, is below the product of its dims that are not 0. -/
theorem lin_under_lt {ds bd : List Nat} (h : Near ds bd) {i : Nat} (hi : i < prod bd) : lin ds (under ds (unlin bd i)) < prodMax ds := by
  have hrl := raised_length h.1
  have hf : Fits (raised ds bd) bd := by
    refine ⟨by rw [hrl]; exact h.1, fun k hk => ?_⟩
    rw [hrl] at hk ⊢
    rw [raised_get h.1 hk]
    split
    · exact .inl rfl
    · rcases h.2 k hk with e | e | e
      · exact .inl e
      · exact .inr e
      · exact absurd e.2 ‹_›
  have hge : ∀ k, k < ds.length → ds.getD k 1 ≤ (raised ds bd).getD k 1 := by
    intro k hk
    rw [raised_get h.1 hk]
    have := h.2 k hk
    split
    · omega
    · exact Nat.le_refl _
  have hlt := lin_lt (under_inRange hf (unlin_inRange hi))
  rw [lin_under (by rw [hrl]; exact h.1) hi] at hlt
  rw [lin_under h.1 hi]
  have h1 : prod (raised ds bd) ≤ prodMax ds := by
    rw [prodMax_map]
    refine prod_mono (by simp [hrl]) fun k hk => ?_
    rw [hrl] at hk
    rw [raised_get h.1 hk]
    have : (ds.map (max · 1)).getD k 1 = max (ds.getD k 1) 1 := by simp [List.getD, hk]
    rw [this]
    split <;> omega
  refine Nat.lt_of_le_of_lt ?_ (Nat.lt_of_lt_of_le hlt h1)
  have key : ∀ n, n ≤ bd.length → sumN (fun t => coordR bd i t * bst ds t) n ≤ sumN (fun t => coordR bd i t * bst (raised ds bd) t) n := by
    intro n
    induction n with
    | zero => intro _; exact Nat.le_refl _
    | succ n ih =>
      intro hn
      simp only [sumN]
      refine Nat.add_le_add (ih (by omega)) ?_
      by_cases ht : n < ds.length
      · by_cases hb : bd.getD (bd.length - 1 - n) 1 = 1
        · have : coordR bd i n = 0 := by unfold coordR; rw [hb]; exact Nat.mod_one _
          rw [this]; simp
        · refine Nat.mul_le_mul_left _ ?_
          have h0 := h.1
          have hk : ds.length - 1 - n < ds.length := by omega
          have he : (raised ds bd).getD (ds.length - 1 - n) 1 = ds.getD (ds.length - 1 - n) 1 := by
            rw [raised_get h.1 hk, show bd.length - ds.length + (ds.length - 1 - n) = bd.length - 1 - n by omega, if_neg hb]
          unfold bst
          rw [hrl, he]
          by_cases hd : ds.getD (ds.length - 1 - n) 1 = 1
          · rw [if_neg (fun h => h.2 hd), if_neg (fun h => h.2 hd)]; exact Nat.le_refl _
          · rw [if_pos ⟨ht, hd⟩, if_pos ⟨ht, hd⟩]
            refine prod_mono (by simp [hrl]) fun k hk => ?_
            simp only [List.getD, List.getElem?_drop]
            exact hge _ (by simp at hk; omega)
      · have : bst ds n = 0 := by unfold bst; rw [if_neg (fun h => ht h.1)]
        rw [this]; simp
  exact key _ (Nat.le_refl _)

end Aitisa
