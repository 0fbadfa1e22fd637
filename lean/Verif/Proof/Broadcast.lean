import Verif.Proof.Index

/-! # Broadcasting of shapes -/

namespace Aitisa

theorem Compatible.symm {a b : Option Nat} (h : Compatible a b) : Compatible b a := by
  cases a <;> cases b <;> simp only [Compatible] at h ⊢; omega

theorem larger_comm (a b : Option Nat) : larger a b = larger b a := by
  cases a <;> cases b <;> simp [larger, Nat.max_comm]

theorem Broadcasts.symm {a b c : List Nat} (h : Broadcasts a b c) : Broadcasts b a c :=
  ⟨fun i => (h.1 i).symm, fun i => by rw [h.2, larger_comm]⟩

theorem fromRight_ext {a b : List Nat} (h : ∀ i, fromRight a i = fromRight b i) : a = b := by
  have : a.reverse = b.reverse := List.ext_getElem? h
  simpa using this

theorem Broadcasts.unique {a b c c' : List Nat} (h : Broadcasts a b c) (h' : Broadcasts a b c') : c = c' :=
  fromRight_ext fun i => by rw [h.2, h'.2]

theorem Broadcasts.self (a : List Nat) : Broadcasts a a a := by
  refine ⟨fun i => ?_, fun i => ?_⟩ <;> cases fromRight a i <;> simp [Compatible, larger]

theorem Broadcasts.nil_right (a : List Nat) : Broadcasts a [] a := by
  refine ⟨fun i => ?_, fun i => ?_⟩ <;> cases h : fromRight a i <;> simp [Compatible, larger, fromRight]

theorem loopN_from {σ} {E : Env} {m : Mem} (f : Nat → σ → M σ) (S : Nat → σ) (i k : Nat)
    (step : ∀ j, i ≤ j → j < i + k → f j (S j) E m = .ok (S (j + 1)) m) :
    loopN f k i (S i) E m = .ok (S (i + k)) m := by
  induction k generalizing i with
  | zero => rfl
  | succ k ih =>
    have h1 := step i (by omega) (by omega)
    have h2 := ih (i + 1) (fun j hj hk => step j (by omega) (by omega))
    rw [show i + (k + 1) = i + 1 + k by omega]
    msimp [loopN_succ, h1, h2]

/-- The output array after the `i` last cells have been written. -/
def bcState (buf : Arr) (g : Nat → Nat) (i : Nat) : Arr :=
  buf.take (buf.length - i) ++ ((List.range i).map fun k => some ((g k : Nat) : Int)).reverse

theorem bcState_step (buf : Arr) (g : Nat → Nat) {i : Nat} (hi : i < buf.length) (E : Env) (m : Mem) :
    Arr.wr (bcState buf g i) ((buf.length : Int) - i - 1) (g i : Int) E m = .ok (bcState buf g (i + 1)) m := by
  have e : (buf.length : Int) - i - 1 = ((buf.length - (i + 1) : Nat) : Int) := by omega
  have hl : buf.length - (i + 1) < (bcState buf g i).length := by simp [bcState]; omega
  rw [e, run_wr hl]
  congr 1
  unfold bcState
  have hlt : buf.length - (i + 1) < buf.length := by omega
  have h1 : buf.length - i = (buf.length - (i + 1)) + 1 := by omega
  rw [List.set_append_left _ _ (by simp; omega), h1, List.take_succ_eq_append_getElem hlt,
    List.set_append_right _ _ (by simp), List.range_succ]
  simp

theorem rd_right {d : Arr} {a : List Nat} (h : ∀ {k : Nat} (hk : k < a.length), d[k]? = some (some (a[k] : Int)))
    {i : Nat} (hi : i < a.length) (E : Env) (m : Mem) :
    d.rd ((a.length : Int) - i - 1) E m = .ok (((fromRight a i).getD 0 : Nat) : Int) m := by
  have e : (a.length : Int) - i - 1 = ((a.length - 1 - i : Nat) : Int) := by omega
  rw [e, run_rd (h (k := a.length - 1 - i) (by omega))]
  congr 2
  unfold fromRight
  rw [List.getElem?_reverse hi]
  have : a.length - 1 - i < a.length := by omega
  simp [this]

theorem fromRight_some {a : List Nat} {i : Nat} (hi : i < a.length) :
    fromRight a i = some ((fromRight a i).getD 0) := by
  unfold fromRight
  have : i < a.reverse.length := by simpa using hi
  rw [List.getElem?_eq_getElem this]; rfl

theorem fromRight_none {a : List Nat} {i : Nat} (hi : a.length ≤ i) : fromRight a i = none := by
  unfold fromRight
  rw [List.getElem?_eq_none (by simpa using hi)]

/-- Value of output dim `i` from the right. -/
def bcVal (a b : List Nat) (i : Nat) : Nat := (larger (fromRight a i) (fromRight b i)).getD 0

section
variable {E : Env} {m : Mem} {d1 d2 buf : Arr} {a b : List Nat}

theorem bcastBoth_run (h1 : ∀ {k : Nat} (hk : k < a.length), d1[k]? = some (some (a[k] : Int)))
    (h2 : ∀ {k : Nat} (hk : k < b.length), d2[k]? = some (some (b[k] : Int)))
    (hb : buf.length = max a.length b.length) {i : Nat} (hi : i < min a.length b.length)
    (hc : Compatible (fromRight a i) (fromRight b i)) :
    bcastBoth d1 a.length d2 b.length buf.length i (bcState buf (bcVal a b) i) E m =
      .ok (.inl (bcState buf (bcVal a b) (i + 1))) m := by
  have ha : i < a.length := by omega
  have hb' : i < b.length := by omega
  have hg : bcVal a b i = max ((fromRight a i).getD 0) ((fromRight b i).getD 0) := by
    unfold bcVal
    rw [fromRight_some ha, fromRight_some hb']; rfl
  rw [fromRight_some ha, fromRight_some hb'] at hc
  simp only [Compatible] at hc
  have hw := bcState_step buf (bcVal a b) (i := i) (by omega) E m
  have e1 := rd_right h1 ha E m
  have e2 := rd_right h2 hb' E m
  generalize (fromRight a i).getD 0 = x at *
  generalize (fromRight b i).getD 0 = y at *
  have hcond : ((x : Int) = 1 ∨ (y : Int) = 1 ∨ (x : Int) = (y : Int)) := by omega
  have hmax : (if (x : Int) > (y : Int) then (x : Int) else (y : Int)) = (bcVal a b i : Int) := by
    rw [hg]; split <;> omega
  unfold bcastBoth
  simp only [run_bind, e1, e2, andThen_ok, run_ite, if_pos hcond, hmax, hw, run_pure]

theorem bcastBoth_bad (h1 : ∀ {k : Nat} (hk : k < a.length), d1[k]? = some (some (a[k] : Int)))
    (h2 : ∀ {k : Nat} (hk : k < b.length), d2[k]? = some (some (b[k] : Int))) (n : Int) {i : Nat}
    (hi : i < min a.length b.length) (hc : ¬ Compatible (fromRight a i) (fromRight b i)) (o : Arr) :
    bcastBoth d1 a.length d2 b.length n i o E m = .ok (.inr o) m := by
  have ha : i < a.length := by omega
  have hb' : i < b.length := by omega
  rw [fromRight_some ha, fromRight_some hb'] at hc
  simp only [Compatible] at hc
  have e1 := rd_right h1 ha E m
  have e2 := rd_right h2 hb' E m
  generalize (fromRight a i).getD 0 = x at *
  generalize (fromRight b i).getD 0 = y at *
  have hcond : ¬ ((x : Int) = 1 ∨ (y : Int) = 1 ∨ (x : Int) = (y : Int)) := by omega
  unfold bcastBoth
  simp only [run_bind, e1, e2, andThen_ok, run_ite, if_neg hcond, run_pure]

theorem bcVal_broadcasts (hb : buf.length = max a.length b.length)
    (hc : ∀ i, Compatible (fromRight a i) (fromRight b i)) :
    Broadcasts a b ((List.range buf.length).map (bcVal a b)).reverse := by
  refine ⟨hc, fun i => ?_⟩
  have : ∀ l : List Nat, fromRight l.reverse i = l[i]? := fun l => by simp [fromRight]
  rw [this]
  by_cases hi : i < buf.length
  · rw [List.getElem?_map, List.getElem?_range hi]
    simp only [Option.map_some, bcVal]
    rcases Nat.lt_or_ge i a.length with ha | ha
    · rw [fromRight_some ha]
      rcases Nat.lt_or_ge i b.length with hb' | hb'
      · rw [fromRight_some hb']; rfl
      · rw [fromRight_none hb']; rfl
    · rw [fromRight_none ha, fromRight_some (a := b) (i := i) (by omega)]; rfl
  · rw [List.getElem?_eq_none (by simp; omega), fromRight_none (by omega), fromRight_none (by omega)]; rfl

theorem broadcastArray_run
    (h1 : ∀ {k : Nat} (hk : k < a.length), d1[k]? = some (some (a[k] : Int)))
    (h2 : ∀ {k : Nat} (hk : k < b.length), d2[k]? = some (some (b[k] : Int)))
    (hb : buf.length = max a.length b.length) (hc : ∀ i, Compatible (fromRight a i) (fromRight b i)) :
    ∃ c, Broadcasts a b c ∧ broadcastArray d1 a.length d2 b.length buf buf.length E m =
      .ok (.success, dimsCells c) m := by
  have hk : (min (a.length : Int) (b.length : Int)).toNat = min a.length b.length := by omega
  refine ⟨_, bcVal_broadcasts hb hc, ?_⟩
  obtain ⟨s', m', e, hs', hm'⟩ := loopE_inv (E := E) (bcastBoth d1 a.length d2 b.length buf.length)
    (fun i s m' => s = bcState buf (bcVal a b) i ∧ m' = m) (min a.length b.length)
    (by rintro i s m' hi ⟨rfl, rfl⟩; exact ⟨_, _, bcastBoth_run h1 h2 hb hi (hc i), rfl, rfl⟩)
    (s := buf) (m := m) ⟨by simp [bcState], rfl⟩
  rw [hs', hm'] at e
  have s1 : ∀ j, min a.length b.length ≤ j → j < min a.length b.length + (a.length - min a.length b.length) →
      bcastOne d1 a.length buf.length j (bcState buf (bcVal a b) j) E m =
        .ok (bcState buf (bcVal a b) (j + 1)) m := by
    intro j hj1 hj2
    have hg : bcVal a b j = (fromRight a j).getD 0 := by
      unfold bcVal
      rw [fromRight_none (a := b) (i := j) (by omega), fromRight_some (a := a) (i := j) (by omega)]; rfl
    have hw := bcState_step buf (bcVal a b) (i := j) (by omega) E m
    unfold bcastOne
    rw [hg] at hw
    simp only [run_bind, rd_right h1 (show j < a.length by omega) E m, andThen_ok, hw]
  have s2 : ∀ j, max (min a.length b.length) a.length ≤ j →
      j < max (min a.length b.length) a.length + (b.length - max (min a.length b.length) a.length) →
      bcastOne d2 b.length buf.length j (bcState buf (bcVal a b) j) E m =
        .ok (bcState buf (bcVal a b) (j + 1)) m := by
    intro j hj1 hj2
    have hg : bcVal a b j = (fromRight b j).getD 0 := by
      unfold bcVal
      rw [fromRight_none (a := a) (i := j) (by omega), fromRight_some (a := b) (i := j) (by omega)]; rfl
    have hw := bcState_step buf (bcVal a b) (i := j) (by omega) E m
    unfold bcastOne
    rw [hg] at hw
    simp only [run_bind, rd_right h2 (show j < b.length by omega) E m, andThen_ok, hw]
  have e1 := loopN_from _ _ _ _ s1
  have e2 := loopN_from _ _ _ _ s2
  rw [show min a.length b.length + (a.length - min a.length b.length) =
    max (min a.length b.length) a.length by omega] at e1
  rw [show max (min a.length b.length) a.length + (b.length - max (min a.length b.length) a.length) =
    buf.length by omega] at e2
  unfold broadcastArray
  rw [hk, Int.toNat_natCast, Int.toNat_natCast]
  msimp [e, e1, e2]
  congr 2
  simp [bcState, dimsCells, List.map_reverse, Function.comp_def]

theorem broadcastArray_mismatch
    (h1 : ∀ {k : Nat} (hk : k < a.length), d1[k]? = some (some (a[k] : Int)))
    (h2 : ∀ {k : Nat} (hk : k < b.length), d2[k]? = some (some (b[k] : Int)))
    (hb : buf.length = max a.length b.length) (hc : ¬ ∀ i, Compatible (fromRight a i) (fromRight b i)) :
    ∃ o, broadcastArray d1 a.length d2 b.length buf buf.length E m = .ok (.dimensionsMismatch, o) m := by
  have hk : (min (a.length : Int) (b.length : Int)).toNat = min a.length b.length := by omega
  obtain ⟨i, hi⟩ := Classical.not_forall.1 hc
  -- the first incompatible position
  have hfirst : ∃ j, ¬ Compatible (fromRight a j) (fromRight b j) ∧ ∀ k, k < j →
      Compatible (fromRight a k) (fromRight b k) := by
    clear hc
    induction i using Nat.strongRecOn with
    | _ i ih =>
      by_cases h : ∃ k, k < i ∧ ¬ Compatible (fromRight a k) (fromRight b k)
      · obtain ⟨k, hk, hn⟩ := h; exact ih k hk hn
      · refine ⟨i, hi, fun k hk => ?_⟩
        apply Classical.byContradiction
        intro hn; exact h ⟨k, hk, hn⟩
  obtain ⟨j, hj, hlt⟩ := hfirst
  have hjm : j < min a.length b.length := by
    apply Nat.lt_of_not_le
    intro hle
    apply hj
    rcases Nat.lt_or_ge j a.length with ha | ha
    · rw [fromRight_none (a := b) (by omega)]
      cases fromRight a j <;> trivial
    · rw [fromRight_none ha]; trivial
  obtain ⟨r, m', e, hm'⟩ := loopE_ret (E := E) (bcastBoth d1 a.length d2 b.length buf.length)
    (fun i s m' => s = bcState buf (bcVal a b) i ∧ m' = m) (min a.length b.length) j (fun _ m' => m' = m) hjm
    (by rintro i s m' hi ⟨rfl, rfl⟩; exact ⟨_, _, bcastBoth_run h1 h2 hb (by omega) (hlt i hi), rfl, rfl⟩)
    (by rintro s m' ⟨rfl, rfl⟩; exact ⟨_, _, bcastBoth_bad h1 h2 _ hjm hj _, rfl⟩)
    (s := buf) (m := m) ⟨by simp [bcState], rfl⟩
  rw [hm'] at e
  refine ⟨r, ?_⟩
  unfold broadcastArray
  rw [hk]
  msimp [e]

end

end Aitisa
