import Verif.Proof.IeeeSelect
import Verif.Props.MatCalc

/-!
# C66: products with matrices of zeros and ones
-/

namespace Aitisa

variable {E : Env} {m : Mem} {c : Code} {dev : Device} {d : Nat → Nat × Nat} {R : Nat → Foot} {xs : Nat → List Val} {r n k : Nat}
  {a b : MatCalc} {s : Nat → Nat} {zs : List Val}

theorem select_right (hE : Machine E.fp) (g : GivenMats m c dev d R xs) (f : MatFun) (fa : a.Fits d c.size r k) (fb : b.Fits d c.size k n)
    (hs : ∀ q, q < n → s q < k) (ha : ∀ p j, p < r → j < k → ∃ z, a.Value E.fp c (cells2 d xs) p j z ∧ Finite z ∧ ¬ MinusZero z)
    (hb : ∀ j q, j < k → q < n → ∃ z, b.Value E.fp c (cells2 d xs) j q z ∧ Stands z (if j = s q then 1 else 0)) {p q : Nat} {z : Val}
    (hp : p < r) (hq : q < n) (hz : a.Value E.fp c (cells2 d xs) p (s q) z) : (MatCalc.prod f k a b).Value E.fp c (cells2 d xs) p q z := by
  obtain ⟨us, hul, hu⟩ := choose_mat (r := 1) (n := k) (P := fun _ j v => a.Value E.fp c (cells2 d xs) p j v ∧ Finite v ∧ ¬ MinusZero v)
    fun _ j _ hj => ha p j hp hj
  obtain ⟨vs, hvl, hv⟩ := choose_mat (r := 1) (n := k) (P := fun _ j v => b.Value E.fp c (cells2 d xs) j q v ∧ Stands v (if j = s q then 1 else 0))
    fun _ j _ hj => hb j q hj hq
  have hz' : z = elemAt [1, k] us [0, s q] := MatCalc.value_unique g fa hp (hs q hq) hz (hu 0 _ (by omega) (hs q hq)).1
  have h := dot_pick hE (c := c) false (l := (List.range k).map fun j => (elemAt [1, k] us [0, j], elemAt [1, k] vs [0, j])) (s := s q)
    (by simpa using hs q hq) (fun x hx => by
      obtain ⟨j, hj, rfl⟩ := List.mem_map.1 hx
      have hj := List.mem_range.1 hj
      obtain ⟨h1, h2, -⟩ := hu 0 j (by omega) hj
      exact ⟨MatCalc.value_WT g fa hp hj h1, MatCalc.value_WT g fb hj hq (hv 0 j (by omega) hj).1, h2⟩)
    (fun j hj => by
      simp only [List.getElem_map, List.getElem_range]
      exact (hv 0 j (by omega) (by simpa using hj)).2)
    (by simp only [List.getElem_map, List.getElem_range]; exact (hu 0 _ (by omega) (hs q hq)).2.2)
  simp only [List.getElem_map, List.getElem_range, ← hz'] at h
  refine ⟨_, ?_, fun j hj => ?_, _, hE.zero c, h⟩
  · simp
  · have hj : j < k := by simpa using hj
    simp only [List.getElem_map, List.getElem_range]
    exact ⟨(hu 0 j (by omega) hj).1, (hv 0 j (by omega) hj).1⟩

theorem select_left (hE : Machine E.fp) (g : GivenMats m c dev d R xs) (f : MatFun) (fb : b.Fits d c.size r k) (fa : a.Fits d c.size k n)
    (hs : ∀ p, p < r → s p < k) (ha : ∀ j q, j < k → q < n → ∃ z, a.Value E.fp c (cells2 d xs) j q z ∧ Finite z ∧ ¬ MinusZero z)
    (hb : ∀ p j, p < r → j < k → ∃ z, b.Value E.fp c (cells2 d xs) p j z ∧ Stands z (if j = s p then 1 else 0)) {p q : Nat} {z : Val}
    (hp : p < r) (hq : q < n) (hz : a.Value E.fp c (cells2 d xs) (s p) q z) : (MatCalc.prod f k b a).Value E.fp c (cells2 d xs) p q z := by
  obtain ⟨us, hul, hu⟩ := choose_mat (r := 1) (n := k) (P := fun _ j v => a.Value E.fp c (cells2 d xs) j q v ∧ Finite v ∧ ¬ MinusZero v)
    fun _ j _ hj => ha j q hj hq
  obtain ⟨vs, hvl, hv⟩ := choose_mat (r := 1) (n := k) (P := fun _ j v => b.Value E.fp c (cells2 d xs) p j v ∧ Stands v (if j = s p then 1 else 0))
    fun _ j _ hj => hb p j hp hj
  have hz' : z = elemAt [1, k] us [0, s p] := MatCalc.value_unique g fa (hs p hp) hq hz (hu 0 _ (by omega) (hs p hp)).1
  have h := dot_pick hE (c := c) true (l := (List.range k).map fun j => (elemAt [1, k] us [0, j], elemAt [1, k] vs [0, j])) (s := s p)
    (by simpa using hs p hp) (fun x hx => by
      obtain ⟨j, hj, rfl⟩ := List.mem_map.1 hx
      have hj := List.mem_range.1 hj
      obtain ⟨h1, h2, -⟩ := hu 0 j (by omega) hj
      exact ⟨MatCalc.value_WT g fa hj hq h1, MatCalc.value_WT g fb hp hj (hv 0 j (by omega) hj).1, h2⟩)
    (fun j hj => by
      simp only [List.getElem_map, List.getElem_range]
      exact (hv 0 j (by omega) (by simpa using hj)).2)
    (by simp only [List.getElem_map, List.getElem_range]; exact (hu 0 _ (by omega) (hs p hp)).2.2)
  simp only [List.getElem_map, List.getElem_range, ← hz'] at h
  refine ⟨_, ?_, fun j hj => ?_, _, hE.zero c, h⟩
  · simp
  · have hj : j < k := by simpa using hj
    simp only [List.getElem_map, List.getElem_range, Aitisa.flip, if_true]
    exact ⟨(hv 0 j (by omega) hj).1, (hu 0 j (by omega) hj).1⟩

/-- C66. If column `q` of the second matrix has a 1 in row `s q` and zeros elsewhere, column `q` of the product is column `s q` of the
first matrix - for all ten types, if the first matrix has no infinities, no NaN and no minus zeros. -/
theorem C66_columns (hE : Machine E.fp) (wf : m.WF) (g : GivenMats m c dev d R xs) (f : MatFun) (fa : a.Fits d c.size r k)
    (fb : b.Fits d c.size k n) (o : MatOK c.size r n) (hs : ∀ q, q < n → s q < k)
    (ha : ∀ p j, p < r → j < k → ∃ z, a.Value E.fp c (cells2 d xs) p j z ∧ Finite z ∧ ¬ MinusZero z)
    (hb : ∀ j q, j < k → q < n → ∃ z, b.Value E.fp c (cells2 d xs) j q z ∧ Stands z (if j = s q then 1 else 0))
    (hl : zs.length = r * n) (hz : ∀ p q, p < r → q < n → a.Value E.fp c (cells2 d xs) p (s q) (elemAt [r, n] zs [p, q])) :
    Computes E (MatCalc.run (fun i => (R i).h) (.prod f k a b)) m ⟨c.dtype, dev, [r, n], encAll c zs⟩ := by
  refine MatCalc.computes (.prod f k a b) wf g ⟨fa, fb, o⟩ hl fun p q hp hq => ?_
  exact select_right hE g f fa fb hs ha hb hp hq (hz p q hp hq)

/-- C66. If row `p` of the first matrix has a 1 in column `s p` and zeros elsewhere, row `p` of the product is row `s p` of the second
matrix. -/
theorem C66_rows (hE : Machine E.fp) (wf : m.WF) (g : GivenMats m c dev d R xs) (f : MatFun) (fb : b.Fits d c.size r k)
    (fa : a.Fits d c.size k n) (o : MatOK c.size r n) (hs : ∀ p, p < r → s p < k)
    (ha : ∀ j q, j < k → q < n → ∃ z, a.Value E.fp c (cells2 d xs) j q z ∧ Finite z ∧ ¬ MinusZero z)
    (hb : ∀ p j, p < r → j < k → ∃ z, b.Value E.fp c (cells2 d xs) p j z ∧ Stands z (if j = s p then 1 else 0))
    (hl : zs.length = r * n) (hz : ∀ p q, p < r → q < n → a.Value E.fp c (cells2 d xs) (s p) q (elemAt [r, n] zs [p, q])) :
    Computes E (MatCalc.run (fun i => (R i).h) (.prod f k b a)) m ⟨c.dtype, dev, [r, n], encAll c zs⟩ := by
  refine MatCalc.computes (.prod f k b a) wf g ⟨fb, fa, o⟩ hl fun p q hp hq => ?_
  exact select_left hE g f fb fa hs ha hb hp hq (hz p q hp hq)

/-- C66. The product with the identity matrix on the right is the matrix. -/
theorem C66_identity_right (hE : Machine E.fp) (wf : m.WF) (g : GivenMats m c dev d R xs) (f : MatFun) (fa : a.Fits d c.size r n)
    (fb : b.Fits d c.size n n) (ha : ∀ p q, p < r → q < n → ∃ z, a.Value E.fp c (cells2 d xs) p q z ∧ Finite z ∧ ¬ MinusZero z)
    (hb : ∀ p q, p < n → q < n → ∃ z, b.Value E.fp c (cells2 d xs) p q z ∧ Stands z (if p = q then 1 else 0)) :
    GiveSame E m (MatCalc.run (fun i => (R i).h) (.prod f n a b)) (a.run fun i => (R i).h) := by
  refine MatCalc.agree (r := r) (n := n) wf g ⟨fa, fb, fa.ok⟩ fa fun p q hp hq => ?_
  obtain ⟨z, hz, -⟩ := ha p q hp hq
  exact ⟨z, select_right hE (s := id) g f fa fb (fun _ h => h) ha hb hp hq hz, hz⟩

/-- C66. The product with the identity matrix on the left is the matrix. -/
theorem C66_identity_left (hE : Machine E.fp) (wf : m.WF) (g : GivenMats m c dev d R xs) (f : MatFun) (fa : a.Fits d c.size r n)
    (fb : b.Fits d c.size r r) (ha : ∀ p q, p < r → q < n → ∃ z, a.Value E.fp c (cells2 d xs) p q z ∧ Finite z ∧ ¬ MinusZero z)
    (hb : ∀ p q, p < r → q < r → ∃ z, b.Value E.fp c (cells2 d xs) p q z ∧ Stands z (if p = q then 1 else 0)) :
    GiveSame E m (MatCalc.run (fun i => (R i).h) (.prod f r b a)) (a.run fun i => (R i).h) := by
  refine MatCalc.agree (r := r) (n := n) wf g ⟨fb, fa, fa.ok⟩ fa fun p q hp hq => ?_
  obtain ⟨z, hz, -⟩ := ha p q hp hq
  refine ⟨z, select_left hE (s := id) g f fb fa (fun _ h => h) ha (fun p j hp hj => ?_) hp hq hz, hz⟩
  obtain ⟨v, hv, h⟩ := hb p j hp hj
  refine ⟨v, hv, ?_⟩
  by_cases e : p = j
  · rw [if_pos (show j = id p from e.symm)]; rwa [if_pos e] at h
  · rw [if_neg (show ¬ j = id p from fun h => e h.symm)]; rwa [if_neg e] at h

/-! ### Examples -/

/-- The `float` matrix 0.1, -1 / 1e-45 (the smallest), -3.4e38, the identity matrix with a minus zero, and the matrix that exchanges two rows or
columns. -/
def exIdElems : Nat → List Val
  | 0 => exFlo
  | 1 => [.f32 0x3F800000, .f32 0x80000000, .f32 0, .f32 0x3F800000]
  | _ => [.f32 0, .f32 0x3F800000, .f32 0x3F800000, .f32 0]

def exIdMem1 : Mem := exFloMem.addT (tvOf .f32 [2, 2] (exIdElems 1))
def exIdMem : Mem := exIdMem1.addT (tvOf .f32 [2, 2] (exIdElems 2))

def exId : Nat → Foot
  | 0 => Mem.empty.footT
  | 1 => exFloMem.footT
  | _ => exIdMem1.footT

theorem exIdMem_wf : exIdMem.WF := Mem.addT_wf (Mem.addT_wf (Mem.addT_wf Mem.empty_wf _) _) _

theorem exId_given : GivenMats exIdMem .f32 ⟨DEVICE_CPU, 0⟩ (fun _ => (2, 2)) exId exIdElems where
  tensor i := by
    match i with
    | 0 => exact addT_old (Mem.addT_wf (Mem.addT_wf Mem.empty_wf _) _) (addT_old (Mem.addT_wf Mem.empty_wf _)
        (tvOf_at _ (by decide) rfl ⟨by decide, by decide⟩) _) _
    | 1 => exact addT_old (Mem.addT_wf (Mem.addT_wf Mem.empty_wf _) _) (tvOf_at _ (by decide) rfl ⟨by decide, by decide⟩) _
    | i + 2 => exact tvOf_at _ (by decide) rfl ⟨by decide, by decide⟩
  wt i := by match i with | 0 | 1 | i + 2 => simp only [exIdElems]; decide
  len i := by match i with | 0 | 1 | i + 2 => rfl
  cpu := rfl

theorem exId_fits (i : Nat) : (MatCalc.arg i).Fits (fun _ => (2, 2)) 4 2 2 :=
  ⟨rfl, by decide, by decide, by decide, by decide, by decide⟩

instance (v : Val) : Decidable (Finite v) := by cases v <;> unfold Finite <;> infer_instance
instance (v : Val) : Decidable (MinusZero v) := by cases v <;> unfold MinusZero <;> infer_instance
instance (v : Val) (n : Int) : Decidable (Stands v n) := by cases v <;> simp only [Stands, Fmt.IsInt] <;> infer_instance

theorem exId_plain (p q : Nat) (hp : p < 2) (hq : q < 2) : Finite (cells2 (fun _ => (2, 2)) exIdElems 0 p q) ∧
    ¬ MinusZero (cells2 (fun _ => (2, 2)) exIdElems 0 p q) := by
  match p, q, hp, hq with
  | 0, 0, _, _ | 0, 1, _, _ | 1, 0, _, _ | 1, 1, _, _ => decide +kernel

example : GiveSame ieeeEnv exIdMem (MatCalc.run (fun i => (exId i).h) (.prod .matmul 2 (.arg 0) (.arg 1))) (MatCalc.run (fun i => (exId i).h) (.arg 0)) :=
  C66_identity_right (a := .arg 0) (b := .arg 1) (r := 2) (n := 2) ieee_machine exIdMem_wf exId_given .matmul (exId_fits 0) (exId_fits 1)
    (fun p q hp hq => ⟨_, rfl, exId_plain p q hp hq⟩)
    (fun p q hp hq => ⟨_, rfl, by
      match p, q, hp, hq with
      | 0, 0, _, _ | 0, 1, _, _ | 1, 0, _, _ | 1, 1, _, _ => decide +kernel⟩)

/-- Exchanging the columns, and the rows. -/
example : Computes ieeeEnv (MatCalc.run (fun i => (exId i).h) (.prod .matmul 2 (.arg 0) (.arg 2))) exIdMem
      ⟨Code.f32.dtype, ⟨DEVICE_CPU, 0⟩, [2, 2], encAll .f32 [.f32 0xBF800000, .f32 0x3DCCCCCD, .f32 0xFF7FFFFF, .f32 1]⟩ ∧
    Computes ieeeEnv (MatCalc.run (fun i => (exId i).h) (.prod .dot 2 (.arg 2) (.arg 0))) exIdMem
      ⟨Code.f32.dtype, ⟨DEVICE_CPU, 0⟩, [2, 2], encAll .f32 [.f32 1, .f32 0xFF7FFFFF, .f32 0x3DCCCCCD, .f32 0xBF800000]⟩ := by
  have o : MatOK 4 2 2 := ⟨by decide, by decide, by decide, by decide, by decide⟩
  have h : ∀ j q, j < 2 → q < 2 → ∃ z, (MatCalc.arg 2).Value ieee .f32 (cells2 (fun _ => (2, 2)) exIdElems) j q z ∧
      Stands z (if j = 1 - q then 1 else 0) := fun p q hp hq => ⟨_, rfl, by
    match p, q, hp, hq with
    | 0, 0, _, _ | 0, 1, _, _ | 1, 0, _, _ | 1, 1, _, _ => decide +kernel⟩
  refine ⟨C66_columns (a := .arg 0) (b := .arg 2) (s := fun q => 1 - q) ieee_machine exIdMem_wf exId_given .matmul (exId_fits 0) (exId_fits 2) o
      (fun q _ => by omega) (fun p q hp hq => ⟨_, rfl, exId_plain p q hp hq⟩) h rfl (fun p q hp hq => ?_),
    C66_rows (a := .arg 0) (b := .arg 2) (s := fun q => 1 - q) ieee_machine exIdMem_wf exId_given .dot (exId_fits 2) (exId_fits 0) o
      (fun q _ => by omega) (fun p q hp hq => ⟨_, rfl, exId_plain p q hp hq⟩) (fun p j hp hj => ?_) rfl (fun p q hp hq => ?_)⟩
  · match p, q, hp, hq with
    | 0, 0, _, _ | 0, 1, _, _ | 1, 0, _, _ | 1, 1, _, _ => rfl
  · obtain ⟨z, hz, hs⟩ := h p j hp hj
    refine ⟨z, hz, ?_⟩
    match p, j, hp, hj with
    | 0, 0, _, _ | 0, 1, _, _ | 1, 0, _, _ | 1, 1, _, _ => exact hs
  · match p, q, hp, hq with
    | 0, 0, _, _ | 0, 1, _, _ | 1, 0, _, _ | 1, 1, _, _ => rfl

/-- The hypotheses are needed: minus zero becomes plus zero, and an infinity in the same row makes every element NaN. -/
example : ieee.add32 (ieee.add32 0 (ieee.mul32 0x80000000 0x3F800000)) (ieee.mul32 0x3F800000 0) = 0 ∧
    NotNaN (.f32 (ieee.add32 (ieee.add32 0 (ieee.mul32 0x3F800000 0x3F800000)) (ieee.mul32 0x7F800000 0))) = False := by
  refine ⟨by decide +kernel, ?_⟩
  simp only [NotNaN, eq_iff_iff, iff_false]
  decide +kernel

end Aitisa
