import Verif.Proof.MatCalc
import Verif.Props.Calc

/-!
# C65: the laws of arithmetic for matrices of whole numbers
-/

namespace Aitisa

variable {E : Env} {m : Mem} {c : Code} {dev : Device} {d : Nat → Nat × Nat} {R : Nat → Foot} {xs : Nat → List Val} {r n k l : Nat}
  {a b e : MatCalc}

/-- C65. On matrices of an integer type, two calculations with sums, differences and products that give the same exact whole numbers for
all matrices of whole numbers give the same matrix, if C defines all their operations - also where sums and products wrap around. -/
theorem C65_same_numbers (wf : m.WF) (g : GivenMats m c dev d R xs) (hc : c.isInt = true) (hz : ZeroOf E.fp c (.int 0))
    (fa : a.Fits d c.size r n) (fb : b.Fits d c.size r n) (na : a.NoDiv) (nb : b.NoDiv)
    (h : ∀ X p q, p < r → q < n → a.num X p q = b.num X p q) (ha : a.Defined E.fp c d xs r n) (hb : b.Defined E.fp c d xs r n) :
    GiveSame E m (a.run fun i => (R i).h) (b.run fun i => (R i).h) := by
  refine MatCalc.agree wf g fa fb fun p q hp hq => ?_
  obtain ⟨z, hv⟩ := ha p q hp hq
  obtain ⟨z', hv'⟩ := hb p q hp hq
  have hX : ∀ i p q, ∃ x, p < (d i).1 → q < (d i).2 → (Val.int x).WT c ∧ cells2 d xs i p q = .int x := fun i p q => by
    by_cases hp : p < (d i).1
    · by_cases hq : q < (d i).2
      · have w := g.cell_WT (r := (d i).1) (n := (d i).2) (i := i) rfl hp hq
        rcases wt_cases w with ⟨rfl, -⟩ | ⟨rfl, -⟩ | ⟨-, x, hx, -⟩
        · exact absurd hc (by decide)
        · exact absurd hc (by decide)
        · exact ⟨x, fun _ _ => ⟨by rw [← hx]; exact w, hx⟩⟩
      · exact ⟨0, fun _ h => absurd h hq⟩
    · exact ⟨0, fun h => absurd h hp⟩
  obtain ⟨X, hX⟩ : ∃ X : Nat → Nat → Nat → Int, ∀ i p q, p < (d i).1 → q < (d i).2 → (Val.int (X i p q)).WT c ∧ cells2 d xs i p q = .int (X i p q) :=
    ⟨fun i p q => (hX i p q).choose, fun i p q => (hX i p q).choose_spec⟩
  obtain ⟨t, rfl, ht⟩ := MatCalc.value_num hc hz hX fa na hp hq hv
  obtain ⟨t', rfl, ht'⟩ := MatCalc.value_num hc hz hX fb nb hp hq hv'
  rw [h X p q hp hq] at ht
  cases congr_unique ht ht'
  exact ⟨_, hv, hv'⟩

/-- C65. For `int8_t`, `uint8_t`, `int16_t`, `uint32_t` and `uint64_t` all sums, differences and products are defined. -/
theorem C65_always_defined (g : GivenMats m c dev d R xs) (hc : c = .i8 ∨ c = .u8 ∨ c = .i16 ∨ c = .u32 ∨ c = .u64) {fp : FloatOps}
    (hz : ZeroOf fp c (.int 0)) (fa : a.Fits d c.size r n) (na : a.NoDiv) : a.Defined fp c d xs r n := by
  have hw : ∀ {z : Val}, z.WT c → ∃ x, z = .int x := fun w => by
    rcases wt_cases w with ⟨rfl, -⟩ | ⟨rfl, -⟩ | ⟨-, x, hx, -⟩
    · rcases hc with h | h | h | h | h <;> cases h
    · rcases hc with h | h | h | h | h <;> cases h
    · exact ⟨x, hx⟩
  have hr : ∀ e : Int, ∃ r, ReducesTo c e r := fun e => by
    have : ∃ lo hi, intRange c = some (lo, hi) ∧ 0 < hi - lo + 1 := by
      rcases hc with rfl | rfl | rfl | rfl | rfl <;> exact ⟨_, _, rfl, by decide⟩
    obtain ⟨lo, hi, h1, h2⟩ := this
    refine ⟨(e - lo) % (hi - lo + 1) + lo, lo, hi, h1, ?_, ?_, (e - lo) / (hi - lo + 1), ?_⟩
    · have := Int.emod_nonneg (e - lo) (by omega : hi - lo + 1 ≠ 0); omega
    · have := Int.emod_lt_of_pos (e - lo) h2; omega
    · have := Int.emod_add_mul_ediv (e - lo) (hi - lo + 1)
      rw [Int.mul_comm] at this
      omega
  have hm : ∀ x y z : Int, ∃ t, MacResult fp c (.int x) (.int y) (.int z) (.int t) := fun x y z => by
    obtain ⟨t, ht⟩ := hr (x + y * z)
    refine ⟨t, t, rfl, ?_⟩
    rcases hc with rfl | rfl | rfl | rfl | rfl <;> exact ht
  have hdot : ∀ (l : List (Val × Val)) (x : Int), (∀ p ∈ l, p.1.WT c ∧ p.2.WT c) → ∃ z, DotTo fp c (.int x) l z := fun l => by
    induction l with
    | nil => exact fun x _ => ⟨_, rfl⟩
    | cons p l ih =>
      intro x wl
      obtain ⟨w1, w2⟩ := wl p (List.mem_cons_self ..)
      obtain ⟨y, hy⟩ := hw w1
      obtain ⟨z, hz⟩ := hw w2
      obtain ⟨t, ht⟩ := hm x y z
      obtain ⟨u, hu⟩ := ih t fun q hq => wl q (List.mem_cons_of_mem _ hq)
      exact ⟨u, .int t, by rw [hy, hz]; exact ht, hu⟩
  induction a generalizing r n with
  | arg i => exact fun p q _ _ => ⟨_, rfl⟩
  | bin op a b iha ihb =>
    intro p q hp hq
    obtain ⟨u, hu⟩ := iha fa.1 na.2.1 p q hp hq
    obtain ⟨v, hv⟩ := ihb fa.2 na.2.2 p q hp hq
    obtain ⟨x, rfl⟩ := hw (MatCalc.value_WT g fa.1 hp hq hu)
    obtain ⟨y, rfl⟩ := hw (MatCalc.value_WT g fa.2 hp hq hv)
    have hex : ∃ e, ExactOp op x y e := by
      have := na.1
      cases op <;> first | exact ⟨_, rfl⟩ | exact absurd rfl this
    obtain ⟨e, he⟩ := hex
    obtain ⟨t, ht⟩ := hr e
    refine ⟨.int t, _, _, hu, hv, e, t, rfl, he, ?_⟩
    rcases hc with rfl | rfl | rfl | rfl | rfl <;> exact ht
  | prod f k a b iha ihb =>
    intro p q hp hq
    obtain ⟨us, hul, hu⟩ := choose_mat (r := 1) (n := k) (P := fun _ j v => a.Value fp c (cells2 d xs) p j v) fun _ j _ hj => iha fa.1 na.1 p j hp hj
    obtain ⟨vs, hvl, hv⟩ := choose_mat (r := 1) (n := k) (P := fun _ j v => b.Value fp c (cells2 d xs) j q v) fun _ j _ hj => ihb fa.2.1 na.2 j q hj hq
    have wl : ∀ x ∈ (List.range k).map fun j => (elemAt [1, k] us [0, j], elemAt [1, k] vs [0, j]), x.1.WT c ∧ x.2.WT c := fun x hx => by
      obtain ⟨j, hj, rfl⟩ := List.mem_map.1 hx
      have hj := List.mem_range.1 hj
      exact ⟨MatCalc.value_WT g fa.1 hp hj (hu 0 j (by omega) hj), MatCalc.value_WT g fa.2.1 hj hq (hv 0 j (by omega) hj)⟩
    obtain ⟨z, hz'⟩ := hdot _ 0 wl
    refine ⟨z, _, by simp, fun j hj => ?_, _, hz, hz'⟩
    have hj' : j < k := by simpa using hj
    simp only [List.getElem_map, List.getElem_range]
    exact ⟨hu 0 j (by omega) hj', hv 0 j (by omega) hj'⟩

/-- C65. (A B) C is A (B C), whichever of the two functions computes the products. -/
theorem C65_associative (wf : m.WF) (g : GivenMats m c dev d R xs) (hc : c.isInt = true) (hz : ZeroOf E.fp c (.int 0)) (f f' h h' : MatFun)
    (fa : a.Fits d c.size r k) (fb : b.Fits d c.size k l) (fe : e.Fits d c.size l n) (na : a.NoDiv) (nb : b.NoDiv) (ne : e.NoDiv)
    (o1 : MatOK c.size r l) (o2 : MatOK c.size k n) (o3 : MatOK c.size r n)
    (d1 : (MatCalc.prod f l (.prod f' k a b) e).Defined E.fp c d xs r n) (d2 : (MatCalc.prod h k a (.prod h' l b e)).Defined E.fp c d xs r n) :
    GiveSame E m (MatCalc.run (fun i => (R i).h) (.prod f l (.prod f' k a b) e)) (MatCalc.run (fun i => (R i).h) (.prod h k a (.prod h' l b e))) :=
  C65_same_numbers wf g hc hz (r := r) (n := n) ⟨⟨fa, fb, o1⟩, fe, o3⟩ ⟨fa, ⟨fb, fe, o2⟩, o3⟩ ⟨⟨na, nb⟩, ne⟩ ⟨na, nb, ne⟩
    (fun X p q _ _ => by simp only [MatCalc.num, total_range]; exact assoc_num _ (fun i j => b.num X i j) _ k l) d1 d2

/-- C65. A (B + C) is A B + A C, and A (B - C) is A B - A C. -/
theorem C65_distributes (wf : m.WF) (g : GivenMats m c dev d R xs) (hc : c.isInt = true) (hz : ZeroOf E.fp c (.int 0)) (f h h' : MatFun)
    {op : BinOp} (ho : op = .add ∨ op = .sub) (fa : a.Fits d c.size r k) (fb : b.Fits d c.size k n) (fe : e.Fits d c.size k n) (na : a.NoDiv)
    (nb : b.NoDiv) (ne : e.NoDiv) (o : MatOK c.size r n) (d1 : (MatCalc.prod f k a (.bin op b e)).Defined E.fp c d xs r n)
    (d2 : (MatCalc.bin op (.prod h k a b) (.prod h' k a e)).Defined E.fp c d xs r n) :
    GiveSame E m (MatCalc.run (fun i => (R i).h) (.prod f k a (.bin op b e)))
      (MatCalc.run (fun i => (R i).h) (.bin op (.prod h k a b) (.prod h' k a e))) := by
  have hop : op ≠ .div := by rcases ho with rfl | rfl <;> decide
  refine C65_same_numbers wf g hc hz (r := r) (n := n) ⟨fa, ⟨fb, fe⟩, o⟩ ⟨⟨fa, fb, o⟩, fa, fe, o⟩ ⟨na, hop, nb, ne⟩ ⟨hop, ⟨na, nb⟩, na, ne⟩
    (fun X p q _ _ => ?_) d1 d2
  rcases ho with rfl | rfl <;> simp only [MatCalc.num, total_range]
  · simp only [Int.mul_add, sumTo_add]
  · simp only [Int.mul_sub, sumTo_sub]

/-- C65. (A + B) C is A C + B C, and (A - B) C is A C - B C. -/
theorem C65_distributes_right (wf : m.WF) (g : GivenMats m c dev d R xs) (hc : c.isInt = true) (hz : ZeroOf E.fp c (.int 0)) (f h h' : MatFun)
    {op : BinOp} (ho : op = .add ∨ op = .sub) (fa : a.Fits d c.size r k) (fb : b.Fits d c.size r k) (fe : e.Fits d c.size k n) (na : a.NoDiv)
    (nb : b.NoDiv) (ne : e.NoDiv) (o : MatOK c.size r n) (d1 : (MatCalc.prod f k (.bin op a b) e).Defined E.fp c d xs r n)
    (d2 : (MatCalc.bin op (.prod h k a e) (.prod h' k b e)).Defined E.fp c d xs r n) :
    GiveSame E m (MatCalc.run (fun i => (R i).h) (.prod f k (.bin op a b) e))
      (MatCalc.run (fun i => (R i).h) (.bin op (.prod h k a e) (.prod h' k b e))) := by
  have hop : op ≠ .div := by rcases ho with rfl | rfl <;> decide
  refine C65_same_numbers wf g hc hz (r := r) (n := n) ⟨⟨fa, fb⟩, fe, o⟩ ⟨⟨fa, fe, o⟩, fb, fe, o⟩ ⟨⟨hop, na, nb⟩, ne⟩ ⟨hop, ⟨na, ne⟩, nb, ne⟩
    (fun X p q _ _ => ?_) d1 d2
  rcases ho with rfl | rfl <;> simp only [MatCalc.num, total_range]
  · simp only [Int.add_mul, sumTo_add]
  · simp only [Int.sub_mul, sumTo_sub]

/-! ### Examples -/

/-- Three `int8_t` matrices: 1×2, 2×3 and 3×2. -/
def exMatDims : Nat → Nat × Nat
  | 0 => (1, 2)
  | 1 => (2, 3)
  | _ => (3, 2)

def exMatElems : Nat → List Val
  | 0 => [100, -7].map .int
  | 1 => [1, 2, 3, 50, -60, 70].map .int
  | _ => [9, -8, 7, 100, 5, 127].map .int

def exMatTV (i : Nat) : TV := tvOf .i8 [(exMatDims i).1, (exMatDims i).2] (exMatElems i)

def exMatMem1 : Mem := Mem.empty.addT (exMatTV 0)
def exMatMem2 : Mem := exMatMem1.addT (exMatTV 1)
def exMatMem : Mem := exMatMem2.addT (exMatTV 2)

def exMat : Nat → Foot
  | 0 => Mem.empty.footT
  | 1 => exMatMem1.footT
  | _ => exMatMem2.footT

theorem exMatMem_wf : exMatMem.WF := Mem.addT_wf (Mem.addT_wf (Mem.addT_wf Mem.empty_wf _) _) _

theorem exMat_given : GivenMats exMatMem .i8 ⟨DEVICE_CPU, 0⟩ exMatDims exMat exMatElems where
  tensor i := by
    match i with
    | 0 => exact addT_old (Mem.addT_wf (Mem.addT_wf Mem.empty_wf _) _) (addT_old (Mem.addT_wf Mem.empty_wf _)
        (tvOf_at _ (by decide) rfl ⟨by decide, by decide⟩) _) _
    | 1 => exact addT_old (Mem.addT_wf (Mem.addT_wf Mem.empty_wf _) _) (tvOf_at _ (by decide) rfl ⟨by decide, by decide⟩) _
    | i + 2 => exact tvOf_at _ (by simp) rfl ⟨by decide, by decide⟩
  wt i := by match i with | 0 | 1 | i + 2 => simp only [exMatElems]; decide
  len i := by match i with | 0 | 1 | i + 2 => rfl
  cpu := rfl

theorem exMat_fits (i r n : Nat) (h : exMatDims i = (r, n)) : (MatCalc.arg i).Fits exMatDims 1 r n := by
  refine ⟨h, ?_⟩
  match i with
  | 0 | 1 | i + 2 =>
    simp only [exMatDims, Prod.mk.injEq] at h
    obtain ⟨rfl, rfl⟩ := h
    exact ⟨by decide, by decide, by decide, by decide, by decide⟩

theorem exMat_zero : ZeroOf ieee .i8 (.int 0) := zeroVal_of .i8

/-- (A B) C is A (B C), one product with `aitisa_dot`; the numbers wrap around. -/
example : GiveSame ieeeEnv exMatMem (MatCalc.run (fun i => (exMat i).h) (.prod .dot 3 (.prod .matmul 2 (.arg 0) (.arg 1)) (.arg 2)))
    (MatCalc.run (fun i => (exMat i).h) (.prod .matmul 2 (.arg 0) (.prod .matmul 3 (.arg 1) (.arg 2)))) := by
  have o : ∀ r n, r = 1 ∧ n = 3 ∨ r = 2 ∧ n = 2 ∨ r = 1 ∧ n = 2 → MatOK 1 r n := by
    rintro r n (⟨rfl, rfl⟩ | ⟨rfl, rfl⟩ | ⟨rfl, rfl⟩) <;> exact ⟨by decide, by decide, by decide, by decide, by decide⟩
  have o1 := o 1 3 (.inl ⟨rfl, rfl⟩)
  have o2 := o 2 2 (.inr (.inl ⟨rfl, rfl⟩))
  have o3 := o 1 2 (.inr (.inr ⟨rfl, rfl⟩))
  have fa := exMat_fits 0 1 2 rfl
  have fb := exMat_fits 1 2 3 rfl
  have fe := exMat_fits 2 3 2 rfl
  exact C65_associative (E := ieeeEnv) exMatMem_wf exMat_given rfl exMat_zero .dot .matmul .matmul .matmul fa fb fe trivial trivial trivial o1 o2 o3
    (C65_always_defined exMat_given (.inl rfl) exMat_zero ⟨⟨fa, fb, o1⟩, fe, o3⟩ ⟨⟨trivial, trivial⟩, trivial⟩)
    (C65_always_defined exMat_given (.inl rfl) exMat_zero ⟨fa, ⟨fb, fe, o2⟩, o3⟩ ⟨trivial, trivial, trivial⟩)

/-- A (B C - B C) is A (B C) - A (B C). -/
example : GiveSame ieeeEnv exMatMem
    (MatCalc.run (fun i => (exMat i).h) (.prod .dot 2 (.arg 0) (.bin .sub (.prod .dot 3 (.arg 1) (.arg 2)) (.prod .matmul 3 (.arg 1) (.arg 2)))))
    (MatCalc.run (fun i => (exMat i).h) (.bin .sub (.prod .matmul 2 (.arg 0) (.prod .dot 3 (.arg 1) (.arg 2)))
      (.prod .matmul 2 (.arg 0) (.prod .matmul 3 (.arg 1) (.arg 2))))) := by
  have o2 : MatOK 1 2 2 := ⟨by decide, by decide, by decide, by decide, by decide⟩
  have o3 : MatOK 1 1 2 := ⟨by decide, by decide, by decide, by decide, by decide⟩
  have fa := exMat_fits 0 1 2 rfl
  have fb := exMat_fits 1 2 3 rfl
  have fe := exMat_fits 2 3 2 rfl
  have fp : ∀ f, (MatCalc.prod f 3 (.arg 1) (.arg 2)).Fits exMatDims 1 2 2 := fun f => ⟨fb, fe, o2⟩
  exact C65_distributes (E := ieeeEnv) exMatMem_wf exMat_given rfl exMat_zero .dot .matmul .matmul (.inr rfl) fa (fp .dot) (fp .matmul) trivial
    ⟨trivial, trivial⟩ ⟨trivial, trivial⟩ o3
    (C65_always_defined exMat_given (.inl rfl) exMat_zero ⟨fa, ⟨fp .dot, fp .matmul⟩, o3⟩ ⟨trivial, by decide, ⟨trivial, trivial⟩, trivial, trivial⟩)
    (C65_always_defined exMat_given (.inl rfl) exMat_zero ⟨⟨fa, fp .dot, o3⟩, fa, fp .matmul, o3⟩
      ⟨by decide, ⟨trivial, trivial, trivial⟩, trivial, trivial, trivial⟩)

/-- Not so for floating-point numbers: with 1×1 matrices of `float`, (2^100 2^100) 2^-100 is infinite, 2^100 (2^100 2^-100) is 2^100. -/
example : ieee.add32 0 (ieee.mul32 (ieee.add32 0 (ieee.mul32 0x71800000 0x71800000)) 0x0D800000) = 0x7F800000 ∧
    ieee.add32 0 (ieee.mul32 0x71800000 (ieee.add32 0 (ieee.mul32 0x71800000 0x0D800000))) = 0x71800000 := by decide +kernel

end Aitisa
