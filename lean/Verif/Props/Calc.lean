import Verif.Proof.IeeeLaws
import Verif.Props.Exact

/-!
# C63 and C64: the laws of arithmetic
-/

namespace Aitisa

variable {E : Env} {m : Mem} {c : Code} {dev : Device} {ds : List Nat} {R : Nat → Foot} {xs : Nat → List Val} {a b : Calc}

/-! ## C63 -/

/-- C63. On tensors of an integer type, two ways to calculate the same polynomial give the same tensor, if C defines all their
operations: (x+y)-y is x, x*(y+z) is x*y+x*z, and so on - also where sums and products wrap around. -/
theorem C63_polynomials (wf : m.WF) (g : Given m c dev ds R xs) (hc : c.isInt = true) (hp : a.SamePoly E.fp b)
    (ha : a.Defined E.fp c ds xs) (hb : b.Defined E.fp c ds xs) :
    GiveSame E m (a.run c dev ds fun i => (R i).h) (b.run c dev ds fun i => (R i).h) := by
  refine Calc.agree wf g fun k hk => ?_
  obtain ⟨z, hz⟩ := ha k hk
  obtain ⟨z', hz'⟩ := hb k hk
  have hw := g.at_WT hk
  have hi : ∀ i, ∃ n, atPos xs k i = .int n := fun i => by
    rcases wt_cases (hw i) with ⟨rfl, -⟩ | ⟨rfl, -⟩ | ⟨-, n, h, -⟩
    · exact absurd hc (by decide)
    · exact absurd hc (by decide)
    · exact ⟨n, h⟩
  obtain ⟨n, hn⟩ : ∃ n : Nat → Int, ∀ i, atPos xs k i = .int (n i) := ⟨fun i => (hi i).choose, fun i => (hi i).choose_spec⟩
  obtain ⟨e, h1, h2⟩ := hp n
  obtain ⟨r, rfl, hr⟩ := Calc.value_poly hc hw hn hz h1
  obtain ⟨r', rfl, hr'⟩ := Calc.value_poly hc hw hn hz' h2
  cases congr_unique hr hr'
  exact ⟨_, hz, hz'⟩

/-- C63. For `int8_t`, `uint8_t`, `int16_t`, `uint32_t` and `uint64_t` all sums, differences and products are defined. -/
theorem C63_always_defined (g : Given m c dev ds R xs) (hc : c = .i8 ∨ c = .u8 ∨ c = .i16 ∨ c = .u32 ∨ c = .u64) {fp : FloatOps}
    (ha : a.Plain fp c) : a.Defined fp c ds xs := by
  intro k hk
  have hw := g.at_WT hk
  induction a with
  | arg i => exact ⟨_, rfl⟩
  | lit v => exact ha
  | bin op a b iha ihb =>
    obtain ⟨p, hp⟩ := iha ha.2.1
    obtain ⟨q, hq⟩ := ihb ha.2.2
    have wp := Calc.value_WT hw hp
    have wq := Calc.value_WT hw hq
    have hr : ∀ e : Int, ∃ r, ReducesTo c e r := fun e => by
      have : ∃ lo hi, intRange c = some (lo, hi) ∧ 0 < hi - lo + 1 := by
        rcases hc with rfl | rfl | rfl | rfl | rfl <;> exact ⟨_, _, rfl, by decide⟩
      obtain ⟨lo, hi, h1, h2⟩ := this
      refine ⟨(e - lo) % (hi - lo + 1) + lo, lo, hi, h1, ?_, ?_, (e - lo) / (hi - lo + 1), ?_⟩
      · have := Int.emod_nonneg (e - lo) (by omega : hi - lo + 1 ≠ 0); omega
      · have := Int.emod_lt_of_pos (e - lo) h2; omega
      · have := Int.emod_add_mul_ediv (e - lo) (hi - lo + 1)
        rw [Int.mul_comm] at this
        omega
    have hex : ∀ u v : Int, ∃ e, ExactOp op u v e := fun u v => by
      have := ha.1
      cases op <;> first | exact ⟨_, rfl⟩ | exact absurd rfl this
    have hop : ∃ z, OpResult fp c op p q z := by
      rcases wt_cases wp with ⟨rfl, -⟩ | ⟨rfl, -⟩ | ⟨-, u, rfl, -⟩
      · rcases hc with h | h | h | h | h <;> cases h
      · rcases hc with h | h | h | h | h <;> cases h
      · rcases wt_cases wq with ⟨rfl, -⟩ | ⟨rfl, -⟩ | ⟨-, v, rfl, -⟩
        · rcases hc with h | h | h | h | h <;> cases h
        · rcases hc with h | h | h | h | h <;> cases h
        · obtain ⟨e, he⟩ := hex u v
          obtain ⟨r, hr⟩ := hr e
          refine ⟨.int r, e, r, rfl, he, ?_⟩
          rcases hc with rfl | rfl | rfl | rfl | rfl <;> exact hr
    obtain ⟨z, hz⟩ := hop
    exact ⟨z, p, q, hp, hq, hz⟩

/-- C63. Dividing a product by one of its factors gives back the other one, if no factor is 0 and no product is out of the range of the type. -/
theorem C63_mul_div (wf : m.WF) (g : Given m c dev ds R xs) (hc : c.isInt = true)
    (h : ∀ k, k < prod ds → ∀ u v, atPos xs k 0 = .int u → atPos xs k 1 = .int v → v ≠ 0 ∧ Within c (u * v)) :
    GiveSame E m (Calc.run c dev ds (fun i => (R i).h) (.bin .div (.bin .mul (.arg 0) (.arg 1)) (.arg 1))) (Calc.run c dev ds (fun i => (R i).h) (.arg 0)) := by
  refine Calc.agree wf g fun k hk => ?_
  have h0 := wt_cases (g.at_WT hk 0)
  have h1 := wt_cases (g.at_WT hk 1)
  rcases h0 with ⟨rfl, -⟩ | ⟨rfl, -⟩ | ⟨-, u, hu, hr⟩
  · exact absurd hc (by decide)
  · exact absurd hc (by decide)
  rcases h1 with ⟨rfl, -⟩ | ⟨rfl, -⟩ | ⟨-, v, hv, -⟩
  · exact absurd hc (by decide)
  · exact absurd hc (by decide)
  obtain ⟨hv0, hw⟩ := h k hk u v hu hv
  have hw' : ∃ lo hi, intRange c = some (lo, hi) ∧ lo ≤ u * v ∧ u * v ≤ hi := by
    cases c <;> first | exact absurd hc (by decide) | exact hw
  refine ⟨.int u, ⟨.int (u * v), .int v, ⟨.int u, .int v, hu.symm, hv.symm, int_op (op := .mul) hc rfl hw'⟩, hv.symm, ?_⟩, hu.symm⟩
  exact int_op (op := .div) hc ⟨hv0, Int.mul_comm ..⟩ hr

/-! ## C64 -/

/-- C64. Adding or subtracting a tensor of zeros, and multiplying or dividing by a tensor of ones, gives back the tensor, for all ten
types. There must be no NaN (whose bits may change) and, for the sum, no minus zero (which becomes plus zero). -/
theorem C64_neutral (op : BinOp) (hE : Machine E.fp) (wf : m.WF) (g : Given m c dev ds R xs)
    (ha : ∀ k, k < prod ds → ∃ z, a.Value ieee c (atPos xs k) z ∧ NotNaN z ∧ (op = .add → ¬ MinusZero z)) :
    GiveSame E m (Calc.run c dev ds (fun i => (R i).h) (.bin op a (.lit (match op with | .add | .sub => num 0 | .mul | .div => num 1))))
      (a.run c dev ds fun i => (R i).h) := by
  refine Calc.agree wf g fun k hk => ?_
  obtain ⟨z, hz, hn, h0⟩ := ha k hk
  on_machine hE
  refine ⟨z, ⟨z, litVal c op.neutral, hz, ?_, neutral_op op (Calc.value_WT (g.at_WT hk) hz) hn h0⟩, hz⟩
  obtain ⟨l0, l1, -⟩ := lit_converts c
  cases op <;> first | exact l0 | exact l1

/-- C64. The same with the tensor of zeros or ones as the first operand of the sum or the product. -/
theorem C64_neutral_left (op : BinOp) (ho : op = .add ∨ op = .mul) (hE : Machine E.fp) (wf : m.WF) (g : Given m c dev ds R xs)
    (ha : ∀ k, k < prod ds → ∃ z, a.Value ieee c (atPos xs k) z ∧ NotNaN z ∧ (op = .add → ¬ MinusZero z)) :
    GiveSame E m (Calc.run c dev ds (fun i => (R i).h) (.bin op (.lit (match op with | .add | .sub => num 0 | .mul | .div => num 1)) a))
      (a.run c dev ds fun i => (R i).h) := by
  refine Calc.agree wf g fun k hk => ?_
  obtain ⟨z, hz, hn, h0⟩ := ha k hk
  on_machine hE
  have wz := Calc.value_WT (g.at_WT hk) hz
  refine ⟨z, ⟨litVal c op.neutral, z, ?_, hz, Commutes.swap wz (ieee_commutes c op ho) (neutral_op op wz hn h0)⟩, hz⟩
  obtain ⟨l0, l1, -⟩ := lit_converts c
  cases op <;> first | exact l0 | exact l1

/-- C64. A tensor minus itself is a tensor of zeros, if there are no infinities and no NaN. -/
theorem C64_sub_self (hE : Machine E.fp) (wf : m.WF) (g : Given m c dev ds R xs)
    (ha : ∀ k, k < prod ds → ∃ z, a.Value ieee c (atPos xs k) z ∧ Finite z) :
    GiveSame E m (Calc.run c dev ds (fun i => (R i).h) (.bin .sub a a)) (Calc.run c dev ds (fun i => (R i).h) (.lit (num 0))) := by
  refine Calc.agree wf g fun k hk => ?_
  obtain ⟨z, hz, hf⟩ := ha k hk
  on_machine hE
  exact ⟨_, ⟨z, z, hz, hz, sub_self_op (Calc.value_WT (g.at_WT hk) hz) hf⟩, (lit_converts c).1⟩

/-- C64. A tensor divided by itself is a tensor of ones, if there are no infinities, no NaN and no zeros. -/
theorem C64_div_self (hE : Machine E.fp) (wf : m.WF) (g : Given m c dev ds R xs)
    (ha : ∀ k, k < prod ds → ∃ z, a.Value ieee c (atPos xs k) z ∧ Finite z ∧ ¬ IsZero z) :
    GiveSame E m (Calc.run c dev ds (fun i => (R i).h) (.bin .div a a)) (Calc.run c dev ds (fun i => (R i).h) (.lit (num 1))) := by
  refine Calc.agree wf g fun k hk => ?_
  obtain ⟨z, hz, hf, h0⟩ := ha k hk
  on_machine hE
  exact ⟨_, ⟨z, z, hz, hz, div_self_op (Calc.value_WT (g.at_WT hk) hz) hf h0⟩, (lit_converts c).2.1⟩

/-- C64. Twice a tensor is the tensor added to itself. -/
theorem C64_double (hE : Machine E.fp) (wf : m.WF) (g : Given m c dev ds R xs) (ha : (Calc.bin .add a a).Defined ieee c ds xs) :
    GiveSame E m (Calc.run c dev ds (fun i => (R i).h) (.bin .mul a (.lit (num 2)))) (Calc.run c dev ds (fun i => (R i).h) (.bin .add a a)) := by
  refine Calc.agree wf g fun k hk => ?_
  obtain ⟨z, p, q, hp, hq, h⟩ := ha k hk
  have hw := g.at_WT hk
  cases Calc.value_unique hw hp hq
  on_machine hE
  exact ⟨z, ⟨p, _, hp, (lit_converts c).2.2, double_op (Calc.value_WT hw hp) h⟩, ⟨p, p, hp, hp, h⟩⟩

/-- C64. For `float` and `double`, dividing by 2 is multiplying by 0.5. -/
theorem C64_halve (hE : Machine E.fp) (wf : m.WF) (g : Given m c dev ds R xs) (hc : c = .f32 ∨ c = .f64) (ha : a.Defined ieee c ds xs) :
    GiveSame E m (Calc.run c dev ds (fun i => (R i).h) (.bin .div a (.lit (num 2)))) (Calc.run c dev ds (fun i => (R i).h) (.bin .mul a (.lit half))) := by
  refine Calc.agree wf g fun k hk => ?_
  obtain ⟨p, hp⟩ := ha k hk
  obtain ⟨z, h1, h2⟩ := halve_op (Calc.value_WT (g.at_WT hk) hp) hc
  on_machine hE
  exact ⟨z, ⟨p, _, hp, (lit_converts c).2.2, h1⟩, ⟨p, _, hp, half_converts hc, h2⟩⟩

/-- C64. The operands of sums and products can be exchanged, on every machine whose sums and products of numbers commute. -/
theorem C64_commutes (op : BinOp) (hop : Commutes E.fp c op) (wf : m.WF) (g : Given m c dev ds R xs)
    (hd : (Calc.bin op a b).Defined E.fp c ds xs) :
    GiveSame E m (Calc.run c dev ds (fun i => (R i).h) (.bin op a b)) (Calc.run c dev ds (fun i => (R i).h) (.bin op b a)) := by
  refine Calc.agree wf g fun k hk => ?_
  obtain ⟨z, p, q, hp, hq, h⟩ := hd k hk
  exact ⟨z, ⟨p, q, hp, hq, h⟩, ⟨q, p, hq, hp, hop.swap (Calc.value_WT (g.at_WT hk) hp) h⟩⟩

/-! ### Examples -/

/-- The `int8_t` tensors `exB1` and `exB2`. -/
def exPair : Nat → Foot
  | 0 => Mem.empty.footT
  | _ => (Mem.empty.addT exB1).footT

def exPairElems : Nat → List Val
  | 0 => [100, -7, 5, -128].map .int
  | _ => [100, 2, -5, -1].map .int

theorem exPair_given : Given exBMem .i8 ⟨DEVICE_CPU, 0⟩ [2, 2] exPair exPairElems where
  tensor i := by
    cases i with
    | zero => exact exB1_at
    | succ i => exact exB2_at
  wt i := by
    cases i with
    | zero => exact exB1_elems.wt
    | succ i => exact exB2_elems.wt
  len i := by cases i <;> rfl
  cpu := rfl
  shape := ⟨by decide, by decide⟩
  some := by decide
  few := by decide

/-- (x + y) - y is x, although 100 + 100 is not in the range of the type. -/
example : GiveSame okEnv exBMem (Calc.run .i8 ⟨DEVICE_CPU, 0⟩ [2, 2] (fun i => (exPair i).h) (.bin .sub (.bin .add (.arg 0) (.arg 1)) (.arg 1)))
    (Calc.run .i8 ⟨DEVICE_CPU, 0⟩ [2, 2] (fun i => (exPair i).h) (.arg 0)) :=
  C63_polynomials exBMem_wf exPair_given rfl
    (fun x => ⟨x 0, ⟨by decide, x 0 + x 1, x 1, ⟨by decide, _, _, rfl, rfl, rfl⟩, rfl, by simp only [ExactOp]; omega⟩, rfl⟩)
    (C63_always_defined exPair_given (.inl rfl) ⟨by decide, ⟨by decide, trivial, trivial⟩, trivial⟩)
    (C63_always_defined exPair_given (.inl rfl) trivial)

/-- (x + y) * (x - y) is x * x - y * y. -/
example : GiveSame okEnv exBMem
    (Calc.run .i8 ⟨DEVICE_CPU, 0⟩ [2, 2] (fun i => (exPair i).h) (.bin .mul (.bin .add (.arg 0) (.arg 1)) (.bin .sub (.arg 0) (.arg 1))))
    (Calc.run .i8 ⟨DEVICE_CPU, 0⟩ [2, 2] (fun i => (exPair i).h) (.bin .sub (.bin .mul (.arg 0) (.arg 0)) (.bin .mul (.arg 1) (.arg 1)))) :=
  C63_polynomials exBMem_wf exPair_given rfl
    (fun x => ⟨(x 0 + x 1) * (x 0 - x 1), ⟨by decide, _, _, ⟨by decide, _, _, rfl, rfl, rfl⟩, ⟨by decide, _, _, rfl, rfl, rfl⟩, rfl⟩,
      ⟨by decide, _, _, ⟨by decide, _, _, rfl, rfl, rfl⟩, ⟨by decide, _, _, rfl, rfl, rfl⟩, by
        simp only [ExactOp, Int.add_mul, Int.mul_sub, Int.mul_comm (x 1) (x 0)]; omega⟩⟩)
    (C63_always_defined exPair_given (.inl rfl) ⟨by decide, ⟨by decide, trivial, trivial⟩, ⟨by decide, trivial, trivial⟩⟩)
    (C63_always_defined exPair_given (.inl rfl) ⟨by decide, ⟨by decide, trivial, trivial⟩, ⟨by decide, trivial, trivial⟩⟩)

/-- Not so for floating-point numbers: (1 + 2^24) - 2^24 is 0 for `float`. -/
example : ¬ (Calc.bin .sub (.bin .add (.arg 0) (.arg 1)) (.arg 1)).Value ieee .f32
    (fun i => if i = 0 then .f32 0x3F800000 else .f32 0x4B800000) (.f32 0x3F800000) := by
  rintro ⟨p, q, ⟨_, _, rfl, rfl, h⟩, rfl, h'⟩
  simp only [OpResult, Nat.one_ne_zero, if_true, if_false] at h
  subst h
  simp only [OpResult, Nat.one_ne_zero, if_false] at h'
  exact absurd (Val.f32.inj h') (by decide +kernel)

/-- The `int16_t` tensors 100, -7, 32767 and 3, -9, -1. -/
def exFac : Nat → Foot
  | 0 => Mem.empty.footT
  | _ => (Mem.empty.addT (tvOf .i16 [3] ([100, -7, 32767].map .int))).footT

def exFacElems : Nat → List Val
  | 0 => [100, -7, 32767].map .int
  | _ => [3, -9, -1].map .int

def exFacMem : Mem := (Mem.empty.addT (tvOf .i16 [3] ([100, -7, 32767].map .int))).addT (tvOf .i16 [3] ([3, -9, -1].map .int))

theorem exFac_given : Given exFacMem .i16 ⟨DEVICE_CPU, 0⟩ [3] exFac exFacElems where
  tensor i := by
    cases i with
    | zero => exact addT_old (Mem.addT_wf Mem.empty_wf _) (tvOf_at _ (by simp) rfl ⟨by decide, by decide⟩) _
    | succ i => exact tvOf_at _ (by simp) rfl ⟨by decide, by decide⟩
  wt i := by cases i <;> simp only [exFacElems] <;> decide
  len i := by cases i <;> rfl
  cpu := rfl
  shape := ⟨by decide, by decide⟩
  some := by decide
  few := by decide

example : GiveSame okEnv exFacMem (Calc.run .i16 ⟨DEVICE_CPU, 0⟩ [3] (fun i => (exFac i).h) (.bin .div (.bin .mul (.arg 0) (.arg 1)) (.arg 1)))
    (Calc.run .i16 ⟨DEVICE_CPU, 0⟩ [3] (fun i => (exFac i).h) (.arg 0)) :=
  C63_mul_div (Mem.addT_wf (Mem.addT_wf Mem.empty_wf _) _) exFac_given rfl fun k hk u v hu hv => by
    match k, hk with
    | 0, _ => cases hu; cases hv; exact ⟨by decide, _, _, rfl, by decide, by decide⟩
    | 1, _ => cases hu; cases hv; exact ⟨by decide, _, _, rfl, by decide, by decide⟩
    | 2, _ => cases hu; cases hv; exact ⟨by decide, _, _, rfl, by decide, by decide⟩

/-- The `float` tensor 0.1, -1, 1e-45 (the smallest), -3.4e38. -/
def exFlo : List Val := [.f32 0x3DCCCCCD, .f32 0xBF800000, .f32 1, .f32 0xFF7FFFFF]

def exFloMem : Mem := Mem.empty.addT (tvOf .f32 [2, 2] exFlo)

theorem exFlo_given : Given exFloMem .f32 ⟨DEVICE_CPU, 0⟩ [2, 2] (fun _ => Mem.empty.footT) (fun _ => exFlo) where
  tensor _ := tvOf_at _ (by simp) rfl ⟨by decide, by decide⟩
  wt _ := by decide
  len _ := rfl
  cpu := rfl
  shape := ⟨by decide, by decide⟩
  some := by decide
  few := by decide

theorem exFlo_ok {k : Nat} (hk : k < 4) : NotNaN (atPos (fun _ => exFlo) k 0) ∧ ¬ MinusZero (atPos (fun _ => exFlo) k 0) ∧
    Finite (atPos (fun _ => exFlo) k 0) ∧ ¬ IsZero (atPos (fun _ => exFlo) k 0) := by
  match k, hk with
  | 0, _ | 1, _ | 2, _ | 3, _ =>
    refine ⟨?_, ?_, ?_, ?_⟩ <;> simp only [atPos, exFlo, List.getD, List.getElem?_cons_zero, List.getElem?_cons_succ, Option.getD_some, NotNaN,
      MinusZero, Finite, IsZero] <;> decide +kernel

/-- x / 1 is x. -/
example : GiveSame ieeeEnv exFloMem (Calc.run .f32 ⟨DEVICE_CPU, 0⟩ [2, 2] (fun _ => Mem.empty.footT.h) (.bin .div (.arg 0) (.lit (num 1))))
    (Calc.run .f32 ⟨DEVICE_CPU, 0⟩ [2, 2] (fun _ => Mem.empty.footT.h) (.arg 0)) :=
  C64_neutral (a := .arg 0) .div ieee_machine (Mem.addT_wf Mem.empty_wf _) exFlo_given fun _ hk => ⟨_, rfl, (exFlo_ok hk).1, fun h => by cases h⟩

/-- 0 + x is x. -/
example : GiveSame ieeeEnv exFloMem (Calc.run .f32 ⟨DEVICE_CPU, 0⟩ [2, 2] (fun _ => Mem.empty.footT.h) (.bin .add (.lit (num 0)) (.arg 0)))
    (Calc.run .f32 ⟨DEVICE_CPU, 0⟩ [2, 2] (fun _ => Mem.empty.footT.h) (.arg 0)) :=
  C64_neutral_left (a := .arg 0) .add (.inl rfl) ieee_machine (Mem.addT_wf Mem.empty_wf _) exFlo_given
    fun _ hk => ⟨_, rfl, (exFlo_ok hk).1, fun _ => (exFlo_ok hk).2.1⟩

/-- x - x is 0 and x / x is 1. -/
example : GiveSame ieeeEnv exFloMem (Calc.run .f32 ⟨DEVICE_CPU, 0⟩ [2, 2] (fun _ => Mem.empty.footT.h) (.bin .sub (.arg 0) (.arg 0)))
      (Calc.run .f32 ⟨DEVICE_CPU, 0⟩ [2, 2] (fun _ => Mem.empty.footT.h) (.lit (num 0))) ∧
    GiveSame ieeeEnv exFloMem (Calc.run .f32 ⟨DEVICE_CPU, 0⟩ [2, 2] (fun _ => Mem.empty.footT.h) (.bin .div (.arg 0) (.arg 0)))
      (Calc.run .f32 ⟨DEVICE_CPU, 0⟩ [2, 2] (fun _ => Mem.empty.footT.h) (.lit (num 1))) :=
  ⟨C64_sub_self (a := .arg 0) ieee_machine (Mem.addT_wf Mem.empty_wf _) exFlo_given fun _ hk => ⟨_, rfl, (exFlo_ok hk).2.2.1⟩,
    C64_div_self (a := .arg 0) ieee_machine (Mem.addT_wf Mem.empty_wf _) exFlo_given fun _ hk => ⟨_, rfl, (exFlo_ok hk).2.2⟩⟩

/-- x * 2 is x + x (also where both are infinite) and x / 2 is x * 0.5 (also where both are rounded to 0). -/
example : GiveSame ieeeEnv exFloMem (Calc.run .f32 ⟨DEVICE_CPU, 0⟩ [2, 2] (fun _ => Mem.empty.footT.h) (.bin .mul (.arg 0) (.lit (num 2))))
      (Calc.run .f32 ⟨DEVICE_CPU, 0⟩ [2, 2] (fun _ => Mem.empty.footT.h) (.bin .add (.arg 0) (.arg 0))) ∧
    GiveSame ieeeEnv exFloMem (Calc.run .f32 ⟨DEVICE_CPU, 0⟩ [2, 2] (fun _ => Mem.empty.footT.h) (.bin .div (.arg 0) (.lit (num 2))))
      (Calc.run .f32 ⟨DEVICE_CPU, 0⟩ [2, 2] (fun _ => Mem.empty.footT.h) (.bin .mul (.arg 0) (.lit half))) :=
  ⟨C64_double (a := .arg 0) ieee_machine (Mem.addT_wf Mem.empty_wf _) exFlo_given fun k hk => by
      match k, hk with
      | 0, _ | 1, _ | 2, _ | 3, _ => exact ⟨_, _, _, rfl, rfl, rfl⟩,
    C64_halve (a := .arg 0) ieee_machine (Mem.addT_wf Mem.empty_wf _) exFlo_given (.inl rfl) fun _ _ => ⟨_, rfl⟩⟩

/-- Minus zero plus zero is plus zero: the hypothesis of `C64_neutral` is needed. -/
example : ieee.add32 0x80000000 0 = 0 := by decide +kernel

end Aitisa
