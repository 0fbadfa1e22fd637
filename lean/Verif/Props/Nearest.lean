import Verif.Proof.IeeeRoot
import Verif.Proof.IeeeMono
import Verif.Props.Math
import Verif.Props.Ieee

/-!
# C75: floating-point results are correctly rounded

On the usual machine (binary32 and binary64).
-/

namespace Aitisa

variable {E : Env} {m : Mem} {R R1 R2 : Foot} {T T1 T2 : TV} {c c' : Code} {xs ys : List Val}

/-! ## Elements -/

theorem op_rounded {op : BinOp} {x y z : Val} {a b e : Rat} (hx : x.WT c) (hy : y.WT c) (hc : c = .f32 ∨ c = .f64) (hz : OpResult ieee c op x y z)
    (ha : x.rat = some a) (hb : y.rat = some b) (he : RatOp op a b e) : RoundedTo e z := by
  rcases hc with rfl | rfl
  · cases x <;> simp only [Val.WT] at hx
    rename_i x
    cases y <;> simp only [Val.WT] at hy
    rename_i y
    simp only [OpResult] at hz
    subst hz
    have h1 := bits32 x
    have h2 := bits32 y
    cases op <;> simp only [RatOp] at he
    · subst he
      show b32.Rounded _ (BitVec.ofNat 32 (b32.add x.toNat y.toNat)).toNat
      rw [of32 (add_lt b32_ok _ _)]; exact add_rounded b32_ok h1 h2 ha hb
    · subst he
      show b32.Rounded _ (BitVec.ofNat 32 (b32.sub x.toNat y.toNat)).toNat
      rw [of32 (sub_lt b32_ok _ _)]; exact sub_rounded b32_ok h1 h2 ha hb
    · subst he
      show b32.Rounded _ (BitVec.ofNat 32 (b32.mul x.toNat y.toNat)).toNat
      rw [of32 (mul_lt b32_ok _ _)]; exact mul_rounded b32_ok h1 h2 ha hb
    · obtain ⟨h0, rfl⟩ := he
      show b32.Rounded _ (BitVec.ofNat 32 (b32.div x.toNat y.toNat)).toNat
      rw [of32 (div_lt b32_ok _ _)]; exact div_rounded b32_ok h1 h2 ha hb h0
  · cases x <;> simp only [Val.WT] at hx
    rename_i x
    cases y <;> simp only [Val.WT] at hy
    rename_i y
    simp only [OpResult] at hz
    subst hz
    have h1 := bits64 x
    have h2 := bits64 y
    cases op <;> simp only [RatOp] at he
    · subst he
      show b64.Rounded _ (BitVec.ofNat 64 (b64.add x.toNat y.toNat)).toNat
      rw [of64 (add_lt b64_ok _ _)]; exact add_rounded b64_ok h1 h2 ha hb
    · subst he
      show b64.Rounded _ (BitVec.ofNat 64 (b64.sub x.toNat y.toNat)).toNat
      rw [of64 (sub_lt b64_ok _ _)]; exact sub_rounded b64_ok h1 h2 ha hb
    · subst he
      show b64.Rounded _ (BitVec.ofNat 64 (b64.mul x.toNat y.toNat)).toNat
      rw [of64 (mul_lt b64_ok _ _)]; exact mul_rounded b64_ok h1 h2 ha hb
    · obtain ⟨h0, rfl⟩ := he
      show b64.Rounded _ (BitVec.ofNat 64 (b64.div x.toNat y.toNat)).toNat
      rw [of64 (div_lt b64_ok _ _)]; exact div_rounded b64_ok h1 h2 ha hb h0

theorem op_float {fp : FloatOps} {op : BinOp} {x y : Val} (hx : x.WT c) (hy : y.WT c) (hc : c = .f32 ∨ c = .f64) : ∃ z, OpResult fp c op x y z := by
  rcases hc with rfl | rfl <;> cases x <;> simp only [Val.WT] at hx <;> cases y <;> simp only [Val.WT] at hy <;> exact ⟨_, rfl⟩

theorem cast_rounded {x y : Val} {a : Rat} (hc : c' = .f32 ∨ c' = .f64) (hy : Converts ieee c' x y) (ha : x.rat = some a) : RoundedTo a y := by
  rcases hc with rfl | rfl
  · simp only [Converts] at hy
    subst hy
    cases x with
    | int n =>
      cases ha
      show b32.Rounded _ (BitVec.ofNat 32 (b32.ofInt n)).toNat
      rw [of32 (ofInt_lt b32_ok _)]; exact ofInt_rounded b32_ok n
    | f32 b => exact rounded_self b32_ok (bits32 b) ha
    | f64 b =>
      show b32.Rounded _ (BitVec.ofNat 32 (b64.convert b32 b.toNat)).toNat
      rw [of32 (convert_lt b32_ok _)]; exact convert_rounded b64_ok b32_ok (bits64 b) ha
  · simp only [Converts] at hy
    subst hy
    cases x with
    | int n =>
      cases ha
      show b64.Rounded _ (BitVec.ofNat 64 (b64.ofInt n)).toNat
      rw [of64 (ofInt_lt b64_ok _)]; exact ofInt_rounded b64_ok n
    | f32 b =>
      show b64.Rounded _ (BitVec.ofNat 64 (b32.convert b64 b.toNat)).toNat
      rw [of64 (convert_lt b64_ok _)]; exact convert_rounded b32_ok b64_ok (bits32 b) ha
    | f64 b => exact rounded_self b64_ok (bits64 b) ha

theorem root_rounded {x y : Val} {a : Rat} (hx : x.WT c) (hc : c = .f32 ∨ c = .f64) (hy : RootOf ieee c x y) (ha : x.rat = some a) (h0 : 0 ≤ a) :
    RootRoundedTo a y := by
  obtain ⟨d, hd, hy⟩ := hy
  rcases hc with rfl | rfl
  · cases x <;> simp only [Val.WT] at hx
    rename_i b
    simp only [Converts, Val.f64.injEq] at hd hy
    subst hd hy
    show b32.RootRounded a (BitVec.ofNat 32 (b64.convert b32 (BitVec.ofNat 64 (b64.sqrt (BitVec.ofNat 64 (b32.convert b64 b.toNat)).toNat)).toNat)).toNat
    rw [of32 (convert_lt b32_ok _), of64 (sqrt_lt b64_ok (bits64 _)), of64 (convert_lt b64_ok _)]
    exact sqrt_float_rounded (bits32 b) ha h0
  · cases x <;> simp only [Val.WT] at hx
    rename_i b
    simp only [Converts, Val.f64.injEq] at hd hy
    subst hd hy
    show b64.RootRounded a (BitVec.ofNat 64 (b64.sqrt d.toNat)).toNat
    rw [of64 (sqrt_lt b64_ok (bits64 _))]
    exact sqrt_rounded b64_ok (bits64 d) ha h0

theorem rat_not_negative {F : Fmt} (h : F.OK) {b : Nat} {q : Rat} (hb : b < 2 * F.signBit) (hq : F.rat b = some q) (h0 : 0 ≤ q) :
    F.lt b (F.ofInt 0) = false := by
  rw [rat_units h] at hq
  cases hu : F.units b with
  | none => rw [hu] at hq; simp at hq
  | some u =>
    rw [hu] at hq
    simp only [Option.map_some, Option.some.injEq] at hq
    have hU := low_pos F
    have hu0 : 0 ≤ u := by
      have : (0 : Rat) / (2 ^ F.low : Nat) ≤ (u : Rat) / (2 ^ F.low : Nat) := by rw [Rat.div_def 0, Rat.zero_mul, hq]; exact h0
      exact Rat.intCast_nonneg.1 ((div_le_div_iff hU).1 this)
    have hz : F.units 0 = some 0 := by have := units_zero h false; simpa [Fmt.signed] using this
    rw [ofInt_zero, lt_units h hb (by have := sign_pos h; omega) hu hz]
    simp; omega

theorem rounded_unique {F : Fmt} (h : F.OK) {b b' : Nat} {e : Rat} (hb : b < 2 * F.signBit) (hb' : b' < 2 * F.signBit) (h1 : F.Rounded e b)
    (h2 : F.Rounded e b') : F.rat b = F.rat b' := by
  by_cases hl : e.abs < F.limit
  · obtain ⟨q, hq, n1⟩ := h1.1 hl
    obtain ⟨w, hw, n2⟩ := h2.1 hl
    rw [hq, hw]
    obtain ⟨a1, a2⟩ := n1 b' w (by rw [two_sign h]; exact hb') hw
    obtain ⟨a3, a4⟩ := n2 b q (by rw [two_sign h]; exact hb) hq
    congr 1
    have ht : (e - q).abs = (e - w).abs := by grind
    by_cases hne : q = w
    · exact hne
    · exfalso
      have e1 := a2 ht (fun x => hne x.symm)
      have e2 := a4 ht.symm hne
      rcases (by grind : q < w ∨ q = w ∨ w < q) with hlt | heq | hgt
      · obtain ⟨k, v, hk, hv, v1, v2⟩ := rat_between h hb hb' hq hw e1 e2 hlt
        have := (n1 k v (by rw [two_sign h]; exact hk) hv).1
        grind [Rat.abs]
      · exact hne heq
      · obtain ⟨k, v, hk, hv, v1, v2⟩ := rat_between h hb' hb hw hq e2 e1 hgt
        have := (n1 k v (by rw [two_sign h]; exact hk) hv).1
        grind [Rat.abs]
  · by_cases h0 : 0 ≤ e
    · rw [h1.2.1 (by grind [Rat.abs]), h2.2.1 (by grind [Rat.abs])]
    · rw [h1.2.2 (by grind [Rat.abs]), h2.2.2 (by grind [Rat.abs])]

/-! ## Tensors -/

/-- C75, `aitisa_add`, `aitisa_sub`, `aitisa_mul`, `aitisa_div` on `float` and `double` tensors: where both elements are numbers (and
the divisor is not 0) the element of the output is the exact result, correctly rounded. -/
theorem C75_binary {op : BinOp} (hE : Machine E.fp) (wf : m.WF) (hc : c = .f32 ∨ c = .f64) (h1 : At m R1 T1) (he1 : Elems T1 c xs)
    (h2 : At m R2 T2) (he2 : Elems T2 c ys) (hd1 : T1.device.type = 0) (hd2 : T2.device.type = 0) (hd : T2.dims = T1.dims)
    (hi : prod T1.dims ≤ 2147483647) (out : Ptr) :
    ∃ zs, DeliversMalloc E (binaryOp op R1.h R2.h out) m out c T1.device T1.dims zs ∧ zs.length = xs.length ∧
      ∀ i (_ : i < xs.length) (_ : i < ys.length) (_ : i < zs.length) (a b e : Rat), xs[i].rat = some a → ys[i].rat = some b → RatOp op a b e →
        RoundedTo e zs[i] := by
  have l1 := he1.len
  have l2 := he2.len
  rw [hd] at l2
  have hex : ∀ i, ∃ z, ∀ (h1 : i < xs.length) (h2 : i < ys.length), OpResult ieee c op xs[i] ys[i] z := fun i => by
    by_cases hi : i < xs.length ∧ i < ys.length
    · obtain ⟨z, hz⟩ := op_float (fp := ieee) (op := op) (he1.wt _ (List.getElem_mem hi.1)) (he2.wt _ (List.getElem_mem hi.2)) hc
      exact ⟨z, fun _ _ => hz⟩
    · exact ⟨.int 0, fun a b => absurd ⟨a, b⟩ hi⟩
  obtain ⟨f, hf⟩ := Classical.axiomOfChoice hex
  have hz : ∀ i (_ : i < xs.length) (_ : i < ys.length) (_ : i < ((List.range xs.length).map f).length),
      OpResult E.fp c op xs[i] ys[i] ((List.range xs.length).map f)[i] := fun i a b d => by
    on_machine hE
    rw [List.getElem_map, List.getElem_range]; exact hf i a b
  refine ⟨(List.range xs.length).map f, C26_binary wf h1 he1 h2 he2 hd1 hd2 hd hi (by simp) hz out, by simp, ?_⟩
  intro i i1 i2 i3 a b e ha hb he
  have := hz i i1 i2 i3
  on_machine hE at this
  exact op_rounded (he1.wt _ (List.getElem_mem i1)) (he2.wt _ (List.getElem_mem i2)) hc this ha hb he

/-- C75, `aitisa_cast` to `float` or `double` from any element type: where the element is a number the element of the output is that
number, correctly rounded. -/
theorem C75_cast (hE : Machine E.fp) (wf : m.WF) (hc : c' = .f32 ∨ c' = .f64) (h : At m R T) (he : Elems T c xs) (hne : c ≠ c')
    (hs : ShapeOK T.dims c'.size) (out : Ptr) :
    ∃ ys, Delivers E (cast R.h c'.dtype out) m out c' T.device T.dims ys ∧ Pointwise (fun x y => ∀ a, x.rat = some a → RoundedTo a y) xs ys := by
  obtain ⟨ys, hd, hl, hp⟩ := C11_cast (E := E) wf h he hne hs (fun x hx => C11_total (.inr (by rcases hc with rfl | rfl <;> rfl)) (he.wt x hx)) out
  refine ⟨ys, hd, hl, fun i i1 i2 a ha => ?_⟩
  have := hp i i1 i2
  on_machine hE at this
  exact cast_rounded hc this ha

/-- C75, `aitisa_sqrt` on `float` and `double` tensors of numbers none of which is negative: every element of the output is the
square root, correctly rounded - also for `float`, where the root is computed in `double` and rounded twice. -/
theorem C75_sqrt (hE : Machine E.fp) (wf : m.WF) (hc : c = .f32 ∨ c = .f64) (h : At m R T) (he : Elems T c xs)
    (hx : ∀ x ∈ xs, ∃ a, x.rat = some a ∧ 0 ≤ a) (out : Ptr) :
    ∃ ys, Delivers E (sqrt R.h out) m out c T.device T.dims ys ∧ Pointwise (fun x y => ∀ a, x.rat = some a → RootRoundedTo a y) xs ys := by
  obtain ⟨ys, hd, hl, hp⟩ := C30_sqrt (E := E) wf h he (fun x hm => by
      obtain ⟨a, ha, h0⟩ := hx x hm
      have hw := he.wt x hm
      on_machine hE
      rcases hc with rfl | rfl
      · cases x <;> simp only [Val.WT] at hw
        rename_i b
        have := rat_not_negative b32_ok (bits32 b) ha h0
        show ¬ b32.lt b.toNat (BitVec.ofNat 32 (b32.ofInt 0)).toNat = true
        rw [of32 (ofInt_lt b32_ok _), this]; simp
      · cases x <;> simp only [Val.WT] at hw
        rename_i b
        have := rat_not_negative b64_ok (bits64 b) ha h0
        show ¬ b64.lt b.toNat (BitVec.ofNat 64 (b64.ofInt 0)).toNat = true
        rw [of64 (ofInt_lt b64_ok _), this]; simp)
    (fun x hm => by
      rcases hc with rfl | rfl <;> exact ⟨_, _, rfl, rfl⟩) out
  refine ⟨ys, hd, hl, fun i i1 i2 a ha => ?_⟩
  obtain ⟨a', ha', h0⟩ := hx xs[i] (List.getElem_mem _)
  rw [ha] at ha'
  cases ha'
  have := hp i i1 i2
  on_machine hE at this
  exact root_rounded (he.wt _ (List.getElem_mem i1)) hc this ha h0

/-- C75, what correct rounding is worth: a result within range differs from the exact one by at most one part in `2^24` (`float`) or
`2^53` (`double`), or by half of the smallest number. -/
theorem C75_error {e q : Rat} {z : Val} (hz : RoundedTo e z) (hq : z.rat = some q) :
    match z with
    | .int _ => q = e
    | .f32 _ => e.abs < b32.limit → 2 ^ 24 * (e - q).abs ≤ e.abs ∨ 2 * (e - q).abs ≤ 2 ^ (-149 : Int)
    | .f64 _ => e.abs < b64.limit → 2 ^ 53 * (e - q).abs ≤ e.abs ∨ 2 * (e - q).abs ≤ 2 ^ (-1074 : Int) := by
  cases z with
  | int n => cases hq; exact hz
  | f32 b => exact fun he => Fmt.Rounded.error b32_ok hz he hq
  | f64 b => exact fun he => Fmt.Rounded.error b64_ok hz he hq

/-- C75, correct rounding determines the result: two elements of one type that are the same exact result correctly rounded stand for the
same number (or both for none: the infinity with the sign of the result). -/
theorem C75_unique {e : Rat} {z z' : Val} (hz : z.WT c) (hz' : z'.WT c) (h : RoundedTo e z) (h' : RoundedTo e z') : z.rat = z'.rat := by
  cases c <;> cases z <;> simp only [Val.WT] at hz <;> cases z' <;> simp only [Val.WT] at hz'
  case f32.f32.f32 a b => exact rounded_unique b32_ok (bits32 a) (bits32 b) h h'
  case f64.f64.f64 a b => exact rounded_unique b64_ok (bits64 a) (bits64 b) h h'
  all_goals
    simp only [RoundedTo] at h h'
    simp only [Val.rat]
    rw [h, h']

/-! ## Examples -/

/-- 1 and 16777216 as `float`. -/
def exNear1 : TV := tvOf .f32 [2] [.f32 0x3F800000, .f32 0x4B800000]

/-- 3 and 1. -/
def exNear2 : TV := tvOf .f32 [2] [.f32 0x40400000, .f32 0x3F800000]

/-- 1/3 and 16777216/1. -/
example : ∃ zs, DeliversMalloc ieeeEnv (binaryOp .div Mem.empty.footT.h (Mem.empty.addT exNear1).footT.h .indet) ((Mem.empty.addT exNear1).addT exNear2) .indet .f32
    ⟨DEVICE_CPU, 0⟩ [2] zs ∧ zs.length = 2 ∧ ∀ h : 0 < zs.length, RoundedTo (1 / 3) zs[0] := by
  obtain ⟨zs, hd, hl, hr⟩ := C75_binary (E := ieeeEnv) (op := .div) (T1 := exNear1) (T2 := exNear2) ieee_machine
    (Mem.addT_wf (Mem.addT_wf Mem.empty_wf _) _) (.inl rfl) (addT_old (Mem.addT_wf Mem.empty_wf _) (tvOf_at _ (by simp) rfl ⟨by decide, by decide⟩) _)
    (tvOf_elems (xs := [.f32 0x3F800000, .f32 0x4B800000]) (by decide) rfl) (tvOf_at _ (by simp) rfl ⟨by decide, by decide⟩)
    (tvOf_elems (xs := [.f32 0x40400000, .f32 0x3F800000]) (by decide) rfl) rfl rfl rfl (by decide) .indet
  exact ⟨zs, hd, hl, fun h => hr 0 (by simp) (by simp) h 1 3 (1 / 3) (by decide +kernel) (by decide +kernel) ⟨by decide, rfl⟩⟩

/-- 1/3 is between two `float`s; the machine gives the nearer one, and the other is not the correctly rounded quotient. -/
example : ieee.div32 0x3F800000 0x40400000 = 0x3EAAAAAB ∧ (Val.f32 0x3EAAAAAB).rat = some (11184811 / 33554432) ∧
    ¬ RoundedTo (1 / 3) (.f32 0x3EAAAAAA) := by
  refine ⟨by decide +kernel, by decide +kernel, fun h => ?_⟩
  obtain ⟨q, hq, hn⟩ := h.1 (by decide +kernel)
  have hq' : b32.rat (0x3EAAAAAA : BitVec 32).toNat = some (11184810 / 33554432) := by decide +kernel
  rw [hq'] at hq
  cases hq
  have := (hn 0x3EAAAAAB (11184811 / 33554432) (by decide) (by decide +kernel)).1
  exact absurd this (by decide +kernel)

/-- 16777217 is half way between two `float`s: `int32_t` to `float` gives the one with the even last bit, 16777216, not 16777218. -/
example : RoundedTo 16777217 (.f32 0x4B800000) ∧ ¬ RoundedTo 16777217 (.f32 0x4B800001) := by
  have h1 : RoundedTo 16777217 (.f32 0x4B800000) :=
    cast_rounded (c' := .f32) (x := .int 16777217) (.inl rfl) (congrArg Val.f32 (show (0x4B800000 : BitVec 32) = ieee.ofInt32 16777217 by decide +kernel)) rfl
  refine ⟨h1, fun h2 => ?_⟩
  have := C75_unique (c := .f32) (by simp [Val.WT]) (by simp [Val.WT]) h1 h2
  exact absurd this (by decide +kernel)

/-- Above the largest `float`. -/
example : RoundedTo ((2 : Rat) ^ (128 : Int)) (.f32 0x7F800000) ∧ ¬ RoundedTo ((2 : Rat) ^ (128 : Int)) (.f32 0x7F7FFFFF) :=
  ⟨⟨fun h => absurd h (by decide +kernel), fun _ => by decide, fun h => absurd h (by decide +kernel)⟩,
    fun h => absurd (h.2.1 (by decide +kernel)) (by decide)⟩

/-- The root of 2 as `float`, and that the neighbours are not. -/
example : RootRoundedTo 2 (.f32 0x3FB504F3) ∧ ¬ RootRoundedTo 2 (.f32 0x3FB504F4) := by
  have hr : RootOf ieee .f32 (.f32 0x40000000) (.f32 0x3FB504F3) := ⟨_, rfl, congrArg Val.f32 (show (0x3FB504F3 : BitVec 32) = ieee.narrow (ieee.sqrt64 (ieee.widen 0x40000000)) by decide +kernel)⟩
  refine ⟨root_rounded (c := .f32) (by simp [Val.WT]) (.inl rfl) hr (by decide +kernel) (by decide), fun ⟨q, hq, h0, hn⟩ => ?_⟩
  have hq' : b32.rat (0x3FB504F4 : BitVec 32).toNat = some (11863284 / 8388608) := by decide +kernel
  rw [hq'] at hq
  cases hq
  have := ((hn 0x3FB504F3 (11863283 / 8388608) (by decide) (by decide +kernel) (by decide +kernel)).2 (by decide +kernel)).1
  exact absurd this (by decide +kernel)

/-- 2 and 0.25 as `float`. -/
def exNear3 : TV := tvOf .f32 [2] [.f32 0x40000000, .f32 0x3E800000]

example : ∃ ys, Delivers ieeeEnv (sqrt Mem.empty.footT.h .indet) (Mem.empty.addT exNear3) .indet .f32 ⟨DEVICE_CPU, 0⟩ [2] ys ∧
    Pointwise (fun (x y : Val) => ∀ a, x.rat = some a → RootRoundedTo a y) [.f32 0x40000000, .f32 0x3E800000] ys :=
  C75_sqrt (E := ieeeEnv) (T := exNear3) ieee_machine (Mem.addT_wf Mem.empty_wf _) (.inl rfl) (tvOf_at _ (by simp) rfl ⟨by decide, by decide⟩)
    (tvOf_elems (by decide) rfl) (by
      intro x hx
      simp only [List.mem_cons, List.not_mem_nil, or_false] at hx
      rcases hx with rfl | rfl
      · exact ⟨2, by decide +kernel, by decide⟩
      · exact ⟨1 / 4, by decide +kernel, by decide +kernel⟩) _

/-- 16777217 and -5 as `int32_t`. -/
def exNear4 : TV := tvOf .i32 [2] [.int 16777217, .int (-5)]

example : ∃ ys, Delivers ieeeEnv (cast Mem.empty.footT.h Code.f32.dtype .indet) (Mem.empty.addT exNear4) .indet .f32 ⟨DEVICE_CPU, 0⟩ [2] ys ∧
    Pointwise (fun (x y : Val) => ∀ a, x.rat = some a → RoundedTo a y) [.int 16777217, .int (-5)] ys :=
  C75_cast (E := ieeeEnv) (T := exNear4) (c' := .f32) ieee_machine (Mem.addT_wf Mem.empty_wf _) (.inl rfl) (tvOf_at _ (by simp) rfl ⟨by decide, by decide⟩)
    (tvOf_elems (c := .i32) (by decide) rfl) (by decide) ⟨by decide, by decide⟩ _

end Aitisa
