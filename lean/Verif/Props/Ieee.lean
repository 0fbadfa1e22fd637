import Verif.Proof.IeeeSqrt
import Verif.Props.Exact

/-!
# Properties C57, C58: consequences of IEEE arithmetic, square roots of whole numbers
-/

namespace Aitisa

variable {E : Env} {m m1 m2 : Mem} {R R1 R2 : Foot} {T T1 T2 : TV} {c : Code} {xs ys zs : List Val} {A B : List Nat → Int}
  {ws : List Win} {fuel : Nat}

/-! ## C57 -/

/-- C57, relu: numbers above 0 and plus infinity stay, everything else - negative numbers, minus infinity, both zeros and every NaN -
becomes +0. -/
theorem C57_relu (hE : Machine E.fp) (wf : m.WF) (h : At m R T) (he : Elems T c xs) (out : Ptr) :
    Delivers E (relu R.h out) m out c T.device T.dims (xs.map fun x => if Positive x then x else zeroLike x) := by
  obtain ⟨ys, hd, hl, hp⟩ := C35_relu (E := E) wf h he out
  have : ys = xs.map fun x => if Positive x then x else zeroLike x := by
    apply List.ext_getElem
    · simpa using hl.symm
    · intro i h1 h2
      have := hp i (by omega) h1
      on_machine hE at this
      rw [clamp_iff] at this
      rw [this, List.getElem_map]
  rwa [← this]

/-- C57, no NaN comes out of relu, whatever goes in. -/
theorem C57_relu_no_nan (x : Val) : NotNaN (if Positive x then x else zeroLike x) := by
  by_cases h : Positive x
  · rw [if_pos h]; exact positive_not_nan h
  · rw [if_neg h]
    cases x <;> simp [zeroLike, NotNaN, Fmt.isNaN, Nat.zero_mod]

/-- A NaN, -0, -infinity, 1 and infinity. -/
example : ∃ ys, ys = [.f32 0, .f32 0, .f32 0, .f32 0x3F800000, .f32 0x7F800000] ∧
    Delivers ieeeEnv (relu exH1.h .indet) (Mem.empty.addT (tvOf .f32 [5] [.f32 0x7FC00000, .f32 0x80000000, .f32 0xFF800000, .f32 0x3F800000, .f32 0x7F800000]))
      .indet .f32 ⟨DEVICE_CPU, 0⟩ [5] ys := by
  refine ⟨_, ?_, C57_relu (T := tvOf .f32 [5] [.f32 0x7FC00000, .f32 0x80000000, .f32 0xFF800000, .f32 0x3F800000, .f32 0x7F800000]) ieee_machine
    (Mem.addT_wf Mem.empty_wf _) (tvOf_at _ (by simp) rfl ⟨by decide, by decide⟩) (tvOf_elems (by decide) rfl) _⟩
  decide

/-- C57, addition and multiplication commute, whatever the element type (C29 without its assumption). -/
theorem C57_commutes {op : BinOp} (hop : op = .add ∨ op = .mul) (hE : Machine E.fp) (nf : E.NoFail) (mf : E.MallocOK) (wf : m.WF)
    (h1 : At m R1 T1) (he1 : Elems T1 c xs) (h2 : At m R2 T2) (he2 : Elems T2 c ys) (out : Ptr) {t1 t2 : Ptr}
    (r1 : binaryOp op R1.h R2.h out E m = .ok (.success, t1) m1) (r2 : binaryOp op R2.h R1.h out E m = .ok (.success, t2) m2) :
    ∃ Q1 Q2 U1 U2, t1 = Q1.h ∧ t2 = Q2.h ∧ Produces m m1 Q1 U1 ∧ Produces m m2 Q2 U2 ∧
      U1.dtype = U2.dtype ∧ U1.dims = U2.dims ∧ U1.bytes = U2.bytes :=
  C29_equal_results nf mf wf (by on_machine hE; exact ieee_commutes c op hop) h1 he1 h2 he2 out r1 r2

/-- C57, the scalar in a call of `dot`, unless it is a NaN or of a 64-bit integer type, is not changed on its way through `double`
(what is missing in C34 for these types). -/
theorem C57_dot_scalar {s : Val} (hE : Machine E.fp) (wf : m.WF) (h1 : At m R1 T1) (he1 : Elems T1 c [s]) (h2 : At m R2 T2) (he2 : Elems T2 c ys)
    (c1 : T1.device.type = DEVICE_CPU) (c2 : T2.device.type = DEVICE_CPU) (s1 : T1.dims = []) (hc : c ≠ .i64 ∧ c ≠ .u64) (hn : NotNaN s)
    (hi : prod T2.dims ≤ 2147483647) (hzl : zs.length = ys.length)
    (hz : ∀ i (_ : i < ys.length) (_ : i < zs.length), OpResult E.fp c .mul s ys[i] zs[i]) (out : Ptr) :
    DeliversMalloc E (dot R1.h R2.h out) m out c T1.device T2.dims zs :=
  C34_scalar_left_partial wf h1 he1 h2 he2 c1 c2 rfl s1 (by on_machine hE; exact through_double (he1.wt s (by simp)) hc hn) hi hzl hz out

/-- The value that C34 says is wrong, on the usual machine. -/
example : ieee.trunc64 (ieee.ofInt64 9007199254740993) = some 9007199254740992 := by decide +kernel

/-- 7.5 times 2.0. -/
example : DeliversMalloc ieeeEnv (dot (Mem.empty.addT (tvOf .f32 [1] [.f32 0x40000000])).footS.h exH1.h .indet)
    ((Mem.empty.addT (tvOf .f32 [1] [.f32 0x40000000])).addS Code.f32.dtype ⟨DEVICE_CPU, 0⟩ (encAll .f32 [.f32 0x40F00000])) .indet .f32
    ⟨DEVICE_CPU, 0⟩ [1] [.f32 0x41700000] :=
  C57_dot_scalar (T1 := ⟨Code.f32.dtype, ⟨DEVICE_CPU, 0⟩, [], encAll .f32 [.f32 0x40F00000]⟩) (T2 := tvOf .f32 [1] [.f32 0x40000000])
    (s := .f32 0x40F00000) (c := .f32) (ys := [.f32 0x40000000]) (zs := [.f32 0x41700000]) ieee_machine
    (Mem.addS_wf (Mem.addT_wf Mem.empty_wf _) _ _ _) (addS_at _ _ _ _ rfl (by decide)) ⟨rfl, rfl, by decide, rfl⟩
    ((tvOf_at _ (by simp) rfl ⟨by decide, by decide⟩).frame (Mem.addT_wf Mem.empty_wf _) ((((Ext.refl (Mem.addT_wf Mem.empty_wf _)).push _).push _).push _).toFrame)
    (tvOf_elems (by decide) rfl) rfl rfl rfl (by decide) (by decide) (by decide) rfl
    (by
      intro i h1 h2
      obtain rfl : i = 0 := by simp at h1; omega
      have : ieee.mul32 0x40F00000 0x40000000 = 0x41700000 := by decide +kernel
      exact congrArg Val.f32 this.symm) _

/-- The scan of max pooling skips NaNs. -/
theorem scan_skips : ∀ {es : List Val} {t r : BitVec 64}, ScansTo ieee t es r → ScansTo ieee t (es.filter fun e => decide (NotNaN e)) r
  | [], _, _, h => h
  | e :: es, t, r, ⟨d, hd, h⟩ => by
    by_cases hn : NotNaN e
    · rw [List.filter_cons_of_pos (by simpa using hn)]
      exact ⟨d, hd, scan_skips h⟩
    · rw [List.filter_cons_of_neg (by simpa using hn)]
      rw [nan_double hn hd] at h
      exact scan_skips h

/-- C57, a window of max pooling, of every type but the 64-bit integers: if it has an element above 0, the result is such an element
that no other element exceeds, NaNs being skipped; otherwise the result is 0. -/
theorem C57_window {es : List Val} {y : Val} (hw : ∀ e ∈ es, e.WT c) (hc : c ≠ .i64 ∧ c ≠ .u64) (hy : ScanOf ieee c es y) :
    ((∃ e ∈ es, Positive e) → MaxOf ieee es y ∧ Positive y) ∧ ((∀ e ∈ es, ¬ Positive e) → y = zeroVal c) := by
  constructor
  · rintro ⟨e0, he0, hpos⟩
    obtain ⟨r, hr, hcv⟩ := hy
    have hd : ∀ e : Val, ∃ d, Converts ieee .f64 e (.f64 d) := fun e => by cases e <;> exact ⟨_, rfl⟩
    have hin : ∀ e ∈ es.filter (fun e => decide (NotNaN e)), e ∈ es ∧ NotNaN e := fun e he => by simpa using List.mem_filter.1 he
    have hsub : ∀ e ∈ es, NotNaN e → e ∈ es.filter fun e => decide (NotNaN e) := fun e he hn => List.mem_filter.2 ⟨he, by simpa using hn⟩
    have h0 : b64.isNaN (ieee.ofInt64 0).toNat = false := by simp [ieee, ofInt_zero, Fmt.isNaN]
    have hord : Ordered ieee (ieee.ofInt64 0 :: (es.filter fun e => decide (NotNaN e)).map fun e => Classical.choose (hd e)) := by
      apply ieee_ordered
      intro d hdm
      rcases List.mem_cons.1 hdm with rfl | hdm
      · exact h0
      · obtain ⟨e, he, rfl⟩ := List.mem_map.1 hdm
        exact to_double_not_nan (hin e he).2 (Classical.choose_spec (hd e))
    obtain ⟨e, hm, ht⟩ := C39_window_partial (c := c) hord
      (fun e he => ⟨_, List.mem_map_of_mem (f := fun e => Classical.choose (hd e)) he, Classical.choose_spec (hd e)⟩)
      ⟨e0, hsub e0 he0 (positive_not_nan hpos), (hd e0).choose, (hd e0).choose_spec, (pos_double (hd e0).choose_spec).2 hpos⟩
      ⟨r, scan_skips hr, hcv⟩
    obtain ⟨hes, hen⟩ := hin e hm.1
    have hye : y = e := by
      obtain ⟨d1, hd1, h1⟩ := ht
      obtain ⟨d2, hd2, h2⟩ := through_double (hw e hes) hc hen
      rw [converts_f64] at hd1 hd2
      rw [hd1] at h1
      rw [hd2] at h2
      rw [converts_iff] at h1 h2
      rw [h1] at h2
      cases h2
      rfl
    subst hye
    refine ⟨⟨hes, fun e' he' d d' hcd hcd' => ?_⟩, ?_⟩
    · by_cases hn : NotNaN e'
      · exact hm.2 e' (hsub e' he' hn) d d' hcd hcd'
      · exact nan_double hn hcd' d
    · obtain ⟨d, hcd⟩ := hd y
      obtain ⟨d0, hcd0⟩ := hd e0
      have hle := hm.2 e0 (hsub e0 he0 (positive_not_nan hpos)) d d0 hcd hcd0
      apply Classical.byContradiction
      intro hnp
      have h1 : ieee.lt64 (ieee.ofInt64 0) d = false := Bool.eq_false_iff.2 (mt (pos_double hcd).1 hnp)
      have h2 : ieee.lt64 (ieee.ofInt64 0) d0 = true := (pos_double hcd0).2 hpos
      have hord' : Ordered ieee [ieee.ofInt64 0, d, d0] := ieee_ordered (by
        intro x hx
        simp only [List.mem_cons, List.not_mem_nil, or_false] at hx
        rcases hx with rfl | rfl | rfl
        · exact h0
        · exact to_double_not_nan hen hcd
        · exact to_double_not_nan (positive_not_nan hpos) hcd0)
      rw [hord'.trans _ (by simp) _ (by simp) _ (by simp) h1 hle] at h2
      cases h2
  · intro hnone
    have h1 := C39_nonpositive_violated (fp := ieee) (c := c) (fun e he d hd => Bool.eq_false_iff.2 (mt (pos_double hd).1 (hnone e he))) hy
    have hz : Converts ieee c (.f64 (ieee.ofInt64 0)) (zeroVal c) := zeroVal_of c
    rw [converts_iff] at h1 hz
    rw [h1] at hz
    cases hz
    rfl

/-- The result of the scan is 0 or an element. -/
theorem scan_origin : ∀ {es : List Val} {t r : BitVec 64}, ScansTo ieee t es r → r = t ∨ ∃ e ∈ es, NotNaN e ∧ Converts ieee .f64 e (.f64 r)
  | [], _, _, h => .inl h
  | e :: es, t, r, ⟨d, hd, h⟩ => by
    rcases scan_origin h with h' | ⟨e', he', h'⟩
    · by_cases hlt : ieee.lt64 t d = true
      · rw [if_pos hlt] at h'
        by_cases hn : NotNaN e
        · exact .inr ⟨e, by simp, hn, by rw [h']; exact hd⟩
        · rw [nan_double hn hd] at hlt; cases hlt
      · rw [if_neg hlt] at h'; exact .inl h'
    · exact .inr ⟨e', by simp [he'], h'⟩

theorem scan_total : ∀ (es : List Val) (t : BitVec 64), ∃ r, ScansTo ieee t es r
  | [], t => ⟨t, rfl⟩
  | e :: es, t => by
    obtain ⟨d, hd⟩ : ∃ d, Converts ieee .f64 e (.f64 d) := by cases e <;> exact ⟨_, rfl⟩
    obtain ⟨r, hr⟩ := scan_total es (if ieee.lt64 t d then d else t)
    exact ⟨r, d, hd, hr⟩

/-- C57, max pooling is defined on all data of these types. -/
theorem C57_window_defined {es : List Val} (hw : ∀ e ∈ es, e.WT c) (hc : c ≠ .i64 ∧ c ≠ .u64) : ∃ y, ScanOf ieee c es y := by
  obtain ⟨r, hr⟩ := scan_total es (ieee.ofInt64 0)
  rcases scan_origin hr with h | ⟨e, he, hn, hd⟩
  · exact ⟨zeroVal c, r, hr, by rw [h]; exact zeroVal_of c⟩
  · obtain ⟨d, hd', h2⟩ := through_double (hw e he) hc hn
    rw [converts_f64] at hd hd'
    exact ⟨e, r, hr, by rw [hd, ← hd']; exact h2⟩

/-- C57, max pooling (C38 and the last theorem put together). -/
theorem C57_max_pooling {B' C : Nat} (hE : Machine E.fp) (wf : m.WF) (h1 : At m R T) (he : Elems T c xs) (hs : T.dims = B' :: C :: ws.map Win.x)
    (hc : c ≠ .i64 ∧ c ≠ .u64) (hw : 1 ≤ ws.length) (hw' : ws.length ≤ 3) (h : ∀ w ∈ ws, w.Fits ∧ w.Small)
    (hso : ShapeOK (B' :: C :: ws.map Win.out) c.size)
    (hi : prod (ws.map Win.out) ≤ 2147483647) (hK : prod (ws.map Win.k) ≤ 9223372036854775807)
    (hf : prod (ws.map Win.k) ≤ fuel) (hf' : prod (ws.map Win.out) ≤ fuel) (out : Ptr) :
    ∃ zs : List Val, Attempts E (pooling fuel R.h "max" (dimsCells (ws.map Win.k)) (dimsCells (ws.map Win.s)) (dimsCells (ws.map Win.p))
      (dimsCells (ws.map Win.d)) out) m ⟨c.dtype, T.device, B' :: C :: ws.map Win.out, encAll c zs⟩ ∧
      ∀ b ch os, InRange (B' :: C :: ws.map Win.out) (b :: ch :: os) →
        ((∃ e ∈ winElems T.dims xs ws b ch os, Positive e) →
          MaxOf ieee (winElems T.dims xs ws b ch os) (elemAt (B' :: C :: ws.map Win.out) zs (b :: ch :: os)) ∧
          Positive (elemAt (B' :: C :: ws.map Win.out) zs (b :: ch :: os))) ∧
        ((∀ e ∈ winElems T.dims xs ws b ch os, ¬ Positive e) → elemAt (B' :: C :: ws.map Win.out) zs (b :: ch :: os) = zeroVal c) := by
  have hwt : ∀ b ch os, InRange (B' :: C :: ws.map Win.out) (b :: ch :: os) → ∀ e ∈ winElems T.dims xs ws b ch os, e.WT c := by
    intro b ch os hio e hm
    simp only [winElems, List.mem_range, List.mem_filterMap, Option.map_eq_some_iff] at hm
    obtain ⟨j, hj, cs, hcs, rfl⟩ := hm
    have hlen : ws.length = os.length := by have := hio.2.2.length; simpa using this.symm
    exact elemAt_WT he rfl (by rw [hs]; exact ⟨hio.1, hio.2.1, winAt_inRange hlen (by rw [unlin_length]; simp) hcs⟩)
  obtain ⟨zs, hl, hz⟩ := exists_elems (ds := B' :: C :: ws.map Win.out) (P := fun x w => ∀ b ch os, x = b :: ch :: os →
      ScanOf E.fp c (winElems T.dims xs ws b ch os) w) (fun x hx => by
    match x, hx with
    | b :: ch :: os, hio =>
      obtain ⟨w, hw⟩ := C57_window_defined (hwt b ch os hio) hc
      refine ⟨w, ?_⟩
      rintro _ _ _ ⟨⟩
      on_machine hE; exact hw)
  refine ⟨zs, C38_max wf h1 he hs hw hw' h hso hi hK hf hf' hl (fun b ch os hio => hz _ hio b ch os rfl) out, fun b ch os hio => ?_⟩
  have := hz _ hio b ch os rfl
  on_machine hE at this
  exact C57_window (hwt b ch os hio) hc this

/-- NaN, 2 | -1, -0 in windows of 2. -/
example : ∃ zs : List Val, Attempts ieeeEnv (pooling 10 exH1.h "max" (dimsCells [2]) (dimsCells [2]) (dimsCells [0]) (dimsCells [1]) .indet)
      (Mem.empty.addT (tvOf .f32 [1, 1, 4] [.f32 0x7FC00000, .f32 0x40000000, .f32 0xBF800000, .f32 0x80000000]))
      ⟨Code.f32.dtype, ⟨DEVICE_CPU, 0⟩, [1, 1, 2], encAll .f32 zs⟩ ∧
      (MaxOf ieee [.f32 0x7FC00000, .f32 0x40000000] (elemAt [1, 1, 2] zs [0, 0, 0]) ∧ Positive (elemAt [1, 1, 2] zs [0, 0, 0])) ∧
      elemAt [1, 1, 2] zs [0, 0, 1] = .f32 0 := by
  obtain ⟨zs, h1, h2⟩ := C57_max_pooling (E := ieeeEnv) (T := tvOf .f32 [1, 1, 4] [.f32 0x7FC00000, .f32 0x40000000, .f32 0xBF800000, .f32 0x80000000]) (c := .f32)
    (xs := [.f32 0x7FC00000, .f32 0x40000000, .f32 0xBF800000, .f32 0x80000000]) (fuel := 10)
    (ws := [⟨4, 2, 2, 0, 1⟩]) (B' := 1) (C := 1) ieee_machine (Mem.addT_wf Mem.empty_wf _)
    (tvOf_at _ (by simp) rfl ⟨by decide, by decide⟩) (tvOf_elems (by decide) rfl) rfl (by decide) (by simp) (by simp) (by
      intro w hw
      simp only [List.mem_singleton] at hw
      subst hw
      exact ⟨⟨by decide, by decide, by decide, by decide⟩, ⟨by decide, by decide, by decide⟩⟩)
    ⟨by decide, by decide⟩ (by decide) (by decide) (by decide) (by decide) .indet
  exact ⟨zs, h1, (h2 0 0 [0] ⟨by decide, by decide, by decide, trivial⟩).1 ⟨.f32 0x40000000, by decide, by decide⟩,
    (h2 0 0 [1] ⟨by decide, by decide, by decide, trivial⟩).2 (by decide)⟩

/-! ## C58 -/

/-- A whole number below `2^52 + 2^27`: `sqrt` rounded down is the root rounded down. -/
theorem root_floor {n : Int} (h0 : 0 ≤ n) (hn : n < 4503599761588224) :
    ∃ r : Int, 0 ≤ r ∧ r * r ≤ n ∧ n < (r + 1) * (r + 1) ∧ ieee.trunc64 (ieee.sqrt64 (ieee.ofInt64 n)) = some r := by
  obtain ⟨k, rfl⟩ : ∃ k : Nat, n = k := ⟨n.toNat, by omega⟩
  obtain ⟨s, h1, h2⟩ : ∃ s, s * s ≤ k ∧ k < (s + 1) * (s + 1) := by
    by_cases hk : k = 0
    · exact ⟨0, by omega, by omega⟩
    · obtain ⟨r, -, h1, h2⟩ := isqrt_spec hk; exact ⟨r, h1, h2⟩
  refine ⟨s, by omega, by exact_mod_cast h1, by exact_mod_cast h2, ?_⟩
  have ha : b64.IsInt (b64.ofInt k) k := ofInt_int b64_ok (within64.1 ⟨by omega, by omega⟩)
  have hb : b64.ofInt k < 2 ^ 64 := ofInt_lt b64_ok _
  have hs : s ≤ 2 ^ 26 := by
    rcases Nat.lt_or_ge (2 ^ 26) s with h | h
    · have := Nat.mul_le_mul (show 67108865 ≤ s from h) (show 67108865 ≤ s from h)
      omega
    · exact h
  show b64.trunc (BitVec.ofNat 64 (b64.sqrt (BitVec.ofNat 64 (b64.ofInt k)).toNat)).toNat = some (s : Int)
  rw [of64 hb]
  have hq : b64.sqrt (b64.ofInt k) < 2 ^ 64 := sqrt_lt b64_ok hb
  rw [of64 hq]
  rcases Nat.lt_or_ge s (2 ^ 26) with h | h
  · exact sqrt_floor (g := 1) ha (by omega) h1 h2 (by omega) (by omega)
  · have : s = 67108864 := by omega
    subst this
    exact sqrt_floor (g := 2) ha (by omega) h1 (by omega) (by omega) (by omega)

theorem not_negative {x : Val} {n : Int} (h : Stands x n) (hn : 0 ≤ n) : ¬ Negative ieee x := by
  cases x with
  | int k => simp only [Stands, Negative] at *; omega
  | f32 b =>
    have h0 : (ieee.ofInt32 0).toNat = 0 := by simp [ieee, ofInt_zero]
    have : b32.lt b.toNat (ieee.ofInt32 0).toNat = decide (n < 0) := by
      rw [h0]; exact lt_int b32_ok (bits32 b) (by have := sign_pos b32_ok; omega) h (isInt_zero b32_ok)
    intro hneg
    simp only [Negative] at hneg
    rw [show ieee.lt32 b (ieee.ofInt32 0) = _ from this] at hneg
    simp at hneg; omega
  | f64 b =>
    have h0 : (ieee.ofInt64 0).toNat = 0 := by simp [ieee, ofInt_zero]
    have : b64.lt b.toNat (ieee.ofInt64 0).toNat = decide (n < 0) := by
      rw [h0]; exact lt_int b64_ok (bits64 b) (by have := sign_pos b64_ok; omega) h (isInt_zero b64_ok)
    intro hneg
    simp only [Negative] at hneg
    rw [show ieee.lt64 b (ieee.ofInt64 0) = _ from this] at hneg
    simp at hneg; omega

/-- C58, tensors of an integer type: the root of every element from 0 up to `2^52 + 2^27 - 1` is rounded down, without error. -/
theorem C58_floor (hE : Machine E.fp) (wf : m.WF) (h : At m R T) (he : Elems T c xs) (hc : c.isInt = true)
    (hx : ∀ n, .int n ∈ xs → 0 ≤ n ∧ n < 4503599761588224) (out : Ptr) :
    ∃ ys, Delivers E (sqrt R.h out) m out c T.device T.dims ys ∧
      Pointwise (fun x y => ∃ n r, x = .int n ∧ y = .int r ∧ 0 ≤ r ∧ r * r ≤ n ∧ n < (r + 1) * (r + 1)) xs ys := by
  have hint : ∀ x ∈ xs, ∃ n, x = .int n ∧ 0 ≤ n ∧ n < 4503599761588224 ∧ ∃ lo hi, intRange c = some (lo, hi) ∧ lo ≤ 0 ∧ n ≤ hi := by
    intro x hm
    have hw := he.wt x hm
    cases x with
    | int n =>
      refine ⟨n, rfl, (hx n hm).1, (hx n hm).2, ?_⟩
      cases c <;> first
        | exact absurd hc (by decide)
        | exact ⟨_, _, rfl, by decide, by simp [Val.WT, Code.lo, Code.hi, Code.signed, Code.size] at hw; omega⟩
    | f32 b => cases c <;> simp_all [Val.WT, Code.isInt]
    | f64 b => cases c <;> simp_all [Val.WT, Code.isInt]
  have hroot : ∀ x ∈ xs, ∃ y, RootOf E.fp c x y ∧ ∃ n r, x = .int n ∧ y = .int r ∧ 0 ≤ r ∧ r * r ≤ n ∧ n < (r + 1) * (r + 1) := by
    intro x hm
    obtain ⟨n, rfl, h0, hn, lo, hi, hr, hlo, hhi⟩ := hint x hm
    obtain ⟨r, r0, r1, r2, ht⟩ := root_floor h0 hn
    refine ⟨.int r, ⟨_, rfl, ?_⟩, n, r, rfl, rfl, r0, r1, r2⟩
    have hrn : r ≤ n := by
      rcases Int.lt_or_le r 1 with h' | h'
      · omega
      · have := Int.mul_le_mul_of_nonneg_right h' r0; omega
    on_machine hE
    cases c <;> first
      | exact absurd hc (by decide)
      | exact ⟨r, rfl, ht, lo, hi, hr, by omega, by omega⟩
  obtain ⟨ys, hd, hl, hp⟩ := C30_sqrt (E := E) wf h he
    (fun x hm => by
      obtain ⟨n, rfl, h0, -⟩ := hint x hm
      simp only [Negative]; omega)
    (fun x hm => (hroot x hm).imp fun _ h => h.1) out
  refine ⟨ys, hd, hl, fun i h1 h2 => ?_⟩
  obtain ⟨y, hy, hyy⟩ := hroot xs[i] (List.getElem_mem _)
  have : ys[i] = y := by
    have h3 := rootOf_iff.1 (hp i h1 h2)
    have h4 := rootOf_iff.1 hy
    rw [h3] at h4
    injection h4
  rw [this]; exact hyy

/-- C58, squares of whole numbers, of any type: the root is exact. -/
theorem C58_square (hE : Machine E.fp) (wf : m.WF) (h : At m R T) (he : Elems T c xs) (n1 : Numbers T.dims xs fun cs => B cs * B cs)
    (hB : ∀ cs, InRange T.dims cs → 0 ≤ B cs ∧ Within .f64 (B cs * B cs) ∧ Within c (B cs)) (out : Ptr) :
    ∃ ys, Delivers E (sqrt R.h out) m out c T.device T.dims ys ∧ Numbers T.dims ys B := by
  have l1 := he.len
  have hel : ∀ i (hi : i < xs.length), ∃ cs, InRange T.dims cs ∧ lin T.dims cs = i ∧ Stands xs[i] (B cs * B cs) := by
    intro i hi
    refine ⟨unlin T.dims i, unlin_inRange (by omega), lin_unlin (by omega), ?_⟩
    have := n1 _ (unlin_inRange (by omega : i < prod T.dims))
    simpa [elemAt, lin_unlin (by omega : i < prod T.dims), hi] using this
  have hroot : ∀ i (hi : i < xs.length), ∃ cs y, lin T.dims cs = i ∧ InRange T.dims cs ∧ RootOf ieee c xs[i] y ∧ Stands y (B cs) := by
    intro i hi
    obtain ⟨cs, hcs, hli, hst⟩ := hel i hi
    obtain ⟨b0, bw, bc⟩ := hB cs hcs
    obtain ⟨d, hd, hds⟩ := converts_exact (c' := .f64) (he.wt _ (List.getElem_mem hi)) hst bw
    obtain ⟨a, rfl⟩ : ∃ a, d = .f64 a := ⟨_, hd⟩
    obtain ⟨k, hk⟩ : ∃ k : Nat, B cs = k := ⟨(B cs).toNat, by omega⟩
    have hsq : b64.IsInt (b64.sqrt a.toNat) k := by
      refine sqrt_square b64_ok ?_ ?_
      · have := hds; simp only [Stands, hk] at this; exact_mod_cast this
      · have := within64.1 bw; rw [hk, Int.natAbs_mul] at this; simpa using this
    have hst' : Stands (.f64 (ieee.sqrt64 a)) (B cs) := by
      rw [hk]
      show b64.IsInt (BitVec.ofNat 64 (b64.sqrt a.toNat)).toNat k
      rw [of64 (sqrt_lt b64_ok (bits64 a))]
      exact hsq
    obtain ⟨y, hy, hys⟩ := converts_exact (c := .f64) (c' := c) (by trivial) hst' bc
    exact ⟨cs, y, hli, hcs, ⟨a, hd, hy⟩, hys⟩
  obtain ⟨ys, hd, hl, hp⟩ := C30_sqrt (E := E) wf h he
    (fun x hm => by
      obtain ⟨i, hi, rfl⟩ := List.getElem_of_mem hm
      obtain ⟨cs, hcs, -, hst⟩ := hel i hi
      on_machine hE
      exact not_negative hst (Int.mul_nonneg (hB cs hcs).1 (hB cs hcs).1))
    (fun x hm => by
      obtain ⟨i, hi, rfl⟩ := List.getElem_of_mem hm
      obtain ⟨cs, y, -, -, hy, -⟩ := hroot i hi
      exact ⟨y, by on_machine hE; exact hy⟩) out
  refine ⟨ys, hd, fun cs hc => ?_⟩
  have hlt := lin_lt hc
  obtain ⟨cs', y, hli, hcs', hy, hst⟩ := hroot (lin T.dims cs) (by omega)
  have hcc : cs' = cs := by rw [← unlin_lin hcs', hli, unlin_lin hc]
  subst hcc
  have h3 := hp (lin T.dims cs') (by omega) (by omega)
  on_machine hE at h3
  have h3 := rootOf_iff.1 h3
  have h4 := rootOf_iff.1 hy
  rw [h4] at h3
  injection h3 with h3
  have hi' : lin T.dims cs' < ys.length := by omega
  simp only [elemAt, List.getD, List.getElem?_eq_getElem hi', Option.getD_some]
  rw [← h3]; exact hst

/-- C58, violated: an `int64_t` tensor whose first element is `2^52 + 2^27` gets a root whose square is larger than the element. -/
theorem C58_int64_violated (hE : Machine E.fp) (wf : m.WF) (h : At m R T) (he : Elems T .i64 [.int 4503599761588224]) (out : Ptr) :
    Delivers E (sqrt R.h out) m out .i64 T.device T.dims [.int 67108865] ∧ (67108865 : Int) * 67108865 > 4503599761588224 := by
  have hr : RootOf E.fp .i64 (.int 4503599761588224) (.int 67108865) := by
    on_machine hE
    have ht : ieee.trunc64 (ieee.sqrt64 (ieee.ofInt64 4503599761588224)) = some 67108865 := by decide +kernel
    exact ⟨_, rfl, 67108865, rfl, ht, _, _, rfl, by decide, by decide⟩
  obtain ⟨ys, hd, hl, hp⟩ := C30_sqrt (E := E) wf h he (fun x hm => by simp at hm; subst hm; simp [Negative])
    (fun x hm => by simp at hm; subst hm; exact ⟨_, hr⟩) out
  refine ⟨?_, by decide⟩
  match ys, hl with
  | [y], _ =>
    have h3 := rootOf_iff.1 (hp 0 (by simp) (by simp))
    have h4 := rootOf_iff.1 hr
    simp only [List.getElem_cons_zero] at h3
    rw [h4] at h3
    injection h3 with h3
    rw [h3]; exact hd

/-- Roots of `int32_t` numbers. -/
example : ∃ ys, Delivers ieeeEnv (sqrt exH1.h .indet) (wholeM .i32 [3] [0, 99, 2147483647] [1] [0]) .indet .i32 ⟨DEVICE_CPU, 0⟩ [3] ys ∧
    Pointwise (fun x y => ∃ n r, x = Val.int n ∧ y = Val.int r ∧ 0 ≤ r ∧ r * r ≤ n ∧ n < (r + 1) * (r + 1)) ([0, 99, 2147483647].map Val.int) ys :=
  C58_floor (E := ieeeEnv) (T := wholeT .i32 [3] [0, 99, 2147483647]) ieee_machine (wholeM_wf _ _ _ _ _) (wholeM_at1 (by simp) rfl ⟨by decide, by decide⟩)
    (wholeT_elems (by decide) rfl) rfl (by simp [wholeVal]) _

/-- Roots of 0, 9 and 16769025 as `float`. -/
example : ∃ ys, Delivers ieeeEnv (sqrt exH1.h .indet) (wholeM .f32 [3] [0, 9, 16769025] [1] [0]) .indet .f32 ⟨DEVICE_CPU, 0⟩ [3] ys ∧
    Numbers [3] ys (numsOf [3] [0, 3, 4095]) :=
  C58_square (T := wholeT .f32 [3] [0, 9, 16769025]) ieee_machine (wholeM_wf _ _ _ _ _) (wholeM_at1 (by simp) rfl ⟨by decide, by decide⟩)
    (wholeT_elems (by decide) rfl) (fun cs hc => by
      have : ∀ cs, InRange [3] cs → numsOf [3] [0, 9, 16769025] cs = numsOf [3] [0, 3, 4095] cs * numsOf [3] [0, 3, 4095] cs := by
        refine all_coords ?_; decide
      show Stands _ (numsOf [3] [0, 3, 4095] cs * numsOf [3] [0, 3, 4095] cs)
      rw [← this cs hc]
      exact wholeT_numbers (c := .f32) (ds := [3]) (ns := [0, 9, 16769025]) (by decide) rfl cs hc) (by refine all_coords ?_; simp only [wholeT, tvOf]; decide) _

/-- The tensor of `C58_int64_violated`. -/
example : Delivers ieeeEnv (sqrt exH1.h .indet) (wholeM .i64 [1] [4503599761588224] [1] [0]) .indet .i64 ⟨DEVICE_CPU, 0⟩ [1] [.int 67108865] :=
  (C58_int64_violated (T := wholeT .i64 [1] [4503599761588224]) ieee_machine (wholeM_wf _ _ _ _ _) (wholeM_at1 (by simp) rfl ⟨by decide, by decide⟩)
    (wholeT_elems (ns := [4503599761588224]) (by decide) rfl) _).1

end Aitisa
